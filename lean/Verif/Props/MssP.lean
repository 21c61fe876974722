import Verif.Proofs.Mss
import Verif.Spec.Tcp

/-!
# MSS clamping and the incremental checksum (C19, C20, C21, C22)
-/

namespace Lightway
open Spec

theorem byteAt_eq {pkt : Bytes} {i : Nat} (h : i < pkt.length) : byteAt pkt i = (pkt[i]).toNat := by
  simp [byteAt, List.getD, h]

theorem byteAt_lt (pkt : Bytes) (i : Nat) : byteAt pkt i < 256 := UInt8.toNat_lt _

theorem wordAt_lt (pkt : Bytes) (i : Nat) : wordAt pkt i < 65536 := by
  have := byteAt_lt pkt i; have := byteAt_lt pkt (i + 1); unfold wordAt; omega

theorem rdBe16_wordAt {pkt : Bytes} {i : Nat} (h : i + 1 < pkt.length) :
    rdBe16 [pkt[i], pkt[i + 1]] = wordAt pkt i := by
  simp [rdBe16, wordAt, byteAt_eq (show i < pkt.length by omega), byteAt_eq h]

/-- Overwrite bytes at an offset. -/
def put (bs : Bytes) (off : Nat) (src : Bytes) : Bytes := bs.take off ++ src ++ bs.drop (off + src.length)

theorem put_length {bs src : Bytes} {off : Nat} (h : off + src.length ≤ bs.length) :
    (put bs off src).length = bs.length := by simp [put]; omega

theorem put_getElem? {bs src : Bytes} {off j : Nat} (h : off + src.length ≤ bs.length) :
    (put bs off src)[j]? = if j < off then bs[j]? else if j < off + src.length then src[j - off]? else bs[j]? := by
  unfold put
  have hl : (bs.take off).length = off := by simp; omega
  split
  · rename_i hj
    rw [List.append_assoc, List.getElem?_append_left (by omega), List.getElem?_take_of_lt hj]
  · split
    · rename_i h1 h2
      rw [List.append_assoc, List.getElem?_append_right (by omega), hl, List.getElem?_append_left (by omega)]
    · rename_i h1 h2
      rw [List.getElem?_append_right (by simp; omega), List.getElem?_drop]
      congr 1; simp; omega

theorem byteAt_put {bs src : Bytes} {off j : Nat} (h : off + src.length ≤ bs.length)
    (hj : j < off ∨ off + src.length ≤ j) : byteAt (put bs off src) j = byteAt bs j := by
  unfold byteAt List.getD
  rw [put_getElem? h]
  rcases hj with hj | hj
  · rw [if_pos hj]
  · rw [if_neg (by omega), if_neg (by omega)]

theorem wordAt_put_be {bs : Bytes} {off n : Nat} (h : off + 2 ≤ bs.length) (hn : n < 65536) :
    wordAt (put bs off (be16 n)) off = n := by
  have e0 := put_getElem? (src := be16 n) (j := off) h
  have e1 := put_getElem? (src := be16 n) (j := off + 1) h
  rw [if_neg (by omega), if_pos (by simp)] at e0 e1
  unfold wordAt byteAt List.getD
  rw [e0, e1]
  simp [be16, show off + 1 - off = 1 by omega]
  omega

theorem wordAt_put_le {bs : Bytes} {off n : Nat} (h : off + 2 ≤ bs.length) (hn : n < 65536) :
    wordAt (put bs off (le16 n)) off = n % 256 * 256 + n / 256 := by
  have e0 := put_getElem? (src := le16 n) (j := off) h
  have e1 := put_getElem? (src := le16 n) (j := off + 1) h
  rw [if_neg (by omega), if_pos (by simp)] at e0 e1
  unfold wordAt byteAt List.getD
  rw [e0, e1]
  simp [le16, show off + 1 - off = 1 by omega]
  omega

/-- A 16-bit number with its bytes swapped. -/
def swap16 (n : Nat) : Nat := n % 256 * 256 + n / 256

/-- The packet after its MSS value at `i` was lowered to `mss`. -/
def clampedAt (pkt : Bytes) (mss tcp i : Nat) : Bytes :=
  if wordAt pkt i ≤ mss then pkt
  else put (put pkt i (be16 mss)) (tcp + 16)
    (le16 (ckFold ((swap16 (wordAt pkt (tcp + 16)) : Int) - swap16 mss + swap16 (wordAt pkt i))))

theorem Spec.FirstMss.unique {pkt : Bytes} {stop pos i j : Nat} (h1 : FirstMss pkt stop pos i)
    (h2 : FirstMss pkt stop pos j) : i = j := by
  induction h1 with
  | here a b c => cases h2 <;> first | rfl | omega
  | nop a b c ih => cases h2 <;> first | omega | (apply ih; assumption)
  | other a b c d ih => cases h2 <;> first | omega | (apply ih; assumption)

theorem Spec.FirstMss.bounds {pkt : Bytes} {stop pos i : Nat} (h : FirstMss pkt stop pos i) :
    pos + 2 ≤ i ∧ i + 2 ≤ stop := by
  induction h <;> omega

/-- The option loop finds the first MSS option, or there is none and it leaves the packet alone. -/
theorem clampLoop_spec (pkt : Bytes) (mss tcp : Nat) (hm : mss < 65536) (optLen : Nat) :
    ∀ pos, tcp + 20 ≤ pos → pos + optLen ≤ pkt.length →
    ((∀ i, ¬FirstMss pkt (pos + optLen) pos i) ∧ clampLoop pkt mss tcp pos optLen = some (pkt, .success)) ∨
    ∃ i, FirstMss pkt (pos + optLen) pos i ∧
      clampLoop pkt mss tcp pos optLen = some (clampedAt pkt mss tcp i, .success) := by
  induction optLen using Nat.strongRecOn with
  | _ optLen ih =>
  intro pos h0 h1
  unfold clampLoop
  by_cases h4 : optLen < 4
  · left
    rw [if_pos h4]
    exact ⟨fun i hi => by cases hi <;> omega, rfl⟩
  rw [if_neg h4, rd_one (by omega)]
  simp only
  have hk : byteAt pkt pos = (pkt[pos]'(by omega)).toNat := byteAt_eq (by omega)
  have hs : byteAt pkt (pos + 1) = (pkt[pos + 1]'(by omega)).toNat := byteAt_eq (by omega)
  generalize hkind : pkt[pos]'(by omega) = kind at hk ⊢
  split
  · rename_i hz
    subst hz
    left
    exact ⟨fun i hi => by cases hi <;> simp_all, rfl⟩
  rename_i hz
  split
  · rename_i hone
    subst hone
    have hk1 : byteAt pkt pos = 1 := hk
    have := ih (optLen - 1) (by omega) (pos + 1) (by omega) (by omega)
    rw [show pos + 1 + (optLen - 1) = pos + optLen by omega] at this
    rcases this with ⟨hn, he⟩ | ⟨i, hi, he⟩
    · left
      refine ⟨fun i hi => ?_, he⟩
      cases hi with
      | here a b c => omega
      | nop a b c => exact hn i c
      | other a b c d => omega
    · right
      exact ⟨i, .nop (by omega) hk1 hi, he⟩
  rename_i hone
  rw [rd_one (by omega)]
  simp only
  generalize hsz : pkt[pos + 1]'(by omega) = size at hs ⊢
  split
  · rename_i htwo
    subst htwo
    have hk2 : byteAt pkt pos = 2 := hk
    split
    · rename_i hne
      left
      refine ⟨fun i hi => ?_, rfl⟩
      cases hi with
      | here a b c =>
        apply hne
        apply UInt8.toNat_inj.mp
        rw [← hs, c]; rfl
      | nop a b c => omega
      | other a b c d => omega
    · rename_i he4
      have he4 : size = 4 := by simpa using he4
      subst he4
      right
      refine ⟨pos + 2, .here (by omega) hk2 hs, ?_⟩
      rw [rd_two (by omega)]
      simp only
      rw [rdBe16_wordAt (by omega)]
      unfold clampedAt
      split
      · rfl
      · rw [wr_isSome (by simp; omega)]
        simp only
        have hl : (put pkt (pos + 2) (be16 mss)).length = pkt.length := put_length (by simp; omega)
        have e1 : byteAt (put pkt (pos + 2) (be16 mss)) (tcp + 16) = byteAt pkt (tcp + 16) :=
          byteAt_put (by simp; omega) (.inl (by omega))
        have e2 : byteAt (put pkt (pos + 2) (be16 mss)) (tcp + 16 + 1) = byteAt pkt (tcp + 16 + 1) :=
          byteAt_put (by simp; omega) (.inl (by omega))
        show (match rd (put pkt (pos + 2) (be16 mss)) (tcp + 16) 2 with
          | none => none
          | some ck => _) = _
        generalize hp1 : put pkt (pos + 2) (be16 mss) = p1 at hl e1 e2 ⊢
        rw [rd_two (by omega)]
        simp only
        rw [diffChecksum_one _ _ _ (rdLe16_lt _) (rdLe16_lt _) (rdLe16_lt _)]
        simp only
        rw [wr_isSome (by simp; omega)]
        have c1 : rdLe16 [p1[tcp + 16]'(by omega), p1[tcp + 16 + 1]'(by omega)] = swap16 (wordAt pkt (tcp + 16)) := by
          rw [byteAt_eq (by omega)] at e1 e2
          have := byteAt_lt pkt (tcp + 16)
          have := byteAt_lt pkt (tcp + 16 + 1)
          simp only [rdLe16, swap16, wordAt, e1, e2]
          omega
        have c2 : rdLe16 (be16 mss) = swap16 mss := by
          simp [rdLe16, be16, swap16]; omega
        have c3 : rdLe16 [pkt[pos + 2]'(by omega), pkt[pos + 2 + 1]'(by omega)] = swap16 (wordAt pkt (pos + 2)) := by
          have := byteAt_lt pkt (pos + 2)
          have := byteAt_lt pkt (pos + 2 + 1)
          simp only [rdLe16, swap16, wordAt, ← byteAt_eq]
          omega
        rw [c1, c2, c3, ← hp1]
        rfl
  · rename_i htwo
    have hk3 : 2 < byteAt pkt pos := by
      have a0 : byteAt pkt pos ≠ 0 := by rw [hk]; intro h; exact hz (UInt8.toNat_inj.mp h)
      have a1 : byteAt pkt pos ≠ 1 := by rw [hk]; intro h; exact hone (UInt8.toNat_inj.mp h)
      have a2 : byteAt pkt pos ≠ 2 := by rw [hk]; intro h; exact htwo (UInt8.toNat_inj.mp h)
      omega
    split
    · rename_i hsz2
      have := ih (optLen - size.toNat) (by omega) (pos + size.toNat) (by omega) (by omega)
      rw [show pos + size.toNat + (optLen - size.toNat) = pos + optLen by omega] at this
      rcases this with ⟨hn, he⟩ | ⟨i, hi, he⟩
      · left
        refine ⟨fun i hi => ?_, he⟩
        cases hi with
        | here a b c => omega
        | nop a b c => omega
        | other a b c d => exact hn i (hs ▸ d)
      · right
        exact ⟨i, .other (by omega) hk3 (by omega) (by rw [hs]; exact hi), he⟩
    · rename_i hsz2
      left
      refine ⟨fun i hi => ?_, rfl⟩
      cases hi with
      | here a b c => omega
      | nop a b c => omega
      | other a b c d => have := d.bounds; omega

theorem ipv4Valid_iff (pkt : Bytes) : ipv4Valid pkt = true ↔ 20 ≤ pkt.length ∧ byteAt pkt 0 / 16 = 4 := by
  cases pkt with
  | nil => simp [ipv4Valid]
  | cons b t => simp [ipv4Valid, byteAt, List.getD]

/-- The whole clamp: it lowers the value of the first MSS option, if there is one. -/
theorem clampMss_spec (pkt : Bytes) (mss : Nat) (hm : 512 ≤ mss) (hm2 : mss ≤ 1500) (hv : ipv4Valid pkt = true) :
    ((∀ i, ¬MssAt pkt i) ∧ clampMss pkt mss = some (pkt, .success)) ∨
    ∃ i, MssAt pkt i ∧ clampMss pkt mss = some (clampedAt pkt mss (ipHeaderLen pkt) i, .success) := by
  obtain ⟨hlen, hv4⟩ := (ipv4Valid_iff pkt).mp hv
  unfold clampMss
  rw [if_neg (by omega), if_neg (by simp [maxWireMtu]; omega), if_neg (by simp [hv]),
    rd_one (by omega), rd_two (by omega), rd_one (by omega)]
  simp only
  rw [rdBe16_wordAt (by omega)]
  have b9 : byteAt pkt 9 = pkt[9].toNat := byteAt_eq (by omega)
  have b0 : 4 * (pkt[0].toNat % 16) = ipHeaderLen pkt := by unfold ipHeaderLen; rw [byteAt_eq (by omega)]
  rw [b0]
  split
  · rename_i h
    left
    refine ⟨fun i hi => h ?_, rfl⟩
    apply UInt8.toNat_inj.mp; rw [← b9, hi.1.2.2.1]; rfl
  rename_i hp
  have hp : byteAt pkt 9 = 6 := by
    have hp : pkt[9] = 6 := by simpa using hp
    rw [b9, hp]; rfl
  split
  · rename_i h
    left
    refine ⟨fun i hi => ?_, rfl⟩
    have := hi.1.2.2.2
    omega
  split
  · rename_i h
    left
    refine ⟨fun i hi => ?_, rfl⟩
    have := hi.1.2.2.2.2.2
    omega
  rw [rd_one (by omega), rd_one (by omega)]
  simp only
  rw [← byteAt_eq, ← byteAt_eq]
  split
  · rename_i h
    left
    refine ⟨fun i hi => ?_, rfl⟩
    have := hi.1.2.2.2.2.2.2
    omega
  rename_i hsyn
  have htl : 4 * (byteAt pkt (ipHeaderLen pkt + 12) / 16) = tcpHeaderLen pkt := rfl
  rw [htl]
  split
  · rename_i h
    left
    refine ⟨fun i hi => ?_, rfl⟩
    have := hi.1.2.2.2.2.2.2
    omega
  rename_i hfit hend
  have hisyn : IsTcpSyn pkt := ⟨hlen, hv4, hp, by omega, by omega, by omega, by omega, by omega⟩
  by_cases h20 : 20 ≤ tcpHeaderLen pkt
  · have := clampLoop_spec pkt mss (ipHeaderLen pkt) (by omega) (tcpHeaderLen pkt - 20) (ipHeaderLen pkt + 20)
      (by omega) (by omega)
    rw [show ipHeaderLen pkt + 20 + (tcpHeaderLen pkt - 20) = ipHeaderLen pkt + tcpHeaderLen pkt by omega] at this
    rcases this with ⟨h1, h2⟩ | ⟨i, h1, h2⟩
    · exact .inl ⟨fun i hi => h1 i hi.2, h2⟩
    · exact .inr ⟨i, ⟨hisyn, h1⟩, h2⟩
  · left
    refine ⟨fun i hi => ?_, ?_⟩
    · have := hi.2.bounds; omega
    · rw [show tcpHeaderLen pkt - 20 = 0 by omega]
      unfold clampLoop
      rw [if_pos (by omega)]


/-! ## C21 -/

/-- **C21.** For every packet and clamp value the clamp ends with a return code and without leaving the
packet (`none` is the outcome of a read or write outside it or of signed overflow); that it ends is part of
its being a Lean function. -/
theorem C21_in_bounds (pkt : Bytes) (mss : Nat) : ∃ out rc, clampMss pkt mss = some (out, rc) ∧
    (rc = .success ∨ out = pkt ∧ (rc = .zeroSize ∧ pkt = [] ∨ rc = .failed ∧ (mss < 512 ∨ 1500 < mss) ∨
      rc = .badPacket ∧ ¬(20 ≤ pkt.length ∧ byteAt pkt 0 / 16 = 4))) := by
  by_cases h0 : pkt.length = 0
  · refine ⟨pkt, .zeroSize, ?_, .inr ⟨rfl, .inl ⟨rfl, List.length_eq_zero_iff.mp h0⟩⟩⟩
    unfold clampMss; rw [if_pos h0]
  by_cases h1 : mss < 512 ∨ mss > 1500
  · refine ⟨pkt, .failed, ?_, .inr ⟨rfl, .inr (.inl ⟨rfl, h1⟩)⟩⟩
    unfold clampMss; rw [if_neg h0, if_pos (by simpa [maxWireMtu] using h1)]
  by_cases h2 : ipv4Valid pkt = true
  · rcases clampMss_spec pkt mss (by omega) (by omega) h2 with ⟨_, h⟩ | ⟨i, _, h⟩
    · exact ⟨_, _, h, .inl rfl⟩
    · exact ⟨_, _, h, .inl rfl⟩
  · refine ⟨pkt, .badPacket, ?_, .inr ⟨rfl, .inr (.inr ⟨rfl, ?_⟩)⟩⟩
    · unfold clampMss; rw [if_neg h0, if_neg (by simpa [maxWireMtu] using h1), if_pos (by simp [h2])]
    · rw [← ipv4Valid_iff]; exact h2

/-! ## C19 -/

theorem Spec.MssAt.bounds {pkt : Bytes} {i : Nat} (h : MssAt pkt i) :
    ipHeaderLen pkt + 22 ≤ i ∧ i + 2 ≤ ipHeaderLen pkt + tcpHeaderLen pkt ∧
      ipHeaderLen pkt + tcpHeaderLen pkt ≤ pkt.length := by
  have := h.2.bounds; have := h.1.2.2.2.2.2.2.2; omega

/-- Facts about the clamped packet. -/
theorem clampedAt_facts {pkt : Bytes} {mss i : Nat} (hm : mss ≤ 1500) (h : MssAt pkt i) :
    (clampedAt pkt mss (ipHeaderLen pkt) i).length = pkt.length ∧
    wordAt (clampedAt pkt mss (ipHeaderLen pkt) i) i = min (wordAt pkt i) mss ∧
    (wordAt pkt i ≤ mss → clampedAt pkt mss (ipHeaderLen pkt) i = pkt) ∧
    (∀ j, j ≠ i → j ≠ i + 1 → j ≠ ipHeaderLen pkt + 16 → j ≠ ipHeaderLen pkt + 17 →
      byteAt (clampedAt pkt mss (ipHeaderLen pkt) i) j = byteAt pkt j) := by
  have hb := MssAt.bounds h
  unfold clampedAt
  split
  · rename_i hle
    exact ⟨rfl, by omega, fun _ => rfl, fun _ _ _ _ _ => rfl⟩
  rename_i hgt
  have l1 : (put pkt i (be16 mss)).length = pkt.length := put_length (by simp; omega)
  refine ⟨?_, ?_, fun hle => absurd hle hgt, ?_⟩
  · rw [put_length (by rw [l1]; simp only [le16_length]; omega), l1]
  · have a := wordAt_put_be (bs := pkt) (off := i) (n := mss) (by omega) (by omega)
    have e : ∀ n, n < 65536 → wordAt (put (put pkt i (be16 mss)) (ipHeaderLen pkt + 16) (le16 n)) i =
        wordAt (put pkt i (be16 mss)) i := by
      intro n _
      generalize put pkt i (be16 mss) = p1 at l1 ⊢
      unfold wordAt
      rw [byteAt_put (by rw [l1]; simp only [le16_length]; omega) (.inr (by simp only [le16_length]; omega)),
        byteAt_put (by rw [l1]; simp only [le16_length]; omega) (.inr (by simp only [le16_length]; omega))]
    rw [e _ (ckFold_lt _), a]
    omega
  · intro j h1 h2 h3 h4
    rw [byteAt_put (by rw [l1]; simp only [le16_length]; omega) (by simp only [le16_length]; omega),
      byteAt_put (by simp only [be16_length]; omega) (by simp only [be16_length]; omega)]

theorem byteAt_ext {a b : Bytes} (hl : a.length = b.length) (h : ∀ j, byteAt a j = byteAt b j) : a = b := by
  apply List.ext_getElem hl
  intro j h1 h2
  have := h j
  rw [byteAt_eq h1, byteAt_eq h2] at this
  exact UInt8.toNat_inj.mp this

/-- The positions the option reader looks at before the MSS value decide where that value is. -/
theorem Spec.FirstMss.congr {pkt pkt' : Bytes} {stop pos i : Nat} (h : FirstMss pkt stop pos i)
    (he : ∀ j, pos ≤ j → j ≠ i → j ≠ i + 1 → byteAt pkt' j = byteAt pkt j) : FirstMss pkt' stop pos i := by
  induction h with
  | here a b c =>
    exact .here a (by rw [he _ (by omega) (by omega) (by omega)]; exact b) (by rw [he _ (by omega) (by omega) (by omega)]; exact c)
  | nop a b c ih =>
    have := c.bounds
    exact .nop a (by rw [he _ (by omega) (by omega) (by omega)]; exact b) (ih (fun j h1 h2 h3 => he j (by omega) h2 h3))
  | other a b c d ih =>
    have := d.bounds
    have e1 := he _ (Nat.le_refl _) (by omega) (by omega)
    have e2 := he _ (Nat.le_succ _) (by omega) (by omega)
    exact .other a (by rw [e1]; exact b) (by rw [e2]; exact c) (by rw [e2]; exact ih (fun j h1 h2 h3 => he j (by omega) h2 h3))

/-- The clamped packet is still a SYN with its MSS option at the same place. -/
theorem Spec.MssAt.clamped {pkt : Bytes} {mss i : Nat} (hm : mss ≤ 1500) (h : MssAt pkt i) :
    MssAt (clampedAt pkt mss (ipHeaderLen pkt) i) i ∧
      ipHeaderLen (clampedAt pkt mss (ipHeaderLen pkt) i) = ipHeaderLen pkt := by
  obtain ⟨f1, f2, f3, f4⟩ := clampedAt_facts hm h
  have hb := MssAt.bounds h
  generalize clampedAt pkt mss (ipHeaderLen pkt) i = out at *
  have e : ∀ j, j < ipHeaderLen pkt + 16 → byteAt out j = byteAt pkt j :=
    fun j hj => f4 j (by omega) (by omega) (by omega) (by omega)
  have ei : ipHeaderLen out = ipHeaderLen pkt := by unfold ipHeaderLen; rw [e 0 (by omega)]
  have et : tcpHeaderLen out = tcpHeaderLen pkt := by
    unfold tcpHeaderLen; rw [ei, e _ (by omega)]
  obtain ⟨⟨a1, a2, a3, a4, a5, a6, a7, a8⟩, hf⟩ := h
  have e6 : wordAt out 6 = wordAt pkt 6 := by unfold wordAt; rw [e 6 (by omega), e 7 (by omega)]
  refine ⟨⟨⟨by omega, by rw [e 0 (by omega)]; exact a2, by rw [e 9 (by omega)]; exact a3, by rw [e6]; exact a4,
    by rw [e6]; exact a5, by omega, by rw [ei, e _ (by omega)]; exact a7, by omega⟩, ?_⟩, ei⟩
  rw [ei, et]
  exact hf.congr (fun j h1 h2 h3 => f4 j h2 h3 (by omega) (by omega))

/-- **C19.** The clamp keeps the length and changes no byte other than the two bytes of the first MSS value
of a TCP SYN and the two bytes of the TCP checksum; that value becomes the smaller of itself and the clamp;
if it was not above the clamp, or there is no such option, nothing changes; and clamping again changes
nothing. -/
theorem C19_only_mss_and_checksum (pkt out : Bytes) (mss : Nat) (rc : RC)
    (h : clampMss pkt mss = some (out, rc)) :
    out.length = pkt.length ∧
    (∀ j, byteAt out j ≠ byteAt pkt j → ∃ i, MssAt pkt i ∧ mss < wordAt pkt i ∧
      (j = i ∨ j = i + 1 ∨ j = ipHeaderLen pkt + 16 ∨ j = ipHeaderLen pkt + 17)) ∧
    ((∀ i, ¬MssAt pkt i) → out = pkt) ∧
    (∀ i, MssAt pkt i → 512 ≤ mss → mss ≤ 1500 → rc = .success ∧ wordAt out i = min (wordAt pkt i) mss ∧
      (wordAt pkt i ≤ mss → out = pkt)) ∧
    clampMss out mss = some (out, rc) := by
  obtain ⟨out', rc', h', hcase⟩ := C21_in_bounds pkt mss
  rw [h] at h'
  cases h'
  by_cases hall : 512 ≤ mss ∧ mss ≤ 1500 ∧ ipv4Valid pkt = true
  · obtain ⟨m1, m2, hv⟩ := hall
    rcases clampMss_spec pkt mss m1 m2 hv with ⟨hn, he⟩ | ⟨i, hi, he⟩
    · rw [h] at he; cases he
      exact ⟨rfl, fun j hj => absurd rfl hj, fun _ => rfl, fun i hi => absurd hi (hn i), h⟩
    · rw [h] at he; cases he
      obtain ⟨f1, f2, f3, f4⟩ := clampedAt_facts m2 hi
      refine ⟨f1, ?_, fun hn => absurd hi (hn i), ?_, ?_⟩
      · intro j hj
        refine ⟨i, hi, ?_, ?_⟩
        · apply Decidable.byContradiction
          intro hle
          rw [f3 (by omega)] at hj
          exact hj rfl
        · apply Decidable.byContradiction
          intro hne
          simp only [not_or] at hne
          exact hj (f4 j hne.1 hne.2.1 hne.2.2.1 hne.2.2.2)
      · intro i' hi' _ _
        have := hi.2.unique hi'.2
        subst this
        exact ⟨rfl, f2, f3⟩
      · obtain ⟨hc, hlen⟩ := MssAt.clamped m2 hi
        have hv' : ipv4Valid (clampedAt pkt mss (ipHeaderLen pkt) i) = true :=
          (ipv4Valid_iff _).mpr ⟨hc.1.1, hc.1.2.1⟩
        rcases clampMss_spec _ mss m1 m2 hv' with ⟨hn, he⟩ | ⟨i', hi', he⟩
        · exact absurd hc (hn i)
        · have := hc.2.unique hi'.2
          subst this
          rw [he, (clampedAt_facts m2 hc).2.2.1 (by rw [f2]; omega)]
  · have hs : out = pkt ∧ rc ≠ .success := by
      unfold clampMss at h
      split at h
      · cases h; exact ⟨rfl, by simp⟩
      split at h
      · cases h; exact ⟨rfl, by simp⟩
      split at h
      · cases h; exact ⟨rfl, by simp⟩
      · exfalso; apply hall
        rename_i h1 h2 h3
        simp only [maxWireMtu] at h2
        exact ⟨by omega, by omega, by simpa using h3⟩
    obtain ⟨rfl, hrc⟩ := hs
    refine ⟨rfl, fun j hj => absurd rfl hj, fun _ => rfl, fun i hi m1 m2 => absurd ⟨m1, m2, ?_⟩ hall, h⟩
    exact (ipv4Valid_iff _).mpr ⟨hi.1.1, hi.1.2.1⟩

/-- A TCP SYN with MSS 1460 behind a plain IPv4 header, checksum correct. -/
def demoSyn : Bytes :=
  [69, 0, 0, 44, 0, 1, 0, 0, 64, 6, 0, 0, 10, 0, 0, 1, 10, 0, 0, 2,
   4, 0, 0, 80, 0, 0, 0, 1, 0, 0, 0, 0, 96, 2, 16, 0, 111, 211, 0, 0, 2, 4, 5, 180]

theorem demoSyn_mss : MssAt demoSyn 42 := by
  refine ⟨⟨?_, ?_, ?_, ?_, ?_, ?_, ?_, ?_⟩, ?_⟩
  · decide
  · decide
  · decide
  · decide
  · decide
  · decide
  · decide
  · decide
  · exact .here (by decide) (by decide) (by decide)

example : ∃ out, clampMss demoSyn 1310 = some (out, .success) ∧ wordAt out 42 = 1310 ∧ out ≠ demoSyn := by
  refine ⟨(clampMss demoSyn 1310).get (clampMss_isSome _ _) |>.1, ?_⟩
  decide +kernel

/-! ## C22 -/

theorem ckAccumulate_sum (acc : Int) (new old : List Nat) (hl : new.length = old.length) (r : Int)
    (h : ckAccumulate acc new old = some r) : r = acc - (new.sum : Nat) + (old.sum : Nat) := by
  induction new generalizing old acc with
  | nil =>
    cases old with
    | nil => simp [ckAccumulate] at h; simp [h]
    | cons => simp at hl
  | cons n ns ih =>
    cases old with
    | nil => simp at hl
    | cons o os =>
      simp only [ckAccumulate] at h
      split at h
      · cases h
      · have := ih _ os (by simpa using hl) h
        simp only [List.sum_cons]; omega

theorem ckAccumulate_isSome (new old : List Nat) (acc : Int) (k : Nat)
    (hn : ∀ x ∈ new, x < 65536) (ho : ∀ x ∈ old, x < 65536)
    (hb : acc.natAbs ≤ k) (hk : k + new.length * 65535 < 2147483648) :
    ∃ r, ckAccumulate acc new old = some r ∧ r ≠ -2147483648 := by
  induction new generalizing old acc k with
  | nil => exact ⟨acc, by simp [ckAccumulate], by simp at hk; omega⟩
  | cons n ns ih =>
    cases old with
    | nil => exact ⟨acc, by simp [ckAccumulate], by omega⟩
    | cons o os =>
      have := hn n (by simp)
      have := ho o (by simp)
      simp only [ckAccumulate, List.length_cons] at hk ⊢
      rw [if_neg (by omega)]
      exact ih os (acc - n + o) (k + 65535) (fun x hx => hn x (by simp [hx])) (fun x hx => ho x (by simp [hx]))
        (by omega) (by omega)

theorem fold_nat (a : Nat) (h : a < 2147483648) :
    ∃ k, (a / 65536 + a % 65536 + (a / 65536 + a % 65536) / 65536) % 65536 + 65535 * k = a := by
  have hq : (a / 65536 + a % 65536) / 65536 = 0 ∨ (a / 65536 + a % 65536) / 65536 = 1 := by omega
  rcases hq with hq | hq <;> rw [hq]
  · exact ⟨a / 65536, by omega⟩
  · exact ⟨a / 65536 + 1, by omega⟩

/-- Folding is exact modulo 65535 over the whole range of the accumulator. -/
theorem ckFold_exact (acc : Int) (h : acc.natAbs < 2147483648) : ((ckFold acc : Int) - acc) % 65535 = 0 := by
  obtain ⟨k, hk⟩ := fold_nat acc.natAbs h
  unfold ckFold
  simp only
  have hx := Nat.mod_lt (acc.natAbs / 65536 + acc.natAbs % 65536 + (acc.natAbs / 65536 + acc.natAbs % 65536) / 65536)
    (show 0 < 65536 by decide)
  generalize (acc.natAbs / 65536 + acc.natAbs % 65536 + (acc.natAbs / 65536 + acc.natAbs % 65536) / 65536) % 65536 = x at hk hx ⊢
  split
  · have e : acc = -((x : Int) + 65535 * (k : Int)) := by omega
    rw [e]
    by_cases hx : x ≤ 65535
    · rw [show ((65535 - x : Nat) : Int) - -((x : Int) + 65535 * (k : Int)) = 65535 * (1 + (k : Int)) by omega]
      exact Int.mul_emod_right ..
    · exfalso
      omega
  · have e : acc = (x : Int) + 65535 * (k : Int) := by omega
    rw [e, show (x : Int) - ((x : Int) + 65535 * (k : Int)) = 65535 * (-(k : Int)) by omega]
    exact Int.mul_emod_right ..

theorem ckAccumulate_range (new old : List Nat) (acc r : Int) (h : ckAccumulate acc new old = some r)
    (h1 : -2147483648 ≤ acc) (h2 : acc ≤ 2147483647) : -2147483648 ≤ r ∧ r ≤ 2147483647 := by
  induction new generalizing old acc with
  | nil => simp [ckAccumulate] at h; omega
  | cons n ns ih =>
    cases old with
    | nil => simp [ckAccumulate] at h; omega
    | cons o os =>
      simp only [ckAccumulate] at h
      split at h
      · cases h
      · exact ih os _ h (by omega) (by omega)

/-- **C22.** Whenever the incremental update does not overflow its 32-bit accumulator its result is a 16-bit
number congruent to old checksum - sum of the new words + sum of the old words modulo 65535; and with 16-bit
words and fewer than 32768 of them it does not overflow. -/
theorem C22_checksum_exact (ck : Nat) (new old : List Nat) (hl : new.length = old.length) (hck : ck < 65536) :
    (∀ r, diffChecksum ck new old = some r →
      r < 65536 ∧ ((r : Int) - (ck - (new.sum : Nat) + (old.sum : Nat))) % 65535 = 0) ∧
    ((∀ x ∈ new, x < 65536) → (∀ x ∈ old, x < 65536) → new.length < 32768 →
      ∃ r, diffChecksum ck new old = some r) := by
  constructor
  · intro r h
    unfold diffChecksum at h
    split at h
    · cases h
    · rename_i acc hacc
      split at h
      · cases h
      · rename_i hne
        cases h
        have hr := ckAccumulate_range _ _ _ _ hacc (by omega) (by omega)
        rw [← ckAccumulate_sum _ _ _ hl _ hacc]
        exact ⟨ckFold_lt _, ckFold_exact _ (by omega)⟩
  · intro h1 h2 h3
    obtain ⟨r, hr, hne⟩ := ckAccumulate_isSome new old ck ck h1 h2 (by omega) (by omega)
    exact ⟨ckFold r, by unfold diffChecksum; rw [hr]; simp only; rw [if_neg hne]⟩

example : diffChecksum 0x1234 [0xffff, 7] [3, 0xfffe] = some 0x122f := by decide

/-! ## C20 -/

theorem wordSum_append_even (a b : Bytes) (h : a.length % 2 = 0) : wordSum (a ++ b) = wordSum a + wordSum b := by
  induction a using wordSum.induct with
  | case1 => simp [wordSum]
  | case2 x => simp at h
  | case3 x y r ih =>
    simp only [List.cons_append, wordSum]
    rw [ih (by simp at h; omega)]; omega

/-- Overwriting an aligned word changes the sum by the difference of the words. -/
theorem wordSum_word (a r : Bytes) (x y : UInt8) (h : a.length % 2 = 0) :
    wordSum (a ++ x :: y :: r) = wordSum a + (x.toNat * 256 + y.toNat) + wordSum r := by
  rw [wordSum_append_even a _ h, wordSum]; omega

theorem wordSum_put (s : Bytes) (k : Nat) (x y : UInt8) (hk : k % 2 = 0) (hl : k + 2 ≤ s.length) :
    wordSum (put s k [x, y]) + wordAt s k = wordSum s + (x.toNat * 256 + y.toNat) := by
  have e : s = s.take k ++ s[k] :: s[k + 1] :: s.drop (k + 2) := by
    rw [← List.drop_eq_getElem_cons, ← List.drop_eq_getElem_cons, List.take_append_drop]
  have lk : (s.take k).length % 2 = 0 := by simp; omega
  have h1 : wordSum s = wordSum (s.take k) + (s[k].toNat * 256 + s[k + 1].toNat) + wordSum (s.drop (k + 2)) := by
    conv => lhs; rw [e]
    exact wordSum_word _ _ _ _ lk
  have h2 : wordSum (put s k [x, y]) = wordSum (s.take k) + (x.toNat * 256 + y.toNat) + wordSum (s.drop (k + 2)) := by
    unfold put
    rw [List.append_assoc]
    exact wordSum_word _ _ _ _ lk
  have h3 : wordAt s k = s[k].toNat * 256 + s[k + 1].toNat := by
    unfold wordAt; rw [byteAt_eq (by omega), byteAt_eq (by omega)]
  omega

/-- Overwriting bytes of the segment, seen from the segment. -/
theorem segment_put (pkt src : Bytes) (i T ip : Nat) (h1 : ip ≤ i) (h2 : i + src.length ≤ T)
    (h3 : i + src.length ≤ pkt.length) :
    ((put pkt i src).take T).drop ip = put ((pkt.take T).drop ip) (i - ip) src := by
  apply List.ext_getElem?
  intro j
  rw [List.getElem?_drop, List.getElem?_take, put_getElem? h3, put_getElem? (by simp; omega), List.getElem?_drop,
    List.getElem?_take]
  by_cases a : ip + j < i
  · rw [if_pos a, if_pos (show j < i - ip by omega)]
  · rw [if_neg a, if_neg (show ¬j < i - ip by omega)]
    by_cases b : ip + j < i + src.length
    · rw [if_pos b, if_pos (show j < i - ip + src.length by omega), if_pos (by omega)]
      congr 1; omega
    · rw [if_neg b, if_neg (show ¬j < i - ip + src.length by omega)]

theorem byteAt_segment (pkt : Bytes) (T ip j : Nat) (h : ip + j < T) :
    byteAt ((pkt.take T).drop ip) j = byteAt pkt (ip + j) := by
  unfold byteAt List.getD
  rw [List.getElem?_drop, List.getElem?_take, if_pos h]

theorem wordAt_segment (pkt : Bytes) (T ip j : Nat) (h : ip + j + 1 < T) :
    wordAt ((pkt.take T).drop ip) j = wordAt pkt (ip + j) := by
  unfold wordAt
  rw [byteAt_segment _ _ _ _ (by omega), byteAt_segment _ _ _ _ (by omega)]
  rfl

/-- Byte swapping is multiplication by 256 modulo 65535. -/
theorem swap16_mod (n : Nat) : ∃ k : Int, (swap16 n : Int) = 256 * n - 65535 * k := by
  exact ⟨(n / 256 : Nat), by unfold swap16; omega⟩

theorem swap16_swap16 {n : Nat} (h : n < 65536) : swap16 (swap16 n) = n := by unfold swap16; omega

/-- The arithmetic of the update. -/
theorem update_arith (ck mss old ck' : Nat) (h1 : ck < 65536) (h2 : mss < 65536) (h3 : old < 65536)
    (h : ((ck' : Int) - ((swap16 ck : Int) - swap16 mss + swap16 old)) % 65535 = 0) :
    ((swap16 ck' : Int) + mss - ck - old) % 65535 = 0 := by
  obtain ⟨k0, e0⟩ := swap16_mod ck'
  obtain ⟨k1, e1⟩ := swap16_mod (swap16 ck)
  obtain ⟨k2, e2⟩ := swap16_mod (swap16 mss)
  obtain ⟨k3, e3⟩ := swap16_mod (swap16 old)
  rw [swap16_swap16 h1] at e1
  rw [swap16_swap16 h2] at e2
  rw [swap16_swap16 h3] at e3
  have hd := Int.dvd_of_emod_eq_zero h
  obtain ⟨m, hm⟩ := hd
  apply Int.emod_eq_zero_of_dvd
  refine ⟨256 * m - k0 + k1 - k2 + k3, ?_⟩
  omega

/-- **C20 (partial).** If the MSS value sits at an even offset in the TCP header (and the IP and TCP header
lengths are those of a real packet), the checksum is valid after clamping exactly if it was valid before.
The full property drops the parity hypothesis and is false: `C20_odd_offset_breaks`. -/
theorem C20_checksum_kept_partial (pkt out : Bytes) (mss : Nat) (rc : RC)
    (h : clampMss pkt mss = some (out, rc)) (hip : 20 ≤ ipHeaderLen pkt)
    (hT : ipHeaderLen pkt + tcpHeaderLen pkt ≤ wordAt pkt 2)
    (heven : ∀ i, MssAt pkt i → i % 2 = 0) : ChecksumOk out ↔ ChecksumOk pkt := by
  obtain ⟨out', rc', h', hcase⟩ := C21_in_bounds pkt mss
  rw [h] at h'
  cases h'
  by_cases hall : ¬(512 ≤ mss ∧ mss ≤ 1500 ∧ ipv4Valid pkt = true)
  · rcases hcase with hrc | ⟨rfl, _⟩
    · exfalso
      subst hrc
      unfold clampMss at h
      split at h
      · cases h
      split at h
      · cases h
      split at h
      · cases h
      · apply hall
        rename_i h1 h2 h3
        simp only [maxWireMtu] at h2
        exact ⟨by omega, by omega, by simpa using h3⟩
    · rfl
  obtain ⟨m1, m2, hv⟩ := Decidable.not_not.mp hall
  rcases clampMss_spec pkt mss m1 m2 hv with ⟨hn, he⟩ | ⟨i, hi, he⟩
  · rw [h] at he; cases he; rfl
  rw [h] at he
  have he : out = clampedAt pkt mss (ipHeaderLen pkt) i := by cases he; rfl
  by_cases hle : wordAt pkt i ≤ mss
  · rw [he, (clampedAt_facts m2 hi).2.2.1 hle]
  have hb := MssAt.bounds hi
  obtain ⟨f1, f2, f3, f4⟩ := clampedAt_facts m2 hi
  rw [← he] at f1 f2 f3 f4
  have hev := heven i hi
  unfold clampedAt at he
  rw [if_neg hle] at he
  generalize hck : ckFold ((swap16 (wordAt pkt (ipHeaderLen pkt + 16)) : Int) - swap16 mss + swap16 (wordAt pkt i)) = ck' at he
  have hck' : ck' < 65536 := hck ▸ ckFold_lt _
  have hlen : ipHeaderLen out = ipHeaderLen pkt := by
    unfold ipHeaderLen at *; rw [f4 0 (by omega) (by omega) (by omega) (by omega)]
  have hw : ∀ j, j + 1 < 36 → j + 1 < ipHeaderLen pkt + 16 → wordAt out j = wordAt pkt j := by
    intro j h1 h2
    unfold wordAt
    rw [f4 j (by omega) (by omega) (by omega) (by omega), f4 (j + 1) (by omega) (by omega) (by omega) (by omega)]
  have hip4 : ipHeaderLen pkt % 4 = 0 := by unfold ipHeaderLen; omega
  -- the segment
  have hseg : tcpSegment out = put (put (tcpSegment pkt) (i - ipHeaderLen pkt) (be16 mss)) 16 (le16 ck') := by
    unfold tcpSegment
    rw [hw 2 (by omega) (by omega), hlen, he,
      segment_put _ _ _ _ _ (by omega) (by simp only [le16_length]; omega)
        (by rw [put_length (by simp only [be16_length]; omega)]; simp only [le16_length]; omega),
      segment_put _ _ _ _ _ (by omega) (by simp only [be16_length]; omega) (by simp only [be16_length]; omega)]
    congr 1; omega
  have hsl : (tcpSegment pkt).length = min (wordAt pkt 2) pkt.length - ipHeaderLen pkt := by
    unfold tcpSegment; simp
  have hs1 := wordSum_put (tcpSegment pkt) (i - ipHeaderLen pkt) (UInt8.ofNat (mss / 256)) (UInt8.ofNat mss)
    (by omega) (by omega)
  have hpl : (put (tcpSegment pkt) (i - ipHeaderLen pkt) (be16 mss)).length = (tcpSegment pkt).length :=
    put_length (by simp only [be16_length]; omega)
  have hs2 := wordSum_put (put (tcpSegment pkt) (i - ipHeaderLen pkt) (be16 mss)) 16 (UInt8.ofNat ck') (UInt8.ofNat (ck' / 256))
    (by omega) (by omega)
  have hsum : (pseudoSum out : Int) = pseudoSum pkt := by
    unfold pseudoSum
    rw [hw 12 (by omega) (by omega), hw 14 (by omega) (by omega), hw 16 (by omega) (by omega), hw 18 (by omega) (by omega),
      f4 9 (by omega) (by omega) (by omega) (by omega), hseg, put_length (by rw [hpl]; simp only [le16_length]; omega), hpl]
  have hold : wordAt (tcpSegment pkt) (i - ipHeaderLen pkt) = wordAt pkt i := by
    unfold tcpSegment
    rw [wordAt_segment _ _ _ _ (by omega), show ipHeaderLen pkt + (i - ipHeaderLen pkt) = i by omega]
  have hckw : wordAt (put (tcpSegment pkt) (i - ipHeaderLen pkt) (be16 mss)) 16 = wordAt pkt (ipHeaderLen pkt + 16) := by
    unfold wordAt
    rw [byteAt_put (by simp only [be16_length]; omega) (.inl (by omega)),
      byteAt_put (by simp only [be16_length]; omega) (.inl (by omega))]
    have := wordAt_segment pkt (wordAt pkt 2) (ipHeaderLen pkt) 16 (by omega)
    exact this
  have hmss : (UInt8.ofNat (mss / 256)).toNat * 256 + (UInt8.ofNat mss).toNat = mss := by
    simp; omega
  have hcks : (UInt8.ofNat ck').toNat * 256 + (UInt8.ofNat (ck' / 256)).toNat = swap16 ck' := by
    simp [swap16]; omega
  rw [hold, hmss] at hs1
  rw [hckw, hcks] at hs2
  have b1 := wordAt_lt pkt (ipHeaderLen pkt + 16)
  have b2 := wordAt_lt pkt i
  have har := update_arith (wordAt pkt (ipHeaderLen pkt + 16)) mss (wordAt pkt i) ck' b1 (by omega) b2 (by
    rw [← hck]
    apply ckFold_exact
    have c1 : swap16 (wordAt pkt (ipHeaderLen pkt + 16)) < 65536 := by unfold swap16; omega
    have c2 : swap16 mss < 65536 := by unfold swap16; omega
    have c3 : swap16 (wordAt pkt i) < 65536 := by unfold swap16; omega
    omega)
  unfold ChecksumOk
  have hsegsum : wordSum (tcpSegment out) + wordAt pkt (ipHeaderLen pkt + 16) =
      wordSum (put (tcpSegment pkt) (i - ipHeaderLen pkt) (be16 mss)) + swap16 ck' := by rw [hseg]; exact hs2
  have hs1' : wordSum (put (tcpSegment pkt) (i - ipHeaderLen pkt) (be16 mss)) + wordAt pkt i =
      wordSum (tcpSegment pkt) + mss := hs1
  have hdiff : ((pseudoSum out + wordSum (tcpSegment out) : Nat) : Int) =
      (pseudoSum pkt + wordSum (tcpSegment pkt) : Nat) +
        ((swap16 ck' : Int) + mss - wordAt pkt (ipHeaderLen pkt + 16) - wordAt pkt i) := by omega
  omega

theorem demoSyn_even (i : Nat) (h : MssAt demoSyn i) : i % 2 = 0 := by
  have := h.2.unique demoSyn_mss.2
  subst this; rfl

example : ChecksumOk demoSyn ∧ 20 ≤ ipHeaderLen demoSyn ∧
    ipHeaderLen demoSyn + tcpHeaderLen demoSyn ≤ wordAt demoSyn 2 := by decide

/-- A TCP SYN whose MSS option follows one no-operation byte: MSS value at an odd offset. -/
def oddSyn : Bytes :=
  [69, 0, 0, 48, 0, 1, 0, 0, 64, 6, 0, 0, 10, 0, 0, 1, 10, 0, 0, 2,
   4, 0, 0, 80, 0, 0, 0, 1, 0, 0, 0, 0, 112, 2, 16, 0, 174, 127, 0, 0, 1, 2, 4, 5, 180, 0, 0, 0]

/-- C20 in full is false: a SYN whose options start with a no-operation has a valid checksum before and an
invalid one after clamping. -/
theorem C20_odd_offset_breaks : ∃ pkt mss out, clampMss pkt mss = some (out, .success) ∧
    20 ≤ ipHeaderLen pkt ∧ ipHeaderLen pkt + tcpHeaderLen pkt ≤ wordAt pkt 2 ∧ wordAt pkt 2 = pkt.length ∧
    ChecksumOk pkt ∧ ¬ChecksumOk out :=
  ⟨oddSyn, 1310, ((clampMss oddSyn 1310).get (clampMss_isSome _ _)).1, by decide +kernel⟩

end Lightway
