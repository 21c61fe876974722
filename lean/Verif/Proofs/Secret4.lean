import Verif.Proofs.Secret3
import Verif.Props.MssP

/-!
# Hiding the packets: an accepted packet shows its padded length only
-/

namespace Lightway
open Spec
variable {w : Watch} {env : Env} {pad : Padding} {n : Nat} {inn : Bool}

theorem hideData_len (m : Bytes) : (hideData m).length = m.length := by
  unfold hideData
  split <;> simp [zeros]

theorem hideOut_len (m : Bytes) : (hideOut w m).length = m.length := by
  unfold hideOut
  split
  · rw [hideData_len, hideMsg_len]
  · exact hideMsg_len m

/-- The clamp's result depends on the segment size only, and it keeps the length. -/
theorem clampMss_blind (pkt : Bytes) (mss : Nat) (h0 : pkt.length ≠ 0) (hv : ipv4Valid pkt = true) :
    ∃ out, clampMss pkt mss = some (out, if mss < 512 ∨ mss > maxWireMtu then .failed else .success) ∧ out.length = pkt.length := by
  by_cases h1 : mss < 512 ∨ mss > maxWireMtu
  · refine ⟨pkt, ?_, rfl⟩
    unfold clampMss
    rw [if_neg h0, if_pos h1, if_pos h1]
  · rw [if_neg h1]
    have h1 : ¬(mss < 512 ∨ mss > 1500) := h1
    rcases clampMss_spec pkt mss (by omega) (by omega) hv with ⟨_, h⟩ | ⟨i, hi, h⟩
    · exact ⟨_, h, rfl⟩
    · exact ⟨_, h, (clampedAt_facts (by omega) hi).1⟩

/-- The hidden lengths are padded alike, are not fragmented, and are not too large. -/
def Unseen (pad : Padding) (n : Nat) (c : Conn) : Prop :=
  pad ≠ .none → c.padding = pad ∧ n < 1350 ∧ n ≤ sizeSub c.outsideMtu packetOverhead ∧ (c.connType = .datagram → n ≤ effectivePmtu c)

theorem shown_range (pad : Padding) (n len : Nat) : (20 ≤ len ∧ len ≤ n → 20 ≤ shownLength pad n len ∧ shownLength pad n len ≤ len) ∧
    (¬(20 ≤ len ∧ len ≤ n) → shownLength pad n len = len) := by
  unfold shownLength leastPadded
  constructor
  · intro h
    rw [if_pos h]
    cases pad <;> dsimp only <;> (try split) <;> (try split) <;> omega
  · intro h; rw [if_neg h]

theorem shown_none (n len : Nat) : shownLength .none n len = len := by
  unfold shownLength leastPadded; split <;> rfl

theorem shown_padded {n : Nat} (hn : n < 1350) (len : Nat) :
    dataPacketLength pad (shownLength pad n len) = dataPacketLength pad len := by
  unfold shownLength
  by_cases h : 20 ≤ len ∧ len ≤ n
  · rw [if_pos h]
    unfold dataPacketLength leastPadded maxMtu
    cases pad with
    | none => rfl
    | full => dsimp only; rw [if_neg (by omega), if_neg (by omega)]
    | pad450 =>
      dsimp only
      repeat' split
      all_goals omega
  · rw [if_neg h]

theorem hidePkt_length (p : Bytes) : (hidePkt pad n p).length = shownLength pad n p.length := by
  cases p with
  | nil => unfold hidePkt shownLength; simp
  | cons b rest =>
    unfold hidePkt
    have := shown_range pad n (rest.length + 1)
    simp only [List.length_cons, zeros, List.length_replicate]
    by_cases h : 20 ≤ rest.length + 1 ∧ rest.length + 1 ≤ n
    · have := this.1 h; omega
    · have := this.2 h; omega

theorem hidePkt_valid (p : Bytes) : ipv4Valid (hidePkt pad n p) = ipv4Valid p := by
  cases p with
  | nil => rfl
  | cons b rest =>
    have e := hidePkt_length (pad := pad) (n := n) (b :: rest)
    unfold hidePkt at e ⊢
    unfold ipv4Valid
    dsimp only
    rw [e]
    have := shown_range pad n (b :: rest).length
    congr 1
    rw [decide_eq_decide]
    by_cases h : 20 ≤ (b :: rest).length ∧ (b :: rest).length ≤ n
    · have := this.1 h; omega
    · rw [this.2 h]

/-- What is done with a packet of which only the padded length and the first byte are known. -/
def blindPacket (env : Env) (d : Conn) (q : Bytes) : Conn × RC :=
  if d.state ≠ .online then (d, .invalidConnState)
  else if q.length < 20 then (d, .packetTooSmall)
  else if q.length > sizeSub d.outsideMtu packetOverhead then (d, .packetTooLarge)
  else if !ipv4Valid q then (d, .unsupportedPacketType)
  else if effectivePmtu d - 40 < 512 ∨ effectivePmtu d - 40 > maxWireMtu then (d, .failed)
  else if !shouldFragment d (effectivePmtu d) q.length then
    if q.length + 3 > maxWireMtu then (d, .failed)
    else sendMessage env d (5 :: zeros (2 + dataPacketLength d.padding q.length))
  else fragAndSend env d (zeros q.length) (effectivePmtu d + 3 - 7)

theorem dataMsg_hide (c : Conn) (p : Bytes) :
    hideOut (.both pad n inn) (dataMsg c p) = 5 :: zeros (2 + dataPacketLength c.padding p.length) := by
  have hl : p.length ≤ dataPacketLength c.padding p.length := by
    unfold dataPacketLength maxMtu
    by_cases h : p.length ≥ 1350
    · rw [if_pos h]; omega
    · rw [if_neg h]
      cases c.padding <;> dsimp only
      · omega
      · omega
      · split
        · omega
        · split <;> omega
  have e : ∃ a b : UInt8, dataMsg c p = 5 :: a :: b :: (p ++ zeros (dataPacketLength c.padding p.length - p.length)) := by
    unfold dataMsg
    by_cases hv : c.verMajor = 1 ∧ c.verMinor = 0
    · rw [if_pos hv]; exact ⟨_, _, rfl⟩
    · rw [if_neg hv]; exact ⟨_, _, rfl⟩
  obtain ⟨a, b, e⟩ := e
  have : hideOut (.both pad n inn) (dataMsg c p) = hideData (hideMsg (dataMsg c p)) := rfl
  rw [this, hideMsg_id (by rw [e]; simp), e]
  show 5 :: zeros (p ++ zeros _).length.succ.succ = _
  congr 2
  simp only [List.length_append, zeros, List.length_replicate]
  omega

theorem blindPacket_par (hE : Sealed (.both pad n inn) env) {c : Conn} (h : Shut (.both pad n inn) c) (hf : Unseen pad n c) (p : Bytes) :
    Par (.both pad n inn) (insidePacket env c p) (blindPacket env (mask (.both pad n inn) c) (hidePkt pad n p)) := by
  have hr := shown_range pad n p.length
  have h20 : p.length < 20 ↔ shownLength pad n p.length < 20 := by
    by_cases k : 20 ≤ p.length ∧ p.length ≤ n
    · have := hr.1 k; omega
    · rw [hr.2 k]
  have hsn : pad = .none → shownLength pad n p.length = p.length := by intro e; rw [e, shown_none]
  have hcap : p.length > sizeSub c.outsideMtu packetOverhead ↔ shownLength pad n p.length > sizeSub c.outsideMtu packetOverhead := by
    by_cases hp : pad = .none
    · rw [hsn hp]
    · have := hf hp
      by_cases k : 20 ≤ p.length ∧ p.length ≤ n
      · have := hr.1 k; omega
      · rw [hr.2 k]
  have hfr : shouldFragment c (effectivePmtu c) (shownLength pad n p.length) = shouldFragment c (effectivePmtu c) p.length := by
    by_cases hp : pad = .none
    · rw [hsn hp]
    · have hf := hf hp
      by_cases k : 20 ≤ p.length ∧ p.length ≤ n
      · have := hr.1 k
        unfold shouldFragment
        by_cases hd : c.connType = .datagram
        · have := hf.2.2.2 hd
          rw [decide_eq_false (p := shownLength pad n p.length > effectivePmtu c) (by omega),
            decide_eq_false (p := p.length > effectivePmtu c) (by omega)]
        · rw [decide_eq_false hd]; rfl
      · rw [hr.2 k]
  rw [insidePacket_eq]
  unfold blindPacket
  rw [hidePkt_length, hidePkt_valid]
  refine Par.ite Iff.rfl (fun _ => par h _) (fun _ => ?_)
  refine Par.ite h20 (fun _ => par h _) (fun hl => ?_)
  refine Par.ite hcap (fun _ => par h _) (fun hc => ?_)
  refine Par.ite Iff.rfl (fun _ => par h _) (fun hv => ?_)
  obtain ⟨out, ho, hlen⟩ := clampMss_blind p (effectivePmtu c - 40) (by omega) (by simpa using hv)
  rw [ho]
  unfold insideClamped
  have e0 : effectivePmtu (mask (.both pad n inn) c) = effectivePmtu c := rfl
  rw [e0]
  by_cases hm : effectivePmtu c - 40 < 512 ∨ effectivePmtu c - 40 > maxWireMtu
  · rw [if_pos hm, if_pos hm]; exact par h _
  rw [if_neg hm, if_neg hm]
  dsimp only
  rw [if_neg (by simp)]
  have hi : c.insidePlugins = [] := h.2.2.2 (.inl rfl)
  rw [hi]
  show Par _ (insideSend env c (effectivePmtu c) (c.log, out, .success)) _
  unfold insideSend
  dsimp only
  rw [if_neg (by simp), if_neg (by simp), hlen, if_neg hc]
  have ef : shouldFragment (mask (.both pad n inn) c) (effectivePmtu c) (shownLength pad n p.length) =
    shouldFragment c (effectivePmtu c) p.length := hfr
  rw [ef]
  refine Par.ite Iff.rfl (fun hs => ?_) (fun hs => ?_)
  · have h3 : p.length + 3 > maxWireMtu ↔ shownLength pad n p.length + 3 > maxWireMtu := by
      unfold maxWireMtu
      by_cases hp : pad = .none
      · rw [hsn hp]
      · have := hf hp
        by_cases k : 20 ≤ p.length ∧ p.length ≤ n
        · have := hr.1 k; omega
        · rw [hr.2 k]
    refine Par.ite h3 (fun _ => par h _) (fun _ => ?_)
    have k := sendMessage_par' hE h (dataMsg c out)
    rw [dataMsg_hide, hlen] at k
    have e : dataPacketLength c.padding (shownLength pad n p.length) = dataPacketLength c.padding p.length := by
      by_cases hp : pad = .none
      · rw [hsn hp]
      · have hf := hf hp
        rw [hf.1, shown_padded hf.2.1]
    rw [← e] at k
    exact k
  · have hk : shownLength pad n p.length = p.length := by
      by_cases hp : pad = .none
      · exact hsn hp
      · have hf := hf hp
        refine hr.2 (fun k => ?_)
        unfold shouldFragment at hs
        simp at hs
        have := hf.2.2.2 hs.1
        omega
    rw [hk]
    have k := fragAndSend_par hE h out (effectivePmtu c + 3 - 7)
    have e : blank (.both pad n inn) out = zeros p.length := by
      unfold blank
      rw [if_pos (show ((Watch.both pad n inn).pay.isSome = true) from rfl), hlen]
    rw [e] at k
    exact k

end Lightway
