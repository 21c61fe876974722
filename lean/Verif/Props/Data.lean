import Verif.Proofs.Send
import Verif.Proofs.Recv
import Verif.Props.Demo

/-!
# Tunnel data: sending, padding, fragmenting, round trip (C07, C09, C10, C11, C58)
-/

namespace Lightway
open Spec

/-- The capacity computed in `size_t` is the outside MTU minus the overhead. -/
theorem capacity_eq {n : Nat} (h : 114 ≤ n) (h2 : n < 65536) :
    sizeSub n packetOverhead = n - 114 := by
  unfold sizeSub packetOverhead; omega

/-! ## C07 -/

theorem insidePacket_tooLarge (env : Env) (c : Conn) (pkt : Bytes) (h : c.state = .online)
    (h1 : 20 ≤ pkt.length) (h2 : sizeSub c.outsideMtu packetOverhead < pkt.length) :
    insidePacket env c pkt = (c, .packetTooLarge) := by
  unfold insidePacket
  rw [if_neg (by simp [h]), if_neg (by omega)]
  exact if_pos h2

theorem insidePacket_notIp (env : Env) (c : Conn) (pkt : Bytes) (h : c.state = .online)
    (h1 : 20 ≤ pkt.length) (h2 : pkt.length ≤ sizeSub c.outsideMtu packetOverhead)
    (h3 : ipv4Valid pkt = false) : insidePacket env c pkt = (c, .unsupportedPacketType) := by
  unfold insidePacket
  rw [if_neg (by simp [h]), if_neg (by omega)]
  exact (if_neg (Nat.not_lt.mpr h2)).trans (if_pos (by simp [h3]))

theorem inside_refused (env : Env) (c : Conn) (pkt : Bytes) :
    (c.state ≠ .online → step env c (.insidePacket pkt) =
      ((c.emit (.api .insidePacket)).emit (.ret .invalidConnState), .invalidConnState)) ∧
    (c.state = .online → pkt.length < 20 → step env c (.insidePacket pkt) =
      ((c.emit (.api .insidePacket)).emit (.ret .packetTooSmall), .packetTooSmall)) ∧
    (c.state = .online → 20 ≤ pkt.length → 114 ≤ c.outsideMtu → c.outsideMtu < 65536 →
      c.outsideMtu < pkt.length + 114 → step env c (.insidePacket pkt) =
      ((c.emit (.api .insidePacket)).emit (.ret .packetTooLarge), .packetTooLarge)) ∧
    (∀ b rest, c.state = .online → pkt = b :: rest → 20 ≤ pkt.length → pkt.length + 114 ≤ c.outsideMtu →
      c.outsideMtu < 65536 →
      b.toNat / 16 ≠ 4 → step env c (.insidePacket pkt) =
      ((c.emit (.api .insidePacket)).emit (.ret .unsupportedPacketType), .unsupportedPacketType)) := by
  refine ⟨?_, ?_, ?_, ?_⟩
  · intro h
    have : insidePacket env (c.emit (.api .insidePacket)) pkt = (c.emit (.api .insidePacket), .invalidConnState) := by
      unfold insidePacket; rw [if_pos (by exact h)]
    simp [step, exec, Op.api, this]
  · intro h h1
    have : insidePacket env (c.emit (.api .insidePacket)) pkt = (c.emit (.api .insidePacket), .packetTooSmall) := by
      unfold insidePacket; rw [if_neg (by simp [Conn.emit, h]), if_pos h1]
    simp [step, exec, Op.api, this]
  · intro h h1 h2 h3 h4
    have := insidePacket_tooLarge env (c.emit (.api .insidePacket)) pkt h h1
      (by rw [show (c.emit (.api .insidePacket)).outsideMtu = c.outsideMtu from rfl, capacity_eq h2 h3]; omega)
    simp [step, exec, Op.api, this]
  · intro b rest h h0 h1 h2 h3 h4
    have := insidePacket_notIp env (c.emit (.api .insidePacket)) pkt h h1
      (by rw [show (c.emit (.api .insidePacket)).outsideMtu = c.outsideMtu from rfl, capacity_eq (by omega) h3]; omega)
      (by subst h0; simp [ipv4Valid, h4])
    simp [step, exec, Op.api, this]

/-- Bytes an inside packet may have on a connection with this outside MTU. -/
def insideLimit (outsideMtu : Nat) : Nat := outsideMtu - 114

/-- Why the library refuses an inside packet, in the order of the checks. -/
def inside_refusal (state : ConnState) (outsideMtu : Nat) (pkt : Bytes) : Option RC :=
  if state ≠ .online then some .invalidConnState
  else if pkt.length < 20 then some .packetTooSmall
  else if pkt.length > insideLimit outsideMtu then some .packetTooLarge
  else if (pkt.head?.map (·.toNat / 16)) ≠ some 4 then some .unsupportedPacketType
  else none

/-- **C07.** Refused inside packets, in every history: the documented return code, and nothing but the
call and return markers is added to the history; every field of the connection keeps its value (`emit`
changes the history only). -/
theorem C07_refused_without_effect (env : Env) (ops : List Op) (pkt : Bytes) (rc : RC)
    (h : inside_refusal (run env ops).state (run env ops).outsideMtu pkt = some rc) :
    step env (run env ops) (.insidePacket pkt) =
      (((run env ops).emit (.api .insidePacket)).emit (.ret rc), rc) := by
  have hg := (run_good env ops).sizes
  generalize run env ops = c at h hg ⊢
  obtain ⟨r1, r2, r3, r4⟩ := inside_refused env c pkt
  unfold inside_refusal at h
  split at h
  · rename_i hs; cases h; exact r1 hs
  rename_i hs
  have hs : c.state = .online := by simpa using hs
  have hm : 114 < c.outsideMtu ∧ c.outsideMtu < 65536 := by
    rcases hg.mtu with h | h
    · exact absurd h (hg.online hs)
    · exact h
  split at h
  · rename_i h1; cases h; exact r2 hs h1
  rename_i h1
  split at h
  · rename_i h2; cases h
    unfold insideLimit at h2
    exact r3 hs (by omega) (by omega) hm.2 (by omega)
  rename_i h2
  unfold insideLimit at h2
  split at h
  · rename_i h3; cases h
    cases hp : pkt with
    | nil => simp [hp] at h1
    | cons b rest =>
      rw [← hp]
      exact r4 b rest hs hp (by omega) (by omega) hm.2 (by simpa [hp] using h3)
  · cases h

example : inside_refusal (run Demo.env Demo.clientOps).state (run Demo.env Demo.clientOps).outsideMtu
    (96 :: zeros 40) = some .unsupportedPacketType ∧
    inside_refusal (run Demo.env Demo.clientOps).state (run Demo.env Demo.clientOps).outsideMtu
    Demo.ipPkt = none := by decide +kernel

/-! ## What an inside packet hands to the TLS layer -/

/-- One fragment message decodes to its fragment. -/
theorem decodeFrag_fragMsg {id off : Nat} {mf : Bool} {d : Bytes} (hid : id < 65536) (hoff : off < 65536)
    (h8 : off % 8 = 0) (hd : d.length < 65536) :
    decodeFrag (fragMsg id off mf d) = some { id := id, off := off, more := mf, data := d } := by
  have e1 : field (fragMsg id off mf d) 1 2 = be16 d.length := by simp [field, fragMsg, be16]
  have e2 : field (fragMsg id off mf d) 3 2 = be16 id := by simp [field, fragMsg, be16]
  have e3 : field (fragMsg id off mf d) 5 2 = be16 (off / 8 + (if mf then 8192 else 0)) := by
    simp [field, fragMsg, be16]
  have n1 := num_rdBe16 (be16_length d.length)
  have n2 := num_rdBe16 (be16_length id)
  have n3 := num_rdBe16 (be16_length (off / 8 + (if mf then 8192 else 0)))
  rw [rdBe16_be16 hd] at n1
  rw [rdBe16_be16 hid] at n2
  rw [rdBe16_be16 (by split <;> omega)] at n3
  unfold decodeFrag
  rw [e1, e2, e3, n1, n2, n3, if_pos]
  · have e4 : List.drop 7 (fragMsg id off mf d) = d := by simp [fragMsg, be16]
    rw [e4]
    congr 1
    cases mf <;> simp <;> omega
  · refine ⟨by simp [fragMsg, msgDataWithFrag], by simp [fragMsg]; omega, by simp [fragMsg]; omega⟩

/-- The fragment loop: what it hands over, oldest first, whether it completes or fails. -/
theorem fragLoop_writes (env : Env) (size id : Nat) (h0 : 0 < size) (h8 : size % 8 = 0) (h1 : size + 7 ≤ 1500)
    (hid : id < 65536) (n : Nat) : ∀ (c : Conn) (off : Nat) (pkt : Bytes), pkt.length = n →
    off + pkt.length < 65536 → off % 8 = 0 →
    ∃ new : List Bytes, writes (fragLoop env c size id off pkt).1.log = new.reverse ++ writes c.log ∧
      delivered (fragLoop env c size id off pkt).1.log = delivered c.log ∧
      (∀ m ∈ new, m.length ≤ size + 7) ∧
      ∃ frs rest : List Fragment, Contiguous off (frs ++ rest) ∧ (∀ f ∈ frs ++ rest, f.id = id ∧ f.off % 8 = 0) ∧
        new.map decodeFrag = frs.map some ∧ ((frs ++ rest).map (·.data)).flatten = pkt ∧
        ((fragLoop env c size id off pkt).2 = .success → rest = []) ∧
        (size < pkt.length → 2 ≤ (frs ++ rest).length) ∧ (pkt ≠ [] → frs ≠ []) := by
  induction n using Nat.strongRecOn with
  | ind n ih =>
    intro c off pkt hn hlt ho
    unfold fragLoop
    by_cases hz : pkt.length = 0
    · have hp : pkt = [] := List.length_eq_zero_iff.mp hz
      subst hp
      rw [dif_pos hz]
      exact ⟨[], by simp, by simp, by simp, [], [], trivial, by simp, by simp, by simp, by simp, by simp, by simp⟩
    · rw [dif_neg hz, dif_neg (by omega)]
      have hd : (pkt.take size).length + 7 ≤ 1500 := by simp; omega
      simp only
      have hd' : ¬((pkt.take size).length + 7 > maxWireMtu) := by simp only [maxWireMtu]; omega
      rw [if_neg hd']
      have hdl : (pkt.take size).length < 65536 := by omega
      have dec := decodeFrag_fragMsg (mf := decide (pkt.length > size)) hid (by omega : off < 65536) ho hdl
      have hne : pkt.take size ≠ [] := by
        intro h; have := congrArg List.length h; simp at this
        rcases this with h | h
        · omega
        · rw [h] at hz; simp at hz
      have hw := writes_sendMessage env c (fragMsg id off (decide (pkt.length > size)) (pkt.take size))
      have hv := delivered_sendMessage env c (fragMsg id off (decide (pkt.length > size)) (pkt.take size))
      have hml : (fragMsg id off (decide (pkt.length > size)) (pkt.take size)).length ≤ size + 7 := by
        simp [fragMsg]; omega
      -- the pieces that remain, whether or not they get sent
      have hrest : ∀ c' : Conn, ∃ new : List Bytes, writes (fragLoop env c' size id ((off + (pkt.take size).length) % 65536) (pkt.drop size)).1.log = new.reverse ++ writes c'.log ∧
          delivered (fragLoop env c' size id ((off + (pkt.take size).length) % 65536) (pkt.drop size)).1.log = delivered c'.log ∧
          (∀ m ∈ new, m.length ≤ size + 7) ∧
          ∃ frs rest : List Fragment, Contiguous (off + (pkt.take size).length) (frs ++ rest) ∧ (∀ f ∈ frs ++ rest, f.id = id ∧ f.off % 8 = 0) ∧
            new.map decodeFrag = frs.map some ∧ ((frs ++ rest).map (·.data)).flatten = pkt.drop size ∧
            ((fragLoop env c' size id ((off + (pkt.take size).length) % 65536) (pkt.drop size)).2 = .success → rest = []) ∧
            (frs ++ rest = [] ↔ pkt.length ≤ size) := by
        intro c'
        by_cases hle : pkt.length ≤ size
        · have : pkt.drop size = [] := by simp [hle]
          rw [this]
          unfold fragLoop
          simp only [List.length_nil, dite_true]
          exact ⟨[], by simp, trivial, by simp, [], [], trivial, by simp, by simp, by simp, by simp, by simp [hle]⟩
        · have hlen : (pkt.take size).length = size := by simp; omega
          have hmod : (off + (pkt.take size).length) % 65536 = off + (pkt.take size).length := by
            apply Nat.mod_eq_of_lt; omega
          rw [hmod]
          obtain ⟨new, w1, w2, w3, frs, rest, w4, w5, w6, w7, w8, _, w9⟩ :=
            ih (pkt.drop size).length (by simp; omega) c' (off + (pkt.take size).length) (pkt.drop size) rfl
              (by simp; omega) (by rw [hlen]; omega)
          refine ⟨new, w1, w2, w3, frs, rest, w4, w5, w6, w7, w8, ?_⟩
          constructor
          · intro h; exact absurd (List.append_eq_nil_iff.mp h).1 (w9 (by intro h2; have := congrArg List.length h2; simp at this; omega))
          · intro h; omega
      have hmore : ∀ l : List Fragment, (l = [] ↔ pkt.length ≤ size) →
          decide (pkt.length > size) = !l.isEmpty := by
        intro l hl
        cases l with
        | nil => have := hl.mp rfl; simp; omega
        | cons x xs => simp at hl; simp [hl]
      by_cases hrc : (sendMessage env c (fragMsg id off (decide (pkt.length > size)) (pkt.take size))).2 = .success
      · rw [if_neg (by simpa using hrc)]
        obtain ⟨new, w1, w2, w3, frs, rest, w4, w5, w6, w7, w8, w9⟩ := hrest
          (sendMessage env c (fragMsg id off (decide (pkt.length > size)) (pkt.take size))).1
        refine ⟨fragMsg id off (decide (pkt.length > size)) (pkt.take size) :: new, ?_, ?_, ?_,
          ⟨id, off, decide (pkt.length > size), pkt.take size⟩ :: frs, rest, ?_, ?_, ?_, ?_, ?_, ?_, ?_⟩
        · rw [w1, hw]; simp
        · rw [w2, hv]
        · intro m hm
          rcases List.mem_cons.mp hm with rfl | hm
          · exact hml
          · exact w3 m hm
        · exact ⟨rfl, hne, hmore _ w9, w4⟩
        · intro f hf
          rcases List.mem_cons.mp hf with rfl | hf
          · exact ⟨rfl, ho⟩
          · exact w5 f hf
        · simp [dec, w6]
        · simp only [List.cons_append, List.map_cons, List.flatten_cons, w7, List.take_append_drop]
        · exact w8
        · intro hs
          have : frs ++ rest ≠ [] := fun h => by have := w9.mp h; omega
          have := List.length_pos_iff.mpr this
          simp at this ⊢; omega
        · simp
      · rw [if_pos (by simpa using hrc)]
        obtain ⟨new, w1, w2, w3, frs, rest, w4, w5, w6, w7, w8, w9⟩ := hrest c
        refine ⟨[fragMsg id off (decide (pkt.length > size)) (pkt.take size)], ?_, ?_, ?_,
          [⟨id, off, decide (pkt.length > size), pkt.take size⟩], frs ++ rest, ?_, ?_, ?_, ?_, ?_, ?_, ?_⟩
        · rw [hw]; simp
        · exact hv
        · simpa using hml
        · exact ⟨rfl, hne, hmore _ w9, w4⟩
        · intro f hf
          rcases List.mem_cons.mp hf with rfl | hf
          · exact ⟨rfl, ho⟩
          · exact w5 f hf
        · simp [dec]
        · simp only [List.cons_append, List.nil_append, List.map_cons, List.flatten_cons, w7, List.take_append_drop]
        · intro h; exact absurd h hrc
        · intro hs
          have : frs ++ rest ≠ [] := fun h => by have := w9.mp h; omega
          have := List.length_pos_iff.mpr this
          simp at this ⊢; omega
        · simp

/-- The packet after MSS clamping and the host's inside plugins. -/
def Prepared (c : Conn) (pkt p : Bytes) : Prop :=
  ∃ q log, clampMss pkt (effectivePmtu c - 40) = some (q, .success) ∧
    c.insidePlugins.ingress c.log q (sizeSub c.outsideMtu packetOverhead) = (log, p, .success)

/-- A host plugin asked for the packet to be dropped. -/
def Dropped (c : Conn) (pkt : Bytes) : Prop :=
  ∃ q log p, clampMss pkt (effectivePmtu c - 40) = some (q, .success) ∧
    c.insidePlugins.ingress c.log q (sizeSub c.outsideMtu packetOverhead) = (log, p, .pluginDrop)

/-- Everything `he_conn_inside_packet_received` can hand to the TLS layer. -/
def InsidePost (c : Conn) (pkt : Bytes) (r : Conn × RC) : Prop :=
    delivered r.1.log = delivered c.log ∧
    (writes r.1.log = writes c.log ∧ (r.2 = .success → Dropped c pkt) ∨
    ∃ p, Prepared c pkt p ∧ p.length ≤ sizeSub c.outsideMtu packetOverhead ∧
      ((c.connType = .stream ∨ p.length ≤ effectivePmtu c) ∧ p.length + 3 ≤ 1500 ∧
          writes r.1.log = dataMsg c p :: writes c.log ∨
       c.connType = .datagram ∧ effectivePmtu c < p.length ∧
        ∃ (new : List Bytes) (frs rest : List Fragment),
          writes r.1.log = new.reverse ++ writes c.log ∧
          (∀ m ∈ new, m.length ≤ effectivePmtu c + 3) ∧
          new.map decodeFrag = frs.map some ∧ Fragments c.fragNextId p (frs ++ rest) ∧
          (r.2 = .success → rest = [])))

theorem InsidePost.noop {c : Conn} {pkt : Bytes} (c' : Conn) (rc : RC)
    (h1 : delivered c'.log = delivered c.log) (h2 : writes c'.log = writes c.log)
    (h3 : rc = .success → Dropped c pkt) :
    InsidePost c pkt (c', rc) := ⟨h1, .inl ⟨h2, h3⟩⟩

theorem insidePacket_writes (env : Env) (c : Conn) (pkt : Bytes) (hpm : PmRange c.pmtud)
    (hid : c.fragNextId < 65536) (hcap : sizeSub c.outsideMtu packetOverhead < 65536) :
    InsidePost c pkt (insidePacket env c pkt) := by
  have hr := effectivePmtu_range hpm
  unfold insidePacket
  split
  · exact .noop c _ rfl rfl (by simp)
  split
  · exact .noop c _ rfl rfl (by simp)
  simp only
  split
  · exact .noop c _ rfl rfl (by simp)
  split
  · exact .noop c _ rfl rfl (by simp)
  split
  · rename_i hx
    obtain ⟨r, hr⟩ := Option.isSome_iff_exists.mp (clampMss_isSome pkt (effectivePmtu c - 40))
    rw [hr] at hx; cases hx
  rename_i q rc hq
  split
  · rename_i hrc
    exact .noop c _ rfl rfl (fun h => absurd h hrc)
  rename_i hrc
  have hrc : rc = .success := by simpa using hrc
  subst hrc
  have hprep : ∀ log p, c.insidePlugins.ingress c.log q (sizeSub c.outsideMtu packetOverhead) = (log, p, .success) →
      Prepared c pkt p := fun log p h => ⟨q, log, hq, h⟩
  have hdrop : ∀ log p, c.insidePlugins.ingress c.log q (sizeSub c.outsideMtu packetOverhead) = (log, p, .pluginDrop) →
      Dropped c pkt := fun log p h => ⟨q, log, p, hq, h⟩
  generalize hcapE : sizeSub c.outsideMtu packetOverhead = cap at hcap hprep hdrop ⊢
  have h1 := ingress_cbExt c c.insidePlugins q cap
  have hw := h1.writes
  have hv := h1.delivered
  generalize c.insidePlugins.ingress c.log q cap = r at hprep hdrop hw hv ⊢
  obtain ⟨log', p, rc⟩ := r
  simp only at hw hv hprep hdrop ⊢
  have hpmtu : effectivePmtu { c with log := log' } = effectivePmtu c := rfl
  split
  · rename_i hrc
    exact .noop _ _ hv hw (fun _ => hdrop log' p (by rw [hrc]))
  split
  · rename_i hrc
    exact .noop _ _ hv hw (by simp)
  rename_i hrc
  have hrc : rc = .success := by simpa using hrc
  subst hrc
  split
  · exact .noop _ _ hv hw (by simp)
  rename_i hpc
  have hprep := hprep log' p rfl
  split
  · rename_i hsf
    split
    · exact .noop _ _ hv hw (by simp)
    · rename_i hlen
      refine ⟨by rw [delivered_sendMessage]; exact hv, .inr ⟨p, hprep, by rw [hcapE]; omega, .inl ⟨?_, ?_, ?_⟩⟩⟩
      · simp only [shouldFragment, Bool.not_eq_true', Bool.and_eq_false_iff, decide_eq_false_iff_not] at hsf
        rcases hsf with h | h
        · left; cases hc : c.connType
          · simp [hc] at h
          · rfl
        · right; omega
      · simp only [maxWireMtu] at hlen; omega
      · rw [writes_sendMessage, show dataMsg { c with log := log' } p = dataMsg c p from rfl]
        exact congrArg _ hw
  · rename_i hsf
    simp only [shouldFragment, Bool.not_eq_true', Bool.and_eq_false_iff, decide_eq_false_iff_not,
      not_or, Decidable.not_not] at hsf
    have hdg : c.connType = .datagram := by
      have := hsf.1; simpa using this
    have hgt : effectivePmtu c < p.length := by have := hsf.2; omega
    generalize hpmE : effectivePmtu c = pm at hr hgt ⊢
    unfold fragAndSend
    simp only
    rw [if_neg (by omega)]
    obtain ⟨new, w1, w2, w3, frs, rest, w4, w5, w6, w7, w8, w9, _⟩ :=
      fragLoop_writes env ((pm + 3 - 7) / 8 * 8) c.fragNextId (by omega) (by omega) (by omega) hid p.length
        { c with log := log', fragNextId := (c.fragNextId + 1) % 65536 } 0 p rfl (by omega) (by omega)
    refine ⟨?_, .inr ⟨p, hprep, by rw [hcapE]; omega, .inr ⟨hdg, by rw [hpmE]; exact hgt, new, frs, rest, ?_, ?_, w6, ⟨w9 (by omega), w4, w5, w7⟩, w8⟩⟩⟩
    · exact w2.trans hv
    · rw [w1]; exact congrArg _ hw
    · intro m hm; have := w3 m hm; rw [hpmE]; omega

/-! ## C10 -/

/-- What a reachable connection hands over for an inside packet. -/
theorem step_inside (env : Env) {c : Conn} (hg : Good env c) (pkt : Bytes) :
    let c0 := c.emit (.api .insidePacket)
    let r := step env c (.insidePacket pkt)
    PmRange c0.pmtud ∧ c0.fragNextId < 65536 ∧
    (c.state = .online → sizeSub c0.outsideMtu packetOverhead < 65536) ∧
    writes c0.log = writes c.log ∧ delivered c0.log = delivered c.log ∧
    writes r.1.log = writes (insidePacket env c0 pkt).1.log ∧
    delivered r.1.log = delivered (insidePacket env c0 pkt).1.log ∧ r.2 = (insidePacket env c0 pkt).2 := by
  obtain ⟨o, hi⟩ := hg.inv
  refine ⟨hi.pm, hg.sizes.fragNext, ?_, rfl, rfl, rfl, rfl, rfl⟩
  intro h
  show sizeSub c.outsideMtu _ < _
  rcases hg.sizes.mtu with h2 | h2
  · exact absurd h2 (hg.sizes.online h)
  · rw [capacity_eq (by omega) (by omega)]; omega

theorem padding_of_write (env : Env) (c : Conn) (pkt m : Bytes) (hpm : PmRange c.pmtud)
    (hid : c.fragNextId < 65536) (hcap : sizeSub c.outsideMtu packetOverhead < 65536)
    (h5 : m.head? = some 5) (hm : writes (insidePacket env c pkt).1.log = m :: writes c.log) :
    ∃ len p k, m = 5 :: len ++ p ++ zeros k ∧ len.length = 2 ∧
      num (if c.verMajor = 1 ∧ c.verMinor = 0 then len.reverse else len) = p.length ∧ Prepared c pkt p ∧
      p.length + 3 ≤ m.length ∧ m.length ≤ 1500 ∧
      (c.padding = .full → p.length < 1350 → m.length = 1353) ∧
      (c.padding = .pad450 → p.length < 1350 → m.length = 453 ∨ m.length = 903 ∨ m.length = 1353) ∧
      (c.padding = .none ∨ 1350 ≤ p.length → m.length = p.length + 3) := by
  obtain ⟨_, ⟨h, _⟩ | ⟨p, hp, hpl, h⟩⟩ := insidePacket_writes env c pkt hpm hid hcap
  · rw [hm] at h; exact absurd (congrArg List.length h) (by simp)
  rcases h with ⟨_, hl, hw⟩ | ⟨_, _, new, frs, rest, hw, _, hdec, hfr, _⟩
  · rw [hm] at hw
    have hw : m = dataMsg c p := (List.cons.inj hw).1
    have hlen : m.length = 3 + p.length + (dataPacketLength c.padding p.length - p.length) := by
      rw [hw]; unfold dataMsg; split <;> simp <;> omega
    have hge : dataPacketLength c.padding p.length ≤ 1350 ∨ dataPacketLength c.padding p.length = p.length := by
      unfold dataPacketLength maxMtu
      split
      · right; rfl
      · cases c.padding <;> simp
        split
        · omega
        · split <;> omega
    have hge2 : p.length ≤ dataPacketLength c.padding p.length := by
      unfold dataPacketLength maxMtu
      split
      · exact Nat.le_refl _
      · cases c.padding <;> simp
        · omega
        · split
          · assumption
          · split <;> omega
    refine ⟨if c.verMajor = 1 ∧ c.verMinor = 0 then le16 p.length else be16 p.length, p,
      dataPacketLength c.padding p.length - p.length, ?_, ?_, ?_, hp, by omega, by omega, ?_, ?_, ?_⟩
    · rw [hw]; simp [dataMsg, msgData]
    · split <;> simp
    · split
      · simp [le16, num, UInt8.toNat_ofNat']; omega
      · simp [be16, num, UInt8.toNat_ofNat']; omega
    · intro h1 h2
      have : dataPacketLength c.padding p.length = 1350 := by
        simp [dataPacketLength, h1, maxMtu, show ¬1350 ≤ p.length by omega]
      omega
    · intro h1 h2
      have : dataPacketLength c.padding p.length = 450 ∨ dataPacketLength c.padding p.length = 900 ∨
          dataPacketLength c.padding p.length = 1350 := by
        simp only [dataPacketLength, h1, maxMtu, show ¬p.length ≥ 1350 by omega, if_false]
        split
        · simp
        · split <;> simp
      omega
    · intro h1
      have : dataPacketLength c.padding p.length = p.length := by
        rcases h1 with h1 | h1
        · simp [dataPacketLength, h1]
        · simp [dataPacketLength, maxMtu, h1]
      omega
  · -- a fragment message does not start with 5
    exfalso
    rw [hm] at hw
    have : new.reverse = [m] := by
      have := congrArg List.length hw
      simp at this
      match hn : new.reverse with
      | [] => simp at hn; subst hn; simp at this
      | [x] => rw [hn] at hw; simp at hw; rw [hw]
      | _ :: _ :: _ =>
        have h2 : new.reverse.length = new.length := List.length_reverse
        rw [hn] at h2; simp at h2; omega
    have hn : new = [m] := by rw [← List.reverse_reverse new, this]; rfl
    subst hn
    cases frs with
    | nil => simp at hdec
    | cons f fs =>
      simp at hdec
      have := hdec.1
      unfold decodeFrag at this
      split at this
      · rename_i h15; rw [h5] at h15; simp at h15
      · cases this

/-- **C10.** A tunnel-data message (type 5) handed to the TLS layer by an inside packet consists of the
type, the payload length (network order; for protocol 1.0 the other way round), the payload and zero padding; it is never shorter than the payload, at most 1500
bytes long; under full padding all payloads below 1350 bytes give one length, under 450-padding one of
three; payloads of 1350 bytes and more and the no-padding mode add nothing. -/
theorem C10_padding (env : Env) (ops : List Op) (pkt m : Bytes) (h5 : m.head? = some 5) :
    let c := run env ops
    writes (step env c (.insidePacket pkt)).1.log = m :: writes c.log →
    ∃ len p k, m = 5 :: len ++ p ++ zeros k ∧ len.length = 2 ∧
      num (if c.verMajor = 1 ∧ c.verMinor = 0 then len.reverse else len) = p.length ∧
      Prepared (c.emit (.api .insidePacket)) pkt p ∧
      p.length + 3 ≤ m.length ∧ m.length ≤ 1500 ∧
      (c.padding = .full → p.length < 1350 → m.length = 1353) ∧
      (c.padding = .pad450 → p.length < 1350 → m.length = 453 ∨ m.length = 903 ∨ m.length = 1353) ∧
      (c.padding = .none ∨ 1350 ≤ p.length → m.length = p.length + 3) := by
  intro c hm
  have hg : Good env c := run_good env ops
  obtain ⟨h1, h2, h3, h4, h5', h6, h7, h8⟩ := step_inside env hg pkt
  by_cases hs : c.state = .online
  · rw [h6, ← h4] at hm
    exact padding_of_write env (c.emit (.api .insidePacket)) pkt m h1 h2 (h3 hs) h5 hm
  · have := (inside_refused env c pkt).1 hs
    rw [this] at hm
    exact absurd (congrArg List.length hm) (by simp [Conn.emit, writes])

/-- Client with full padding. -/
def demoPadded : Conn := run Demo.env (Demo.clientOpsWith { Demo.ctx with padding := .full })

example : ∃ m, writes (step Demo.env demoPadded (.insidePacket Demo.ipPkt)).1.log = m :: writes demoPadded.log ∧
    m.head? = some 5 ∧ m.length = 1353 := by
  refine ⟨dataMsg demoPadded Demo.ipPkt, ?_, ?_, ?_⟩ <;> decide +kernel

/-! ## C11 -/

theorem fragments_of_write (env : Env) (c : Conn) (pkt p : Bytes) (hpm : PmRange c.pmtud)
    (hid : c.fragNextId < 65536) (hcap : sizeSub c.outsideMtu packetOverhead < 65536)
    (hp : Prepared c pkt p) (hdg : c.connType = .datagram) (hbig : effectivePmtu c < p.length)
    (hok : (insidePacket env c pkt).2 = .success) :
    ∃ (new : List Bytes) (frs : List Fragment),
      writes (insidePacket env c pkt).1.log = new.reverse ++ writes c.log ∧
      new.map decodeFrag = frs.map some ∧ Fragments c.fragNextId p frs ∧
      ∀ m ∈ new, m.length ≤ effectivePmtu c + 3 := by
  obtain ⟨q, l, hq, hi⟩ := hp
  obtain ⟨_, ⟨_, h⟩ | ⟨p', hp', hpl, h⟩⟩ := insidePacket_writes env c pkt hpm hid hcap
  · obtain ⟨q', l', p', hq', hi'⟩ := h hok
    rw [hq] at hq'
    cases hq'
    rw [hi] at hi'
    cases hi'
  obtain ⟨q', l', hq', hi'⟩ := hp'
  rw [hq] at hq'
  cases hq'
  rw [hi] at hi'
  cases hi'
  rcases h with ⟨h1, _, _⟩ | ⟨_, _, new, frs, rest, hw, hl, hdec, hfr, hs⟩
  · rcases h1 with h1 | h1
    · rw [hdg] at h1; cases h1
    · omega
  · have := hs hok
    subst this
    rw [List.append_nil] at hfr
    exact ⟨new, frs, hw, hdec, hfr, hl⟩

/-- **C11.** In every history: when the packet (after MSS clamping and plugins) exceeds the effective PMTU
on a datagram connection and the call succeeds, the messages handed to the TLS layer by the call, oldest
first, are the fragments of that packet: one identifier, offsets multiples of 8, contiguous from 0, "more"
on all but the last, at least two, and their data concatenate to the packet; each message is at most
effective PMTU + 3 bytes. -/
theorem C11_fragments_partition (env : Env) (ops : List Op) (pkt p : Bytes) :
    let c := run env ops
    Prepared (c.emit (.api .insidePacket)) pkt p → c.connType = .datagram → effectivePmtu c < p.length →
    (step env c (.insidePacket pkt)).2 = .success →
    ∃ (new : List Bytes) (frs : List Fragment),
      writes (step env c (.insidePacket pkt)).1.log = new.reverse ++ writes c.log ∧
      new.map decodeFrag = frs.map some ∧ Fragments c.fragNextId p frs ∧
      ∀ m ∈ new, m.length ≤ effectivePmtu c + 3 := by
  intro c hp hdg hbig hok
  have hg : Good env c := run_good env ops
  obtain ⟨h1, h2, h3, h4, h5', h6, h7, h8⟩ := step_inside env hg pkt
  have hs : c.state = .online := by
    apply Decidable.byContradiction
    intro hs
    rw [(inside_refused env c pkt).1 hs] at hok
    cases hok
  rw [h6, ← h4]
  exact fragments_of_write env _ pkt p h1 h2 (h3 hs) hp hdg hbig (h8 ▸ hok)

/-- An IPv4 packet of 1386 bytes. -/
def bigPkt : Bytes := [69, 0, 5, 106] ++ zeros 1382

example : (step Demo.env (run Demo.env Demo.clientOps) (.insidePacket bigPkt)).2 = .success ∧
    (writes (step Demo.env (run Demo.env Demo.clientOps) (.insidePacket bigPkt)).1.log).length =
      (writes (run Demo.env Demo.clientOps).log).length + 2 := by decide +kernel

end Lightway
