import Verif.Proofs.PmEv

/-!
# The invariant of path-MTU discovery
-/

namespace Lightway
open Spec

/-- No PONG with identifier 0 was received. -/
def Spec.NoZeroPong (ev : List PmEv) : Prop := PmEv.pong 0 ∉ ev

/-- Not known yet, or the initial size the code takes for granted, or acknowledged. -/
def Proven (ev : List PmEv) (n : Nat) : Prop := n = 0 ∨ n = 1250 ∨ Acked ev n

def stepOf (p : Pmtud) : Nat := if p.bigStep then 32 else 8

/-- Facts about the size `mtu` being probed. -/
structure Sized (s : PS) (mtu : Nat) : Prop where
  base : s.pm.base = 512 ∨ s.pm.base = 1250
  be : s.pm.state = .base ∨ s.pm.state = .error → mtu = 512 ∨ mtu = 1250
  se : s.pm.state = .searching → s.pm.base + stepOf s.pm ≤ mtu
  lo : 512 ≤ mtu
  hi : mtu ≤ 1416
  bs : (s.pm.state = .base ∧ mtu = 1250) ∨ (s.pm.state = .searching ∧ s.pm.bigStep = true) →
    ∀ n, n ≠ mtu → burst n s.ev = 0
  bc : burst mtu s.ev ≤ s.pm.probeCount
  pend : s.pm.pendingId ≠ 0 → .probe s.pm.pendingId mtu ∈ s.ev
  prov : NoZeroPong s.ev → s.pm.state = .searching → Proven s.ev (mtu - stepOf s.pm)

/-- What always holds once discovery started. -/
structure Basic (s : PS) : Prop where
  act : s.pm.state ≠ .disabled
  nid : s.nid < 65536
  at_ : pmAt s.ev = s.pm.state
  eff : s.pm.effective = 0 ∧ s.pm.state ≠ .searchComplete ∨ 512 ≤ s.pm.effective ∧ s.pm.effective ≤ 1416
  bursts : BurstsOk s.ev
  known : NoZeroPong s.ev → Proven s.ev s.pm.effective
  cnt : s.pm.probeCount ≤ 3

/-- Discovery in progress on an ONLINE connection. -/
structure Full (s : PS) : Prop where
  sized : Sized s s.pm.probingSize
  tm : ∃ t, lastTimer s.ev = some t ∧ t ≠ 0

/-- The invariant. -/
def PmI (on : Bool) (s : PS) : Prop := Basic s ∧ (Full s ∨ on = false ∧ s.pm.probeCount < 3)

/-! ## Lemmas on the history functions -/

theorem Spec.BurstsOk.cons {e : PmEv} {ev : List PmEv} (h : BurstsOk ev) (hn : ∀ n, burst n (e :: ev) ≤ 3) :
    BurstsOk (e :: ev) := by
  intro newer older he n
  cases newer with
  | nil => rw [← show e :: ev = older from he]; exact hn n
  | cons x xs => injection he with _ he; exact h xs older he n

theorem Spec.BurstsOk.now {ev : List PmEv} (h : BurstsOk ev) (n : Nat) : burst n ev ≤ 3 := h [] ev rfl n

theorem Spec.BurstsOk.reset {e : PmEv} {ev : List PmEv} (h : BurstsOk ev) (hr : ∀ n, burst n (e :: ev) = 0) :
    BurstsOk (e :: ev) := h.cons (fun n => by rw [hr n]; omega)

theorem Spec.BurstsOk.same {e : PmEv} {ev : List PmEv} (h : BurstsOk ev) (hr : ∀ n, burst n (e :: ev) = burst n ev) :
    BurstsOk (e :: ev) := h.cons (fun n => by rw [hr n]; exact h.now n)

theorem burst_state (n : Nat) (s : PmtudState) (ev : List PmEv) : burst n (.state s :: ev) = 0 := rfl
theorem burst_timer0 (n : Nat) (ev : List PmEv) : burst n (.timer 0 :: ev) = 0 := rfl
theorem burst_rest (n : Nat) {ms : Nat} (h : 60000 ≤ ms) (ev : List PmEv) : burst n (.timer ms :: ev) = 0 := by
  show (if isReset (.timer ms) then 0 else burst n ev) = 0
  rw [if_pos (by simp [isReset, h])]
theorem burst_timer (n : Nat) {ms : Nat} (h : ms ≠ 0) (h2 : ms < 60000) (ev : List PmEv) :
    burst n (.timer ms :: ev) = burst n ev := by
  show (if isReset (.timer ms) then 0 else burst n ev) = _
  rw [if_neg (by simp [isReset, h]; omega)]
theorem burst_probe (n id m : Nat) (ev : List PmEv) : burst n (.probe id m :: ev) = burst n ev + if m = n then 1 else 0 := rfl
theorem burst_pong (n id : Nat) (ev : List PmEv) : burst n (.pong id :: ev) = burst n ev := rfl

theorem Spec.NoZeroPong.tail {e : PmEv} {ev : List PmEv} (h : NoZeroPong (e :: ev)) : NoZeroPong ev :=
  fun h' => h (.tail _ h')

theorem Spec.Acked.cons {ev : List PmEv} {n : Nat} (e : PmEv) (h : Acked ev n) : Acked (e :: ev) n := by
  obtain ⟨id, m, a, b, h1, h2, h3⟩ := h
  exact ⟨id, m, e :: a, b, h1, by rw [h2]; rfl, h3⟩

theorem Spec.Acked.mono {ev : List PmEv} {n k : Nat} (h : Acked ev n) (hk : k ≤ n) : Acked ev k := by
  obtain ⟨id, m, a, b, h1, h2, h3⟩ := h
  exact ⟨id, m, a, b, Nat.le_trans hk h1, h2, h3⟩

theorem Proven.cons {ev : List PmEv} {n : Nat} (e : PmEv) (h : Proven ev n) : Proven (e :: ev) n :=
  h.imp_right (·.imp_right (·.cons e))

/-! ## Sending a probe -/

theorem probe_on {ok : Bool} {s : PS} {mtu : Nat} (h1 : 512 ≤ mtu) (h2 : mtu ≤ 1416) :
    s.probe true ok mtu = PS.mk
      { s.pm with probeCount := (s.pm.probeCount + 1) % 256, probingSize := mtu, pendingId := if ok then s.nid else s.pm.pendingId }
      ((s.nid + 1) % 65536) (.timer (if ok then 5000 else 10) :: .probe s.nid mtu :: s.ev) :=
  if_neg (by rintro (h | h | h) <;> first | omega | cases h)

theorem probe_off {ok : Bool} {s : PS} {mtu : Nat} : s.probe false ok mtu = s := if_pos (.inl rfl)

theorem probe_pmI {ok : Bool} {s : PS} {mtu : Nat} (hb : Basic s) (hs : Sized s mtu) (hc : s.pm.probeCount < 3) :
    PmI true (s.probe true ok mtu) := by
  rw [probe_on hs.lo hs.hi]
  have ht : (if ok then 5000 else 10 : Nat) ≠ 0 ∧ (if ok then 5000 else 10 : Nat) < 60000 := by split <;> omega
  have hbu : ∀ n, burst n (.timer (if ok then 5000 else 10) :: .probe s.nid mtu :: s.ev) =
      burst n s.ev + if mtu = n then 1 else 0 := fun n => by rw [burst_timer n ht.1 ht.2]; rfl
  have hm : (s.pm.probeCount + 1) % 256 = s.pm.probeCount + 1 := by omega
  have hle : ∀ n, (burst n s.ev + if mtu = n then 1 else 0) ≤ 3 := by
    intro n
    by_cases h : mtu = n
    · rw [if_pos h, ← h]; have := hs.bc; omega
    · rw [if_neg h]; exact hb.bursts.now n
  constructor
  · constructor
    · exact hb.act
    · show (s.nid + 1) % 65536 < 65536; omega
    · exact hb.at_
    · exact hb.eff
    · refine BurstsOk.cons (BurstsOk.cons (e := .probe s.nid mtu) hb.bursts (fun n => hle n)) (fun n => ?_)
      show burst n (.timer (if ok then 5000 else 10) :: .probe s.nid mtu :: s.ev) ≤ 3
      rw [hbu n]; exact hle n
    · intro hz; exact ((hb.known hz.tail.tail).cons _).cons _
    · show (s.pm.probeCount + 1) % 256 ≤ 3; omega
  · refine .inl ⟨⟨hs.base, hs.be, hs.se, hs.lo, hs.hi, ?_, ?_, ?_, ?_⟩, ⟨_, rfl, ht.1⟩⟩
    · intro h n hn
      show burst n (.timer (if ok then 5000 else 10) :: .probe s.nid mtu :: s.ev) = 0
      rw [hbu n, hs.bs h n hn, if_neg (Ne.symm hn)]
    · show burst mtu (.timer (if ok then 5000 else 10) :: .probe s.nid mtu :: s.ev) ≤ (s.pm.probeCount + 1) % 256
      rw [hbu, if_pos rfl, hm]; have := hs.bc; omega
    · intro hp
      cases ok with
      | true => exact .tail _ (.head _)
      | false => exact .tail _ (.tail _ (hs.pend hp))
    · intro hz hst; exact ((hs.prov hz.tail.tail hst).cons _).cons _

/-! ## Preservation -/

theorem stepOf_cases (p : Pmtud) : (p.bigStep = true ∧ stepOf p = 32) ∨ (p.bigStep = false ∧ stepOf p = 8) := by
  unfold stepOf; cases p.bigStep <;> simp

/-- `complete` from SEARCHING with a size in range. -/
theorem complete_pmI {s : PS} (hb : Basic s) (hba : s.pm.base = 512 ∨ s.pm.base = 1250)
    (h1 : 512 ≤ s.pm.probingSize) (h2 : s.pm.probingSize ≤ 1416)
    (hp : NoZeroPong s.ev → Proven s.ev s.pm.probingSize)
    (hpe : s.pm.pendingId = 0) : PmI true s.complete := by
  have e : min s.pm.probingSize 1416 = s.pm.probingSize := by omega
  unfold PS.complete PS.retry PS.chg
  simp only [e]
  constructor
  · exact ⟨by simp, hb.nid, rfl, .inr ⟨h1, h2⟩, (hb.bursts.reset (fun n => rfl)).reset (fun n => burst_rest n (by omega) _),
      fun hz => ((hp hz.tail.tail).cons _).cons _, by simp⟩
  · refine .inl ⟨⟨hba, by simp, by simp, h1, h2, by simp, ?_, fun h => absurd hpe h, by simp⟩, ⟨_, rfl, by omega⟩⟩
    show burst _ _ ≤ 0
    rw [burst_rest _ (by omega)]; omega

theorem confirmed_pmI {ok : Bool} {s : PS} (hb : Basic s) (hba : s.pm.base = 512 ∨ s.pm.base = 1250)
    (hpe : s.pm.pendingId = 0) (hak : NoZeroPong s.ev → Proven s.ev s.pm.base) : PmI true (s.confirmed true ok) := by
  unfold PS.confirmed PS.chg
  apply probe_pmI
  · exact ⟨by simp, hb.nid, rfl, hb.eff.imp_left (fun h => ⟨h.1, by simp⟩), hb.bursts.reset (fun n => rfl), fun hz => (hb.known hz.tail).cons _, by simp⟩
  · refine ⟨hba, by simp, ?_, ?_, ?_, ?_, ?_, fun h => absurd hpe h, ?_⟩
    · intro _; show s.pm.base + 32 ≤ _; omega
    · omega
    · omega
    · intro _ n _; rfl
    · show burst _ (.state _ :: _) ≤ 0; exact Nat.le_refl 0
    · intro hz _; show Proven _ (s.pm.base + 32 - 32); rw [Nat.add_sub_cancel]; exact (hak hz.tail).cons _
  · show (0 : Nat) < 3; omega

theorem start_pmI {ok : Bool} {s : PS} (h : s.pm = {}) (hn : s.nid < 65536) (hbu : BurstsOk s.ev) : PmI true (s.start true ok) := by
  unfold PS.start PS.chg
  apply probe_pmI
  · refine ⟨by simp, hn, rfl, .inl ⟨by simp [h], by simp⟩, hbu.reset (fun n => rfl), fun _ => .inl (by simp [h]), by simp⟩
  · refine ⟨.inr rfl, fun _ => .inr rfl, by simp, by omega, by omega, fun _ n _ => rfl, ?_, ?_, by simp⟩
    · show burst _ (.state _ :: _) ≤ 0; exact Nat.le_refl 0
    · intro hp; rw [h] at hp; exact absurd rfl hp
  · show (0 : Nat) < 3; omega

theorem pong_pmI {on : Bool} {s : PS} (id : Nat) (h : PmI on s) : PmI on { s with ev := .pong id :: s.ev } := by
  obtain ⟨hb, h⟩ := h
  constructor
  · exact ⟨hb.act, hb.nid, hb.at_, hb.eff, hb.bursts.same (fun n => rfl), fun hz => (hb.known hz.tail).cons _, hb.cnt⟩
  · rcases h with ⟨hs, ht⟩ | h
    · exact .inl ⟨⟨hs.base, hs.be, hs.se, hs.lo, hs.hi, hs.bs, hs.bc, fun hp => .tail _ (hs.pend hp),
        fun hz h => (hs.prov hz.tail h).cons _⟩, ht⟩
    · exact .inr h

theorem ack_pmI {ok : Bool} {id : Nat} {s : PS} {rest : List PmEv} (hev : s.ev = .pong id :: rest) (h : PmI true s) :
    PmI true (s.ack true ok id) := by
  unfold PS.ack
  split
  · exact h
  · rename_i hid
    obtain ⟨hb, hf | hf⟩ := h
    case inr => exact absurd hf.1 (by simp)
    obtain ⟨hs, ht⟩ := hf
    have hid' : s.pm.pendingId = id := Classical.not_not.mp hid
    -- the acknowledged size
    have hack : NoZeroPong s.ev → Acked s.ev s.pm.probingSize := by
      intro hz
      have h0 : s.pm.pendingId ≠ 0 := by
        intro h0
        apply hz; rw [hev, ← hid', h0]; exact .head _
      have hm := hs.pend h0
      rw [hev] at hm
      rcases List.mem_cons.mp hm with hm | hm
      · cases hm
      · exact ⟨id, _, [], rest, Nat.le_refl _, hev, by rw [← hid']; exact hm⟩
    have hbase : NoZeroPong s.ev → Proven s.ev s.pm.base := by
      intro hz
      rcases hs.base with h | h <;> rw [h]
      · exact .inr (.inr ((hack hz).mono hs.lo))
      · exact .inr (.inl rfl)
    have hb' : Basic { s.time 0 with pm := { s.pm with pendingId := 0, probeCount := 0 } } :=
      ⟨hb.act, hb.nid, hb.at_, hb.eff, hb.bursts.reset (fun n => rfl), fun hz => (hb.known hz.tail).cons _, by simp⟩
    unfold PS.ackBody
    cases hst : s.pm.state with
    | disabled => exact absurd hst hb.act
    | base => exact confirmed_pmI hb' hs.base rfl (fun hz => (hbase hz.tail).cons _)
    | error => exact confirmed_pmI hb' hs.base rfl (fun hz => (hbase hz.tail).cons _)
    | searchComplete =>
      constructor
      · exact ⟨hb'.act, hb'.nid, hb'.at_, hb'.eff, hb'.bursts.reset (fun n => burst_rest n (by omega) _),
          fun hz => (hb'.known hz.tail).cons _, by simp [PS.retry]⟩
      · refine .inl ⟨⟨hs.base, hs.be, hs.se, hs.lo, hs.hi, ?_, ?_, fun h => absurd rfl h, ?_⟩, ⟨_, rfl, by omega⟩⟩
        · intro h; rw [show (({ s.time 0 with pm := { s.pm with pendingId := 0, probeCount := 0 } } : PS).retry 600000).pm.state = .searchComplete from hst] at h
          rcases h with h | h <;> cases h.1
        · show burst _ _ ≤ 0; rw [PS.retry, burst_rest _ (by omega)]; omega
        · intro _ h; rw [show (({ s.time 0 with pm := { s.pm with pendingId := 0, probeCount := 0 } } : PS).retry 600000).pm.state = .searchComplete from hst] at h; cases h
    | searching =>
      simp only
      split
      · exact complete_pmI hb' hs.base hs.lo hs.hi (fun hz => .inr (.inr ((hack hz.tail).cons _))) rfl
      · rename_i hp
        have hp : ¬s.pm.probingSize ≥ 1416 := hp
        apply probe_pmI hb'
        · have hk := stepOf_cases s.pm
          have hse := hs.se hst
          show Sized _ (min (s.pm.probingSize + stepOf s.pm) 1416)
          refine ⟨hs.base, ?_, ?_, ?_, ?_, ?_, ?_, fun h => absurd rfl h, ?_⟩
          · intro h; rcases h with h | h <;> exact absurd (hst.symm.trans h) (by simp)
          · intro _; show s.pm.base + stepOf s.pm ≤ _; omega
          · have := hs.lo; omega
          · omega
          · intro _ n _; rfl
          · show burst _ (.timer 0 :: _) ≤ 0; exact Nat.le_refl 0
          · intro hz _
            show Proven (.timer 0 :: s.ev) (min (s.pm.probingSize + stepOf s.pm) 1416 - stepOf s.pm)
            exact .inr (.inr (((hack hz.tail).mono (by omega)).cons _))
        · show (0 : Nat) < 3; omega

theorem timeoutBody_pmI {ok : Bool} {s : PS} (hb : Basic s) (hf : Sized { s with pm := { s.pm with probeCount := 3 } } s.pm.probingSize)
    (hp0 : s.pm.pendingId = 0) (hc0 : s.pm.probeCount = 0) : PmI true (s.timeoutBody true ok) := by
  unfold PS.timeoutBody
  cases hst : s.pm.state with
  | disabled => exact absurd hst hb.act
  | base =>
    simp only
    split
    · rename_i h12
      apply probe_pmI hb
      · refine ⟨hf.base, fun _ => .inl rfl, ?_, by omega, by omega, ?_, ?_, fun h => absurd hp0 h, ?_⟩
        · intro h; rw [hst] at h; cases h
        · intro h; rcases h with h | h
          · exact absurd h.2 (by omega)
          · exact absurd (hst.symm.trans h.1) (by simp)
        · have := hf.bs (.inl ⟨hst, h12⟩) 512 (by omega)
          rw [show burst 512 s.ev = 0 from this]; omega
        · intro _ h; rw [hst] at h; cases h
      · omega
    · rename_i h12
      constructor
      · exact ⟨by simp [PS.retry, PS.chg], hb.nid, rfl, hb.eff.imp_left (fun h => ⟨h.1, by simp [PS.retry, PS.chg]⟩), (hb.bursts.reset (fun n => rfl)).reset (fun n => burst_rest n (by omega) _),
          fun hz => ((hb.known hz.tail.tail).cons _).cons _, by simp [PS.retry]⟩
      · refine .inl ⟨⟨hf.base, fun _ => hf.be (.inl hst), by simp [PS.retry, PS.chg], hf.lo, hf.hi, by simp [PS.retry, PS.chg], ?_, fun h => absurd hp0 h, by simp [PS.retry, PS.chg]⟩, ⟨_, rfl, by omega⟩⟩
        show burst _ _ ≤ 0; rw [PS.retry, burst_rest _ (by omega)]; omega
  | error =>
    simp only
    constructor
    · exact ⟨hb.act, hb.nid, hb.at_, hb.eff, hb.bursts.reset (fun n => burst_rest n (by omega) _),
        fun hz => (hb.known hz.tail).cons _, by simp [PS.retry]⟩
    · refine .inl ⟨⟨hf.base, hf.be, hf.se, hf.lo, hf.hi, ?_, ?_, fun h => absurd hp0 h, ?_⟩, ⟨_, rfl, by omega⟩⟩
      · intro h; rcases h with h | h <;> exact absurd (hst.symm.trans h.1) (by simp)
      · show burst _ _ ≤ 0; rw [PS.retry, burst_rest _ (by omega)]; omega
      · intro _ h; exact absurd (hst.symm.trans h) (by simp)
  | searchComplete =>
    simp only
    apply probe_pmI
    · exact ⟨by simp, hb.nid, rfl, hb.eff.imp_left (fun h => ⟨h.1, by simp⟩), hb.bursts.reset (fun n => rfl), fun hz => (hb.known hz.tail).cons _, by simp⟩
    · refine ⟨.inl rfl, fun _ => .inl rfl, by simp, by omega, by omega, fun _ n _ => rfl, Nat.le_refl 0, fun h => absurd hp0 h, by simp⟩
    · show (0 : Nat) < 3; omega
  | searching =>
    simp only
    have hse : s.pm.base + stepOf s.pm ≤ s.pm.probingSize := hf.se hst
    have hba := hf.base
    simp only at hba
    split
    · rename_i hbig
      have hk : stepOf s.pm = 32 := by unfold stepOf; rw [if_pos hbig]
      have hhi := hf.hi
      apply probe_pmI
      · exact ⟨hb.act, hb.nid, hb.at_, hb.eff, hb.bursts, hb.known, hb.cnt⟩
      · refine ⟨hf.base, ?_, ?_, by omega, by omega, by simp [hst], ?_, fun h => absurd hp0 h, ?_⟩
        · intro h; rcases h with h | h <;> exact absurd (hst.symm.trans h) (by simp)
        · intro _; show s.pm.base + 8 ≤ _; omega
        · have := hf.bs (.inr ⟨hst, hbig⟩) (s.pm.probingSize - 32 + 8) (by omega)
          rw [show burst (s.pm.probingSize - 32 + 8) ({ s with pm := { s.pm with bigStep := false } } : PS).ev = 0 from this]; omega
        · intro hz _
          have := hf.prov hz hst
          show Proven s.ev (s.pm.probingSize - 32 + 8 - 8)
          rw [show stepOf ({ s with pm := { s.pm with probeCount := 3 } } : PS).pm = 32 from hk] at this
          rw [show s.pm.probingSize - 32 + 8 - 8 = s.pm.probingSize - 32 from by omega]
          exact this
      · show s.pm.probeCount < 3; omega
    · rename_i hbig
      have hk : stepOf s.pm = 8 := by unfold stepOf; rw [if_neg hbig]
      have hhi := hf.hi
      split
      · omega
      · refine complete_pmI ⟨hb.act, hb.nid, hb.at_, hb.eff, hb.bursts, hb.known, hb.cnt⟩ hf.base ?_ ?_ ?_ hp0
        · show 512 ≤ s.pm.probingSize - 8; omega
        · show s.pm.probingSize - 8 ≤ 1416; omega
        · intro hz
          have := hf.prov hz hst
          rw [show stepOf ({ s with pm := { s.pm with probeCount := 3 } } : PS).pm = 8 from hk] at this
          exact this

theorem PmI.relax {s : PS} (h : PmI true s) : PmI false s := by
  obtain ⟨hb, h | h⟩ := h
  · exact ⟨hb, .inl h⟩
  · exact absurd h.1 (by simp)

theorem timeout_pmI {ok : Bool} {s : PS} (h : PmI true s) : PmI true (s.timeout true ok) := by
  obtain ⟨hb, hf | hf⟩ := h
  case inr => exact absurd hf.1 (by simp)
  unfold PS.timeout
  split
  · rename_i hc
    exact probe_pmI hb hf.sized hc
  · rename_i hc
    have hcnt := hb.cnt
    have hs := hf.sized
    have hb0 : Basic { s with pm := { s.pm with pendingId := 0, probeCount := 0 } } :=
      ⟨hb.act, hb.nid, hb.at_, hb.eff, hb.bursts, hb.known, by simp⟩
    refine timeoutBody_pmI hb0 ?_ rfl rfl
    exact ⟨hs.base, hs.be, hs.se, hs.lo, hs.hi, hs.bs, Nat.le_trans hs.bc hcnt, fun h => absurd rfl h, hs.prov⟩

/-- Timeouts on a connection that is no longer ONLINE. -/
theorem timeout_pmI_off {ok : Bool} {s : PS} (h : PmI false s) : PmI false (s.timeout false ok) := by
  obtain ⟨hb, hf⟩ := h
  unfold PS.timeout
  split
  · rw [probe_off]; exact ⟨hb, hf⟩
  · rename_i hc
    rcases hf with hf | hf
    case inr => exact absurd hf.2 hc
    have hs := hf.sized
    have hb0 : Basic { s with pm := { s.pm with pendingId := 0, probeCount := 0 } } :=
      ⟨hb.act, hb.nid, hb.at_, hb.eff, hb.bursts, hb.known, by simp⟩
    unfold PS.timeoutBody
    cases hst : s.pm.state with
    | disabled => exact absurd hst hb.act
    | base =>
      simp only
      split
      · rw [probe_off]; exact ⟨hb0, .inr ⟨rfl, by simp⟩⟩
      · refine ⟨⟨by simp [PS.retry, PS.chg], hb.nid, rfl, hb.eff.imp_left (fun h => ⟨h.1, by simp [PS.retry, PS.chg]⟩), (hb.bursts.reset (fun n => rfl)).reset (fun n => burst_rest n (by omega) _),
          fun hz => ((hb.known hz.tail.tail).cons _).cons _, by simp [PS.retry]⟩, .inr ⟨rfl, by simp [PS.retry]⟩⟩
    | error =>
      exact ⟨⟨hb0.act, hb.nid, hb.at_, hb.eff, hb.bursts.reset (fun n => burst_rest n (by omega) _),
        fun hz => (hb.known hz.tail).cons _, by simp [PS.retry]⟩, .inr ⟨rfl, by simp [PS.retry]⟩⟩
    | searchComplete =>
      simp only
      rw [probe_off]
      exact ⟨⟨by simp, hb.nid, rfl, hb.eff.imp_left (fun h => ⟨h.1, by simp⟩), hb.bursts.reset (fun n => rfl), fun hz => (hb.known hz.tail).cons _, by simp⟩, .inr ⟨rfl, by simp⟩⟩
    | searching =>
      simp only
      have hse : s.pm.base + stepOf s.pm ≤ s.pm.probingSize := hs.se hst
      have hba := hs.base
      have hhi := hs.hi
      split
      · rw [probe_off]; exact ⟨⟨hb.act, hb.nid, hb.at_, hb.eff, hb.bursts, hb.known, by simp⟩, .inr ⟨rfl, by simp⟩⟩
      · rename_i hbig
        have hk : stepOf s.pm = 8 := by unfold stepOf; rw [if_neg hbig]
        split
        · exact ⟨hb0, .inr ⟨rfl, by simp⟩⟩
        · apply PmI.relax
          refine complete_pmI ⟨hb.act, hb.nid, hb.at_, hb.eff, hb.bursts, hb.known, by simp⟩ hs.base ?_ ?_ ?_ rfl
          · show 512 ≤ s.pm.probingSize - 8; omega
          · show s.pm.probingSize - 8 ≤ 1416; omega
          · intro hz
            have := hs.prov hz hst
            rw [hk] at this
            exact this

end Lightway
