import Verif.Proofs.PmRun

/-!
# Termination of the search
`weight` bounds the number of further timeouts and acknowledgements in the BASE and SEARCHING phases.
-/

namespace Lightway
open Spec

def weight (p : Pmtud) : Nat :=
  match p.state with
  | .base => (if p.probingSize = 1250 then 575 else 570) + (4 - p.probeCount)
  | .searching => (if p.bigStep then 453 + 4 * ((1416 - p.probingSize + 31) / 32) else 4 * ((1416 - p.probingSize + 7) / 8)) +
      (4 - p.probeCount)
  | _ => 0

theorem weight_le {s : PS} (h : PmI true s) : weight s.pm ≤ 579 := by
  obtain ⟨hb, hf | hf⟩ := h
  case inr => exact absurd hf.1 (by simp)
  have hs := hf.sized
  unfold weight
  cases hst : s.pm.state with
  | searching =>
    simp only
    have := hs.se hst
    have h2 := hs.base
    have h3 := stepOf_cases s.pm
    split <;> omega
  | base => simp only; split <;> omega
  | _ => simp only; omega

theorem probe_weight {ok : Bool} {s : PS} {mtu : Nat} (h1 : 512 ≤ mtu) (h2 : mtu ≤ 1416) :
    (s.probe true ok mtu).pm.state = s.pm.state ∧
    weight (s.probe true ok mtu).pm = weight { s.pm with probingSize := mtu, probeCount := (s.pm.probeCount + 1) % 256 } ∧
    ackCount (s.probe true ok mtu).ev = ackCount s.ev := by
  rw [probe_on h1 h2]
  refine ⟨rfl, rfl, ?_⟩
  show ackCount s.ev + (if (if ok then 5000 else 10 : Nat) = 0 then 1 else 0) = _
  cases ok <;> simp

theorem timeout_weight {ok : Bool} {s : PS} (h : PmI true s) (hp : Probing s.pm.state)
    (hp' : Probing (s.timeout true ok).pm.state) :
    weight (s.timeout true ok).pm + 1 ≤ weight s.pm ∧ ackCount (s.timeout true ok).ev = ackCount s.ev := by
  obtain ⟨hb, hf | hf⟩ := h
  case inr => exact absurd hf.1 (by simp)
  have hs := hf.sized
  have hc := hb.cnt
  have hlo := hs.lo
  have hhi := hs.hi
  have hse := hs.se
  have hba := hs.base
  have hk := stepOf_cases s.pm
  by_cases hcnt : s.pm.probeCount < 3
  · have e : s.timeout true ok = s.probe true ok s.pm.probingSize := if_pos hcnt
    rw [e]
    obtain ⟨-, e2, e3⟩ := probe_weight (ok := ok) (s := s) hlo hhi
    rw [e2]
    refine ⟨?_, e3⟩
    unfold weight
    rcases hp with hp | hp <;> rw [hp]
    · simp only; omega
    · simp only; omega
  · have e : s.timeout true ok = PS.timeoutBody true ok { s with pm := { s.pm with pendingId := 0, probeCount := 0 } } := if_neg hcnt
    have hc3 : s.pm.probeCount = 3 := by omega
    rw [e] at hp' ⊢
    rcases hp with hp | hp
    · have e2 : PS.timeoutBody true ok { s with pm := { s.pm with pendingId := 0, probeCount := 0 } } =
          if s.pm.probingSize = 1250 then PS.probe true ok { s with pm := { s.pm with pendingId := 0, probeCount := 0 } } 512
          else (PS.chg { s with pm := { s.pm with pendingId := 0, probeCount := 0 } } .error).retry 60000 := by
        unfold PS.timeoutBody
        rw [show ({ s with pm := { s.pm with pendingId := 0, probeCount := 0 } } : PS).pm.state = .base from hp]
      rw [e2] at hp' ⊢
      by_cases h12 : s.pm.probingSize = 1250
      · rw [if_pos h12]
        obtain ⟨-, e2, e3⟩ := probe_weight (ok := ok) (s := { s with pm := { s.pm with pendingId := 0, probeCount := 0 } }) (mtu := 512) (by omega) (by omega)
        rw [e2]
        refine ⟨?_, e3⟩
        unfold weight
        rw [hp]
        simp only [h12, hc3]
        simp
      · rw [if_neg h12] at hp'
        rcases hp' with hp' | hp' <;> cases hp'
    · have hse := hse hp
      have e2 : PS.timeoutBody true ok { s with pm := { s.pm with pendingId := 0, probeCount := 0 } } =
          if s.pm.bigStep then
            PS.probe true ok { s with pm := { s.pm with pendingId := 0, probeCount := 0, bigStep := false } } (s.pm.probingSize - 32 + 8)
          else if s.pm.probingSize ≤ s.pm.base then { s with pm := { s.pm with pendingId := 0, probeCount := 0 } }
          else PS.complete { s with pm := { s.pm with pendingId := 0, probeCount := 0, probingSize := s.pm.probingSize - 8 } } := by
        unfold PS.timeoutBody
        rw [show ({ s with pm := { s.pm with pendingId := 0, probeCount := 0 } } : PS).pm.state = .searching from hp]
      rw [e2] at hp' ⊢
      by_cases hbig : s.pm.bigStep = true
      · rw [if_pos hbig]
        have hk2 : stepOf s.pm = 32 := by unfold stepOf; rw [if_pos hbig]
        obtain ⟨-, e2, e3⟩ := probe_weight (ok := ok) (s := { s with pm := { s.pm with pendingId := 0, probeCount := 0, bigStep := false } })
          (mtu := s.pm.probingSize - 32 + 8) (by omega) (by omega)
        rw [e2]
        refine ⟨?_, e3⟩
        unfold weight
        rw [hp]
        simp only [hbig, hc3, if_true]
        simp only [Bool.false_eq_true, if_false]
        omega
      · rw [if_neg hbig] at hp' ⊢
        have hk2 : stepOf s.pm = 8 := by unfold stepOf; rw [if_neg hbig]
        rw [if_neg (by omega)] at hp'
        rcases hp' with hp' | hp' <;> cases hp'

theorem ack_weight {ok : Bool} {id : Nat} {s : PS} (h : PmI true s) (hp : Probing s.pm.state) :
    (Probing (s.ack true ok id).pm.state ∧
      weight (s.ack true ok id).pm + ackCount (s.ack true ok id).ev ≤ weight s.pm + ackCount s.ev) ∨
    (s.ack true ok id).pm.state = .searchComplete := by
  obtain ⟨hb, hf | hf⟩ := h
  case inr => exact absurd hf.1 (by simp)
  have hs := hf.sized
  have hc := hb.cnt
  have hlo := hs.lo
  have hhi := hs.hi
  have hse := hs.se
  have hba := hs.base
  have hk := stepOf_cases s.pm
  unfold PS.ack
  split
  · exact .inl ⟨hp, Nat.le_refl _⟩
  · have hac : ackCount (.timer 0 :: s.ev) = ackCount s.ev + 1 := rfl
    rcases hp with hp | hp
    · have e2 : PS.ackBody true ok { s.time 0 with pm := { s.pm with pendingId := 0, probeCount := 0 } } =
          PS.confirmed true ok { s.time 0 with pm := { s.pm with pendingId := 0, probeCount := 0 } } := by
        unfold PS.ackBody
        rw [show ({ s.time 0 with pm := { s.pm with pendingId := 0, probeCount := 0 } } : PS).pm.state = .base from hp]
      rw [e2]
      unfold PS.confirmed PS.chg
      obtain ⟨e0, e2, e3⟩ := probe_weight (ok := ok)
        (s := { pm := { s.pm with pendingId := 0, state := .searching, probeCount := 0, bigStep := true }, nid := s.nid, ev := .state .searching :: .timer 0 :: s.ev })
        (mtu := s.pm.base + 32) (by omega) (by omega)
      refine .inl ⟨.inr e0, ?_⟩
      refine Nat.le_trans (Nat.le_of_eq (congr (congrArg _ e2) e3)) ?_
      rw [show ackCount (.state .searching :: .timer 0 :: s.ev) = ackCount s.ev + 1 from rfl]
      unfold weight
      rw [hp]
      simp only [if_true]
      split <;> omega
    · have hse := hse hp
      have e2 : PS.ackBody true ok { s.time 0 with pm := { s.pm with pendingId := 0, probeCount := 0 } } =
          if s.pm.probingSize ≥ 1416 then PS.complete { s.time 0 with pm := { s.pm with pendingId := 0, probeCount := 0 } }
          else PS.probe true ok { s.time 0 with pm := { s.pm with pendingId := 0, probeCount := 0 } }
            (min (s.pm.probingSize + stepOf s.pm) 1416) := by
        unfold PS.ackBody
        rw [show ({ s.time 0 with pm := { s.pm with pendingId := 0, probeCount := 0 } } : PS).pm.state = .searching from hp]
        rfl
      rw [e2]
      by_cases hm : s.pm.probingSize ≥ 1416
      · rw [if_pos hm]; exact .inr rfl
      · rw [if_neg hm]
        obtain ⟨e0, e2, e3⟩ := probe_weight (ok := ok)
          (s := { s.time 0 with pm := { s.pm with pendingId := 0, probeCount := 0 } })
          (mtu := min (s.pm.probingSize + stepOf s.pm) 1416) (by omega) (by omega)
        refine .inl ⟨.inr (e0.trans hp), ?_⟩
        refine Nat.le_trans (Nat.le_of_eq (congr (congrArg _ e2) e3)) ?_
        rw [show ackCount (({ s.time 0 with pm := { s.pm with pendingId := 0, probeCount := 0 } } : PS)).ev = ackCount s.ev + 1 from rfl]
        unfold weight
        rw [hp]
        rcases hk with ⟨h1, h2⟩ | ⟨h1, h2⟩
        · simp only [h1, h2, if_true]; omega
        · simp only [h1, h2, Bool.false_eq_true, if_false]; omega

theorem ack_complete {ok : Bool} {id : Nat} {s : PS} (hp : s.pm.state = .searchComplete) :
    (s.ack true ok id).pm.state = .searchComplete := by
  unfold PS.ack
  split
  · exact hp
  · unfold PS.ackBody
    rw [show ({ s.time 0 with pm := { s.pm with pendingId := 0, probeCount := 0 } } : PS).pm.state = .searchComplete from hp]
    exact hp

/-- Still searching within the budget, or done. -/
def Within (W : Nat) (c : Conn) : Prop :=
  (Probing c.pmtud.state ∧ weight c.pmtud + ackCount (pmEvents c.log) ≤ W) ∨ c.pmtud.state = .searchComplete

theorem Within.kept {W : Nat} {c c' : Conn} (h : Within W c) (hk : PmKeep c c') : Within W c' := by
  unfold Within; rw [hk.pm, hk.ev]; exact h

theorem Micro.within {env : Env} {a : Api} {c c' : Conn} {W : Nat} (hm : Micro env a c c') (ha : ¬IsConnect a)
    (ht : a ≠ .pmtudTimeout) (hp : PmActive c) (hw : Within W c) : Within W c' := by
  cases hm.pmKind with
  | keep hk hc => exact hw.kept hk
  | message p =>
    unfold Within
    have : ackCount (pmEvents (.message p :: c.log)) = ackCount (pmEvents c.log) := by
      rcases pmEvents_message p c.log with e | ⟨id, e⟩ <;> rw [e]
      rfl
    show (_ ∧ _ + ackCount (pmEvents (.message p :: c.log)) ≤ W) ∨ _
    rw [this]; exact hw
  | ack id hs hev h =>
    have hon : c.state = .online := by
      rcases hp.late with h | h | h
      · exact h
      · exact absurd h hs.2.1
      · exact absurd h hs.2.2
    obtain ⟨ok, e⟩ := ack_sim env c id hp.cbs.1 hp.cbs.2 hp.ok.1.nid
    have hpo := hp.ok
    rw [show (c.state == ConnState.online) = true from by simp [hon]] at e hpo
    have e1 : (handleProbeAck env c id).1.pmtud = (c.ps.ack true ok id).pm := congrArg PS.pm e
    have e2 : pmEvents (handleProbeAck env c id).1.log = (c.ps.ack true ok id).ev := congrArg PS.ev e
    unfold Within
    rw [e1, e2]
    rcases hw with ⟨h1, h2⟩ | hw
    · rcases ack_weight (ok := ok) (id := id) hpo h1 with ⟨h3, h4⟩ | h3
      · exact .inl ⟨h3, Nat.le_trans h4 h2⟩
      · exact .inr h3
    · exact .inr (ack_complete hw)
  | timeout h => exact absurd h ht
  | start h hs hd => exact absurd hd hp.ok.1.act

theorem pmActive_of {c : Conn} (h : PmC c) (hp : Probing c.pmtud.state) : PmActive c := by
  rcases h with h | h
  · rw [h.pm] at hp; rcases hp with h | h <;> cases h
  · exact h

theorem PmC.state {c : Conn} (h : PmC c) : pmAt (pmEvents c.log) = c.pmtud.state := by
  rcases h with h | h
  · rw [h.ev.at_, h.pm]
  · exact h.ok.1.at_

/-- A call during the search uses up the budget. -/
theorem step_weight {env : Env} {c : Conn} (hg : Good env c) (op : Op) (ha : ¬IsConnect op.api) (hc : PmC c)
    (hon : c.state = .online) (hp : Probing c.pmtud.state) (hp' : Probing (step env c op).1.pmtud.state) :
    weight (step env c op).1.pmtud + ackCount (pmEvents (step env c op).1.log) + (if op.api = .pmtudTimeout then 1 else 0) ≤
      weight c.pmtud + ackCount (pmEvents c.log) := by
  have hact := pmActive_of hc hp
  by_cases ht : op.api = .pmtudTimeout
  · have hop : op = .pmtudTimeout := by cases op <;> first | rfl | cases ht
    subst hop
    rw [if_pos ht]
    obtain ⟨ok, e⟩ := timeout_sim env (c.emit (.api .pmtudTimeout)) hact.cbs.1 hact.cbs.2 hact.ok.1.nid
    have hpo := hact.ok
    rw [show ((c.emit (.api .pmtudTimeout)).state == ConnState.online) = true from by simp [Conn.emit, hon]] at e
    rw [show (c.state == ConnState.online) = true from by simp [hon]] at hpo
    have e0 : (c.emit (.api .pmtudTimeout)).ps = c.ps := rfl
    rw [e0] at e
    have e1 : (step env c .pmtudTimeout).1.pmtud = (c.ps.timeout true ok).pm := congrArg PS.pm e
    have e2 : pmEvents (step env c .pmtudTimeout).1.log = (c.ps.timeout true ok).ev := congrArg PS.ev e
    rw [e1] at hp'
    rw [e1, e2]
    obtain ⟨h1, h2⟩ := timeout_weight (ok := ok) hpo hp hp'
    rw [h2]
    show _ + _ + 1 ≤ weight c.ps.pm + ackCount c.ps.ev
    omega
  · rw [if_neg ht]
    obtain ⟨o, hi⟩ := hg.inv
    have hx := exec_star env o c op hi
    obtain ⟨k1, k2, k3⟩ := entry_pmKeep c op
    have h0 : PmActive (entry c op) ∧ Within (weight c.pmtud + ackCount (pmEvents c.log)) (entry c op) := by
      refine ⟨⟨by rw [k3]; exact hact.late, by rw [k2.1, k2.2]; exact hact.cbs, by rw [k3]; exact hact.ok.kept k1⟩, ?_⟩
      exact Within.kept (.inl ⟨hp, Nat.le_refl _⟩) k1
    have key : PmActive (exec env (c.emit (.api op.api)) op).1 ∧
        Within (weight c.pmtud + ackCount (pmEvents c.log)) (exec env (c.emit (.api op.api)) op).1 := by
      generalize (exec env (c.emit (.api op.api)) op).1 = q at hx
      induction hx with
      | refl => exact h0
      | tail _ s ih =>
        refine ⟨?_, s.within ha ht ih.1 ih.2⟩
        rcases s.pmC ha (.inr ih.1) with h | h
        · exfalso
          have := s.within ha ht ih.1 ih.2
          rcases this with ⟨h', -⟩ | h'
          · rw [h.pm] at h'; rcases h' with h' | h' <;> cases h'
          · rw [h.pm] at h'; cases h'
        · exact h
    have key2 : Within (weight c.pmtud + ackCount (pmEvents c.log)) (step env c op).1 := key.2.kept (.emit _ rfl)
    rcases key2 with ⟨-, h⟩ | h
    · exact h
    · rw [h] at hp'; rcases hp' with h' | h' <;> cases h'

end Lightway
