import Verif.Proofs.PmAcc
import Verif.Props.PmtudP
import Verif.Props.Login

/-!
# C87: on a path of a given capacity, discovery finds it
-/

namespace Lightway
open Spec

/-- The history is that of a path of capacity `L`: the peer answers only probes that fit, and the host's timer fires
while a probe awaits its answer only when that probe did not fit. -/
structure Spec.PathOf (env : Env) (L : Nat) (ops : List Op) : Prop where
  pongs : HonestPongs L (pmEvents (run env ops).log)
  timeouts : ∀ a b, ops = a ++ .pmtudTimeout :: b → AwaitsAnswer (pmEvents (run env a).log) →
    ∀ m, lastProbed (pmEvents (run env a).log) = some m → L < m

theorem run_accC {env : Env} {L : Nat} {pre post : List Op} (h : ConnectedOnce pre post) (hp : PathOf env L (pre ++ post)) :
    AccC L (run env (pre ++ post)) := by
  induction post using snoc_induct with
  | h0 =>
    have h1 : PmIdle (run env pre) := run_induct (P := PmIdle) (Q := fun o => o ≠ .startPmtud) create_pmIdle
      (fun c op hq hg hp => hp.step hg op (Op.ne_startPmtud hq)) pre h.1
    rw [List.append_nil]
    intro _ hd
    rw [h1.pm] at hd; exact absurd rfl hd
  | h1 l op ih =>
    have hc : ConnectedOnce pre l := ⟨h.1, fun o ho => h.2 o (List.mem_append_left _ ho)⟩
    have hop : ¬IsConnect op.api := h.2 op (List.mem_append_right _ (.head _))
    have hg := run_good env (pre ++ l)
    have e : run env (pre ++ (l ++ [op])) = (step env (run env (pre ++ l)) op).1 := by
      rw [← List.append_assoc, run_snoc]
    have hpongs := hp.pongs
    rw [e] at hpongs ⊢
    have hl : PathOf env L (pre ++ l) := by
      refine ⟨?_, fun a b hab => hp.timeouts a (b ++ [op]) (by rw [← List.append_assoc, hab]; simp)⟩
      obtain ⟨o, hi⟩ := hg.inv
      obtain ⟨x, ex, -⟩ := step_log env op hi
      rw [ex, show Effect.ret (step env (run env (pre ++ l)) op).2 :: x ++ Effect.api op.api :: (run env (pre ++ l)).log =
        (Effect.ret (step env (run env (pre ++ l)) op).2 :: x ++ [Effect.api op.api]) ++ (run env (pre ++ l)).log from by simp,
        pmEvents_ext] at hpongs
      exact hpongs.suffix
    refine AccC.step hg op hop (run_pmC env hc) (ih hc hl) hpongs ?_
    intro hpt
    exact hp.timeouts (pre ++ l) [] (by rw [hpt]; simp)

/-- **C87** On a path of capacity `L`, whenever the connection is ONLINE and discovery is at rest, the size in use is
at most `L` and less than 8 bytes below `L` (below 1416 if `L` is larger); except that the first search on a path that
takes less than 1250 ends with 1250, which the next one corrects. -/
theorem C87_accurate (env : Env) {L : Nat} {pre post : List Op} (h : ConnectedOnce pre post)
    (hp : PathOf env L (pre ++ post)) :
    let c := run env (pre ++ post)
    c.state = .online → pmAt (pmEvents c.log) = .searchComplete →
    Settles L (searches (pmEvents c.log)) (effectivePmtu c) := by
  intro c hon hsc
  have hc := run_pmC env h
  have hacc := run_accC h hp
  have hst : c.pmtud.state = .searchComplete := by rw [← hc.state]; exact hsc
  have hne : c.pmtud.state ≠ .disabled := by rw [hst]; simp
  have ha := (hacc hon hne).done hst
  have hpi := (PmC.pmI hc hon hne).2.1.eff
  have heff : effectivePmtu c = c.pmtud.effective := by
    unfold effectivePmtu
    rw [if_neg]
    rintro (h0 | h0)
    · rcases hpi with h | h
      · exact h.2 hst
      · have : 512 ≤ c.pmtud.effective := h.1
        omega
    · exact h0 hst
  rw [heff]
  exact ha

/-- **C87** On a path that takes 512 bytes, discovery on an ONLINE connection never announces ERROR: by `C37_search_ends`
and `C38_never_stalls` every search then ends in SEARCH_COMPLETE.  On a path that does not, it never gets beyond BASE and
ERROR. -/
theorem C87_phases (env : Env) {L : Nat} {pre post : List Op} (h : ConnectedOnce pre post)
    (hp : PathOf env L (pre ++ post)) :
    let c := run env (pre ++ post)
    let p := pmAt (pmEvents c.log)
    c.state = .online → p ≠ .disabled →
    (512 ≤ L → p = .base ∨ p = .searching ∨ p = .searchComplete) ∧ (L < 512 → p = .base ∨ p = .error) := by
  intro c p hon hd
  have hc := run_pmC env h
  have hp' : p = c.pmtud.state := hc.state
  rw [hp'] at hd ⊢
  have ha := (run_accC h hp hon hd).ph
  refine ⟨fun h5 => ?_, fun h5 => ha.2 h5⟩
  have hne : c.pmtud.state ≠ .error := ha.1 h5
  cases hs : c.pmtud.state <;> simp_all

/-! ## Paths of capacity 1320, 600, 500 and 9000 -/

/-- `HonestPongs`, decided. -/
def Demo.honest (L : Nat) : List PmEv → Bool
  | [] => true
  | .pong id :: l => id != 0 && (match sizeOfProbe id l with | some m => decide (m ≤ L) | none => true) && honest L l
  | _ :: l => honest L l

theorem Demo.honest_spec {L : Nat} {ev : List PmEv} (h : Demo.honest L ev = true) : HonestPongs L ev := by
  induction ev with
  | nil => intro newer id older e; cases newer <;> cases e
  | cons x ev ih =>
    have htail : Demo.honest L ev = true := by
      cases x <;> first | exact h | (simp [Demo.honest] at h; exact h.2)
    intro newer id older e
    cases newer with
    | nil =>
      injection e with e1 e2
      subst e1 e2
      simp only [Demo.honest, Bool.and_eq_true] at h
      refine ⟨by simpa using h.1.1, fun m hm => ?_⟩
      have := h.1.2
      rw [hm] at this
      simpa using this
    | cons y ys =>
      injection e with _ e2
      exact ih htail ys id older e2

/-- The condition on timeouts, decided. -/
def Demo.timely (env : Env) (L : Nat) (ops : List Op) : Bool :=
  (List.range ops.length).all (fun i => match ops[i]? with
    | some .pmtudTimeout =>
      let ev := pmEvents (run env (ops.take i)).log
      match lastTimer ev, lastProbed ev with
      | some t, some m => decide (t < 60000 → L < m)
      | _, _ => true
    | _ => true)

theorem Demo.pathOf {env : Env} {L : Nat} {ops : List Op} (h1 : Demo.honest L (pmEvents (run env ops).log) = true)
    (h2 : Demo.timely env L ops = true) : PathOf env L ops := by
  refine ⟨Demo.honest_spec h1, ?_⟩
  intro a b hab ⟨t, ht, hlt⟩ m hm
  unfold Demo.timely at h2
  rw [List.all_eq_true] at h2
  have := h2 a.length (by rw [hab]; simp)
  rw [show ops[a.length]? = some .pmtudTimeout from by rw [hab]; simp, show ops.take a.length = a from by rw [hab]; simp] at this
  simp only [ht, hm] at this
  exact (of_decide_eq_true this) hlt

def Demo.path1320 : List Op := [.startPmtud, Demo.pongOp 1, Demo.pongOp 2, Demo.pongOp 3] ++ Demo.timeouts 6

/-- 1250 lost, 512 answered, 1282 and 1258 lost: 1250.  Ten minutes later 1250 is lost three times, then 512, 544, 576
answered, 608 lost, 584, 592, 600 answered, 608 lost: 600. -/
def Demo.path600 : List Op :=
  [.startPmtud] ++ Demo.timeouts 3 ++ [Demo.pongOp 4] ++ Demo.timeouts 6

def Demo.path600b : List Op :=
  Demo.path600 ++ Demo.timeouts 4 ++ [Demo.pongOp 14, Demo.pongOp 15, Demo.pongOp 16] ++ Demo.timeouts 3 ++
    [Demo.pongOp 20, Demo.pongOp 21, Demo.pongOp 22] ++ Demo.timeouts 3

def Demo.path9000 : List Op :=
  [.startPmtud, Demo.pongOp 1, Demo.pongOp 2, Demo.pongOp 3, Demo.pongOp 4, Demo.pongOp 5, Demo.pongOp 6, Demo.pongOp 7]

example : PathOf Demo.env 1320 (Demo.clientOps ++ Demo.path1320) ∧
    (let c := run Demo.env (Demo.clientOps ++ Demo.path1320)
     c.state = .online ∧ pmAt (pmEvents c.log) = .searchComplete ∧ effectivePmtu c = 1314) :=
  ⟨Demo.pathOf (by decide +kernel) (by decide +kernel), by decide +kernel⟩

example : PathOf Demo.env 600 (Demo.clientOps ++ Demo.path600) ∧
    (let c := run Demo.env (Demo.clientOps ++ Demo.path600)
     c.state = .online ∧ pmAt (pmEvents c.log) = .searchComplete ∧ searches (pmEvents c.log) = 1 ∧ effectivePmtu c = 1250) :=
  ⟨Demo.pathOf (by decide +kernel) (by decide +kernel), by decide +kernel⟩

example : PathOf Demo.env 600 (Demo.clientOps ++ Demo.path600b) ∧
    (let c := run Demo.env (Demo.clientOps ++ Demo.path600b)
     c.state = .online ∧ pmAt (pmEvents c.log) = .searchComplete ∧ searches (pmEvents c.log) = 2 ∧ effectivePmtu c = 600) :=
  ⟨Demo.pathOf (by decide +kernel) (by decide +kernel), by decide +kernel⟩

example : PathOf Demo.env 9000 (Demo.clientOps ++ Demo.path9000) ∧
    (let c := run Demo.env (Demo.clientOps ++ Demo.path9000)
     c.state = .online ∧ pmAt (pmEvents c.log) = .searchComplete ∧ effectivePmtu c = 1416) :=
  ⟨Demo.pathOf (by decide +kernel) (by decide +kernel), by decide +kernel⟩

example : PathOf Demo.env 500 (Demo.clientOps ++ ([.startPmtud] ++ Demo.timeouts 6)) ∧
    (let c := run Demo.env (Demo.clientOps ++ ([.startPmtud] ++ Demo.timeouts 6))
     c.state = .online ∧ pmAt (pmEvents c.log) = .error) :=
  ⟨Demo.pathOf (by decide +kernel) (by decide +kernel), by decide +kernel⟩

end Lightway
