import Verif.Proofs.Trav5

/-!
# Consequences of the micro-step decomposition used by many properties
-/

namespace Lightway
open Spec

/-- One call: its marker, what happened inside, its return. -/
theorem step_log (env : Env) {o : Option Api} {c : Conn} (op : Op) (hi : Inv env o c) :
    ∃ l, (step env c op).1.log = .ret (step env c op).2 :: l ++ .api op.api :: c.log ∧
      ∀ x ∈ l, NoMark x := by
  obtain ⟨l, e, h⟩ := (exec_star env o c op hi).logExt
  refine ⟨l, ?_, h⟩
  have e2 : (entry c op).log = .api op.api :: c.log := by cases op <;> rfl
  rw [e2] at e
  show .ret _ :: (exec env (c.emit (.api op.api)) op).1.log = _
  rw [e]; rfl

/-- The state changes only along an edge. -/
theorem Micro.state_cases {env : Env} {a : Api} {c c' : Conn} (h : Micro env a c c') :
    c'.state = c.state ∨ (Edge a c c'.state ∧ c.state ≠ c'.state) := by
  cases h with
  | io r => left; have := (ioStep_frame env c r).fields; simp [this]
  | state s hne h => right; rw [setState_state]; exact ⟨h, hne⟩
  | configure ctx h => left; exact (configure_fields env c ctx).2.1
  | probeAck id h hs hm => left; have := (handleProbeAck_frame env c id).fields; simp [this]
  | probeTimeout h => left; have := (handleProbeTimeout_frame env c).fields; simp [this]
  | startBase h hs hd => left; have := (startBaseProbing_frame env c).fields; simp [this]
  | _ => left; rfl

theorem Star.state_preserved {env : Env} {a : Api} {c c' : Conn} (S : ConnState → Prop)
    (hS : ∀ (c : Conn) s, S c.state → Edge a c s → S s) (h : M env a c c') (h0 : S c.state) :
    S c'.state := by
  induction h with
  | refl => exact h0
  | tail _ s ih =>
    rcases s.state_cases with e | ⟨e, _⟩
    · rw [e]; exact ih
    · exact hS _ _ ih e

theorem entry_state (c : Conn) (op : Op) : (entry c op).state = c.state := by cases op <;> rfl

theorem step_state (env : Env) {o : Option Api} {c : Conn} (op : Op) (hi : Inv env o c)
    (S : ConnState → Prop) (hS : ∀ (c : Conn) s, S c.state → Edge op.api c s → S s)
    (h0 : S c.state) : S (step env c op).1.state := by
  have := (exec_star env o c op hi).state_preserved S hS (by rw [entry_state c op]; exact h0)
  exact this

/-- Extending a run by one call. -/
theorem run_snoc (env : Env) (ops : List Op) (op : Op) :
    run env (ops ++ [op]) = (step env (run env ops) op).1 := by
  simp [run]

end Lightway
