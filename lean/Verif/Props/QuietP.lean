import Verif.Proofs.Quiet
import Verif.Spec.Budget
import Verif.Spec.Wire
import Verif.Props.Demo

/-!
# C116: the callbacks that inform the host change nothing else

A host may register the state-change, event and nudge-time callbacks or leave them out.  Two hosts that make the same calls
and differ in that only see the same return codes, the same states and events, the same calls of every other callback with the same
arguments, the same packets and datagrams, and the same calls into the TLS library.  The hypothesis is that the rest of the
world does not react to being informed (`Spec.Deaf`): a host that calls something different because of an event is a different list of calls.
-/

namespace Lightway
open Spec

namespace Quiet

theorem quiet_create : quiet Conn.create = Conn.create := rfl

theorem shut_create : Shut Conn.create := ⟨(by intro p h; cases h), (by intro p h; cases h)⟩

theorem fold_par {env : Env} (hE : Deaf env) {ops : List Op} (hc : ∀ op ∈ ops, DeafOp op) {c : Conn} (h : Shut c) :
    ParC (ops.foldl (fun c op => (step env c op).1) c) ((ops.map quietOp).foldl (fun c op => (step env c op).1) (quiet c)) := by
  induction ops generalizing c with
  | nil => exact parC h
  | cons op ops ih =>
    have k := (step_par hE (hc op (by simp)) h).fst
    simp only [List.map_cons, List.foldl_cons]
    rw [k.1]
    exact ih (fun o ho => hc o (by simp [ho])) k.2

theorem run_par {env : Env} (hE : Deaf env) {ops : List Op} (hc : ∀ op ∈ ops, DeafOp op) :
    run env (ops.map quietOp) = quiet (run env ops) := by
  have h := (fold_par hE hc shut_create).1
  rw [quiet_create] at h
  exact h

theorem datagrams_hush (l : Log) : datagrams (hushLog l) = datagrams l := by
  induction l with
  | nil => rfl
  | cons e l ih =>
    unfold datagrams hushLog at *
    cases e <;> simpa [List.filterMap_cons, hush] using ih

theorem delivered_hush (l : Log) : delivered (hushLog l) = delivered l := by
  induction l with
  | nil => rfl
  | cons e l ih =>
    cases e <;> simpa [delivered, hushLog, List.filterMap_cons, hush] using ih

end Quiet
open Quiet

/-- The whole history without the three callbacks is the history with them, their calls left out. -/
theorem C116_same_history {env : Env} (hE : Deaf env) {ops : List Op} (hc : ∀ op ∈ ops, DeafOp op) :
    (run env (ops.map quietOp)).log = hushLog (run env ops).log := by
  rw [run_par hE hc]; rfl

/-- Nor does the connection differ afterwards, in any field but the callback pointers and the flag that a nudge is awaited. -/
theorem C116_same_connection {env : Env} (hE : Deaf env) {ops : List Op} (hc : ∀ op ∈ ops, DeafOp op) :
    ∃ cbs running log, run env (ops.map quietOp) =
      { run env ops with cbs := cbs, nudgeTimerRunning := running, log := log } :=
  ⟨_, _, _, run_par hE hc⟩

/-- Two hosts that register different choices of the three and make the same calls otherwise. -/
theorem C116_any_choice {env : Env} (hE : Deaf env) {ops ops' : List Op} (hc : ∀ op ∈ ops, DeafOp op)
    (hc' : ∀ op ∈ ops', DeafOp op) (same : ops.map quietOp = ops'.map quietOp) :
    hushLog (run env ops).log = hushLog (run env ops').log ∧ (run env ops).state = (run env ops').state ∧
    datagrams (run env ops).log = datagrams (run env ops').log ∧
    delivered (run env ops).log = delivered (run env ops').log := by
  have h := run_par hE hc
  have h' := run_par hE hc'
  rw [same, h'] at h
  have k : hushLog (run env ops).log = hushLog (run env ops').log := (congrArg Conn.log h).symm
  exact ⟨k, (congrArg Conn.state h).symm, by rw [← datagrams_hush, k, datagrams_hush], by rw [← delivered_hush, k, delivered_hush]⟩

/-! ## Example: a client with all callbacks and one with none of the three -/

namespace Demo

/-- As `env`, with a random generator that does not count. -/
def deafEnv : Env := { env with rng := fun _ => some 77 }

theorem negotiations_hush (l : Log) : negotiations (hushLog l) = negotiations l := by
  induction l with
  | nil => rfl
  | cons e l ih =>
    unfold negotiations hushLog at *
    cases e <;> simpa [List.filterMap_cons, hush, List.countP_cons] using ih

theorem deafEnv_deaf : Deaf deafEnv where
  ssl l call := by
    cases call with
    | negotiate => simp [deafEnv, env, ssl2, negotiations_hush, ssl]
    | _ => rfl
  sslVersion _ := rfl
  outsideWrite _ := rfl
  netConfig _ := rfl
  serverConfig _ := rfl
  pmtudTime _ := rfl
  rng _ := rfl
  now _ := rfl
  alloc _ := rfl
  populate _ := rfl
  authUserPass _ := rfl
  authToken _ := rfl
  authBuf _ := rfl

theorem client_deaf : ∀ op ∈ clientOps, DeafOp op := by
  intro op h
  simp only [clientOps, clientOpsWith, List.mem_cons, List.not_mem_nil, or_false] at h
  rcases h with rfl | rfl | rfl | rfl | rfl | rfl <;> first | trivial | exact ⟨(by intro p h; cases h), (by intro p h; cases h)⟩

/-- The first host is told of states and events and asked for a nudge; the second is not, and both come ONLINE. -/
theorem told_and_not :
    (run deafEnv clientOps).log.contains (.state .online true) = true ∧
    (run deafEnv clientOps).log.any (fun e => match e with | .event _ true => true | _ => false) = true ∧
    (run deafEnv clientOps).log.any (fun e => match e with | .nudgeTime _ => true | _ => false) = true ∧
    (run deafEnv (clientOps.map quietOp)).log.any
      (fun e => match e with | .state _ true => true | .event _ true => true | .nudgeTime _ => true | _ => false) = false ∧
    (run deafEnv (clientOps.map quietOp)).state = .online := by
  decide +kernel

example : (run deafEnv (clientOps.map quietOp)).log = hushLog (run deafEnv clientOps).log :=
  C116_same_history deafEnv_deaf client_deaf

end Demo

end Lightway
