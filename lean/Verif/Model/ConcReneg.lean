import Verif.Model.Types

/-!
# The multithreaded build (`HE_ENABLE_MULTITHREADED`): renegotiations
`renegotiation_due` and `renegotiation_in_progress` are fields of the connection.  A thread that has handled a datagram looks at
both; the host may ask for a renegotiation at any moment from any thread.  A schedule picks which thread makes its next access.
The connection is ONLINE, the TLS library supports renegotiation and its calls succeed or would block; the nudge time (C121) is left out.
-/

namespace Lightway.ConcReneg

/-- A call; `pending` is what the TLS library will say when asked whether the renegotiation is still under way. -/
inductive Job
  /-- The end of `he_internal_flow_outside_data_handle_messages`. src/he/flow.c:493-527 -/
  | receive (pending : Bool)
  /-- `he_conn_schedule_renegotiation`. src/he/conn.c:696-704 -/
  | schedule
  deriving DecidableEq, Repr

/-- Where a thread is. -/
inductive Pc
  /-- between calls -/
  | idle
  /-- about to set `renegotiation_due`. src/he/conn.c:702 -/
  | sched
  /-- about to test `renegotiation_due`. src/he/flow.c:493 -/
  | due (pending : Bool)
  /-- about to clear it. src/he/conn.c:712 -/
  | clear (pending : Bool)
  /-- about to test `renegotiation_in_progress`. src/he/conn.c:713 -/
  | check (pending : Bool)
  /-- about to have the TLS library begin. src/he/conn.c:727-730 -/
  | rekey (pending : Bool)
  /-- about to set `renegotiation_in_progress`. src/he/conn.c:732 -/
  | mark (pending : Bool)
  /-- about to tell the host. src/he/conn.c:733 -/
  | begun (pending : Bool)
  /-- about to test `renegotiation_in_progress`. src/he/flow.c:501 -/
  | test (pending : Bool)
  /-- about to ask the TLS library and tell the host if it is over. src/he/flow.c:504-519 -/
  | ask (pending : Bool)
  /-- about to store what the TLS library said. src/he/flow.c:520 -/
  | store (pending : Bool)
  deriving DecidableEq, Repr

/-- What happened. -/
inductive Act
  /-- the host asked for a renegotiation -/
  | asked
  /-- the TLS library was told to begin one -/
  | rekeyed
  /-- event SECURE_RENEGOTIATION_STARTED -/
  | started
  /-- event SECURE_RENEGOTIATION_COMPLETED -/
  | completed
  deriving DecidableEq, Repr

/-- The two fields, the calls each thread has still to make, where it is, and what happened (newest first). -/
structure World where
  isDue : Bool := false
  inProgress : Bool := false
  todo : Nat → List Job
  pcs : Nat → Pc := fun _ => .idle
  log : List (Nat × Act) := []

/-- The first access of a call. src/he/conn.c:702, src/he/flow.c:493 -/
def Job.start : Job → Pc
  | .receive p => .due p
  | .schedule => .sched

/-- One access: the two fields, where the thread is then, and what happened. src/he/conn.c:702-733, src/he/flow.c:493-520 -/
def stepPc (d i : Bool) : Pc → Bool × Bool × Pc × List Act
  | .idle => (d, i, .idle, [])
  | .sched => (true, i, .idle, [.asked])
  | .due p => (d, i, if d then .clear p else .test p, [])
  | .clear p => (false, i, .check p, [])
  | .check p => (d, i, if i then .test p else .rekey p, [])
  | .rekey p => (d, i, .mark p, [.rekeyed])
  | .mark p => (d, true, .begun p, [])
  | .begun p => (d, i, .test p, [.started])
  | .test p => (d, i, if i then .ask p else .idle, [])
  | .ask p => (d, i, .store p, if p then [] else [.completed])
  | .store p => (d, p, .idle, [])

/-- The world after an access with this outcome. src/he/conn.c:702-733 -/
def World.after (w : World) (t : Nat) (r : Bool × Bool × Pc × List Act) : World :=
  { w with isDue := r.1, inProgress := r.2.1, pcs := fun u => if u = t then r.2.2.1 else w.pcs u,
           log := r.2.2.2.map (fun a => (t, a)) ++ w.log }

/-- Thread `t` begins its next call, or makes the next access of the call it is in. src/he/flow.c:493-520 -/
def World.step (w : World) (t : Nat) : World :=
  match w.pcs t, w.todo t with
  | .idle, j :: js => { w with todo := fun u => if u = t then js else w.todo u, pcs := fun u => if u = t then j.start else w.pcs u }
  | pc, _ => w.after t (stepPc w.isDue w.inProgress pc)

/-- Any schedule. -/
def World.run (w : World) (xs : List Nat) : World := xs.foldl World.step w

end Lightway.ConcReneg
