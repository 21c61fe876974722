import Verif.Basic

/-!
# The multithreaded build (`HE_ENABLE_MULTITHREADED`): shared fields touched by concurrent receivers
Each thread runs one of three code fragments; a schedule picks which thread performs its next memory
access or callback.  Sequentially consistent interleaving of single accesses (a data race on a plain
field is undefined behaviour in C; this model shows what already goes wrong without that).
-/

namespace Lightway.Conc

/-- Shared fields of `he_conn_t` (src/he/he_internal.h:253-285) and the callbacks made so far. -/
structure Shared where
  firstMessageReceived : Bool := false
  nudgeRunning : Bool := false
  sessionId : Nat := 0
  pendingId : Nat := 0
  firstEvents : Nat := 0
  nudgeCalls : Nat := 0
  ackEvents : Nat := 0
  deriving DecidableEq, Repr

/-- Program counter of a thread with its local variables. -/
inductive Pc
  /-- about to execute the compare-and-swap, src/he/flow.c:417-418 -/
  | cas
  /-- the swap succeeded: about to call the event callback, src/he/flow.c:423 -/
  | fire
  /-- about to read `is_nudge_timer_running`, src/he/conn.c:789 -/
  | nudgeRead
  /-- about to call the nudge callback, src/he/conn.c:790 -/
  | nudgeCall
  /-- about to set `is_nudge_timer_running`, src/he/conn.c:791 -/
  | nudgeSet
  /-- `he_internal_update_session_incoming` with header id `h`: reading `session_id`,
  src/he/flow.c:282 -/
  | sess (h : Nat)
  /-- reading `pending_session_id`, src/he/flow.c:284 -/
  | sessPending (h : Nat)
  /-- writing `session_id`, src/he/flow.c:285 -/
  | sessWrite (h : Nat)
  /-- clearing `pending_session_id`, src/he/flow.c:286 -/
  | sessClear
  /-- the acknowledgement event, src/he/flow.c:287 -/
  | sessEvent
  /-- `he_conn_nudge` clearing `is_nudge_timer_running`, src/he/conn.c:814 -/
  | nudgeClear
  | done
  deriving DecidableEq, Repr

/-- One step of one thread. -/
def stepPc (s : Shared) : Pc → Shared × Pc
  | .cas =>
    if s.firstMessageReceived then (s, .done) else ({ s with firstMessageReceived := true }, .fire)
  | .fire => ({ s with firstEvents := s.firstEvents + 1 }, .done)
  | .nudgeRead => if s.nudgeRunning then (s, .done) else (s, .nudgeCall)
  | .nudgeCall => ({ s with nudgeCalls := s.nudgeCalls + 1 }, .nudgeSet)
  | .nudgeSet => ({ s with nudgeRunning := true }, .done)
  | .sess h => if h = 0 then (s, .done) else if h = s.sessionId then (s, .done) else (s, .sessPending h)
  | .sessPending h => if h = s.pendingId then (s, .sessWrite h) else (s, .done)
  | .sessWrite h => ({ s with sessionId := h }, .sessClear)
  | .sessClear => ({ s with pendingId := 0 }, .sessEvent)
  | .sessEvent => ({ s with ackEvents := s.ackEvents + 1 }, .done)
  | .nudgeClear => ({ s with nudgeRunning := false }, .done)
  | .done => (s, .done)

/-- A machine state: shared fields and one program counter per thread. -/
structure Sys where
  sh : Shared
  pcs : List Pc
  deriving DecidableEq, Repr

/-- Thread `i` takes a step (nothing happens if there is no such thread). -/
def Sys.step (m : Sys) (i : Nat) : Sys :=
  match m.pcs[i]? with
  | none => m
  | some pc =>
    let r := stepPc m.sh pc
    { sh := r.1, pcs := m.pcs.set i r.2 }

/-- A whole schedule. -/
def Sys.run (m : Sys) (sched : List Nat) : Sys := sched.foldl Sys.step m

end Lightway.Conc
