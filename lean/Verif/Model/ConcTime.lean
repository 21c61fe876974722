import Verif.Model.Types

/-!
# The multithreaded build (`HE_ENABLE_MULTITHREADED`): the nudge time and the nudge timer
`wolf_timeout` and `is_nudge_timer_running` are atomic fields; a compound assignment to one is a single access.  Threads update
the time-out after each receive or nudge and tell the host to start a timer, the host nudges when it fires, and may read the time
at any moment.  A schedule picks which thread makes its next access.  The TLS library's answers are given (not negative), the
nudge callback is registered, and the connection is negotiating or renegotiating; overflow is left out.
-/

namespace Lightway.ConcTime

/-- A call; `t` is the TLS library's time-out, `quick` whether it asks for the quick one (never with DTLS 1.2). -/
inductive Job
  /-- `he_internal_update_timeout`. src/he/conn.c:758-793 -/
  | update (t : Nat) (quick : Bool)
  /-- `he_conn_nudge`, ending in `he_internal_update_timeout`. src/he/conn.c:807-845.  A nudge that fails in the TLS library is left out. -/
  | nudge (t : Nat) (quick : Bool)
  /-- `he_conn_get_nudge_time`. src/he/conn.c:795-805 -/
  | read
  deriving DecidableEq, Repr

/-- Where a thread is. -/
inductive Pc
  /-- between calls -/
  | idle
  /-- about to clear `is_nudge_timer_running`. src/he/conn.c:814 -/
  | clear (t : Nat) (quick : Bool)
  /-- about to store the TLS library's time-out. src/he/conn.c:773 -/
  | store (t : Nat) (quick : Bool)
  /-- about to multiply. src/he/conn.c:776-780 -/
  | mul (quick : Bool)
  /-- about to divide. src/he/conn.c:784 -/
  | div
  /-- about to test `is_nudge_timer_running`. src/he/conn.c:789 -/
  | look
  /-- about to read the time and call the host. src/he/conn.c:790 -/
  | call
  /-- about to set `is_nudge_timer_running`. src/he/conn.c:791 -/
  | set
  /-- about to read the time for the host. src/he/conn.c:804 -/
  | get
  deriving DecidableEq, Repr

/-- What happened. -/
inductive Act
  /-- the timer fired, the host nudges -/
  | nudged
  /-- the TLS library's answer was stored -/
  | asked (t : Nat) (quick : Bool)
  /-- the host was told to start a timer of this many milliseconds -/
  | told (v : Nat)
  /-- the host read this time -/
  | got (v : Nat)
  deriving DecidableEq, Repr

/-- The two fields, the calls each thread has still to make, where it is, and what happened (newest first). -/
structure World where
  time : Nat := 0
  running : Bool := false
  todo : Nat → List Job
  pcs : Nat → Pc := fun _ => .idle
  log : List (Nat × Act) := []

/-- The first access of a call. src/he/conn.c:773, 804, 814 -/
def Job.start : Job → Pc
  | .update t q => .store t q
  | .nudge t q => .clear t q
  | .read => .get

/-- One access: the two fields, where the thread is then, and what happened.  Both multipliers are 100, the divider is 4
(src/he/conn.h:48-56). src/he/conn.c:773-791, 804, 814 -/
def stepPc (time : Nat) (running : Bool) : Pc → Nat × Bool × Pc × List Act
  | .idle => (time, running, .idle, [])
  | .clear t q => (time, false, .store t q, [.nudged])
  | .store t q => (t, running, .mul q, [.asked t q])
  | .mul q => (time * 100, running, if q then .div else .look, [])
  | .div => (time / 4, running, .look, [])
  | .look => (time, running, if running then .idle else .call, [])
  | .call => (time, running, .set, [.told time])
  | .set => (time, true, .idle, [])
  | .get => (time, running, .idle, [.got time])

/-- The world after an access with this outcome. src/he/conn.c:773-791 -/
def World.after (w : World) (t : Nat) (r : Nat × Bool × Pc × List Act) : World :=
  { w with time := r.1, running := r.2.1, pcs := fun u => if u = t then r.2.2.1 else w.pcs u,
           log := r.2.2.2.map (fun a => (t, a)) ++ w.log }

/-- Thread `t` begins its next call, or makes the next access of the call it is in. src/he/conn.c:773-814 -/
def World.step (w : World) (t : Nat) : World :=
  match w.pcs t, w.todo t with
  | .idle, j :: js => { w with todo := fun u => if u = t then js else w.todo u, pcs := fun u => if u = t then j.start else w.pcs u }
  | pc, _ => w.after t (stepPc w.time w.running pc)

/-- Any schedule. -/
def World.run (w : World) (xs : List Nat) : World := xs.foldl World.step w

end Lightway.ConcTime
