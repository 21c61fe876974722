import Verif.Model.Types

/-!
# The multithreaded build (`HE_ENABLE_MULTITHREADED`): the session identifiers of a server
`session_id` and `pending_session_id` are atomic fields.  Threads write them into headers, compare and change them when a
datagram arrives, and start rotations; each makes any number of calls.  A schedule picks which thread makes its next access.
Everything else these functions do is left out, and random identifiers are given.
-/

namespace Lightway.ConcSess

/-- A call. -/
inductive Job
  /-- a datagram is sent: `he_internal_write_packet_header`. src/he/wolf.c:74-104 -/
  | send
  /-- a datagram with this identifier in its header arrived: `he_internal_update_session_incoming`. src/he/flow.c:266-297 -/
  | receive (h : Nat)
  /-- `he_conn_rotate_session_id`, the generator yielding this identifier. src/he/conn.c:883-907 -/
  | rotate (id : Nat)
  deriving DecidableEq, Repr

/-- Where a thread is. -/
inductive Pc
  /-- between calls -/
  | idle
  /-- about to test whether an identifier is pending. src/he/wolf.c:94 -/
  | sendLook
  /-- about to copy the pending identifier. src/he/wolf.c:95 -/
  | sendPending
  /-- about to copy the identifier in use. src/he/wolf.c:97 -/
  | sendSession
  /-- about to compare with the identifier in use. src/he/flow.c:282 -/
  | recvSession (h : Nat)
  /-- about to compare with the pending identifier. src/he/flow.c:284 -/
  | recvPending (h : Nat)
  /-- about to set the identifier in use. src/he/flow.c:285 -/
  | recvSet (h : Nat)
  /-- about to clear the pending identifier. src/he/flow.c:286 -/
  | recvClear (h : Nat)
  /-- about to tell the host. src/he/flow.c:287 -/
  | recvTell (h : Nat)
  /-- about to test whether an identifier is pending. src/he/conn.c:888 -/
  | rotLook (id : Nat)
  /-- about to set the pending identifier. src/he/conn.c:900 -/
  | rotSet (id : Nat)
  deriving DecidableEq, Repr

/-- What happened. -/
inductive Act
  /-- a sender found an identifier pending -/
  | found
  /-- a header got this identifier -/
  | sent (id : Nat)
  /-- an unknown identifier arrived: HE_ERR_UNKNOWN_SESSION -/
  | unknown (h : Nat)
  /-- the identifier in use became this one -/
  | moved (h : Nat)
  /-- the pending identifier was cleared -/
  | cleared
  /-- the host was told that the pending identifier is acknowledged -/
  | told (h : Nat)
  /-- a rotation was refused -/
  | refused
  /-- a rotation succeeded: this identifier is pending, and was given to the host -/
  | rotated (id : Nat)
  deriving DecidableEq, Repr

/-- The two identifiers, the calls each thread has still to make, where it is, and what happened (newest first). -/
structure World where
  session : Nat
  pending : Nat := 0
  todo : Nat → List Job
  pcs : Nat → Pc := fun _ => .idle
  log : List (Nat × Act) := []

/-- The first access of a call; a datagram without identifier is not looked at. src/he/flow.c:273-276 -/
def Job.start : Job → Pc
  | .send => .sendLook
  | .receive h => if h = 0 then .idle else .recvSession h
  | .rotate id => .rotLook id

/-- One access: the two identifiers, where the thread is then, and what happened.
src/he/wolf.c:92-98, src/he/flow.c:273-291, src/he/conn.c:888-905 (a server that allows roaming) -/
def stepPc (session pending : Nat) : Pc → Nat × Nat × Pc × List Act
  | .idle => (session, pending, .idle, [])
  | .sendLook => if pending ≠ 0 then (session, pending, .sendPending, [.found]) else (session, pending, .sendSession, [])
  | .sendPending => (session, pending, .idle, [.sent pending])
  | .sendSession => (session, pending, .idle, [.sent session])
  | .recvSession h => if h = session then (session, pending, .idle, []) else (session, pending, .recvPending h, [])
  | .recvPending h => if h = pending then (session, pending, .recvSet h, []) else (session, pending, .idle, [.unknown h])
  | .recvSet h => (h, pending, .recvClear h, [.moved h])
  | .recvClear h => (session, 0, .recvTell h, [.cleared])
  | .recvTell h => (session, pending, .idle, [.told h])
  | .rotLook id => if pending ≠ 0 then (session, pending, .idle, [.refused]) else (session, pending, .rotSet id, [])
  | .rotSet id => (session, id, .idle, [.rotated id])

/-- Thread `t` begins its next call, or makes the next access of the call it is in. src/he/flow.c:273-291 -/
def World.step (w : World) (t : Nat) : World :=
  match w.pcs t, w.todo t with
  | .idle, j :: js => { w with todo := fun u => if u = t then js else w.todo u, pcs := fun u => if u = t then j.start else w.pcs u }
  | pc, _ =>
    let r := stepPc w.session w.pending pc
    { w with session := r.1, pending := r.2.1, pcs := fun u => if u = t then r.2.2.1 else w.pcs u,
             log := r.2.2.2.map (fun a => (t, a)) ++ w.log }

/-- Any schedule. -/
def World.run (w : World) (xs : List Nat) : World := xs.foldl World.step w

end Lightway.ConcSess
