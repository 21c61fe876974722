import Verif.Model.Types

/-!
# The multithreaded build (`HE_ENABLE_MULTITHREADED`): changing the connection state from several threads
`state` is an atomic field; a check and the write it guards are separate accesses.  A schedule picks which thread performs its
next access to `state` or its next call of the state callback.  Everything else these functions do is left out.
-/

namespace Lightway.ConcStop

/-- One read of `state` before a function acts. -/
inductive Guard
  /-- return an error if the state is this one -/
  | refuse (s : ConnState)
  /-- return success at once if the state is this one -/
  | enough (s : ConnState)
  /-- return an error unless the state is this one -/
  | need (s : ConnState)
  deriving DecidableEq, Repr

/-- Where a thread is, with the states it has still to set. -/
inductive Pc
  /-- about to make the first of the remaining reads -/
  | start (gs : List Guard) (todo : List ConnState)
  /-- `he_internal_change_conn_state`: about to compare `state` with the first of `todo`. src/he/conn.c:424 -/
  | cmp (todo : List ConnState)
  /-- about to set `state`. src/he/conn.c:428 -/
  | write (s : ConnState) (todo : List ConnState)
  /-- about to read `state` for the callback. src/he/conn.c:432 -/
  | readBack (todo : List ConnState)
  /-- about to call the state callback with the value read. src/he/conn.c:432 -/
  | call (v : ConnState) (todo : List ConnState)
  /-- returned, with success or not -/
  | done (ok : Bool)
  deriving DecidableEq, Repr

/-- `he_conn_disconnect`. src/he/conn.c:378-415 (the four reads of the check at 390-391) -/
def disconnect : Pc := .start [.refuse .disconnecting, .refuse .none, .refuse .connecting, .refuse .disconnected]
  [.disconnecting, .disconnected]

/-- A client handling the configuration it was sent, accepted by the host. src/he/msg_handlers.c:135-205 -/
def configured : Pc := .start [.enough .online, .need .authenticating] [.configuring, .online]

/-- A server handling a login its host accepts. src/he/msg_handlers.c:217-364 -/
def admitted : Pc := .start [] [.online]

/-- The functions in progress and the state, with the calls of the state callback, newest first. -/
structure World where
  state : ConnState
  pcs : Nat → Pc
  told : List ConnState := []

/-- Where a thread goes once it has dealt with one state. -/
def next : List ConnState → Pc
  | [] => .done true
  | s :: r => .cmp (s :: r)

/-- One access: the new state, where the thread is then, and what the host is told.
src/he/conn.c:389-393,411,417-434, src/he/msg_handlers.c:142-150,188,202,361 -/
def stepPc (st : ConnState) : Pc → ConnState × Pc × List ConnState
  | .start [] todo => (st, next todo, [])
  | .start (.refuse s :: gs) todo => if st = s then (st, .done false, []) else (st, .start gs todo, [])
  | .start (.enough s :: gs) todo => if st = s then (st, .done true, []) else (st, .start gs todo, [])
  | .start (.need s :: gs) todo => if st = s then (st, .start gs todo, []) else (st, .done false, [])
  | .cmp [] => (st, .done true, [])
  | .cmp (s :: r) => if st = s then (st, next r, []) else (st, .write s r, [])
  | .write s todo => (s, .readBack todo, [])
  | .readBack todo => (st, .call st todo, [])
  | .call v todo => (st, next todo, [v])
  | .done ok => (st, .done ok, [])

/-- Thread `t` makes its next access. src/he/conn.c:378-447 -/
def World.step (w : World) (t : Nat) : World :=
  let r := stepPc w.state (w.pcs t)
  { state := r.1, pcs := fun u => if u = t then r.2.1 else w.pcs u, told := r.2.2 ++ w.told }

/-- Any schedule. -/
def World.run (w : World) (xs : List Nat) : World := xs.foldl World.step w

end Lightway.ConcStop
