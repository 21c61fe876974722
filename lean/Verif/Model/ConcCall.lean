import Verif.Model.Types

/-!
# The multithreaded build (`HE_ENABLE_MULTITHREADED`): the write callbacks and a disconnect made by another thread
`inside_write_cb` and `outside_write_cb` are plain fields.  `if(conn->cb) conn->cb(...)` reads the field twice, and
he_conn_disconnect sets it to NULL.  A schedule picks which thread makes its next access.  Everything else these functions do
is left out; accesses are taken to be sequentially consistent.
-/

namespace Lightway.ConcCall

/-- The two callback pointers. src/he/he_internal.h:217-219 -/
inductive Slot
  | inside
  | outside
  deriving DecidableEq, Repr

/-- Which of its calls a function is about to make. -/
inductive Copy
  /-- it makes no other -/
  | only
  /-- two more may follow -/
  | first
  | second
  | third
  deriving DecidableEq, Repr

/-- Where a thread is. -/
inductive Pc
  /-- about to test whether the pointer is set -/
  | look (s : Slot) (k : Copy)
  /-- the test succeeded: about to fetch the pointer again and call it -/
  | call (s : Slot) (k : Copy)
  /-- about to set these pointers to NULL -/
  | clear (todo : List Slot)
  /-- returned -/
  | done
  deriving DecidableEq, Repr

/-- The end of `internal_handle_data`: a packet for the host. src/he/msg_handlers.c:391-394 -/
def deliver : Pc := .look .inside .only

/-- The end of `he_wolf_dtls_write`: a datagram for the network, up to three times. src/he/wolf.c:156-176 -/
def writeDatagram : Pc := .look .outside .first

/-- The end of `he_wolf_tls_write`: a record for the network. src/he/wolf.c:278-284 -/
def writeRecord : Pc := .look .outside .only

/-- `he_conn_disconnect`, where it disables the callbacks. src/he/conn.c:405-407 -/
def hangUp : Pc := .clear [.inside, .outside]

/-- What happened. -/
inductive Act
  /-- the pointer was tested; it was set or not -/
  | looked (s : Slot) (found : Bool)
  /-- the pointer was fetched and called; `set = false` is a call of NULL -/
  | called (s : Slot) (set : Bool)
  /-- the pointer was set to NULL -/
  | cleared (s : Slot)
  deriving DecidableEq, Repr

/-- The pointers, the threads, and what happened (newest first, with the thread). -/
structure World where
  set : Slot → Bool
  pcs : Nat → Pc
  log : List (Nat × Act) := []

/-- After a call; `more` says that the host accepted the datagram and that further copies are due. src/he/wolf.c:159-174 -/
def afterCall (s : Slot) (more : Bool) : Copy → Pc
  | .only => .done
  | .first => if more then .call s .second else .done
  | .second => if more then .call s .third else .done
  | .third => .done

/-- One access: the pointers, where the thread is then, and what happened. src/he/conn.c:406-407, src/he/wolf.c:157-175,279-284,
src/he/msg_handlers.c:392-394 -/
def stepPc (set : Slot → Bool) (more : Bool) : Pc → (Slot → Bool) × Pc × List Act
  | .look s k => (set, if set s then .call s k else .done, [.looked s (set s)])
  | .call s k => (set, afterCall s more k, [.called s (set s)])
  | .clear [] => (set, .done, [])
  | .clear (s :: r) => (fun x => if x = s then false else set x, .clear r, [.cleared s])
  | .done => (set, .done, [])

/-- Thread `x.1` makes its next access. src/he/conn.c:405-407 -/
def World.step (w : World) (x : Nat × Bool) : World :=
  let r := stepPc w.set x.2 (w.pcs x.1)
  { set := r.1, pcs := fun u => if u = x.1 then r.2.1 else w.pcs u, log := r.2.2.map (fun e => (x.1, e)) ++ w.log }

/-- Any schedule. -/
def World.run (w : World) (xs : List (Nat × Bool)) : World := xs.foldl World.step w

end Lightway.ConcCall
