import Verif.Basic

/-!
# The multithreaded build (`HE_ENABLE_MULTITHREADED`): choosing identifiers
Threads that send packets in fragments or keepalives on one connection.  Sequentially consistent interleaving of single
accesses: taking a fragment identifier is one access (the field is atomic), taking a ping identifier is two, a load and a store.
-/

namespace Lightway.ConcIds

/-- What a thread sets out to send. -/
inductive Job
  /-- a packet in fragments: `he_internal_frag_and_send_message`. src/he/frag.c:28-95 -/
  | fragments
  /-- a keepalive or an MTU probe: `he_conn_send_keepalive`, `he_internal_pmtud_send_probe`.
  src/he/conn.c:504-529, src/he/pmtud.c:45-95 -/
  | ping
  deriving DecidableEq, Repr

/-- `frag_next_id`, `ping_next_id`, the value each thread has loaded from the latter and not stored back incremented, and the
identifiers taken so far, newest first, with the thread. src/he/he_internal.h:281,288 -/
structure World where
  fragNext : Nat
  pingNext : Nat
  loaded : Nat → Option Nat := fun _ => none
  fragIds : List (Nat × Nat) := []
  pingIds : List (Nat × Nat) := []

/-- Thread `t` goes on: it stores back what it has loaded, or begins the job.
src/he/frag.c:45 (`conn->frag_next_id++` on an atomic field), src/he/pmtud.c:66 and src/he/conn.c:518
(`conn->ping_next_id++` on a plain field) -/
def World.step (w : World) (x : Nat × Job) : World :=
  match w.loaded x.1 with
  | some v => { w with pingNext := (v + 1) % 65536, loaded := fun t => if t = x.1 then none else w.loaded t }
  | none =>
    match x.2 with
    | .fragments => { w with fragNext := (w.fragNext + 1) % 65536, fragIds := (x.1, w.fragNext) :: w.fragIds }
    | .ping =>
      { w with loaded := fun t => if t = x.1 then some w.pingNext else w.loaded t
               pingIds := (x.1, w.pingNext) :: w.pingIds }

/-- Any schedule. -/
def World.run (w : World) (xs : List (Nat × Job)) : World := xs.foldl World.step w

end Lightway.ConcIds
