import Verif.Model.Getters

/-!
# The multithreaded build (`HE_ENABLE_MULTITHREADED`): what is kept per thread
The current datagram, the mark that it was fetched, and the detailed TLS error are thread-local variables, shared by all
connections of the thread.  An access touches the running thread's own variables only, so any interleaving of threads is a
sequence of the accesses below, in any order.  Connections and threads are numbered.
-/

namespace Lightway.Threads

/-- `cur_packet` with `cur_packet_length`, `packet_seen`, `wolf_error` of one thread.
src/he/flow.c:338-342, src/he/conn.c:1239-1243 -/
structure Locals where
  cur : Option Bytes := none
  seen : Bool := false
  err : SslErr := .none

/-- One access by a thread on behalf of a connection. -/
inductive Access
  /-- a datagram with this payload is accepted: `he_internal_set_packet`, `he_internal_set_packet_seen(false)`.
  src/he/flow.c:373-377, src/he/flow.h:90-97 -/
  | accept (payload : Bytes)
  /-- the TLS object of the connection asks for up to `sz` bytes: `he_wolf_dtls_read`. src/he/wolf.c:26-72 -/
  | read (sz : Nat)
  /-- `he_conn_set_ssl_error`. src/he/conn.c:1245-1252 -/
  | setErr (e : SslErr)
  /-- `he_conn_get_ssl_error`. src/he/conn.c:1254-1260 -/
  | getErr
  deriving DecidableEq, Repr

/-- What an access was answered. -/
inductive Answer
  | unit
  | input (r : InRes)
  | err (e : SslErr)
  deriving DecidableEq, Repr

/-- `he_wolf_dtls_read` with thread-local variables: a datagram is available if it was not fetched and there is one.
src/he/wolf.c:26-72, src/he/flow.h:103-114 -/
def Locals.read (l : Locals) (sz : Nat) : Locals × InRes :=
  match l.cur with
  | none => (l, .wantRead)
  | some pkt =>
    if l.seen then (l, .wantRead)
    else if pkt.length > sz then ({ l with seen := true }, .dropped)
    else ({ l with seen := true }, .bytes pkt)

/-- One access on the running thread's variables; the connection plays no part in it.
src/he/flow.h:85-114, src/he/conn.c:1239-1260 -/
def Locals.access (l : Locals) : Access → Locals × Answer
  | .accept b => ({ l with cur := some b, seen := false }, .unit)
  | .read sz => ((l.read sz).1, .input (l.read sz).2)
  | .setErr e => ({ l with err := e }, .unit)
  | .getErr => (l, .err l.err)

/-- One entry of a history: thread, connection, access, answer. -/
structure Entry where
  thread : Nat
  conn : Nat
  access : Access
  answer : Answer
  deriving DecidableEq, Repr

/-- All threads' variables, and the history, newest first. -/
structure World where
  locals : Nat → Locals := fun _ => {}
  hist : List Entry := []

/-- Thread `t` makes an access for connection `c`. src/he/flow.h:85-114, src/he/conn.c:1239-1260 -/
def World.step (w : World) (x : Nat × Nat × Access) : World :=
  let r := (w.locals x.1).access x.2.2
  { locals := fun t => if t = x.1 then r.1 else w.locals t
    hist := { thread := x.1, conn := x.2.1, access := x.2.2, answer := r.2 } :: w.hist }

/-- Any accesses by any threads in any order, from the start of the program. -/
def World.run (xs : List (Nat × Nat × Access)) : World := xs.foldl World.step {}

/-- The same accesses on the connection of the ordinary build, which keeps the variables in `he_conn_t`.
src/he/flow.h:116-143, src/he/wolf.c:26-72, src/he/conn.c:1245-1260 -/
def plain (c : Conn) : Access → Conn × Answer
  | .accept b => ({ c with incoming := some b, packetSeen := false }, .unit)
  | .read sz => ((dtlsRead c sz).1, .input (dtlsRead c sz).2)
  | .setErr e => ({ c with wolfError := e }, .unit)
  | .getErr => (c, .err (getSslError c))

/-- The answers of the ordinary build to a sequence of accesses, in order. src/he/flow.h:116-143 -/
def plainRun : Conn → List Access → List Answer
  | _, [] => []
  | c, a :: as => (plain c a).2 :: plainRun (plain c a).1 as

end Lightway.Threads
