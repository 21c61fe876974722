import Verif.Spec.Screen
import Verif.Model.Api

/-!
# How much a call may send
-/

namespace Lightway.Spec

/-- The number of messages a packet of `n` bytes takes at most: every fragment but the last carries at least 496 bytes. -/
def pieces (n : Nat) : Nat := (n + 495) / 496

/-- How many messages a call may send without one having arrived, when it finds the connection in state `s` with
outside MTU `mtu`.  Receiving answers what arrives, and logs in when it completes the handshake. -/
def allowance (s : ConnState) (mtu : Nat) : Op → Nat
  | .outsideData .. => if s = .connecting then 1 else 0
  | .insidePacket _ => max 1 (pieces (mtu - 114))
  | .clientConnect .. | .serverConnect .. | .disconnect | .nudge | .keepalive | .sendServerConfig _ | .startPmtud
  | .pmtudTimeout => 1
  | _ => 0

/-- The datagrams handed to the outside-write callback in a history. -/
def datagrams (log : Log) : List Bytes :=
  log.filterMap fun e => match e with | .outsideWrite p _ => some p | _ => none

/-- The records the TLS layer asked to have sent in a history. -/
def records (log : Log) : List Bytes :=
  log.filterMap fun e => match e with | .sslOut r _ => some r | _ => none

end Lightway.Spec
