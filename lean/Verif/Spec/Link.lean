import Verif.Spec.Screen
import Verif.Spec.Frag
import Verif.Spec.Tcp
import Verif.Model.Api

/-!
# Two ends of a connection
What the sending host handed over, what reached the sender's TLS layer, what came out of the receiver's TLS layer.
-/

namespace Lightway.Spec

/-- Everything handed to the TLS layer, oldest first. -/
def handed (l : Log) : List Bytes := (writes l).reverse

/-- The packet a history of calls `ops` handed over with its call number `i`, as sent (after TCP MSS clamping): nothing
unless the call is he_conn_inside_packet_received and handed at least one message to the TLS layer. -/
def shippedAt (env : Env) (ops : List Op) (i : Nat) : Option Bytes :=
  match ops[i]? with
  | some (.insidePacket pkt) =>
    if writes (run env (ops.take (i + 1))).log = writes (run env (ops.take i)).log then none
    else (clampMss pkt (effectivePmtu (run env (ops.take i)) - 40)).map (·.1)
  | _ => none

/-- The packets the host of a connection got rid of, oldest first. -/
def shipped (env : Env) (ops : List Op) : List Bytes := (List.range ops.length).filterMap (shippedAt env ops)

/-- The first fragment of a packet. -/
def opens (m : Bytes) : Bool :=
  match decodeFrag m with
  | some f => f.off == 0
  | none => false

/-- How many packets had been begun to be sent in fragments when message number `k` was handed over.  The fragments of
a packet leave in one piece, so this is the number of the packet a fragment belongs to. -/
def serial (W : List Bytes) (k : Nat) : Nat := (W.take (k + 1)).countP opens

/-- What TLS guarantees: the message that comes out as number `j` is the one that went in as number `org j`. -/
def Authentic (W R : List Bytes) (org : Nat → Nat) : Prop := ∀ j m, R[j]? = some m → W[org j]? = some m

/-- No message comes out twice. -/
def NoReplay (R : List Bytes) (org : Nat → Nat) : Prop := ∀ i j, i < R.length → j < R.length → org i = org j → i = j

/-- While message number `i` was being processed the clock read `t`. -/
def ReadAt (l : Log) (i : Nat) (t : Int) : Prop :=
  ∃ n a m o, l = n ++ .clock t :: a ++ .message m :: o ∧ (messages o).length = i ∧ ∀ m, Effect.message m ∉ a

/-- Fragments that arrived within 64 seconds of the last clock reading belong to packets less than `N` packets away
from that of the last message. -/
def Window (W : List Bytes) (l : Log) (org : Nat → Nat) (N : Nat) : Prop :=
  ∀ i j t now, ReadAt l i t → lastClock l = some now → now - t ≤ 64 → j + 1 = (messages l).length →
    serial W (org i) < serial W (org j) + N ∧ serial W (org j) < serial W (org i) + N

/-- The receiver can tell the packets apart whose fragments it may hold at the same time: fewer packets than slots are
ever fragmented, or fragments of that many packets never arrive within 64 seconds of each other, by a clock that never
goes back.  (Identifiers are 16 bits wide; where they wrap around, slots stay distinct only if their number divides 65536.) -/
def ToldApart (W : List Bytes) (l : Log) (org : Nat → Nat) : Prop :=
  (tableSize l ∣ 65536 ∨ W.countP opens ≤ 65536) ∧
  (W.countP opens ≤ tableSize l ∨ ClockMonotone l ∧ Window W l org (tableSize l))

/-- `q` is `pkt` except, if `pkt` is a TCP SYN with a maximum segment size option, for that value and the checksum. -/
def SameButMss (pkt q : Bytes) : Prop :=
  q.length = pkt.length ∧
  (∀ j, byteAt q j ≠ byteAt pkt j → ∃ i, MssAt pkt i ∧
    (j = i ∨ j = i + 1 ∨ j = ipHeaderLen pkt + 16 ∨ j = ipHeaderLen pkt + 17)) ∧
  ((∀ i, ¬MssAt pkt i) → q = pkt)

/-- The sending host has installed no inside plugins when it hands over packets. -/
def NoInsidePlugins (env : Env) (ops : List Op) : Prop :=
  ∀ pre pkt, (pre ++ [.insidePacket pkt]) <+: ops → insidePluginsAt (run env pre).log = 0

/-- Protocol version 1.0, which writes the length of a packet in the other byte order. -/
def Oldest (c : Conn) : Prop := c.verMajor = 1 ∧ c.verMinor = 0

/-- Whenever the sender hands over a packet and the receiver receives something, both use version 1.0 or neither does. -/
def SameOrder (env : Env) (ops : List Op) (env' : Env) (ops' : List Op) : Prop :=
  ∀ pre pkt, (pre ++ [.insidePacket pkt]) <+: ops → (run env pre).state = .online →
    ∀ pre' buf rs, (pre' ++ [.outsideData buf rs]) <+: ops' → (Oldest (run env pre) ↔ Oldest (run env' pre'))

end Lightway.Spec
