import Verif.Spec.Wire

/-!
# What travels between the TLS library and the network
Written from the wire header layout in src/he/he_internal.h (`he_wire_hdr_t`) and the documentation of the
network callbacks; nothing here refers to the connection object or to the functions of the model.
-/

namespace Lightway.Spec

/-- Contents of the 16-byte header. -/
structure Header where
  major : UInt8
  minor : UInt8
  aggressive : Bool
  session : Nat
  deriving DecidableEq, Repr

/-- Number stored least significant byte first. -/
def numLe : Bytes → Nat
  | [] => 0
  | b :: bs => b.toNat + 256 * numLe bs

/-- Decode a datagram: 'H' 'e' major minor flag, three reserved bytes, session id, then the TLS record. -/
def decodeDatagram (p : Bytes) : Option (Header × Bytes) :=
  match p with
  | h :: e :: maj :: min :: agg :: _ :: _ :: _ :: rest =>
    if h = 72 ∧ e = 101 ∧ 8 ≤ rest.length then
      some ({ major := maj, minor := min, aggressive := agg ≠ 0, session := numLe (rest.take 8) }, rest.drop 8)
    else none
  | _ => none

/-- Payload of the last datagram accepted by the header check, unless the TLS library has taken it (or been
told that it was too large) since. -/
def avail : Log → Option Bytes
  | [] => none
  | .input _ b :: _ => some b
  | .sslIn _ (.bytes _) :: _ => none
  | .sslIn _ .dropped :: _ => none
  | _ :: l => avail l

/-- All bytes accepted from the network, in order of arrival. -/
def accepted : Log → Bytes
  | [] => []
  | .input _ b :: l => accepted l ++ b
  | _ :: l => accepted l

/-- All bytes the TLS library has read, in order. -/
def readBytes : Log → Bytes
  | [] => []
  | .sslIn _ (.bytes b) :: l => readBytes l ++ b
  | _ :: l => readBytes l

/-- All bytes the network callback accepted, in order. -/
def netBytes : Log → Bytes
  | [] => []
  | .outsideWrite p .success :: l => netBytes l ++ p
  | _ :: l => netBytes l

/-- All bytes the TLS library was told were sent, in order. -/
def tlsBytes : Log → Bytes
  | [] => []
  | .sslOut rec (some n) :: l => tlsBytes l ++ rec.take n
  | _ :: l => tlsBytes l

/-- `copies` (newest first) are `times` successful transmissions of `q`, or fewer followed by one that failed;
`res` is what the TLS library is told about its `n` bytes. -/
def Transmitted (times : Nat) (q : Bytes) (n : Nat) (copies : Log) (res : Option Nat) : Prop :=
  (copies = List.replicate times (.outsideWrite q .success) ∧ res = some n) ∨
  ∃ k rc, k < times ∧ rc ≠ RC.success ∧
    copies = .outsideWrite q rc :: List.replicate k (.outsideWrite q .success) ∧ res = none

/-- The documented header check of a receiver speaking version `maj.min`: the code with which a datagram is refused. -/
def refusal (maj min : UInt8) (p : Bytes) : Option RC :=
  if p.length < 16 then some .packetTooSmall
  else if field p 0 2 ≠ [72, 101] then some .notHePacket
  else if field p 2 2 ≠ [maj, min] then some .incorrectProtocolVersion
  else if numLe (field p 8 8) = 2 ^ 64 - 1 then some .rejectedSession
  else none

/-- Rules for reading: the TLS library gets the whole pending payload if it fits, is told it was dropped if it does not, and
nothing if none is pending; input is accepted only at the beginning of a receive call, after the host's plugins. -/
def ReadOk : Effect → Log → Prop
  | .sslIn sz (.bytes b), l => avail l = some b ∧ b.length ≤ sz
  | .sslIn sz .dropped, l => ∃ b, avail l = some b ∧ sz < b.length
  | .sslIn _ .wantRead, l => avail l = none
  | .input .., l => ∃ plugins before, l = plugins ++ .api .outsideData :: before ∧
      ∀ e ∈ plugins, ∃ p r, e = .pluginIngress p r
  | _, _ => True

end Lightway.Spec
