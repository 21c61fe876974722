import Verif.Spec.History

/-!
# TCP/IP facts needed to state what MSS clamping does
Written from RFC 791, RFC 793 and RFC 1071, on byte positions of the packet; no reference to the model.
-/

namespace Lightway.Spec

/-- Byte `i` of a packet, 0 outside. -/
def byteAt (pkt : Bytes) (i : Nat) : Nat := (pkt.getD i 0).toNat

/-- The 16-bit number in network order at offset `i`. -/
def wordAt (pkt : Bytes) (i : Nat) : Nat := byteAt pkt i * 256 + byteAt pkt (i + 1)

/-- Length of the IPv4 header. -/
def ipHeaderLen (pkt : Bytes) : Nat := 4 * (byteAt pkt 0 % 16)

/-- Length of the TCP header that follows the IPv4 header. -/
def tcpHeaderLen (pkt : Bytes) : Nat := 4 * (byteAt pkt (ipHeaderLen pkt + 12) / 16)

/-- An IPv4 packet that holds the whole header of a TCP SYN segment: version 4, protocol 6, reserved flag
and fragment offset 0, headers inside the packet, SYN flag set. -/
def IsTcpSyn (pkt : Bytes) : Prop :=
  20 ≤ pkt.length ∧ byteAt pkt 0 / 16 = 4 ∧ byteAt pkt 9 = 6 ∧
  wordAt pkt 6 / 32768 = 0 ∧ wordAt pkt 6 % 8192 = 0 ∧
  ipHeaderLen pkt + 20 ≤ pkt.length ∧ byteAt pkt (ipHeaderLen pkt + 13) / 2 % 2 = 1 ∧
  ipHeaderLen pkt + tcpHeaderLen pkt ≤ pkt.length

/-- Reading TCP options from position `pos` up to `stop`, the value of the first MSS option is at `i`:
no-operation options are one byte, other options give their length in the second byte, the end-of-list
option ends the list. -/
inductive FirstMss (pkt : Bytes) (stop : Nat) : Nat → Nat → Prop
  | here {pos : Nat} : pos + 4 ≤ stop → byteAt pkt pos = 2 → byteAt pkt (pos + 1) = 4 →
      FirstMss pkt stop pos (pos + 2)
  | nop {pos i : Nat} : pos + 4 ≤ stop → byteAt pkt pos = 1 → FirstMss pkt stop (pos + 1) i →
      FirstMss pkt stop pos i
  | other {pos i : Nat} : pos + 4 ≤ stop → 2 < byteAt pkt pos → 0 < byteAt pkt (pos + 1) →
      FirstMss pkt stop (pos + byteAt pkt (pos + 1)) i → FirstMss pkt stop pos i

/-- The packet is a TCP SYN whose first MSS option has its value at offset `i`. -/
def MssAt (pkt : Bytes) (i : Nat) : Prop :=
  IsTcpSyn pkt ∧ FirstMss pkt (ipHeaderLen pkt + tcpHeaderLen pkt) (ipHeaderLen pkt + 20) i

/-- Sum of the 16-bit words of a byte string, an odd last byte padded with zero (RFC 1071). -/
def wordSum : Bytes → Nat
  | [] => 0
  | [a] => a.toNat * 256
  | a :: b :: r => a.toNat * 256 + b.toNat + wordSum r

/-- The TCP segment of an IPv4 packet: from the end of the IP header to the IP total length. -/
def tcpSegment (pkt : Bytes) : Bytes := (pkt.take (wordAt pkt 2)).drop (ipHeaderLen pkt)

/-- Sum of the words of the TCP pseudo header. -/
def pseudoSum (pkt : Bytes) : Nat :=
  wordAt pkt 12 + wordAt pkt 14 + wordAt pkt 16 + wordAt pkt 18 + byteAt pkt 9 + (tcpSegment pkt).length

/-- The TCP checksum is right: the ones-complement sum of pseudo header and segment is "minus zero".
(The sum is never 0 because the protocol number is part of it.) -/
def ChecksumOk (pkt : Bytes) : Prop := (pseudoSum pkt + wordSum (tcpSegment pkt)) % 65535 = 0

instance (pkt : Bytes) : Decidable (ChecksumOk pkt) := inferInstanceAs (Decidable (_ = _))

end Lightway.Spec
