import Verif.Spec.History

/-!
# Reading messages off a history and off the wire
Written from the message layouts in src/he/he_internal.h, without reference to the model's encoders.
-/

namespace Lightway.Spec

/-- Messages handed to the TLS layer for encryption, newest first. -/
def writes : Log → List Bytes
  | [] => []
  | .sslCall (.write m) _ :: l => m :: writes l
  | _ :: l => writes l

/-- Records handed to the network callback, newest first. -/
def sent : Log → List Bytes
  | [] => []
  | .outsideWrite p _ :: l => p :: sent l
  | _ :: l => sent l

/-- Packets delivered to the host, newest first. -/
def delivered : Log → List Bytes
  | [] => []
  | .insideWrite p :: l => p :: delivered l
  | _ :: l => delivered l

/-- One fragment of a packet. -/
structure Fragment where
  id : Nat
  off : Nat
  more : Bool
  data : Bytes
  deriving DecidableEq, Repr

/-- Decode a DATA_WITH_FRAG message (id 15, length, fragment id, offset field, data): the low 13 bits of
the offset field count 8-byte units, the next bit says more fragments follow.
src/he/he_internal.h (struct he_msg_data_frag) -/
def decodeFrag (m : Bytes) : Option Fragment :=
  if m.head? = some 15 ∧ 7 ≤ m.length ∧ m.length = 7 + num (field m 1 2) then
    some { id := num (field m 3 2), off := num (field m 5 2) % 8192 * 8,
           more := decide (num (field m 5 2) / 8192 % 2 = 1), data := m.drop 7 }
  else none

/-- The fragment a received message carries; bytes after the announced length are ignored. -/
def carried (m : Bytes) : Option Fragment :=
  if m.head? = some 15 ∧ 7 ≤ m.length ∧ 7 + num (field m 1 2) ≤ m.length then
    some { id := num (field m 3 2), off := num (field m 5 2) % 8192 * 8,
           more := decide (num (field m 5 2) / 8192 % 2 = 1), data := field m 7 (num (field m 1 2)) }
  else none

/-- Fragments that start at offset `o`, follow each other without gap or overlap, are not empty, and all
but the last of which say that more follow. -/
def Contiguous : Nat → List Fragment → Prop
  | _, [] => True
  | o, f :: r => f.off = o ∧ f.data ≠ [] ∧ f.more = !r.isEmpty ∧ Contiguous (o + f.data.length) r

/-- `frs` is a fragmentation of `pkt` under identifier `id`. -/
def Fragments (id : Nat) (pkt : Bytes) (frs : List Fragment) : Prop :=
  2 ≤ frs.length ∧ Contiguous 0 frs ∧ (∀ f ∈ frs, f.id = id ∧ f.off % 8 = 0) ∧
    (frs.map (·.data)).flatten = pkt

end Lightway.Spec
