/-!
# Bytes, C integers and C strings

Byte strings are `List UInt8`.  C unsigned integers are `Nat` with explicit truncation where the
code truncates.  Multi-byte fields are encoded with `be16` (network order, `htons`/`ntohs`),
`le16` (host order of the little-endian targets the library is built for) and `le64`.
-/

namespace Lightway

abbrev Bytes := List UInt8

/-- `sizeof` helpers and `#define`s.  include/he.h:41-63 -/
def maxWireMtu : Nat := 1500
def maxMtu : Nat := 1350
def textFieldLen : Nat := 50
def ipv4StrLen : Nat := 24
def maxHostnameLen : Nat := 255

/-- Zero-filled storage, the result of `calloc` / `= {0}`. -/
def zeros (n : Nat) : Bytes := List.replicate n 0

/-- `htons` followed by storing the two bytes (network byte order). -/
def be16 (n : Nat) : Bytes := [UInt8.ofNat (n / 256), UInt8.ofNat n]

/-- Loading two bytes in network byte order (`ntohs`). Defined on exactly two bytes; callers obtain
the two bytes with `rd`, which refuses to read outside the buffer. -/
def rdBe16 : Bytes → Nat
  | [a, b] => a.toNat * 256 + b.toNat
  | _ => 0

/-- Storing a `uint16_t` in host order on a little-endian target (src/he/flow.c:120). -/
def le16 (n : Nat) : Bytes := [UInt8.ofNat n, UInt8.ofNat (n / 256)]

/-- Loading a `uint16_t` in host order on a little-endian target (src/he/msg_handlers.c:422). -/
def rdLe16 : Bytes → Nat
  | [a, b] => a.toNat + b.toNat * 256
  | _ => 0

/-- Little-endian digits: storing an unsigned integer of `k` bytes in host order. -/
def leN : Nat → Nat → Bytes
  | 0, _ => []
  | k + 1, n => UInt8.ofNat n :: leN k (n / 256)

/-- Loading a little-endian unsigned integer. -/
def rdLe : Bytes → Nat
  | [] => 0
  | b :: bs => b.toNat + 256 * rdLe bs

/-- `uint64_t` in host order. -/
def le64 (n : Nat) : Bytes := leN 8 n

/-- Checked read of `len` bytes at offset `off`; `none` means the C code would read outside the
object, i.e. undefined behaviour. -/
def rd (bs : Bytes) (off len : Nat) : Option Bytes :=
  if off + len ≤ bs.length then some ((bs.drop off).take len) else none

/-- Checked write of `src` at offset `off` of a fixed-size object; `none` means undefined
behaviour. -/
def wr (bs : Bytes) (off : Nat) (src : Bytes) : Option Bytes :=
  if off + src.length ≤ bs.length then
    some (bs.take off ++ src ++ bs.drop (off + src.length)) else none

/-- The C string stored at the start of a buffer: the bytes before the first NUL. -/
def cstr (bs : Bytes) : Bytes := bs.takeWhile (· ≠ 0)

/-- `strncpy(dst, src, n)`: copies at most `n` bytes of the C string `src`, pads with NUL bytes up to
`n`, leaves the rest of `dst` alone. -/
def strncpy (dst src : Bytes) (n : Nat) : Bytes :=
  let s := (cstr src).take n
  s ++ zeros (n - s.length) ++ dst.drop n

/-- `field[i] = '\0'` -/
def setNul (bs : Bytes) (i : Nat) : Bytes := bs.set i 0

/-- `strnlen(s, n)` -/
def strnlen (bs : Bytes) (n : Nat) : Nat := (cstr (bs.take n)).length

/-! ### Elementary lemmas -/

@[simp] theorem be16_length (n : Nat) : (be16 n).length = 2 := rfl
@[simp] theorem le16_length (n : Nat) : (le16 n).length = 2 := rfl
@[simp] theorem zeros_length (n : Nat) : (zeros n).length = n := by simp [zeros]
@[simp] theorem leN_length (k n : Nat) : (leN k n).length = k := by
  induction k generalizing n with
  | zero => rfl
  | succ k ih => simp [leN, ih]
@[simp] theorem le64_length (n : Nat) : (le64 n).length = 8 := by simp [le64]

theorem rdBe16_be16 {n : Nat} (h : n < 65536) : rdBe16 (be16 n) = n := by
  simp [be16, rdBe16, UInt8.toNat_ofNat']; omega

theorem rdLe16_le16 {n : Nat} (h : n < 65536) : rdLe16 (le16 n) = n := by
  simp [le16, rdLe16, UInt8.toNat_ofNat']; omega

theorem rdBe16_lt (bs : Bytes) : rdBe16 bs < 65536 := by
  match bs with
  | [] => simp [rdBe16]
  | [_] => simp [rdBe16]
  | [a, b] => have := a.toNat_lt; have := b.toNat_lt; simp [rdBe16]; omega
  | _ :: _ :: _ :: _ => simp [rdBe16]

theorem rdLe16_lt (bs : Bytes) : rdLe16 bs < 65536 := by
  match bs with
  | [] => simp [rdLe16]
  | [_] => simp [rdLe16]
  | [a, b] => have := a.toNat_lt; have := b.toNat_lt; simp [rdLe16]; omega
  | _ :: _ :: _ :: _ => simp [rdLe16]

theorem rdLe_leN (k n : Nat) : rdLe (leN k n) = n % 256 ^ k := by
  induction k generalizing n with
  | zero => simp [leN, rdLe, Nat.mod_one]
  | succ k ih =>
    simp only [leN, rdLe, ih, UInt8.toNat_ofNat']
    rw [show (256:Nat) ^ (k+1) = 256 * 256 ^ k from by rw [Nat.pow_succ, Nat.mul_comm], Nat.mod_mul]

theorem rdLe_lt (bs : Bytes) : rdLe bs < 256 ^ bs.length := by
  induction bs with
  | nil => simp [rdLe]
  | cons b bs ih =>
    have := b.toNat_lt
    simp only [rdLe, List.length_cons, Nat.pow_succ]; omega

theorem rdLe_le64 {n : Nat} (h : n < 2 ^ 64) : rdLe (le64 n) = n := by
  rw [le64, rdLe_leN]; exact Nat.mod_eq_of_lt (by simpa using h)

theorem rd_some_iff {bs : Bytes} {off len : Nat} {x : Bytes} :
    rd bs off len = some x ↔ off + len ≤ bs.length ∧ x = (bs.drop off).take len := by
  unfold rd; split
  · rename_i h; simp [h, eq_comm]
  · rename_i h; simp; intro h'; exact absurd h' h

theorem rd_isSome {bs : Bytes} {off len : Nat} (h : off + len ≤ bs.length) :
    rd bs off len = some ((bs.drop off).take len) := by simp [rd, h]

theorem rd_length {bs : Bytes} {off len : Nat} {x : Bytes} (h : rd bs off len = some x) :
    x.length = len := by
  rw [rd_some_iff] at h; obtain ⟨h1, rfl⟩ := h; simp; omega

/-- Reading across a concatenation, when the slice lies in the right part. -/
theorem rd_append_right (a b : Bytes) (off len : Nat) (h : a.length ≤ off) :
    rd (a ++ b) off len = rd b (off - a.length) len := by
  unfold rd
  have : (off + len ≤ (a ++ b).length) ↔ (off - a.length + len ≤ b.length) := by simp; omega
  simp only [this]
  rw [List.drop_append, List.drop_eq_nil_of_le h]; simp

/-- Reading the exact left part of a concatenation. -/
theorem rd_append_left (a b : Bytes) (len : Nat) (h : len = a.length) :
    rd (a ++ b) 0 len = some a := by
  subst h; simp [rd]

theorem wr_length {bs src r : Bytes} {off : Nat} (h : wr bs off src = some r) :
    r.length = bs.length := by
  unfold wr at h; split at h
  · cases h; simp; omega
  · cases h

@[simp] theorem setNul_length (bs : Bytes) (i : Nat) : (setNul bs i).length = bs.length := by
  simp [setNul]

theorem cstr_length_le (bs : Bytes) : (cstr bs).length ≤ bs.length := by
  unfold cstr; exact (List.takeWhile_sublist _).length_le

theorem strncpy_length (dst src : Bytes) (n : Nat) (h : n ≤ dst.length) :
    (strncpy dst src n).length = dst.length := by
  simp [strncpy]; omega

end Lightway
