import Verif.Model.Config
import Verif.Proofs.Str

/-!
# C120: copying a text into a fixed buffer (he_safe_strncpy)
The text is the bytes of `src` before its first NUL.  The C function asserts that the size is not 0; that the buffer has that
many bytes is up to the caller.
-/

namespace Lightway

/-- **C120.** Every byte of the buffer after the copy: the text as far as it fits below the last byte of the given size, then
zeros up to the size, then what the buffer held before.  The buffer does not grow or shrink. -/
theorem C120_every_byte (dst src : Bytes) (size : Nat) (h0 : 0 < size) (hs : size ≤ dst.length) :
    (safeStrncpy dst src size).length = dst.length ∧
    ∀ i, (safeStrncpy dst src size)[i]? =
      if i < size then (if i < (cstr src).length ∧ i + 1 < size then (cstr src)[i]? else some 0) else dst[i]? := by
  have hl : (strncpy dst src (size - 1)).length = dst.length := by
    simp only [strncpy, List.length_append, List.length_take, zeros_length, List.length_drop]; omega
  refine ⟨by rw [safeStrncpy, setNul, List.length_set, hl], fun i => ?_⟩
  rw [safeStrncpy, setNul, List.getElem?_set, hl]
  by_cases h1 : size - 1 = i
  · have hi : i < size := by omega
    have hn : ¬(i < (cstr src).length ∧ i + 1 < size) := by omega
    rw [if_pos h1, if_pos (by omega), if_pos hi, if_neg hn]
  · rw [if_neg h1]
    simp only [strncpy]
    by_cases h2 : i < size
    · rw [if_pos h2]
      by_cases h3 : i < (cstr src).length
      · rw [if_pos ⟨h3, by omega⟩, List.getElem?_append_left (by simp; omega), List.getElem?_append_left (by simp; omega),
          List.getElem?_take_of_lt (by omega)]
      · rw [if_neg (by omega), List.getElem?_append_left (by simp; omega), List.getElem?_append_right (by simp; omega)]
        unfold zeros
        rw [List.getElem?_replicate_of_lt (by simp; omega)]
    · rw [if_neg h2, List.getElem?_append_right (by simp; omega), List.getElem?_drop]
      congr 1
      simp; omega

/-- **C120.** What the buffer holds afterwards is a terminated text: the given text if it has fewer bytes than the size, else its
first `size - 1` bytes. -/
theorem C120_text (dst src : Bytes) (size : Nat) (h0 : 0 < size) (hs : size ≤ dst.length) :
    cstr (safeStrncpy dst src size) = (cstr src).take (size - 1) ∧ 0 ∈ (safeStrncpy dst src size).take size ∧
    ((cstr src).length < size → cstr (safeStrncpy dst src size) = cstr src) := by
  have hl : (strncpy dst src (size - 1)).length = dst.length := by
    simp only [strncpy, List.length_append, List.length_take, zeros_length, List.length_drop]; omega
  have e : cstr (safeStrncpy dst src size) = (cstr src).take (size - 1) := by
    rw [safeStrncpy, setNul, cstr_set _ _ (by omega), ← cstr_take]
    simp only [strncpy]
    rw [List.take_append_of_le_length (by simp; omega), List.take_of_length_le (by simp; omega), cstr_append_zeros, cstr_take,
      cstr_cstr]
  refine ⟨e, ?_, fun h => ?_⟩
  · have := (C120_every_byte dst src size h0 hs).2 (size - 1)
    rw [if_pos (by omega), if_neg (by omega)] at this
    rw [List.mem_iff_getElem?]
    exact ⟨size - 1, by rw [List.getElem?_take_of_lt (by omega), this]⟩
  · rw [e, List.take_of_length_le (by omega)]

/-- C120: a text that fits, one that fills the buffer, one that is cut, one that ends early, and the empty one; the byte behind
the given size stays. -/
example : safeStrncpy [9, 9, 9, 9, 9] [104, 105, 0] 4 = [104, 105, 0, 0, 9] ∧
    safeStrncpy [9, 9, 9, 9, 9] [104, 105, 106] 4 = [104, 105, 106, 0, 9] ∧
    safeStrncpy [9, 9, 9, 9, 9] [104, 105, 106, 107, 108] 4 = [104, 105, 106, 0, 9] ∧
    safeStrncpy [9, 9, 9, 9, 9] [104, 0, 106] 4 = [104, 0, 0, 0, 9] ∧
    safeStrncpy [9, 9] [104] 1 = [0, 9] := by decide +kernel

end Lightway
