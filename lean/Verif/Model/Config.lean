import Verif.Model.Types

/-!
# src/he/config.c and string helpers of src/he/utils.c
A host string is a NUL-free byte list or any byte list (then it ends at its first NUL).
-/

namespace Lightway

/-- `he_internal_config_is_string_length_okay`: `strnlen(string, 51) <= 50`.
src/he/config.c:22-33 -/
def configStringLengthOkay (s : Bytes) : Bool :=
  !decide (min (cstr s).length (textFieldLen + 1) > textFieldLen)

/-- `he_internal_config_is_empty_string`. src/he/config.c:39-47.  The C string's first byte is NUL. -/
def configIsEmptyString (s : Bytes) : Bool := (cstr s).isEmpty

/-- `he_internal_set_config_string(field, value)`: the new contents of the 51-byte field and the
return code. src/he/config.c:49-70 -/
def setConfigString (field value : Bytes) : Bytes × RC :=
  if configIsEmptyString value then (field, .emptyString)
  else if !configStringLengthOkay value then (field, .stringTooLong)
  else (setNul (strncpy field value textFieldLen) (textFieldLen - 1), .success)

/-- `he_safe_strncpy(dst, src, dst_size)`. src/he/utils.c:123-129 (the assertions on the arguments
are the caller's obligation `0 < size ≤ dst.length`). -/
def safeStrncpy (dst src : Bytes) (size : Nat) : Bytes :=
  setNul (strncpy dst src (size - 1)) (size - 1)

end Lightway
