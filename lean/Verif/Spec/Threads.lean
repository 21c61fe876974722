import Verif.Model.Threads

/-!
# Reading a history of accesses by many threads
-/

namespace Lightway.Spec
open Threads

/-- The datagram thread `t` has last accepted, with the connection it was accepted for, unless it has been fetched (or refused as
too large) since. -/
def pendingOn (t : Nat) : List Entry → Option (Nat × Bytes)
  | [] => none
  | ⟨t', c, .accept b, _⟩ :: h => if t' = t then some (c, b) else pendingOn t h
  | ⟨t', _, _, .input (.bytes _)⟩ :: h => if t' = t then none else pendingOn t h
  | ⟨t', _, _, .input .dropped⟩ :: h => if t' = t then none else pendingOn t h
  | _ :: h => pendingOn t h

/-- The detailed error thread `t` has last recorded, for whatever connection. -/
def lastErrorOn (t : Nat) : List Entry → SslErr
  | [] => .none
  | ⟨t', _, .setErr e, _⟩ :: h => if t' = t then e else lastErrorOn t h
  | _ :: h => lastErrorOn t h

/-- The last error recorded for connection `c`, on any thread. -/
def lastErrorOf (c : Nat) : List Entry → SslErr
  | [] => .none
  | ⟨_, c', .setErr e, _⟩ :: h => if c' = c then e else lastErrorOf c h
  | _ :: h => lastErrorOf c h

end Lightway.Spec
