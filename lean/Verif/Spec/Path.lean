import Verif.Spec.Pmtud

/-!
# A network path of a given capacity
-/

namespace Lightway.Spec

/-- The size of the latest probe with this identifier. -/
def sizeOfProbe (id : Nat) : List PmEv → Option Nat
  | [] => none
  | .probe i m :: l => if i = id then some m else sizeOfProbe id l
  | _ :: l => sizeOfProbe id l

/-- The size of the latest probe. -/
def lastProbed : List PmEv → Option Nat
  | [] => none
  | .probe _ m :: _ => some m
  | _ :: l => lastProbed l

/-- The peer answers only what it received: no PONG carries the identifier 0, and when a PONG answers a probe, that
probe fitted the path. -/
def HonestPongs (L : Nat) (ev : List PmEv) : Prop :=
  ∀ newer id older, ev = newer ++ .pong id :: older → id ≠ 0 ∧ ∀ m, sizeOfProbe id older = some m → m ≤ L

/-- The last request to the host's timer was made for a probe (the rests between searches last a minute or more). -/
def AwaitsAnswer (ev : List PmEv) : Prop := ∃ t, lastTimer ev = some t ∧ t < 60000

/-- How many searches were begun (BASE announced). -/
def searches : List PmEv → Nat
  | [] => 0
  | .state .base :: l => searches l + 1
  | _ :: l => searches l

/-- The value the `k`-th search settles on: at most the capacity, and less than one small step (8 bytes) below what can
be found at all.  Except that the first search on a path that takes less than 1250 ends with 1250. -/
def Settles (L k n : Nat) : Prop :=
  if k = 1 ∧ L < 1250 then n = 1250 else n ≤ L ∧ min L 1416 < n + 8

end Lightway.Spec
