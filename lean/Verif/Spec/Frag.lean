import Verif.Spec.Wire

/-!
# Which received fragments a reassembly slot may hold
Read off the history alone: received messages, deliveries, clock readings and table creations.
-/

namespace Lightway.Spec

/-- Number of reassembly slots: as configured, 65536 if not configured. -/
def tableSize (l : Log) : Nat := if tableAt l = 0 then 65536 else tableAt l

/-- Among `n`, which happened after `older`, is a packet delivered while processing a fragment for `slot`. -/
def DeliveredIn (slot size : Nat) (n older : Log) : Prop :=
  ∃ n1 q n2 m f, n = n1 ++ .insideWrite q :: n2 ∧ lastMessage (n2 ++ older) = some m ∧ carried m = some f ∧
    f.id % size = slot

/-- Fragment `f` arrived for `slot`, and since then (`n`) no packet was delivered from that slot and the table
was not created anew. -/
def Held (l : Log) (slot : Nat) (f : Fragment) (n : Log) : Prop :=
  ∃ m o, l = n ++ .message m :: o ∧ carried m = some f ∧ f.id % tableSize l = slot ∧ (∀ k, Effect.table k ∉ n) ∧
    ¬DeliveredIn slot (tableSize l) n (.message m :: o)

/-- The clock never went back. -/
def ClockMonotone (l : Log) : Prop :=
  AllAt (fun e l => ∀ t, e = .clock t → ∀ s, Effect.clock s ∈ l → s ≤ t) l

/-- Held, and (if the clock never went back) a clock reading `t` taken while its message was being processed is
at most 64 seconds before `now`. -/
def Fresh (l : Log) (slot : Nat) (f : Fragment) (now : Int) : Prop :=
  ∃ n t a, Held l slot f (n ++ .clock t :: a) ∧ (∀ m, Effect.message m ∉ a) ∧ (ClockMonotone l → now - t ≤ 64)

end Lightway.Spec
