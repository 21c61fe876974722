import Verif.Model.Heap

/-!
# What memory properties talk about
-/

namespace Lightway.Mem

/-- The held blocks of a linked list, read from the heap. -/
def blocks : Nat → Heap → Addr → Option (List FragNode)
  | 0, _, _ => none
  | f + 1, h, p =>
    if p = 0 then some []
    else do
      let (n, next) ← h.node p
      let ns ← blocks f h next
      some (n :: ns)

/-- What connection `c` holds for the packet `id`: age mark and byte ranges. -/
def held (h : Heap) (c : Addr) (id : Nat) : Option (Int × List FragNode) := do
  let (t, _) ← h.conn c
  let (s, num) ← h.table t
  let ps ← h.slots s
  let e ← ps[id % num]?
  let (_, ts, p) ← h.entry e
  let ns ← blocks h.brk h p
  some (ts, ns)

/-- A fragment `[off, off + len)` that starts where a held range ends and ends before another held range starts. -/
def Drops (ns : List FragNode) (off len : Nat) : Prop := ∃ n ∈ ns, ∃ m ∈ ns, off = n.e ∧ off + len < m.b

/-- A call that loses nothing: no context is started twice, no connection is connected twice, and no fragment joins a held
range from behind while ending before another one. -/
def Clean (s : Sys) : Call → Prop
  | .start x _ => s.has x .ctx → s.heap.ctx x = some 0
  | .connect c _ _ _ => s.has c .conn → s.heap.conn c = some (0, 0)
  | .clientConnect k _ _ _ _ => ∀ x c i o, s.heap.client k = some (x, c, i, o) → s.heap.ctx x = some 0 ∧ s.heap.conn c = some (0, 0)
  | .fragment c id off _ d _ now => ∀ ts ns, held s.heap c id = some (ts, ns) → now - ts ≤ 64 → ¬Drops ns off d.length
  | _ => True

/-- Every call of the history is. -/
def CleanRun (ok : Oracle) (s : Sys) : List Call → Prop
  | [] => True
  | c :: cs => Clean s c ∧ ∀ s', s.exec ok c = some s' → CleanRun ok s' cs

/-- A received fragment: packet identifier, offset, whether it is the last one, the bytes, and the two readings of the clock. -/
structure Arrival where
  id : Nat
  off : Nat
  last : Bool
  d : Bytes
  t1 : Int
  t2 : Int

/-- Fragments received one after the other by connection `c`: the heap, and for each the return code and the packet that
became complete. -/
def feed (ok : Oracle) (c : Addr) (h : Heap) : List Arrival → Option (Heap × List (RC × Option Bytes))
  | [] => some (h, [])
  | x :: xs => do
    let (h, r) ← fragment ok h c x.id x.off x.last x.d x.t1 x.t2
    let (h, rs) ← feed ok c h xs
    some (h, r :: rs)

end Lightway.Mem
