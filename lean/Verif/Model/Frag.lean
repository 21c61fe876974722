import Verif.Model.Types

/-!
# Receiving side of src/he/frag.c
-/

namespace Lightway

/-- A fresh `he_calloc`ed entry. src/he/frag.c:214-216 -/
def FragEntry.fresh (now : Int) : FragEntry :=
  { data := zeros maxWireMtu, timestamp := now, nodes := [] }

/-- `he_fragment_entry_reset`. src/he/frag.c:86-98 (`memset` covers the whole buffer) -/
def FragEntry.reset (_ : FragEntry) : FragEntry :=
  { data := zeros maxWireMtu, timestamp := 0, nodes := [] }

/-- Outcome of the list walk of `he_fragment_entry_update`. -/
inductive WalkRes
  /-- loop left by `break` or by running off the list; the node list is as given -/
  | done (nodes : List FragNode)
  /-- `HE_ERR_BAD_FRAGMENT`; the node list may already have been modified -/
  | bad (nodes : List FragNode)
  /-- a NULL allocation result was dereferenced -/
  | ub
  deriving DecidableEq, Repr

/-- The list walk of `he_fragment_entry_update`. src/he/frag.c:122-177.

The singly linked list is represented by three parts: `done` (reversed) are the nodes before `prev`
inclusive, i.e. those reachable up to the `prev` pointer; `skip` (reversed) are the nodes between
`prev` and `curr` (nodes that were extended: the loop advances `curr` without setting `prev`);
`rest` starts at `curr`.  Inserting "between prev and curr" therefore drops `skip` from the list,
exactly as `prev->next = node` (or `entry->fragments = node`) does in the C code.
`off`, `len`, `last` are the new fragment; node ends are `uint16_t` but never exceed 1500. -/
def walk (alloc : Bool) (off len : Nat) (last : Bool) :
    List FragNode → List FragNode → List FragNode → WalkRes
  | done, skip, [] => .done (done.reverse ++ skip.reverse)
  | done, skip, curr :: rest =>
    if off = curr.e then
      -- expand current node and continue with the remaining nodes
      walk alloc off len last done ({ curr with e := off + len, last := last } :: skip) rest
    else if off + len = curr.b then
      -- prepend to current node
      .done (done.reverse ++ skip.reverse ++ { curr with b := off } :: rest)
    else if off > curr.e then
      match rest with
      | [] =>
        if alloc then
          .done (done.reverse ++ skip.reverse ++ [curr, { b := off, e := off + len, last := last }])
        else .ub
      | next :: rest' =>
        if next.b = curr.e then
          -- "combine the two existing nodes": curr->end = next->begin, next is freed
          match rest' with
          | [] =>
            -- prev = curr; curr = NULL: the loop ends
            .done (done.reverse ++ skip.reverse ++ [{ curr with e := next.b, last := next.last }])
          | n2 :: r2 => walk alloc off len last
              ({ curr with e := next.b, last := next.last } :: (skip ++ done)) [] (n2 :: r2)
        else
          walk alloc off len last (curr :: (skip ++ done)) [] (next :: rest')
    else if off + len < curr.b then
      if alloc then
        .done (done.reverse ++ { b := off, e := off + len, last := last } :: curr :: rest)
      else .ub
    else .bad (done.reverse ++ skip.reverse ++ curr :: rest)
termination_by _ _ rest => rest.length

/-- `he_fragment_entry_update(entry, data, offset, length, mf, &assembled)`: the new entry, the
return code and `*assembled` (which the caller initialises to false); `none` is undefined behaviour.
src/he/frag.c:100-186.  `last` is `mf == 0`; the data's length is `length`. -/
def FragEntry.update (alloc : Bool) (en : FragEntry) (d : Bytes) (off : Nat) (last : Bool) :
    Option (FragEntry × RC × Bool) :=
  if off + d.length > maxWireMtu then some (en, .packetTooLarge, false)
  else
    match en.nodes with
    | [] =>
      if alloc then
        match wr en.data off d with
        | none => none
        | some data' =>
          some ({ en with data := data', nodes := [{ b := off, e := off + d.length, last := last }] },
            .success, false)
      else none
    | _ =>
      match walk alloc off d.length last [] [] en.nodes with
      | .ub => none
      | .bad ns => some ({ en with nodes := ns }, .badFragment, false)
      | .done ns =>
        match wr en.data off d with
        | none => none
        | some data' =>
          match ns with
          | [] => none
          | hd :: _ =>
            some ({ en with data := data', nodes := ns }, .success, hd.last && decide (hd.b = 0))

/-- `he_internal_fragment_table_create(num_entries)` (allocation success is decided by the
caller). src/he/frag.c:188-204 -/
def FragTable.create (numEntries : Nat) : FragTable :=
  { num := if numEntries = 0 then 65536 else numEntries, slot := fun _ => none }

/-- `he_internal_fragment_table_find`: index used, entry (created on demand), table.
src/he/frag.c:206-221; `uint16_t idx = frag_id % num_entries`. -/
def FragTable.find (t : FragTable) (alloc : Bool) (now : Int) (id : Nat) :
    FragTable × Option FragEntry :=
  match t.slot (id % t.num) with
  | some en => (t, some en)
  | none =>
    if alloc then
      let en := FragEntry.fresh now
      ({ t with slot := fun i => if i = id % t.num then some en else t.slot i }, some en)
    else (t, none)

/-- Store an updated entry back (the C code mutates it in place). -/
def FragTable.set (t : FragTable) (id : Nat) (en : FragEntry) : FragTable :=
  { t with slot := fun i => if i = id % t.num then some en else t.slot i }

/-- `he_internal_fragment_table_delete`. src/he/frag.c:223-234 -/
def FragTable.delete (t : FragTable) (id : Nat) : FragTable :=
  { t with slot := fun i => if i = id % t.num then none else t.slot i }

end Lightway
