import Verif.Basic

/-!
# src/he/memory.c
Function pointers are numbers, NULL is `none`; the file's four static pointers are one record.  `wolfSSL_SetAllocators`
is an oracle answer carried by the operation.  Blocks are numbers chosen by the allocator that is called (a failing
allocation has no block and nothing to give back, so it is not an operation here).
-/

namespace Lightway

/-- `internal_malloc`, `internal_calloc`, `internal_realloc`, `internal_free`. src/he/memory.c:22-25 -/
structure Allocators where
  malloc : Option Nat := none
  calloc : Option Nat := none
  realloc : Option Nat := none
  free : Option Nat := none
  deriving DecidableEq, Repr

/-- What the library asks of memory.c.  In `set`, `ok` says that wolfSSL accepted the functions. -/
inductive MemOp
  | set (a : Allocators) (ok : Bool)
  | malloc (p : Nat)
  | calloc (p : Nat)
  | realloc (p q : Nat)
  | free (p : Nat)
  deriving DecidableEq, Repr

/-- What memory.c does: the function called (`none` is the C library's) and the blocks passed and returned. -/
inductive MemCall
  /-- an allocating function returned the block -/
  | got (f : Option Nat) (p : Nat)
  /-- a function was given the block to release -/
  | gave (f : Option Nat) (p : Nat)
  deriving DecidableEq, Repr

/-- The calls made (newest first) and the functions installed. -/
structure MemSt where
  fns : Allocators := {}
  calls : List MemCall := []
  deriving DecidableEq, Repr

/-- `he_set_allocators`. src/he/memory.c:27-44 -/
def setAllocators (m : MemSt) (a : Allocators) (ok : Bool) : MemSt :=
  if !ok then m else { m with fns := a }

/-- `he_malloc`. src/he/memory.c:46-52 -/
def heMalloc (m : MemSt) (p : Nat) : MemSt :=
  match m.fns.malloc with
  | some f => { m with calls := .got (some f) p :: m.calls }
  | none => { m with calls := .got none p :: m.calls }

/-- `he_calloc`. src/he/memory.c:53-59 -/
def heCalloc (m : MemSt) (p : Nat) : MemSt :=
  match m.fns.calloc with
  | some f => { m with calls := .got (some f) p :: m.calls }
  | none => { m with calls := .got none p :: m.calls }

/-- `he_realloc`. src/he/memory.c:61-67 -/
def heRealloc (m : MemSt) (p q : Nat) : MemSt :=
  match m.fns.realloc with
  | some f => { m with calls := .got (some f) q :: .gave (some f) p :: m.calls }
  | none => { m with calls := .got none q :: .gave none p :: m.calls }

/-- `he_free`. src/he/memory.c:69-75 -/
def heFree (m : MemSt) (p : Nat) : MemSt :=
  match m.fns.free with
  | some f => { m with calls := .gave (some f) p :: m.calls }
  | none => { m with calls := .gave none p :: m.calls }

/-- One request. -/
def memStep (m : MemSt) : MemOp → MemSt
  | .set a ok => setAllocators m a ok
  | .malloc p => heMalloc m p
  | .calloc p => heCalloc m p
  | .realloc p q => heRealloc m p q
  | .free p => heFree m p

/-- A history of requests. -/
def memRun (ops : List MemOp) : MemSt := ops.foldl memStep {}

end Lightway
