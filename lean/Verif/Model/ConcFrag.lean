import Verif.Model.Frag

/-!
# The multithreaded build (`HE_ENABLE_MULTITHREADED`): fragments handled by several threads
The fragment table is a plain pointer with plain entries.  A schedule picks which thread makes its next access to the slot of
its fragment or to the entry the slot points to.  The loop over an entry's list of ranges is taken as one access, and
allocations succeed; the packet's way from the table to the host (internal_handle_data) is left out.
-/

namespace Lightway.ConcFrag

/-- A fragment given to `he_handle_msg_data_with_frag`: identifier, offset, whether it is the last, contents, and the clock while
it is handled. src/he/msg_handlers.c:453-477 -/
structure Job where
  id : Nat
  off : Nat
  last : Bool
  data : Bytes
  now : Int
  deriving DecidableEq, Repr

/-- Address of an entry: there from the beginning, in this slot, or allocated by this thread. -/
inductive Addr
  | old (slot : Nat)
  | new (thread : Nat)
  deriving DecidableEq, Repr

/-- Where a thread is. -/
inductive Pc
  /-- about to read the slot; a missing entry is allocated. src/he/frag.c:210-216 -/
  | find
  /-- about to store the entry it allocated. src/he/frag.c:217 -/
  | store (a : Addr)
  /-- about to compare the entry's time and to reset it if it is old. src/he/msg_handlers.c:477-482 -/
  | expire (a : Addr)
  /-- about to add the fragment. src/he/msg_handlers.c:487-491 -/
  | update (a : Addr)
  /-- about to hand the packet over. src/he/msg_handlers.c:495 -/
  | deliver (a : Addr)
  /-- about to read the slot again to delete the entry. src/he/frag.c:227-229 -/
  | drop
  /-- about to free the entry. src/he/frag.c:230-231 -/
  | free (a : Addr)
  /-- about to empty the slot. src/he/frag.c:232 -/
  | clear
  | done
  deriving DecidableEq, Repr

/-- What happened. -/
inductive Act
  /-- a packet was handed over -/
  | gave (pkt : Bytes)
  /-- an entry was allocated -/
  | made (a : Addr)
  /-- an entry was freed -/
  | freed (a : Addr)
  /-- an entry was used or freed that had been freed -/
  | misuse (a : Addr)
  /-- adding the fragment was undefined by itself (C18: it never is) -/
  | broken
  deriving DecidableEq, Repr

/-- The table (`num` slots), the entries that are allocated, and the threads with their fragments. -/
structure World where
  num : Nat
  slot : Nat → Option Addr
  mem : Addr → Option FragEntry
  job : Nat → Job
  pcs : Nat → Pc
  log : List (Nat × Act) := []

/-- The slot of a thread's fragment. src/he/frag.c:210 -/
def World.idx (w : World) (t : Nat) : Nat := (w.job t).id % w.num

/-- Thread `t` moves on. -/
def World.goto (w : World) (t : Nat) (pc : Pc) : World := { w with pcs := fun u => if u = t then pc else w.pcs u }

/-- Something happened in thread `t`. -/
def World.note (w : World) (t : Nat) (a : Act) : World := { w with log := (t, a) :: w.log }

/-- An entry is written, allocated or freed. -/
def World.put (w : World) (a : Addr) (e : Option FragEntry) : World := { w with mem := fun x => if x = a then e else w.mem x }

/-- A slot is written. -/
def World.point (w : World) (i : Nat) (a : Option Addr) : World := { w with slot := fun x => if x = i then a else w.slot x }

/-- The entry as it is used: reset if it is older than 64 seconds. src/he/msg_handlers.c:478-482 -/
def aged (now : Int) (e : FragEntry) : FragEntry := if now - e.timestamp > 64 then { e.reset with timestamp := now } else e

/-- The next access of thread `t`. src/he/msg_handlers.c:470-502, src/he/frag.c:206-234 -/
def World.step (w : World) (t : Nat) : World :=
  let j := w.job t
  match w.pcs t with
  | .find =>
    match w.slot (w.idx t) with
    | some a => w.goto t (.expire a)
    | none => ((w.put (.new t) (some (FragEntry.fresh j.now))).note t (.made (.new t))).goto t (.store (.new t))
  | .store a => (w.point (w.idx t) (some a)).goto t (.expire a)
  | .expire a =>
    match w.mem a with
    | none => (w.note t (.misuse a)).goto t .done
    | some e => (w.put a (some (aged j.now e))).goto t (.update a)
  | .update a =>
    match w.mem a with
    | none => (w.note t (.misuse a)).goto t .done
    | some e =>
      match e.update true j.data j.off j.last with
      | none => (w.note t .broken).goto t .done
      | some (e, rc, assembled) => (w.put a (some e)).goto t (if rc = .success ∧ assembled = true then .deliver a else .done)
  | .deliver a =>
    match w.mem a with
    | none => (w.note t (.misuse a)).goto t .done
    | some e =>
      match e.nodes with
      | [] => (w.note t .broken).goto t .done
      | hd :: _ =>
        match rd e.data 0 hd.e with
        | none => (w.note t .broken).goto t .done
        | some p => (w.note t (.gave p)).goto t .drop
  | .drop =>
    match w.slot (w.idx t) with
    | none => w.goto t .done
    | some a => w.goto t (.free a)
  | .free a =>
    match w.mem a with
    | none => (w.note t (.misuse a)).goto t .done
    | some _ => ((w.put a none).note t (.freed a)).goto t .clear
  | .clear => (w.point (w.idx t) none).goto t .done
  | .done => w

/-- Any schedule. -/
def World.run (w : World) (xs : List Nat) : World := xs.foldl World.step w

end Lightway.ConcFrag
