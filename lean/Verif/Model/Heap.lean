import Verif.Model.Frag

/-!
# Memory: src/he/memory.c, and every allocation and release in the library

A pointer-level model, independent of the other modules except for the node type: objects live in a heap of blocks,
`he_calloc` yields a fresh address or NULL, `he_free` and every read or write of a block is defined only if the address
is that of a live block of the right type (`none` is undefined behaviour: double free, use after free, NULL
dereference, access out of bounds, or a loop that does not end).

Simplifications: addresses are never used twice, so that every use after free is visible; objects of the TLS library
(`wolfSSL_CTX_new`, `wolfSSL_new`) are opaque blocks that must be released once (its reference counts are inside it);
only the pointer fields of the connection, context and client objects are kept; the connection's two plugin-chain
pointers are not followed here.
-/

namespace Lightway.Mem

/-- 0 is NULL. -/
abbrev Addr := Nat

/-- The objects the library allocates: fragment node, fragment entry, array of entry pointers and table (src/he/frag.h:36-57),
plugin chain element (src/he/he_internal.h `he_plugin_chain_t`), connection, context, client (include/he.h:322-330) and the
two kinds of TLS object. -/
inductive Block
  | node (n : FragNode) (next : Addr)
  | entry (data : Bytes) (timestamp : Int) (frags : Addr)
  | slots (ps : List Addr)
  | table (entries : Addr) (num : Nat)
  | chain (plugin : Option Nat) (next : Addr)
  | conn (table tls : Addr)
  | ctx (tls : Addr)
  | client (ctx conn inside outside : Addr)
  | tlsCtx
  | tls
  deriving DecidableEq, Repr

/-- What is asked for. -/
inductive What
  | node | entry | slots | table | chain | conn | ctx | client | tlsCtx | tls
  deriving DecidableEq, Repr

structure Heap where
  /-- live blocks -/
  at_ : Addr → Option Block
  /-- next fresh address -/
  brk : Nat
  /-- number of allocations asked for so far -/
  asked : Nat

/-- The allocator: does the `n`-th request, for this kind of block, succeed? -/
abbrev Oracle := What → Nat → Bool

def Heap.empty : Heap := { at_ := fun _ => none, brk := 1, asked := 0 }

/-- `he_calloc` (and `wolfSSL_CTX_new`, `wolfSSL_new`): `b` is the content the caller gives the block right away.
src/he/memory.c:53-59 -/
def Heap.alloc (ok : Oracle) (h : Heap) (w : What) (b : Block) : Addr × Heap :=
  if ok w h.asked then
    (h.brk, { at_ := fun a => if a = h.brk then some b else h.at_ a, brk := h.brk + 1, asked := h.asked + 1 })
  else (0, { h with asked := h.asked + 1 })

/-- `he_free`, `wolfSSL_CTX_free`, `wolfSSL_free` of a non-NULL pointer. src/he/memory.c:69-75 -/
def Heap.free (h : Heap) (a : Addr) : Option Heap :=
  if (h.at_ a).isSome then some { h with at_ := fun x => if x = a then none else h.at_ x } else none

/-- All of them accept NULL. -/
def Heap.freeOrNull (h : Heap) (a : Addr) : Option Heap := if a = 0 then some h else h.free a

/-- Write to a live block. -/
def Heap.set (h : Heap) (a : Addr) (b : Block) : Option Heap :=
  if (h.at_ a).isSome then some { h with at_ := fun x => if x = a then some b else h.at_ x } else none

/-! Typed reads -/

def Heap.node (h : Heap) (a : Addr) : Option (FragNode × Addr) :=
  match h.at_ a with | some (.node n p) => some (n, p) | _ => none
def Heap.entry (h : Heap) (a : Addr) : Option (Bytes × Int × Addr) :=
  match h.at_ a with | some (.entry d t p) => some (d, t, p) | _ => none
def Heap.slots (h : Heap) (a : Addr) : Option (List Addr) :=
  match h.at_ a with | some (.slots ps) => some ps | _ => none
def Heap.table (h : Heap) (a : Addr) : Option (Addr × Nat) :=
  match h.at_ a with | some (.table e n) => some (e, n) | _ => none
def Heap.chain (h : Heap) (a : Addr) : Option (Option Nat × Addr) :=
  match h.at_ a with | some (.chain p n) => some (p, n) | _ => none
def Heap.conn (h : Heap) (a : Addr) : Option (Addr × Addr) :=
  match h.at_ a with | some (.conn t s) => some (t, s) | _ => none
def Heap.ctx (h : Heap) (a : Addr) : Option Addr :=
  match h.at_ a with | some (.ctx t) => some t | _ => none
def Heap.client (h : Heap) (a : Addr) : Option (Addr × Addr × Addr × Addr) :=
  match h.at_ a with | some (.client x c i o) => some (x, c, i, o) | _ => none

/-! ## Fragments -/

/-- The release loop of `he_fragment_entry_reset`. src/he/frag.c:90-94.  The first argument bounds the number of
iterations; running out of it is undefined behaviour (it is given the number of blocks ever allocated). -/
def freeNodes : Nat → Heap → Addr → Option Heap
  | 0, _, _ => none
  | f + 1, h, p =>
    if p = 0 then some h
    else do
      let (_, next) ← h.node p
      let h ← h.free p
      freeNodes f h next

/-- `he_fragment_entry_reset`. src/he/frag.c:86-98 -/
def resetEntry (h : Heap) (e : Addr) : Option Heap := do
  let (_, _, p) ← h.entry e
  let h ← freeNodes h.brk h p
  h.set e (.entry (zeros maxWireMtu) 0 0)

/-- The loop of `he_fragment_entry_update`: `true` if it ends normally, `false` for HE_ERR_BAD_FRAGMENT.
src/he/frag.c:124-177.  `e` is the entry, `prev` and `curr` the two pointers. -/
def walkC (ok : Oracle) (off len : Nat) (last : Bool) (e : Addr) : Nat → Heap → Addr → Addr → Option (Heap × Bool)
  | 0, _, _, _ => none
  | f + 1, h, prev, curr =>
    if curr = 0 then some (h, true)
    else do
      let (n, next) ← h.node curr
      if off = n.e then
        let h ← h.set curr (.node { n with e := off + len, last := last } next)
        walkC ok off len last e f h prev next
      else if off + len = n.b then
        let h ← h.set curr (.node { n with b := off } next)
        some (h, true)
      else if off > n.e then
        if next ≠ 0 then
          let (m, next2) ← h.node next
          if m.b = n.e then
            let h ← h.set curr (.node { n with e := m.b, last := m.last } next2)
            let h ← h.free next
            walkC ok off len last e f h curr next2
          else walkC ok off len last e f h curr next
        else
          let (p, h) := h.alloc ok .node (.node { b := 0, e := 0, last := false } 0)
          let h ← h.set p (.node { b := off, e := off + len, last := last } 0)
          let h ← h.set curr (.node n p)
          some (h, true)
      else if off + len < n.b then
        let (p, h) := h.alloc ok .node (.node { b := 0, e := 0, last := false } 0)
        let h ← h.set p (.node { b := off, e := off + len, last := last } curr)
        if prev = 0 then
          let (d, t, _) ← h.entry e
          let h ← h.set e (.entry d t p)
          some (h, true)
        else
          let (q, _) ← h.node prev
          let h ← h.set prev (.node q p)
          some (h, true)
      else some (h, false)

/-- `he_fragment_entry_update`. src/he/frag.c:100-186 -/
def updateEntry (ok : Oracle) (h : Heap) (e : Addr) (d : Bytes) (off : Nat) (last : Bool) :
    Option (Heap × RC × Bool) :=
  if off + d.length > maxWireMtu then some (h, .packetTooLarge, false)
  else do
    let (data, t, p) ← h.entry e
    if p = 0 then
      let (q, h) := h.alloc ok .node (.node { b := 0, e := 0, last := false } 0)
      let h ← h.set q (.node { b := off, e := off + d.length, last := last } 0)
      let data' ← wr data off d
      let h ← h.set e (.entry data' t q)
      some (h, .success, false)
    else
      let (h, fine) ← walkC ok off d.length last e h.brk h 0 p
      if fine then
        let (data, t, p) ← h.entry e
        let data' ← wr data off d
        let h ← h.set e (.entry data' t p)
        let (n, _) ← h.node p
        some (h, .success, n.last && decide (n.b = 0))
      else some (h, .badFragment, false)

/-- `he_internal_fragment_table_create`; 0 is the NULL result. src/he/frag.c:188-204 -/
def createTable (ok : Oracle) (h : Heap) (num : Nat) : Option (Addr × Heap) :=
  let (t, h) := h.alloc ok .table (.table 0 0)
  if t = 0 then some (0, h)
  else
    let num := if num = 0 then 65536 else num
    let (s, h) := h.alloc ok .slots (.slots (List.replicate num 0))
    if s = 0 then do
      let h ← h.free t
      some (0, h)
    else do
      let h ← h.set t (.table s num)
      some (t, h)

/-- `he_internal_fragment_table_find`; `now` is what `time` returns if it is asked. src/he/frag.c:206-221 -/
def findEntry (ok : Oracle) (h : Heap) (t : Addr) (id : Nat) (now : Int) : Option (Addr × Heap) :=
  if t = 0 then some (0, h)
  else do
    let (s, num) ← h.table t
    let ps ← h.slots s
    let e ← ps[id % num]?
    if e = 0 then
      let (e, h) := h.alloc ok .entry (.entry (zeros maxWireMtu) 0 0)
      if e = 0 then some (0, h)
      else
        let h ← h.set e (.entry (zeros maxWireMtu) now 0)
        let h ← h.set s (.slots (ps.set (id % num) e))
        some (e, h)
    else some (e, h)

/-- Release of one entry of the table: `he_internal_fragment_table_delete` and the body of the loop of
`he_internal_fragment_table_destroy`. src/he/frag.c:229-233, 242-246 -/
def dropEntry (h : Heap) (s : Addr) (i : Nat) : Option Heap := do
  let ps ← h.slots s
  let e ← ps[i]?
  if e = 0 then some h
  else
    let h ← resetEntry h e
    let h ← h.free e
    h.set s (.slots (ps.set i 0))

/-- `he_internal_fragment_table_delete`. src/he/frag.c:223-234 -/
def deleteEntry (h : Heap) (t : Addr) (id : Nat) : Option Heap :=
  if t = 0 then some h
  else do
    let (s, num) ← h.table t
    dropEntry h s (id % num)

/-- The loop of `he_internal_fragment_table_destroy`, for the indices from `i` on; `k` of them are left.
src/he/frag.c:241-247 -/
def dropEntries (h : Heap) (s : Addr) : Nat → Nat → Option Heap
  | _, 0 => some h
  | i, k + 1 => do
    let h ← dropEntry h s i
    dropEntries h s (i + 1) k

/-- `he_internal_fragment_table_destroy`. src/he/frag.c:236-250 -/
def destroyTable (h : Heap) (t : Addr) : Option Heap :=
  if t = 0 then some h
  else do
    let (s, num) ← h.table t
    let h ← dropEntries h s 0 num
    let h ← h.free s
    h.free t

/-- The expiry check of `he_handle_msg_data_with_frag`. src/he/msg_handlers.c:480-484 -/
def expireEntry (h : Heap) (e : Addr) (ts now : Int) : Option Heap :=
  if now - ts > 64 then do
    let h ← resetEntry h e
    let (data, _, p) ← h.entry e
    h.set e (.entry data now p)
  else some h

/-- A received fragment: `he_handle_msg_data_with_frag` from the look-up on; the bytes delivered if the packet is
complete. `t1`, `t2` are the answers of `time` in the look-up and in the handler. src/he/msg_handlers.c:470-503 -/
def fragment (ok : Oracle) (h : Heap) (c : Addr) (id off : Nat) (last : Bool) (d : Bytes) (t1 t2 : Int) :
    Option (Heap × RC × Option Bytes) := do
  let (t, _) ← h.conn c
  let (e, h) ← findEntry ok h t id t1
  if e = 0 then some (h, .noMemory, none)
  else
    let (_, ts, _) ← h.entry e
    let h ← expireEntry h e ts t2
    let (h, rc, full) ← updateEntry ok h e d off last
    if rc ≠ .success then some (h, rc, none)
    else if full then
      let (data, _, p) ← h.entry e
      let (n, _) ← h.node p
      let out ← rd data 0 n.e
      let h ← deleteEntry h t id
      some (h, .success, some out)
    else some (h, .success, none)

/-! ## Plugin chains -/

/-- `he_plugin_create_chain`. src/he/plugin_chain.c:23-25 -/
def createChain (ok : Oracle) (h : Heap) : Addr × Heap := h.alloc ok .chain (.chain none 0)

/-- `he_plugin_destroy_chain`. src/he/plugin_chain.c:27-32 (recursion bounded as in `freeNodes`) -/
def destroyChain : Nat → Heap → Addr → Option Heap
  | 0, _, _ => none
  | f + 1, h, p =>
    if p = 0 then some h
    else do
      let (_, next) ← h.chain p
      let h ← destroyChain f h next
      h.free p

/-- `he_plugin_register_plugin`. src/he/plugin_chain.c:34-54 -/
def registerPlugin (ok : Oracle) (plugin : Nat) : Nat → Heap → Addr → Option (Heap × RC)
  | 0, _, _ => none
  | f + 1, h, p => do
    let (pl, next) ← h.chain p
    if pl.isNone then
      let h ← h.set p (.chain (some plugin) next)
      some (h, .success)
    else if next = 0 then
      let (q, h) := createChain ok h
      let h ← h.set p (.chain pl q)
      if q = 0 then some (h, .initFailed)
      else registerPlugin ok plugin f h q
    else registerPlugin ok plugin f h next

/-! ## Connection, context, client -/

/-- `he_conn_create`. src/he/conn.c:143-145 -/
def createConn (ok : Oracle) (h : Heap) : Addr × Heap := h.alloc ok .conn (.conn 0 0)

/-- `he_conn_destroy`. src/he/conn.c:147-153 -/
def destroyConn (h : Heap) (c : Addr) : Option Heap :=
  if c = 0 then some h
  else do
    let (t, s) ← h.conn c
    let h ← destroyTable h t
    let h ← h.freeOrNull s
    h.free c

/-- The allocations of `he_conn_internal_connect`: fragment table (in `he_internal_conn_configure`), TLS object.
src/he/conn.c:194-198, 205-223.  `num` is the context's `max_frag_entries`. -/
def connect (ok : Oracle) (h : Heap) (c : Addr) (num : Nat) : Option (Heap × RC) := do
  let (_, s) ← h.conn c
  let (t, h) ← createTable ok h num
  let h ← h.set c (.conn t s)
  if t = 0 then some (h, .noMemory)
  else
    let (s, h) := h.alloc ok .tls .tls
    let h ← h.set c (.conn t s)
    some (h, if s = 0 then .initFailed else .success)

/-- `he_ssl_ctx_create`. src/he/ssl_ctx.c:111-113 -/
def createCtx (ok : Oracle) (h : Heap) : Addr × Heap := h.alloc ok .ctx (.ctx 0)

/-- `he_ssl_ctx_destroy`. src/he/ssl_ctx.c:115-120 -/
def destroyCtx (h : Heap) (x : Addr) : Option Heap :=
  if x = 0 then some h
  else do
    let t ← h.ctx x
    let h ← h.freeOrNull t
    h.free x

/-- The allocation of `he_ssl_ctx_start` and `he_ssl_ctx_start_server`. src/he/ssl_ctx.c:167-177, 246-256 -/
def start (ok : Oracle) (h : Heap) (x : Addr) : Option (Heap × RC) := do
  let _ ← h.ctx x
  let (t, h) := h.alloc ok .tlsCtx .tlsCtx
  let h ← h.set x (.ctx t)
  some (h, if t = 0 then .initFailed else .success)

/-- `he_client_destroy`. src/he/client.c:46-57 -/
def destroyClient (h : Heap) (k : Addr) : Option Heap :=
  if k = 0 then some h
  else do
    let (x, c, i, o) ← h.client k
    let h ← destroyConn h c
    let h ← destroyCtx h x
    let h ← destroyChain h.brk h i
    let h ← destroyChain h.brk h o
    h.free k

/-- `he_client_create`. src/he/client.c:28-44 -/
def createClient (ok : Oracle) (h : Heap) : Option (Addr × Heap) :=
  let (k, h) := h.alloc ok .client (.client 0 0 0 0)
  if k = 0 then some (0, h)
  else
    let (x, h) := createCtx ok h
    let (c, h) := createConn ok h
    let (i, h) := createChain ok h
    let (o, h) := createChain ok h
    do
      let h ← h.set k (.client x c i o)
      if x = 0 ∨ c = 0 ∨ i = 0 ∨ o = 0 then
        let h ← destroyClient h k
        some (0, h)
      else some (k, h)

/-! ## The host -/

inductive Kind
  | ctx | conn | chain | client
  deriving DecidableEq, Repr

/-- Heap, and the handles the host may use: address, kind, and whether the host must destroy it itself (the objects
inside a client belong to the client). -/
structure Sys where
  heap : Heap
  handles : List (Addr × Kind × Bool)

def Sys.init : Sys := { heap := .empty, handles := [] }

/-- Calls of the host (and received fragments).  Boolean arguments say whether the checks before the allocation, or
between two allocations, succeed. -/
inductive Call
  | newCtx | newConn | newChain | newClient
  | register (chain : Addr) (plugin : Nat)
  | start (ctx : Addr) (valid : Bool)
  | connect (conn ctx : Addr) (valid : Bool) (num : Nat)
  | clientConnect (client : Addr) (valid loaded connValid : Bool) (num : Nat)
  | fragment (conn : Addr) (id off : Nat) (last : Bool) (d : Bytes) (t1 t2 : Int)
  | destroy (a : Addr) (k : Kind)
  deriving Repr

def Sys.has (s : Sys) (a : Addr) (k : Kind) : Bool := s.handles.any (fun x => x.1 == a && x.2.1 == k)
def Sys.owns (s : Sys) (a : Addr) (k : Kind) : Bool := s.handles.contains (a, k, true)

/-- A new object is usable unless the result was NULL. -/
def Sys.add (s : Sys) (h : Heap) (a : Addr) (k : Kind) : Sys :=
  { heap := h, handles := if a = 0 then s.handles else (a, k, true) :: s.handles }

/-- One call.  A call with a handle the host does not have is not made: the host never passes a dangling pointer.
`none` is undefined behaviour. -/
def Sys.exec (ok : Oracle) (s : Sys) : Call → Option Sys
  | .newCtx => let (a, h) := createCtx ok s.heap; some (s.add h a .ctx)
  | .newConn => let (a, h) := createConn ok s.heap; some (s.add h a .conn)
  | .newChain => let (a, h) := createChain ok s.heap; some (s.add h a .chain)
  | .newClient => do
    let (k, h) ← createClient ok s.heap
    if k = 0 then some { s with heap := h }
    else
      let (x, c, i, o) ← h.client k
      some { heap := h, handles := (k, .client, true) :: (x, .ctx, false) :: (c, .conn, false) :: (i, .chain, false) ::
        (o, .chain, false) :: s.handles }
  | .register a p =>
    if !s.has a .chain then some s
    else do
      let (h, _) ← registerPlugin ok p s.heap.brk s.heap a
      some { s with heap := h }
  | .start a valid =>
    if !s.has a .ctx || !valid then some s
    else do
      let (h, _) ← start ok s.heap a
      some { s with heap := h }
  | .connect a x valid num =>
    if !s.has a .conn || !s.has x .ctx || !valid then some s
    else do
      let (h, _) ← connect ok s.heap a num
      some { s with heap := h }
  | .clientConnect k valid loaded connValid num =>
    if !s.has k .client || !valid then some s
    else do
      let (x, c, _, _) ← s.heap.client k
      let (h, rc) ← start ok s.heap x
      if rc ≠ .success ∨ !loaded ∨ !connValid then some { s with heap := h }
      else
        let (h, _) ← connect ok h c num
        some { s with heap := h }
  | .fragment a id off last d t1 t2 =>
    if !s.has a .conn then some s
    else do
      let (h, _, _) ← fragment ok s.heap a id off last d t1 t2
      some { s with heap := h }
  | .destroy a k =>
    if !s.owns a k then some s
    else
      match k with
      | .ctx => do
        let h ← destroyCtx s.heap a
        some { heap := h, handles := s.handles.erase (a, k, true) }
      | .conn => do
        let h ← destroyConn s.heap a
        some { heap := h, handles := s.handles.erase (a, k, true) }
      | .chain => do
        let h ← destroyChain s.heap.brk s.heap a
        some { heap := h, handles := s.handles.erase (a, k, true) }
      | .client => do
        let (x, c, i, o) ← s.heap.client a
        let h ← destroyClient s.heap a
        some { heap := h, handles := ((((s.handles.erase (a, k, true)).erase (x, .ctx, false)).erase (c, .conn, false)).erase
          (i, .chain, false)).erase (o, .chain, false) }

/-- A history of calls. -/
def Sys.runFrom (ok : Oracle) (s : Sys) : List Call → Option Sys
  | [] => some s
  | c :: cs => do
    let s ← s.exec ok c
    s.runFrom ok cs

def Sys.run (ok : Oracle) (cs : List Call) : Option Sys := Sys.init.runFrom ok cs

end Lightway.Mem
