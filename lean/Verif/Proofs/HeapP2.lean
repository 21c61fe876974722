import Verif.Proofs.HeapP

/-!
# Fragment entries and tables in the heap
-/

namespace Lightway.Mem

/-! ### Entries -/

/-- A fragment entry as it lies in the heap. -/
structure EntryV where
  a : Addr
  data : Bytes
  ts : Int
  nodes : Nodes

def EntryV.cells (E : EntryV) : List Cell := (E.a, .entry E.data E.ts (nextOf 0 E.nodes)) :: nodeCells 0 E.nodes

/-- The entry of the list model. -/
def EntryV.plain (E : EntryV) : FragEntry := { data := E.data, timestamp := E.ts, nodes := Mem.plain E.nodes }

/-- The buffer has its size and the nodes lie inside it. -/
def EntryV.Ok (E : EntryV) : Prop := EntryWf E.plain

theorem EntryV.fits {h : Heap} {F : List Cell} (E : EntryV) (hh : Holds h (E.cells ++ F)) : E.nodes.length < h.brk := by
  have := hh.length_lt
  simp [EntryV.cells, nodeCells_length] at this; omega

theorem EntryV.read {h : Heap} {F : List Cell} (E : EntryV) (hh : Holds h (E.cells ++ F)) :
    h.entry E.a = some (E.data, E.ts, nextOf 0 E.nodes) := hh.entry (by simp [EntryV.cells])

theorem EntryV.a_pos {h : Heap} {F : List Cell} (E : EntryV) (hh : Holds h (E.cells ++ F)) : E.a ≠ 0 :=
  (hh.low (E.a, .entry E.data E.ts (nextOf 0 E.nodes)) (by simp [EntryV.cells])).1

theorem EntryV.set {h : Heap} {F : List Cell} (E : EntryV) (hh : Holds h (E.cells ++ F)) (data : Bytes) (ts : Int) :
    ∃ h', h.set E.a (.entry data ts (nextOf 0 E.nodes)) = some h' ∧ Holds h' (EntryV.cells { E with data := data, ts := ts } ++ F) ∧
      h'.brk = h.brk :=
  Holds.set (l1 := []) (l2 := nodeCells 0 E.nodes ++ F) hh _

theorem resetEntry_ok {h : Heap} {F : List Cell} (E : EntryV) (hh : Holds h (E.cells ++ F)) :
    ∃ h', resetEntry h E.a = some h' ∧
      Holds h' (EntryV.cells { E with data := zeros maxWireMtu, ts := 0, nodes := [] } ++ F) ∧ h'.brk = h.brk := by
  unfold resetEntry
  rw [bind_some' _ (E.read hh)]
  obtain ⟨h1, e1, hh1, b1⟩ := freeNodes_ok h.brk E.nodes h ((E.a, .entry E.data E.ts (nextOf 0 E.nodes)) :: F) (E.fits hh)
    (hh.perm (by simp only [EntryV.cells]; same_cells))
  simp only
  rw [bind_some' _ e1]
  obtain ⟨h2, e2, hh2, b2⟩ := Holds.set (l1 := []) hh1 (.entry (zeros maxWireMtu) 0 0)
  exact ⟨h2, e2, hh2, b2.trans b1⟩

theorem wr_some {d s : Bytes} {off : Nat} (h : off + s.length ≤ d.length) :
    ∃ d', wr d off s = some d' ∧ d'.length = d.length := by
  refine ⟨_, by unfold wr; rw [if_pos h], ?_⟩
  simp only [List.length_append, List.length_take, List.length_drop]; omega

theorem walk_ne_nil (al : Bool) (off len : Nat) (last : Bool) (done skip rest : List FragNode)
    (h : done ++ skip ++ rest ≠ []) : walk al off len last done skip rest ≠ .done [] := by
  fun_induction walk al off len last done skip rest <;> simp_all

/-- `he_fragment_entry_update` on the heap does what the list model says; `X` are the blocks that are no longer reachable. -/
theorem updateEntry_ok' {ok : Oracle} (hok : ∀ k, ok .node k = true) {h : Heap} {F : List Cell} (E : EntryV) (hE : E.data.length = 1500)
    (hh : Holds h (E.cells ++ F)) (d : Bytes) (off : Nat) (last : Bool) :
    ∃ (h' : Heap) (E' : EntryV) (X : List Cell) (rc : RC) (full : Bool), updateEntry ok h E.a d off last = some (h', rc, full) ∧ Holds h' (E'.cells ++ (X ++ F)) ∧
      h.brk ≤ h'.brk ∧ E'.a = E.a ∧ E'.data.length = 1500 ∧ FragEntry.update true E.plain d off last = some (E'.plain, rc, full) ∧
      (¬Drops E.plain.nodes off d.length → X = []) := by
  unfold updateEntry FragEntry.update
  by_cases hl : off + d.length > maxWireMtu
  · rw [if_pos hl, if_pos hl]
    exact ⟨h, E, [], _, _, rfl, hh, Nat.le_refl _, rfl, hE, rfl, fun _ => rfl⟩
  · rw [if_neg hl, if_neg hl, bind_some' _ (E.read hh)]
    simp only
    have hfit : off + d.length ≤ E.data.length := by simp only [maxWireMtu] at hl; omega
    obtain ⟨data', hw, hwl⟩ := wr_some hfit
    by_cases hn : E.nodes = []
    · rw [if_pos (by rw [hn]; rfl)]
      have hp : E.plain.nodes = [] := by simp [EntryV.plain, plain, hn]
      rw [hp]
      simp only
      rw [if_pos True.intro, show wr E.plain.data off d = some data' from hw]
      obtain ⟨q, h1, e1, hq, hh1, b1⟩ := alloc_node hh hok (.node { b := 0, e := 0, last := false } 0)
      rw [e1]
      simp only
      obtain ⟨h2, e2, hh2, b2⟩ := Holds.set (l1 := []) hh1 (.node { b := off, e := off + d.length, last := last } 0)
      rw [bind_some' _ e2, hw]
      show ∃ _ _ _ _ _, (do let h ← h2.set E.a (.entry data' E.ts q); some (h, RC.success, false)) = _ ∧ _
      obtain ⟨h3, e3, hh3, b3⟩ := Holds.set (a := E.a) (l1 := [(q, .node { b := off, e := off + d.length, last := last } 0)])
        (l2 := nodeCells 0 E.nodes ++ F) (by simpa [EntryV.cells] using hh2) (.entry data' E.ts q)
      rw [bind_some' _ e3]
      refine ⟨h3, { E with data := data', nodes := [(q, { b := off, e := off + d.length, last := last })] }, [], _, _, rfl, ?_, by omega, rfl,
        hwl.trans hE, ?_, fun _ => rfl⟩
      · refine hh3.perm ?_
        simp only [EntryV.cells, hn, nodeCells, nextOf]
        same_cells
      · rfl
    · have hne : nextOf 0 E.nodes ≠ 0 := by
        cases hE2 : E.nodes with
        | nil => exact absurd hE2 hn
        | cons x r =>
          obtain ⟨a, n⟩ := x
          exact (hh.low (a, .node n (nextOf 0 r)) (by simp [EntryV.cells, hE2, nodeCells])).1
      rw [if_neg hne]
      have hp : E.plain.nodes ≠ [] := by
        intro h0; apply hn
        have : (plain E.nodes) = [] := h0
        simpa [plain] using this
      obtain ⟨h1, fine, L, X, e1, hh1, b1, hres, hX⟩ := walkC_ok hok off d.length last E.a E.data E.ts F E.plain.nodes h.brk [] [] E.nodes h
        (E.fits hh) (by simpa [EntryV.cells] using hh) (by simp)
        (fun x hx => by show x.2 ∈ plain E.nodes; exact List.mem_map.2 ⟨x, hx, rfl⟩)
      rw [show lastOf [] = 0 from rfl] at e1
      rw [bind_some' _ e1]
      have hwalk : walk true off d.length last [] [] E.plain.nodes = if fine = true then .done (plain L) else .bad (plain L) := hres
      cases fine with
      | false =>
        rw [if_neg (by simp)] at hwalk
        simp only
        rw [if_neg (by simp)]
        refine ⟨h1, { E with nodes := L }, X, _, _, rfl, hh1, b1, rfl, hE, ?_, hX⟩
        obtain ⟨x, r, hx⟩ := List.exists_cons_of_ne_nil hp
        rw [hx] at hwalk ⊢
        rw [hwalk]; rfl
      | true =>
        rw [if_pos rfl] at hwalk
        simp only
        rw [if_pos True.intro]
        obtain ⟨E1, hE1⟩ : ∃ E1 : EntryV, E1 = { E with nodes := L } := ⟨_, rfl⟩
        have hh1' : Holds h1 (E1.cells ++ (X ++ F)) := by rw [hE1]; exact hh1
        have hr := E1.read hh1'
        rw [hE1] at hr
        rw [bind_some' _ hr]
        simp only
        rw [bind_some' _ hw]
        obtain ⟨h2, e2, hh2, b2⟩ := E1.set hh1' data' E.ts
        rw [hE1] at e2 hh2
        rw [bind_some' _ e2]
        have hLne : plain L ≠ [] := by
          intro h0
          rw [h0] at hwalk
          exact walk_ne_nil true off d.length last [] [] E.plain.nodes (by simpa using hp) hwalk
        cases L with
        | nil => exact absurd rfl hLne
        | cons y L =>
          obtain ⟨b, n⟩ := y
          have hnode : h2.node b = some (n, nextOf 0 L) := hh2.node (by simp [EntryV.cells, nodeCells])
          rw [bind_some' _ (show h2.node (nextOf 0 ((b, n) :: L)) = _ from hnode)]
          refine ⟨h2, { E with data := data', nodes := (b, n) :: L }, X, _, _, rfl, hh2, by omega, rfl, hwl.trans hE, ?_, hX⟩
          obtain ⟨x, r, hx⟩ := List.exists_cons_of_ne_nil hp
          rw [hx] at hwalk ⊢
          rw [hwalk]
          simp only
          rw [show wr E.plain.data off d = some data' from hw]
          rfl

theorem updateEntry_ok {ok : Oracle} (hok : ∀ k, ok .node k = true) {h : Heap} {F : List Cell} (E : EntryV) (hE : E.Ok)
    (hh : Holds h (E.cells ++ F)) (d : Bytes) (off : Nat) (last : Bool) :
    ∃ (h' : Heap) (E' : EntryV) (X : List Cell) (rc : RC) (full : Bool), updateEntry ok h E.a d off last = some (h', rc, full) ∧ Holds h' (E'.cells ++ (X ++ F)) ∧
      h.brk ≤ h'.brk ∧ E'.a = E.a ∧ E'.Ok ∧ FragEntry.update true E.plain d off last = some (E'.plain, rc, full) ∧
      (¬Drops E.plain.nodes off d.length → X = []) := by
  obtain ⟨h', E', X, rc, full, h1, h2, h3, h4, -, h6, h7⟩ := updateEntry_ok' hok E hE.1 hh d off last
  exact ⟨h', E', X, rc, full, h1, h2, h3, h4, (update_wf hE).1 _ _ _ h6, h6, h7⟩

/-! ### Tables -/

def slotAddr : Option EntryV → Addr
  | none => 0
  | some E => E.a

def slotCells : Option EntryV → List Cell
  | none => []
  | some E => E.cells

/-- A fragment table as it lies in the heap: table, array, slots. -/
structure TableV where
  t : Addr
  s : Addr
  ents : List (Option EntryV)

def TableV.cells (T : TableV) : List Cell :=
  (T.t, .table T.s T.ents.length) :: (T.s, .slots (T.ents.map slotAddr)) :: T.ents.flatMap slotCells

def TableV.Ok (T : TableV) : Prop := T.ents ≠ [] ∧ ∀ E, some E ∈ T.ents → E.Ok

/-- The table of the list model. -/
def TableV.plain (T : TableV) : FragTable :=
  { num := T.ents.length, slot := fun i => (T.ents[i]?.join).map EntryV.plain }

theorem TableV.read {h : Heap} {F : List Cell} (T : TableV) (hh : Holds h (T.cells ++ F)) :
    h.table T.t = some (T.s, T.ents.length) ∧ h.slots T.s = some (T.ents.map slotAddr) ∧ T.t ≠ 0 :=
  ⟨hh.table (by simp [TableV.cells]), hh.slots (by simp [TableV.cells]),
    (hh.low (T.t, .table T.s T.ents.length) (by simp [TableV.cells])).1⟩

theorem createTable_ok (ok : Oracle) {h : Heap} {F : List Cell} (hh : Holds h F) (num : Nat) :
    (∃ (h' : Heap) (T : TableV), createTable ok h num = some (T.t, h') ∧ Holds h' (T.cells ++ F) ∧ T.Ok ∧ T.t ≠ 0 ∧
      T.plain = FragTable.create num ∧ h.brk ≤ h'.brk) ∨
    ((∃ w k, ok w k = false) ∧ ∃ h', createTable ok h num = some (0, h') ∧ Holds h' F ∧ h.brk ≤ h'.brk) := by
  unfold createTable
  rcases hh.alloc ok .table (.table 0 0) with ⟨t, h1, e1, ht, hh1, b1⟩ | ⟨⟨k1, hk1⟩, h1, e1, hh1, b1⟩
  · rw [e1]
    simp only
    rw [if_neg ht]
    generalize hn : (if num = 0 then 65536 else num) = n
    have hn0 : n ≠ 0 := by rw [← hn]; split <;> omega
    rcases hh1.alloc ok .slots (.slots (List.replicate n 0)) with ⟨s, h2, e2, hs, hh2, b2⟩ | ⟨⟨k2, hk2⟩, h2, e2, hh2, b2⟩
    · rw [e2]
      simp only
      rw [if_neg hs]
      obtain ⟨h3, e3, hh3, b3⟩ := Holds.set (a := t) (l1 := [(s, .slots (List.replicate n 0))]) (l2 := F) (by simpa using hh2) (.table s n)
      rw [bind_some' _ e3]
      refine .inl ⟨h3, { t := t, s := s, ents := List.replicate n none }, rfl, ?_, ⟨?_, ?_⟩, ht, ?_, by omega⟩
      · refine hh3.perm ?_
        have : (List.replicate n (none : Option EntryV)).flatMap slotCells = [] := by simp [List.flatMap_replicate, slotCells]
        simp only [TableV.cells, this, List.length_replicate, List.map_replicate, slotAddr]
        same_cells
      · intro h0
        have := congrArg List.length h0
        simp at this; exact hn0 this
      · intro E hE; simp [List.mem_replicate] at hE
      · unfold TableV.plain FragTable.create
        simp only [List.length_replicate, ← hn]
        congr 1
        funext i
        rw [List.getElem?_replicate]
        generalize (if num = 0 then 65536 else num) = m
        by_cases hi : i < m
        · rw [if_pos hi]; rfl
        · rw [if_neg hi]; rfl
    · rw [e2]
      simp only
      rw [if_pos True.intro]
      obtain ⟨h3, e3, hh3, b3⟩ := Holds.free (l1 := []) hh2
      rw [bind_some' _ e3]
      exact .inr ⟨⟨_, k2, hk2⟩, h3, rfl, hh3, by omega⟩
  · rw [e1]
    simp only
    rw [if_pos True.intro]
    exact .inr ⟨⟨_, k1, hk1⟩, h1, rfl, hh1, b1⟩

/-- The slot of index `i`. -/
theorem slot_split {α : Type} {l : List α} {i : Nat} (h : i < l.length) : ∃ A x B, l = A ++ x :: B ∧ A.length = i := by
  refine ⟨l.take i, l[i], l.drop (i + 1), ?_, by simp; omega⟩
  rw [List.getElem_cons_drop, List.take_append_drop]

theorem flat_split (A B : List (Option EntryV)) (x : Option EntryV) :
    (A ++ x :: B).flatMap slotCells = A.flatMap slotCells ++ (slotCells x ++ B.flatMap slotCells) := by simp

theorem set_split {α : Type} (A B : List α) (x y : α) : (A ++ x :: B).set A.length y = A ++ y :: B := by simp

/-- The look-up: the slot's entry, created if there is none. -/
theorem findEntry_ok (ok : Oracle) {h : Heap} {F : List Cell} {t s : Addr} {A B : List (Option EntryV)} {x : Option EntryV}
    (hh : Holds h (TableV.cells ⟨t, s, A ++ x :: B⟩ ++ F)) (id : Nat) (hi : A.length = id % (A ++ x :: B).length) (now : Int) :
    (∃ (h' : Heap) (E : EntryV), findEntry ok h t id now = some (E.a, h') ∧ E.a ≠ 0 ∧
      Holds h' (TableV.cells ⟨t, s, A ++ some E :: B⟩ ++ F) ∧ h.brk ≤ h'.brk ∧
      (x = some E ∨ x = none ∧ E.plain = FragEntry.fresh now)) ∨
    (x = none ∧ (∃ k, ok .entry k = false) ∧ ∃ h', findEntry ok h t id now = some (0, h') ∧ Holds h' (TableV.cells ⟨t, s, A ++ x :: B⟩ ++ F) ∧ h.brk ≤ h'.brk) := by
  obtain ⟨r1, r2, ht⟩ := TableV.read _ hh
  simp only at r1 r2 ht
  have hps : ((A ++ x :: B).map slotAddr)[id % (A ++ x :: B).length]? = some (slotAddr x) := by
    rw [← hi]; simp
  unfold findEntry
  rw [if_neg ht, bind_some' _ r1]
  simp only
  rw [bind_some' _ r2, bind_some' _ hps]
  cases x with
  | some E =>
    have ha : E.a ≠ 0 := (hh.low (E.a, .entry E.data E.ts (nextOf 0 E.nodes)) (by simp [TableV.cells, slotCells, EntryV.cells])).1
    rw [if_neg (show slotAddr (some E) ≠ 0 from ha)]
    exact .inl ⟨h, E, rfl, ha, hh, Nat.le_refl _, .inl rfl⟩
  | none =>
    rw [if_pos (show slotAddr none = 0 from rfl)]
    rcases hh.alloc ok .entry (.entry (zeros maxWireMtu) 0 0) with ⟨e, h1, e1, he, hh1, b1⟩ | ⟨hno, h1, e1, hh1, b1⟩
    · rw [e1]
      simp only
      rw [if_neg he]
      obtain ⟨h2, e2, hh2, b2⟩ := Holds.set (l1 := []) hh1 (.entry (zeros maxWireMtu) now 0)
      rw [bind_some' _ e2]
      obtain ⟨h3, e3, hh3, b3⟩ := Holds.set (a := s) (b := .slots ((A ++ none :: B).map slotAddr))
        (l1 := [(e, .entry (zeros maxWireMtu) now 0), (t, .table s (A ++ none :: B).length)])
        (l2 := (A ++ none :: B).flatMap slotCells ++ F) (by simpa [TableV.cells] using hh2)
        (.slots (((A ++ none :: B).map slotAddr).set (id % (A ++ none :: B).length) e))
      rw [bind_some' _ e3]
      refine .inl ⟨h3, ⟨e, zeros maxWireMtu, now, []⟩, rfl, he, ?_, by omega, .inr ⟨True.intro, rfl⟩⟩
      refine hh3.perm ?_
      have hset : ((A ++ none :: B).map slotAddr).set (id % (A ++ none :: B).length) e = (A ++ some ⟨e, zeros maxWireMtu, now, []⟩ :: B).map slotAddr := by
        rw [← hi]
        rw [List.map_append, List.map_cons, show A.length = (A.map slotAddr).length by simp, set_split]
        simp [slotAddr]
      have hlen : (A ++ none :: B).length = (A ++ some (⟨e, zeros maxWireMtu, now, []⟩ : EntryV) :: B).length := by simp
      rw [hset]
      simp only [TableV.cells, flat_split, hlen, slotCells, EntryV.cells, nextOf, nodeCells]
      same_cells
    · rw [e1]
      simp only
      rw [if_pos True.intro]
      exact .inr ⟨True.intro, hno, h1, rfl, hh1, b1⟩

/-- Release of one slot. -/
theorem dropEntry_ok {h : Heap} {F : List Cell} {t s : Addr} {A B : List (Option EntryV)} {x : Option EntryV}
    (hh : Holds h (TableV.cells ⟨t, s, A ++ x :: B⟩ ++ F)) :
    ∃ h', dropEntry h s A.length = some h' ∧ Holds h' (TableV.cells ⟨t, s, A ++ none :: B⟩ ++ F) ∧ h'.brk = h.brk := by
  obtain ⟨-, r2, -⟩ := TableV.read _ hh
  simp only at r2
  have hps : ((A ++ x :: B).map slotAddr)[A.length]? = some (slotAddr x) := by simp
  unfold dropEntry
  rw [bind_some' _ r2, bind_some' _ hps]
  cases x with
  | none =>
    rw [if_pos (show slotAddr none = 0 from rfl)]
    exact ⟨h, rfl, hh, rfl⟩
  | some E =>
    have ha : E.a ≠ 0 := (hh.low (E.a, .entry E.data E.ts (nextOf 0 E.nodes)) (by simp [TableV.cells, slotCells, EntryV.cells])).1
    rw [if_neg (show slotAddr (some E) ≠ 0 from ha)]
    obtain ⟨h1, e1, hh1, b1⟩ := resetEntry_ok (h := h) E (F := (t, .table s (A ++ some E :: B).length) ::
      (s, .slots ((A ++ some E :: B).map slotAddr)) :: (A.flatMap slotCells ++ (B.flatMap slotCells ++ F)))
      (hh.perm (by simp only [TableV.cells, flat_split, slotCells]; same_cells))
    rw [bind_some' _ (show resetEntry h (slotAddr (some E)) = _ from e1)]
    obtain ⟨h2, e2, hh2, b2⟩ := Holds.free (l1 := []) hh1
    rw [bind_some' _ (show h1.free (slotAddr (some E)) = _ from e2)]
    obtain ⟨h3, e3, hh3, b3⟩ := Holds.set (a := s) (b := .slots ((A ++ some E :: B).map slotAddr))
      (l1 := [(t, .table s (A ++ some E :: B).length)]) (l2 := A.flatMap slotCells ++ (B.flatMap slotCells ++ F))
      (by simpa [nodeCells] using hh2) (.slots (((A ++ some E :: B).map slotAddr).set A.length 0))
    refine ⟨h3, e3, hh3.perm ?_, by omega⟩
    have hset : ((A ++ some E :: B).map slotAddr).set A.length 0 = (A ++ none :: B).map slotAddr := by
      rw [List.map_append, List.map_cons, show A.length = (A.map slotAddr).length by simp, set_split]
      simp [slotAddr]
    have hlen : (A ++ some E :: B).length = (A ++ (none : Option EntryV) :: B).length := by simp
    rw [hset]
    simp only [TableV.cells, flat_split, hlen, slotCells]
    same_cells

theorem dropEntries_ok {F : List Cell} {t s : Addr} : ∀ (B A : List (Option EntryV)) (h : Heap),
    Holds h (TableV.cells ⟨t, s, A ++ B⟩ ++ F) →
    ∃ h', dropEntries h s A.length B.length = some h' ∧
      Holds h' (TableV.cells ⟨t, s, A ++ List.replicate B.length none⟩ ++ F) ∧ h'.brk = h.brk
  | [], A, h, hh => ⟨h, rfl, by simpa using hh, rfl⟩
  | x :: B, A, h, hh => by
    obtain ⟨h1, e1, hh1, b1⟩ := dropEntry_ok hh
    obtain ⟨h2, e2, hh2, b2⟩ := dropEntries_ok B (A ++ [none]) h1 (by simpa using hh1)
    refine ⟨h2, ?_, by simpa [List.replicate_succ] using hh2, b2.trans b1⟩
    show (do let h ← dropEntry h s A.length; dropEntries h s (A.length + 1) B.length) = _
    rw [bind_some' _ e1]
    simpa using e2

theorem destroyTable_ok {h : Heap} {F : List Cell} (T : TableV) (hh : Holds h (T.cells ++ F)) : ∃ h', destroyTable h T.t = some h' ∧ Holds h' F ∧ h'.brk = h.brk := by
  obtain ⟨r1, r2, ht⟩ := T.read hh
  unfold destroyTable
  rw [if_neg ht, bind_some' _ r1]
  simp only
  obtain ⟨h1, e1, hh1, b1⟩ := dropEntries_ok (t := T.t) (s := T.s) T.ents [] h (by simpa using hh)
  rw [bind_some' _ (show dropEntries h T.s 0 T.ents.length = _ from e1)]
  have hf : (List.replicate T.ents.length (none : Option EntryV)).flatMap slotCells = [] := by simp [List.flatMap_replicate, slotCells]
  simp only [List.nil_append, TableV.cells, hf] at hh1
  obtain ⟨h2, e2, hh2, b2⟩ := Holds.free (a := T.s) (l1 := [(T.t, .table T.s (List.replicate T.ents.length (none : Option EntryV)).length)])
    (l2 := F) hh1
  rw [bind_some' _ e2]
  obtain ⟨h3, e3, hh3, b3⟩ := Holds.free (l1 := []) hh2
  exact ⟨h3, e3, hh3, by omega⟩

end Lightway.Mem
