import Verif.Proofs.HeapP4

/-!
# The whole heap as a list of objects
-/

namespace Lightway.Mem

/-! ### Clients -/

def octxAddr : Option CtxV → Addr
  | none => 0
  | some C => C.a
def octxCells : Option CtxV → List Cell
  | none => []
  | some C => C.cells
def oconnAddr : Option ConnV → Addr
  | none => 0
  | some C => C.a
def oconnCells : Option ConnV → List Cell
  | none => []
  | some C => C.cells

theorem destroyCtx_opt {h : Heap} {F : List Cell} (C : Option CtxV) (hh : Holds h (octxCells C ++ F)) :
    ∃ h', destroyCtx h (octxAddr C) = some h' ∧ Holds h' F ∧ h'.brk = h.brk := by
  cases C with
  | none => exact ⟨h, rfl, hh, rfl⟩
  | some C => exact destroyCtx_ok C hh

theorem destroyConn_opt {h : Heap} {F : List Cell} (C : Option ConnV) (hh : Holds h (oconnCells C ++ F)) :
    ∃ h', destroyConn h (oconnAddr C) = some h' ∧ Holds h' F ∧ h'.brk = h.brk := by
  cases C with
  | none => exact ⟨h, rfl, hh, rfl⟩
  | some C => exact destroyConn_ok C hh

theorem destroyChain_whole {h : Heap} {F : List Cell} (l : ChainV) (hh : Holds h (chainCells l ++ F)) :
    ∃ h', destroyChain h.brk h (chainNext l) = some h' ∧ Holds h' F ∧ h'.brk = h.brk := by
  refine destroyChain_ok h.brk l h F ?_ hh
  have := hh.length_lt
  simp [chainCells_length] at this; omega

theorem destroyClient_ok {h : Heap} {F : List Cell} (k : Addr) (x : Option CtxV) (c : Option ConnV) (i o : ChainV)
    (hh : Holds h ((k, .client (octxAddr x) (oconnAddr c) (chainNext i) (chainNext o)) ::
      (octxCells x ++ (oconnCells c ++ (chainCells i ++ (chainCells o ++ F)))))) :
    ∃ h', destroyClient h k = some h' ∧ Holds h' F ∧ h'.brk = h.brk := by
  have hk : k ≠ 0 := (hh.low (k, .client (octxAddr x) (oconnAddr c) (chainNext i) (chainNext o)) (by simp)).1
  have hr := hh.client (a := k) (x := octxAddr x) (c := oconnAddr c) (i := chainNext i) (o := chainNext o) (by simp)
  unfold destroyClient
  rw [if_neg hk, bind_some' _ hr]
  simp only
  generalize hK : (k, Block.client (octxAddr x) (oconnAddr c) (chainNext i) (chainNext o)) = K at hh
  obtain ⟨h1, e1, hh1, b1⟩ := destroyConn_opt (h := h) c (F := octxCells x ++ (chainCells i ++ (chainCells o ++ (K :: F))))
    (hh.perm (by same_cells))
  rw [bind_some' _ e1]
  obtain ⟨h2, e2, hh2, b2⟩ := destroyCtx_opt x hh1
  rw [bind_some' _ e2]
  obtain ⟨h3, e3, hh3, b3⟩ := destroyChain_whole i hh2
  rw [bind_some' _ e3]
  obtain ⟨h4, e4, hh4, b4⟩ := destroyChain_whole o hh3
  rw [bind_some' _ e4]
  subst hK
  obtain ⟨h5, e5, hh5, b5⟩ := Holds.free (l1 := []) hh4
  exact ⟨h5, e5, hh5, by omega⟩

theorem createCtx_ok (ok : Oracle) {h : Heap} {F : List Cell} (hh : Holds h F) :
    ∃ (h' : Heap) (x : Option CtxV), createCtx ok h = (octxAddr x, h') ∧ Holds h' (octxCells x ++ F) ∧ h.brk ≤ h'.brk := by
  unfold createCtx
  rcases hh.alloc ok .ctx (.ctx 0) with ⟨t, h1, e1, ht, hh1, b1⟩ | ⟨-, h1, e1, hh1, b1⟩
  · exact ⟨h1, some ⟨t, 0⟩, e1, hh1, b1⟩
  · exact ⟨h1, none, e1, hh1, b1⟩

theorem createConn_ok (ok : Oracle) {h : Heap} {F : List Cell} (hh : Holds h F) :
    ∃ (h' : Heap) (x : Option ConnV), createConn ok h = (oconnAddr x, h') ∧ Holds h' (oconnCells x ++ F) ∧ h.brk ≤ h'.brk ∧
      ∀ C, x = some C → C.Ok := by
  unfold createConn
  rcases hh.alloc ok .conn (.conn 0 0) with ⟨t, h1, e1, ht, hh1, b1⟩ | ⟨-, h1, e1, hh1, b1⟩
  · exact ⟨h1, some ⟨t, none, 0⟩, e1, hh1, b1, fun C hC T hT => by cases hC; cases hT⟩
  · exact ⟨h1, none, e1, hh1, b1, fun C hC => by cases hC⟩

theorem createChain_ok (ok : Oracle) {h : Heap} {F : List Cell} (hh : Holds h F) :
    ∃ (h' : Heap) (l : ChainV), createChain ok h = (chainNext l, h') ∧ Holds h' (chainCells l ++ F) ∧ h.brk ≤ h'.brk := by
  unfold createChain
  rcases hh.alloc ok .chain (.chain none 0) with ⟨t, h1, e1, ht, hh1, b1⟩ | ⟨-, h1, e1, hh1, b1⟩
  · exact ⟨h1, [(t, none)], e1, hh1, b1⟩
  · exact ⟨h1, [], e1, hh1, b1⟩

theorem octx_some {h : Heap} {F : List Cell} {x : Option CtxV} (hx : octxAddr x ≠ 0) : ∃ C, x = some C := by
  cases x with
  | none => exact absurd rfl hx
  | some C => exact ⟨C, rfl⟩

/-- `he_client_create` yields a complete client, or NULL and no block. -/
theorem createClient_ok (ok : Oracle) {h : Heap} {F : List Cell} (hh : Holds h F) :
    (∃ (h' : Heap) (k : Addr) (x : CtxV) (c : ConnV) (i o : ChainV), createClient ok h = some (k, h') ∧ k ≠ 0 ∧
      Holds h' ((k, .client x.a c.a (chainNext i) (chainNext o)) :: (x.cells ++ (c.cells ++ (chainCells i ++ (chainCells o ++ F))))) ∧
      c.Ok ∧ i ≠ [] ∧ o ≠ [] ∧ h.brk ≤ h'.brk) ∨
    (∃ h', createClient ok h = some (0, h') ∧ Holds h' F ∧ h.brk ≤ h'.brk) := by
  unfold createClient
  rcases hh.alloc ok .client (.client 0 0 0 0) with ⟨k, h1, e1, hk, hh1, b1⟩ | ⟨-, h1, e1, hh1, b1⟩
  · rw [e1]
    simp only
    rw [if_neg hk]
    obtain ⟨h2, x, e2, hh2, b2⟩ := createCtx_ok ok hh1
    rw [e2]
    simp only
    obtain ⟨h3, c, e3, hh3, b3, hc⟩ := createConn_ok ok hh2
    rw [e3]
    simp only
    obtain ⟨h4, i, e4, hh4, b4⟩ := createChain_ok ok hh3
    rw [e4]
    simp only
    obtain ⟨h5, o, e5, hh5, b5⟩ := createChain_ok ok hh4
    rw [e5]
    simp only
    obtain ⟨h6, e6, hh6, b6⟩ := Holds.set (a := k) (b := .client 0 0 0 0) (l1 := chainCells o ++ (chainCells i ++ (oconnCells c ++ octxCells x)))
      (l2 := F) (hh5.perm (by same_cells)) (.client (octxAddr x) (oconnAddr c) (chainNext i) (chainNext o))
    rw [bind_some' _ e6]
    have hh7 : Holds h6 ((k, .client (octxAddr x) (oconnAddr c) (chainNext i) (chainNext o)) ::
      (octxCells x ++ (oconnCells c ++ (chainCells i ++ (chainCells o ++ F))))) := hh6.perm (by same_cells)
    by_cases hz : octxAddr x = 0 ∨ oconnAddr c = 0 ∨ chainNext i = 0 ∨ chainNext o = 0
    · rw [if_pos hz]
      obtain ⟨h7, e7, hh8, b7⟩ := destroyClient_ok k x c i o hh7
      rw [bind_some' _ e7]
      exact .inr ⟨h7, rfl, hh8, by omega⟩
    · rw [if_neg hz]
      simp only [not_or] at hz
      obtain ⟨z1, z2, z3, z4⟩ := hz
      cases x with
      | none => exact absurd rfl z1
      | some x =>
        cases c with
        | none => exact absurd rfl z2
        | some c =>
          refine .inl ⟨h6, k, x, c, i, o, rfl, hk, hh7, hc c rfl, ?_, ?_, by omega⟩
          · rintro rfl; exact z3 rfl
          · rintro rfl; exact z4 rfl
  · rw [e1]
    simp only
    rw [if_pos True.intro]
    exact .inr ⟨h1, rfl, hh1, b1⟩

/-! ### Objects -/

inductive Obj
  | ctx (C : CtxV)
  | conn (C : ConnV)
  | chain (l : ChainV)
  | client (k : Addr) (x : CtxV) (c : ConnV) (i o : ChainV)

def Obj.cells : Obj → List Cell
  | .ctx C => C.cells
  | .conn C => C.cells
  | .chain l => chainCells l
  | .client k x c i o => (k, .client x.a c.a (chainNext i) (chainNext o)) :: (x.cells ++ (c.cells ++ (chainCells i ++ chainCells o)))

def Obj.handles : Obj → List (Addr × Kind × Bool)
  | .ctx C => [(C.a, .ctx, true)]
  | .conn C => [(C.a, .conn, true)]
  | .chain l => [(chainNext l, .chain, true)]
  | .client k x c i o => [(k, .client, true), (x.a, .ctx, false), (c.a, .conn, false), (chainNext i, .chain, false), (chainNext o, .chain, false)]

def Obj.Ok : Obj → Prop
  | .ctx _ => True
  | .conn C => C.Ok
  | .chain l => l ≠ []
  | .client _ _ c i o => c.Ok ∧ i ≠ [] ∧ o ≠ []

/-- The state of the system: the objects and the lost blocks `X`. -/
structure SInv (s : Sys) (os : List Obj) (X : List Cell) : Prop where
  holds : Holds s.heap (os.flatMap Obj.cells ++ X)
  handles : s.handles.Perm (os.flatMap Obj.handles)
  ok : ∀ o ∈ os, o.Ok

theorem SInv.init : SInv .init [] [] := ⟨holds_empty, List.Perm.refl _, by simp⟩

theorem has_iff {s : Sys} {a : Addr} {k : Kind} : s.has a k = true ↔ ∃ b, (a, k, b) ∈ s.handles := by
  unfold Sys.has
  rw [List.any_eq_true]
  constructor
  · rintro ⟨⟨a', k', b⟩, hm, h⟩
    simp at h
    obtain ⟨rfl, rfl⟩ := h
    exact ⟨b, hm⟩
  · rintro ⟨b, hm⟩
    exact ⟨_, hm, by simp⟩

theorem SInv.pick {s : Sys} {os : List Obj} {X : List Cell} (hi : SInv s os X) {a : Addr} {k : Kind} (h : s.has a k = true) :
    ∃ (A : List Obj) (o : Obj) (B : List Obj) (b : Bool), os = A ++ o :: B ∧ (a, k, b) ∈ o.handles := by
  obtain ⟨b, hm⟩ := has_iff.1 h
  obtain ⟨o, ho, hm⟩ := List.mem_flatMap.1 (hi.handles.mem_iff.1 hm)
  obtain ⟨A, B, rfl⟩ := List.append_of_mem ho
  exact ⟨A, o, B, b, rfl, hm⟩

/-- Replace one object by one with the same handles. -/
theorem SInv.replace {s : Sys} {A B : List Obj} {o o' : Obj} {X Y : List Cell} (hi : SInv s (A ++ o :: B) X) (hh : o'.handles = o.handles)
    (ho : o'.Ok) {h' : Heap} (hc : Holds h' (o'.cells ++ (Y ++ (A.flatMap Obj.cells ++ B.flatMap Obj.cells ++ X)))) :
    SInv { s with heap := h' } (A ++ o' :: B) (Y ++ X) := by
  refine ⟨hc.perm ?_, ?_, ?_⟩
  · simp only [List.flatMap_append, List.flatMap_cons]; same_cells
  · have := hi.handles
    simpa [hh] using this
  · intro p hp
    simp only [List.mem_append, List.mem_cons] at hp
    rcases hp with hp | rfl | hp
    · exact hi.ok p (by simp [hp])
    · exact ho
    · exact hi.ok p (by simp [hp])

theorem SInv.split {s : Sys} {A B : List Obj} {o : Obj} {X : List Cell} (hi : SInv s (A ++ o :: B) X) :
    Holds s.heap (o.cells ++ (A.flatMap Obj.cells ++ B.flatMap Obj.cells ++ X)) := by
  refine hi.holds.perm ?_
  simp only [List.flatMap_append, List.flatMap_cons]; same_cells

/-- A connection the host may use, alone in the heap, and put back after a change. -/
theorem SInv.conn {s : Sys} {os : List Obj} {X : List Cell} (hi : SInv s os X) {a : Addr} (h : s.has a .conn = true) :
    ∃ (C : ConnV) (R : List Cell), C.a = a ∧ C.Ok ∧ Holds s.heap (C.cells ++ R) ∧
      ∀ (h' : Heap) (C' : ConnV) (Y : List Cell), C'.a = a → C'.Ok → Holds h' (C'.cells ++ (Y ++ R)) →
        ∃ os', SInv { s with heap := h' } os' (Y ++ X) := by
  obtain ⟨A, o, B, b, rfl, hm⟩ := hi.pick h
  have hs := hi.split
  have ho := hi.ok o (by simp)
  cases o with
  | ctx C => simp [Obj.handles] at hm
  | chain l => simp [Obj.handles] at hm
  | conn C =>
    simp [Obj.handles] at hm
    refine ⟨C, _, hm.1.symm, ho, hs, fun h' C' Y ha hC' hh' => ?_⟩
    exact ⟨_, hi.replace (o' := .conn C') (by simp [Obj.handles, ha, hm.1]) hC' hh'⟩
  | client k x c i o =>
    simp [Obj.handles] at hm
    refine ⟨c, (k, .client x.a c.a (chainNext i) (chainNext o)) :: (x.cells ++ (chainCells i ++ chainCells o)) ++
      (A.flatMap Obj.cells ++ B.flatMap Obj.cells ++ X), hm.1.symm, ho.1, hs.perm (by simp only [Obj.cells]; same_cells), fun h' C' Y ha hC' hh' => ?_⟩
    refine ⟨_, hi.replace (o' := .client k x C' i o) (by simp [Obj.handles, ha, hm.1]) ⟨hC', ho.2⟩ (hh'.perm ?_)⟩
    simp only [Obj.cells, ha, ← hm.1]; same_cells

theorem SInv.ctx {s : Sys} {os : List Obj} {X : List Cell} (hi : SInv s os X) {a : Addr} (h : s.has a .ctx = true) :
    ∃ (C : CtxV) (R : List Cell), C.a = a ∧ Holds s.heap (C.cells ++ R) ∧
      ∀ (h' : Heap) (C' : CtxV) (Y : List Cell), C'.a = a → Holds h' (C'.cells ++ (Y ++ R)) →
        ∃ os', SInv { s with heap := h' } os' (Y ++ X) := by
  obtain ⟨A, o, B, b, rfl, hm⟩ := hi.pick h
  have hs := hi.split
  have ho := hi.ok o (by simp)
  cases o with
  | conn C => simp [Obj.handles] at hm
  | chain l => simp [Obj.handles] at hm
  | ctx C =>
    simp [Obj.handles] at hm
    refine ⟨C, _, hm.1.symm, hs, fun h' C' Y ha hh' => ?_⟩
    exact ⟨_, hi.replace (o' := .ctx C') (by simp [Obj.handles, ha, hm.1]) trivial hh'⟩
  | client k x c i o =>
    simp [Obj.handles] at hm
    refine ⟨x, (k, .client x.a c.a (chainNext i) (chainNext o)) :: (c.cells ++ (chainCells i ++ chainCells o)) ++
      (A.flatMap Obj.cells ++ B.flatMap Obj.cells ++ X), hm.1.symm, hs.perm (by simp only [Obj.cells]; same_cells), fun h' C' Y ha hh' => ?_⟩
    refine ⟨_, hi.replace (o' := .client k C' c i o) (by simp [Obj.handles, ha, hm.1]) ho (hh'.perm ?_)⟩
    simp only [Obj.cells, ha, ← hm.1]; same_cells

theorem SInv.chain {s : Sys} {os : List Obj} {X : List Cell} (hi : SInv s os X) {a : Addr} (h : s.has a .chain = true) :
    ∃ (C : ChainV) (R : List Cell), chainNext C = a ∧ C ≠ [] ∧ Holds s.heap (chainCells C ++ R) ∧
      ∀ (h' : Heap) (C' : ChainV) (Y : List Cell), chainNext C' = a → C' ≠ [] → Holds h' (chainCells C' ++ (Y ++ R)) →
        ∃ os', SInv { s with heap := h' } os' (Y ++ X) := by
  obtain ⟨A, o, B, b, rfl, hm⟩ := hi.pick h
  have hs := hi.split
  have ho := hi.ok o (by simp)
  cases o with
  | conn C => simp [Obj.handles] at hm
  | ctx l => simp [Obj.handles] at hm
  | chain C =>
    simp [Obj.handles] at hm
    refine ⟨C, _, hm.1.symm, ho, hs, fun h' C' Y ha hC' hh' => ?_⟩
    exact ⟨_, hi.replace (o' := .chain C') (by simp [Obj.handles, ha, hm.1]) hC' hh'⟩
  | client k x c i o =>
    simp [Obj.handles] at hm
    rcases hm with hm | hm
    · refine ⟨i, (k, .client x.a c.a (chainNext i) (chainNext o)) :: (x.cells ++ (c.cells ++ chainCells o)) ++
        (A.flatMap Obj.cells ++ B.flatMap Obj.cells ++ X), hm.1.symm, ho.2.1, hs.perm (by simp only [Obj.cells]; same_cells), fun h' C' Y ha hC' hh' => ?_⟩
      refine ⟨_, hi.replace (o' := .client k x c C' o) (by simp [Obj.handles, ha, hm.1]) ⟨ho.1, hC', ho.2.2⟩ (hh'.perm ?_)⟩
      simp only [Obj.cells, ha, ← hm.1]; same_cells
    · refine ⟨o, (k, .client x.a c.a (chainNext i) (chainNext o)) :: (x.cells ++ (c.cells ++ chainCells i)) ++
        (A.flatMap Obj.cells ++ B.flatMap Obj.cells ++ X), hm.1.symm, ho.2.2, hs.perm (by simp only [Obj.cells]; same_cells), fun h' C' Y ha hC' hh' => ?_⟩
      refine ⟨_, hi.replace (o' := .client k x c i C') (by simp [Obj.handles, ha, hm.1]) ⟨ho.1, ho.2.1, hC'⟩ (hh'.perm ?_)⟩
      simp only [Obj.cells, ha, ← hm.1]; same_cells

/-- A client and what belongs to it. -/
theorem SInv.client {s : Sys} {os : List Obj} {X : List Cell} (hi : SInv s os X) {a : Addr} (h : s.has a .client = true) :
    ∃ x c i o, s.heap.client a = some (x, c, i, o) ∧ s.has x .ctx = true ∧ s.has c .conn = true := by
  obtain ⟨A, o, B, b, rfl, hm⟩ := hi.pick h
  have hs := hi.split
  cases o with
  | conn C => simp [Obj.handles] at hm
  | ctx C => simp [Obj.handles] at hm
  | chain l => simp [Obj.handles] at hm
  | client k x c i o =>
    simp [Obj.handles] at hm
    obtain ⟨rfl, -⟩ := hm
    refine ⟨x.a, c.a, chainNext i, chainNext o, hs.client (by simp [Obj.cells]), has_iff.2 ⟨false, ?_⟩, has_iff.2 ⟨false, ?_⟩⟩
    · exact hi.handles.mem_iff.2 (by simp [Obj.handles])
    · exact hi.handles.mem_iff.2 (by simp [Obj.handles])

end Lightway.Mem
