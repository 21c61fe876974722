import Verif.Proofs.HeapP3

/-!
# Chains, contexts, connections and clients in the heap
-/

namespace Lightway.Mem

/-! ### Plugin chains -/

abbrev ChainV := List (Addr × Option Nat)

def chainNext : ChainV → Addr
  | [] => 0
  | x :: _ => x.1

def chainCells : ChainV → List Cell
  | [] => []
  | (a, p) :: r => (a, .chain p (chainNext r)) :: chainCells r

theorem chainCells_length (l : ChainV) : (chainCells l).length = l.length := by
  induction l with
  | nil => rfl
  | cons x l ih => obtain ⟨a, n⟩ := x; simp [chainCells, ih]

theorem destroyChain_ok : ∀ (f : Nat) (l : ChainV) (h : Heap) (F : List Cell), l.length < f →
    Holds h (chainCells l ++ F) → ∃ h', destroyChain f h (chainNext l) = some h' ∧ Holds h' F ∧ h'.brk = h.brk
  | 0, _, _, _, hf, _ => absurd hf (by omega)
  | f + 1, [], h, F, _, hh => ⟨h, by simp [destroyChain, chainNext], hh, rfl⟩
  | f + 1, (a, n) :: r, h, F, hf, hh => by
    have ha : a ≠ 0 := (hh.low (a, .chain n (chainNext r)) (by simp [chainCells])).1
    have hn : h.chain a = some (n, chainNext r) := hh.chain (by simp [chainCells])
    obtain ⟨h1, e1, hh1, b1⟩ := destroyChain_ok f r h ((a, .chain n (chainNext r)) :: F) (by simp at hf; omega)
      (hh.perm (by simp only [chainCells]; same_cells))
    obtain ⟨h2, e2, hh2, b2⟩ := Holds.free (l1 := []) hh1
    refine ⟨h2, ?_, hh2, b2.trans b1⟩
    rw [chainNext, destroyChain, if_neg (by exact ha), bind_some' _ hn]
    simp only
    rw [bind_some' _ e1]
    exact e2

/-- Registration changes the chain, but not where it starts. -/
theorem registerPlugin_ok (ok : Oracle) (plugin : Nat) : ∀ (f : Nat) (l : ChainV) (h : Heap) (F : List Cell), l.length < f → l ≠ [] →
    Holds h (chainCells l ++ F) → ∃ (h' : Heap) (rc : RC) (l' : ChainV), registerPlugin ok plugin f h (chainNext l) = some (h', rc) ∧
      Holds h' (chainCells l' ++ F) ∧ chainNext l' = chainNext l ∧ l' ≠ [] ∧ h.brk ≤ h'.brk
  | 0, _, _, _, hf, _, _ => absurd hf (by omega)
  | f + 1, [], _, _, _, hne, _ => absurd rfl hne
  | f + 1, (a, pl) :: r, h, F, hf, _, hh => by
    have hn : h.chain a = some (pl, chainNext r) := hh.chain (by simp [chainCells])
    rw [chainNext, registerPlugin, bind_some' _ hn]
    simp only
    by_cases hp : pl.isNone = true
    · rw [if_pos hp]
      obtain ⟨h1, e1, hh1, b1⟩ := Holds.set (l1 := []) (l2 := chainCells r ++ F) hh (.chain (some plugin) (chainNext r))
      rw [bind_some' _ e1]
      exact ⟨h1, _, (a, some plugin) :: r, rfl, hh1, rfl, by simp, by omega⟩
    · rw [if_neg hp]
      by_cases hr : r = []
      · subst hr
        rw [if_pos (show chainNext [] = 0 from rfl)]
        unfold createChain
        rcases hh.alloc ok .chain (.chain none 0) with ⟨q, h1, e1, hq, hh1, b1⟩ | ⟨-, h1, e1, hh1, b1⟩
        · rw [e1]
          simp only
          obtain ⟨h2, e2, hh2, b2⟩ := Holds.set (a := a) (l1 := [(q, .chain none 0)]) (l2 := F) (by simpa [chainCells] using hh1) (.chain pl q)
          rw [bind_some' _ e2, if_neg hq]
          have hh2' : Holds h2 (chainCells [(q, none)] ++ ((a, .chain pl q) :: F)) := hh2
          cases f with
          | zero => simp at hf
          | succ f =>
            rw [registerPlugin, bind_some' _ (hh2'.chain (a := q) (x := none) (p := 0) (by simp [chainCells, chainNext]))]
            simp only
            rw [if_pos (by rfl)]
            obtain ⟨h3, e3, hh3, b3⟩ := Holds.set (l1 := []) (a := q) (l2 := (a, .chain pl q) :: F) hh2' (.chain (some plugin) 0)
            rw [bind_some' _ e3]
            refine ⟨h3, _, [(a, pl), (q, some plugin)], rfl, hh3.perm ?_, rfl, by simp, by omega⟩
            simp only [chainCells, chainNext]; same_cells
        · rw [e1]
          simp only
          obtain ⟨h2, e2, hh2, b2⟩ := Holds.set (a := a) (l1 := []) (l2 := F) (by simpa [chainCells] using hh1) (.chain pl 0)
          rw [bind_some' _ e2, if_pos True.intro]
          exact ⟨h2, _, [(a, pl)], rfl, hh2, rfl, by simp, by omega⟩
      · have hr0 : chainNext r ≠ 0 := by
          cases r with
          | nil => exact absurd rfl hr
          | cons y r =>
            obtain ⟨b, q⟩ := y
            exact (hh.low (b, .chain q (chainNext r)) (by simp [chainCells])).1
        rw [if_neg hr0]
        obtain ⟨h1, rc, l', e1, hh1, hs, hne, b1⟩ := registerPlugin_ok ok plugin f r h ((a, .chain pl (chainNext r)) :: F)
          (by simp at hf; omega) hr (hh.perm (by simp only [chainCells]; same_cells))
        refine ⟨h1, rc, (a, pl) :: l', e1, hh1.perm ?_, rfl, by simp, b1⟩
        simp only [chainCells, hs]; same_cells

/-! ### Contexts and connections -/

/-- The cell of a TLS object, if there is one. -/
def optCell (b : Block) (a : Addr) : List Cell := if a = 0 then [] else [(a, b)]

theorem freeOrNull_ok {h : Heap} {F : List Cell} {a : Addr} {b : Block} (hh : Holds h (optCell b a ++ F)) :
    ∃ h', h.freeOrNull a = some h' ∧ Holds h' F ∧ h'.brk = h.brk := by
  unfold Heap.freeOrNull
  unfold optCell at hh
  by_cases ha : a = 0
  · rw [if_pos ha] at hh ⊢
    exact ⟨h, rfl, hh, rfl⟩
  · rw [if_neg ha] at hh ⊢
    exact Holds.free (l1 := []) hh

structure CtxV where
  a : Addr
  tls : Addr

def CtxV.cells (C : CtxV) : List Cell := (C.a, .ctx C.tls) :: optCell .tlsCtx C.tls

theorem CtxV.pos {h : Heap} {F : List Cell} (C : CtxV) (hh : Holds h (C.cells ++ F)) : C.a ≠ 0 :=
  (hh.low (C.a, .ctx C.tls) (by simp [CtxV.cells])).1

theorem destroyCtx_ok {h : Heap} {F : List Cell} (C : CtxV) (hh : Holds h (C.cells ++ F)) :
    ∃ h', destroyCtx h C.a = some h' ∧ Holds h' F ∧ h'.brk = h.brk := by
  unfold destroyCtx
  rw [if_neg (C.pos hh), bind_some' _ (hh.ctx (show (C.a, Block.ctx C.tls) ∈ _ by simp [CtxV.cells]))]
  obtain ⟨h1, e1, hh1, b1⟩ := freeOrNull_ok (h := h) (a := C.tls) (b := .tlsCtx) (F := (C.a, .ctx C.tls) :: F) (hh.perm (by simp only [CtxV.cells]; same_cells))
  rw [bind_some' _ e1]
  obtain ⟨h2, e2, hh2, b2⟩ := Holds.free (l1 := []) hh1
  exact ⟨h2, e2, hh2, b2.trans b1⟩

/-- A new TLS context; the old one, if any, is lost. -/
theorem start_ok (ok : Oracle) {h : Heap} {F : List Cell} (C : CtxV) (hh : Holds h (C.cells ++ F)) :
    ∃ (h' : Heap) (rc : RC) (C' : CtxV), start ok h C.a = some (h', rc) ∧ Holds h' (C'.cells ++ (optCell .tlsCtx C.tls ++ F)) ∧
      C'.a = C.a ∧ h.brk ≤ h'.brk := by
  unfold start
  rw [bind_some' _ (hh.ctx (show (C.a, Block.ctx C.tls) ∈ _ by simp [CtxV.cells]))]
  rcases hh.alloc ok .tlsCtx .tlsCtx with ⟨t, h1, e1, ht, hh1, b1⟩ | ⟨-, h1, e1, hh1, b1⟩
  · rw [e1]
    simp only
    obtain ⟨h2, e2, hh2, b2⟩ := Holds.set (a := C.a) (l1 := [(t, .tlsCtx)]) (l2 := optCell .tlsCtx C.tls ++ F)
      (by simpa [CtxV.cells] using hh1) (.ctx t)
    rw [bind_some' _ e2]
    refine ⟨h2, _, ⟨C.a, t⟩, rfl, hh2.perm ?_, rfl, by omega⟩
    simp only [CtxV.cells, optCell, if_neg ht]; same_cells
  · rw [e1]
    simp only
    obtain ⟨h2, e2, hh2, b2⟩ := Holds.set (a := C.a) (l1 := []) (l2 := optCell .tlsCtx C.tls ++ F) hh1 (.ctx 0)
    rw [bind_some' _ e2]
    exact ⟨h2, _, ⟨C.a, 0⟩, rfl, hh2, rfl, by omega⟩

structure ConnV where
  a : Addr
  table : Option TableV
  tls : Addr

def tableAddr : Option TableV → Addr
  | none => 0
  | some T => T.t

def tableCells : Option TableV → List Cell
  | none => []
  | some T => T.cells

def ConnV.cells (C : ConnV) : List Cell := (C.a, .conn (tableAddr C.table) C.tls) :: (tableCells C.table ++ optCell .tls C.tls)

def ConnV.Ok (C : ConnV) : Prop := ∀ T, C.table = some T → T.Ok

theorem ConnV.pos {h : Heap} {F : List Cell} (C : ConnV) (hh : Holds h (C.cells ++ F)) : C.a ≠ 0 :=
  (hh.low (C.a, .conn (tableAddr C.table) C.tls) (by simp [ConnV.cells])).1

theorem ConnV.read {h : Heap} {F : List Cell} (C : ConnV) (hh : Holds h (C.cells ++ F)) : h.conn C.a = some (tableAddr C.table, C.tls) :=
  hh.conn (by simp [ConnV.cells])

theorem destroyTable_opt {h : Heap} {F : List Cell} (T : Option TableV) (hh : Holds h (tableCells T ++ F)) :
    ∃ h', destroyTable h (tableAddr T) = some h' ∧ Holds h' F ∧ h'.brk = h.brk := by
  cases T with
  | none => exact ⟨h, rfl, hh, rfl⟩
  | some T => exact destroyTable_ok T hh

theorem destroyConn_ok {h : Heap} {F : List Cell} (C : ConnV) (hh : Holds h (C.cells ++ F)) :
    ∃ h', destroyConn h C.a = some h' ∧ Holds h' F ∧ h'.brk = h.brk := by
  unfold destroyConn
  rw [if_neg (C.pos hh), bind_some' _ (C.read hh)]
  simp only
  obtain ⟨h1, e1, hh1, b1⟩ := destroyTable_opt (h := h) (F := optCell .tls C.tls ++ ((C.a, .conn (tableAddr C.table) C.tls) :: F)) C.table
    (hh.perm (by simp only [ConnV.cells]; same_cells))
  rw [bind_some' _ e1]
  obtain ⟨h2, e2, hh2, b2⟩ := freeOrNull_ok hh1
  rw [bind_some' _ e2]
  obtain ⟨h3, e3, hh3, b3⟩ := Holds.free (l1 := []) hh2
  exact ⟨h3, e3, hh3, by omega⟩

/-- A new table and a new TLS object; old ones are lost. -/
theorem connect_ok (ok : Oracle) {h : Heap} {F : List Cell} (C : ConnV) (hh : Holds h (C.cells ++ F)) (num : Nat) :
    ∃ (h' : Heap) (rc : RC) (C' : ConnV) (X : List Cell), connect ok h C.a num = some (h', rc) ∧ Holds h' (C'.cells ++ (X ++ F)) ∧
      C'.a = C.a ∧ C'.Ok ∧ h.brk ≤ h'.brk ∧ (C.table = none → C.tls = 0 → X = []) ∧
      (rc = .success → ∃ T, C'.table = some T ∧ T.plain = FragTable.create num) ∧ (tableCells C.table).length ≤ X.length ∧ (rc = .success ∨ ∃ w k, ok w k = false) := by
  unfold connect
  rw [bind_some' _ (C.read hh)]
  simp only
  rcases createTable_ok ok hh num with ⟨h1, T, e1, hh1, hT, ht, hpl, b1⟩ | ⟨hno, h1, e1, hh1, b1⟩
  · rw [bind_some' _ e1]
    simp only
    obtain ⟨h2, e2, hh2, b2⟩ := Holds.set (a := C.a) (l1 := T.cells) (l2 := (tableCells C.table ++ optCell .tls C.tls) ++ F)
      (by simpa [ConnV.cells] using hh1) (.conn T.t C.tls)
    rw [bind_some' _ e2, if_neg ht]
    rcases hh2.alloc ok .tls .tls with ⟨s, h3, e3, hs, hh3, b3⟩ | ⟨⟨k3, hno⟩, h3, e3, hh3, b3⟩
    · rw [e3]
      simp only
      obtain ⟨h4, e4, hh4, b4⟩ := Holds.set (a := C.a) (l1 := (s, .tls) :: T.cells) (l2 := (tableCells C.table ++ optCell .tls C.tls) ++ F)
        (by simpa using hh3) (.conn T.t s)
      rw [bind_some' _ e4]
      refine ⟨h4, _, ⟨C.a, some T, s⟩, tableCells C.table ++ optCell .tls C.tls, rfl, hh4.perm ?_, rfl, fun T' h => by cases h; exact hT,
        by omega, fun h1 h2 => by simp [h1, h2, tableCells, optCell], fun _ => ⟨T, rfl, hpl⟩, by simp, .inl (by rw [if_neg hs])⟩
      simp only [ConnV.cells, tableCells, tableAddr, optCell, if_neg hs]; same_cells
    · rw [e3]
      simp only
      obtain ⟨h4, e4, hh4, b4⟩ := Holds.set (a := C.a) (l1 := T.cells) (l2 := (tableCells C.table ++ optCell .tls C.tls) ++ F)
        (by simpa using hh3) (.conn T.t 0)
      rw [bind_some' _ e4]
      refine ⟨h4, _, ⟨C.a, some T, 0⟩, tableCells C.table ++ optCell .tls C.tls, rfl, hh4.perm ?_, rfl, fun T' h => by cases h; exact hT,
        by omega, fun h1 h2 => by simp [h1, h2, tableCells, optCell], fun _ => ⟨T, rfl, hpl⟩, by simp, .inr ⟨_, k3, hno⟩⟩
      simp only [ConnV.cells, tableCells, tableAddr, show optCell .tls 0 = [] from rfl]; same_cells
  · rw [bind_some' _ e1]
    simp only
    obtain ⟨h2, e2, hh2, b2⟩ := Holds.set (a := C.a) (l1 := []) (l2 := (tableCells C.table ++ optCell .tls C.tls) ++ F)
      (by simpa [ConnV.cells] using hh1) (.conn 0 C.tls)
    rw [bind_some' _ e2, if_pos True.intro]
    refine ⟨h2, _, ⟨C.a, none, C.tls⟩, tableCells C.table, rfl, hh2.perm ?_, rfl, (fun T' h => by cases h), by omega, (fun h1 _ => by rw [h1]; rfl), (fun h => by cases h), by simp, .inr hno⟩
    simp only [ConnV.cells, tableCells, tableAddr]; same_cells

/-- A fragment for a connection, connected or not. -/
theorem fragment_conn {ok : Oracle} (hok : ∀ k, ok .node k = true) {h : Heap} {F : List Cell} (C : ConnV) (hC : C.Ok)
    (hh : Holds h (C.cells ++ F)) (id off : Nat) (last : Bool) (d : Bytes) (t1 t2 : Int) :
    ∃ (h' : Heap) (C' : ConnV) (X : List Cell) (rc : RC) (out : Option Bytes),
      fragment ok h C.a id off last d t1 t2 = some (h', rc, out) ∧ Holds h' (C'.cells ++ (X ++ F)) ∧ C'.a = C.a ∧ C'.Ok ∧ h.brk ≤ h'.brk ∧
      ((∀ T, C.table = some T → ¬DropsAt T.plain id off d.length t2) → X = []) := by
  obtain ⟨a, tb, tls⟩ := C
  cases tb with
  | none =>
    refine ⟨h, ⟨a, none, tls⟩, [], .noMemory, none, ?_, hh, rfl, hC, Nat.le_refl _, fun _ => rfl⟩
    unfold fragment
    rw [bind_some' _ (ConnV.read _ hh)]
    rfl
  | some T =>
    obtain ⟨h', T', X, rc, out, e, hh', b, hT', -, hX⟩ := fragment_ok hok (c := a) (tls := tls) T (hC T rfl) (F := optCell .tls tls ++ F)
      (hh.perm (by simp only [ConnV.cells, tableCells, tableAddr]; same_cells)) id off last d t1 t2
    refine ⟨h', ⟨a, some T', tls⟩, X, rc, out, e, hh'.perm ?_, rfl, fun T0 h0 => by cases h0; exact hT', b, fun hD => hX (hD T rfl)⟩
    simp only [ConnV.cells, tableCells, tableAddr]; same_cells

end Lightway.Mem
