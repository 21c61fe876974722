import Verif.Spec.Heap
import Verif.Proofs.Inv

/-!
# Reasoning about the heap: the live blocks as a list of cells
-/

namespace Lightway.Mem

abbrev Cell := Addr × Block

/-- The live blocks of `h` are exactly the cells of the list. -/
structure Holds (h : Heap) (cs : List Cell) : Prop where
  nodup : (cs.map (·.1)).Nodup
  mem : ∀ a b, h.at_ a = some b ↔ (a, b) ∈ cs
  low : ∀ x ∈ cs, x.1 ≠ 0 ∧ x.1 < h.brk
  pos : 1 ≤ h.brk

theorem holds_empty : Holds .empty [] := ⟨List.nodup_nil, by simp [Heap.empty], by simp, by simp [Heap.empty]⟩

theorem Holds.perm {h : Heap} {cs cs' : List Cell} (hh : Holds h cs) (p : cs.Perm cs') : Holds h cs' :=
  ⟨((p.map _).nodup_iff).1 hh.nodup, fun a b => (hh.mem a b).trans p.mem_iff, fun x hx => hh.low x (p.mem_iff.2 hx), hh.pos⟩

/-- Nodup lists of numbers in `[1, n)` are shorter than `n`. -/
theorem pigeon (n : Nat) : ∀ (l : List Nat), l.Nodup → (∀ x ∈ l, x < n) → l.length ≤ n := by
  induction n with
  | zero => intro l _ h; cases l with
    | nil => simp
    | cons x l => exact absurd (h x (by simp)) (by omega)
  | succ n ih =>
    intro l hn h
    have h1 := ih (l.erase n) (hn.erase n) (fun x hx => by
      have h2 := h x (List.mem_of_mem_erase hx)
      have h3 : x ≠ n := fun e => by
        subst e; exact (List.Nodup.not_mem_erase hn) hx
      omega)
    by_cases hm : n ∈ l
    · have h2 := List.length_erase_of_mem hm; omega
    · rw [List.erase_of_not_mem hm] at h1; omega

theorem Holds.length_lt {h : Heap} {cs : List Cell} (hh : Holds h cs) : cs.length < h.brk := by
  have h1 := pigeon (h.brk) (0 :: cs.map (·.1)) (by
    refine List.nodup_cons.2 ⟨?_, hh.nodup⟩
    intro hm
    obtain ⟨x, hx, h0⟩ := List.mem_map.1 hm
    exact (hh.low x hx).1 h0) (by
    intro x hx
    rcases List.mem_cons.1 hx with rfl | hx
    · exact hh.pos
    · obtain ⟨y, hy, rfl⟩ := List.mem_map.1 hx
      exact (hh.low y hy).2)
  simp at h1; omega

theorem Holds.get {h : Heap} {cs : List Cell} (hh : Holds h cs) {a : Addr} {b : Block} (hm : (a, b) ∈ cs) :
    h.at_ a = some b := (hh.mem a b).2 hm

theorem Holds.notMem {h : Heap} {l1 l2 : List Cell} {a : Addr} {b : Block} (hh : Holds h (l1 ++ (a, b) :: l2)) :
    ∀ b', (a, b') ∉ l1 ++ l2 := by
  intro b' hm
  have hn := hh.nodup
  have : (a, b).1 ∉ (l1 ++ l2).map (·.1) := by
    have p : (l1 ++ (a, b) :: l2).Perm ((a, b) :: (l1 ++ l2)) := List.perm_middle
    have := ((p.map (·.1)).nodup_iff).1 hn
    exact (List.nodup_cons.1 this).1
  exact this (List.mem_map.2 ⟨(a, b'), hm, rfl⟩)

theorem Holds.set {h : Heap} {l1 l2 : List Cell} {a : Addr} {b : Block} (hh : Holds h (l1 ++ (a, b) :: l2)) (b' : Block) :
    ∃ h', h.set a b' = some h' ∧ Holds h' (l1 ++ (a, b') :: l2) ∧ h'.brk = h.brk := by
  have ha : h.at_ a = some b := hh.get (by simp)
  refine ⟨{ h with at_ := fun x => if x = a then some b' else h.at_ x }, ?_, ⟨?_, ?_, ?_, hh.pos⟩, rfl⟩
  · unfold Heap.set; rw [ha]; rfl
  · have := hh.nodup; simpa using this
  · intro x y
    simp only
    have hn := hh.notMem
    by_cases hx : x = a
    · subst hx
      simp only [if_true, Option.some.injEq]
      constructor
      · rintro rfl; simp
      · intro hm
        have : (x, y) ∈ l1 ++ l2 ∨ (x, y) = (x, b') := by
          simp only [List.mem_append, List.mem_cons] at hm ⊢
          rcases hm with h | h | h
          · exact .inl (.inl h)
          · exact .inr h
          · exact .inl (.inr h)
        rcases this with h | h
        · exact absurd h (hn y)
        · exact (Prod.mk.inj h).2.symm
    · rw [if_neg hx, hh.mem]
      simp [hx]
  · intro x hx
    simp only [List.mem_append, List.mem_cons] at hx
    have hl := hh.low
    rcases hx with h1 | h1 | h1
    · exact hl x (by simp [h1])
    · subst h1; exact hl (a, b) (by simp)
    · exact hl x (by simp [h1])

theorem Holds.free {h : Heap} {l1 l2 : List Cell} {a : Addr} {b : Block} (hh : Holds h (l1 ++ (a, b) :: l2)) :
    ∃ h', h.free a = some h' ∧ Holds h' (l1 ++ l2) ∧ h'.brk = h.brk := by
  have ha : h.at_ a = some b := hh.get (by simp)
  refine ⟨{ h with at_ := fun x => if x = a then none else h.at_ x }, ?_, ⟨?_, ?_, ?_, hh.pos⟩, rfl⟩
  · unfold Heap.free; rw [ha]; rfl
  · have p : (l1 ++ (a, b) :: l2).Perm ((a, b) :: (l1 ++ l2)) := List.perm_middle
    exact (List.nodup_cons.1 (((p.map (·.1)).nodup_iff).1 hh.nodup)).2
  · intro x y
    simp only
    have hn := hh.notMem
    by_cases hx : x = a
    · subst hx; simp only [if_true]
      constructor
      · intro h; cases h
      · intro hm; exact absurd hm (hn y)
    · rw [if_neg hx, hh.mem]; simp [hx]
  · intro x hx
    refine hh.low x ?_
    simp only [List.mem_append, List.mem_cons] at hx ⊢
    rcases hx with h | h
    · exact .inl h
    · exact .inr (.inr h)

/-- An allocation either yields a fresh non-NULL block or NULL. -/
theorem Holds.alloc {h : Heap} {cs : List Cell} (hh : Holds h cs) (ok : Oracle) (w : What) (b : Block) :
    (∃ p h', h.alloc ok w b = (p, h') ∧ p ≠ 0 ∧ Holds h' ((p, b) :: cs) ∧ h.brk ≤ h'.brk) ∨
    ((∃ k, ok w k = false) ∧ ∃ h', h.alloc ok w b = (0, h') ∧ Holds h' cs ∧ h.brk ≤ h'.brk) := by
  unfold Heap.alloc
  by_cases ho : ok w h.asked = true
  · rw [if_pos ho]
    refine .inl ⟨_, _, rfl, Nat.pos_iff_ne_zero.1 hh.pos, ⟨?_, ?_, ?_, ?_⟩, by simp⟩
    · refine List.nodup_cons.2 ⟨?_, hh.nodup⟩
      intro hm
      obtain ⟨x, hx, h0⟩ := List.mem_map.1 hm
      exact absurd (hh.low x hx).2 (by rw [h0]; simp)
    · intro x y
      simp only
      by_cases hx : x = h.brk
      · subst hx
        have : ∀ y, (h.brk, y) ∉ cs := fun y hm => absurd (hh.low _ hm).2 (by simp)
        simp only [if_true, List.mem_cons, this y, or_false, Prod.mk.injEq, true_and, Option.some.injEq]
        exact eq_comm
      · rw [if_neg hx, hh.mem]; simp [hx]
    · intro x hx
      rcases List.mem_cons.1 hx with rfl | hx
      · exact ⟨Nat.pos_iff_ne_zero.1 hh.pos, by simp⟩
      · have := hh.low x hx; exact ⟨this.1, Nat.lt_succ_of_lt this.2⟩
    · simp
  · rw [if_neg ho]
    exact .inr ⟨⟨h.asked, by simpa using ho⟩, _, rfl, ⟨hh.nodup, hh.mem, hh.low, hh.pos⟩, by simp⟩

/-! ### Typed reads -/

theorem Holds.node {h : Heap} {cs : List Cell} (hh : Holds h cs) {a : Addr} {n : FragNode} {p : Addr}
    (hm : (a, Block.node n p) ∈ cs) : h.node a = some (n, p) := by unfold Heap.node; rw [hh.get hm]
theorem Holds.entry {h : Heap} {cs : List Cell} (hh : Holds h cs) {a : Addr} {d : Bytes} {t : Int} {p : Addr}
    (hm : (a, Block.entry d t p) ∈ cs) : h.entry a = some (d, t, p) := by unfold Heap.entry; rw [hh.get hm]
theorem Holds.slots {h : Heap} {cs : List Cell} (hh : Holds h cs) {a : Addr} {ps : List Addr}
    (hm : (a, Block.slots ps) ∈ cs) : h.slots a = some ps := by unfold Heap.slots; rw [hh.get hm]
theorem Holds.table {h : Heap} {cs : List Cell} (hh : Holds h cs) {a e : Addr} {n : Nat}
    (hm : (a, Block.table e n) ∈ cs) : h.table a = some (e, n) := by unfold Heap.table; rw [hh.get hm]
theorem Holds.chain {h : Heap} {cs : List Cell} (hh : Holds h cs) {a p : Addr} {x : Option Nat}
    (hm : (a, Block.chain x p) ∈ cs) : h.chain a = some (x, p) := by unfold Heap.chain; rw [hh.get hm]
theorem Holds.conn {h : Heap} {cs : List Cell} (hh : Holds h cs) {a t s : Addr}
    (hm : (a, Block.conn t s) ∈ cs) : h.conn a = some (t, s) := by unfold Heap.conn; rw [hh.get hm]
theorem Holds.ctx {h : Heap} {cs : List Cell} (hh : Holds h cs) {a t : Addr}
    (hm : (a, Block.ctx t) ∈ cs) : h.ctx a = some t := by unfold Heap.ctx; rw [hh.get hm]
theorem Holds.client {h : Heap} {cs : List Cell} (hh : Holds h cs) {a x c i o : Addr}
    (hm : (a, Block.client x c i o) ∈ cs) : h.client a = some (x, c, i, o) := by unfold Heap.client; rw [hh.get hm]

/-! ### Linked lists of fragment nodes -/

abbrev Nodes := List (Addr × FragNode)

/-- The address of the first node, `q` for the empty list. -/
def nextOf (q : Addr) : Nodes → Addr
  | [] => q
  | x :: _ => x.1

/-- The cells of a linked list that ends in `q`. -/
def nodeCells (q : Addr) : Nodes → List Cell
  | [] => []
  | (a, n) :: r => (a, .node n (nextOf q r)) :: nodeCells q r

theorem nextOf_append (q : Addr) (l r : Nodes) : nextOf q (l ++ r) = nextOf (nextOf q r) l := by
  cases l <;> rfl

theorem nodeCells_append (q : Addr) (l r : Nodes) : nodeCells q (l ++ r) = nodeCells (nextOf q r) l ++ nodeCells q r := by
  induction l with
  | nil => rfl
  | cons x l ih => obtain ⟨a, n⟩ := x; simp [nodeCells, ih, nextOf_append]

theorem nodeCells_length (q : Addr) (l : Nodes) : (nodeCells q l).length = l.length := by
  induction l with
  | nil => rfl
  | cons x l ih => obtain ⟨a, n⟩ := x; simp [nodeCells, ih]

/-- Forget the addresses. -/
def plain (l : Nodes) : List FragNode := l.map (·.2)

theorem freeNodes_ok : ∀ (f : Nat) (l : Nodes) (h : Heap) (F : List Cell), l.length < f →
    Holds h (nodeCells 0 l ++ F) → ∃ h', freeNodes f h (nextOf 0 l) = some h' ∧ Holds h' F ∧ h'.brk = h.brk
  | 0, _, _, _, hf, _ => absurd hf (by omega)
  | f + 1, [], h, F, _, hh => ⟨h, by simp [freeNodes, nextOf], hh, rfl⟩
  | f + 1, (a, n) :: r, h, F, hf, hh => by
    have ha : a ≠ 0 := (hh.low (a, .node n (nextOf 0 r)) (by simp [nodeCells])).1
    have hn : h.node a = some (n, nextOf 0 r) := hh.node (by simp [nodeCells])
    obtain ⟨h1, e1, hh1, b1⟩ := Holds.free (l1 := []) (l2 := nodeCells 0 r ++ F) (by simpa [nodeCells] using hh)
    obtain ⟨h2, e2, hh2, b2⟩ := freeNodes_ok f r h1 F (by simp at hf; omega) hh1
    refine ⟨h2, ?_, hh2, b2.trans b1⟩
    rw [freeNodes, if_neg (by exact ha)]
    show (do let (_, next) ← h.node a; let h ← h.free a; freeNodes f h next) = _
    rw [hn]
    show (do let h ← h.free a; freeNodes f h (nextOf 0 r)) = _
    rw [e1]
    exact e2

/-- The block of the last node of a list segment, 0 for the empty one. -/
def lastOf : Nodes → Addr
  | [] => 0
  | [x] => x.1
  | _ :: r => lastOf r

theorem lastOf_concat (l : Nodes) (x : Addr × FragNode) : lastOf (l ++ [x]) = x.1 := by
  induction l with
  | nil => rfl
  | cons y l ih =>
    cases l with
    | nil => rfl
    | cons z l => exact ih

/-- What the loop of `he_fragment_entry_update` leaves, compared with the list model: the linked list `L`, and the
blocks `X` no pointer leads to any more. -/
def Walked (off len : Nat) (e : Addr) (data : Bytes) (ts : Int) (F : List Cell) (brk : Nat) (ns : List FragNode)
    (res : WalkRes) (r : Option (Heap × Bool)) : Prop :=
  ∃ h fine L X, r = some (h, fine) ∧
    Holds h ((e, .entry data ts (nextOf 0 L)) :: nodeCells 0 L ++ (X ++ F)) ∧ brk ≤ h.brk ∧
    res = (if fine then .done (plain L) else .bad (plain L)) ∧ (¬Drops ns off len → X = [])

/-- Two lists of cells made of the same parts. -/
macro "same_cells" : tactic => `(tactic| (
  rw [List.perm_iff_count]; intro x
  simp only [List.count_append, List.count_cons, List.count_nil, List.append_assoc, List.cons_append, List.nil_append] <;> omega))

example (a b c : Cell) (l r : List Cell) : (a :: l ++ b :: c :: r).Perm (c :: r ++ (l ++ [b, a])) := by same_cells

theorem nodeCells_at (L R : Nodes) (c : Addr) (n : FragNode) :
    nodeCells 0 (L ++ (c, n) :: R) = nodeCells c L ++ (c, .node n (nextOf 0 R)) :: nodeCells 0 R := by
  rw [nodeCells_append]; rfl

theorem plain_append (l r : Nodes) : plain (l ++ r) = plain l ++ plain r := List.map_append
theorem plain_cons (x : Addr × FragNode) (r : Nodes) : plain (x :: r) = x.2 :: plain r := rfl

theorem bind_some' {α β : Type} {x : Option α} {a : α} (f : α → Option β) (h : x = some a) : (x >>= f) = f a := by
  rw [h]; rfl

theorem alloc_node {h : Heap} {cs : List Cell} (hh : Holds h cs) {ok : Oracle} (hok : ∀ k, ok .node k = true) (b : Block) :
    ∃ p h', h.alloc ok .node b = (p, h') ∧ p ≠ 0 ∧ Holds h' ((p, b) :: cs) ∧ h.brk ≤ h'.brk := by
  rcases hh.alloc ok .node b with h1 | ⟨⟨k, h1⟩, -⟩
  · exact h1
  · rw [hok k] at h1; cases h1

theorem walkC_ok {ok : Oracle} (hok : ∀ k, ok .node k = true) (off len : Nat) (last : Bool) (e : Addr) (data : Bytes)
    (ts : Int) (F : List Cell) (ns : List FragNode) :
    ∀ (f : Nat) (D S R : Nodes) (h : Heap), R.length < f →
      Holds h ((e, .entry data ts (nextOf 0 (D ++ S ++ R))) :: nodeCells 0 (D ++ S ++ R) ++ F) →
      (S ≠ [] → ∃ n ∈ ns, off = n.e) → (∀ x ∈ R, x.2 ∈ ns) →
      Walked off len e data ts F h.brk ns (walk true off len last (plain D).reverse (plain S).reverse (plain R))
        (walkC ok off len last e f h (lastOf D) (nextOf 0 R))
  | 0, _, _, _, _, hf, _, _, _ => absurd hf (by omega)
  | f + 1, D, S, [], h, _, hh, _, _ => by
    refine ⟨h, true, D ++ S, [], by simp [walkC, nextOf], by simpa using hh, Nat.le_refl _, ?_, fun _ => rfl⟩
    simp [walk, plain]
  | f + 1, D, S, (c, n) :: R, h, hf, hh, hS, hR => by
    have hc : c ≠ 0 := (hh.low (c, .node n (nextOf 0 R)) (by rw [nodeCells_at]; simp)).1
    have hn : h.node c = some (n, nextOf 0 R) := hh.node (by rw [nodeCells_at]; simp)
    have hh0 := hh
    rw [nodeCells_at] at hh
    have hnx : nextOf 0 (D ++ S ++ (c, n) :: R) = nextOf c (D ++ S) := nextOf_append _ _ _
    rw [hnx] at hh
    have hnn : n ∈ ns := hR (c, n) (by simp)
    have hR' : ∀ x ∈ R, x.2 ∈ ns := fun x hx => hR x (by simp [hx])
    have hlen : R.length < f := by simp at hf; omega
    rw [show nextOf 0 ((c, n) :: R) = c from rfl, walkC, if_neg hc, bind_some' _ hn, plain_cons, walk.eq_def]
    simp only
    by_cases h1 : off = n.e
    · rw [if_pos h1, if_pos h1]
      obtain ⟨h2, e2, hh2, b2⟩ := Holds.set (l1 := (e, .entry data ts (nextOf c (D ++ S))) :: nodeCells c (D ++ S))
        (l2 := nodeCells 0 R ++ F) (by simpa using hh) (.node { n with e := off + len, last := last } (nextOf 0 R))
      rw [bind_some' _ e2]
      have ih := walkC_ok hok off len last e data ts F ns f D (S ++ [(c, { n with e := off + len, last := last })]) R h2 hlen
        (by
          rw [← List.append_assoc, List.append_assoc (D ++ S), List.singleton_append, nodeCells_at]
          rw [nextOf_append]
          simpa [nextOf] using hh2) (fun _ => ⟨n, hnn, h1⟩) hR'
      rw [b2] at ih
      simpa [plain] using ih
    · rw [if_neg h1, if_neg h1]
      by_cases h2 : off + len = n.b
      · rw [if_pos h2, if_pos h2]
        obtain ⟨h3, e3, hh3, b3⟩ := Holds.set (l1 := (e, .entry data ts (nextOf c (D ++ S))) :: nodeCells c (D ++ S))
          (l2 := nodeCells 0 R ++ F) (by simpa using hh) (.node { n with b := off } (nextOf 0 R))
        rw [bind_some' _ e3]
        refine ⟨h3, true, D ++ S ++ (c, { n with b := off }) :: R, [], rfl, ?_, Nat.le_of_eq b3.symm, ?_, fun _ => rfl⟩
        · rw [nodeCells_at, nextOf_append]
          simpa [nextOf] using hh3
        · simp [plain]
      · rw [if_neg h2, if_neg h2]
        by_cases h3 : off > n.e
        · rw [if_pos h3, if_pos h3]
          cases R with
          | nil =>
            rw [show plain [] = [] from rfl]
            simp only
            rw [if_pos True.intro, if_neg (show ¬(nextOf 0 [] ≠ 0) by simp [nextOf])]
            obtain ⟨p, h4, e4, hp, hh4, b4⟩ := alloc_node hh hok (.node { b := 0, e := 0, last := false } 0)
            rw [e4]
            simp only
            obtain ⟨h5, e5, hh5, b5⟩ := Holds.set (l1 := []) hh4 (.node { b := off, e := off + len, last := last } 0)
            rw [bind_some' _ e5]
            obtain ⟨h6, e6, hh6, b6⟩ := Holds.set
              (l1 := (p, .node { b := off, e := off + len, last := last } 0) :: (e, .entry data ts (nextOf c (D ++ S))) :: nodeCells c (D ++ S))
              (l2 := nodeCells 0 [] ++ F) (by simpa [nextOf] using hh5) (.node n p)
            rw [bind_some' _ e6]
            refine ⟨h6, true, D ++ S ++ [(c, n), (p, { b := off, e := off + len, last := last })], [], rfl, ?_, by omega, ?_, fun _ => rfl⟩
            · rw [nodeCells_at, nextOf_append]
              refine hh6.perm ?_
              simp only [nextOf, nodeCells]
              same_cells
            · simp [plain]
          | cons y R2 =>
            obtain ⟨c2, m⟩ := y
            have hc2 : c2 ≠ 0 := (hh.low (c2, .node m (nextOf 0 R2)) (by simp [nodeCells])).1
            have hm : h.node c2 = some (m, nextOf 0 R2) := hh.node (by simp [nodeCells])
            rw [if_pos (show nextOf 0 ((c2, m) :: R2) ≠ 0 from hc2), bind_some' _ (show h.node (nextOf 0 ((c2, m) :: R2)) = _ from hm)]
            simp only [plain_cons]
            by_cases h4 : m.b = n.e
            · rw [if_pos h4, if_pos h4]
              obtain ⟨h5, e5, hh5, b5⟩ := Holds.set (l1 := (e, .entry data ts (nextOf c (D ++ S))) :: nodeCells c (D ++ S))
                (l2 := nodeCells 0 ((c2, m) :: R2) ++ F) (by simpa using hh) (.node { n with e := m.b, last := m.last } (nextOf 0 R2))
              rw [bind_some' _ e5]
              obtain ⟨h6, e6, hh6, b6⟩ := Holds.free (a := c2) (b := .node m (nextOf 0 R2))
                (l1 := (e, .entry data ts (nextOf c (D ++ S))) :: nodeCells c (D ++ S) ++ [(c, .node { n with e := m.b, last := m.last } (nextOf 0 R2))])
                (l2 := nodeCells 0 R2 ++ F) (by simpa [nodeCells] using hh5)
              rw [bind_some' _ (show h5.free (nextOf 0 ((c2, m) :: R2)) = _ from e6)]
              have ih := walkC_ok hok off len last e data ts F ns f (D ++ S ++ [(c, { n with e := m.b, last := m.last })]) [] R2 h6
                (by simp at hlen; omega)
                (by
                  rw [List.append_nil, List.append_assoc (D ++ S), List.singleton_append, nodeCells_at, nextOf_append]
                  simpa [nextOf] using hh6) (by simp) (fun x hx => hR' x (by simp [hx]))
              rw [b6, b5, lastOf_concat] at ih
              cases R2 with
              | nil =>
                simp only [plain, List.map_nil]
                simpa [plain, walk] using ih
              | cons z R3 => simpa [plain] using ih
            · rw [if_neg h4, if_neg h4]
              have ih := walkC_ok hok off len last e data ts F ns f (D ++ S ++ [(c, n)]) [] ((c2, m) :: R2) h
                hlen (by simpa using hh0) (by simp) hR'
              rw [lastOf_concat] at ih
              simpa [plain] using ih
        · rw [if_neg h3, if_neg h3]
          by_cases h4 : off + len < n.b
          · rw [if_pos h4, if_pos h4, if_pos True.intro]
            obtain ⟨p, h5, e5, hp, hh5, b5⟩ := alloc_node hh hok (.node { b := 0, e := 0, last := false } 0)
            rw [e5]
            simp only
            obtain ⟨h6, e6, hh6, b6⟩ := Holds.set (l1 := []) hh5 (.node { b := off, e := off + len, last := last } c)
            rw [bind_some' _ e6]
            have hX : ¬Drops ns off len → nodeCells c S = [] := by
              intro hd
              cases S with
              | nil => rfl
              | cons s S =>
                obtain ⟨n', hn', he⟩ := hS (by simp)
                exact absurd ⟨n', hn', n, hnn, he, h4⟩ hd
            rcases List.eq_nil_or_concat D with hD | ⟨D0, ⟨pa, pn⟩, hD⟩
            · subst hD
              rw [if_pos (show lastOf [] = 0 from rfl)]
              have he : h6.entry e = some (data, ts, nextOf c S) := hh6.entry (by simp)
              rw [bind_some' _ he]
              obtain ⟨h7, e7, hh7, b7⟩ := Holds.set (a := e)
                (l1 := [(p, .node { b := off, e := off + len, last := last } c)]) (by simpa using hh6) (.entry data ts p)
              simp only
              rw [bind_some' _ e7]
              refine ⟨h7, true, (p, { b := off, e := off + len, last := last }) :: (c, n) :: R, nodeCells c S, rfl, ?_, by omega, ?_, hX⟩
              · refine hh7.perm ?_
                simp only [nextOf, nodeCells]
                same_cells
              · simp [plain]
            · subst hD
              have hpa : pa ≠ 0 := (hh.low (pa, .node pn (nextOf c S)) (by simp [nodeCells_append, nodeCells, nextOf])).1
              rw [List.concat_eq_append, lastOf_concat, if_neg hpa]
              have hcells : nodeCells c (D0 ++ [(pa, pn)] ++ S) = nodeCells pa D0 ++ (pa, .node pn (nextOf c S)) :: nodeCells c S := by
                simp [nodeCells_append, nodeCells, nextOf]
              rw [List.concat_eq_append, hcells] at hh6
              have hq : h6.node pa = some (pn, nextOf c S) := hh6.node (by simp)
              rw [bind_some' _ hq]
              obtain ⟨h7, e7, hh7, b7⟩ := Holds.set (a := pa)
                (l1 := (p, .node { b := off, e := off + len, last := last } c) :: (e, .entry data ts (nextOf c (D0 ++ [(pa, pn)] ++ S))) :: nodeCells pa D0)
                (by simpa using hh6) (.node pn p)
              simp only
              rw [bind_some' _ e7]
              refine ⟨h7, true, D0 ++ (pa, pn) :: (p, { b := off, e := off + len, last := last }) :: (c, n) :: R, nodeCells c S, rfl, ?_, by omega, ?_, hX⟩
              · refine hh7.perm ?_
                rw [nodeCells_at, nextOf_append, nextOf_append, nextOf_append]
                simp only [nextOf, nodeCells]
                same_cells
              · simp [plain]
          · rw [if_neg h4, if_neg h4]
            refine ⟨h, false, D ++ S ++ (c, n) :: R, [], rfl, by simpa using hh0, Nat.le_refl _, ?_, fun _ => rfl⟩
            simp [plain]

end Lightway.Mem
