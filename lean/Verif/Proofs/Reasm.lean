import Verif.Proofs.Tools

/-!
# Reassembly entries
What `he_fragment_entry_update` can make of an empty entry and a sequence of fragments.
-/

namespace Lightway
open Spec

theorem wr_get {bs src out : Bytes} {off : Nat} (h : wr bs off src = some out) (i : Nat) :
    out[i]? = if off ≤ i ∧ i < off + src.length then src[i - off]? else bs[i]? := by
  unfold wr at h
  split at h
  · rename_i hl
    cases h
    have h1 : (bs.take off).length = off := by simp; omega
    split
    · rename_i hi
      rw [List.append_assoc, List.getElem?_append_right (by omega), h1, List.getElem?_append_left (by omega)]
    · rename_i hi
      by_cases ho : i < off
      · rw [List.append_assoc, List.getElem?_append_left (by omega), List.getElem?_take_of_lt ho]
      · have h2 : (bs.take off ++ src).length = off + src.length := by simp; omega
        rw [List.getElem?_append_right (by omega), h2, List.getElem?_drop]
        congr 1; omega
  · cases h

/-- The ways an update can go. -/
theorem update_cases {en en' : FragEntry} {al : Bool} {d : Bytes} {off : Nat} {last : Bool} {rc : RC} {asm : Bool}
    (h : en.update al d off last = some (en', rc, asm)) :
    (off + d.length > maxWireMtu ∧ en' = en ∧ rc = .packetTooLarge ∧ asm = false) ∨
    (off + d.length ≤ maxWireMtu ∧ en.nodes = [] ∧ al = true ∧ ∃ data, wr en.data off d = some data ∧ rc = .success ∧ asm = false ∧
      en' = { en with data := data, nodes := [{ b := off, e := off + d.length, last := last }] }) ∨
    (off + d.length ≤ maxWireMtu ∧ en.nodes ≠ [] ∧ ∃ ns, walk al off d.length last [] [] en.nodes = .bad ns ∧
      rc = .badFragment ∧ asm = false ∧ en' = { en with nodes := ns }) ∨
    (off + d.length ≤ maxWireMtu ∧ en.nodes ≠ [] ∧ ∃ hd tl data, walk al off d.length last [] [] en.nodes = .done (hd :: tl) ∧
      wr en.data off d = some data ∧ rc = .success ∧ asm = (hd.last && decide (hd.b = 0)) ∧
      en' = { en with data := data, nodes := hd :: tl }) := by
  unfold FragEntry.update at h
  split at h
  · rename_i hl
    cases h; exact .inl ⟨hl, rfl, rfl, rfl⟩
  · rename_i hl
    split at h
    · rename_i hn
      split at h
      · rename_i ha
        split at h
        · cases h
        · rename_i data hw
          cases h
          exact .inr (.inl ⟨by omega, hn, ha, data, hw, rfl, rfl, rfl⟩)
      · cases h
    · rename_i hn
      split at h
      · cases h
      · rename_i ns hw
        cases h
        exact .inr (.inr (.inl ⟨by omega, hn, ns, hw, rfl, rfl, rfl⟩))
      · rename_i ns hw
        split at h
        · cases h
        · rename_i data hd
          split at h
          · cases h
          · rename_i x y
            cases h
            exact .inr (.inr (.inr ⟨by omega, hn, x, y, data, hw, hd, rfl, rfl, rfl⟩))

/-- Entries made from an empty one by inserting fragments (newest first). -/
inductive Built : FragEntry → List Fragment → Prop
  | empty (en : FragEntry) (hd : en.data = zeros maxWireMtu) (hn : en.nodes = []) : Built en []
  | put {en en' : FragEntry} {life : List Fragment} {al : Bool} {rc : RC} {asm : Bool} (g : Fragment)
      (h : Built en life) (hu : en.update al g.data g.off (!g.more) = some (en', rc, asm)) : Built en' (g :: life)

/-- Every byte of an entry is zero or was put there by one of its fragments. -/
theorem Built.bytes {en : FragEntry} {life : List Fragment} (h : Built en life) :
    ∀ i v, en.data[i]? = some v → v = 0 ∨ ∃ f ∈ life, f.off ≤ i ∧ f.data[i - f.off]? = some v := by
  induction h with
  | empty en hd hn =>
    intro i v hv
    rw [hd] at hv
    left
    simp [zeros, List.getElem?_replicate] at hv
    exact hv.2.symm
  | @put en en' life al rc asm g h hu ih =>
    intro i v hv
    have old : en.data[i]? = some v → v = 0 ∨ ∃ f ∈ g :: life, f.off ≤ i ∧ f.data[i - f.off]? = some v := by
      intro hv
      rcases ih i v hv with h | ⟨f, hf, h⟩
      · exact .inl h
      · exact .inr ⟨f, by simp [hf], h⟩
    have new : ∀ data, wr en.data g.off g.data = some data → data[i]? = some v →
        v = 0 ∨ ∃ f ∈ g :: life, f.off ≤ i ∧ f.data[i - f.off]? = some v := by
      intro data hw hv
      rw [wr_get hw] at hv
      split at hv
      · exact .inr ⟨g, by simp, by omega, hv⟩
      · exact old hv
    rcases update_cases hu with ⟨_, rfl, _⟩ | ⟨_, _, _, data, hw, _, _, rfl⟩ | ⟨_, _, ns, _, _, _, rfl⟩ | ⟨_, _, hd, tl, data, _, hw, _, _, rfl⟩
    · exact old hv
    · exact new data hw hv
    · exact old hv
    · exact new data hw hv

/-! ### Fragments of one packet -/

/-- Neighbouring nodes do not touch. -/
def Apart : List FragNode → Prop
  | a :: b :: r => a.e ≠ b.b ∧ Apart (b :: r)
  | _ => True

theorem apart_append {x y : List FragNode} : Apart (x ++ y) ↔
    Apart x ∧ Apart y ∧ ∀ a b, x.getLast? = some a → y.head? = some b → a.e ≠ b.b := by
  induction x with
  | nil => simp [Apart]
  | cons a x ih =>
    cases x with
    | nil =>
      cases y with
      | nil => simp [Apart]
      | cons b y => simp [Apart]; exact And.comm
    | cons c x =>
      simp only [List.cons_append, Apart] at ih ⊢
      rw [ih]
      simp [and_assoc]

/-- A node made of fragments of a packet of length `L` whose bytes are known to be right where `R` holds. -/
structure NodeOf (cut R : Nat → Prop) (L : Nat) (n : FragNode) : Prop where
  lt : n.b < n.e
  cb : cut n.b
  ce : cut n.e
  last : n.last = true ↔ n.e = L
  right : ∀ i, n.b ≤ i → i < n.e → R i

/-- The fragment being inserted. -/
structure FragOf (cut R : Nat → Prop) (L off len : Nat) (last : Bool) : Prop where
  pos : 0 < len
  cb : cut off
  ce : cut (off + len)
  last : last = true ↔ off + len = L
  right : ∀ i, off ≤ i → i < off + len → R i

theorem FragOf.node {cut R : Nat → Prop} {L off len : Nat} {last : Bool} (h : FragOf cut R L off len last) :
    NodeOf cut R L { b := off, e := off + len, last := last } :=
  ⟨by simp only; have := h.pos; omega, h.cb, h.ce, h.last, h.right⟩

theorem lastOf {dn sk : List FragNode} {a : FragNode} (h : (dn.reverse ++ sk.reverse).getLast? = some a) :
    (∃ tl, sk = a :: tl) ∨ (sk = [] ∧ dn.head? = some a) := by
  cases sk with
  | nil => simp at h; exact .inr ⟨rfl, h⟩
  | cons b tl => simp at h; subst h; exact .inl ⟨tl, rfl⟩

theorem walk_of {cut R : Nat → Prop} {L off len : Nat} {last al : Bool} (hf : FragOf cut R L off len last) :
    ∀ (dn sk rest : List FragNode),
    (∀ n ∈ dn.reverse ++ sk.reverse, NodeOf cut R L n) → (∀ n ∈ rest, NodeOf cut R L n) →
    Apart (dn.reverse ++ sk.reverse) → Apart rest →
    (∀ d r, dn.head? = some d → sk = [] → rest.head? = some r → d.e ≠ r.b) →
    (∀ d, dn.head? = some d → d.e < off) → (∀ n ∈ sk, n.e = off + len) →
    (∀ ns, walk al off len last dn sk rest = .done ns → Apart ns ∧ ∀ n ∈ ns, NodeOf cut R L n) ∧
    (∀ ns, walk al off len last dn sk rest = .bad ns → (Apart ns ∧ ∀ n ∈ ns, NodeOf cut R L n) ∧
      ∃ n ∈ rest, n.b < off + len ∧ off < n.e) := by
  have hpos := hf.pos
  -- the link between the walked part and the current node
  have link : ∀ (dn sk rest : List FragNode) (curr : FragNode),
      (∀ d r, dn.head? = some d → sk = [] → (curr :: rest).head? = some r → d.e ≠ r.b) →
      (∀ n ∈ sk, n.e = off + len) → curr.b ≠ off + len →
      ∀ a b, (dn.reverse ++ sk.reverse).getLast? = some a → some curr = some b → a.e ≠ b.b := by
    intro dn sk rest curr hdr hs hne a b ha hb
    cases hb
    rcases lastOf ha with ⟨tl, rfl⟩ | ⟨rfl, ha2⟩
    · rw [hs a (by simp)]; exact fun h => hne h.symm
    · exact hdr a curr ha2 rfl rfl
  intro dn sk rest
  induction dn, sk, rest using walk.induct (alloc := al) (off := off) (len := len) (last := last) with
  | case1 dn sk =>
    intro h1 h2 h3 h4 hdr hd hs
    unfold walk
    exact ⟨fun ns h => by cases h; exact ⟨h3, h1⟩, fun ns h => by cases h⟩
  | case2 dn sk curr rest he ih =>
    intro h1 h2 h3 h4 hdr hd hs
    have hc := h2 curr (by simp)
    have hlt := hc.lt
    have := ih
      (by
        intro n hn
        simp only [List.reverse_cons, ← List.append_assoc, List.mem_append, List.mem_singleton] at hn
        rcases hn with hn | rfl
        · exact h1 n (by simpa using hn)
        · refine ⟨by simp only; omega, hc.cb, hf.ce, hf.last, ?_⟩
          intro i hi1 hi2
          by_cases hi : i < curr.e
          · exact hc.right i hi1 hi
          · exact hf.right i (by omega) hi2)
      (fun n hn => h2 n (by simp [hn]))
      (by
        simp only [List.reverse_cons, ← List.append_assoc]
        refine apart_append.2 ⟨h3, trivial, ?_⟩
        intro a b ha hb
        simp only [List.head?_cons, Option.some.injEq] at hb
        have := link dn sk rest curr hdr hs (by omega) a curr ha rfl
        rw [← hb]; exact this)
      (by have := (apart_append (x := [curr]) (y := rest)).1 h4; exact this.2.1)
      (by intro d r _ h; cases h)
      hd
      (by
        intro n hn
        simp only [List.mem_cons] at hn
        rcases hn with rfl | hn
        · rfl
        · exact hs n hn)
    unfold walk
    rw [if_pos he]
    refine ⟨this.1, fun ns h => ?_⟩
    obtain ⟨h5, n, h6, h7⟩ := this.2 ns h
    exact ⟨h5, n, by simp [h6], h7⟩
  | case3 dn sk curr rest hne he =>
    intro h1 h2 h3 h4 hdr hd hs
    have hc := h2 curr (by simp)
    have hlt := hc.lt
    unfold walk
    rw [if_neg hne, if_pos he]
    refine ⟨fun ns h => ?_, fun ns h => by cases h⟩
    cases h
    constructor
    · refine apart_append.2 ⟨h3, ?_, ?_⟩
      · cases rest with
        | nil => trivial
        | cons b r => exact h4
      · intro a b ha hb
        cases hb
        simp only
        rcases lastOf ha with ⟨tl, rfl⟩ | ⟨rfl, ha2⟩
        · rw [hs a (by simp)]; omega
        · have := hd a ha2; omega
    · intro n hn
      rcases List.mem_append.mp hn with hn | hn
      · exact h1 n hn
      · simp only [List.mem_cons] at hn
        rcases hn with rfl | hn
        · refine ⟨by simp only; omega, hf.cb, hc.ce, hc.last, ?_⟩
          intro i hi1 hi2
          by_cases hi : i < curr.b
          · exact hf.right i hi1 (by omega)
          · exact hc.right i (by omega) hi2
        · exact h2 n (by simp [hn])
  | case4 dn sk curr hne hne2 hgt hal =>
    intro h1 h2 h3 h4 hdr hd hs
    have hc := h2 curr (by simp)
    have hlt := hc.lt
    unfold walk
    rw [if_neg hne, if_neg hne2, if_pos hgt, if_pos hal]
    refine ⟨fun ns h => ?_, fun ns h => by cases h⟩
    cases h
    constructor
    · refine apart_append.2 ⟨h3, ⟨by simp only; omega, trivial⟩, ?_⟩
      intro a b ha hb
      exact link dn sk [] curr hdr hs (by omega) a b ha hb
    · intro n hn
      rcases List.mem_append.mp hn with hn | hn
      · exact h1 n hn
      · simp only [List.mem_cons, List.not_mem_nil, or_false] at hn
        rcases hn with rfl | rfl
        · exact hc
        · exact hf.node
  | case5 dn sk curr hne hne2 hgt hal =>
    intro h1 h2 h3 h4 hdr hd hs
    unfold walk
    rw [if_neg hne, if_neg hne2, if_pos hgt, if_neg hal]
    exact ⟨(fun ns h => by cases h), (fun ns h => by cases h)⟩
  | case6 dn sk curr hne hne2 hgt n2 hj =>
    intro h1 h2 h3 h4 hdr hd hs
    exact absurd hj.symm h4.1
  | case7 dn sk curr hne hne2 hgt n2 hj n3 r2 ih =>
    intro h1 h2 h3 h4 hdr hd hs
    exact absurd hj.symm h4.1
  | case8 dn sk curr hne hne2 hgt n2 r2 hj ih =>
    intro h1 h2 h3 h4 hdr hd hs
    have hc := h2 curr (by simp)
    have hlt := hc.lt
    have hl := link dn sk (n2 :: r2) curr hdr hs (by omega)
    have := ih
      (by
        intro n hn
        simp only [List.reverse_cons, List.reverse_append, List.reverse_nil, List.append_nil, List.mem_append,
          List.mem_singleton] at hn
        rcases hn with hn | rfl
        · exact h1 n (by simpa using hn)
        · exact hc)
      (fun n hn => h2 n (by simp only [List.mem_cons] at hn ⊢; exact .inr hn))
      (by
        simp only [List.reverse_cons, List.reverse_append, List.reverse_nil, List.append_nil]
        exact apart_append.2 ⟨h3, trivial, fun a b ha hb => hl a b ha hb⟩)
      h4.2
      (by
        intro d r hd' _ hr
        cases hd'; cases hr
        exact h4.1)
      (by intro d hd'; cases hd'; exact hgt)
      (by intro n hn; cases hn)
    unfold walk
    rw [if_neg hne, if_neg hne2, if_pos hgt]
    simp only
    rw [if_neg hj]
    refine ⟨this.1, fun ns h => ?_⟩
    obtain ⟨h5, n, h6, h7⟩ := this.2 ns h
    exact ⟨h5, n, by simp only [List.mem_cons] at h6 ⊢; exact .inr h6, h7⟩
  | case9 dn sk curr rest hne hne2 hgt hlt2 hal =>
    intro h1 h2 h3 h4 hdr hd hs
    have hc := h2 curr (by simp)
    unfold walk
    rw [if_neg hne, if_neg hne2, if_neg hgt, if_pos hlt2, if_pos hal]
    refine ⟨fun ns h => ?_, fun ns h => by cases h⟩
    cases h
    constructor
    · refine apart_append.2 ⟨(apart_append.1 h3).1, ⟨by simp only; omega, h4⟩, ?_⟩
      intro a b ha hb
      cases hb
      have := hd a (by simpa using ha)
      simp only; omega
    · intro n hn
      rcases List.mem_append.mp hn with hn | hn
      · exact h1 n (List.mem_append.2 (.inl hn))
      · simp only [List.mem_cons] at hn
        rcases hn with rfl | hn
        · exact hf.node
        · exact h2 n (by simpa using hn)
  | case10 dn sk curr rest hne hne2 hgt hlt2 hal =>
    intro h1 h2 h3 h4 hdr hd hs
    unfold walk
    rw [if_neg hne, if_neg hne2, if_neg hgt, if_pos hlt2, if_neg hal]
    exact ⟨(fun ns h => by cases h), (fun ns h => by cases h)⟩
  | case11 dn sk curr rest hne hne2 hgt hlt2 =>
    intro h1 h2 h3 h4 hdr hd hs
    unfold walk
    rw [if_neg hne, if_neg hne2, if_neg hgt, if_neg hlt2]
    refine ⟨(fun ns h => by cases h), (fun ns h => ?_)⟩
    cases h
    refine ⟨⟨apart_append.2 ⟨h3, h4, fun a b ha hb => link dn sk rest curr hdr hs (by omega) a b ha hb⟩, ?_⟩,
      curr, by simp, by omega, by omega⟩
    intro n hn
    rcases List.mem_append.mp hn with hn | hn
    · exact h1 n hn
    · exact h2 n hn

/-- Positions that are not inside a fragment. -/
def CutOf (frs : List Fragment) (x : Nat) : Prop := ∀ f ∈ frs, ¬(f.off < x ∧ x < f.off + f.data.length)

theorem contiguous_facts {o : Nat} {frs : List Fragment} (h : Contiguous o frs) :
    ∀ f ∈ frs, 0 < f.data.length ∧ o ≤ f.off ∧
      f.off + f.data.length ≤ o + ((frs.map (·.data)).flatten).length ∧
      (f.more = false ↔ f.off + f.data.length = o + ((frs.map (·.data)).flatten).length) ∧
      (∀ j, j < f.data.length → ((frs.map (·.data)).flatten)[f.off - o + j]? = f.data[j]?) ∧
      CutOf frs f.off ∧ CutOf frs (f.off + f.data.length) := by
  induction frs generalizing o with
  | nil => intro f hf; cases hf
  | cons g r ih =>
    obtain ⟨h1, h2, h3, h4⟩ := h
    have ih := ih h4
    have hg : 0 < g.data.length := List.length_pos_iff.2 h2
    intro f hf
    simp only [List.map_cons, List.flatten_cons, List.length_append]
    rcases List.mem_cons.mp hf with rfl | hf
    · refine ⟨hg, by omega, by omega, ?_, ?_, ?_, ?_⟩
      · rw [h3]
        cases r with
        | nil => simp; omega
        | cons x y =>
          have := (ih x (by simp))
          simp only [List.isEmpty_cons, Bool.not_false, Bool.true_eq_false, false_iff]
          omega
      · intro j hj
        rw [h1, Nat.sub_self, Nat.zero_add, List.getElem?_append_left hj]
      · intro x hx
        rcases List.mem_cons.mp hx with rfl | hx
        · omega
        · have := ih x hx; omega
      · intro x hx
        rcases List.mem_cons.mp hx with rfl | hx
        · omega
        · have := ih x hx; omega
    · obtain ⟨i1, i2, i3, i4, i5, i6, i7⟩ := ih f hf
      refine ⟨i1, by omega, by omega, ?_, ?_, ?_, ?_⟩
      · rw [i4]; omega
      · intro j hj
        rw [List.getElem?_append_right (by omega), ← i5 j hj]
        congr 1; omega
      · intro x hx
        rcases List.mem_cons.mp hx with rfl | hx
        · omega
        · exact i6 x hx
      · intro x hx
        rcases List.mem_cons.mp hx with rfl | hx
        · omega
        · exact i7 x hx

theorem fragOf {id : Nat} {P : Bytes} {frs : List Fragment} (h : Fragments id P frs) {f : Fragment} (hf : f ∈ frs)
    {R : Nat → Prop} (hr : ∀ i, f.off ≤ i → i < f.off + f.data.length → R i) :
    FragOf (CutOf frs) R P.length f.off f.data.length (!f.more) := by
  obtain ⟨h1, h2, h3, h4, h5, h6, h7⟩ := contiguous_facts h.2.1 f hf
  rw [h.2.2.2] at h4
  refine ⟨h1, h6, h7, ?_, hr⟩
  rw [Nat.zero_add] at h4
  rw [← h4]; cases f.more <;> simp

theorem frag_bytes {id : Nat} {P : Bytes} {frs : List Fragment} (h : Fragments id P frs) {f : Fragment} (hf : f ∈ frs)
    {i : Nat} (h1 : f.off ≤ i) (h2 : i < f.off + f.data.length) : f.data[i - f.off]? = P[i]? := by
  obtain ⟨_, _, _, _, h5, _⟩ := contiguous_facts h.2.1 f hf
  rw [h.2.2.2] at h5
  rw [← h5 (i - f.off) (by omega)]
  congr 1; omega

/-- An entry that only ever held fragments of one packet. -/
theorem Built.packet {id : Nat} {P : Bytes} {frs : List Fragment} (hp : Fragments id P frs) {en : FragEntry}
    {life : List Fragment} (h : Built en life) (hall : ∀ f ∈ life, f ∈ frs) :
    Apart en.nodes ∧ ∀ n ∈ en.nodes, NodeOf (CutOf frs) (fun i => en.data[i]? = P[i]?) P.length n := by
  induction h with
  | empty en hd hn => rw [hn]; exact ⟨trivial, fun n hn => by cases hn⟩
  | @put en en' life al rc asm g h hu ih =>
    have hg : g ∈ frs := hall g (by simp)
    obtain ⟨ih1, ih2⟩ := ih (fun f hf => hall f (by simp [hf]))
    have hnew : ∀ data, wr en.data g.off g.data = some data →
        (∀ i : Nat, en.data[i]? = P[i]? → data[i]? = P[i]?) ∧
        ∀ i : Nat, g.off ≤ i → i < g.off + g.data.length → data[i]? = P[i]? := by
      intro data hw
      constructor
      · intro i hi
        rw [wr_get hw]
        split
        · rename_i hr; exact frag_bytes hp hg hr.1 hr.2
        · exact hi
      · intro i h1 h2
        rw [wr_get hw, if_pos ⟨h1, h2⟩]
        exact frag_bytes hp hg h1 h2
    rcases update_cases hu with ⟨_, rfl, _⟩ | ⟨_, _, _, data, hw, _, _, rfl⟩ | ⟨_, _, ns, hwk, _, _, rfl⟩ | ⟨_, _, hd, tl, data, hwk, hw, _, _, rfl⟩
    · exact ⟨ih1, ih2⟩
    · refine ⟨trivial, fun n hn => ?_⟩
      simp only [List.mem_singleton] at hn
      subst hn
      exact (fragOf hp hg (R := fun i => data[i]? = P[i]?) (hnew data hw).2).node
    · have hov := (walk_of (al := al) (fragOf hp hg (R := fun _ => True) (fun _ _ _ => trivial)) [] [] en.nodes
        (by intro n hn; cases hn) (fun n hn => ⟨(ih2 n hn).lt, (ih2 n hn).cb, (ih2 n hn).ce, (ih2 n hn).last, fun _ _ _ => trivial⟩)
        trivial ih1 (by intro d r h; cases h) (by intro d h; cases h) (by intro n hn; cases hn)).2 ns hwk
      obtain ⟨_, n, hn, hb, he⟩ := hov
      have hc := ih2 n hn
      have c1 := hc.cb g hg
      have c2 := hc.ce g hg
      exact ((walk_of (al := al) (fragOf hp hg (R := fun i => en.data[i]? = P[i]?)
        (fun i h1 h2 => hc.right i (by omega) (by omega))) [] [] en.nodes
        (by intro n hn; cases hn) ih2
        trivial ih1 (by intro d r h; cases h) (by intro d h; cases h) (by intro n hn; cases hn)).2 ns hwk).1
    · exact (walk_of (al := al) (fragOf hp hg (R := fun i => data[i]? = P[i]?) (hnew data hw).2) [] [] en.nodes
        (by intro n hn; cases hn)
        (fun n hn => ⟨(ih2 n hn).lt, (ih2 n hn).cb, (ih2 n hn).ce, (ih2 n hn).last,
          fun i h1 h2 => (hnew data hw).1 i ((ih2 n hn).right i h1 h2)⟩)
        trivial ih1 (by intro d r h; cases h) (by intro d h; cases h) (by intro n hn; cases hn)).1 (hd :: tl) hwk

/-- If it is taken for complete, it is the packet. -/
theorem Built.whole {id : Nat} {P : Bytes} {frs : List Fragment} (hp : Fragments id P frs) {en : FragEntry}
    {life : List Fragment} (h : Built en life) (hall : ∀ f ∈ life, f ∈ frs) {hd : FragNode} {tl : List FragNode}
    (hn : en.nodes = hd :: tl) (hl : hd.last = true) (hb : hd.b = 0) : en.data.take hd.e = P := by
  obtain ⟨_, h2⟩ := h.packet hp hall
  have h3 := h2 hd (by simp [hn])
  have he := h3.last.1 hl
  apply List.ext_getElem?
  intro i
  by_cases hi : i < hd.e
  · rw [List.getElem?_take_of_lt hi]
    exact h3.right i (by omega) hi
  · rw [List.getElem?_eq_none (by simp; omega), List.getElem?_eq_none (by omega)]

end Lightway
