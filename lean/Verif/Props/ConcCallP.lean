import Verif.Model.ConcCall

/-!
# The write callbacks and a disconnect made by another thread: C117
Each thread makes one call of one of the functions; a host that makes several is several threads.
-/

namespace Lightway
open ConcCall

namespace Spec

/-- The host registered both write callbacks, and no function has begun. -/
def Unbegun (w : World) : Prop :=
  (∀ s, w.set s = true) ∧ w.log = [] ∧
  ∀ t, w.pcs t = deliver ∨ w.pcs t = writeDatagram ∨ w.pcs t = writeRecord ∨ w.pcs t = hangUp ∨ w.pcs t = .done

/-- No thread is about to disconnect. -/
def NobodyHangsUp (w : World) : Prop := ∀ t, w.pcs t ≠ hangUp

/-- Whole calls: every thread finishes before another begins (it makes four accesses at most). -/
def oneByOne (ts : List Nat) (more : Nat → Bool) : List (Nat × Bool) :=
  ts.flatMap fun t => List.replicate 4 (t, more t)

end Spec
open Spec

namespace ConcCall

theorem run_append (w : World) (xs ys : List (Nat × Bool)) : w.run (xs ++ ys) = (w.run xs).run ys := List.foldl_append ..

theorem snoc {α : Type} {P : List α → Prop} (h0 : P []) (hs : ∀ xs x, P xs → P (xs ++ [x])) (xs : List α) : P xs := by
  have h : ∀ ys : List α, P ys.reverse := by
    intro ys
    induction ys with
    | nil => exact h0
    | cons x ys ih => rw [List.reverse_cons]; exact hs _ _ ih
  have := h xs.reverse
  rwa [List.reverse_reverse] at this

/-- What holds in every reachable world. -/
structure Inv (w : World) : Prop where
  /-- a pointer is NULL exactly if it was cleared -/
  set : ∀ s, w.set s = false ↔ ∃ u, (u, Act.cleared s) ∈ w.log
  /-- a thread about to call found the pointer set -/
  found : ∀ t s k, w.pcs t = .call s k → (t, Act.looked s true) ∈ w.log
  /-- what a test found is what the pointer was -/
  look : ∀ newer older t s b, w.log = newer ++ (t, Act.looked s b) :: older →
    (b = false ↔ ∃ u, (u, Act.cleared s) ∈ older)
  /-- what a call found is what the pointer was, and the thread had tested it -/
  call : ∀ newer older t s b, w.log = newer ++ (t, Act.called s b) :: older →
    (b = false ↔ ∃ u, (u, Act.cleared s) ∈ older) ∧ (t, Act.looked s true) ∈ older

theorem Inv.unbegun {w : World} (h : Unbegun w) : Inv w where
  set s := by rw [h.1 s, h.2.1]; simp
  found t s k e := by
    rcases h.2.2 t with h | h | h | h | h <;> rw [h] at e <;> cases e
  look newer older t s b e := by rw [h.2.1] at e; simp at e
  call newer older t s b e := by rw [h.2.1] at e; simp at e

theorem cons_split {α : Type} {x y : α} {l newer older : List α} (h : x :: l = newer ++ y :: older) :
    (newer = [] ∧ x = y ∧ l = older) ∨ ∃ n, newer = x :: n ∧ l = n ++ y :: older := by
  cases newer with
  | nil => exact .inl ⟨rfl, by cases h; rfl, by cases h; rfl⟩
  | cons z n => cases h; exact .inr ⟨n, rfl, rfl⟩

theorem Inv.step {w : World} (h : Inv w) (x : Nat × Bool) : Inv (w.step x) := by
  obtain ⟨t, more⟩ := x
  unfold World.step
  cases hp : w.pcs t with
  | done =>
    refine ⟨h.set, fun u s k e => ?_, h.look, h.call⟩
    dsimp only [stepPc] at e
    by_cases hu : u = t
    · rw [if_pos hu] at e; cases e
    · rw [if_neg hu] at e; exact h.found u s k e
  | look s k =>
    dsimp only [stepPc, List.map, List.cons_append, List.nil_append]
    refine ⟨fun s' => ?_, fun u s' k' e => ?_, fun newer older u s' b e => ?_, fun newer older u s' b e => ?_⟩
    · rw [h.set s']; simp
    · dsimp only at e
      by_cases hu : u = t
      · rw [if_pos hu] at e
        cases hs : w.set s with
        | false => rw [hs] at e; cases e
        | true => rw [hs] at e; cases e; subst hu; simp
      · rw [if_neg hu] at e; exact List.mem_cons_of_mem _ (h.found u s' k' e)
    · rcases cons_split e with ⟨_, he, hl⟩ | ⟨n, _, hl⟩
      · cases he; rw [← hl]; exact h.set s
      · exact h.look n older u s' b hl
    · rcases cons_split e with ⟨_, he, hl⟩ | ⟨n, _, hl⟩
      · cases he
      · exact h.call n older u s' b hl
  | call s k =>
    dsimp only [stepPc, List.map, List.cons_append, List.nil_append]
    have hf := h.found t s k hp
    refine ⟨fun s' => ?_, fun u s' k' e => ?_, fun newer older u s' b e => ?_, fun newer older u s' b e => ?_⟩
    · rw [h.set s']; simp
    · dsimp only at e
      by_cases hu : u = t
      · rw [if_pos hu] at e
        have hs : s' = s := by
          cases k <;> dsimp only [afterCall] at e <;> first | (cases e; done) | (cases more <;> cases e; rfl)
        subst hs; subst hu
        exact List.mem_cons_of_mem _ hf
      · rw [if_neg hu] at e; exact List.mem_cons_of_mem _ (h.found u s' k' e)
    · rcases cons_split e with ⟨_, he, hl⟩ | ⟨n, _, hl⟩
      · cases he
      · exact h.look n older u s' b hl
    · rcases cons_split e with ⟨_, he, hl⟩ | ⟨n, _, hl⟩
      · cases he; rw [← hl]; exact ⟨h.set s, hf⟩
      · exact h.call n older u s' b hl
  | clear todo =>
    cases todo with
    | nil =>
      refine ⟨h.set, fun u s k e => ?_, h.look, h.call⟩
      dsimp only [stepPc] at e
      by_cases hu : u = t
      · rw [if_pos hu] at e; cases e
      · rw [if_neg hu] at e; exact h.found u s k e
    | cons s r =>
      dsimp only [stepPc, List.map, List.cons_append, List.nil_append]
      refine ⟨fun s' => ?_, fun u s' k' e => ?_, fun newer older u s' b e => ?_, fun newer older u s' b e => ?_⟩
      · by_cases hs : s' = s
        · subst hs; simp
        · dsimp only; rw [if_neg hs, h.set s']; simp [hs]
      · dsimp only at e
        by_cases hu : u = t
        · rw [if_pos hu] at e; cases e
        · rw [if_neg hu] at e; exact List.mem_cons_of_mem _ (h.found u s' k' e)
      · rcases cons_split e with ⟨_, he, hl⟩ | ⟨n, _, hl⟩
        · cases he
        · exact h.look n older u s' b hl
      · rcases cons_split e with ⟨_, he, hl⟩ | ⟨n, _, hl⟩
        · cases he
        · exact h.call n older u s' b hl

theorem inv_run {w : World} (h : Unbegun w) (xs : List (Nat × Bool)) : Inv (w.run xs) := by
  induction xs using snoc with
  | h0 => exact Inv.unbegun h
  | hs xs x ih => rw [run_append]; exact ih.step x

/-- Only a thread that disconnects clears a pointer. -/
theorem cleared_by {w : World} (h : Unbegun w) (xs : List (Nat × Bool)) :
    (∀ u s, (u, Act.cleared s) ∈ (w.run xs).log → w.pcs u = hangUp) ∧
    (∀ u r, (w.run xs).pcs u = .clear r → w.pcs u = hangUp) := by
  induction xs using snoc with
  | h0 =>
    refine ⟨fun u s hm => ?_, fun u r e => ?_⟩
    · have hm : (u, Act.cleared s) ∈ w.log := hm
      rw [h.2.1] at hm; cases hm
    · have e : w.pcs u = .clear r := e
      rcases h.2.2 u with h | h | h | h | h <;> first | exact h | (rw [h] at e; cases e)
  | hs xs x ih =>
    obtain ⟨ih1, ih2⟩ := ih
    obtain ⟨t, more⟩ := x
    rw [run_append]
    generalize w.run xs = v at ih1 ih2
    show (∀ u s, (u, Act.cleared s) ∈ (v.step (t, more)).log → _) ∧ (∀ u r, (v.step (t, more)).pcs u = .clear r → _)
    unfold World.step
    cases hp : v.pcs t with
    | done =>
      refine ⟨ih1, fun u r e => ?_⟩
      dsimp only [stepPc] at e
      by_cases hu : u = t
      · rw [if_pos hu] at e; cases e
      · rw [if_neg hu] at e; exact ih2 u r e
    | look s k =>
      dsimp only [stepPc, List.map, List.cons_append, List.nil_append]
      refine ⟨fun u s' hm => ?_, fun u r e => ?_⟩
      · rcases List.mem_cons.mp hm with hm | hm
        · cases hm
        · exact ih1 u s' hm
      · by_cases hu : u = t
        · rw [if_pos hu] at e; split at e <;> cases e
        · rw [if_neg hu] at e; exact ih2 u r e
    | call s k =>
      dsimp only [stepPc, List.map, List.cons_append, List.nil_append]
      refine ⟨fun u s' hm => ?_, fun u r e => ?_⟩
      · rcases List.mem_cons.mp hm with hm | hm
        · cases hm
        · exact ih1 u s' hm
      · by_cases hu : u = t
        · rw [if_pos hu] at e
          cases k <;> dsimp only [afterCall] at e <;> first | (cases e; done) | (cases more <;> cases e)
        · rw [if_neg hu] at e; exact ih2 u r e
    | clear todo =>
      have ht := ih2 t todo hp
      cases todo with
      | nil =>
        refine ⟨ih1, fun u r e => ?_⟩
        dsimp only [stepPc] at e
        by_cases hu : u = t
        · rw [if_pos hu] at e; cases e
        · rw [if_neg hu] at e; exact ih2 u r e
      | cons s r =>
        dsimp only [stepPc, List.map, List.cons_append, List.nil_append]
        refine ⟨fun u s' hm => ?_, fun u r e => ?_⟩
        · rcases List.mem_cons.mp hm with hm | hm
          · cases hm; exact ht
          · exact ih1 u s' hm
        · by_cases hu : u = t
          · subst hu; exact ht
          · rw [if_neg hu] at e; exact ih2 u r e

/-- No thread is about to call, and none has called NULL. -/
def Rested (w : World) : Prop := (∀ t s k, w.pcs t ≠ .call s k) ∧ ∀ t s, (t, Act.called s false) ∉ w.log

theorem Rested.of {w v : World} (h : Rested w) {t : Nat} {es : List Act} {p : Pc} (hp : ∀ s k, p ≠ .call s k)
    (hes : ∀ s, Act.called s false ∉ es) (e1 : v.pcs = fun u => if u = t then p else w.pcs u)
    (e2 : v.log = es.map (fun e => (t, e)) ++ w.log) : Rested v := by
  refine ⟨fun u s k e => ?_, fun u s hm => ?_⟩
  · rw [e1] at e
    dsimp only at e
    by_cases hu : u = t
    · rw [if_pos hu] at e; exact hp s k e
    · rw [if_neg hu] at e; exact h.1 u s k e
  · rw [e2] at hm
    rcases List.mem_append.mp hm with hm | hm
    · obtain ⟨e, he, h'⟩ := List.mem_map.mp hm
      cases h'; exact hes s he
    · exact h.2 u s hm

theorem Rested.block {w : World} (h : Rested w) (t : Nat) (m : Bool) : Rested (w.run (List.replicate 4 (t, m))) := by
  have hc : ∀ {p : Pc} {f : Nat → Pc}, (fun u => if u = t then p else f u) t = p := by intro p f; simp
  have hh : ∀ {p q : Pc} {f : Nat → Pc}, (fun u => if u = t then p else if u = t then q else f u) = fun u => if u = t then p else f u := by
    intro p q f; funext u; by_cases hu : u = t <;> simp [hu]
  cases hp : w.pcs t with
  | call s k => exact absurd hp (h.1 t s k)
  | done =>
    refine h.of (t := t) (es := []) (p := .done) (by simp) (by simp) ?_ ?_
    · simp [List.replicate, World.run, World.step, hp, stepPc, hh]
    · simp [List.replicate, World.run, World.step, hp, stepPc, hh]
  | look s k =>
    cases hs : w.set s with
    | false =>
      refine h.of (t := t) (es := [.looked s false]) (p := .done) (by simp) (by simp) ?_ ?_
      · simp [List.replicate, World.run, World.step, hp, stepPc, hs, hh]
      · simp [List.replicate, World.run, World.step, hp, stepPc, hs, hh]
    | true =>
      have hx : ∃ n, w.run (List.replicate 4 (t, m)) = ConcCall.World.mk w.set (fun u => if u = t then .done else w.pcs u)
          (List.replicate n (t, Act.called s true) ++ (t, Act.looked s true) :: w.log) := by
        cases k <;> cases m
        · exact ⟨1, by simp [List.replicate, World.run, World.step, hp, stepPc, hs, afterCall, hh]⟩
        · exact ⟨1, by simp [List.replicate, World.run, World.step, hp, stepPc, hs, afterCall, hh]⟩
        · exact ⟨1, by simp [List.replicate, World.run, World.step, hp, stepPc, hs, afterCall, hh]⟩
        · exact ⟨3, by simp [List.replicate, World.run, World.step, hp, stepPc, hs, afterCall, hh]⟩
        · exact ⟨1, by simp [List.replicate, World.run, World.step, hp, stepPc, hs, afterCall, hh]⟩
        · exact ⟨2, by simp [List.replicate, World.run, World.step, hp, stepPc, hs, afterCall, hh]⟩
        · exact ⟨1, by simp [List.replicate, World.run, World.step, hp, stepPc, hs, afterCall, hh]⟩
        · exact ⟨1, by simp [List.replicate, World.run, World.step, hp, stepPc, hs, afterCall, hh]⟩
      obtain ⟨n, hx⟩ := hx
      rw [hx]
      refine h.of (t := t) (es := List.replicate n (.called s true) ++ [.looked s true]) (p := .done) (by simp) ?_ rfl (by simp)
      intro s' hm
      rcases List.mem_append.mp hm with hm | hm
      · have := List.eq_of_mem_replicate hm; cases this
      · simp at hm
  | clear r =>
    have hx : ∃ (p : Pc) (es : List Act), (∀ s k, p ≠ Pc.call s k) ∧ (∀ s, Act.called s false ∉ es) ∧
        (w.run (List.replicate 4 (t, m))).pcs = (fun u => if u = t then p else w.pcs u) ∧
        (w.run (List.replicate 4 (t, m))).log = es.map (fun e => (t, e)) ++ w.log := by
      rcases r with _ | ⟨a, _ | ⟨b, _ | ⟨c, _ | ⟨d, r⟩⟩⟩⟩
      · exact ⟨.done, [], by simp, by simp, by simp [List.replicate, World.run, World.step, hp, stepPc, hh], by simp [List.replicate, World.run, World.step, hp, stepPc, hh]⟩
      · exact ⟨.done, [.cleared a], by simp, by simp, by simp [List.replicate, World.run, World.step, hp, stepPc, hh], by simp [List.replicate, World.run, World.step, hp, stepPc, hh]⟩
      · exact ⟨.done, [.cleared b, .cleared a], by simp, by simp, by simp [List.replicate, World.run, World.step, hp, stepPc, hh], by simp [List.replicate, World.run, World.step, hp, stepPc, hh]⟩
      · exact ⟨.done, [.cleared c, .cleared b, .cleared a], by simp, by simp, by simp [List.replicate, World.run, World.step, hp, stepPc, hh], by simp [List.replicate, World.run, World.step, hp, stepPc, hh]⟩
      · exact ⟨.clear r, [.cleared d, .cleared c, .cleared b, .cleared a], by simp, by simp, by simp [List.replicate, World.run, World.step, hp, stepPc, hh], by simp [List.replicate, World.run, World.step, hp, stepPc, hh]⟩
    obtain ⟨p, es, h1, h2, h3, h4⟩ := hx
    exact h.of h1 h2 h3 h4

end ConcCall

/-- A thread calls only a callback that it found registered before. -/
theorem C117_looks_first {w : World} (h : Unbegun w) (xs : List (Nat × Bool)) {newer older : List (Nat × Act)} {t : Nat} {s : Slot}
    {b : Bool} (hl : (w.run xs).log = newer ++ (t, .called s b) :: older) : (t, Act.looked s true) ∈ older :=
  ((inv_run h xs).call newer older t s b hl).2

/-- If a thread calls NULL, then a thread that disconnects cleared the pointer after that thread had found it set. -/
theorem C117_null_only_between {w : World} (h : Unbegun w) (xs : List (Nat × Bool)) {newer older : List (Nat × Act)} {t : Nat} {s : Slot}
    (hl : (w.run xs).log = newer ++ (t, .called s false) :: older) :
    ∃ a b c u, older = a ++ (u, .cleared s) :: b ++ (t, .looked s true) :: c ∧ w.pcs u = hangUp ∧
      ∀ v, (v, Act.cleared s) ∉ c := by
  have hi := inv_run h xs
  obtain ⟨hc, hf⟩ := hi.call newer older t s false hl
  obtain ⟨u, hu⟩ := hc.mp rfl
  obtain ⟨a, c, rfl⟩ := List.append_of_mem hf
  have hn : ∀ v, (v, Act.cleared s) ∉ c := by
    intro v hv
    have := (hi.look (newer ++ (t, .called s false) :: a) c t s true (by rw [hl]; simp)).mpr ⟨v, hv⟩
    cases this
  have ha : (u, Act.cleared s) ∈ a := by
    rcases List.mem_append.mp hu with hu | hu
    · exact hu
    · rcases List.mem_cons.mp hu with hu | hu
      · cases hu
      · exact absurd hu (hn u)
  have hw : w.pcs u = hangUp := (cleared_by h xs).1 u s (by rw [hl]; simp [ha])
  obtain ⟨a1, b, rfl⟩ := List.append_of_mem ha
  exact ⟨a1, b, c, u, by simp, hw, hn⟩

/-- Without a disconnect nobody calls NULL, whatever the schedule. -/
theorem C117_safe_without_disconnect {w : World} (h : Unbegun w) (hq : NobodyHangsUp w) (xs : List (Nat × Bool)) {t : Nat} {s : Slot} :
    (t, Act.called s false) ∉ (w.run xs).log := by
  intro hm
  obtain ⟨newer, older, hl⟩ := List.append_of_mem hm
  obtain ⟨_, _, _, u, _, hu, _⟩ := C117_null_only_between h xs hl
  exact hq u hu

/-- A function that tests a pointer after it was cleared does not call it: once disconnected, functions that begin later are
silent. -/
theorem C117_silent_later {w : World} (h : Unbegun w) (xs : List (Nat × Bool)) {newer older : List (Nat × Act)} {t u : Nat} {s : Slot}
    {b b' : Bool} (hl : (w.run xs).log = newer ++ (t, .looked s b) :: older) (hc : (u, Act.cleared s) ∈ older)
    (ht : (t, Act.looked s true) ∉ older) (hn : ∀ b, (t, Act.looked s b) ∉ newer) : (t, Act.called s b') ∉ (w.run xs).log := by
  intro hm
  obtain ⟨n, o, ho⟩ := List.append_of_mem hm
  have hf := C117_looks_first h xs ho
  have hb : b = false := ((inv_run h xs).look newer older t s b hl).mpr ⟨u, hc⟩
  have hin : (t, Act.looked s true) ∈ (w.run xs).log := by rw [ho]; simp [hf]
  rw [hl] at hin
  rcases List.mem_append.mp hin with hin | hin
  · exact hn _ hin
  · rcases List.mem_cons.mp hin with hin | hin
    · cases hin; cases hb
    · exact ht hin

namespace ConcCall

/-- How far a disconnect has got. -/
def HungUp (u : Nat) (w : World) : Prop :=
  w.pcs u = .clear [.inside, .outside] ∨ (w.pcs u = .clear [.outside] ∧ w.set .inside = false) ∨
  (w.pcs u = .clear [] ∧ ∀ s, w.set s = false) ∨ (w.pcs u = .done ∧ ∀ s, w.set s = false)

theorem set_stays {w : World} (x : Nat × Bool) {s : Slot} (h : w.set s = false) : (w.step x).set s = false := by
  show (stepPc w.set x.2 (w.pcs x.1)).1 s = false
  unfold stepPc
  split
  · exact h
  · exact h
  · exact h
  · dsimp only; split
    · rfl
    · exact h
  · exact h

theorem HungUp.step {u : Nat} {w : World} (h : HungUp u w) (x : Nat × Bool) : HungUp u (w.step x) := by
  by_cases hx : u = x.1
  · have hp : (w.step x).pcs u = (stepPc w.set x.2 (w.pcs u)).2.1 := by rw [hx]; exact if_pos rfl
    have hs : (w.step x).set = (stepPc w.set x.2 (w.pcs u)).1 := by rw [hx]; rfl
    rcases h with h | ⟨h, h'⟩ | ⟨h, h'⟩ | ⟨h, h'⟩
    · rw [h] at hp hs
      exact Or.inr (Or.inl ⟨hp, by rw [hs]; rfl⟩)
    · rw [h] at hp hs
      refine Or.inr (Or.inr (Or.inl ⟨hp, fun s => ?_⟩))
      rw [hs]
      cases s with
      | inside => exact h'
      | outside => rfl
    · rw [h] at hp
      exact Or.inr (Or.inr (Or.inr ⟨hp, fun s => set_stays x (h' s)⟩))
    · rw [h] at hp
      exact Or.inr (Or.inr (Or.inr ⟨hp, fun s => set_stays x (h' s)⟩))
  · have hp : (w.step x).pcs u = w.pcs u := if_neg hx
    unfold HungUp
    rw [hp]
    rcases h with h | ⟨h, h'⟩ | ⟨h, h'⟩ | ⟨h, h'⟩
    · exact Or.inl h
    · exact Or.inr (Or.inl ⟨h, set_stays x h'⟩)
    · exact Or.inr (Or.inr (Or.inl ⟨h, fun s => set_stays x (h' s)⟩))
    · exact Or.inr (Or.inr (Or.inr ⟨h, fun s => set_stays x (h' s)⟩))

/-- Both pointers are NULL and thread `t` is not about to call and has not called. -/
def Mute (t : Nat) (w : World) : Prop :=
  (∀ s, w.set s = false) ∧ (∀ s k, w.pcs t ≠ .call s k) ∧ ∀ s b, (t, Act.called s b) ∉ w.log

theorem Mute.step {t : Nat} {w : World} (h : Mute t w) (x : Nat × Bool) : Mute t (w.step x) := by
  obtain ⟨h1, h2, h3⟩ := h
  refine ⟨fun s => set_stays x (h1 s), fun s k => ?_, fun s b hm => ?_⟩
  · by_cases hx : t = x.1
    · have hp : (w.step x).pcs t = (stepPc w.set x.2 (w.pcs t)).2.1 := by rw [hx]; exact if_pos rfl
      rw [hp]
      cases hq : w.pcs t with
      | look s' k' =>
        show (if w.set s' = true then _ else _) ≠ _
        rw [h1 s']; exact fun e => nomatch e
      | call s' k' => exact absurd hq (h2 s' k')
      | clear l => cases l <;> exact fun e => nomatch e
      | done => exact fun e => nomatch e
    · rw [show (w.step x).pcs t = w.pcs t from if_neg hx]; exact h2 s k
  · have hl : (w.step x).log = (stepPc w.set x.2 (w.pcs x.1)).2.2.map (fun e => (x.1, e)) ++ w.log := rfl
    rw [hl] at hm
    rcases List.mem_append.mp hm with hm | hm
    · obtain ⟨e, he, hh⟩ := List.mem_map.mp hm
      cases hh
      cases hq : w.pcs x.1 with
      | look s' k' => rw [hq] at he; cases List.mem_singleton.mp he
      | call s' k' => exact h2 s' k' hq
      | clear l =>
        rw [hq] at he
        cases l with
        | nil => cases he
        | cons a r => cases List.mem_singleton.mp he
      | done => rw [hq] at he; cases he
    · exact h3 s b hm

theorem untouched (w : World) (t : Nat) (xs : List (Nat × Bool)) (ht : ∀ x ∈ xs, x.1 ≠ t) :
    (w.run xs).pcs t = w.pcs t ∧ ∀ a, (t, a) ∈ (w.run xs).log → (t, a) ∈ w.log := by
  induction xs generalizing w with
  | nil => exact ⟨rfl, fun _ h => h⟩
  | cons x xs ih =>
    obtain ⟨h1, h2⟩ := ih (w.step x) (fun y hy => ht y (List.mem_cons_of_mem _ hy))
    have hx : t ≠ x.1 := (ht x List.mem_cons_self).symm
    refine ⟨h1.trans (if_neg hx), fun a ha => ?_⟩
    have hm : (t, a) ∈ (stepPc w.set x.2 (w.pcs x.1)).2.2.map (fun e => (x.1, e)) ++ w.log := h2 a ha
    rcases List.mem_append.mp hm with hm | hm
    · obtain ⟨_, _, hh⟩ := List.mem_map.mp hm
      cases hh; exact absurd rfl hx
    · exact hm

end ConcCall

/-- Once a disconnect has returned, no function that begins afterwards calls the host's write callbacks, nor NULL in their
place. -/
theorem C117_silent_after_disconnect {w : World} (h : Unbegun w) {u : Nat} (hu : w.pcs u = hangUp) (xs ys : List (Nat × Bool))
    (hd : (w.run xs).pcs u = .done) {t : Nat} (ht : ∀ x ∈ xs, x.1 ≠ t) (s : Slot) (b : Bool) :
    (t, Act.called s b) ∉ (w.run (xs ++ ys)).log := by
  have hk : ∀ (xs : List (Nat × Bool)) (v : World), HungUp u v → HungUp u (v.run xs) := by
    intro xs
    induction xs with
    | nil => exact fun _ h => h
    | cons x xs ih => exact fun v hv => ih _ (hv.step x)
  have hm : ∀ (ys : List (Nat × Bool)) (v : World), Mute t v → Mute t (v.run ys) := by
    intro ys
    induction ys with
    | nil => exact fun _ h => h
    | cons x ys ih => exact fun v hv => ih _ (hv.step x)
  have hset : ∀ s, (w.run xs).set s = false := by
    rcases hk xs w (Or.inl hu) with k | ⟨k, _⟩ | ⟨k, _⟩ | ⟨_, k⟩
    · rw [hd] at k; cases k
    · rw [hd] at k; cases k
    · rw [hd] at k; cases k
    · exact k
  obtain ⟨h1, h2⟩ := untouched w t xs ht
  rw [run_append]
  refine (hm ys _ ⟨hset, fun s k => ?_, fun s b hc => ?_⟩).2.2 s b
  · rw [h1]
    rcases h.2.2 t with e | e | e | e | e <;> rw [e] <;> exact fun e => nomatch e
  · have := h2 _ hc
    rw [h.2.1] at this; cases this

namespace Demo

/-- Thread 0 receives a packet, thread 1 sends a datagram, thread 2 disconnects. -/
def threeCalls : ConcCall.World :=
  { set := fun _ => true, pcs := fun t => if t = 0 then deliver else if t = 1 then writeDatagram else if t = 2 then hangUp else .done }

theorem threeCalls_unbegun : Unbegun threeCalls := by
  refine ⟨fun _ => rfl, rfl, fun t => ?_⟩
  show (if t = 0 then deliver else if t = 1 then writeDatagram else if t = 2 then hangUp else .done) = _ ∨ _
  by_cases h0 : t = 0
  · exact .inl (by rw [if_pos h0])
  by_cases h1 : t = 1
  · exact .inr (.inl (by show (if t = 0 then deliver else if t = 1 then writeDatagram else if t = 2 then hangUp else .done) = _; rw [if_neg h0, if_pos h1]))
  by_cases h2 : t = 2
  · exact .inr (.inr (.inr (.inl (by show (if t = 0 then deliver else if t = 1 then writeDatagram else if t = 2 then hangUp else .done) = _; rw [if_neg h0, if_neg h1, if_pos h2]))))
  · exact .inr (.inr (.inr (.inr (by show (if t = 0 then deliver else if t = 1 then writeDatagram else if t = 2 then hangUp else .done) = _; rw [if_neg h0, if_neg h1, if_neg h2]))))

end Demo

/-- It does happen: a packet is about to be delivered, or the second copy of a datagram about to be sent, when another thread
disconnects. -/
theorem C117_null_called :
    (∃ xs, (0, Act.called .inside false) ∈ (Demo.threeCalls.run xs).log) ∧
    (∃ xs, (1, Act.called .outside false) ∈ (Demo.threeCalls.run xs).log ∧ (1, Act.called .outside true) ∈ (Demo.threeCalls.run xs).log) :=
  ⟨⟨[(0, true), (2, true), (0, true)], by decide⟩, ⟨[(1, true), (1, true), (2, true), (2, true), (1, true)], by decide⟩⟩

/-- One call after the other it does not happen: any threads, in any order, the disconnects at any place. -/
theorem C117_one_by_one {w : World} (h : Unbegun w) (ts : List Nat) (more : Nat → Bool) {t : Nat} {s : Slot} :
    (t, Act.called s false) ∉ (w.run (oneByOne ts more)).log := by
  have k : Rested (w.run (oneByOne ts more)) := by
    induction ts using ConcCall.snoc with
    | h0 =>
      refine ⟨fun t s k e => ?_, fun t s hm => ?_⟩
      · have e : w.pcs t = .call s k := e
        rcases h.2.2 t with h | h | h | h | h <;> rw [h] at e <;> cases e
      · have hm : (t, Act.called s false) ∈ w.log := hm
        rw [h.2.1] at hm; cases hm
    | hs ts x ih =>
      have e : oneByOne (ts ++ [x]) more = oneByOne ts more ++ List.replicate 4 (x, more x) := by simp [oneByOne]
      rw [e, run_append]
      exact ih.block x (more x)
  exact k.2 t s

example : (0, Act.called .inside true) ∈ (Demo.threeCalls.run (oneByOne [1, 0, 2] fun _ => true)).log := by decide

/-- A disconnect that has returned before the two others begin. -/
example : (Demo.threeCalls.run [(2, true), (2, true), (2, true)]).pcs 2 = .done ∧ Demo.threeCalls.pcs 2 = hangUp ∧
    ∀ x ∈ [(2, true), (2, true), (2, true)], x.1 ≠ 0 := by decide

end Lightway
