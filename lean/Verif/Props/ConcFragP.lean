import Verif.Model.ConcFrag
import Verif.Model.Msg

/-!
# C118: fragments handled by several threads
-/

namespace Lightway.ConcFrag

/-- The table as a single thread would see it. -/
def World.table (w : World) : FragTable := { num := w.num, slot := fun i => (w.slot i).bind w.mem }

/-- What handling one fragment, undisturbed, does to the table, and the packet it hands over. -/
def absorb (t : FragTable) (j : Job) : FragTable × Option Bytes :=
  match t.find true j.now j.id with
  | (t, none) => (t, none)
  | (t, some e) =>
    match (aged j.now e).update true j.data j.off j.last with
    | none => (t.set j.id (aged j.now e), none)
    | some (e, rc, assembled) =>
      if rc = .success ∧ assembled = true then
        match e.nodes with
        | [] => (t.set j.id e, none)
        | hd :: _ =>
          match rd e.data 0 hd.e with
          | none => (t.set j.id e, none)
          | some p => ((t.set j.id e).delete j.id, some p)
      else (t.set j.id e, none)

/-- The packets thread `t` handed over, newest first. -/
def World.given (w : World) (t : Nat) : List Bytes :=
  w.log.filterMap fun x => match x with
    | (u, .gave p) => if u = t then some p else none
    | _ => none

/-- The packets handed over, oldest first. -/
def World.packets (w : World) : List Bytes :=
  w.log.reverse.filterMap fun x => match x.2 with
    | .gave p => some p
    | _ => none

/-- Fragments handled one after the other: the table at the end and the packets handed over. -/
def absorbAll (t : FragTable) : List Job → FragTable × List Bytes
  | [] => (t, [])
  | j :: js => ((absorbAll (absorb t j).1 js).1, (absorb t j).2.toList ++ (absorbAll (absorb t j).1 js).2)

/-- Memory was used after it had been freed. -/
def World.misused (w : World) : Prop := ∃ t a, (t, Act.misuse a) ∈ w.log

/-- The slot an entry belongs to. -/
def World.owner (w : World) : Addr → Nat
  | .old i => i
  | .new t => w.idx t

/-- A beginning: no thread has done anything, and the entries in the table are there, each in its own slot. -/
structure Begin (w : World) : Prop where
  pcs : ∀ t, w.pcs t = .find
  slot : ∀ i, w.slot i = none ∨ (w.slot i = some (.old i) ∧ w.mem (.old i) ≠ none)
  log : w.log = []

/-- The entry a thread points to. -/
def Pc.at : Pc → Option Addr
  | .store a | .expire a | .update a | .deliver a | .free a => some a
  | .find | .drop | .clear | .done => none

/-- Every pointer to an entry belongs to the slot the entry belongs to. -/
structure Tidy (w : World) : Prop where
  slot : ∀ i a, w.slot i = some a → w.owner a = i
  pcs : ∀ t a, (w.pcs t).at = some a → w.owner a = w.idx t

theorem step_num (w : World) (t : Nat) : (w.step t).num = w.num := by
  unfold World.step; dsimp only
  repeat' split
  all_goals rfl

theorem step_job (w : World) (t : Nat) : (w.step t).job = w.job := by
  unfold World.step; dsimp only
  repeat' split
  all_goals rfl

theorem step_idx (w : World) (t u : Nat) : (w.step t).idx u = w.idx u := by
  unfold World.idx; rw [step_num, step_job]

theorem step_owner (w : World) (t : Nat) (a : Addr) : (w.step t).owner a = w.owner a := by
  cases a with
  | old i => rfl
  | new u => exact step_idx w t u

theorem step_slot (w : World) (t i : Nat) (h : i ≠ w.idx t) : (w.step t).slot i = w.slot i := by
  unfold World.step; dsimp only
  repeat' split
  all_goals first
    | rfl
    | exact if_neg h

theorem step_pcs (w : World) (t u : Nat) (h : u ≠ t) : (w.step t).pcs u = w.pcs u := by
  unfold World.step; dsimp only
  repeat' split
  all_goals first
    | rfl
    | exact if_neg h

/-- A thread only touches entries of its slot. -/
theorem step_mem (w : World) (hw : Tidy w) (t : Nat) (a : Addr) (h : w.owner a ≠ w.idx t) : (w.step t).mem a = w.mem a := by
  have hp := hw.pcs t
  have hn : a ≠ .new t := fun e => h (by rw [e]; rfl)
  unfold World.step; dsimp only
  repeat' split
  all_goals first
    | rfl
    | exact if_neg hn
    | exact if_neg (fun e => h (by rw [e]; exact hp _ (by simp only [*, Pc.at])))

theorem step_tidy (w : World) (hw : Tidy w) (t : Nat) : Tidy (w.step t) := by
  have hp := hw.pcs t
  have hs := hw.slot (w.idx t)
  constructor
  · intro i a h
    rw [step_owner]
    by_cases hi : i = w.idx t
    · subst hi
      revert h
      unfold World.step; dsimp only
      repeat' split
      all_goals first
        | exact fun h => hs a h
        | (intro h
           simp only [World.goto, World.point, if_true] at h
           first
             | (cases h; exact hp _ (by simp only [*, Pc.at]))
             | cases h)
    · rw [step_slot w t i hi] at h; exact hw.slot i a h
  · intro u a h
    rw [step_owner, step_idx]
    by_cases hu : u = t
    · subst hu
      revert h
      unfold World.step; dsimp only
      repeat' split
      all_goals (intro h; simp only [World.goto, World.note, World.put, World.point, if_true, Pc.at, reduceCtorEq] at h)
      all_goals first
        | (cases h; first | exact hs _ (by assumption) | rfl | exact hp _ (by simp only [*, Pc.at]))
        | exact hp _ h
    · rw [step_pcs w t u hu] at h; exact hw.pcs u a h

/-- Threads of slot `i` cannot tell the two worlds apart. -/
structure Same (i : Nat) (w v : World) : Prop where
  num : w.num = v.num
  job : w.job = v.job
  slot : w.slot i = v.slot i
  pcs : ∀ t, w.idx t = i → w.pcs t = v.pcs t
  mem : ∀ a, w.owner a = i → w.mem a = v.mem a
  log : w.log.filter (fun x => w.idx x.1 = i) = v.log.filter (fun x => w.idx x.1 = i)

/-- What a step adds to the log is about the thread that took it. -/
theorem step_log (w : World) (t : Nat) : ∃ l, (w.step t).log = l ++ w.log ∧ ∀ x ∈ l, x.1 = t := by
  unfold World.step; dsimp only
  repeat' split
  all_goals first
    | exact ⟨[], rfl, fun x hx => absurd hx List.not_mem_nil⟩
    | exact ⟨[_], rfl, fun x hx => by rw [List.mem_singleton.mp hx]⟩

/-- A step of a thread of another slot is not noticed. -/
theorem same_other (w v : World) (hw : Tidy w) (i t : Nat) (h : Same i w v) (ht : w.idx t ≠ i) : Same i (w.step t) v where
  num := by rw [step_num]; exact h.num
  job := by rw [step_job]; exact h.job
  slot := by rw [step_slot w t i (Ne.symm ht)]; exact h.slot
  pcs := fun u hu => by
    rw [step_idx] at hu
    rw [step_pcs w t u (fun e => ht (by rw [← e]; exact hu))]; exact h.pcs u hu
  mem := fun a ha => by
    rw [step_owner] at ha
    rw [step_mem w hw t a (fun e => ht (by rw [← e]; exact ha))]; exact h.mem a ha
  log := by
    obtain ⟨l, hl, hx⟩ := step_log w t
    simp only [step_idx]
    rw [hl, List.filter_append, h.log, List.filter_eq_nil_iff.mpr, List.nil_append]
    intro x hx' hd
    rw [hx x hx'] at hd
    exact ht (of_decide_eq_true hd)

theorem Same.goto {i : Nat} {w v : World} (h : Same i w v) (t : Nat) (pc : Pc) : Same i (w.goto t pc) (v.goto t pc) where
  num := h.num
  job := h.job
  slot := h.slot
  pcs := fun u hu => by
    show (if u = t then pc else w.pcs u) = (if u = t then pc else v.pcs u)
    rw [h.pcs u hu]
  mem := fun a ha => h.mem a (by cases a <;> exact ha)
  log := h.log

theorem Same.note {i : Nat} {w v : World} (h : Same i w v) (t : Nat) (a : Act) : Same i (w.note t a) (v.note t a) where
  num := h.num
  job := h.job
  slot := h.slot
  pcs := h.pcs
  mem := fun a ha => h.mem a (by cases a <;> exact ha)
  log := by
    show ((t, a) :: w.log).filter (fun x => w.idx x.1 = i) = ((t, a) :: v.log).filter (fun x => w.idx x.1 = i)
    rw [List.filter_cons, List.filter_cons, h.log]

theorem Same.put {i : Nat} {w v : World} (h : Same i w v) (b : Addr) (e : Option FragEntry) : Same i (w.put b e) (v.put b e) where
  num := h.num
  job := h.job
  slot := h.slot
  pcs := h.pcs
  mem := fun a ha => by
    show (if a = b then e else w.mem a) = (if a = b then e else v.mem a)
    rw [h.mem a (by cases a <;> exact ha)]
  log := h.log

theorem Same.point {i : Nat} {w v : World} (h : Same i w v) (k : Nat) (a : Option Addr) : Same i (w.point k a) (v.point k a) where
  num := h.num
  job := h.job
  slot := by
    show (if i = k then a else w.slot i) = (if i = k then a else v.slot i)
    rw [h.slot]
  pcs := h.pcs
  mem := fun a ha => h.mem a (by cases a <;> exact ha)
  log := h.log

/-- A thread of the slot does the same in both. -/
theorem same_own (w v : World) (hw : Tidy w) (i t : Nat) (h : Same i w v) (ht : w.idx t = i) : Same i (w.step t) (v.step t) := by
  have hi : v.idx t = i := by rw [← ht]; unfold World.idx; rw [h.num, h.job]
  have hpc := h.pcs t ht
  have hp := hw.pcs t
  have hm : ∀ a, (w.pcs t).at = some a → w.mem a = v.mem a := fun a ha => h.mem a ((hp a ha).trans ht)
  unfold World.step; dsimp only
  rw [← hpc, ← h.job, ht, hi, ← h.slot]
  cases hq : w.pcs t with
  | find =>
    dsimp only
    cases w.slot i with
    | none => exact ((h.put _ _).note _ _).goto _ _
    | some a => exact h.goto _ _
  | store a => exact (h.point _ _).goto _ _
  | expire a =>
    dsimp only
    rw [← hm a (by rw [hq]; rfl)]
    cases w.mem a with
    | none => exact (h.note _ _).goto _ _
    | some e => exact (h.put _ _).goto _ _
  | update a =>
    dsimp only
    rw [← hm a (by rw [hq]; rfl)]
    cases w.mem a with
    | none => exact (h.note _ _).goto _ _
    | some e =>
      dsimp only
      cases e.update true (w.job t).data (w.job t).off (w.job t).last with
      | none => exact (h.note _ _).goto _ _
      | some r => exact (h.put _ _).goto _ _
  | deliver a =>
    dsimp only
    rw [← hm a (by rw [hq]; rfl)]
    cases w.mem a with
    | none => exact (h.note _ _).goto _ _
    | some e =>
      dsimp only
      cases e.nodes with
      | nil => exact (h.note _ _).goto _ _
      | cons hd _ =>
        dsimp only
        cases rd e.data 0 hd.e with
        | none => exact (h.note _ _).goto _ _
        | some p => exact (h.note _ _).goto _ _
  | drop =>
    dsimp only
    cases w.slot i with
    | none => exact h.goto _ _
    | some a => exact h.goto _ _
  | free a =>
    dsimp only
    rw [← hm a (by rw [hq]; rfl)]
    cases w.mem a with
    | none => exact (h.note _ _).goto _ _
    | some e => exact ((h.put _ _).note _ _).goto _ _
  | clear => exact (h.point _ _).goto _ _
  | done => exact h

theorem run_cons (w : World) (t : Nat) (xs : List Nat) : w.run (t :: xs) = (w.step t).run xs := rfl

theorem run_append (w : World) (xs ys : List Nat) : w.run (xs ++ ys) = (w.run xs).run ys := List.foldl_append

theorem run_idx (w : World) (xs : List Nat) (u : Nat) : (w.run xs).idx u = w.idx u := by
  induction xs generalizing w with
  | nil => rfl
  | cons t xs ih => rw [run_cons, ih, step_idx]

theorem run_tidy (w : World) (hw : Tidy w) (xs : List Nat) : Tidy (w.run xs) := by
  induction xs generalizing w with
  | nil => exact hw
  | cons t xs ih => exact ih _ (step_tidy w hw t)

theorem same_run (i : Nat) (xs : List Nat) (w v : World) (hw : Tidy w) (h : Same i w v) :
    Same i (w.run xs) (v.run (xs.filter fun t => w.idx t = i)) := by
  induction xs generalizing w v with
  | nil => exact h
  | cons t xs ih =>
    have hf : (fun u => decide (w.idx u = i)) = (fun u => decide ((w.step t).idx u = i)) := by
      funext u; rw [step_idx]
    by_cases ht : w.idx t = i
    · rw [List.filter_cons_of_pos (p := fun t => decide (w.idx t = i)) (by exact decide_eq_true ht), run_cons, run_cons, hf]
      exact ih _ _ (step_tidy w hw t) (same_own w v hw i t h ht)
    · rw [List.filter_cons_of_neg (p := fun t => decide (w.idx t = i)) (by rw [decide_eq_false ht]; exact Bool.false_ne_true), run_cons, hf]
      exact ih _ _ (step_tidy w hw t) (same_other w v hw i t h ht)

theorem Same.refl (i : Nat) (w : World) : Same i w w := ⟨rfl, rfl, rfl, fun _ _ => rfl, fun _ _ => rfl, rfl⟩

theorem Begin.tidy {w : World} (h : Begin w) : Tidy w where
  slot := fun i a ha => by
    rcases h.slot i with e | e
    · rw [e] at ha; cases ha
    · rw [e.1] at ha; cases ha; rfl
  pcs := fun t a ha => by rw [h.pcs t] at ha; cases ha

/-- What becomes of an entry that takes a fragment, and the packet it yields. -/
def settle (e : FragEntry) (j : Job) : Option FragEntry × Option Bytes :=
  match (aged j.now e).update true j.data j.off j.last with
  | none => (some (aged j.now e), none)
  | some (e, rc, assembled) =>
    if rc = .success ∧ assembled = true then
      match e.nodes with
      | [] => (some e, none)
      | hd :: _ =>
        match rd e.data 0 hd.e with
        | none => (some e, none)
        | some p => (none, some p)
    else (some e, none)

theorem absorb_eq (t : FragTable) (j : Job) (e : FragEntry)
    (he : t.slot (j.id % t.num) = some e ∨ t.slot (j.id % t.num) = none ∧ e = FragEntry.fresh j.now) :
    (absorb t j).1.slot = (fun i => if i = j.id % t.num then (settle e j).1 else t.slot i) ∧ (absorb t j).2 = (settle e j).2 ∧
    (absorb t j).1.num = t.num := by
  have hf : ∃ t', t.find true j.now j.id = (t', some e) ∧ t'.num = t.num ∧
      ∀ i, i ≠ j.id % t.num → t'.slot i = t.slot i := by
    unfold FragTable.find
    rcases he with h | ⟨h, h'⟩
    · rw [h]; exact ⟨t, rfl, rfl, fun _ _ => rfl⟩
    · rw [h, h']
      exact ⟨_, if_pos rfl, rfl, fun i hi => if_neg hi⟩
  obtain ⟨t', h1, h2, h3⟩ := hf
  unfold absorb settle
  rw [h1]; dsimp only
  cases (aged j.now e).update true j.data j.off j.last with
  | none =>
    refine ⟨?_, rfl, h2⟩
    funext i
    show (if i = j.id % t'.num then _ else _) = _
    rw [h2]
    by_cases hi : i = j.id % t.num
    · rw [if_pos hi, if_pos hi]
    · rw [if_neg hi, if_neg hi, h3 i hi]
  | some r =>
    obtain ⟨e', rc, as⟩ := r
    have key : ∀ x : FragEntry, (t'.set j.id x).slot = fun i => if i = j.id % t.num then some x else t.slot i := by
      intro x; funext i
      show (if i = j.id % t'.num then _ else _) = _
      rw [h2]
      by_cases hi : i = j.id % t.num
      · rw [if_pos hi, if_pos hi]
      · rw [if_neg hi, if_neg hi, h3 i hi]
    dsimp only
    by_cases hc : rc = .success ∧ as = true
    · rw [if_pos hc, if_pos hc]
      cases e'.nodes with
      | nil => exact ⟨key _, rfl, h2⟩
      | cons hd _ =>
        dsimp only
        cases rd e'.data 0 hd.e with
        | none => exact ⟨key _, rfl, h2⟩
        | some p =>
          refine ⟨?_, rfl, h2⟩
          funext i
          show (if i = j.id % t'.num then none else (t'.set j.id e').slot i) = _
          rw [h2, key]; dsimp only
          by_cases hi : i = j.id % t.num
          · rw [if_pos hi, if_pos hi]
          · rw [if_neg hi, if_neg hi, if_neg hi]
    · rw [if_neg hc, if_neg hc]
      exact ⟨key _, rfl, h2⟩

/-- Where a thread ends that worked alone on entry `a`. -/
structure Ended (w v : World) (t : Nat) (a : Addr) (r : Option FragEntry × Option Bytes) : Prop where
  pc : v.pcs t = .done
  entry : (v.slot (w.idx t)).bind v.mem = r.1
  keep : ∀ b, v.slot (w.idx t) = some b → v.mem b ≠ none
  given : v.given t = r.2.toList ++ w.given t
  packets : v.packets = w.packets ++ r.2.toList
  log : ∃ l, v.log = l ++ w.log ∧ ∀ x ∈ l, ∀ b, x.2 ≠ .misuse b

theorem idle (w : World) (t n : Nat) (h : w.pcs t = .done) : w.run (List.replicate n t) = w := by
  induction n with
  | zero => rfl
  | succ n ih =>
    rw [List.replicate_succ, run_cons]
    have : w.step t = w := by unfold World.step; dsimp only; rw [h]
    rw [this, ih]

theorem run_rep (w : World) (t n : Nat) : w.run (List.replicate (n + 1) t) = (w.step t).run (List.replicate n t) := by
  rw [List.replicate_succ, run_cons]

/-- From the age test on. -/
theorem tail (w : World) (t n : Nat) (a : Addr) (e : FragEntry) (h : w.pcs t = .expire a) (hs : w.slot (w.idx t) = some a)
    (hm : w.mem a = some e) : Ended w (w.run (List.replicate (n + 6) t)) t a (settle e (w.job t)) := by
  have s1 : w.step t = (w.put a (some (aged (w.job t).now e))).goto t (.update a) := by
    unfold World.step; dsimp only; rw [h]; dsimp only; rw [hm]
  rw [show n + 6 = (n + 5) + 1 from rfl, run_rep, s1]
  unfold settle
  cases hu : (aged (w.job t).now e).update true (w.job t).data (w.job t).off (w.job t).last with
  | none =>
    have s2 : ((w.put a (some (aged (w.job t).now e))).goto t (.update a)).step t =
        (((w.put a (some (aged (w.job t).now e))).goto t (.update a)).note t .broken).goto t .done := by
      simp only [World.step, World.put, World.goto, if_true, hu]
    rw [show n + 5 = (n + 4) + 1 from rfl, run_rep, s2, idle _ _ _ (by simp only [World.goto, if_true])]
    constructor
    · simp only [World.goto, if_true]
    · simp [World.goto, World.note, World.put, hs]
    · intro b hb
      simp [World.goto, World.note, World.put, hs] at hb ⊢
      subst hb; simp
    · simp [World.given, World.goto, World.note, World.put]
    · simp [World.packets, World.goto, World.note, World.put]
    · exact ⟨[(t, .broken)], rfl, fun x hx b => by rw [List.mem_singleton.mp hx]; exact fun e => nomatch e⟩
  | some r =>
    obtain ⟨e', rc, as⟩ := r
    have hs' : w.slot ((w.job t).id % w.num) = some a := hs
    have fin : ∀ v : World, v.pcs t = .done → v.slot (w.idx t) = some a → v.mem a = some e' → (v.log = w.log ∨ v.log = (t, .broken) :: w.log) →
        Ended w v t a (some e', none) := by
      intro v v1 v2 v3 v4
      constructor
      · exact v1
      · rw [v2]; exact v3
      · intro b hb; rw [v2] at hb; cases hb; rw [v3]; exact fun e => nomatch e
      · rcases v4 with v4 | v4 <;> unfold World.given <;> rw [v4] <;> rfl
      · rcases v4 with v4 | v4 <;> unfold World.packets <;> rw [v4] <;> simp
      · rcases v4 with v4 | v4
        · exact ⟨[], v4, fun x hx => absurd hx List.not_mem_nil⟩
        · exact ⟨[(t, .broken)], v4, fun x hx b => by rw [List.mem_singleton.mp hx]; exact fun e => nomatch e⟩
    by_cases hc : rc = .success ∧ as = true
    · have s2 : ((w.put a (some (aged (w.job t).now e))).goto t (.update a)).step t =
          (((w.put a (some (aged (w.job t).now e))).goto t (.update a)).put a (some e')).goto t (.deliver a) := by
        simp only [World.step, World.put, World.goto, if_true, hu]
        rw [if_pos hc]
      rw [show n + 5 = (n + 4) + 1 from rfl, run_rep, s2]
      dsimp only
      rw [if_pos hc]
      cases hn : e'.nodes with
      | nil =>
        have s3 : ((((w.put a (some (aged (w.job t).now e))).goto t (.update a)).put a (some e')).goto t (.deliver a)).step t =
            (((((w.put a (some (aged (w.job t).now e))).goto t (.update a)).put a (some e')).goto t (.deliver a)).note t .broken).goto t .done := by
          simp only [World.step, World.put, World.goto, if_true, hn]
        rw [show n + 4 = (n + 3) + 1 from rfl, run_rep, s3, idle _ _ _ (by simp only [World.goto, if_true])]
        refine fin _ ?_ ?_ ?_ ?_
        · simp only [World.goto, if_true]
        · exact hs
        · simp only [World.goto, World.note, World.put, if_true]
        · exact Or.inr rfl
      | cons hd tl =>
        dsimp only
        cases hr : rd e'.data 0 hd.e with
        | none =>
          have s3 : ((((w.put a (some (aged (w.job t).now e))).goto t (.update a)).put a (some e')).goto t (.deliver a)).step t =
              (((((w.put a (some (aged (w.job t).now e))).goto t (.update a)).put a (some e')).goto t (.deliver a)).note t .broken).goto t .done := by
            simp only [World.step, World.put, World.goto, if_true, hn, hr]
          rw [show n + 4 = (n + 3) + 1 from rfl, run_rep, s3, idle _ _ _ (by simp only [World.goto, if_true])]
          refine fin _ ?_ ?_ ?_ ?_
          · simp only [World.goto, if_true]
          · exact hs
          · simp only [World.goto, World.note, World.put, if_true]
          · exact Or.inr rfl
        | some p =>
          generalize hw2 : ((((w.put a (some (aged (w.job t).now e))).goto t (.update a)).put a (some e')).goto t (.deliver a)) = w2
          have q1 : w2.pcs t = .deliver a := by rw [← hw2]; simp only [World.goto, if_true]
          have q2 : w2.slot = w.slot := by rw [← hw2]; rfl
          have q3 : w2.mem a = some e' := by rw [← hw2]; simp only [World.goto, World.put, if_true]
          have q4 : w2.log = w.log := by rw [← hw2]; rfl
          have q5 : w2.idx t = w.idx t := by rw [← hw2]; rfl
          have s3 : w2.step t = (w2.note t (.gave p)).goto t .drop := by
            unfold World.step; dsimp only; rw [q1]; dsimp only; rw [q3]; dsimp only; rw [hn]; dsimp only; rw [hr]
          rw [show n + 4 = (n + 3) + 1 from rfl, run_rep, s3]
          have s4 : ((w2.note t (.gave p)).goto t .drop).step t = ((w2.note t (.gave p)).goto t .drop).goto t (.free a) := by
            have : ((w2.note t (.gave p)).goto t .drop).slot (((w2.note t (.gave p)).goto t .drop).idx t) = some a := by
              show w2.slot (w2.idx t) = some a
              rw [q2, q5]; exact hs
            unfold World.step; dsimp only
            rw [show ((w2.note t (.gave p)).goto t .drop).pcs t = .drop from if_pos rfl]; dsimp only; rw [this]
          rw [show n + 3 = (n + 2) + 1 from rfl, run_rep, s4]
          generalize hw4 : ((w2.note t (.gave p)).goto t .drop).goto t (.free a) = w4
          have r1 : w4.pcs t = .free a := by rw [← hw4]; exact if_pos rfl
          have r2 : w4.slot = w.slot := by rw [← hw4]; exact q2
          have r3 : w4.mem a = some e' := by rw [← hw4]; exact q3
          have r4 : w4.log = (t, .gave p) :: w.log := by rw [← hw4, ← q4]; rfl
          have r5 : w4.idx t = w.idx t := by rw [← hw4]; exact q5
          have s5 : w4.step t = ((w4.put a none).note t (.freed a)).goto t .clear := by
            unfold World.step; dsimp only; rw [r1]; dsimp only; rw [r3]
          rw [show n + 2 = (n + 1) + 1 from rfl, run_rep, s5]
          have s6 : (((w4.put a none).note t (.freed a)).goto t .clear).step t =
              ((((w4.put a none).note t (.freed a)).goto t .clear).point (w.idx t) none).goto t .done := by
            rw [← r5]
            unfold World.step; dsimp only
            rw [show (((w4.put a none).note t (.freed a)).goto t .clear).pcs t = .clear from if_pos rfl]; rfl
          rw [run_rep, s6, idle _ _ _ (by exact if_pos rfl)]
          have hsl : (((((w4.put a none).note t (.freed a)).goto t .clear).point (w.idx t) none).goto t .done).slot (w.idx t) = none :=
            if_pos rfl
          have hlog : (((((w4.put a none).note t (.freed a)).goto t .clear).point (w.idx t) none).goto t .done).log =
              (t, .freed a) :: (t, .gave p) :: w.log := by
            rw [← r4]; rfl
          constructor
          · exact if_pos rfl
          · rw [hsl]; rfl
          · intro b hb; rw [hsl] at hb; cases hb
          · unfold World.given
            rw [hlog]
            simp
          · unfold World.packets
            rw [hlog]
            simp
          · exact ⟨[(t, .freed a), (t, .gave p)], hlog, fun x hx b => by
              rcases List.mem_cons.mp hx with hx | hx
              · rw [hx]; exact fun e => nomatch e
              · rw [List.mem_singleton.mp hx]; exact fun e => nomatch e⟩
    · have s2 : ((w.put a (some (aged (w.job t).now e))).goto t (.update a)).step t =
          (((w.put a (some (aged (w.job t).now e))).goto t (.update a)).put a (some e')).goto t .done := by
        simp only [World.step, World.put, World.goto, if_true, hu]
        rw [if_neg hc]
      rw [show n + 5 = (n + 4) + 1 from rfl, run_rep, s2, idle _ _ _ (by exact if_pos rfl)]
      dsimp only
      rw [if_neg hc]
      refine fin _ ?_ ?_ ?_ ?_
      · simp only [World.goto, if_true]
      · exact hs
      · simp only [World.goto, World.put, if_true]
      · exact Or.inl rfl

/-- A whole call. -/
theorem block (w : World) (t n : Nat) (h : w.pcs t = .find) (hm : ∀ a, w.slot (w.idx t) = some a → w.mem a ≠ none) :
    ∃ a, Ended w (w.run (List.replicate (n + 8) t)) t a
      ((absorb w.table (w.job t)).1.slot (w.idx t), (absorb w.table (w.job t)).2) := by
  cases hs : w.slot (w.idx t) with
  | some a =>
    cases he : w.mem a with
    | none => exact absurd he (hm a hs)
    | some e =>
      have ht : w.table.slot ((w.job t).id % w.table.num) = some e := by
        show (w.slot (w.idx t)).bind w.mem = some e
        rw [hs]; exact he
      obtain ⟨k1, k2, _⟩ := absorb_eq w.table (w.job t) e (Or.inl ht)
      rw [k1, k2]
      have s1 : w.step t = w.goto t (.expire a) := by
        unfold World.step; dsimp only; rw [h]; dsimp only; rw [hs]
      rw [show n + 8 = (n + 7) + 1 from rfl, run_rep, s1]
      have k := tail (w.goto t (.expire a)) t (n + 1) a e (if_pos rfl) hs he
      refine ⟨a, ⟨k.pc, ?_, k.keep, k.given, k.packets, k.log⟩⟩
      exact k.entry.trans (if_pos rfl).symm
  | none =>
    have ht : w.table.slot ((w.job t).id % w.table.num) = none := by
      show (w.slot (w.idx t)).bind w.mem = none
      rw [hs]; rfl
    obtain ⟨k1, k2, _⟩ := absorb_eq w.table (w.job t) _ (Or.inr ⟨ht, rfl⟩)
    rw [k1, k2]
    have s1 : w.step t = ((w.put (.new t) (some (FragEntry.fresh (w.job t).now))).note t (.made (.new t))).goto t (.store (.new t)) := by
      unfold World.step; dsimp only; rw [h]; dsimp only; rw [hs]
    rw [show n + 8 = (n + 7) + 1 from rfl, run_rep, s1]
    generalize hw1 : ((w.put (.new t) (some (FragEntry.fresh (w.job t).now))).note t (.made (.new t))).goto t (.store (.new t)) = w1
    have q1 : w1.pcs t = .store (.new t) := by rw [← hw1]; exact if_pos rfl
    have q2 : w1.mem (.new t) = some (FragEntry.fresh (w.job t).now) := by rw [← hw1]; exact if_pos rfl
    have q3 : w1.idx t = w.idx t := by rw [← hw1]; rfl
    have q4 : w1.job = w.job := by rw [← hw1]; rfl
    have q5 : w1.log = (t, .made (.new t)) :: w.log := by rw [← hw1]; rfl
    have s2 : w1.step t = (w1.point (w1.idx t) (some (.new t))).goto t (.expire (.new t)) := by
      unfold World.step; dsimp only; rw [q1]
    rw [show n + 7 = (n + 6) + 1 from rfl, run_rep, s2]
    have k := tail ((w1.point (w1.idx t) (some (.new t))).goto t (.expire (.new t))) t n (.new t) _ (if_pos rfl) (if_pos rfl) q2
    have kj : ((w1.point (w1.idx t) (some (.new t))).goto t (.expire (.new t))).job = w.job := q4
    have ki : ((w1.point (w1.idx t) (some (.new t))).goto t (.expire (.new t))).idx t = w.idx t := q3
    have kl : ((w1.point (w1.idx t) (some (.new t))).goto t (.expire (.new t))).log = (t, .made (.new t)) :: w.log := q5
    obtain ⟨e1, e2, e3, e4, e5, e6⟩ := k
    rw [kj] at e2 e4 e5
    rw [ki] at e2 e3
    refine ⟨.new t, ⟨e1, ?_, e3, ?_, ?_, ?_⟩⟩
    · exact e2.trans (if_pos rfl).symm
    · rw [e4]; unfold World.given; rw [kl]; rfl
    · rw [e5]; unfold World.packets; rw [kl]; simp
    · obtain ⟨l, h1, h2⟩ := e6
      rw [kl] at h1
      refine ⟨l ++ [(t, .made (.new t))], by rw [h1, List.append_assoc]; rfl, fun x hx b => ?_⟩
      rcases List.mem_append.mp hx with hx | hx
      · exact h2 x hx b
      · rw [List.mem_singleton.mp hx]; exact fun e => nomatch e

theorem run_num (w : World) (xs : List Nat) : (w.run xs).num = w.num := by
  induction xs generalizing w with
  | nil => rfl
  | cons t xs ih => rw [run_cons, ih, step_num]

theorem run_job (w : World) (xs : List Nat) : (w.run xs).job = w.job := by
  induction xs generalizing w with
  | nil => rfl
  | cons t xs ih => rw [run_cons, ih, step_job]

theorem run_log (w : World) (xs : List Nat) : ∃ l, (w.run xs).log = l ++ w.log ∧ ∀ x ∈ l, x.1 ∈ xs := by
  induction xs generalizing w with
  | nil => exact ⟨[], rfl, fun x hx => absurd hx List.not_mem_nil⟩
  | cons t xs ih =>
    obtain ⟨l, h1, h2⟩ := ih (w.step t)
    obtain ⟨m, g1, g2⟩ := step_log w t
    refine ⟨l ++ m, by rw [run_cons, h1, g1, List.append_assoc], fun x hx => ?_⟩
    rcases List.mem_append.mp hx with hx | hx
    · exact List.mem_cons_of_mem _ (h2 x hx)
    · rw [g2 x hx]; exact List.mem_cons_self

/-- What is in the slot is the same in both. -/
theorem Same.entry {i : Nat} {w v : World} (hw : Tidy w) (h : Same i w v) : w.table.slot i = v.table.slot i := by
  show (w.slot i).bind w.mem = (v.slot i).bind v.mem
  rw [← h.slot]
  cases hs : w.slot i with
  | none => rfl
  | some a => exact h.mem a (hw.slot i a hs)

/-- C118: fragments of different slots do not disturb each other, whatever the schedule: what happens to slot `i` of the table,
and everything the threads with fragments of that slot do, is what would happen if the other threads did nothing at all. -/
theorem C118_slots_apart (w : World) (hw : Begin w) (i : Nat) (xs : List Nat) :
    (w.run xs).table.slot i = (w.run (xs.filter fun t => w.idx t = i)).table.slot i ∧
    (∀ t, w.idx t = i → (w.run xs).pcs t = (w.run (xs.filter fun t => w.idx t = i)).pcs t) ∧
    (w.run xs).log.filter (fun x => w.idx x.1 = i) = (w.run (xs.filter fun t => w.idx t = i)).log := by
  have h := same_run i xs w w hw.tidy (Same.refl i w)
  refine ⟨h.entry (run_tidy w hw.tidy xs), fun t ht => h.pcs t (by rw [run_idx]; exact ht), ?_⟩
  have hl := h.log
  simp only [run_idx] at hl
  rw [hl]
  refine List.filter_eq_self.mpr fun x hx => ?_
  obtain ⟨l, h1, h2⟩ := run_log w (xs.filter fun t => w.idx t = i)
  rw [h1, hw.log, List.append_nil] at hx
  have := h2 x hx
  exact (List.mem_filter.mp this).2

theorem filter_alone (w : World) (t : Nat) (xs : List Nat) (h : ∀ u ∈ xs, w.idx u = w.idx t → u = t) :
    xs.filter (fun u => w.idx u = w.idx t) = List.replicate (xs.count t) t := by
  refine List.eq_replicate_iff.mpr ⟨?_, fun u hu => ?_⟩
  · rw [List.count, ← List.countP_eq_length_filter]
    refine List.countP_congr fun u hu => ?_
    constructor
    · intro e; exact beq_iff_eq.mpr (h u hu (of_decide_eq_true e))
    · intro e; rw [beq_iff_eq.mp e]; exact decide_eq_true rfl
  · exact h u (List.mem_filter.mp hu).1 (of_decide_eq_true (List.mem_filter.mp hu).2)

/-- C118: a thread whose fragment is the only one of its slot being handled does exactly what it would do with no other thread
about: the entry, the packet handed over, and no memory used after it was freed. -/
theorem C118_alone_in_its_slot (w : World) (hw : Begin w) (t : Nat) (xs : List Nat)
    (hx : ∀ u ∈ xs, w.idx u = w.idx t → u = t) (hn : 8 ≤ xs.count t) :
    (w.run xs).pcs t = .done ∧
    (w.run xs).table.slot (w.idx t) = (absorb w.table (w.job t)).1.slot (w.idx t) ∧
    (w.run xs).given t = (absorb w.table (w.job t)).2.toList ∧
    ∀ a, (t, Act.misuse a) ∉ (w.run xs).log := by
  obtain ⟨h1, h2, h3⟩ := C118_slots_apart w hw (w.idx t) xs
  rw [filter_alone w t xs hx] at h1 h2 h3
  obtain ⟨n, hn'⟩ : ∃ n, xs.count t = n + 8 := ⟨xs.count t - 8, by omega⟩
  rw [hn'] at h1 h2 h3
  obtain ⟨a, k⟩ := block w t n (hw.pcs t) (fun a ha => by
    rcases hw.slot (w.idx t) with e | e
    · rw [e] at ha; cases ha
    · rw [e.1] at ha; cases ha; exact e.2)
  refine ⟨(h2 t rfl).trans k.pc, h1.trans k.entry, ?_, ?_⟩
  · have : (w.run xs).given t = (w.run (List.replicate (n + 8) t)).given t := by
      unfold World.given
      rw [← h3, List.filterMap_filter]
      congr 1
      funext x
      obtain ⟨u, c⟩ := x
      by_cases hu : u = t
      · subst hu; rw [if_pos (decide_eq_true rfl)]
      · cases c <;> simp [hu]
    rw [this, k.given]
    unfold World.given; rw [hw.log]; simp
  · intro b hb
    have : (t, Act.misuse b) ∈ (w.run (List.replicate (n + 8) t)).log := by
      rw [← h3]; exact List.mem_filter.mpr ⟨hb, decide_eq_true rfl⟩
    obtain ⟨l, e1, e2⟩ := k.log
    rw [e1, hw.log, List.append_nil] at this
    exact e2 _ this b rfl

/-- Between calls: every pointer in its place, every entry in the table there, and nothing misused. -/
structure Quiet (w : World) : Prop where
  tidy : Tidy w
  live : ∀ i a, w.slot i = some a → w.mem a ≠ none
  sound : ¬ w.misused

theorem quiet_block (w : World) (hw : Quiet w) (t : Nat) (h : w.pcs t = .find) :
    Quiet (w.run (List.replicate 8 t)) ∧ (w.run (List.replicate 8 t)).table = (absorb w.table (w.job t)).1 ∧
    (w.run (List.replicate 8 t)).packets = w.packets ++ (absorb w.table (w.job t)).2.toList ∧
    ∀ u, u ≠ t → (w.run (List.replicate 8 t)).pcs u = w.pcs u := by
  obtain ⟨a, k⟩ := block w t 0 h (hw.live _)
  have hT := run_tidy w hw.tidy (List.replicate 8 t)
  -- other slots and their entries are as before
  have hoth : ∀ (n : Nat) (v : World), Tidy v → ∀ i, i ≠ v.idx t → (v.run (List.replicate n t)).slot i = v.slot i ∧
      ∀ b, v.owner b = i → (v.run (List.replicate n t)).mem b = v.mem b := by
    intro n
    induction n with
    | zero => exact fun v _ i _ => ⟨rfl, fun _ _ => rfl⟩
    | succ n ih =>
      intro v hv i hi
      rw [run_rep]
      obtain ⟨g1, g2⟩ := ih (v.step t) (step_tidy v hv t) i (by rw [step_idx]; exact hi)
      refine ⟨g1.trans (step_slot v t i hi), fun b hb => ?_⟩
      rw [g2 b (by rw [step_owner]; exact hb)]
      exact step_mem v hv t b (by rw [hb]; exact hi)
  have hpcs : ∀ (n : Nat) (v : World) (u : Nat), u ≠ t → (v.run (List.replicate n t)).pcs u = v.pcs u := by
    intro n
    induction n with
    | zero => exact fun _ _ _ => rfl
    | succ n ih => intro v u hu; rw [run_rep, ih _ u hu, step_pcs v t u hu]
  refine ⟨⟨hT, ?_, ?_⟩, ?_, k.packets, fun u hu => hpcs 8 w u hu⟩
  · intro i b hb
    by_cases hi : i = w.idx t
    · subst hi; exact k.keep b hb
    · obtain ⟨g1, g2⟩ := hoth 8 w hw.tidy i hi
      rw [g1] at hb
      rw [g2 b (hw.tidy.slot i b hb)]
      exact hw.live i b hb
  · rintro ⟨u, b, hb⟩
    obtain ⟨l, e1, e2⟩ := k.log
    rw [e1] at hb
    rcases List.mem_append.mp hb with hb | hb
    · exact e2 _ hb b rfl
    · exact hw.sound ⟨u, b, hb⟩
  · have hn : (absorb w.table (w.job t)).1.num = w.num ∧ ∀ i, i ≠ w.idx t → (absorb w.table (w.job t)).1.slot i = w.table.slot i := by
      cases hs : w.table.slot ((w.job t).id % w.table.num) with
      | some e =>
        obtain ⟨k1, _, k3⟩ := absorb_eq w.table (w.job t) e (Or.inl hs)
        exact ⟨k3, fun i hi => by rw [k1]; exact if_neg hi⟩
      | none =>
        obtain ⟨k1, _, k3⟩ := absorb_eq w.table (w.job t) _ (Or.inr ⟨hs, rfl⟩)
        exact ⟨k3, fun i hi => by rw [k1]; exact if_neg hi⟩
    have key : ∀ x y : FragTable, x.num = y.num → x.slot = y.slot → x = y := by
      intro x y e1 e2; cases x; cases y; cases e1; cases e2; rfl
    refine key _ _ ((run_num w _).trans hn.1.symm) ?_
    funext i
    by_cases hi : i = w.idx t
    · subst hi; exact k.entry
    · rw [hn.2 i hi]
      obtain ⟨g1, g2⟩ := hoth 8 w hw.tidy i hi
      show ((w.run (List.replicate 8 t)).slot i).bind (w.run (List.replicate 8 t)).mem = (w.slot i).bind w.mem
      rw [g1]
      cases hs : w.slot i with
      | none => rfl
      | some b => exact g2 b (hw.tidy.slot i b hs)

theorem Begin.quiet {w : World} (h : Begin w) : Quiet w where
  tidy := h.tidy
  live := fun i a ha => by
    rcases h.slot i with e | e
    · rw [e] at ha; cases ha
    · rw [e.1] at ha; cases ha; exact e.2
  sound := by rintro ⟨t, a, h'⟩; rw [h.log] at h'; exact absurd h' List.not_mem_nil

theorem quiet_all (ts : List Nat) (w : World) (hw : Quiet w) (hd : ts.Nodup) (h : ∀ t ∈ ts, w.pcs t = .find) :
    Quiet (w.run (ts.flatMap (List.replicate 8))) ∧
    (w.run (ts.flatMap (List.replicate 8))).table = (absorbAll w.table (ts.map w.job)).1 ∧
    (w.run (ts.flatMap (List.replicate 8))).packets = w.packets ++ (absorbAll w.table (ts.map w.job)).2 := by
  induction ts generalizing w with
  | nil => exact ⟨hw, rfl, (List.append_nil _).symm⟩
  | cons t ts ih =>
    obtain ⟨k1, k2, k3, k4⟩ := quiet_block w hw t (h t List.mem_cons_self)
    have hd' := List.nodup_cons.mp hd
    obtain ⟨g1, g2, g3⟩ := ih (w.run (List.replicate 8 t)) k1 hd'.2 (fun u hu => by
      rw [k4 u (fun e => hd'.1 (by rw [← e]; exact hu))]; exact h u (List.mem_cons_of_mem _ hu))
    rw [List.flatMap_cons, run_append]
    rw [run_job, k2] at g2 g3
    refine ⟨g1, g2, ?_⟩
    rw [g3, k3, List.append_assoc]; rfl

/-- C118: handed over one after the other, by whichever threads, fragments do to the table and yield the packets that a single
thread would get, and no memory is used after it was freed. -/
theorem C118_one_by_one (w : World) (hw : Begin w) (ts : List Nat) (hd : ts.Nodup) :
    (w.run (ts.flatMap (List.replicate 8))).table = (absorbAll w.table (ts.map w.job)).1 ∧
    (w.run (ts.flatMap (List.replicate 8))).packets = (absorbAll w.table (ts.map w.job)).2 ∧
    ¬ (w.run (ts.flatMap (List.replicate 8))).misused := by
  obtain ⟨k1, k2, k3⟩ := quiet_all ts w hw.quiet hd (fun t _ => hw.pcs t)
  refine ⟨k2, ?_, k1.sound⟩
  rw [k3]; unfold World.packets; rw [hw.log]; rfl

/-- C118: a fragment handled undisturbed is handled as in the build without threads. -/
theorem C118_same_as_single (env : Env) (c : Conn) (t : FragTable) (j : Job) (ht : c.fragTable = some t)
    (ha : ∀ l, env.alloc l = true) (hn : ∀ l, env.now l = j.now) :
    (fragReceive env c j.id j.off j.last j.data).1.fragTable = some (absorb t j).1 ∨
    ∃ s, Effect.ub s ∈ (fragReceive env c j.id j.off j.last j.data).1.log := by
  have key : ∀ (c : Conn) (t : FragTable) (e : FragEntry), c.fragTable = some t →
      (fragApply env c t e j.id j.off j.last j.data).1.fragTable = some
        (match (aged j.now e).update true j.data j.off j.last with
          | none => (t.set j.id (aged j.now e), none)
          | some (e, rc, assembled) =>
            if rc = .success ∧ assembled = true then
              match e.nodes with
              | [] => (t.set j.id e, none)
              | hd :: _ =>
                match rd e.data 0 hd.e with
                | none => (t.set j.id e, none)
                | some p => ((t.set j.id e).delete j.id, some p)
            else (t.set j.id e, none) : FragTable × Option Bytes).1 ∨
      ∃ s, Effect.ub s ∈ (fragApply env c t e j.id j.off j.last j.data).1.log := by
    intro c t e _
    unfold fragApply
    dsimp only
    rw [hn, ha]
    rw [show (if j.now - e.timestamp > 64 then { e.reset with timestamp := j.now } else e) = aged j.now e from rfl]
    cases (aged j.now e).update true j.data j.off j.last with
    | none => exact Or.inr ⟨_, List.mem_cons_self⟩
    | some r =>
      obtain ⟨e', rc, as⟩ := r
      dsimp only
      by_cases hrc : rc = .success
      · rw [if_neg (not_not_intro hrc)]
        cases as with
        | false => left; simp
        | true =>
          rw [if_pos rfl, if_pos ⟨hrc, rfl⟩]
          cases e'.nodes with
          | nil => left; rfl
          | cons hd _ =>
            dsimp only
            cases rd e'.data 0 hd.e with
            | none => left; rfl
            | some p => left; rfl
      · rw [if_pos hrc, if_neg (fun h => hrc h.1)]
        left; rfl
  unfold fragReceive absorb
  rw [ht]
  dsimp only
  rw [ha, hn]
  cases hf : t.find true j.now j.id with
  | mk t' o =>
    cases o with
    | none => left; rfl
    | some e => exact key _ t' e rfl

/-! ### What goes wrong with two fragments of one packet -/

/-- Threads 0, 1, 2, 3: the first half of a packet, its second half, and two fragments beyond. -/
def halves : World where
  num := 4
  slot := fun _ => none
  mem := fun _ => none
  job := fun
    | 0 => { id := 1, off := 0, last := false, data := [1, 2, 3, 4, 5, 6, 7, 8], now := 0 }
    | 1 => { id := 1, off := 8, last := true, data := [9, 10], now := 0 }
    | 2 => { id := 1, off := 16, last := true, data := [11], now := 0 }
    | n => { id := n, off := 0, last := true, data := [], now := 0 }
  pcs := fun _ => .find

theorem halves_begin : Begin halves := ⟨fun _ => rfl, fun _ => Or.inl rfl, rfl⟩

/-- One after the other they make the packet. -/
theorem C118_one_by_one_gives_packet :
    (halves.run ([0, 1].flatMap (List.replicate 8))).packets = [[1, 2, 3, 4, 5, 6, 7, 8, 9, 10]] := by decide +kernel

set_option maxRecDepth 16384 in
/-- C118, hazard: both threads find the slot empty: no packet is made of the two halves, and an entry is left that no slot
points to. -/
theorem C118_packet_lost :
    let v := halves.run ([0, 1, 0, 1] ++ List.replicate 8 0 ++ List.replicate 8 1)
    v.pcs 0 = .done ∧ v.pcs 1 = .done ∧ v.packets = [] ∧ (v.mem (.new 0)).isSome = true ∧
    (∀ i, v.slot i ≠ some (.new 0)) := by
  intro v
  refine ⟨by decide +kernel, by decide +kernel, by decide +kernel, by decide +kernel, fun i hi => ?_⟩
  have h : v.owner (.new 0) = i := (run_tidy halves halves_begin.tidy _).slot i _ hi
  have h1 : v.owner (.new 0) = 1 := by decide +kernel
  have h2 : v.slot 1 = some (.new 1) := by decide +kernel
  rw [← h, h1, h2] at hi
  cases hi

/-- C118, hazard: a thread found the entry, another one completes the packet and frees the entry, the first one uses it. -/
theorem C118_use_after_free :
    (2, Act.misuse (.new 0)) ∈ (halves.run (List.replicate 8 0 ++ [2] ++ List.replicate 8 1 ++ [2])).log := by decide +kernel

/-- A thread with a fragment of another slot, running among threads 0 and 1: the hypotheses of `C118_alone_in_its_slot`. -/
example : (∀ u ∈ (List.replicate 8 [0, 3, 1, 3]).flatten, halves.idx u = halves.idx 3 → u = 3) ∧
    8 ≤ ((List.replicate 8 [0, 3, 1, 3]).flatten).count 3 := by decide +kernel

/-- It then is done, whatever happened to the others. -/
example : (halves.run (List.replicate 8 [0, 3, 1, 3]).flatten).pcs 3 = .done :=
  (C118_alone_in_its_slot halves halves_begin 3 _ (by decide +kernel) (by decide +kernel)).1

end Lightway.ConcFrag
