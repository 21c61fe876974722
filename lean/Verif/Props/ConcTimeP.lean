import Verif.Model.ConcTime
import Verif.Proofs.Frame

/-!
# C121: the nudge time and the nudge timer under several threads
-/

namespace Lightway.ConcTime

/-! ## What the theorems speak about -/

/-- No call has begun; no timer is running. -/
structure Ready (w : World) : Prop where
  pcs : ∀ t, w.pcs t = .idle
  running : w.running = false
  log : w.log = []

/-- The nudge time for this answer of the TLS library. -/
def scale (t : Nat) (quick : Bool) : Nat := if quick then t * 100 / 4 else t * 100

/-- The last answer of the TLS library. -/
def asked : List (Nat × Act) → Option (Nat × Bool)
  | [] => none
  | (_, .asked t q) :: _ => some (t, q)
  | _ :: l => asked l

/-- The host was told to start a timer, and it has not fired since. -/
def outstanding : List (Nat × Act) → Bool
  | [] => false
  | (_, .told _) :: _ => true
  | (_, .nudged) :: _ => false
  | _ :: l => outstanding l

/-- Every time the host was told is the nudge time for the library's last answer, and no timer was outstanding then.  Every time
the host read is the initial one `v0`, the nudge time for the last answer, or that answer not yet scaled, or not yet divided. -/
def Right (v0 : Nat) : List (Nat × Act) → Prop
  | [] => True
  | (_, .told v) :: l => (∃ t q, asked l = some (t, q) ∧ v = scale t q) ∧ outstanding l = false ∧ Right v0 l
  | (_, .got v) :: l => (match asked l with
      | none => v = v0
      | some (t, q) => v = t ∨ v = t * 100 ∨ v = scale t q) ∧ Right v0 l
  | _ :: l => Right v0 l

/-- Only thread `u` updates the time and nudges. -/
def OneUpdates (w : World) (u : Nat) : Prop := ∀ x, x ≠ u → ∀ j ∈ w.todo x, j = .read

/-! ## Steps -/

/-- A call begins. -/
def World.begins (w : World) (t : Nat) (j : Job) (js : List Job) : World :=
  { w with todo := fun u => if u = t then js else w.todo u, pcs := fun u => if u = t then j.start else w.pcs u }

theorem step_cases (w : World) (t : Nat) :
    (∃ j js, w.pcs t = .idle ∧ w.todo t = j :: js ∧ w.step t = w.begins t j js) ∨
    w.step t = w.after t (stepPc w.time w.running (w.pcs t)) := by
  unfold World.step
  cases hp : w.pcs t with
  | idle =>
    cases ht : w.todo t with
    | nil => right; rfl
    | cons j js => left; exact ⟨j, js, rfl, rfl, rfl⟩
  | _ => right; rfl

theorem run_keeps {P : World → Prop} (hs : ∀ w t, P w → P (w.step t)) (w : World) (h : P w) (xs : List Nat) : P (w.run xs) := by
  induction xs generalizing w with
  | nil => exact h
  | cons t xs ih => exact ih _ (hs w t h)

/-! ## One updating thread -/

/-- What holds while only `u` updates: where `u` is decides what the two fields are. -/
structure One (v0 : Nat) (u : Nat) (w : World) : Prop where
  others : ∀ x, x ≠ u → (∀ j ∈ w.todo x, j = .read) ∧ (w.pcs x = .idle ∨ w.pcs x = .get)
  right : Right v0 w.log
  mul : ∀ q, w.pcs u = .mul q → ∃ t, asked w.log = some (t, q) ∧ w.time = t
  div : w.pcs u = .div → ∃ t, asked w.log = some (t, true) ∧ w.time = t * 100
  rest : (∀ q, w.pcs u ≠ .mul q) → w.pcs u ≠ .div → match asked w.log with
    | none => w.time = v0
    | some (t, q) => w.time = scale t q
  late : w.pcs u = .look ∨ w.pcs u = .call ∨ w.pcs u = .set → asked w.log ≠ none
  call : w.pcs u = .call → w.running = false
  flag : w.pcs u ≠ .set → outstanding w.log = w.running
  set : w.pcs u = .set → outstanding w.log = true
  done : w.pcs u = .idle ∨ w.pcs u = .get → asked w.log ≠ none → w.running = true

theorem One.start {w : World} (h : Ready w) {u : Nat} (h1 : OneUpdates w u) : One w.time u w where
  others x hx := ⟨h1 x hx, Or.inl (h.pcs x)⟩
  right := by rw [h.log]; trivial
  mul q e := by rw [h.pcs] at e; cases e
  div e := by rw [h.pcs] at e; cases e
  rest _ _ := by rw [h.log]; rfl
  late e := by rw [h.pcs] at e; rcases e with e | e | e <;> cases e
  call e := by rw [h.pcs] at e; cases e
  flag _ := by rw [h.log, h.running]; rfl
  set e := by rw [h.pcs] at e; cases e
  done _ e := by rw [h.log] at e; exact absurd rfl e

theorem One.step {v0 u : Nat} {w : World} (h : One v0 u w) (t : Nat) : One v0 u (w.step t) := by
  rcases step_cases w t with ⟨j, js, hp, ht, e⟩ | e
  · rw [e]
    by_cases hu : t = u
    · subst hu
      have pu : (w.begins t j js).pcs t = j.start := if_pos rfl
      have hns : w.pcs t ≠ .set := by rw [hp]; exact fun e => nomatch e
      have hr := h.rest (fun q => by rw [hp]; exact fun e => nomatch e) (by rw [hp]; exact fun e => nomatch e)
      refine ⟨fun x hx => ?_, h.right, fun q e => ?_, fun e => ?_, fun _ _ => hr, fun e => ?_, fun e => ?_, fun _ => h.flag hns,
        fun e => ?_, fun _ => h.done (Or.inl hp)⟩
      · exact ⟨by show ∀ j' ∈ (if x = t then js else w.todo x), _; rw [if_neg hx]; exact (h.others x hx).1,
          by show (if x = t then _ else w.pcs x) = _ ∨ (if x = t then _ else w.pcs x) = _; rw [if_neg hx]; exact (h.others x hx).2⟩
      all_goals (rw [pu] at e; cases j <;> first | (cases e; done) | (rcases e with e | e | e <;> cases e))
    · have pu : (w.begins t j js).pcs u = w.pcs u := if_neg (fun e => hu e.symm)
      have hj : j = .read := (h.others t hu).1 j (by rw [ht]; exact List.mem_cons_self)
      refine ⟨fun x hx => ?_, h.right, ?_, ?_, ?_, ?_, ?_, ?_, ?_, ?_⟩
      · by_cases hxt : x = t
        · subst hxt
          refine ⟨?_, Or.inr ?_⟩
          · show ∀ j' ∈ (if x = x then js else w.todo x), _
            rw [if_pos rfl]
            exact fun j' hj' => (h.others x hx).1 j' (by rw [ht]; exact List.mem_cons_of_mem _ hj')
          · show (if x = x then j.start else w.pcs x) = _
            rw [if_pos rfl, hj]; rfl
        · exact ⟨by show ∀ j' ∈ (if x = t then js else w.todo x), _; rw [if_neg hxt]; exact (h.others x hx).1,
            by show (if x = t then _ else w.pcs x) = _ ∨ (if x = t then _ else w.pcs x) = _; rw [if_neg hxt]; exact (h.others x hx).2⟩
      all_goals rw [pu]
      · exact h.mul
      · exact h.div
      · exact h.rest
      · exact h.late
      · exact h.call
      · exact h.flag
      · exact h.set
      · exact h.done
  · rw [e]
    by_cases hu : t = u
    · subst hu
      have oth : ∀ r : Nat × Bool × Pc × List Act, ∀ x, x ≠ t → (∀ j ∈ (w.after t r).todo x, j = .read) ∧
          ((w.after t r).pcs x = .idle ∨ (w.after t r).pcs x = .get) := fun r x hx =>
        ⟨(h.others x hx).1, by show (if x = t then _ else w.pcs x) = _ ∨ (if x = t then _ else w.pcs x) = _; rw [if_neg hx]; exact (h.others x hx).2⟩
      have pu : ∀ r : Nat × Bool × Pc × List Act, (w.after t r).pcs t = r.2.2.1 := fun r => if_pos rfl
      cases hp : w.pcs t with
      | idle =>
        have hr := h.rest (fun q => by rw [hp]; exact fun e => nomatch e) (by rw [hp]; exact fun e => nomatch e)
        have hf := h.flag (by rw [hp]; exact fun e => nomatch e)
        refine ⟨oth _, h.right, fun q e => ?_, fun e => ?_, fun _ _ => hr, fun e => ?_, fun e => ?_, fun _ => hf, fun e => ?_,
          fun _ => h.done (Or.inl hp)⟩
        all_goals (rw [pu] at e; first | (cases e; done) | (rcases e with e | e | e <;> cases e))
      | clear a q =>
        have hr := h.rest (fun q => by rw [hp]; exact fun e => nomatch e) (by rw [hp]; exact fun e => nomatch e)
        refine ⟨oth _, h.right, fun q e => ?_, fun e => ?_, fun _ _ => hr, fun e => ?_, fun e => ?_, fun _ => rfl, fun e => ?_, fun e => ?_⟩
        all_goals (rw [pu] at e; first | (cases e; done) | (rcases e with e | e | e <;> cases e; done) | (rcases e with e | e <;> cases e))
      | store a q =>
        have hf := h.flag (by rw [hp]; exact fun e => nomatch e)
        refine ⟨oth _, h.right, fun q' e => ?_, fun e => ?_, fun e => ?_, fun e => ?_, fun e => ?_, fun _ => hf, fun e => ?_, fun e => ?_⟩
        · rw [pu] at e; cases e; exact ⟨a, rfl, rfl⟩
        · rw [pu] at e; cases e
        · exact absurd (pu _) (e q)
        all_goals (rw [pu] at e; first | (cases e; done) | (rcases e with e | e | e <;> cases e; done) | (rcases e with e | e <;> cases e))
      | mul q =>
        obtain ⟨a, ha, hm⟩ := h.mul q hp
        have hf := h.flag (by rw [hp]; exact fun e => nomatch e)
        cases q with
        | true =>
          refine ⟨oth _, h.right, fun q' e => ?_, fun _ => ⟨a, ha, congrArg (· * 100) hm⟩, fun _ e => ?_, fun e => ?_, fun e => ?_, fun _ => hf,
            fun e => ?_, fun e => ?_⟩
          case refine_2 => exact absurd (pu _) e
          all_goals (rw [pu] at e; first | (cases e; done) | (rcases e with e | e | e <;> cases e; done) | (rcases e with e | e <;> cases e))
        | false =>
          refine ⟨oth _, h.right, fun q' e => ?_, fun e => ?_, fun _ _ => ?_, fun _ => ?_, fun e => ?_, fun _ => hf, fun e => ?_, fun e => ?_⟩
          case refine_3 =>
            show (match asked w.log with | none => _ | some (t, q) => w.time * 100 = scale t q)
            rw [ha, hm]; rfl
          case refine_4 => show asked w.log ≠ none; rw [ha]; exact fun e => nomatch e
          all_goals (rw [pu] at e; first | (cases e; done) | (rcases e with e | e | e <;> cases e; done) | (rcases e with e | e <;> cases e))
      | div =>
        obtain ⟨a, ha, hm⟩ := h.div hp
        have hf := h.flag (by rw [hp]; exact fun e => nomatch e)
        refine ⟨oth _, h.right, fun q' e => ?_, fun e => ?_, fun _ _ => ?_, fun _ => ?_, fun e => ?_, fun _ => hf, fun e => ?_, fun e => ?_⟩
        case refine_3 =>
          show (match asked w.log with | none => _ | some (t, q) => w.time / 4 = scale t q)
          rw [ha, hm]; rfl
        case refine_4 => show asked w.log ≠ none; rw [ha]; exact fun e => nomatch e
        all_goals (rw [pu] at e; first | (cases e; done) | (rcases e with e | e | e <;> cases e; done) | (rcases e with e | e <;> cases e))
      | look =>
        have hr := h.rest (fun q => by rw [hp]; exact fun e => nomatch e) (by rw [hp]; exact fun e => nomatch e)
        have hf := h.flag (by rw [hp]; exact fun e => nomatch e)
        have hl := h.late (Or.inl hp)
        have e1 : stepPc w.time w.running .look = (w.time, w.running, if w.running then .idle else .call, []) := rfl
        rw [e1]
        cases hrun : w.running with
        | true =>
          refine ⟨oth _, h.right, fun q' e => ?_, fun e => ?_, fun _ _ => hr, fun _ => hl, fun e => ?_, fun _ => hf.trans hrun, fun e => ?_,
            fun _ _ => rfl⟩
          all_goals (rw [pu] at e; cases e)
        | false =>
          refine ⟨oth _, h.right, fun q' e => ?_, fun e => ?_, fun _ _ => hr, fun _ => hl, fun _ => rfl, fun _ => hf.trans hrun, fun e => ?_,
            fun e => ?_⟩
          all_goals (rw [pu] at e; first | (cases e; done) | (rcases e with e | e <;> cases e))
      | call =>
        have hr := h.rest (fun q => by rw [hp]; exact fun e => nomatch e) (by rw [hp]; exact fun e => nomatch e)
        have hf := h.flag (by rw [hp]; exact fun e => nomatch e)
        have hl := h.late (Or.inr (Or.inl hp))
        refine ⟨oth _, ⟨?_, hf.trans (h.call hp), h.right⟩, fun q' e => ?_, fun e => ?_, fun _ _ => hr, fun _ => hl, fun e => ?_,
          fun e => absurd (pu _) e, fun _ => rfl, fun e => ?_⟩
        · cases ha : asked w.log with
          | none => exact absurd ha hl
          | some p => rw [ha] at hr; exact ⟨p.1, p.2, ha, hr⟩
        all_goals (rw [pu] at e; first | (cases e; done) | (rcases e with e | e <;> cases e))
      | set =>
        have hr := h.rest (fun q => by rw [hp]; exact fun e => nomatch e) (by rw [hp]; exact fun e => nomatch e)
        refine ⟨oth _, h.right, fun q' e => ?_, fun e => ?_, fun _ _ => hr, fun e => ?_, fun e => ?_, fun _ => h.set hp, fun e => ?_,
          fun _ _ => rfl⟩
        all_goals (rw [pu] at e; first | (cases e; done) | (rcases e with e | e | e <;> cases e))
      | get =>
        have hr := h.rest (fun q => by rw [hp]; exact fun e => nomatch e) (by rw [hp]; exact fun e => nomatch e)
        have hf := h.flag (by rw [hp]; exact fun e => nomatch e)
        refine ⟨oth _, ⟨?_, h.right⟩, fun q' e => ?_, fun e => ?_, fun _ _ => hr, fun e => ?_, fun e => ?_, fun _ => hf, fun e => ?_,
          fun _ => h.done (Or.inr hp)⟩
        · show (match asked w.log with | none => w.time = v0 | some (t, q) => w.time = t ∨ w.time = t * 100 ∨ w.time = scale t q)
          cases ha : asked w.log with
          | none => rw [ha] at hr; exact hr
          | some p => rw [ha] at hr; exact Or.inr (Or.inr hr)
        all_goals (rw [pu] at e; first | (cases e; done) | (rcases e with e | e | e <;> cases e))
    · have pu : ∀ r : Nat × Bool × Pc × List Act, (w.after t r).pcs u = w.pcs u := fun r => if_neg (fun e => hu e.symm)
      rcases (h.others t hu).2 with hp | hp
      · rw [hp]
        have oth : ∀ x, x ≠ u → (∀ j ∈ (w.after t (stepPc w.time w.running .idle)).todo x, j = .read) ∧
            ((w.after t (stepPc w.time w.running .idle)).pcs x = .idle ∨ (w.after t (stepPc w.time w.running .idle)).pcs x = .get) := by
          refine fun x hx => ⟨(h.others x hx).1, ?_⟩
          show (if x = t then Pc.idle else w.pcs x) = _ ∨ (if x = t then Pc.idle else w.pcs x) = _
          by_cases hxt : x = t
          · rw [if_pos hxt]; exact Or.inl rfl
          · rw [if_neg hxt]; exact (h.others x hx).2
        refine ⟨oth, h.right, ?_, ?_, ?_, ?_, ?_, ?_, ?_, ?_⟩
        all_goals rw [pu]
        · exact h.mul
        · exact h.div
        · exact h.rest
        · exact h.late
        · exact h.call
        · exact h.flag
        · exact h.set
        · exact h.done
      · rw [hp]
        have oth : ∀ x, x ≠ u → (∀ j ∈ (w.after t (stepPc w.time w.running .get)).todo x, j = .read) ∧
            ((w.after t (stepPc w.time w.running .get)).pcs x = .idle ∨ (w.after t (stepPc w.time w.running .get)).pcs x = .get) := by
          refine fun x hx => ⟨(h.others x hx).1, ?_⟩
          show (if x = t then Pc.idle else w.pcs x) = _ ∨ (if x = t then Pc.idle else w.pcs x) = _
          by_cases hxt : x = t
          · rw [if_pos hxt]; exact Or.inl rfl
          · rw [if_neg hxt]; exact (h.others x hx).2
        refine ⟨oth, ⟨?_, h.right⟩, ?_, ?_, ?_, ?_, ?_, ?_, ?_, ?_⟩
        · show (match asked w.log with | none => w.time = v0 | some (t, q) => w.time = t ∨ w.time = t * 100 ∨ w.time = scale t q)
          by_cases hm : ∃ q, w.pcs u = .mul q
          · obtain ⟨q, hm⟩ := hm
            obtain ⟨a, ha, hv⟩ := h.mul q hm
            rw [ha]; exact Or.inl hv
          · by_cases hd : w.pcs u = .div
            · obtain ⟨a, ha, hv⟩ := h.div hd
              rw [ha]; exact Or.inr (Or.inl hv)
            · have hr := h.rest (fun q e => hm ⟨q, e⟩) hd
              cases ha : asked w.log with
              | none => rw [ha] at hr; exact hr
              | some p => rw [ha] at hr; exact Or.inr (Or.inr hr)
        all_goals rw [pu]
        · exact h.mul
        · exact h.div
        · exact h.rest
        · exact h.late
        · exact h.call
        · exact h.flag
        · exact h.set
        · exact h.done

/-- C121: if one thread does all the updating and nudging, while any number of others read, the times the host is told are exact
and no timer is started while one is outstanding; a reader gets the exact time, or one that the update under way has not finished
scaling. -/
theorem C121_one_updater (w : World) (hw : Ready w) {u : Nat} (h1 : OneUpdates w u) (xs : List Nat) :
    Right w.time (w.run xs).log :=
  (run_keeps (P := One w.time u) (fun _ t hv => hv.step t) w (One.start hw h1) xs).right

/-- C121: in the same conditions, between two calls of the updating thread the time is exact, and once it has been updated a timer
is outstanding. -/
theorem C121_between_updates (w : World) (hw : Ready w) {u : Nat} (h1 : OneUpdates w u) (xs : List Nat)
    (hu : (w.run xs).pcs u = .idle) :
    (∀ t q, asked (w.run xs).log = some (t, q) → (w.run xs).time = scale t q ∧ outstanding (w.run xs).log = true) ∧
    (asked (w.run xs).log = none → (w.run xs).time = w.time) := by
  have h := run_keeps (P := One w.time u) (fun _ t hv => hv.step t) w (One.start hw h1) xs
  have hr := h.rest (fun q => by rw [hu]; exact fun e => nomatch e) (by rw [hu]; exact fun e => nomatch e)
  constructor
  · intro t q e
    rw [e] at hr
    refine ⟨hr, ?_⟩
    rw [h.flag (by rw [hu]; exact fun e => nomatch e)]
    exact h.done (Or.inl hu) (by rw [e]; exact fun e => nomatch e)
  · intro e
    rw [e] at hr; exact hr

/-! ## Any number of updating threads -/

/-- The thread has stored an answer and not yet multiplied. -/
def Pc.multiplies : Pc → Bool
  | .mul _ => true
  | _ => false

/-- How many of the first `n` threads are about to multiply. -/
def muls (pcs : Nat → Pc) : Nat → Nat
  | 0 => 0
  | n + 1 => muls pcs n + if (pcs n).multiplies then 1 else 0

theorem muls_le (pcs : Nat → Pc) (n : Nat) : muls pcs n ≤ n := by
  induction n with
  | zero => exact Nat.le_refl _
  | succ n ih => unfold muls; split <;> omega

/-- Changing one thread changes the number by what changed in that thread. -/
theorem muls_put (pcs : Nat → Pc) (t : Nat) (pc : Pc) (n : Nat) :
    muls (fun u => if u = t then pc else pcs u) n + (if t < n ∧ (pcs t).multiplies then 1 else 0) =
      muls pcs n + (if t < n ∧ pc.multiplies then 1 else 0) := by
  induction n with
  | zero => simp [muls]
  | succ n ih =>
    simp only [muls]
    by_cases hn : n = t
    · subst hn
      simp only [Nat.lt_irrefl, false_and, if_false, Nat.lt_succ_self, true_and, if_true] at ih ⊢
      cases h1 : (pcs n).multiplies <;> cases h2 : pc.multiplies <;> simp <;> omega
    · simp only [if_neg hn]
      have e : t < n + 1 ↔ t < n := by omega
      simp only [e]
      omega

/-- The TLS library never answers more than `m`. -/
def AnswersUpTo (w : World) (m : Nat) : Prop := ∀ t, ∀ j ∈ w.todo t, match j with
  | .update a _ => a ≤ m
  | .nudge a _ => a ≤ m
  | .read => True

/-- The answer a thread carries is at most `m`. -/
def Pc.upTo (m : Nat) : Pc → Prop
  | .store a _ => a ≤ m
  | .clear a _ => a ≤ m
  | _ => True

structure Bound (n m : Nat) (w : World) : Prop where
  todo : AnswersUpTo w m
  none : ∀ t, n ≤ t → w.todo t = [] ∧ w.pcs t = .idle
  pc : ∀ t, (w.pcs t).upTo m
  time : w.time * 100 ^ muls w.pcs n ≤ m * 100 ^ n
  seen : ∀ t v, (t, Act.told v) ∈ w.log ∨ (t, Act.got v) ∈ w.log → v ≤ m * 100 ^ n

theorem Bound.small {n m : Nat} {w : World} (h : Bound n m w) : w.time ≤ m * 100 ^ n :=
  Nat.le_trans (Nat.le_mul_of_pos_right _ (Nat.pow_pos (by decide))) h.time

theorem Bound.acc {n m : Nat} {w : World} (h : Bound n m w) (t : Nat) (r : Nat × Bool × Pc × List Act) (hp : w.pcs t ≠ .idle)
    (hpc : r.2.2.1.upTo m) (ht : r.1 * 100 ^ muls (fun u => if u = t then r.2.2.1 else w.pcs u) n ≤ m * 100 ^ n)
    (hs : ∀ v, Act.told v ∈ r.2.2.2 ∨ Act.got v ∈ r.2.2.2 → v = w.time) : Bound n m (w.after t r) where
  todo := h.todo
  none x hx := by
    have hne : x ≠ t := fun e => hp (e ▸ (h.none x hx).2)
    exact ⟨(h.none x hx).1, (if_neg hne).trans (h.none x hx).2⟩
  pc x := by
    show (if x = t then r.2.2.1 else w.pcs x).upTo m
    by_cases hx : x = t
    · rw [if_pos hx]; exact hpc
    · rw [if_neg hx]; exact h.pc x
  time := ht
  seen x v hv := by
    have key : ∀ a, (x, a) ∈ r.2.2.2.map (fun a => (t, a)) ++ w.log → a ∈ r.2.2.2 ∨ (x, a) ∈ w.log := by
      intro a ha
      rcases List.mem_append.mp ha with ha | ha
      · obtain ⟨b, hb, e⟩ := List.mem_map.mp ha
        cases e; exact Or.inl hb
      · exact Or.inr ha
    rcases hv with hv | hv
    · rcases key _ hv with k | k
      · rw [hs v (Or.inl k)]; exact h.small
      · exact h.seen x v (Or.inl k)
    · rcases key _ hv with k | k
      · rw [hs v (Or.inr k)]; exact h.small
      · exact h.seen x v (Or.inr k)

theorem Bound.step {n m : Nat} {w : World} (h : Bound n m w) (t : Nat) : Bound n m (w.step t) := by
  rcases step_cases w t with ⟨j, js, hp, ht, e⟩ | e
  · rw [e]
    have hlt : t < n := by
      rcases Nat.lt_or_ge t n with hlt | hge
      · exact hlt
      · rw [(h.none t hge).1] at ht; cases ht
    have hj := h.todo t j (by rw [ht]; exact List.mem_cons_self)
    refine ⟨fun x j' hj' => ?_, fun x hx => ?_, fun x => ?_, ?_, h.seen⟩
    · have hj' : j' ∈ (if x = t then js else w.todo x) := hj'
      by_cases hx : x = t
      · rw [if_pos hx] at hj'; exact h.todo t j' (by rw [ht]; exact List.mem_cons_of_mem _ hj')
      · rw [if_neg hx] at hj'; exact h.todo x j' hj'
    · have hne : x ≠ t := by omega
      exact ⟨(if_neg hne).trans (h.none x hx).1, (if_neg hne).trans (h.none x hx).2⟩
    · show (if x = t then j.start else w.pcs x).upTo m
      by_cases hx : x = t
      · rw [if_pos hx]; cases j with
        | read => trivial
        | update a q => exact hj
        | nudge a q => exact hj
      · rw [if_neg hx]; exact h.pc x
    · have k := muls_put w.pcs t j.start n
      have hm : (j.start).multiplies = false := by cases j <;> rfl
      have hi : (w.pcs t).multiplies = false := by rw [hp]; rfl
      rw [hm, hi] at k
      simp only [Bool.false_eq_true, and_false, if_false, Nat.add_zero] at k
      show w.time * 100 ^ muls (fun u => if u = t then j.start else w.pcs u) n ≤ _
      rw [k]; exact h.time
  · rw [e]
    by_cases hidle : w.pcs t = .idle
    · have hw : w.after t (stepPc w.time w.running (w.pcs t)) = w := by
        rw [hidle]
        show { w with time := w.time, running := w.running, pcs := fun u => if u = t then Pc.idle else w.pcs u, log := w.log } = w
        have : (fun u => if u = t then Pc.idle else w.pcs u) = w.pcs := by
          funext u
          by_cases hu : u = t
          · rw [if_pos hu, hu, hidle]
          · rw [if_neg hu]
        rw [this]
      rw [hw]; exact h
    · have hlt : t < n := by
        rcases Nat.lt_or_ge t n with hlt | hge
        · exact hlt
        · exact absurd (h.none t hge).2 hidle
      have same : ∀ pc, pc.multiplies = false → (w.pcs t).multiplies = false →
          muls (fun u => if u = t then pc else w.pcs u) n = muls w.pcs n := fun pc h1 h2 => by
        have k := muls_put w.pcs t pc n
        rw [h1, h2] at k
        simpa using k
      have hpc := h.pc t
      cases hp : w.pcs t with
      | idle => exact absurd hp hidle
      | clear a q =>
        rw [hp] at hpc
        refine h.acc t _ hidle hpc ?_ (fun v hv => ?_)
        · show w.time * 100 ^ muls (fun u => if u = t then Pc.store a q else w.pcs u) n ≤ _
          rw [same (.store a q) rfl (by rw [hp]; rfl)]; exact h.time
        · simp [stepPc] at hv
      | store a q =>
        rw [hp] at hpc
        refine h.acc t _ hidle trivial ?_ (fun v hv => ?_)
        · exact Nat.mul_le_mul hpc (Nat.pow_le_pow_right (by decide) (muls_le _ n))
        · simp [stepPc] at hv
      | mul q =>
        refine h.acc t _ hidle (by cases q <;> trivial) ?_ (fun v hv => ?_)
        · show w.time * 100 * 100 ^ muls (fun u => if u = t then (if q then Pc.div else Pc.look) else w.pcs u) n ≤ _
          have k := muls_put w.pcs t (if q then Pc.div else Pc.look) n
          have h1 : (if q then Pc.div else Pc.look).multiplies = false := by cases q <;> rfl
          have h2 : (w.pcs t).multiplies = true := by rw [hp]; rfl
          rw [h1, h2] at k
          simp only [hlt, true_and, if_true, Bool.false_eq_true, if_false, Nat.add_zero] at k
          have := h.time
          rw [← k, Nat.pow_succ] at this
          rw [Nat.mul_assoc, Nat.mul_comm 100]; exact this
        · cases q <;> simp [stepPc] at hv
      | div =>
        refine h.acc t _ hidle trivial ?_ (fun v hv => ?_)
        · show w.time / 4 * 100 ^ muls (fun u => if u = t then Pc.look else w.pcs u) n ≤ _
          rw [same .look rfl (by rw [hp]; rfl)]
          exact Nat.le_trans (Nat.mul_le_mul_right _ (Nat.div_le_self _ _)) h.time
        · simp [stepPc] at hv
      | look =>
        refine h.acc t _ hidle ?_ ?_ (fun v hv => ?_)
        · cases hr : w.running <;> trivial
        · show w.time * 100 ^ muls (fun u => if u = t then (if w.running then Pc.idle else Pc.call) else w.pcs u) n ≤ _
          rw [same _ (by cases w.running <;> rfl) (by rw [hp]; rfl)]; exact h.time
        · simp [stepPc] at hv
      | call =>
        refine h.acc t _ hidle trivial ?_ (fun v hv => ?_)
        · show w.time * 100 ^ muls (fun u => if u = t then Pc.set else w.pcs u) n ≤ _
          rw [same .set rfl (by rw [hp]; rfl)]; exact h.time
        · simpa [stepPc] using hv
      | set =>
        refine h.acc t _ hidle trivial ?_ (fun v hv => ?_)
        · show w.time * 100 ^ muls (fun u => if u = t then Pc.idle else w.pcs u) n ≤ _
          rw [same .idle rfl (by rw [hp]; rfl)]; exact h.time
        · simp [stepPc] at hv
      | get =>
        refine h.acc t _ hidle trivial ?_ (fun v hv => ?_)
        · show w.time * 100 ^ muls (fun u => if u = t then Pc.idle else w.pcs u) n ≤ _
          rw [same .idle rfl (by rw [hp]; rfl)]; exact h.time
        · simpa [stepPc] using hv

theorem muls_idle (n : Nat) : muls (fun _ => Pc.idle) n = 0 := by
  induction n with
  | zero => rfl
  | succ n ih => unfold muls; rw [ih]; rfl

/-- C121: with `n` threads updating at will, no time the host is told or reads exceeds the library's largest answer by more than a
factor of 100 for each thread. -/
theorem C121_bounded (w : World) (hw : Ready w) (n m : Nat) (hn : ∀ t, n ≤ t → w.todo t = []) (hm : AnswersUpTo w m)
    (h0 : w.time ≤ m * 100 ^ n) (xs : List Nat) (t v : Nat)
    (h : (t, Act.told v) ∈ (w.run xs).log ∨ (t, Act.got v) ∈ (w.run xs).log) : v ≤ m * 100 ^ n := by
  refine (run_keeps (P := Bound n m) (fun _ t hv => hv.step t) w ⟨hm, fun t ht => ⟨hn t ht, hw.pcs t⟩, fun t => ?_, ?_,
    fun t v hv => ?_⟩ xs).seen t v h
  · rw [hw.pcs]; trivial
  · rw [show w.pcs = fun _ => .idle from funext hw.pcs, muls_idle, Nat.pow_zero, Nat.mul_one]; exact h0
  · rw [hw.log] at hv; rcases hv with hv | hv <;> cases hv

/-! ## A call alone -/

/-- Thread `t` alone reaches a world with its call ended, this time and this log, and the flag set. -/
def Ends (w : World) (t : Nat) (js : List Job) (v : Nat) (l : List (Nat × Act)) : Prop :=
  ∃ n, (w.run (List.replicate n t)).pcs t = .idle ∧ (w.run (List.replicate n t)).todo t = js ∧
    (w.run (List.replicate n t)).time = v ∧ (w.run (List.replicate n t)).running = true ∧ (w.run (List.replicate n t)).log = l

theorem Ends.more {w : World} {t : Nat} {js : List Job} {v : Nat} {l : List (Nat × Act)} (h : Ends (w.step t) t js v l) :
    Ends w t js v l := h.elim fun n h => ⟨n + 1, h⟩

theorem Ends.act {w : World} {t : Nat} {js : List Job} {v : Nat} {l : List (Nat × Act)} (hp : w.pcs t ≠ .idle)
    (h : Ends (w.after t (stepPc w.time w.running (w.pcs t))) t js v l) : Ends w t js v l := by
  refine Ends.more ?_
  rcases step_cases w t with ⟨_, _, e, -⟩ | e
  · exact absurd e hp
  · rw [e]; exact h

theorem look_ends (w : World) (t : Nat) (js : List Job) (hp : w.pcs t = .look) (ht : w.todo t = js) :
    Ends w t js w.time ((if w.running then [] else [(t, .told w.time)]) ++ w.log) := by
  refine Ends.act (by rw [hp]; exact fun e => nomatch e) ?_
  rw [hp]
  cases hr : w.running with
  | true => exact ⟨0, if_pos rfl, ht, rfl, rfl, rfl⟩
  | false =>
    have e1 : ∀ pc, (w.after t (w.time, false, pc, [])).pcs t = pc := fun pc => if_pos rfl
    refine Ends.act (by show (w.after t (w.time, false, .call, [])).pcs t ≠ _; rw [e1]; exact fun e => nomatch e) ?_
    rw [show (w.after t (stepPc w.time false .look)).pcs t = .call from e1 _]
    generalize hw2 : (w.after t (stepPc w.time false .look)).after t (stepPc (w.after t (stepPc w.time false .look)).time
      (w.after t (stepPc w.time false .look)).running .call) = w2
    have p2 : w2.pcs t = .set := by rw [← hw2]; exact if_pos rfl
    have t2 : w2.todo t = js := by rw [← hw2]; exact ht
    have m2 : w2.time = w.time := by rw [← hw2]; rfl
    have l2 : w2.log = (t, .told w.time) :: w.log := by rw [← hw2]; rfl
    refine Ends.act (by rw [p2]; exact fun e => nomatch e) ?_
    rw [p2]
    exact ⟨0, if_pos rfl, t2, m2, rfl, l2⟩

theorem update_ends (w : World) (t : Nat) (a : Nat) (q : Bool) (js : List Job) (hp : w.pcs t = .idle)
    (ht : w.todo t = .update a q :: js) :
    Ends w t js (scale a q) ((if w.running then [] else [(t, .told (scale a q))]) ++ (t, .asked a q) :: w.log) := by
  refine Ends.more ?_
  have e : w.step t = w.begins t (.update a q) js := by unfold World.step; rw [hp, ht]; rfl
  rw [e]
  generalize hw1 : w.begins t (.update a q) js = w1
  have p1 : w1.pcs t = .store a q := by rw [← hw1]; exact if_pos rfl
  have t1 : w1.todo t = js := by rw [← hw1]; exact if_pos rfl
  have r1 : w1.running = w.running := by rw [← hw1]; rfl
  have l1 : w1.log = w.log := by rw [← hw1]; rfl
  refine Ends.act (by rw [p1]; exact fun e => nomatch e) ?_
  rw [p1]
  generalize hw2 : w1.after t (stepPc w1.time w1.running (.store a q)) = w2
  have p2 : w2.pcs t = .mul q := by rw [← hw2]; exact if_pos rfl
  have t2 : w2.todo t = js := by rw [← hw2]; exact t1
  have m2 : w2.time = a := by rw [← hw2]; rfl
  have r2 : w2.running = w.running := by rw [← hw2]; exact r1
  have l2 : w2.log = (t, .asked a q) :: w.log := by rw [← hw2, ← l1]; rfl
  refine Ends.act (by rw [p2]; exact fun e => nomatch e) ?_
  rw [p2]
  generalize hw3 : w2.after t (stepPc w2.time w2.running (.mul q)) = w3
  have t3 : w3.todo t = js := by rw [← hw3]; exact t2
  have m3 : w3.time = a * 100 := by rw [← hw3, ← m2]; rfl
  have r3 : w3.running = w.running := by rw [← hw3]; exact r2
  have l3 : w3.log = (t, .asked a q) :: w.log := by rw [← hw3]; exact l2
  cases q with
  | false =>
    have p3 : w3.pcs t = .look := by rw [← hw3]; exact if_pos rfl
    have := look_ends w3 t js p3 t3
    rw [m3, r3, l3] at this
    exact this
  | true =>
    have p3 : w3.pcs t = .div := by rw [← hw3]; exact if_pos rfl
    refine Ends.act (by rw [p3]; exact fun e => nomatch e) ?_
    rw [p3]
    generalize hw4 : w3.after t (stepPc w3.time w3.running .div) = w4
    have t4 : w4.todo t = js := by rw [← hw4]; exact t3
    have m4 : w4.time = a * 100 / 4 := by rw [← hw4, ← m3]; rfl
    have r4 : w4.running = w.running := by rw [← hw4]; exact r3
    have l4 : w4.log = (t, .asked a true) :: w.log := by rw [← hw4]; exact l3
    have p4 : w4.pcs t = .look := by rw [← hw4]; exact if_pos rfl
    have := look_ends w4 t js p4 t4
    rw [m4, r4, l4] at this
    exact this

theorem single_out (env : Env) (c : Conn) (hc : ¬(c.state = .online ∧ !c.renegInProgress)) (hcb : c.cbs.nudgeTime = true)
    (h0 : 0 ≤ (sslDo env c .currentTimeout).2.val) :
    ∃ (a : Nat) (q : Bool) (l : Log), (updateTimeout env c).wolfTimeout = (scale a q : Nat) ∧ (updateTimeout env c).nudgeTimerRunning = true ∧
      (sslDo env c .currentTimeout).2.val = a ∧
      (updateTimeout env c).log = (if c.nudgeTimerRunning then [] else [Effect.nudgeTime (scale a q : Nat)]) ++ .timer (scale a q : Nat) :: l := by
  unfold updateTimeout
  rw [if_neg hc]
  simp only
  have h1 := (sslDo_frame env c .currentTimeout).fields
  generalize sslDo env c .currentTimeout = p at h0 h1 ⊢
  obtain ⟨c1, r⟩ := p
  simp only at h0 h1 ⊢
  have h2 : (sslVer env c1).1.cbs = c1.cbs ∧ (sslVer env c1).1.nudgeTimerRunning = c1.nudgeTimerRunning := by
    unfold sslVer; split <;> exact ⟨rfl, rfl⟩
  generalize sslVer env c1 = p at h2 ⊢
  obtain ⟨c2, v⟩ := p
  simp only at h2 ⊢
  obtain ⟨a, ha⟩ := Int.eq_ofNat_of_zero_le h0
  have key : ∃ q : Bool, (if v ≠ .dtls12 then
        let q := sslDo env c2 .quickTimeout
        (q.1, if q.2.ok then (r.val * 100).tdiv 4 else r.val * 100)
      else (c2, r.val * 100)).2 = (scale a q : Nat) ∧
      (if v ≠ .dtls12 then
        let q := sslDo env c2 .quickTimeout
        (q.1, if q.2.ok then (r.val * 100).tdiv 4 else r.val * 100)
      else (c2, r.val * 100)).1.cbs = c.cbs ∧
      (if v ≠ .dtls12 then
        let q := sslDo env c2 .quickTimeout
        (q.1, if q.2.ok then (r.val * 100).tdiv 4 else r.val * 100)
      else (c2, r.val * 100)).1.nudgeTimerRunning = c.nudgeTimerRunning := by
    by_cases hv : v ≠ .dtls12
    · rw [if_pos hv]
      have h3 := (sslDo_frame env c2 .quickTimeout).fields
      refine ⟨(sslDo env c2 .quickTimeout).2.ok, ?_, h3.2.2.1.trans (h2.1.trans h1.2.2.1),
        h3.2.2.2.2.2.1.trans (h2.2.trans h1.2.2.2.2.2.1)⟩
      show (if (sslDo env c2 .quickTimeout).2.ok then (r.val * 100).tdiv 4 else r.val * 100) = _
      rw [ha]
      cases (sslDo env c2 .quickTimeout).2.ok with
      | true => rfl
      | false => rfl
    · rw [if_neg hv]
      exact ⟨false, by show r.val * 100 = _; rw [ha]; rfl, h2.1.trans h1.2.2.1, h2.2.trans h1.2.2.2.2.2.1⟩
  generalize (if v ≠ .dtls12 then
        let q := sslDo env c2 .quickTimeout
        (q.1, if q.2.ok then (r.val * 100).tdiv 4 else r.val * 100)
      else (c2, r.val * 100)) = p at key ⊢
  obtain ⟨c3, T⟩ := p
  obtain ⟨q, hT, hcb3, hn3⟩ := key
  simp only at hT hcb3 hn3 ⊢
  subst hT
  refine ⟨a, q, c3.log, ?_, ?_, ha, ?_⟩
  · split <;> rfl
  · split
    · rfl
    · rename_i h
      show c3.nudgeTimerRunning = true
      cases hr : c3.nudgeTimerRunning with
      | true => rfl
      | false => exact absurd ⟨by show c3.cbs.nudgeTime = true; rw [hcb3, hcb], by show (!c3.nudgeTimerRunning) = true; rw [hr]; rfl⟩ h
  · cases hr : c.nudgeTimerRunning with
    | true =>
      rw [if_neg (fun h => by
        have h2 : (!c3.nudgeTimerRunning) = true := h.2
        rw [hn3, hr] at h2; cases h2)]
      rfl
    | false =>
      rw [if_pos ⟨by show c3.cbs.nudgeTime = true; rw [hcb3, hcb], by show (!c3.nudgeTimerRunning) = true; rw [hn3, hr]; rfl⟩]
      rfl

/-- C121: an update that no other thread interrupts leaves the same time and flag, and tells the host the same, as the build without
threads does on a connection `c` with the same fields, for the answers the TLS library gives there. -/
theorem C121_same_as_single (env : Env) (c : Conn) (hc : ¬(c.state = .online ∧ !c.renegInProgress)) (hcb : c.cbs.nudgeTime = true)
    (h0 : 0 ≤ (sslDo env c .currentTimeout).2.val) :
    ∃ (a : Nat) (q : Bool), (sslDo env c .currentTimeout).2.val = a ∧
      ∀ (w : World) (t : Nat) (js : List Job), w.running = c.nudgeTimerRunning → w.pcs t = .idle → w.todo t = .update a q :: js →
        ∃ n, let v := w.run (List.replicate n t)
          v.pcs t = .idle ∧ v.todo t = js ∧
          (updateTimeout env c).wolfTimeout = (v.time : Int) ∧ (updateTimeout env c).nudgeTimerRunning = v.running ∧
          ∃ l, if c.nudgeTimerRunning
            then v.log = (t, .asked a q) :: w.log ∧ (updateTimeout env c).log = .timer v.time :: l
            else v.log = (t, .told v.time) :: (t, .asked a q) :: w.log ∧
              (updateTimeout env c).log = .nudgeTime v.time :: .timer v.time :: l := by
  obtain ⟨a, q, l, h1, h2, h3, h4⟩ := single_out env c hc hcb h0
  refine ⟨a, q, h3, fun w t js hw hp ht => ?_⟩
  obtain ⟨n, e1, e2, e3, e4, e5⟩ := update_ends w t a q js hp ht
  refine ⟨n, e1, e2, by rw [h1, e3], by rw [h2, e4], l, ?_⟩
  rw [hw] at e5
  rw [e3]
  cases hr : c.nudgeTimerRunning with
  | true => rw [hr] at e5 h4; exact ⟨e5, h4⟩
  | false => rw [hr] at e5 h4; exact ⟨e5, h4⟩

/-! ## What goes wrong otherwise -/

/-- Threads 0 and 1 update (one second), 2 nudges, 3 reads. -/
def busy : World where
  todo := fun
    | 0 => [.update 1 false]
    | 1 => [.update 1 false]
    | 2 => [.nudge 2 true]
    | 3 => [.read]
    | _ => []

theorem busy_ready : Ready busy := ⟨fun _ => rfl, rfl, rfl⟩

/-- C121, hazard: both threads store before either multiplies: the host is told to wait 10 seconds instead of a tenth.  The bound
of `C121_bounded` is reached. -/
theorem C121_blown_up :
    (1, Act.told (1 * 100 ^ 2)) ∈ (busy.run [0, 1, 0, 1, 0, 1, 0, 1, 1]).log := by decide +kernel

/-- C121, hazard: a reader gets the answer before it is scaled: one millisecond. -/
theorem C121_unscaled : (3, Act.got 1) ∈ (busy.run [0, 0, 3, 3]).log := by decide +kernel

/-- C121, hazard: both threads tell the host to start a timer. -/
theorem C121_two_timers :
    let v := busy.run [0, 0, 0, 1, 1, 1, 0, 1, 0, 1, 0, 1]
    v.log.filter (fun x => x.2 = .told 100) = [(1, .told 100), (0, .told 100)] := by decide +kernel

/-- C121, hazard: the timer fires and the host nudges before the thread that started it marks it as running; the nudging thread
finds it running, starts none, and from then on no update will: every call has ended, no timer is outstanding. -/
theorem C121_timer_lost :
    let v := busy.run [0, 0, 0, 0, 0, 2, 2, 2, 2, 2, 0, 2]
    v.pcs 0 = .idle ∧ v.pcs 2 = .idle ∧ v.todo 2 = [] ∧ outstanding v.log = false ∧ v.running = true := by decide +kernel

/-- Where a thread may be once the flag is set and no nudge is to come. -/
def Pc.harmless : Pc → Prop
  | .idle | .store _ _ | .mul _ | .div | .look | .get => True
  | _ => False

structure Stuck (o : Bool) (w : World) : Prop where
  running : w.running = true
  jobs : ∀ t, ∀ j ∈ w.todo t, ∀ a q, j ≠ .nudge a q
  pc : ∀ t, (w.pcs t).harmless
  same : outstanding w.log = o

theorem Stuck.acc {o : Bool} {w : World} (h : Stuck o w) (t : Nat) (r : Nat × Bool × Pc × List Act) (h1 : r.2.1 = true)
    (h2 : r.2.2.1.harmless) (h3 : outstanding (r.2.2.2.map (fun a => (t, a)) ++ w.log) = outstanding w.log) : Stuck o (w.after t r) where
  running := h1
  jobs := h.jobs
  pc x := by
    show (if x = t then r.2.2.1 else w.pcs x).harmless
    by_cases hx : x = t
    · rw [if_pos hx]; exact h2
    · rw [if_neg hx]; exact h.pc x
  same := h3.trans h.same

theorem Stuck.step {o : Bool} {w : World} (h : Stuck o w) (t : Nat) : Stuck o (w.step t) := by
  rcases step_cases w t with ⟨j, js, hp, ht, e⟩ | e
  · rw [e]
    refine ⟨h.running, fun x j' hj' => ?_, fun x => ?_, h.same⟩
    · have hj' : j' ∈ (if x = t then js else w.todo x) := hj'
      by_cases hx : x = t
      · rw [if_pos hx] at hj'; exact h.jobs t j' (by rw [ht]; exact List.mem_cons_of_mem _ hj')
      · rw [if_neg hx] at hj'; exact h.jobs x j' hj'
    · show (if x = t then j.start else w.pcs x).harmless
      by_cases hx : x = t
      · rw [if_pos hx]
        have hj := h.jobs t j (by rw [ht]; exact List.mem_cons_self)
        cases j with
        | nudge a q => exact absurd rfl (hj a q)
        | _ => trivial
      · rw [if_neg hx]; exact h.pc x
  · rw [e]
    have hh := h.pc t
    cases hp : w.pcs t with
    | mul q => exact h.acc t _ h.running (by cases q <;> trivial) rfl
    | look => exact h.acc t _ h.running (by show (if w.running then Pc.idle else Pc.call).harmless; rw [h.running]; trivial) rfl
    | clear a q => rw [hp] at hh; exact hh.elim
    | call => rw [hp] at hh; exact hh.elim
    | set => rw [hp] at hh; exact hh.elim
    | idle => exact h.acc t _ h.running trivial rfl
    | store a q => exact h.acc t _ h.running trivial rfl
    | div => exact h.acc t _ h.running trivial rfl
    | get => exact h.acc t _ h.running trivial rfl

/-- C121: once no timer is outstanding although the flag is set, no update ever starts one; only another nudge can, and nothing makes
the host nudge. -/
theorem C121_stuck (w : World) (hr : w.running = true) (hp : ∀ t, w.pcs t = .idle)
    (hj : ∀ t, ∀ j ∈ w.todo t, ∀ a q, j ≠ .nudge a q) (xs : List Nat) :
    (w.run xs).running = true ∧ outstanding (w.run xs).log = outstanding w.log := by
  have h := run_keeps (P := Stuck (outstanding w.log)) (fun _ t hv => hv.step t) w
    ⟨hr, hj, fun t => by rw [hp]; trivial, rfl⟩ xs
  exact ⟨h.running, h.same⟩

/-- One updating thread with readers: the hypotheses of `C121_one_updater`. -/
def orderly : World where
  time := 7
  todo := fun
    | 0 => [.update 1 false, .nudge 2 true, .update 2 true]
    | 1 => [.read, .read]
    | 2 => [.read]
    | _ => []

theorem orderly_ready : Ready orderly := ⟨fun _ => rfl, rfl, rfl⟩

theorem orderly_one : OneUpdates orderly 0 := by
  intro x hx j hj
  match x with
  | 0 => exact absurd rfl hx
  | 1 | 2 => simpa [orderly] using hj
  | n + 3 => exact absurd hj List.not_mem_nil

example : let v := orderly.run ([1, 1] ++ List.replicate 6 0 ++ [0, 0, 0, 2, 2] ++ List.replicate 5 0 ++ [1, 1])
    v.pcs 0 = .idle ∧ v.log.reverse = [(1, .got 7), (0, .asked 1 false), (0, .told 100), (0, .nudged), (0, .asked 2 true),
      (2, .got 2), (0, .told 50), (1, .got 50)] := by decide +kernel

end Lightway.ConcTime
