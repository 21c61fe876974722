import Verif.Model.ConcReneg

/-!
# C123: renegotiations under several threads
-/

namespace Lightway.ConcReneg

/-! ## What the theorems speak about -/

/-- No call has begun and no renegotiation is due or under way. -/
structure Ready (w : World) : Prop where
  pcs : ∀ t, w.pcs t = .idle
  due : w.isDue = false
  progress : w.inProgress = false
  log : w.log = []

/-- A renegotiation was announced to the host and its end was not. -/
def announced : List (Nat × Act) → Bool
  | [] => false
  | (_, .started) :: _ => true
  | (_, .completed) :: _ => false
  | _ :: l => announced l

/-- How often the host asked, and how often the TLS library was told to begin. -/
def asks : List (Nat × Act) → Nat
  | [] => 0
  | (_, .asked) :: l => asks l + 1
  | _ :: l => asks l

def rekeys : List (Nat × Act) → Nat
  | [] => 0
  | (_, .rekeyed) :: l => rekeys l + 1
  | _ :: l => rekeys l

/-- STARTED and COMPLETED alternate, beginning with STARTED; the TLS library is told to begin only outside these pairs, and
never more often than the host asked. -/
def Right : List (Nat × Act) → Prop
  | [] => True
  | (_, .started) :: l => announced l = false ∧ Right l
  | (_, .completed) :: l => announced l = true ∧ Right l
  | (_, .rekeyed) :: l => announced l = false ∧ rekeys l + 1 ≤ asks l ∧ Right l
  | (_, .asked) :: l => Right l

/-- Only thread `u` receives. -/
def OneReceives (w : World) (u : Nat) : Prop := ∀ x, x ≠ u → ∀ j ∈ w.todo x, j = .schedule

/-! ## Steps -/

/-- A call begins. -/
def World.begins (w : World) (t : Nat) (j : Job) (js : List Job) : World :=
  { w with todo := fun u => if u = t then js else w.todo u, pcs := fun u => if u = t then j.start else w.pcs u }

theorem step_cases (w : World) (t : Nat) :
    (∃ j js, w.pcs t = .idle ∧ w.todo t = j :: js ∧ w.step t = w.begins t j js) ∨
    w.step t = w.after t (stepPc w.isDue w.inProgress (w.pcs t)) := by
  unfold World.step
  cases hp : w.pcs t with
  | idle =>
    cases ht : w.todo t with
    | nil => right; rfl
    | cons j js => left; exact ⟨j, js, rfl, rfl, rfl⟩
  | _ => right; rfl

theorem run_keeps {P : World → Prop} (hs : ∀ w t, P w → P (w.step t)) (w : World) (h : P w) (xs : List Nat) : P (w.run xs) := by
  induction xs generalizing w with
  | nil => exact h
  | cons t xs ih => exact ih _ (hs w t h)

/-! ## One receiving thread -/

/-- What the place of the receiving thread says about the fields and the history. -/
def Fits (d i : Bool) (l : List (Nat × Act)) : Pc → Prop
  | .idle | .sched | .due _ | .test _ => announced l = i ∧ rekeys l + d.toNat ≤ asks l
  | .clear _ => announced l = i ∧ rekeys l + 1 ≤ asks l ∧ d = true
  | .check _ => announced l = i ∧ rekeys l + d.toNat + 1 ≤ asks l
  | .rekey _ => announced l = false ∧ i = false ∧ rekeys l + d.toNat + 1 ≤ asks l
  | .mark _ => announced l = false ∧ rekeys l + d.toNat ≤ asks l
  | .begun _ => announced l = false ∧ i = true ∧ rekeys l + d.toNat ≤ asks l
  | .ask _ => announced l = true ∧ rekeys l + d.toNat ≤ asks l
  | .store p => announced l = p ∧ rekeys l + d.toNat ≤ asks l

structure One (u : Nat) (w : World) : Prop where
  others : ∀ x, x ≠ u → (∀ j ∈ w.todo x, j = .schedule) ∧ (w.pcs x = .idle ∨ w.pcs x = .sched)
  right : Right w.log
  fits : Fits w.isDue w.inProgress w.log (w.pcs u)

/-- A request by another thread leaves what the receiving thread's place says. -/
theorem Fits.request {d i : Bool} {l : List (Nat × Act)} {pc : Pc} (h : Fits d i l pc) (t : Nat) :
    Fits true i ((t, .asked) :: l) pc := by
  cases pc <;> simp only [Fits, announced, rekeys, asks] at h ⊢ <;> cases d <;> simp_all <;> omega

/-- An access of the receiving thread. -/
theorem Fits.own {d i : Bool} {l : List (Nat × Act)} {pc : Pc} (h : Fits d i l pc) (hr : Right l) (t : Nat) :
    Fits (stepPc d i pc).1 (stepPc d i pc).2.1 ((stepPc d i pc).2.2.2.map (fun a => (t, a)) ++ l) (stepPc d i pc).2.2.1 ∧
      Right ((stepPc d i pc).2.2.2.map (fun a => (t, a)) ++ l) := by
  cases pc with
  | ask p => cases p <;> cases d <;> cases i <;> simp_all [Fits, stepPc, announced, rekeys, asks, Right]
  | store p => cases p <;> cases d <;> cases i <;> simp_all [Fits, stepPc]
  | _ => cases d <;> cases i <;> simp_all [Fits, stepPc, announced, rekeys, asks, Right] <;> omega

theorem One.step {u : Nat} {w : World} (h : One u w) (t : Nat) : One u (w.step t) := by
  rcases step_cases w t with ⟨j, js, hp, ht, e⟩ | e
  · rw [e]
    refine ⟨fun x hx => ?_, h.right, ?_⟩
    · by_cases hxt : x = t
      · subst hxt
        have hj : j = .schedule := (h.others x hx).1 j (by rw [ht]; exact List.mem_cons_self)
        refine ⟨?_, Or.inr ?_⟩
        · show ∀ j' ∈ (if x = x then js else w.todo x), _
          rw [if_pos rfl]
          exact fun j' hj' => (h.others x hx).1 j' (by rw [ht]; exact List.mem_cons_of_mem _ hj')
        · show (if x = x then j.start else w.pcs x) = _
          rw [if_pos rfl, hj]; rfl
      · exact ⟨by show ∀ j' ∈ (if x = t then js else w.todo x), _; rw [if_neg hxt]; exact (h.others x hx).1,
          by show (if x = t then _ else w.pcs x) = _ ∨ (if x = t then _ else w.pcs x) = _; rw [if_neg hxt]; exact (h.others x hx).2⟩
    · show Fits w.isDue w.inProgress w.log (if u = t then j.start else w.pcs u)
      by_cases hu : u = t
      · subst hu
        have hf := h.fits
        rw [hp] at hf
        rw [if_pos rfl]
        cases j <;> exact hf
      · rw [if_neg hu]; exact h.fits
  · rw [e]
    by_cases hu : t = u
    · subst hu
      have hown := h.fits.own h.right t
      refine ⟨fun x hx => ⟨(h.others x hx).1, ?_⟩, hown.2, ?_⟩
      · show (if x = t then _ else w.pcs x) = _ ∨ (if x = t then _ else w.pcs x) = _
        rw [if_neg hx]; exact (h.others x hx).2
      · show Fits _ _ _ (if t = t then _ else w.pcs t)
        rw [if_pos rfl]; exact hown.1
    · have pu : ∀ r : Bool × Bool × Pc × List Act, (w.after t r).pcs u = w.pcs u := fun r => if_neg (fun e => hu e.symm)
      have oth : ∀ r : Bool × Bool × Pc × List Act, r.2.2.1 = .idle → ∀ x, x ≠ u → (∀ j ∈ (w.after t r).todo x, j = .schedule) ∧
          ((w.after t r).pcs x = .idle ∨ (w.after t r).pcs x = .sched) := fun r hr x hx => by
        refine ⟨(h.others x hx).1, ?_⟩
        show (if x = t then r.2.2.1 else w.pcs x) = _ ∨ (if x = t then r.2.2.1 else w.pcs x) = _
        by_cases hxt : x = t
        · rw [if_pos hxt]; exact Or.inl hr
        · rw [if_neg hxt]; exact (h.others x hx).2
      rcases (h.others t hu).2 with hp | hp
      · rw [hp]
        exact ⟨oth _ rfl, h.right, by rw [pu]; exact h.fits⟩
      · rw [hp]
        exact ⟨oth _ rfl, h.right, by rw [pu]; exact h.fits.request t⟩

/-- C123: if one thread does all the receiving, while any number of threads ask for renegotiations, the host is told of them in
order, each start followed by its end before the next start, the TLS library is never told to begin one while another is announced,
and never more often than the host asked. -/
theorem C123_one_receiver (w : World) (hw : Ready w) {u : Nat} (h1 : OneReceives w u) (xs : List Nat) : Right (w.run xs).log := by
  refine (run_keeps (P := One u) (fun _ t hv => hv.step t) w ⟨fun x hx => ⟨h1 x hx, Or.inl (hw.pcs x)⟩, ?_, ?_⟩ xs).right
  · rw [hw.log]; trivial
  · rw [hw.pcs, hw.log, hw.due, hw.progress]; exact ⟨rfl, Nat.le_refl 0⟩

/-- C123: and when the receiving thread is between calls, a renegotiation counts as in progress exactly if it was announced and its
end was not. -/
theorem C123_between (w : World) (hw : Ready w) {u : Nat} (h1 : OneReceives w u) (xs : List Nat) (hi : (w.run xs).pcs u = .idle) :
    (w.run xs).inProgress = announced (w.run xs).log := by
  have h := (run_keeps (P := One u) (fun _ t hv => hv.step t) w ⟨fun x hx => ⟨h1 x hx, Or.inl (hw.pcs x)⟩,
    by rw [hw.log]; trivial, by rw [hw.pcs, hw.log, hw.due, hw.progress]; exact ⟨rfl, Nat.le_refl 0⟩⟩ xs).fits
  rw [hi] at h
  exact h.1.symm

/-! ## Any number of receiving threads -/

/-- Nothing happens without a cause. -/
def Caused : List (Nat × Act) → Prop
  | [] => True
  | (_, .rekeyed) :: l => (∃ t, (t, Act.asked) ∈ l) ∧ Caused l
  | (_, .started) :: l => (∃ t, (t, Act.rekeyed) ∈ l) ∧ Caused l
  | (_, .completed) :: l => (∃ t, (t, Act.rekeyed) ∈ l) ∧ Caused l
  | (_, .asked) :: l => Caused l

/-- What must have happened before a thread is at this place. -/
def Needs (l : List (Nat × Act)) : Pc → Prop
  | .idle | .sched | .due _ | .test _ => True
  | .clear _ | .check _ | .rekey _ => ∃ t, (t, Act.asked) ∈ l
  | .mark _ | .begun _ | .ask _ | .store _ => ∃ t, (t, Act.rekeyed) ∈ l

theorem Needs.more {l : List (Nat × Act)} {pc : Pc} (h : Needs l pc) (k : List (Nat × Act)) : Needs (k ++ l) pc := by
  cases pc <;> first | trivial | exact h.elim fun t ht => ⟨t, List.mem_append_right _ ht⟩

structure Any (w : World) : Prop where
  caused : Caused w.log
  due : w.isDue = true → ∃ t, (t, Act.asked) ∈ w.log
  progress : w.inProgress = true → ∃ t, (t, Act.rekeyed) ∈ w.log
  pc : ∀ t, Needs w.log (w.pcs t)

theorem Any.acc {w : World} (h : Any w) (t : Nat) (r : Bool × Bool × Pc × List Act)
    (h1 : Caused (r.2.2.2.map (fun a => (t, a)) ++ w.log))
    (h2 : r.1 = true → ∃ x, (x, Act.asked) ∈ r.2.2.2.map (fun a => (t, a)) ++ w.log)
    (h3 : r.2.1 = true → ∃ x, (x, Act.rekeyed) ∈ r.2.2.2.map (fun a => (t, a)) ++ w.log)
    (h4 : Needs (r.2.2.2.map (fun a => (t, a)) ++ w.log) r.2.2.1) : Any (w.after t r) where
  caused := h1
  due := h2
  progress := h3
  pc x := by
    show Needs _ (if x = t then r.2.2.1 else w.pcs x)
    by_cases hx : x = t
    · rw [if_pos hx]; exact h4
    · rw [if_neg hx]; exact (h.pc x).more _

theorem Any.step {w : World} (h : Any w) (t : Nat) : Any (w.step t) := by
  rcases step_cases w t with ⟨j, js, hp, ht, e⟩ | e
  · rw [e]
    refine ⟨h.caused, h.due, h.progress, fun x => ?_⟩
    show Needs w.log (if x = t then j.start else w.pcs x)
    by_cases hx : x = t
    · rw [if_pos hx]; cases j <;> trivial
    · rw [if_neg hx]; exact h.pc x
  · rw [e]
    have hn := h.pc t
    have up : ∀ {a : Act} (b : Act), (∃ x, (x, a) ∈ w.log) → ∃ x, (x, a) ∈ (t, b) :: w.log :=
      fun b hx => hx.elim fun x hx => ⟨x, List.mem_cons_of_mem _ hx⟩
    cases hp : w.pcs t with
    | idle => exact h.acc t _ h.caused h.due h.progress trivial
    | sched =>
      exact h.acc t _ h.caused (fun _ => ⟨t, List.mem_cons_self⟩) (fun e => up _ (h.progress e)) trivial
    | due p =>
      refine h.acc t _ h.caused h.due h.progress ?_
      show Needs w.log (if w.isDue then .clear p else .test p)
      by_cases hd : w.isDue = true
      · rw [if_pos hd]; exact h.due hd
      · rw [if_neg hd]; trivial
    | clear p => rw [hp] at hn; exact h.acc t _ h.caused (fun e => nomatch e) h.progress hn
    | check p =>
      rw [hp] at hn
      refine h.acc t _ h.caused h.due h.progress ?_
      show Needs w.log (if w.inProgress then .test p else .rekey p)
      by_cases hd : w.inProgress = true
      · rw [if_pos hd]; trivial
      · rw [if_neg hd]; exact hn
    | rekey p =>
      rw [hp] at hn
      exact h.acc t _ ⟨hn, h.caused⟩ (fun e => up _ (h.due e)) (fun e => up _ (h.progress e)) ⟨t, List.mem_cons_self⟩
    | mark p => rw [hp] at hn; exact h.acc t _ h.caused h.due (fun _ => hn) hn
    | begun p =>
      rw [hp] at hn
      exact h.acc t _ ⟨hn, h.caused⟩ (fun e => up _ (h.due e)) (fun e => up _ (h.progress e)) trivial
    | test p =>
      refine h.acc t _ h.caused h.due h.progress ?_
      show Needs w.log (if w.inProgress then .ask p else .idle)
      by_cases hd : w.inProgress = true
      · rw [if_pos hd]; exact h.progress hd
      · rw [if_neg hd]; trivial
    | ask p =>
      rw [hp] at hn
      cases p with
      | true => exact h.acc t _ h.caused h.due h.progress hn
      | false =>
        exact h.acc t _ ⟨hn, h.caused⟩ (fun e => up _ (h.due e)) (fun e => up _ (h.progress e)) (up _ hn)
    | store p =>
      rw [hp] at hn
      exact h.acc t _ h.caused h.due (fun _ => hn) trivial

/-- C123: with any number of receiving threads, the TLS library is told to begin only after the host asked, and the host is told of
a start or an end only after the library was told to begin. -/
theorem C123_caused (w : World) (hw : Ready w) (xs : List Nat) : Caused (w.run xs).log := by
  refine (run_keeps (P := Any) (fun _ t hv => hv.step t) w ⟨?_, ?_, ?_, fun t => ?_⟩ xs).caused
  · rw [hw.log]; trivial
  · rw [hw.due]; exact fun e => nomatch e
  · rw [hw.progress]; exact fun e => nomatch e
  · rw [hw.pcs]; trivial

/-! ## A call alone -/

/-- What a thread does alone until its call has ended: the two fields and what happened, newest first. -/
def solo : Nat → Bool → Bool → Pc → Option (Bool × Bool × List Act)
  | _, d, i, .idle => some (d, i, [])
  | 0, _, _, _ => none
  | n + 1, d, i, pc => (solo n (stepPc d i pc).1 (stepPc d i pc).2.1 (stepPc d i pc).2.2.1).map
      fun x => (x.1, x.2.1, x.2.2 ++ (stepPc d i pc).2.2.2)

theorem solo_run (n : Nat) : ∀ (w : World) (t : Nat) (x : Bool × Bool × List Act), solo n w.isDue w.inProgress (w.pcs t) = some x →
    ∃ k, (w.run (List.replicate k t)).pcs t = .idle ∧ (w.run (List.replicate k t)).todo = w.todo ∧
      (w.run (List.replicate k t)).isDue = x.1 ∧ (w.run (List.replicate k t)).inProgress = x.2.1 ∧
      (w.run (List.replicate k t)).log = x.2.2.map (fun a => (t, a)) ++ w.log := by
  induction n with
  | zero =>
    intro w t x h
    cases hp : w.pcs t <;> rw [hp] at h <;> cases h
    exact ⟨0, hp, rfl, rfl, rfl, rfl⟩
  | succ n ih =>
    intro w t x h
    by_cases hp : w.pcs t = .idle
    · rw [hp] at h
      cases h
      exact ⟨0, hp, rfl, rfl, rfl, rfl⟩
    · have e : w.step t = w.after t (stepPc w.isDue w.inProgress (w.pcs t)) := by
        rcases step_cases w t with ⟨_, _, e, -⟩ | e
        · exact absurd e hp
        · exact e
      have h2 : solo (n + 1) w.isDue w.inProgress (w.pcs t) = (solo n (stepPc w.isDue w.inProgress (w.pcs t)).1
          (stepPc w.isDue w.inProgress (w.pcs t)).2.1 (stepPc w.isDue w.inProgress (w.pcs t)).2.2.1).map
            fun x => (x.1, x.2.1, x.2.2 ++ (stepPc w.isDue w.inProgress (w.pcs t)).2.2.2) := by
        generalize w.pcs t = pc at hp ⊢
        cases pc <;> first | exact absurd rfl hp | rfl
      rw [h2] at h
      obtain ⟨y, hy, rfl⟩ := Option.map_eq_some_iff.mp h
      have pt : (w.after t (stepPc w.isDue w.inProgress (w.pcs t))).pcs t = (stepPc w.isDue w.inProgress (w.pcs t)).2.2.1 := if_pos rfl
      obtain ⟨k, k1, k2, k3, k4, k5⟩ := ih (w.after t (stepPc w.isDue w.inProgress (w.pcs t))) t y (by rw [pt]; exact hy)
      rw [← e] at k1 k2 k3 k4 k5
      refine ⟨k + 1, k1, k2.trans ?_, k3, k4, k5.trans ?_⟩
      · rw [e]; rfl
      · rw [e, List.map_append, List.append_assoc]; rfl

/-- C123: a receive that no other thread interrupts takes up a pending request unless a renegotiation is in progress, and afterwards one
is in progress exactly if there was one or one was begun and the TLS library says it is still under way; the host is told of the start
and of the end, in this order. -/
theorem C123_alone (w : World) (t : Nat) (p : Bool) (js : List Job) (hp : w.pcs t = .idle) (ht : w.todo t = .receive p :: js) :
    ∃ k, let v := w.run (List.replicate k t)
      let begins := w.isDue && !w.inProgress
      let active := begins || w.inProgress
      v.pcs t = .idle ∧ v.todo t = js ∧ v.isDue = false ∧ v.inProgress = (active && p) ∧
      v.log = (if active && !p then [(t, .completed)] else []) ++ (if begins then [(t, .started), (t, .rekeyed)] else []) ++ w.log := by
  have e : w.step t = w.begins t (.receive p) js := by unfold World.step; rw [hp, ht]; rfl
  have pt : (w.begins t (.receive p) js).pcs t = .due p := if_pos rfl
  have h : solo 10 w.isDue w.inProgress (.due p) = some (false, ((w.isDue && !w.inProgress || w.inProgress) && p),
      (if (w.isDue && !w.inProgress || w.inProgress) && !p then [Act.completed] else []) ++
        (if w.isDue && !w.inProgress then [.started, .rekeyed] else [])) := by
    cases w.isDue <;> cases w.inProgress <;> cases p <;> rfl
  obtain ⟨k, k1, k2, k3, k4, k5⟩ := solo_run 10 (w.begins t (.receive p) js) t _ (by rw [pt]; exact h)
  rw [← e] at k1 k2 k3 k4 k5
  refine ⟨k + 1, k1, ?_, k3, k4, k5.trans ?_⟩
  · show ((w.step t).run (List.replicate k t)).todo t = js
    rw [k2, e]; exact if_pos rfl
  · rw [e]
    show _ ++ w.log = _
    cases w.isDue <;> cases w.inProgress <;> cases p <;> rfl

/-! ## What goes wrong otherwise -/

/-- Threads 0 and 1 receive, 2 asks for renegotiations. -/
def busy : World where
  todo := fun
    | 0 => [.receive true, .receive false, .receive false]
    | 1 => [.receive false, .receive false]
    | 2 => [.schedule, .schedule]
    | _ => []

theorem busy_ready : Ready busy := ⟨fun _ => rfl, rfl, rfl, rfl⟩

/-- C123, hazard: the host asks once, both threads have the TLS library begin. -/
theorem C123_begun_twice :
    let v := busy.run [2, 2, 0, 0, 1, 1, 0, 1, 0, 1, 0, 1]
    asks v.log = 1 ∧ rekeys v.log = 2 := by decide +kernel

/-- C123, hazard: the host is told of the end before the start. -/
theorem C123_end_before_start :
    let v := busy.run [2, 2, 0, 0, 0, 0, 0, 0, 1, 1, 1, 1, 0]
    v.log.reverse = [(2, .asked), (0, .rekeyed), (1, .completed), (0, .started)] := by decide +kernel

/-- C123, hazard: the host is told of one end twice. -/
theorem C123_end_twice :
    let v := busy.run ([2, 2] ++ List.replicate 10 0 ++ [0, 0, 0, 1, 1, 1, 0, 1])
    v.log.reverse = [(2, .asked), (0, .rekeyed), (0, .started), (0, .completed), (1, .completed)] := by decide +kernel

/-- C123, hazard: a thread stores that an earlier renegotiation is over after a new one began: the host was told of its start, all calls
have ended and it no longer counts as in progress, so its end will not be announced. -/
theorem C123_end_forgotten :
    let v := busy.run ([2, 2] ++ List.replicate 10 0 ++ [1, 1, 1, 1] ++ List.replicate 5 0 ++ [2, 2] ++ List.replicate 7 0 ++ [1] ++ [0])
    announced v.log = true ∧ v.inProgress = false ∧ v.pcs 0 = .idle ∧ v.todo 0 = [] ∧ v.pcs 1 = .idle := by decide +kernel

/-- One receiving thread: the hypotheses of `C123_one_receiver`. -/
def orderly : World where
  todo := fun
    | 0 => [.receive true, .receive false]
    | 1 => [.schedule]
    | 2 => [.schedule]
    | _ => []

theorem orderly_ready : Ready orderly := ⟨fun _ => rfl, rfl, rfl, rfl⟩

theorem orderly_one : OneReceives orderly 0 := by
  intro x hx j hj
  match x with
  | 0 => exact absurd rfl hx
  | 1 | 2 => simpa [orderly] using hj
  | n + 3 => exact absurd hj List.not_mem_nil

example : (orderly.run ([1, 1] ++ List.replicate 10 0 ++ [2, 2] ++ List.replicate 10 0)).log.reverse =
    [(1, .asked), (0, .rekeyed), (0, .started), (2, .asked), (0, .completed)] := by decide +kernel

end Lightway.ConcReneg
