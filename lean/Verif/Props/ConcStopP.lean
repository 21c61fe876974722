import Verif.Model.ConcStop

/-!
# Disconnecting in the multithreaded build: C115
-/

namespace Lightway
open ConcStop

namespace Spec

/-- A connection in a state in which he_conn_disconnect is accepted. -/
def Stoppable (s : ConnState) : Prop :=
  s = .linkUp ∨ s = .authenticating ∨ s = .configuring ∨ s = .online

/-- Any number of threads are about to call he_conn_disconnect, the others do nothing. -/
def OnlyDisconnects (w : World) : Prop := ∀ t, w.pcs t = disconnect ∨ w.pcs t = .done false

/-- Every call has returned. -/
def Returned (w : World) : Prop := ∀ t, ∃ ok, w.pcs t = .done ok

end Spec
open Spec

theorem ConcStop.run_append (w : World) (xs ys : List Nat) : w.run (xs ++ ys) = (w.run xs).run ys := List.foldl_append ..

theorem ConcStop.run_one (w : World) (t : Nat) : w.run [t] = w.step t := rfl

theorem ConcStop.snoc {P : List Nat → Prop} (h0 : P []) (hs : ∀ xs x, P xs → P (xs ++ [x])) (xs : List Nat) : P xs := by
  have h : ∀ ys : List Nat, P ys.reverse := by
    intro ys
    induction ys with
    | nil => exact h0
    | cons y ys ih => rw [List.reverse_cons]; exact hs _ _ ih
  rw [← List.reverse_reverse xs]; exact h _

/-- A disconnecting thread has passed the check and has still to deal with DISCONNECTED. -/
def ConcStop.pending : Pc → Bool
  | .cmp [.disconnected] => true
  | .cmp [.disconnecting, .disconnected] => true
  | .write .disconnecting [.disconnected] => true
  | .write .disconnected [] => true
  | .readBack [.disconnected] => true
  | .call _ [.disconnected] => true
  | _ => false

/-- It has set a state at least once, or found it set. -/
def ConcStop.entered : Pc → Bool
  | .cmp [.disconnected] => true
  | .write .disconnected [] => true
  | .readBack _ => true
  | .call _ _ => true
  | .done true => true
  | _ => false

/-- It is about to tell the host about a state it finds, or DISCONNECTED. -/
def ConcStop.telling : Pc → Bool
  | .readBack _ => true
  | .call .disconnected _ => true
  | _ => false

/-- The points of he_conn_disconnect. -/
def ConcStop.DiscPc (p : Pc) : Prop :=
  (∃ gs, p = .start gs [.disconnecting, .disconnected] ∧ ∀ g ∈ gs, ∃ s, g = .refuse s) ∨
  p = .cmp [.disconnecting, .disconnected] ∨ p = .cmp [.disconnected] ∨
  p = .write .disconnecting [.disconnected] ∨ p = .write .disconnected [] ∨
  p = .readBack [.disconnected] ∨ p = .readBack [] ∨ (∃ v, p = .call v [.disconnected] ∨ p = .call v []) ∨ (∃ b, p = .done b)

structure ConcStop.Inv (w : World) : Prop where
  pcs : ∀ t, DiscPc (w.pcs t)
  ing : w.state = .disconnecting → ∃ t, pending (w.pcs t) = true
  ed : w.state = .disconnected → .disconnected ∈ w.told ∨ ∃ t, telling (w.pcs t) = true
  inn : (∃ t, entered (w.pcs t) = true) → w.state = .disconnecting ∨ w.state = .disconnected

/-- What one access does, for a disconnecting thread: the state stays or becomes one of the two. -/
theorem ConcStop.step_facts (st : ConnState) {p : Pc} (hp : DiscPc p) :
    let r := stepPc st p
    DiscPc r.2.1 ∧
    (r.1 = st ∨ r.1 = .disconnecting ∨ r.1 = .disconnected) ∧
    (r.1 = .disconnecting → st = .disconnecting → pending p = true → pending r.2.1 = true) ∧
    (r.1 = .disconnecting → st ≠ .disconnecting → pending r.2.1 = true) ∧
    (r.1 = .disconnected → st ≠ .disconnected → telling r.2.1 = true) ∧
    (r.1 = .disconnected → st = .disconnected → telling p = true → .disconnected ∈ r.2.2 ∨ telling r.2.1 = true) ∧
    (entered r.2.1 = true → entered p = true ∨ r.1 = .disconnecting ∨ r.1 = .disconnected) := by
  rcases hp with ⟨gs, rfl, hg⟩ | rfl | rfl | rfl | rfl | rfl | rfl | ⟨v, rfl | rfl⟩ | ⟨b, rfl⟩
  · cases gs with
    | nil => refine ⟨.inr (.inl rfl), .inl rfl, ?_, ?_, ?_, ?_, ?_⟩ <;> simp [stepPc, next, pending, telling, entered] <;> intro h <;> simp [h]
    | cons g gs =>
      obtain ⟨s, rfl⟩ := hg g (by simp)
      have hg' : ∀ g ∈ gs, ∃ s, g = .refuse s := fun g h => hg g (by simp [h])
      by_cases h : st = s
      · have e : stepPc st (.start (.refuse s :: gs) [.disconnecting, .disconnected]) = (st, .done false, []) := by
          simp [stepPc, h]
        rw [e]
        refine ⟨.inr (.inr (.inr (.inr (.inr (.inr (.inr (.inr ⟨_, rfl⟩))))))), .inl rfl, ?_, ?_, ?_, ?_, ?_⟩ <;>
          simp [pending, telling, entered] <;> (intro h; simp [h])
      · have e : stepPc st (.start (.refuse s :: gs) [.disconnecting, .disconnected]) =
            (st, .start gs [.disconnecting, .disconnected], []) := by simp [stepPc, h]
        rw [e]
        refine ⟨.inl ⟨gs, rfl, hg'⟩, .inl rfl, ?_, ?_, ?_, ?_, ?_⟩ <;>
          simp [pending, telling, entered] <;> (intro h; simp [h])
  all_goals first
    | (cases v <;> cases st <;>
        refine ⟨?_, ?_, ?_, ?_, ?_, ?_, ?_⟩ <;> simp [stepPc, next, pending, telling, entered, DiscPc])
    | (cases st <;>
        refine ⟨?_, ?_, ?_, ?_, ?_, ?_, ?_⟩ <;> simp [stepPc, next, pending, telling, entered, DiscPc])

theorem ConcStop.disc_start : DiscPc disconnect := by
  refine .inl ⟨_, rfl, fun g hg => ?_⟩
  simp at hg
  rcases hg with rfl | rfl | rfl | rfl <;> exact ⟨_, rfl⟩

theorem ConcStop.inv_run {w : World} (hs : Stoppable w.state) (hw : OnlyDisconnects w) (xs : List Nat) : Inv (w.run xs) := by
  induction xs using ConcStop.snoc with
  | h0 =>
    have e : w.run [] = w := rfl
    rw [e]
    constructor
    · intro t
      rcases hw t with h | h <;> rw [h]
      · exact disc_start
      · exact .inr (.inr (.inr (.inr (.inr (.inr (.inr (.inr ⟨_, rfl⟩)))))))
    · intro h; rw [h] at hs; simp [Stoppable] at hs
    · intro h; rw [h] at hs; simp [Stoppable] at hs
    · rintro ⟨t, ht⟩
      rcases hw t with h | h <;> rw [h] at ht <;> exact absurd ht (by decide)
  | hs xs x ih =>
    rw [ConcStop.run_append, ConcStop.run_one]
    generalize w.run xs = v at ih ⊢
    obtain ⟨f1, f2, f3, f4, f5, f6, f7⟩ := step_facts v.state (ih.pcs x)
    have self : (v.step x).pcs x = (stepPc v.state (v.pcs x)).2.1 := by simp [World.step]
    have other : ∀ u, u ≠ x → (v.step x).pcs u = v.pcs u := fun u hu => by simp [World.step, hu]
    have st : (v.step x).state = (stepPc v.state (v.pcs x)).1 := rfl
    have told : (v.step x).told = (stepPc v.state (v.pcs x)).2.2 ++ v.told := rfl
    generalize v.step x = v' at self other st told ⊢
    constructor
    · intro t
      by_cases h : t = x
      · rw [h, self]; exact f1
      · rw [other t h]; exact ih.pcs t
    · intro h
      rw [st] at h
      by_cases hv : v.state = .disconnecting
      · obtain ⟨t, ht⟩ := ih.ing hv
        by_cases he : t = x
        · exact ⟨x, by rw [self]; exact f3 h hv (he ▸ ht)⟩
        · exact ⟨t, by rw [other t he]; exact ht⟩
      · exact ⟨x, by rw [self]; exact f4 h hv⟩
    · intro h
      rw [st] at h
      rw [told]
      by_cases hv : v.state = .disconnected
      · rcases ih.ed hv with hm | ⟨t, ht⟩
        · exact .inl (List.mem_append_right _ hm)
        · by_cases he : t = x
          · rcases f6 h hv (he ▸ ht) with h6 | h6
            · exact .inl (List.mem_append_left _ h6)
            · exact .inr ⟨x, by rw [self]; exact h6⟩
          · exact .inr ⟨t, by rw [other t he]; exact ht⟩
      · exact .inr ⟨x, by rw [self]; exact f5 h hv⟩
    · rintro ⟨t, ht⟩
      rw [st]
      have keep : (∃ t, entered (v.pcs t) = true) → (stepPc v.state (v.pcs x)).1 = .disconnecting ∨
          (stepPc v.state (v.pcs x)).1 = .disconnected := by
        intro hx
        rcases f2 with e | e | e
        · rw [e]; exact ih.inn hx
        · exact .inl e
        · exact .inr e
      by_cases he : t = x
      · rw [he, self] at ht
        rcases f7 ht with h | h
        · exact keep ⟨x, h⟩
        · exact h
      · rw [other t he] at ht
        exact keep ⟨t, ht⟩

/-- Threads that disconnect a connection at the same time: whatever the schedule, once all calls have returned and one of them
reported success, the connection is DISCONNECTED and the host has been told so at least once. -/
theorem C115_disconnected {w : World} (hs : Stoppable w.state) (hw : OnlyDisconnects w) (xs : List Nat)
    (hr : Returned (w.run xs)) (t : Nat) (ht : (w.run xs).pcs t = .done true) :
    (w.run xs).state = .disconnected ∧ .disconnected ∈ (w.run xs).told := by
  have h := inv_run hs hw xs
  have hst : (w.run xs).state = .disconnected := by
    rcases h.inn ⟨t, by rw [ht]; rfl⟩ with e | e
    · obtain ⟨u, hu⟩ := h.ing e
      obtain ⟨ok, hok⟩ := hr u
      rw [hok] at hu; cases hu
    · exact e
  refine ⟨hst, ?_⟩
  rcases h.ed hst with hm | ⟨u, hu⟩
  · exact hm
  · obtain ⟨ok, hok⟩ := hr u
    rw [hok] at hu; cases hu

/-- A thread is past the check it makes before it changes anything. -/
def ConcStop.committed : Pc → Bool
  | .start _ _ => false
  | .done false => false
  | _ => true

theorem ConcStop.committed_step {st : ConnState} {p : Pc} (h : committed p = true) : committed (stepPc st p).2.1 = true := by
  have hn : ∀ todo, committed (next todo) = true := by intro todo; cases todo <;> rfl
  cases p with
  | start gs todo => cases h
  | cmp todo =>
    cases todo with
    | nil => rfl
    | cons s r =>
      unfold stepPc
      by_cases e : st = s
      · simp only [if_pos e]; exact hn r
      · simp only [if_neg e]; rfl
  | write s todo => rfl
  | readBack todo => rfl
  | call v todo => exact hn todo
  | done ok => exact h

/-- Some call succeeds: once all have returned, if there was any, one of them has reported success. -/
theorem C115_someone_succeeds {w : World} (hs : Stoppable w.state) (hw : OnlyDisconnects w) (xs : List Nat)
    (hr : Returned (w.run xs)) (t : Nat) (ht : w.pcs t = disconnect) : ∃ u, (w.run xs).pcs u = .done true := by
  have key : ((w.run xs).state = w.state ∧ ∀ u, (w.run xs).pcs u = .done false ∧ u ≠ t ∨
      ∃ gs todo, (w.run xs).pcs u = .start gs todo ∧ ∀ g ∈ gs, ∃ s, g = .refuse s ∧ ¬Stoppable s) ∨
      ∃ u, committed ((w.run xs).pcs u) = true := by
    clear hr
    induction xs using ConcStop.snoc with
    | h0 =>
      refine .inl ⟨rfl, fun u => ?_⟩
      rcases hw u with h | h
      · refine .inr ⟨_, _, h, fun g hg => ?_⟩
        simp at hg
        rcases hg with rfl | rfl | rfl | rfl <;> exact ⟨_, rfl, by simp [Stoppable]⟩
      · refine .inl ⟨h, fun e => ?_⟩
        rw [e, ht] at h; cases h
    | hs xs x ih =>
      rw [ConcStop.run_append, ConcStop.run_one]
      generalize w.run xs = v at ih ⊢
      have self : (v.step x).pcs x = (stepPc v.state (v.pcs x)).2.1 := by simp [World.step]
      have other : ∀ u, u ≠ x → (v.step x).pcs u = v.pcs u := fun u hu => by simp [World.step, hu]
      have st : (v.step x).state = (stepPc v.state (v.pcs x)).1 := rfl
      generalize v.step x = v' at self other st ⊢
      rcases ih with ⟨h1, h2⟩ | ⟨u, hu⟩
      · rcases h2 x with ⟨hx, hxt⟩ | ⟨gs, todo, hx, hg⟩
        · refine .inl ⟨by rw [st, hx]; exact h1, fun u => ?_⟩
          by_cases hu : u = x
          · rw [hu, self, hx]; exact .inl ⟨rfl, hxt⟩
          · rw [other u hu]; exact h2 u
        · cases gs with
          | nil =>
            refine .inr ⟨x, ?_⟩
            rw [self, hx]
            cases todo <;> rfl
          | cons g gs =>
            obtain ⟨s, rfl, hns⟩ := hg g (by simp)
            have hne : v.state ≠ s := by
              intro e
              rw [h1] at e
              exact hns (e ▸ hs)
            have e : stepPc v.state (.start (.refuse s :: gs) todo) = (v.state, .start gs todo, []) := by
              simp [stepPc, hne]
            rw [hx, e] at self st
            refine .inl ⟨by rw [st]; exact h1, fun u => ?_⟩
            by_cases hu : u = x
            · rw [hu, self]
              exact .inr ⟨gs, todo, rfl, fun g h => hg g (by simp [h])⟩
            · rw [other u hu]; exact h2 u
      · refine .inr ⟨u, ?_⟩
        by_cases he : u = x
        · rw [he] at hu
          rw [he, self]; exact committed_step hu
        · rw [other u he]; exact hu
  rcases key with ⟨_, h⟩ | ⟨u, hu⟩
  · rcases h t with ⟨_, h⟩ | ⟨gs, todo, h, _⟩
    · exact absurd rfl h
    · obtain ⟨ok, hok⟩ := hr t
      rw [hok] at h; cases h
  · obtain ⟨ok, hok⟩ := hr u
    rw [hok] at hu
    cases ok with
    | false => cases hu
    | true => exact ⟨u, hok⟩

namespace Demo

/-- Two threads disconnect a connection that is online. -/
def twoStops : World := { state := .online, pcs := fun t => if t < 2 then disconnect else .done false }

end Demo

/-- One thread on its own: the two states are set and reported in order. -/
theorem C115_alone (f : Nat → Pc) (hf : f 0 = disconnect) :
    let w := ({ state := .online, pcs := f } : World).run (List.replicate 13 0)
    w.state = .disconnected ∧ w.pcs 0 = .done true ∧ w.told = [.disconnected, .disconnecting] := by
  simp [List.replicate, World.run, World.step, hf, disconnect, stepPc, next]

/-- Both calls may succeed, and the host be told DISCONNECTED twice. -/
theorem C115_both_succeed : ∃ xs, (Demo.twoStops.run xs).pcs 0 = .done true ∧ (Demo.twoStops.run xs).pcs 1 = .done true ∧
    Returned (Demo.twoStops.run xs) ∧
    (Demo.twoStops.run xs).told = [.disconnected, .disconnecting, .disconnected, .disconnecting] := by
  refine ⟨List.replicate 5 1 ++ List.replicate 13 0 ++ List.replicate 8 1, by decide, by decide, fun t => ?_, by decide⟩
  by_cases h0 : t = 0
  · subst h0; exact ⟨true, by decide⟩
  by_cases h1 : t = 1
  · subst h1; exact ⟨true, by decide⟩
  · have : ∀ xs : List Nat, (∀ x ∈ xs, x ≠ t) → (Demo.twoStops.run xs).pcs t = Demo.twoStops.pcs t := by
      intro xs
      induction xs using ConcStop.snoc with
      | h0 => intro _; rfl
      | hs xs x ih =>
        intro h
        rw [ConcStop.run_append, ConcStop.run_one]
        have hx : t ≠ x := fun e => h x (by simp) e.symm
        simp only [World.step, if_neg hx]
        exact ih fun y hy => h y (by simp [hy])
    refine ⟨false, ?_⟩
    rw [this _ (by simp; omega)]
    show (if t < 2 then disconnect else .done false) = _
    rw [if_neg (by omega)]

/-- What the host is told last need not be the state: it may be told DISCONNECTING after DISCONNECTED, when the connection is
DISCONNECTED and stays so. -/
theorem C115_told_out_of_order : ∃ xs, (Demo.twoStops.run xs).pcs 0 = .done true ∧ (Demo.twoStops.run xs).pcs 1 = .done true ∧
    (Demo.twoStops.run xs).state = .disconnected ∧ (Demo.twoStops.run xs).told.head? = some .disconnecting :=
  ⟨List.replicate 5 1 ++ List.replicate 8 0 ++ List.replicate 6 1 ++ List.replicate 4 0, by decide, by decide, by decide, by decide⟩

/-- A disconnected connection may come back: a thread that handles an accepted login (or, on a client, the configuration) sets
ONLINE after he_conn_disconnect has returned success and DISCONNECTED was reported. -/
theorem C115_back_online :
    (∃ xs, let w := ({ state := .linkUp, pcs := fun t => if t = 0 then disconnect else if t = 1 then admitted else .done false } : World).run xs
      w.pcs 0 = .done true ∧ w.pcs 1 = .done true ∧ w.state = .online ∧ w.told = [.online, .disconnected, .disconnecting]) ∧
    (∃ xs, let w := ({ state := .authenticating, pcs := fun t => if t = 0 then disconnect else if t = 1 then configured else .done false } : World).run xs
      w.pcs 0 = .done true ∧ w.pcs 1 = .done true ∧ w.state = .online ∧
      w.told = [.online, .configuring, .disconnected, .disconnecting]) := by
  refine ⟨⟨1 :: List.replicate 13 0 ++ List.replicate 5 1, ?_⟩, ⟨1 :: 1 :: 1 :: List.replicate 13 0 ++ List.replicate 9 1, ?_⟩⟩ <;> decide

example : Stoppable Demo.twoStops.state ∧ OnlyDisconnects Demo.twoStops := by
  refine ⟨.inr (.inr (.inr rfl)), fun t => ?_⟩
  show (if t < 2 then disconnect else .done false) = _ ∨ (if t < 2 then disconnect else .done false) = _
  by_cases h : t < 2
  · exact .inl (by rw [if_pos h])
  · exact .inr (by rw [if_neg h])

end Lightway
