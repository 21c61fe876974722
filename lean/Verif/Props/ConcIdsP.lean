import Verif.Model.ConcIds

/-!
# Identifiers in the multithreaded build: C114
-/

namespace Lightway
open ConcIds

namespace Spec

/-- The connection before anything is sent, with any next identifiers. -/
def Unused (w : World) : Prop := w.loaded = (fun _ => none) ∧ w.fragIds = [] ∧ w.pingIds = [] ∧ w.fragNext < 65536 ∧ w.pingNext < 65536

/-- The identifiers packets were sent in fragments with, oldest first. -/
def fragSeq (w : World) : List Nat := (w.fragIds.map (·.2)).reverse

/-- The identifiers pings were sent with, oldest first. -/
def pingSeq (w : World) : List Nat := (w.pingIds.map (·.2)).reverse

/-- No thread begins to send a ping before the others have finished choosing theirs. -/
def OneAtATime (w : World) (xs : List (Nat × Job)) : Prop :=
  ∀ pre t, (pre ++ [(t, .ping)]) <+: xs → ∀ u, u ≠ t → (w.run pre).loaded u = none

end Spec
open Spec

theorem ConcIds.run_append (w : World) (xs ys : List (Nat × Job)) : w.run (xs ++ ys) = (w.run xs).run ys :=
  List.foldl_append ..

theorem ConcIds.run_one (w : World) (x : Nat × Job) : w.run [x] = w.step x := rfl

theorem ConcIds.snoc {P : List (Nat × Job) → Prop} (h0 : P []) (hs : ∀ xs x, P xs → P (xs ++ [x])) (xs : List (Nat × Job)) : P xs := by
  have h : ∀ ys : List (Nat × Job), P ys.reverse := by
    intro ys
    induction ys with
    | nil => exact h0
    | cons y ys ih => rw [List.reverse_cons]; exact hs _ _ ih
  rw [← List.reverse_reverse xs]; exact h _

/-- What the fragment counter and the identifiers taken say of each other. -/
theorem ConcIds.frag_inv {w : World} (hw : Unused w) (xs : List (Nat × Job)) :
    (w.run xs).fragNext = (w.fragNext + (w.run xs).fragIds.length) % 65536 ∧
    fragSeq (w.run xs) = (List.range (w.run xs).fragIds.length).map (fun k => (w.fragNext + k) % 65536) := by
  induction xs using ConcIds.snoc with
  | h0 =>
    have e : w.run [] = w := rfl
    rw [e]
    refine ⟨?_, ?_⟩
    · rw [hw.2.1]; exact (Nat.mod_eq_of_lt (by simpa using hw.2.2.2.1)).symm
    · rw [fragSeq, hw.2.1]; rfl
  | hs xs x ih =>
    rw [ConcIds.run_append, ConcIds.run_one]
    generalize w.run xs = v at ih ⊢
    unfold World.step
    cases v.loaded x.1 with
    | some n => exact ih
    | none =>
      cases x.2 with
      | ping => exact ih
      | fragments =>
        obtain ⟨h1, h2⟩ := ih
        refine ⟨?_, ?_⟩
        · simp only [List.length_cons, h1]; omega
        · have e : fragSeq { v with fragNext := (v.fragNext + 1) % 65536, fragIds := (x.1, v.fragNext) :: v.fragIds } =
              fragSeq v ++ [v.fragNext] := by simp [fragSeq]
          simp only [List.length_cons]
          rw [List.range_succ, List.map_append, ← h2]
          exact e.trans (by simp [h1])

/-- On any schedule the packets sent in fragments, by whatever threads, are numbered consecutively in the order in which the
threads came to take a number. -/
theorem C114_fragments_numbered {w : World} (hw : Unused w) (xs : List (Nat × Job)) :
    fragSeq (w.run xs) = (List.range (fragSeq (w.run xs)).length).map (fun k => (w.fragNext + k) % 65536) := by
  have e : (fragSeq (w.run xs)).length = (w.run xs).fragIds.length := by simp [fragSeq]
  rw [e]; exact (ConcIds.frag_inv hw xs).2

/-- So among any 65536 packets in a row no two share an identifier, whichever threads send them. -/
theorem C114_fragments_apart {w : World} (hw : Unused w) (xs : List (Nat × Job)) {i j : Nat} {a b : Nat}
    (hi : (fragSeq (w.run xs))[i]? = some a) (hj : (fragSeq (w.run xs))[j]? = some b) (hlt : i < j) (hn : j < i + 65536) : a ≠ b := by
  rw [C114_fragments_numbered hw xs] at hi hj
  have get : ∀ {k c}, ((List.range (fragSeq (w.run xs)).length).map (fun k => (w.fragNext + k) % 65536))[k]? = some c →
      c = (w.fragNext + k) % 65536 := by
    intro k c h
    rw [List.getElem?_map, Option.map_eq_some_iff] at h
    obtain ⟨k', h', rfl⟩ := h
    obtain ⟨hl, he⟩ := List.getElem?_eq_some_iff.1 h'
    rw [List.getElem_range] at he
    rw [he]
  rw [get hi, get hj]
  omega

/-- A thread has loaded the next ping identifier and not stored it back incremented. -/
def ConcIds.Busy (w v : World) : Prop :=
  ∃ t, v.loaded t = some v.pingNext ∧ (∀ u, u ≠ t → v.loaded u = none) ∧
    (v.pingNext + 1) % 65536 = (w.pingNext + v.pingIds.length) % 65536

/-- Nobody has. -/
def ConcIds.Idle (w v : World) : Prop :=
  (∀ u, v.loaded u = none) ∧ v.pingNext = (w.pingNext + v.pingIds.length) % 65536

theorem ConcIds.ping_inv {w : World} (hw : Unused w) (xs : List (Nat × Job)) :
    OneAtATime w xs → (ConcIds.Idle w (w.run xs) ∨ ConcIds.Busy w (w.run xs)) ∧
      pingSeq (w.run xs) = (List.range (w.run xs).pingIds.length).map (fun k => (w.pingNext + k) % 65536) := by
  induction xs using ConcIds.snoc with
  | h0 =>
    intro _
    have e : w.run [] = w := rfl
    rw [e]
    refine ⟨.inl ⟨fun u => by rw [hw.1], ?_⟩, ?_⟩
    · rw [hw.2.2.1]; exact (Nat.mod_eq_of_lt (by simpa using hw.2.2.2.2)).symm
    · rw [pingSeq, hw.2.2.1]; rfl
  | hs xs x ih =>
    intro ho
    obtain ⟨h1, h2⟩ := ih (fun pre t hp u hu => ho pre t (hp.trans (List.prefix_append _ _)) u hu)
    have hmine : x.2 = .ping → ∀ u, u ≠ x.1 → (w.run xs).loaded u = none := by
      intro hx u hu
      refine ho xs x.1 ?_ u hu
      rw [← hx]
      exact List.prefix_rfl
    rw [ConcIds.run_append, ConcIds.run_one]
    generalize w.run xs = v at h1 h2 hmine ⊢
    unfold World.step
    cases hl : v.loaded x.1 with
    | some n =>
      rcases h1 with h1 | ⟨t, ht, hu, hp⟩
      · rw [h1.1] at hl; cases hl
      · have : x.1 = t := by
          refine Classical.byContradiction fun hc => ?_
          rw [hu _ hc] at hl; cases hl
        subst this
        rw [ht] at hl
        cases hl
        refine ⟨.inl ⟨fun u => ?_, hp⟩, h2⟩
        show (if u = x.1 then none else v.loaded u) = none
        by_cases h : u = x.1
        · rw [if_pos h]
        · rw [if_neg h]; exact hu u h
    | none =>
      cases hx : x.2 with
      | fragments => exact ⟨h1, h2⟩
      | ping =>
        have hn := hmine hx
        have hidle : ConcIds.Idle w v := by
          rcases h1 with h1 | ⟨t, ht, hu, hp⟩
          · exact h1
          · by_cases hc : x.1 = t
            · rw [hc, ht] at hl; cases hl
            · rw [hn t (fun e => hc e.symm)] at ht; cases ht
        refine ⟨.inr ⟨x.1, ?_, ?_, ?_⟩, ?_⟩
        · show (if x.1 = x.1 then some v.pingNext else _) = _
          rw [if_pos rfl]
        · intro u hu
          show (if u = x.1 then some v.pingNext else _) = _
          rw [if_neg hu]; exact hidle.1 u
        · show (v.pingNext + 1) % 65536 = (w.pingNext + (v.pingIds.length + 1)) % 65536
          rw [hidle.2]; omega
        · have e : ∀ f, pingSeq { v with loaded := f, pingIds := (x.1, v.pingNext) :: v.pingIds } =
              pingSeq v ++ [v.pingNext] := by intro f; simp [pingSeq]
          rw [e]
          show _ = (List.range (v.pingIds.length + 1)).map _
          rw [List.range_succ, List.map_append, ← h2, hidle.2]
          rfl

/-- Pings are numbered consecutively as long as no thread chooses an identifier while another does. -/
theorem C114_pings_numbered {w : World} (hw : Unused w) {xs : List (Nat × Job)} (ho : OneAtATime w xs) :
    pingSeq (w.run xs) = (List.range (pingSeq (w.run xs)).length).map (fun k => (w.pingNext + k) % 65536) := by
  have e : (pingSeq (w.run xs)).length = (w.run xs).pingIds.length := by simp [pingSeq]
  rw [e]; exact (ConcIds.ping_inv hw xs ho).2

/-- One thread on its own never disturbs itself. -/
theorem C114_pings_alone {w : World} (hw : Unused w) {xs : List (Nat × Job)} (t : Nat) (ht : ∀ x ∈ xs, x.1 = t) :
    pingSeq (w.run xs) = (List.range (pingSeq (w.run xs)).length).map (fun k => (w.pingNext + k) % 65536) := by
  refine C114_pings_numbered hw fun pre t' hp u hu => ?_
  obtain ⟨r, hr⟩ := hp
  have h1 : t' = t := ht (t', .ping) (by rw [← hr]; simp)
  have h2 : ∀ x ∈ pre, x.1 = t := fun x hx => ht x (by rw [← hr]; simp [hx])
  rw [h1] at hu
  clear hr h1
  induction pre using ConcIds.snoc with
  | h0 => exact congrFun hw.1 u
  | hs ys y ih =>
    have hy : y.1 = t := h2 y (by simp)
    have ih := ih (fun x hx => h2 x (by simp [hx]))
    rw [ConcIds.run_append, ConcIds.run_one]
    generalize w.run ys = v at ih ⊢
    unfold World.step
    cases v.loaded y.1 with
    | some n =>
      show (if u = y.1 then none else v.loaded u) = none
      rw [if_neg (by rw [hy]; exact hu)]; exact ih
    | none =>
      cases y.2 with
      | fragments => exact ih
      | ping =>
        show (if u = y.1 then _ else v.loaded u) = none
        rw [if_neg (by rw [hy]; exact hu)]; exact ih

/-- Otherwise two threads may send pings with the same identifier, one right after the other, and a lagging thread may set the
counter back by any number of pings: here thread 1 sends five pings, numbers 1 to 5, while thread 0 is choosing number 1 as well,
and the next ping after that is number 2 again. -/
theorem C114_pings_collide :
    let w : World := { fragNext := 0, pingNext := 1 }
    Unused w ∧
    pingSeq (w.run [(0, .ping), (1, .ping)]) = [1, 1] ∧
    pingSeq (w.run ((0, .ping) :: List.replicate 10 (1, .ping) ++ [(0, .ping), (1, .ping)])) = [1, 1, 2, 3, 4, 5, 2] := by
  refine ⟨⟨rfl, rfl, rfl, by decide, by decide⟩, by decide, by decide⟩

namespace Demo

/-- Three threads send packets in fragments and a ping, near the end of the numbers. -/
def idJobs : List (Nat × Job) :=
  [(0, .fragments), (1, .fragments), (2, .ping), (0, .fragments), (2, .ping), (0, .ping), (0, .ping), (2, .fragments)]

def idWorld : World := { fragNext := 65534, pingNext := 65535 }

end Demo

example : fragSeq (Demo.idWorld.run Demo.idJobs) = [65534, 65535, 0, 1] ∧ pingSeq (Demo.idWorld.run Demo.idJobs) = [65535, 0] := by decide

theorem ConcIds.unused_demo : Unused Demo.idWorld := ⟨rfl, rfl, rfl, by decide, by decide⟩

example : OneAtATime Demo.idWorld Demo.idJobs := by
  intro pre t hp u hu
  have h : pre = Demo.idJobs.take pre.length ∧ Demo.idJobs[pre.length]? = some (t, .ping) ∧ pre.length < 8 := by
    obtain ⟨r, hr⟩ := hp
    rw [← hr]
    refine ⟨by simp, by simp, ?_⟩
    have := congrArg List.length hr
    simp [Demo.idJobs] at this
    omega
  obtain ⟨h1, h2, h3⟩ := h
  rw [h1]
  generalize pre.length = n at h2 h3
  have : n = 0 ∨ n = 1 ∨ n = 2 ∨ n = 3 ∨ n = 4 ∨ n = 5 ∨ n = 6 ∨ n = 7 := by omega
  rcases this with rfl | rfl | rfl | rfl | rfl | rfl | rfl | rfl <;>
    simp [Demo.idJobs] at h2 <;> subst h2 <;>
    simp [Demo.idJobs, Demo.idWorld, World.run, World.step, hu]

end Lightway
