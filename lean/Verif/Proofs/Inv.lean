import Verif.Proofs.Frame

/-!
# The micro-step relation and the main invariant
Every API function is (proved in `Proofs/Trav.lean`) a sequence of micro steps; every micro step
preserves `Inv`.
-/

namespace Lightway
open Spec

/-! ### Effects that no history function looks at -/

/-- Effects ignored by the functions of `Spec/History.lean`. -/
def Neutral : Effect → Prop
  | .api _ | .ret _ | .state .. | .event .. | .nudgeTime _ | .role _ | .callbacks _ => False
  | _ => True

theorem PEff.neutral {c : Conn} {e : Effect} (h : PEff c e) : Neutral e := by
  cases e <;> simp_all [PEff, IoEff, Neutral]

section neutral
variable {l : Log} (log : Log) (h : ∀ x ∈ l, Neutral x)
include h

theorem stateAt_neutral : stateAt (l ++ log) = stateAt log := by
  induction l with
  | nil => rfl
  | cons x xs ih =>
    have hx := h x (by simp)
    have := ih (fun y hy => h y (by simp [hy]))
    cases x <;> simp_all [Neutral, stateAt]

theorem serverAt_neutral : serverAt (l ++ log) = serverAt log := by
  induction l with
  | nil => rfl
  | cons x xs ih =>
    have hx := h x (by simp)
    have := ih (fun y hy => h y (by simp [hy]))
    cases x <;> simp_all [Neutral, serverAt]

theorem lastApi_neutral : lastApi (l ++ log) = lastApi log := by
  induction l with
  | nil => rfl
  | cons x xs ih =>
    have hx := h x (by simp)
    have := ih (fun y hy => h y (by simp [hy]))
    cases x <;> simp_all [Neutral, lastApi]

theorem nudgeArmed_neutral : nudgeArmed (l ++ log) = nudgeArmed log := by
  induction l with
  | nil => rfl
  | cons x xs ih =>
    have hx := h x (by simp)
    have := ih (fun y hy => h y (by simp [hy]))
    cases x <;> simp_all [Neutral, nudgeArmed]

theorem renegOpen_neutral : renegOpen (l ++ log) = renegOpen log := by
  induction l with
  | nil => rfl
  | cons x xs ih =>
    have hx := h x (by simp)
    have := ih (fun y hy => h y (by simp [hy]))
    cases x <;> simp_all [Neutral, renegOpen]

theorem renegRequested_neutral : renegRequested (l ++ log) = renegRequested log := by
  induction l with
  | nil => rfl
  | cons x xs ih =>
    have hx := h x (by simp)
    have := ih (fun y hy => h y (by simp [hy]))
    cases x <;> simp_all [Neutral, renegRequested]

theorem firstSeen_neutral : firstSeen (l ++ log) = firstSeen log := by
  induction l with
  | nil => rfl
  | cons x xs ih =>
    have hx := h x (by simp)
    have := ih (fun y hy => h y (by simp [hy]))
    cases x <;> simp_all [Neutral, firstSeen]

theorem closed_neutral : closed (l ++ log) = closed log := by
  induction l with
  | nil => rfl
  | cons x xs ih =>
    have hx := h x (by simp)
    have := ih (fun y hy => h y (by simp [hy]))
    cases x <;> simp_all [Neutral, closed]

theorem registered_neutral : registered (l ++ log) = registered log := by
  induction l with
  | nil => rfl
  | cons x xs ih =>
    have hx := h x (by simp)
    have := ih (fun y hy => h y (by simp [hy]))
    cases x <;> simp_all [Neutral, registered]

end neutral

theorem closed_lastApi {l : Log} (h : closed l = true) :
    lastApi l ≠ some .clientConnect ∧ lastApi l ≠ some .serverConnect := by
  induction l with
  | nil => simp [closed] at h
  | cons x xs ih =>
    cases x with
    | api a => cases a <;> simp_all [closed, lastApi]
    | ret rc =>
      by_cases hd : lastApi xs = some .disconnect
      · simp [lastApi, hd]
      · cases rc <;> simp_all [closed, lastApi]
    | _ => simp_all [closed, lastApi]

theorem allAt_frame {c : Conn} {l log : Log} (hl : ∀ x ∈ l, PEff c x)
    (hc : closed log = true → c.cbs.outsideWrite = false) (hb : registered log = c.cbs)
    (h : AllAt Permitted log) :
    AllAt Permitted (l ++ log) := by
  induction l with
  | nil => exact h
  | cons x xs ih =>
    have hx := hl x (by simp)
    have hxs := fun y hy => hl y (List.mem_cons_of_mem x hy)
    refine ⟨?_, ih hxs⟩
    show Permitted x (xs ++ log)
    have hcl := closed_neutral log (fun y hy => (hxs y hy).neutral)
    have hrg := (registered_neutral log (fun y hy => (hxs y hy).neutral)).trans hb
    cases x <;> simp [PEff, IoEff] at hx <;> simp [Permitted, CbOk, hrg]
    · rw [hcl]
      refine ⟨hx.1, ?_, hx.2⟩
      cases hcl : closed log
      · rfl
      · have := hc hcl; simp_all
    · exact hx
    · exact hx

/-! ### Well-formed fragment tables and PMTU data -/

/-- Buffer of 1500 bytes, nodes inside it. -/
def NodeOk (n : FragNode) : Prop := n.b ≤ 1500 ∧ n.e ≤ 1500

def EntryWf (en : FragEntry) : Prop := en.data.length = 1500 ∧ ∀ n ∈ en.nodes, NodeOk n

def TableWf (t : FragTable) : Prop := ∀ i en, t.slot i = some en → EntryWf en

/-- Ranges the PMTU code maintains in every history: probe sizes start at 512 or 1250, end at 1416 and move by
multiples of eight. -/
def PmRange (p : Pmtud) : Prop :=
  (p.state ≠ .disabled → p.base = 512 ∨ p.base = 1250) ∧
  (p.effective = 0 ∨ (506 ≤ p.effective ∧ p.effective ≤ 1416)) ∧
  (p.probingSize % 8 = 0 ∨ p.probingSize % 8 = 2)

/-- The expiry check of `he_handle_msg_data_with_frag`. -/
def FragEntry.expire (en : FragEntry) (now : Int) : FragEntry :=
  if now - en.timestamp > 64 then { en.reset with timestamp := now } else en

/-- What holds of every node list the walk leaves. -/
def WalkOk (P : List FragNode → Prop) (al : Bool) : WalkRes → Prop
  | .ub => al = false
  | .done ns => P ns ∧ ns ≠ []
  | .bad ns => P ns ∧ ns ≠ []

theorem walk_nodes (al : Bool) (off len : Nat) (last : Bool) (hb : off + len ≤ 1500)
    (done skip rest : List FragNode) (h1 : ∀ n ∈ done, NodeOk n) (h2 : ∀ n ∈ skip, NodeOk n)
    (h3 : ∀ n ∈ rest, NodeOk n) (hne : done ++ skip ++ rest ≠ []) :
    WalkOk (fun ns => ∀ n ∈ ns, NodeOk n) al (walk al off len last done skip rest) := by
  fun_induction walk al off len last done skip rest with
  | case1 done skip =>
    refine ⟨fun n hn => ?_, by simpa using hne⟩
    simp at hn; rcases hn with hn | hn
    · exact h1 n hn
    · exact h2 n hn
  | case2 done skip curr rest heq ih =>
    apply ih h1
    · intro n hn
      rcases List.mem_cons.mp hn with rfl | hn
      · exact ⟨(h3 curr (by simp)).1, hb⟩
      · exact h2 n hn
    · exact fun n hn => h3 n (by simp [hn])
    · simp
  | case3 done skip curr rest hne' heq =>
    refine ⟨fun n hn => ?_, by simp⟩
    simp at hn; rcases hn with hn | hn | hn | hn
    · exact h1 n hn
    · exact h2 n hn
    · subst hn; exact ⟨by simp only; omega, (h3 curr (by simp)).2⟩
    · exact h3 n (by simp [hn])
  | case4 done skip curr hne1 hne2 hgt hal =>
    refine ⟨fun n hn => ?_, by simp⟩
    simp at hn; rcases hn with hn | hn | hn | hn
    · exact h1 n hn
    · exact h2 n hn
    · subst hn; exact h3 n (by simp)
    · subst hn; exact ⟨by simp only; omega, hb⟩
  | case5 => simp_all [WalkOk]
  | case6 done skip curr hne1 hne2 hgt next heq =>
    refine ⟨fun n hn => ?_, by simp⟩
    simp at hn; rcases hn with hn | hn | hn
    · exact h1 n hn
    · exact h2 n hn
    · subst hn; exact ⟨(h3 curr (by simp)).1, (h3 next (by simp)).1⟩
  | case7 done skip curr hne1 hne2 hgt next heq n2 r2 ih =>
    apply ih
    · intro n hn
      simp at hn; rcases hn with hn | hn | hn
      · subst hn; exact ⟨(h3 curr (by simp)).1, (h3 next (by simp)).1⟩
      · exact h2 n hn
      · exact h1 n hn
    · simp
    · exact fun n hn => h3 n (List.mem_cons_of_mem _ (List.mem_cons_of_mem _ hn))
    · simp
  | case8 done skip curr hne1 hne2 hgt next rest' hne3 ih =>
    apply ih
    · intro n hn
      simp at hn; rcases hn with hn | hn | hn
      · subst hn; exact h3 n (by simp)
      · exact h2 n hn
      · exact h1 n hn
    · simp
    · exact fun n hn => h3 n (List.mem_cons_of_mem _ hn)
    · simp
  | case9 done skip curr rest hne1 hne2 hgt hlt hal =>
    refine ⟨fun n hn => ?_, by simp⟩
    simp at hn; rcases hn with hn | hn | hn | hn
    · exact h1 n hn
    · subst hn; exact ⟨by simp only; omega, hb⟩
    · subst hn; exact h3 n (by simp)
    · exact h3 n (by simp [hn])
  | case10 => simp_all [WalkOk]
  | case11 done skip curr rest hne1 hne2 hgt hlt =>
    refine ⟨fun n hn => ?_, by simp⟩
    simp at hn; rcases hn with hn | hn | hn | hn
    · exact h1 n hn
    · exact h2 n hn
    · subst hn; exact h3 n (by simp)
    · exact h3 n (by simp [hn])

theorem update_wf {en : FragEntry} {al : Bool} {d : Bytes} {off : Nat} {last : Bool}
    (h : EntryWf en) :
    (∀ en' rc asm, en.update al d off last = some (en', rc, asm) → EntryWf en') ∧
    (al = true → (en.update al d off last).isSome = true) ∧
    (∀ en' rc, en.update al d off last = some (en', rc, true) → en'.nodes ≠ []) := by
  obtain ⟨hd, hn⟩ := h
  unfold FragEntry.update
  by_cases hb : off + d.length > maxWireMtu
  · simp only [hb, if_true]
    refine ⟨?_, by simp, by simp⟩
    intro en' rc asm he
    simp only [Option.some.injEq, Prod.mk.injEq] at he
    rw [← he.1]; exact ⟨hd, hn⟩
  · simp only [hb, if_false]
    simp only [maxWireMtu, gt_iff_lt, Nat.not_lt] at hb
    have hw : wr en.data off d = some (en.data.take off ++ d ++ en.data.drop (off + d.length)) := by
      unfold wr; rw [if_pos (by omega)]
    have hl := wr_length hw
    split
    · split
      · rw [hw]
        simp only
        refine ⟨?_, by simp, by simp⟩
        intro en' rc asm he
        simp only [Option.some.injEq, Prod.mk.injEq] at he
        rw [← he.1]
        exact ⟨by simp only; omega, by simp [NodeOk]; omega⟩
      · exact ⟨by simp, by simp_all, by simp⟩
    · rename_i hne
      have hwk := walk_nodes al off d.length last hb [] [] en.nodes (by simp) (by simp) hn
        (by simpa using hne)
      generalize walk al off d.length last [] [] en.nodes = w at hwk ⊢
      cases w with
      | ub => simp only [WalkOk] at hwk; simp [hwk]
      | bad ns =>
        refine ⟨?_, by simp, by simp⟩
        intro en' rc asm he
        simp only [Option.some.injEq, Prod.mk.injEq] at he
        rw [← he.1]; exact ⟨hd, hwk.1⟩
      | done ns =>
        rw [hw]
        cases ns with
        | nil => exact absurd rfl hwk.2
        | cons n ns =>
          simp only
          refine ⟨?_, by simp, ?_⟩
          · intro en' rc asm he
            simp only [Option.some.injEq, Prod.mk.injEq] at he
            rw [← he.1]; exact ⟨by simp only; omega, hwk.1⟩
          · intro en' rc he
            simp only [Option.some.injEq, Prod.mk.injEq] at he
            rw [← he.1]; simp

theorem fresh_wf (now : Int) : EntryWf (FragEntry.fresh now) := by
  simp [EntryWf, FragEntry.fresh, maxWireMtu]

theorem reset_wf (en : FragEntry) (now : Int) : EntryWf { en.reset with timestamp := now } := by
  simp [EntryWf, FragEntry.reset, maxWireMtu]

theorem set_wf {t : FragTable} (h : TableWf t) (id : Nat) {en : FragEntry} (he : EntryWf en) :
    TableWf (t.set id en) := by
  intro i e hi
  simp only [FragTable.set] at hi
  split at hi
  · cases hi; exact he
  · exact h i e hi

theorem delete_wf {t : FragTable} (h : TableWf t) (id : Nat) : TableWf (t.delete id) := by
  intro i e hi
  simp only [FragTable.delete] at hi
  split at hi
  · cases hi
  · exact h i e hi

theorem expire_wf {en : FragEntry} (now : Int) (h : EntryWf en) : EntryWf (en.expire now) := by
  unfold FragEntry.expire
  split
  · exact reset_wf en now
  · exact h

end Lightway
