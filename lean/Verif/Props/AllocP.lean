import Verif.Model.Memory

/-!
# C92: blocks go back to the allocator they came from
-/

namespace Lightway

namespace Spec

/-- Blocks in use after a history of requests. -/
def inUse : List MemOp → List Nat → List Nat
  | [], live => live
  | .set _ _ :: r, live => inUse r live
  | .malloc p :: r, live => inUse r (p :: live)
  | .calloc p :: r, live => inUse r (p :: live)
  | .realloc p q :: r, live => inUse r (q :: live.erase p)
  | .free p :: r, live => inUse r (live.erase p)

/-- The functions of a host that may be combined: they belong to one allocator (`fam` says which; the C library's
functions are an allocator of their own). -/
def Coherent (fam : Option Nat → Nat) (a : Allocators) : Prop :=
  fam a.calloc = fam a.malloc ∧ fam a.realloc = fam a.malloc ∧ fam a.free = fam a.malloc

/-- May this request follow this history?  New functions only when nothing is in use, only blocks in use are given
back, and an allocator never hands out a block that is in use. -/
def Proper (fam : Option Nat → Nat) (before : List MemOp) : MemOp → Prop
  | .set a ok => ok = true → Coherent fam a ∧ inUse before [] = []
  | .malloc p | .calloc p => p ∉ inUse before []
  | .realloc p q => p ∈ inUse before [] ∧ q ∉ (inUse before []).erase p
  | .free p => p ∈ inUse before []

/-- Every request of the history is proper. -/
def ProperHistory (fam : Option Nat → Nat) (ops : List MemOp) : Prop :=
  ∀ before op after, ops = before ++ op :: after → Proper fam before op

/-- The function that handed out a block most recently. -/
def origin (p : Nat) : List MemCall → Option (Option Nat)
  | [] => none
  | .got f q :: l => if q = p then some f else origin p l
  | .gave _ _ :: l => origin p l

end Spec
open Spec

theorem inUse_append (a b : List MemOp) (live : List Nat) : inUse (a ++ b) live = inUse b (inUse a live) := by
  induction a generalizing live with
  | nil => rfl
  | cons o a ih => cases o <;> exact ih _

theorem memRun_snoc (ops : List MemOp) (o : MemOp) : memRun (ops ++ [o]) = memStep (memRun ops) o := by
  unfold memRun; rw [List.foldl_append]; rfl

theorem Spec.ProperHistory.init {fam : Option Nat → Nat} {ops : List MemOp} {o : MemOp} (h : ProperHistory fam (ops ++ [o])) :
    ProperHistory fam ops ∧ Proper fam ops o :=
  ⟨fun b x a e => h b x (a ++ [o]) (by rw [e]; simp), h ops o [] rfl⟩

theorem snocInduct {α : Type} {P : List α → Prop} (h0 : P []) (h1 : ∀ l a, P l → P (l ++ [a])) (l : List α) : P l := by
  rw [← List.reverse_reverse l]
  induction l.reverse with
  | nil => exact h0
  | cons a l ih => rw [List.reverse_cons]; exact h1 _ _ ih

/-- What holds after a proper history. -/
structure MemInv (fam : Option Nat → Nat) (live : List Nat) (m : MemSt) : Prop where
  coh : Coherent fam m.fns
  nodup : live.Nodup
  here : ∀ p ∈ live, ∃ f, origin p m.calls = some f ∧ fam f = fam m.fns.malloc
  back : ∀ newer f p older, m.calls = newer ++ .gave f p :: older → ∃ g, origin p older = some g ∧ fam g = fam f

theorem heMalloc_eq (m : MemSt) (p : Nat) : heMalloc m p = { m with calls := .got m.fns.malloc p :: m.calls } := by
  unfold heMalloc; split <;> simp_all
theorem heCalloc_eq (m : MemSt) (p : Nat) : heCalloc m p = { m with calls := .got m.fns.calloc p :: m.calls } := by
  unfold heCalloc; split <;> simp_all
theorem heRealloc_eq (m : MemSt) (p q : Nat) :
    heRealloc m p q = { m with calls := .got m.fns.realloc q :: .gave m.fns.realloc p :: m.calls } := by
  unfold heRealloc; split <;> simp_all
theorem heFree_eq (m : MemSt) (p : Nat) : heFree m p = { m with calls := .gave m.fns.free p :: m.calls } := by
  unfold heFree; split <;> simp_all

theorem MemInv.got {fam : Option Nat → Nat} {live : List Nat} {m : MemSt} (h : MemInv fam live m) {p : Nat}
    (hp : p ∉ live) {f : Option Nat} (hf : fam f = fam m.fns.malloc) :
    MemInv fam (p :: live) { m with calls := .got f p :: m.calls } := by
  refine ⟨h.coh, List.nodup_cons.mpr ⟨hp, h.nodup⟩, ?_, ?_⟩
  · intro x hx
    show ∃ f', (if p = x then some f else origin x m.calls) = some f' ∧ _
    by_cases hxp : p = x
    · rw [if_pos hxp]; exact ⟨f, rfl, hf⟩
    · rw [if_neg hxp]
      rcases List.mem_cons.mp hx with hx | hx
      · exact absurd hx.symm hxp
      · exact h.here x hx
  · intro newer g x older e
    cases newer with
    | nil => cases e
    | cons a newer => injection e with _ e; exact h.back _ _ _ _ e

theorem MemInv.gave {fam : Option Nat → Nat} {live : List Nat} {m : MemSt} (h : MemInv fam live m) {p : Nat}
    (hp : p ∈ live) {f : Option Nat} (hf : fam f = fam m.fns.malloc) :
    MemInv fam (live.erase p) { m with calls := .gave f p :: m.calls } := by
  refine ⟨h.coh, h.nodup.erase p, fun x hx => h.here x (List.mem_of_mem_erase hx), ?_⟩
  intro newer g x older e
  cases newer with
  | nil =>
    injection e with e1 e2
    injection e1 with e1 e3
    subst e1 e2 e3
    obtain ⟨g, h1, h2⟩ := h.here _ hp
    exact ⟨g, h1, h2.trans hf.symm⟩
  | cons a newer => injection e with _ e; exact h.back _ _ _ _ e

theorem memRun_inv (fam : Option Nat → Nat) (ops : List MemOp) (h : ProperHistory fam ops) :
    MemInv fam (inUse ops []) (memRun ops) := by
  induction ops using snocInduct with
  | h0 => exact ⟨⟨rfl, rfl, rfl⟩, List.nodup_nil, by simp [inUse], by intro n f p o e; cases n <;> cases e⟩
  | h1 ops o ih =>
    obtain ⟨h1, h2⟩ := h.init
    have ih := ih h1
    rw [memRun_snoc, inUse_append]
    generalize memRun ops = m at *
    generalize hl : inUse ops [] = live at *
    obtain ⟨hc1, hc2, hc3⟩ := ih.coh
    cases o with
    | set a ok =>
      show MemInv fam live (setAllocators m a ok)
      unfold setAllocators
      cases ok with
      | false => exact ih
      | true =>
        obtain ⟨hc, he⟩ := h2 rfl
        rw [hl] at he
        exact ⟨hc, ih.nodup, by rw [he]; simp, ih.back⟩
    | malloc p =>
      show MemInv fam (p :: live) (heMalloc m p)
      rw [heMalloc_eq]; exact ih.got (by have := h2; simp only [Proper, hl] at this; exact this) rfl
    | calloc p =>
      show MemInv fam (p :: live) (heCalloc m p)
      rw [heCalloc_eq]; exact ih.got (by have := h2; simp only [Proper, hl] at this; exact this) hc1
    | realloc p q =>
      show MemInv fam (q :: live.erase p) (heRealloc m p q)
      rw [heRealloc_eq]
      simp only [Proper, hl] at h2
      exact (ih.gave h2.1 hc2).got h2.2 hc2
    | free p =>
      show MemInv fam (live.erase p) (heFree m p)
      rw [heFree_eq]
      simp only [Proper, hl] at h2
      exact ih.gave h2 hc3

/-- **C92, allocators are not mixed.**  If the host changes the memory functions only while the library holds nothing,
each time to functions of one allocator, every block the library gives back goes to the allocator it came from, however
often the functions are changed and whether or not wolfSSL accepts a change. -/
theorem C92_not_mixed (fam : Option Nat → Nat) (ops : List MemOp) (h : ProperHistory fam ops)
    {newer older : List MemCall} {f : Option Nat} {p : Nat} (hs : (memRun ops).calls = newer ++ .gave f p :: older) :
    ∃ g, origin p older = some g ∧ fam g = fam f :=
  (memRun_inv fam ops h).back _ _ _ _ hs

/-- The functions installed last. -/
def Spec.installed : List MemOp → Allocators → Allocators
  | [], a => a
  | .set a ok :: r, b => installed r (if ok then a else b)
  | _ :: r, b => installed r b

theorem installed_append (a b : List MemOp) (x : Allocators) : installed (a ++ b) x = installed b (installed a x) := by
  induction a generalizing x with
  | nil => rfl
  | cons o a ih => cases o <;> exact ih _

/-- **C92, the functions given are the ones used.**  Each request is served by the function last given for it, by the C
library's if none was given, and by no other call; a change refused by wolfSSL has no effect. -/
theorem C92_served_by (ops : List MemOp) (o : MemOp) :
    (memRun (ops ++ [o])).calls =
      (match o with
        | .set _ _ => []
        | .malloc p => [.got (installed ops {}).malloc p]
        | .calloc p => [.got (installed ops {}).calloc p]
        | .realloc p q => [.got (installed ops {}).realloc q, .gave (installed ops {}).realloc p]
        | .free p => [.gave (installed ops {}).free p]) ++ (memRun ops).calls := by
  have h : ∀ ops, (memRun ops).fns = installed ops {} := by
    intro ops
    induction ops using snocInduct with
    | h0 => rfl
    | h1 ops o ih =>
      rw [memRun_snoc, installed_append, ← ih]
      generalize memRun ops = m
      cases o with
      | set a ok => cases ok <;> rfl
      | malloc p => show (heMalloc m p).fns = _; rw [heMalloc_eq]; rfl
      | calloc p => show (heCalloc m p).fns = _; rw [heCalloc_eq]; rfl
      | realloc p q => show (heRealloc m p q).fns = _; rw [heRealloc_eq]; rfl
      | free p => show (heFree m p).fns = _; rw [heFree_eq]; rfl
  rw [memRun_snoc, ← h]
  generalize memRun ops = m
  cases o with
  | set a ok => cases ok <;> rfl
  | malloc p => show (heMalloc m p).calls = _; rw [heMalloc_eq]; rfl
  | calloc p => show (heCalloc m p).calls = _; rw [heCalloc_eq]; rfl
  | realloc p q => show (heRealloc m p q).calls = _; rw [heRealloc_eq]; rfl
  | free p => show (heFree m p).calls = _; rw [heFree_eq]; rfl

/-- **C92, both conditions are needed.**  A host that gives functions of one allocator but leaves `calloc` NULL has the
library hand blocks of the C library to the host's `free`, even if it does so before anything is allocated; and so does a
host that changes the functions while a block is in use. -/
theorem C92_incomplete_mixes (n : Nat) (p : Nat) :
    (memRun [.set { malloc := some n, calloc := none, realloc := some n, free := some n } true, .calloc p, .free p]).calls =
      [.gave (some n) p, .got none p] ∧
    (memRun [.calloc p, .set { malloc := some n, calloc := some n, realloc := some n, free := some n } true, .free p]).calls =
      [.gave (some n) p, .got none p] := by
  constructor <;> rfl

/-- The host of the example: functions with the same leading digit belong together. -/
def Demo.family : Option Nat → Nat
  | none => 0
  | some n => 1 + n / 10

/-- A proper history: default functions, a change, a refused change, reallocation, another change. -/
def Demo.memOps : List MemOp :=
  [.calloc 1, .free 1, .set ⟨some 10, some 11, some 12, some 13⟩ true, .calloc 1, .malloc 2,
   .set ⟨some 20, none, none, none⟩ false, .realloc 2 3, .free 1, .free 3, .set ⟨some 20, some 21, some 22, some 23⟩ true,
   .calloc 7]

instance (fam : Option Nat → Nat) (a : Allocators) : Decidable (Coherent fam a) := by unfold Coherent; infer_instance
instance (fam : Option Nat → Nat) (b : List MemOp) (o : MemOp) : Decidable (Proper fam b o) := by
  cases o <;> unfold Proper <;> infer_instance

/-- Checking a history request by request. -/
theorem Spec.ProperHistory.of_splits {fam : Option Nat → Nat} {ops : List MemOp}
    (h : ∀ k (hk : k < ops.length), Proper fam (ops.take k) ops[k]) : ProperHistory fam ops := by
  intro b o a e
  have := h b.length (by rw [e]; simp)
  simpa [e] using this

example : ProperHistory Demo.family Demo.memOps ∧ (memRun Demo.memOps).calls =
    [.got (some 21) 7, .gave (some 13) 3, .gave (some 13) 1, .got (some 12) 3, .gave (some 12) 2, .got (some 10) 2,
      .got (some 11) 1, .gave none 1, .got none 1] :=
  ⟨ProperHistory.of_splits (by decide +kernel), by decide +kernel⟩

end Lightway
