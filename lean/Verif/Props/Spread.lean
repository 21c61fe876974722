import Verif.Props.Plugins
import Mathlib.Tactic.Ring
import Mathlib.Tactic.FieldSimp
import Mathlib.Tactic.Positivity
import Mathlib.Tactic.Linarith
import Mathlib.Data.Rat.Cast.Order

/-!
# C65: the figures the statistics plugin prints
The C code computes them in `double`; here the arithmetic is exact.
-/

namespace Lightway

/-- `stats_mean`, in exact arithmetic. src/he/plugin_stats.c:27-29 -/
def Stats.mean (st : Stats) : ℚ := (st.sum : ℚ) / st.n

/-- The argument of the square root in `stats_stddev`, in exact arithmetic. src/he/plugin_stats.c:31-33 -/
def Stats.variance (st : Stats) : ℚ := ((st.sumsq : ℚ) - (st.sum : ℚ) * st.sum / st.n) / ((st.n : ℚ) - 1)

/-- Are the figures printed after this sample?  src/he/plugin_stats.c:67-70, 84-87; plugin_stats.h:38 -/
def Stats.printed (st : Stats) : Bool := st.n % 100000 == 0

theorem sq_dev (l : List Nat) (m : ℚ) :
    (l.map fun (s : Nat) => ((s : ℚ) - m) * ((s : ℚ) - m)).sum =
      ((l.map fun s => s * s).sum : Nat) - 2 * m * (l.sum : Nat) + (l.length : ℚ) * (m * m) := by
  induction l with
  | nil => simp
  | cons a l ih => simp only [List.map_cons, List.sum_cons, List.length_cons, ih]; push_cast; ring

/-- **C65, the figures.**  Whenever the plugin prints the figures of one direction after a packet, the divisions are by
numbers that are not zero, the mean is the mean of the lengths of the packets of that direction, the square of the
standard deviation is their sample variance, and the root is taken of a number that is not negative. -/
theorem C65_figures (ps : List (Bool × Bytes)) (dir : Bool) :
    let st : Stats := if dir then (statsRun {} ps).incoming else (statsRun {} ps).outgoing
    let lens : List Nat := (ps.filter (fun p => p.1 == dir)).map (fun p => p.2.length)
    lens ≠ [] → st.printed = true →
    (st.n : ℚ) ≠ 0 ∧ (st.n : ℚ) - 1 ≠ 0 ∧
    st.mean = (lens.sum : ℚ) / lens.length ∧
    st.variance =
      (lens.map fun (s : Nat) => ((s : ℚ) - (lens.sum : ℚ) / lens.length) ^ 2).sum / ((lens.length : ℚ) - 1) ∧
    0 ≤ st.variance := by
  intro st lens hne hp
  obtain ⟨h1, h2, h3, _⟩ := (C65_stats_transparent ps).2 dir
  have h1 : st.n = lens.length := h1
  have h2 : st.sum = lens.sum := h2
  have h3 : st.sumsq = (lens.map fun s => s * s).sum := h3
  clear_value lens
  clear_value st
  have hlen : 2 ≤ lens.length := by
    have hp : st.n % 100000 = 0 := by simpa [Stats.printed] using hp
    have : lens.length ≠ 0 := by simpa using hne
    omega
  have hq : (2 : ℚ) ≤ lens.length := by exact_mod_cast hlen
  have hn : (lens.length : ℚ) ≠ 0 := by linarith
  have hn1 : (lens.length : ℚ) - 1 ≠ 0 := by
    intro h; linarith
  have e : st.variance =
      (lens.map fun (s : Nat) => ((s : ℚ) - (lens.sum : ℚ) / lens.length) ^ 2).sum / ((lens.length : ℚ) - 1) := by
    unfold Stats.variance
    simp only [sq]
    rw [sq_dev, h1, h2, h3]
    congr 1
    field_simp
    ring
  refine ⟨by rw [h1]; exact hn, by rw [h1]; exact hn1, by unfold Stats.mean; rw [h1, h2], e, ?_⟩
  rw [e]
  refine div_nonneg (List.sum_nonneg ?_) (by linarith)
  intro x hx
  obtain ⟨s, _, rfl⟩ := List.mem_map.mp hx
  positivity

/-- One hundred thousand packets: the figures are printed. -/
example : ∃ ps : List (Bool × Bytes), (ps.filter (fun p => p.1 == true)).map (fun p => p.2.length) ≠ [] ∧
    (statsRun {} ps).incoming.printed = true := by
  have key : ∀ n, (((List.replicate n (true, ([1, 2, 3] : Bytes))).filter (fun p => p.1 == true)).map
      (fun p => p.2.length)).length = n := by intro n; simp
  have h2 : ∀ n, (statsRun {} (List.replicate n (true, [1, 2, 3]))).incoming.n = n := by
    intro n
    have h := ((C65_stats_transparent (List.replicate n (true, [1, 2, 3]))).2 true).1
    exact h.trans (key n)
  refine ⟨List.replicate 100000 (true, [1, 2, 3]), ?_, ?_⟩
  · intro h
    have := key 100000
    rw [h] at this
    cases this
  · unfold Stats.printed
    rw [h2]
    rfl

end Lightway
