import Verif.Proofs.Trav2

/-!
# Micro steps only add to the history
-/

namespace Lightway
open Spec

theorem IoEff.noMark {c : Conn} {e : Effect} (h : IoEff c e) : NoMark e := by
  cases e <;> simp_all [IoEff, NoMark]

theorem PEff.noMark {c : Conn} {e : Effect} (h : PEff c e) : NoMark e := by
  cases e <;> simp_all [PEff, IoEff, NoMark]

theorem PFrame.logExt {c c' : Conn} (h : PFrame c c') :
    ∃ l, c'.log = l ++ c.log ∧ ∀ x ∈ l, NoMark x := by
  obtain ⟨l, ps, sl, we, pm, pn, rfl, hl⟩ := h
  exact ⟨l, rfl, fun x hx => (hl x hx).noMark⟩

/-- A micro step only adds to the history, and never a call or return marker. -/
theorem Micro.logExt {env : Env} {a : Api} {c c' : Conn} (h : Micro env a c c') :
    ∃ l, c'.log = l ++ c.log ∧ ∀ x ∈ l, NoMark x := by
  cases h with
  | io r => exact (ioStep_frame env c r).pFrame.logExt
  | state s hne h => exact ⟨[.state s c.cbs.stateChange], by simp [setState, hne], by simp [NoMark]⟩
  | configure ctx h =>
    obtain ⟨x, y, ok, ft, e, _⟩ := configure_shape env c ctx
    exact ⟨[.table ctx.maxFragEntries, .alloc ok, .callbacks ctx.cbs], by rw [e]; rfl, by simp [NoMark]⟩
  | probeAck id h hs hm => exact (handleProbeAck_frame env c id).logExt
  | probeTimeout h => exact (handleProbeTimeout_frame env c).logExt
  | startBase h hs hd => exact (startBaseProbing_frame env c).logExt
  | quiet e h => exact ⟨[e], rfl, by cases e <;> simp_all [Quiet, NoMark]⟩
  | auth e u _ he hc h hr hs hm => exact ⟨[e], rfl, by cases e <;> simp_all [AuthEff, NoMark]⟩
  | err | dueOff | sessCfg | sessClient | sessServer | rotate | sessSet | creds
  | mtu | version | pingPending | fragNext | fragNew | fragPut | fragDel => exact ⟨[], rfl, by simp⟩
  | _ => exact ⟨[_], rfl, by simp [NoMark]⟩

theorem Star.logExt {env : Env} {a : Api} {c c' : Conn} (h : M env a c c') :
    ∃ l, c'.log = l ++ c.log ∧ ∀ x ∈ l, NoMark x := by
  induction h with
  | refl => exact ⟨[], rfl, by simp⟩
  | tail _ s ih =>
    obtain ⟨l1, e1, h1⟩ := ih
    obtain ⟨l2, e2, h2⟩ := s.logExt
    refine ⟨l2 ++ l1, by rw [e2, e1]; simp, ?_⟩
    intro x hx
    rcases List.mem_append.mp hx with h | h
    · exact h2 x h
    · exact h1 x h

end Lightway
