import Verif.Model.Conc

/-!
# Concurrent receivers: C64
-/

namespace Lightway
open Conc

/-- Where a thread may start: it is about to report its first message, to arm the nudge timer, to process a header's
session id, or to clear the timer flag as a nudge. -/
def Spec.Entry (pc : Pc) : Prop := pc = .cas ∨ pc = .nudgeRead ∨ (∃ h, pc = .sess h) ∨ pc = .nudgeClear

/-- Every thread has finished. -/
def Spec.Finished (m : Sys) : Prop := ∀ pc ∈ m.pcs, pc = .done

/-- How many threads are at a given point. -/
def Conc.count (p : Pc) (m : Sys) : Nat := m.pcs.count p

theorem count_set {l : List Pc} {i : Nat} {pc pc' : Pc} (h : l[i]? = some pc) (p : Pc) :
    (l.set i pc').count p + (if pc = p then 1 else 0) = l.count p + (if pc' = p then 1 else 0) := by
  induction l generalizing i with
  | nil => simp at h
  | cons a l ih =>
    cases i with
    | zero =>
      simp only [List.getElem?_cons_zero, Option.some.injEq] at h
      subst h
      simp only [List.set_cons_zero, List.count_cons, beq_iff_eq]
      omega
    | succ i =>
      simp only [List.getElem?_cons_succ] at h
      have := ih h
      simp only [List.set_cons_succ, List.count_cons, beq_iff_eq]
      omega

/-- The invariant behind "exactly one first-message event". -/
structure Conc.FirstInv (k : Nat) (m : Sys) : Prop where
  unset : m.sh.firstMessageReceived = false → m.sh.firstEvents = 0 ∧ count .fire m = 0 ∧ count .cas m = k
  set : m.sh.firstMessageReceived = true → m.sh.firstEvents + count .fire m = 1 ∧ 0 < k

theorem Conc.FirstInv.step {k : Nat} {m : Sys} (h : FirstInv k m) (i : Nat) : FirstInv k (m.step i) := by
  unfold Sys.step
  cases hi : m.pcs[i]? with
  | none => exact h
  | some pc =>
    have hf := fun pc' => count_set (pc' := pc') hi .fire
    have hc := fun pc' => count_set (pc' := pc') hi .cas
    have key : ∀ (s : Shared) (pc' : Pc), stepPc m.sh pc = (s, pc') →
        s.firstMessageReceived = m.sh.firstMessageReceived → s.firstEvents = m.sh.firstEvents →
        pc ≠ .fire → pc' ≠ .fire → pc' ≠ .cas → (m.sh.firstMessageReceived = false → pc ≠ .cas) →
        FirstInv k { sh := s, pcs := m.pcs.set i pc' } := by
      intro s pc' _ h1 h2 h3 h4 h5 h6
      have a := hf pc'
      rw [if_neg h3, if_neg h4] at a
      constructor
      · intro hb
        have hb : m.sh.firstMessageReceived = false := by rw [← h1]; exact hb
        have g := h.unset hb
        have b := hc pc'
        rw [if_neg (h6 hb), if_neg h5] at b
        simp only [count] at g ⊢
        refine ⟨by rw [h2]; exact g.1, by omega, by omega⟩
      · intro hb
        have hb : m.sh.firstMessageReceived = true := by rw [← h1]; exact hb
        have g := h.set hb
        simp only [count] at g ⊢
        refine ⟨by rw [h2]; omega, g.2⟩
    show FirstInv k { sh := (stepPc m.sh pc).1, pcs := m.pcs.set i (stepPc m.sh pc).2 }
    cases pc with
    | cas =>
      cases hb : m.sh.firstMessageReceived with
      | true =>
        have e : stepPc m.sh .cas = (m.sh, .done) := by simp [stepPc, hb]
        rw [e]
        exact key _ _ e rfl rfl (by simp) (by simp) (by simp) (by simp [hb])
      | false =>
        have e : stepPc m.sh .cas = ({ m.sh with firstMessageReceived := true }, .fire) := by simp [stepPc, hb]
        rw [e]
        have g := h.unset hb
        have a := hf .fire
        have b := hc .fire
        simp at a b
        constructor
        · intro h; cases h
        · intro _
          simp only [count] at g ⊢
          refine ⟨by omega, by omega⟩
    | fire =>
      have a := hf .done
      have b := hc .done
      simp at a b
      have e : stepPc m.sh .fire = ({ m.sh with firstEvents := m.sh.firstEvents + 1 }, .done) := rfl
      rw [e]
      constructor
      · intro hb
        have g := h.unset hb
        simp only [count] at g
        omega
      · intro hb
        have g := h.set hb
        simp only [count] at g ⊢
        refine ⟨by omega, g.2⟩
    | nudgeRead =>
      cases hb : m.sh.nudgeRunning with
      | true =>
        have e : stepPc m.sh .nudgeRead = (m.sh, .done) := by simp [stepPc, hb]
        rw [e]; exact key _ _ e rfl rfl (by simp) (by simp) (by simp) (by simp)
      | false =>
        have e : stepPc m.sh .nudgeRead = (m.sh, .nudgeCall) := by simp [stepPc, hb]
        rw [e]; exact key _ _ e rfl rfl (by simp) (by simp) (by simp) (by simp)
    | sess hd =>
      by_cases h0 : hd = 0
      · have e : stepPc m.sh (.sess hd) = (m.sh, .done) := by simp [stepPc, h0]
        rw [e]; exact key _ _ e rfl rfl (by simp) (by simp) (by simp) (by simp)
      · by_cases h1 : hd = m.sh.sessionId
        · have e : stepPc m.sh (.sess hd) = (m.sh, .done) := by
            show (if hd = 0 then _ else if hd = m.sh.sessionId then _ else _) = _
            rw [if_neg h0, if_pos h1]
          rw [e]; exact key _ _ e rfl rfl (by simp) (by simp) (by simp) (by simp)
        · have e : stepPc m.sh (.sess hd) = (m.sh, .sessPending hd) := by
            show (if hd = 0 then _ else if hd = m.sh.sessionId then _ else _) = _
            rw [if_neg h0, if_neg h1]
          rw [e]; exact key _ _ e rfl rfl (by simp) (by simp) (by simp) (by simp)
    | sessPending hd =>
      by_cases h1 : hd = m.sh.pendingId
      · have e : stepPc m.sh (.sessPending hd) = (m.sh, .sessWrite hd) := by
          show (if hd = m.sh.pendingId then _ else _) = _
          rw [if_pos h1]
        rw [e]; exact key _ _ e rfl rfl (by simp) (by simp) (by simp) (by simp)
      · have e : stepPc m.sh (.sessPending hd) = (m.sh, .done) := by
          show (if hd = m.sh.pendingId then _ else _) = _
          rw [if_neg h1]
        rw [e]; exact key _ _ e rfl rfl (by simp) (by simp) (by simp) (by simp)
    | nudgeCall => exact key _ _ rfl rfl rfl (by simp) (by simp [stepPc]) (by simp [stepPc]) (by simp)
    | nudgeSet => exact key _ _ rfl rfl rfl (by simp) (by simp [stepPc]) (by simp [stepPc]) (by simp)
    | sessWrite _ => exact key _ _ rfl rfl rfl (by simp) (by simp [stepPc]) (by simp [stepPc]) (by simp)
    | sessClear => exact key _ _ rfl rfl rfl (by simp) (by simp [stepPc]) (by simp [stepPc]) (by simp)
    | sessEvent => exact key _ _ rfl rfl rfl (by simp) (by simp [stepPc]) (by simp [stepPc]) (by simp)
    | nudgeClear => exact key _ _ rfl rfl rfl (by simp) (by simp [stepPc]) (by simp [stepPc]) (by simp)
    | done => exact key _ _ rfl rfl rfl (by simp) (by simp [stepPc]) (by simp [stepPc]) (by simp)

theorem Conc.FirstInv.run {k : Nat} {m : Sys} (h : FirstInv k m) (sched : List Nat) : FirstInv k (m.run sched) := by
  unfold Sys.run
  induction sched generalizing m with
  | nil => exact h
  | cons i l ih => exact ih (h.step i)

theorem Conc.FirstInv.init {pcs : List Pc} (h : ∀ pc ∈ pcs, Spec.Entry pc) : FirstInv (pcs.count .cas) ⟨{}, pcs⟩ := by
  constructor
  · intro _
    refine ⟨rfl, ?_, rfl⟩
    show pcs.count .fire = 0
    rw [List.count_eq_zero]
    intro hf
    rcases h _ hf with e | e | ⟨_, e⟩ | e <;> cases e
  · intro h; cases h

/-- **C64.** However many threads receive packets, and however their steps interleave, the first-message event is
reported at most once; and exactly once when all of them have finished, if any of them came to that point. -/
theorem C64_first_message_once (pcs : List Pc) (h : ∀ pc ∈ pcs, Spec.Entry pc) (sched : List Nat) :
    let m := (⟨{}, pcs⟩ : Sys).run sched
    m.sh.firstEvents ≤ 1 ∧
    (Spec.Finished m → m.sh.firstEvents = if Pc.cas ∈ pcs then 1 else 0) := by
  intro m
  have g := (FirstInv.init h).run sched
  show m.sh.firstEvents ≤ 1 ∧ _
  change FirstInv (pcs.count .cas) m at g
  refine ⟨?_, ?_⟩
  · cases hb : m.sh.firstMessageReceived with
    | false => have := g.unset hb; omega
    | true => have := g.set hb; omega
  · intro hf
    have h0 : ∀ p, p ≠ Pc.done → count p m = 0 := by
      intro p hp
      show m.pcs.count p = 0
      rw [List.count_eq_zero]
      intro hm
      exact hp (hf p hm)
    have hfire := h0 .fire (by simp)
    have hcas := h0 .cas (by simp)
    cases hb : m.sh.firstMessageReceived with
    | false =>
      have := g.unset hb
      rw [if_neg]
      · omega
      · rw [← List.count_pos_iff]; omega
    | true =>
      have := g.set hb
      rw [if_pos]
      · omega
      · rw [← List.count_pos_iff]; omega

/-- Invariant: the session id is the old one or the one that was pending. -/
structure Conc.SessInv (s0 p0 : Nat) (m : Sys) : Prop where
  ses : m.sh.sessionId = s0 ∨ m.sh.sessionId = p0
  pend : m.sh.pendingId = p0 ∨ m.sh.pendingId = 0
  chk : ∀ h, Pc.sessPending h ∈ m.pcs → h ≠ 0
  wr : ∀ h, Pc.sessWrite h ∈ m.pcs → h = p0

theorem Conc.SessInv.step {s0 p0 : Nat} {m : Sys} (h : SessInv s0 p0 m) (i : Nat) : SessInv s0 p0 (m.step i) := by
  unfold Sys.step
  cases hi : m.pcs[i]? with
  | none => exact h
  | some pc =>
    have hmem : pc ∈ m.pcs := List.mem_of_getElem? hi
    have sub : ∀ pc' q, q ∈ m.pcs.set i pc' → q = pc' ∨ q ∈ m.pcs := fun pc' q hq =>
      (List.mem_or_eq_of_mem_set hq).symm
    show SessInv s0 p0 { sh := (stepPc m.sh pc).1, pcs := m.pcs.set i (stepPc m.sh pc).2 }
    have e : ∃ s pc', stepPc m.sh pc = (s, pc') ∧ (s.sessionId = s0 ∨ s.sessionId = p0) ∧
        (s.pendingId = p0 ∨ s.pendingId = 0) ∧ (∀ h, pc' = .sessPending h → h ≠ 0) ∧
        (∀ h, pc' = .sessWrite h → h = p0) := by
      cases pc with
      | cas =>
        show ∃ s pc', (if m.sh.firstMessageReceived = true then _ else _) = (s, pc') ∧ _
        split
        · exact ⟨_, _, rfl, h.ses, h.pend, by simp, by simp⟩
        · exact ⟨_, _, rfl, h.ses, h.pend, by simp, by simp⟩
      | nudgeRead =>
        show ∃ s pc', (if m.sh.nudgeRunning = true then _ else _) = (s, pc') ∧ _
        split
        · exact ⟨_, _, rfl, h.ses, h.pend, by simp, by simp⟩
        · exact ⟨_, _, rfl, h.ses, h.pend, by simp, by simp⟩
      | sess hd =>
        show ∃ s pc', (if hd = 0 then _ else if hd = m.sh.sessionId then _ else _) = (s, pc') ∧ _
        split
        · exact ⟨_, _, rfl, h.ses, h.pend, by simp, by simp⟩
        · rename_i h0
          split
          · exact ⟨_, _, rfl, h.ses, h.pend, by simp, by simp⟩
          · exact ⟨_, _, rfl, h.ses, h.pend, fun x hx => by injection hx with hx; rw [← hx]; exact h0, by simp⟩
      | sessPending hd =>
        show ∃ s pc', (if hd = m.sh.pendingId then _ else _) = (s, pc') ∧ _
        split
        · rename_i h1
          refine ⟨_, _, rfl, h.ses, h.pend, by simp, fun x hx => ?_⟩
          injection hx with hx
          have := h.chk _ hmem
          rcases h.pend with g | g
          · rw [← hx, h1, g]
          · exact absurd (h1.trans g) this
        · exact ⟨_, _, rfl, h.ses, h.pend, by simp, by simp⟩
      | sessWrite hd => exact ⟨_, _, rfl, .inr (h.wr _ hmem), h.pend, by simp, by simp⟩
      | sessClear => exact ⟨_, _, rfl, h.ses, .inr rfl, by simp, by simp⟩
      | _ => exact ⟨_, _, rfl, h.ses, h.pend, by simp, by simp⟩
    obtain ⟨s, pc', e, h1, h2, h3, h4⟩ := e
    rw [e]
    refine ⟨h1, h2, fun x hx => ?_, fun x hx => ?_⟩
    · rcases sub _ _ hx with hx | hx
      · exact h3 x hx.symm
      · exact h.chk x hx
    · rcases sub _ _ hx with hx | hx
      · exact h4 x hx.symm
      · exact h.wr x hx

/-- **C64.** Whatever ids the concurrently received headers carry, the session id never becomes anything but the
pending one. -/
theorem C64_session_id (sh : Shared) (pcs : List Pc) (h : ∀ pc ∈ pcs, Spec.Entry pc) (sched : List Nat) :
    let m := (⟨sh, pcs⟩ : Sys).run sched
    (m.sh.sessionId = sh.sessionId ∨ m.sh.sessionId = sh.pendingId) ∧
    (m.sh.pendingId = sh.pendingId ∨ m.sh.pendingId = 0) := by
  intro m
  have h0 : SessInv sh.sessionId sh.pendingId ⟨sh, pcs⟩ := by
    refine ⟨.inl rfl, .inl rfl, fun x hx => ?_, fun x hx => ?_⟩ <;>
      (rcases h _ hx with e | e | ⟨_, e⟩ | e <;> cases e)
  have : SessInv sh.sessionId sh.pendingId m := by
    show SessInv _ _ (sched.foldl Sys.step ⟨sh, pcs⟩)
    generalize (⟨sh, pcs⟩ : Sys) = m0 at h0
    induction sched generalizing m0 with
    | nil => exact h0
    | cons i l ih => exact ih (m0.step i) (h0.step i)
  exact ⟨this.ses, this.pend⟩

/-- **C64** The nudge callback can run twice although no nudge cleared the flag in between: two receivers both see the
timer stopped. -/
theorem C64_nudge_race :
    let m := (⟨{}, [.nudgeRead, .nudgeRead]⟩ : Sys).run [0, 1, 0, 1, 0, 1]
    m.sh.nudgeCalls = 2 ∧ Spec.Finished m ∧ m.sh.nudgeRunning = true := by
  refine ⟨by decide, by unfold Spec.Finished; decide, ?_⟩ <;> decide

/-- **C64** One rotation can be acknowledged twice: two receivers of the new id both see it pending. -/
theorem C64_ack_race :
    let m := (⟨{ sessionId := 5, pendingId := 7 }, [.sess 7, .sess 7]⟩ : Sys).run [0, 1, 0, 1, 0, 0, 0, 1, 1, 1]
    m.sh.ackEvents = 2 ∧ Spec.Finished m ∧ m.sh.sessionId = 7 ∧ m.sh.pendingId = 0 := by
  refine ⟨by decide, by unfold Spec.Finished; decide, ?_⟩ <;> decide

/-- Non-vacuity: three threads, one event, all finished. -/
example :
    let pcs : List Pc := [.cas, .cas, .sess 7]
    let m := (⟨{ sessionId := 5, pendingId := 7 }, pcs⟩ : Sys).run [0, 1, 2, 0, 2, 1, 2, 2, 2]
    (∀ pc ∈ pcs, Spec.Entry pc) ∧ m.sh.firstEvents = 1 ∧ Spec.Finished m ∧ m.sh.sessionId = 7 := by
  refine ⟨?_, by decide, by unfold Spec.Finished; decide, by decide⟩
  intro pc h
  simp at h
  rcases h with h | h
  · exact .inl h
  · exact .inr (.inr (.inl ⟨7, h⟩))

end Lightway
