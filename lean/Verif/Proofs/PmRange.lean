import Verif.Proofs.Inv

/-!
# The PMTU ranges that hold in every history
-/

namespace Lightway
open Spec

theorem ioFrame_pmtud {c c' : Conn} (h : IoFrame c c') : c'.pmtud = c.pmtud := h.fields.2.2.2.2.2.2.1

@[simp] theorem sendMessage_pmtud (env : Env) (c : Conn) (m : Bytes) :
    (sendMessage env c m).1.pmtud = c.pmtud := ioFrame_pmtud (sendMessage_frame env c m)

@[simp] theorem sendMessage_state (env : Env) (c : Conn) (m : Bytes) :
    (sendMessage env c m).1.state = c.state := (sendMessage_frame env c m).fields.1

@[simp] theorem sendMessage_cbs (env : Env) (c : Conn) (m : Bytes) :
    (sendMessage env c m).1.cbs = c.cbs := (sendMessage_frame env c m).fields.2.2.1

@[simp] theorem pmtudTimeCb_pmtud (env : Env) (c : Conn) (ms : Nat) :
    (pmtudTimeCb env c ms).1.pmtud = c.pmtud := rfl

/-- `sendProbe` changes counter, probe size and pending id only. -/
theorem sendProbe_pmtud (env : Env) (c : Conn) (mtu : Nat) :
    (sendProbe env c mtu).1.pmtud = c.pmtud ∨
    (c.state = .online ∧ 512 ≤ mtu ∧ mtu ≤ 1416 ∧
      ∃ pid, (sendProbe env c mtu).1.pmtud =
        { c.pmtud with probeCount := (c.pmtud.probeCount + 1) % 256, probingSize := mtu,
                       pendingId := pid }) := by
  unfold sendProbe
  split
  · exact .inl rfl
  · rename_i hst
    split
    · exact .inl rfl
    · rename_i hm
      simp only [minPlpmtu, maxPlpmtu, not_or, Nat.not_lt] at hm
      refine .inr ⟨by simpa using hst, hm.1, by omega, ?_⟩
      simp only
      have h1 := sendMessage_pmtud env { c with
        pmtud := { c.pmtud with probeCount := (c.pmtud.probeCount + 1) % 256, probingSize := mtu }
        pingNextId := (c.pingNextId + 1) % 65536 } (probeMsg c.pingNextId mtu)
      generalize sendMessage env _ (probeMsg c.pingNextId mtu) = q at h1 ⊢
      obtain ⟨c1, rc⟩ := q
      simp only at h1 ⊢
      by_cases hrc : rc = .success
      · simp only [hrc, ne_eq, not_true_eq_false, if_false]
        refine ⟨c.pingNextId, ?_⟩
        split <;> simp [h1]
      · simp only [hrc, ne_eq, not_false_eq_true, if_true]
        refine ⟨c.pmtud.pendingId, ?_⟩
        split <;> simp [h1]

theorem sendProbe_range (env : Env) {c : Conn} (mtu : Nat) (h : PmRange c.pmtud) (hm : mtu % 8 = 0 ∨ mtu % 8 = 2) :
    PmRange (sendProbe env c mtu).1.pmtud := by
  rcases sendProbe_pmtud env c mtu with h' | ⟨-, -, -, p, h'⟩ <;> rw [h']
  · exact h
  · exact ⟨h.1, h.2.1, hm⟩

/-- As `sendProbe_range`, for a size that need only be of the right form when it is accepted. -/
theorem sendProbe_range_le (env : Env) {c : Conn} {mtu : Nat} (h : PmRange c.pmtud)
    (hm : 512 ≤ mtu → mtu % 8 = 0 ∨ mtu % 8 = 2) : PmRange (sendProbe env c mtu).1.pmtud := by
  rcases sendProbe_pmtud env c mtu with h' | ⟨-, hl, -, p, h'⟩ <;> rw [h']
  · exact h
  · exact ⟨h.1, h.2.1, hm hl⟩

@[simp] theorem retryProbe_pmtud (env : Env) (c : Conn) (ms : Nat) :
    (retryProbe env c ms).1.pmtud = { c.pmtud with probeCount := 0 } := by
  unfold retryProbe
  by_cases h : c.cbs.pmtudTime = true
  · rw [if_pos h]; rfl
  · rw [if_neg h]

@[simp] theorem pmtudChangeState_pmtud (c : Conn) (s : PmtudState) :
    (pmtudChangeState c s).pmtud = { c.pmtud with state := s } := by
  unfold pmtudChangeState; simp only; split <;> rfl

theorem retryProbe_range (env : Env) {c : Conn} (ms : Nat) (h : PmRange c.pmtud) :
    PmRange (retryProbe env c ms).1.pmtud := by
  rw [retryProbe_pmtud]; exact h

theorem startBaseProbing_range (env : Env) {c : Conn} (h : PmRange c.pmtud) :
    PmRange (startBaseProbing env c).1.pmtud := by
  unfold startBaseProbing
  split
  · exact h
  · exact h
  · apply sendProbe_range
    · simp only [pmtudChangeState_pmtud]
      exact ⟨fun _ => .inr rfl, h.2⟩
    · exact .inr (show initialPlpmtu % 8 = 2 from rfl)

theorem baseConfirmed_range (env : Env) {c : Conn} (h : PmRange c.pmtud) :
    PmRange (baseConfirmed env c).1.pmtud := by
  unfold baseConfirmed
  split
  · rename_i hs
    have hb := h.1 (by rcases hs with hs | hs <;> simp [hs])
    apply sendProbe_range
    · simp only [pmtudChangeState_pmtud]
      exact ⟨fun _ => hb, h.2⟩
    · simp only [pmtudChangeState_pmtud]
      omega
  · exact h

theorem confirmBaseFailed_range (env : Env) {c : Conn} (h : PmRange c.pmtud) :
    PmRange (confirmBaseFailed env c).1.pmtud := by
  unfold confirmBaseFailed
  split
  · rename_i hs
    apply retryProbe_range
    simp only [pmtudChangeState_pmtud]
    exact ⟨fun _ => h.1 (by simp [hs]), h.2⟩
  · exact h

theorem searchCompleted_range (env : Env) {c : Conn} (h : PmRange c.pmtud)
    (hp : 506 ≤ c.pmtud.probingSize) : PmRange (searchCompleted env c).1.pmtud := by
  unfold searchCompleted
  split
  · rename_i hs
    apply retryProbe_range
    simp only [pmtudChangeState_pmtud]
    refine ⟨fun _ => h.1 (by simp [hs]), .inr ?_, h.2.2⟩
    simp only [maxPlpmtu]; omega
  · exact h

theorem blackholeDetected_range (env : Env) {c : Conn} (h : PmRange c.pmtud) :
    PmRange (blackholeDetected env c).1.pmtud := by
  unfold blackholeDetected
  split
  · apply sendProbe_range
    · simp only [pmtudChangeState_pmtud]
      exact ⟨fun _ => .inl rfl, h.2⟩
    · exact .inl (show minPlpmtu % 8 = 0 from rfl)
  · exact h

theorem handleProbeAck_range (env : Env) {c : Conn} (id : Nat) (h : PmRange c.pmtud) :
    PmRange (handleProbeAck env c id).1.pmtud := by
  unfold handleProbeAck
  split
  · exact h
  · have h0 : (if c.cbs.pmtudTime then (pmtudTimeCb env c 0).1 else c).pmtud = c.pmtud := by
      split <;> rfl
    simp only
    generalize (if c.cbs.pmtudTime then (pmtudTimeCb env c 0).1 else c) = c1 at h0 ⊢
    have h1 : PmRange { c1.pmtud with pendingId := 0, probeCount := 0 } := by rw [h0]; exact h
    split
    · exact baseConfirmed_range env h1
    · split
      · rename_i hp
        exact searchCompleted_range env h1 (by simp only [maxPlpmtu] at hp ⊢; omega)
      · refine sendProbe_range env _ h1 ?_
        have h2 : c1.pmtud.probingSize % 8 = 0 ∨ c1.pmtud.probingSize % 8 = 2 := h1.2.2
        show min (c1.pmtud.probingSize + (if c1.pmtud.bigStep = true then 32 else 8)) maxPlpmtu % 8 = 0 ∨
          min (c1.pmtud.probingSize + (if c1.pmtud.bigStep = true then 32 else 8)) maxPlpmtu % 8 = 2
        generalize c1.pmtud.probingSize = q at h2 ⊢
        simp only [maxPlpmtu]
        split <;> omega
    · exact baseConfirmed_range env h1
    · exact retryProbe_range env _ h1
    · exact h1

theorem handleProbeTimeout_range (env : Env) {c : Conn} (h : PmRange c.pmtud) :
    PmRange (handleProbeTimeout env c).1.pmtud := by
  unfold handleProbeTimeout
  split
  · exact sendProbe_range env _ h h.2.2
  · simp only
    have h1 : PmRange { c.pmtud with pendingId := 0, probeCount := 0 } := h
    split
    · split
      · exact sendProbe_range env _ h1 (.inl rfl)
      · exact confirmBaseFailed_range env h1
    · rename_i hs
      have h2 := h.2.2
      split
      · refine sendProbe_range_le env h1 ?_
        show 512 ≤ c.pmtud.probingSize - 32 + 8 → (c.pmtud.probingSize - 32 + 8) % 8 = 0 ∨ (c.pmtud.probingSize - 32 + 8) % 8 = 2
        omega
      · split
        · exact h1
        · rename_i hp
          have hb := h.1 (by rw [hs]; simp)
          refine searchCompleted_range env ⟨h1.1, h1.2.1, ?_⟩ ?_
          · simp only at hp ⊢; omega
          · simp only at hp ⊢; omega
    · exact blackholeDetected_range env h1
    · exact retryProbe_range env _ h1
    · exact h1

end Lightway
