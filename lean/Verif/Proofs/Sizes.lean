import Verif.Proofs.Tools
import Verif.Proofs.Send

/-!
# Sizes that hold in every history
-/

namespace Lightway
open Spec

/-- The ping counter is unchanged or fits 16 bits. -/
def PingOk (c c' : Conn) : Prop := c'.pingNextId = c.pingNextId ∨ c'.pingNextId < 65536

theorem PingOk.refl (c : Conn) : PingOk c c := .inl rfl
theorem PingOk.trans {a b c : Conn} (h1 : PingOk a b) (h2 : PingOk b c) : PingOk a c := by
  rcases h2 with h2 | h2
  · rcases h1 with h1 | h1
    · exact .inl (h2.trans h1)
    · exact .inr (by rw [h2]; exact h1)
  · exact .inr h2
theorem IoFrame.pingOk {c c' : Conn} (h : IoFrame c c') : PingOk c c' := by
  obtain ⟨l, ps, sl, we, rfl, h⟩ := h; exact .inl rfl
theorem PingOk.upd (c : Conn) (pm : Pmtud) (pn : Nat) (h : pn < 65536) :
    PingOk c { c with pmtud := pm, pingNextId := pn } := .inr h
theorem PingOk.updP (c : Conn) (pm : Pmtud) : PingOk c { c with pmtud := pm } := .inl rfl
theorem PingOk.emit (c : Conn) (e : Effect) : PingOk c (c.emit e) := .inl rfl

theorem pmtudChangeState_ping (c : Conn) (s : PmtudState) : PingOk c (pmtudChangeState c s) := by
  unfold pmtudChangeState
  simp only
  have h := PingOk.updP c { c.pmtud with state := s }
  split
  · exact h.trans (.emit _ _)
  · exact h

theorem sendProbe_ping (env : Env) (c : Conn) (mtu : Nat) : PingOk c (sendProbe env c mtu).1 := by
  unfold sendProbe
  split
  · exact .refl c
  · split
    · exact .refl c
    · simp only
      have h0 := PingOk.upd c { c.pmtud with probeCount := (c.pmtud.probeCount + 1) % 256, probingSize := mtu } ((c.pingNextId + 1) % 65536) (Nat.mod_lt _ (by omega))
      have h1 := h0.trans (sendMessage_frame env _ (probeMsg c.pingNextId mtu)).pingOk
      generalize sendMessage env _ (probeMsg c.pingNextId mtu) = q at h1 ⊢
      obtain ⟨c1, rc⟩ := q
      simp only at h1 ⊢
      by_cases hrc : rc = .success
      · simp only [hrc, ne_eq, not_true_eq_false, if_false]
        have h2 := h1.trans (.updP c1 { c1.pmtud with pendingId := c.pingNextId })
        split
        · exact h2.trans (.emit _ _)
        · exact h2
      · simp only [hrc, ne_eq, not_false_eq_true, if_true]
        split
        · exact h1.trans (.emit _ _)
        · exact h1

theorem retryProbe_ping (env : Env) (c : Conn) (ms : Nat) : PingOk c (retryProbe env c ms).1 := by
  unfold retryProbe
  by_cases h : c.cbs.pmtudTime = true
  · rw [if_pos h]
    exact (PingOk.emit c _).trans (.updP _ _)
  · rw [if_neg h]
    exact .updP _ _

theorem startBaseProbing_ping (env : Env) (c : Conn) : PingOk c (startBaseProbing env c).1 := by
  unfold startBaseProbing
  split
  · exact .refl c
  · exact .refl c
  · exact ((pmtudChangeState_ping c .base).trans (.updP _ _)).trans (sendProbe_ping env _ _)

theorem baseConfirmed_ping (env : Env) (c : Conn) : PingOk c (baseConfirmed env c).1 := by
  unfold baseConfirmed
  split
  · exact ((pmtudChangeState_ping c .searching).trans (.updP _ _)).trans (sendProbe_ping env _ _)
  · exact .refl c

theorem confirmBaseFailed_ping (env : Env) (c : Conn) : PingOk c (confirmBaseFailed env c).1 := by
  unfold confirmBaseFailed
  split
  · exact (pmtudChangeState_ping c .error).trans (retryProbe_ping env _ _)
  · exact .refl c

theorem searchCompleted_ping (env : Env) (c : Conn) : PingOk c (searchCompleted env c).1 := by
  unfold searchCompleted
  split
  · exact ((PingOk.updP c _).trans (pmtudChangeState_ping _ _)).trans (retryProbe_ping env _ _)
  · exact .refl c

theorem blackholeDetected_ping (env : Env) (c : Conn) : PingOk c (blackholeDetected env c).1 := by
  unfold blackholeDetected
  split
  · exact ((pmtudChangeState_ping c .base).trans (.updP _ _)).trans (sendProbe_ping env _ _)
  · exact .refl c

theorem handleProbeAck_ping (env : Env) (c : Conn) (id : Nat) :
    PingOk c (handleProbeAck env c id).1 := by
  unfold handleProbeAck
  split
  · exact .refl c
  · have h0 : PingOk c (if c.cbs.pmtudTime then (pmtudTimeCb env c 0).1 else c) := by
      split
      · exact .emit _ _
      · exact .refl c
    simp only
    generalize (if c.cbs.pmtudTime then (pmtudTimeCb env c 0).1 else c) = c1 at h0 ⊢
    have h1 := h0.trans (.updP c1 { c1.pmtud with pendingId := 0, probeCount := 0 })
    split
    · exact h1.trans (baseConfirmed_ping env _)
    · split
      · exact h1.trans (searchCompleted_ping env _)
      · exact h1.trans (sendProbe_ping env _ _)
    · exact h1.trans (baseConfirmed_ping env _)
    · exact h1.trans (retryProbe_ping env _ _)
    · exact h1

theorem handleProbeTimeout_ping (env : Env) (c : Conn) :
    PingOk c (handleProbeTimeout env c).1 := by
  unfold handleProbeTimeout
  split
  · exact sendProbe_ping env c _
  · simp only
    have h1 := PingOk.updP c { c.pmtud with pendingId := 0, probeCount := 0 }
    split
    · split
      · exact h1.trans (sendProbe_ping env _ _)
      · exact h1.trans (confirmBaseFailed_ping env _)
    · split
      · exact (h1.trans (.updP _ _)).trans (sendProbe_ping env _ _)
      · split
        · exact h1.trans (.emit _ _)
        · exact (h1.trans (.updP _ _)).trans (searchCompleted_ping env _)
    · exact h1.trans (blackholeDetected_ping env _)
    · exact h1.trans (retryProbe_ping env _ _)
    · exact h1


/-- Bounds on the fields of a connection. -/
structure Sizes (c : Conn) : Prop where
  fragNext : c.fragNextId < 65536
  pingNext : c.pingNextId < 65536
  sess : c.sessionId < 2 ^ 64
  pend : c.pendingSessionId < 2 ^ 64
  user : c.username.length = 51
  pass : c.password.length = 51
  blen : c.authBufferLength < 1350
  mtu : c.outsideMtu = 0 ∨ 114 < c.outsideMtu ∧ c.outsideMtu < 65536
  wolf : c.wolfSet = true → c.outsideMtu ≠ 0
  online : c.state = .online → c.outsideMtu ≠ 0

theorem Sizes.pFrame {c c' : Conn} (hs : Sizes c) (h : PFrame c c') (hp : PingOk c c') : Sizes c' := by
  have hn : c'.pingNextId < 65536 := by
    rcases hp with hp | hp
    · rw [hp]; exact hs.pingNext
    · exact hp
  obtain ⟨l, ps, sl, we, pm, pn, rfl, hl⟩ := h
  exact ⟨hs.1, hn, hs.3, hs.4, hs.5, hs.6, hs.7, hs.8, hs.9, hs.10⟩

theorem Micro.sizes {env : Env} {a : Api} {c c' : Conn} (h : Micro env a c c') (hs : Sizes c) : Sizes c' := by
  cases h with
  | io r => exact hs.pFrame (ioStep_frame env c r).pFrame (ioStep_frame env c r).pingOk
  | state s hne h =>
    unfold setState
    rw [if_neg hne]
    refine ⟨hs.1, hs.2, hs.3, hs.4, hs.5, hs.6, hs.7, hs.8, hs.9, ?_⟩
    intro hs'
    have hs' : s = .online := hs'
    subst hs'
    exact hs.9 h.2.1
  | sessCfg s h hr hst hm hlt => exact ⟨hs.1, hs.2, hlt, hs.4, hs.5, hs.6, hs.7, hs.8, hs.9, hs.10⟩
  | auth e u hu he hc h hr hst hm => exact ⟨hs.1, hs.2, hs.3, hs.4, hu hs.5, hs.6, hs.7, hs.8, hs.9, hs.10⟩
  | sessAck s h hr hsp hz _ => exact ⟨hs.1, hs.2, by rw [hsp]; exact hs.4, by simp [generateEvent, Conn.emit, sessionEmpty], hs.5, hs.6, hs.7, hs.8, hs.9, hs.10⟩
  | sessClient s h hr hz hlt _ => exact ⟨hs.1, hs.2, hlt, hs.4, hs.5, hs.6, hs.7, hs.8, hs.9, hs.10⟩
  | sessServer s h hlt => exact ⟨hs.1, hs.2, hlt, hs.4, hs.5, hs.6, hs.7, hs.8, hs.9, hs.10⟩
  | sessSet s h hz hlt => exact ⟨hs.1, hs.2, hlt, hs.4, hs.5, hs.6, hs.7, hs.8, hs.9, hs.10⟩
  | rotate s h hr hp hlt => exact ⟨hs.1, hs.2, hs.3, hlt, hs.5, hs.6, hs.7, hs.8, hs.9, hs.10⟩
  | configure ctx h =>
    obtain ⟨x, y, ok, ft, e, hft⟩ := configure_shape env c ctx
    rw [e]
    exact ⟨hs.1, by show 1 < 65536; omega, hs.3, hs.4, hs.5, hs.6, hs.7, hs.8, hs.9, hs.10⟩
  | wolfNew h hm _ => exact ⟨hs.1, hs.2, hs.3, hs.4, hs.5, hs.6, hs.7, hs.8, fun _ => hm, hs.10⟩
  | creds ty u p sni buf n h hb hu hp hn =>
    refine ⟨hs.1, hs.2, hs.3, hs.4, hu hs.5, hp hs.6, ?_, hs.8, hs.9, hs.10⟩
    rcases hn with hn | hn
    · simp only; rw [hn]; exact hs.7
    · exact hn
  | mtu m h hm =>
    refine ⟨hs.1, hs.2, hs.3, hs.4, hs.5, hs.6, hs.7, .inr hm, fun _ => ?_, fun _ => ?_⟩ <;>
      (simp only; omega)
  | probeAck id h hst => exact hs.pFrame (handleProbeAck_frame env c id) (handleProbeAck_ping env c id)
  | probeTimeout h => exact hs.pFrame (handleProbeTimeout_frame env c) (handleProbeTimeout_ping env c)
  | startBase h hst hd => exact hs.pFrame (startBaseProbing_frame env c) (startBaseProbing_ping env c)
  | ping ok h hst => exact ⟨hs.1, Nat.mod_lt _ (by omega), hs.3, hs.4, hs.5, hs.6, hs.7, hs.8, hs.9, hs.10⟩
  | fragNext n h hn => exact ⟨hn, hs.2, hs.3, hs.4, hs.5, hs.6, hs.7, hs.8, hs.9, hs.10⟩
  | _ => exact ⟨hs.1, hs.2, hs.3, hs.4, hs.5, hs.6, hs.7, hs.8, hs.9, hs.10⟩

theorem Star.sizes {env : Env} {a : Api} {c c' : Conn} (h : M env a c c') (hs : Sizes c) : Sizes c' := by
  induction h with
  | refl => exact hs
  | tail _ s ih => exact s.sizes ih

theorem step_sizes (env : Env) {o : Option Api} {c : Conn} (op : Op) (hi : Inv env o c) (hs : Sizes c) :
    Sizes (step env c op).1 := by
  have h0 : Sizes (entry c op) := by
    cases op <;> exact ⟨hs.1, hs.2, hs.3, hs.4, hs.5, hs.6, hs.7, hs.8, hs.9, hs.10⟩
  have hs := (exec_star env o c op hi).sizes h0
  exact ⟨hs.1, hs.2, hs.3, hs.4, hs.5, hs.6, hs.7, hs.8, hs.9, hs.10⟩

/-- Everything known of a connection between API calls. -/
structure Good (env : Env) (c : Conn) : Prop where
  inv : ∃ o, Inv env o c
  sizes : Sizes c

theorem create_good (env : Env) : Good env Conn.create :=
  ⟨⟨none, create_inv env⟩, ⟨by simp [Conn.create], by simp [Conn.create], by simp [Conn.create],
    by simp [Conn.create], by simp [Conn.create], by simp [Conn.create], by simp [Conn.create],
    by simp [Conn.create], by simp [Conn.create], by simp [Conn.create]⟩⟩

theorem Good.step {env : Env} {c : Conn} (h : Good env c) (op : Op) : Good env (step env c op).1 := by
  obtain ⟨⟨o, hi⟩, hs⟩ := h
  exact ⟨⟨_, step_inv env o c op hi⟩, step_sizes env op hi hs⟩

theorem Good.runFrom {env : Env} {c : Conn} (h : Good env c) (ops : List Op) :
    Good env (runFrom env c ops) := by
  induction ops generalizing c with
  | nil => exact h
  | cons op rest ih => exact ih (h.step op)

/-- Induction over the calls made on a connection. -/
theorem runFrom_induct {env : Env} {P : Conn → Prop} {Q : Op → Prop} {c : Conn} (hg : Good env c) (h0 : P c)
    (hs : ∀ c op, Q op → Good env c → P c → P (step env c op).1) (ops : List Op) (hq : ∀ op ∈ ops, Q op) :
    P (runFrom env c ops) := by
  induction ops generalizing c with
  | nil => exact h0
  | cons op rest ih =>
    exact ih (hg.step op) (hs c op (hq op (by simp)) hg h0) (fun o ho => hq o (by simp [ho]))

theorem run_induct {env : Env} {P : Conn → Prop} {Q : Op → Prop} (h0 : P Conn.create)
    (hs : ∀ c op, Q op → Good env c → P c → P (step env c op).1) (ops : List Op) (hq : ∀ op ∈ ops, Q op) :
    P (run env ops) := runFrom_induct (create_good env) h0 hs ops hq

/-- Every history of API calls on a fresh connection. -/
theorem run_good (env : Env) (ops : List Op) : Good env (run env ops) := (create_good env).runFrom ops

end Lightway
