import Verif.Model.Api
import Verif.Spec.History

/-!
# Frame lemmas: what handing a message to the TLS layer can change
-/

namespace Lightway
open Spec

/-- Effects a call into the TLS layer can cause on connection `c`. -/
def IoEff (c : Conn) : Effect → Prop
  | .outsideWrite p _ => c.cbs.outsideWrite = true ∧ p.length ≤ 1500
  | .sslCall .. | .sslOut .. | .sslIn .. | .pluginEgress .. => True
  | _ => False

theorem IoEff.isIo {c : Conn} {e : Effect} (h : IoEff c e) : IsIo e := by
  cases e <;> simp_all [IoEff, IsIo]

/-- `c'` differs from `c` only by I/O effects in the history and by consumed input. -/
def IoFrame (c c' : Conn) : Prop :=
  ∃ l ps sl we, c' = { c with log := l ++ c.log, packetSeen := ps, streamLeft := sl,
                              wolfError := we } ∧ ∀ x ∈ l, IoEff c x

theorem IoFrame.refl (c : Conn) : IoFrame c c := ⟨[], c.packetSeen, c.streamLeft, c.wolfError, rfl, by simp⟩

theorem IoFrame.trans {a b c : Conn} (h1 : IoFrame a b) (h2 : IoFrame b c) : IoFrame a c := by
  obtain ⟨l1, p1, s1, w1, rfl, e1⟩ := h1
  obtain ⟨l2, p2, s2, w2, rfl, e2⟩ := h2
  refine ⟨l2 ++ l1, p2, s2, w2, by simp, ?_⟩
  intro x hx
  rcases List.mem_append.mp hx with h | h
  · have := e2 x h
    cases x <;> simp_all [IoEff]
  · exact e1 x h

theorem IoFrame.emit (c : Conn) {e : Effect} (h : IoEff c e) : IoFrame c (c.emit e) :=
  ⟨[e], c.packetSeen, c.streamLeft, c.wolfError, rfl, by simpa using h⟩

/-- Running a plugin chain only adds plugin effects. -/
theorem Chain.egress_log (ch : Chain) (log : Log) (pkt : Bytes) (cap : Nat) :
    ∃ l, (Chain.egress ch log pkt cap).1 = l ++ log ∧
      ∀ x ∈ l, ∃ p r, x = .pluginEgress p r := by
  induction ch with
  | nil => exact ⟨[], rfl, by simp⟩
  | cons n rest ih =>
    obtain ⟨l, h1, h2⟩ := ih
    simp only [Chain.egress]
    split
    · exact ⟨l, h1, h2⟩
    · split
      · exact ⟨l, h1, h2⟩
      · split <;>
        · refine ⟨_ :: l, by rw [h1]; rfl, ?_⟩
          intro x hx
          rcases List.mem_cons.mp hx with rfl | hx
          · exact ⟨_, _, rfl⟩
          · exact h2 x hx

theorem Chain.ingress_log (ch : Chain) (log : Log) (pkt : Bytes) (cap : Nat) :
    ∃ l, (Chain.ingress ch log pkt cap).1 = l ++ log ∧
      ∀ x ∈ l, ∃ p r, x = .pluginIngress p r := by
  induction ch generalizing log pkt with
  | nil => exact ⟨[], rfl, by simp⟩
  | cons n rest ih =>
    simp only [Chain.ingress]
    split
    · exact ih log pkt
    · split
      · exact ⟨[_], rfl, by simp⟩
      · exact ⟨[_], rfl, by simp⟩
      · obtain ⟨l, h1, h2⟩ := ih (Effect.pluginIngress pkt _ :: log) _
        refine ⟨l ++ [_], by rw [h1]; simp; rfl, ?_⟩
        intro x hx
        rcases List.mem_append.mp hx with hx | hx
        · exact h2 x hx
        · simp at hx; exact ⟨_, _, hx⟩

/-- A plugin chain stops at the first refusal. -/
theorem Chain.egress_runs (ch : Chain) (log : Log) (pkt : Bytes) (cap : Nat) :
    ∃ l, (Chain.egress ch log pkt cap).1 = l ++ log ∧
      ((∀ x ∈ l, ∃ p, x = .pluginEgress p .success) ∧ (Chain.egress ch log pkt cap).2.2 = .success ∨
       ∃ p r l', l = .pluginEgress p r :: l' ∧ r ≠ .success ∧
        (Chain.egress ch log pkt cap).2.2 = (if r = .drop then .pluginDrop else .failed) ∧
        ∀ x ∈ l', ∃ p, x = .pluginEgress p .success) := by
  induction ch with
  | nil => exact ⟨[], rfl, .inl ⟨by simp, rfl⟩⟩
  | cons n rest ih =>
    unfold Chain.egress
    dsimp only
    obtain ⟨l, e, ih⟩ := ih
    rcases ih with ⟨hl, hr⟩ | ⟨p, r, l', h1, h2, h3, h4⟩
    · rw [if_neg (by rw [hr]; simp)]
      generalize (n.bind fun x => x.egress) = o
      cases o with
      | none => exact ⟨l, e, .inl ⟨hl, hr⟩⟩
      | some f =>
        dsimp only
        generalize f (Chain.egress rest log pkt cap).1 (Chain.egress rest log pkt cap).2.1 cap = q
        obtain ⟨v, q⟩ := q
        cases v with
        | success =>
          refine ⟨.pluginEgress _ .success :: l, by rw [e]; rfl, .inl ⟨?_, rfl⟩⟩
          intro x hx
          rcases List.mem_cons.mp hx with rfl | hx
          · exact ⟨_, rfl⟩
          · exact hl x hx
        | drop => exact ⟨.pluginEgress _ .drop :: l, by rw [e]; rfl, .inr ⟨_, _, l, rfl, by simp, rfl, hl⟩⟩
        | fail => exact ⟨.pluginEgress _ .fail :: l, by rw [e]; rfl, .inr ⟨_, _, l, rfl, by simp, rfl, hl⟩⟩
    · rw [if_pos (by rw [h3]; split <;> simp)]
      exact ⟨l, e, .inr ⟨p, r, l', h1, h2, h3, h4⟩⟩

theorem Chain.ingress_runs (ch : Chain) (log : Log) (pkt : Bytes) (cap : Nat) :
    ∃ l, (Chain.ingress ch log pkt cap).1 = l ++ log ∧
      ((∀ x ∈ l, ∃ p, x = .pluginIngress p .success) ∧ (Chain.ingress ch log pkt cap).2.2 = .success ∨
       ∃ p r l', l = .pluginIngress p r :: l' ∧ r ≠ .success ∧
        (Chain.ingress ch log pkt cap).2.2 = (if r = .drop then .pluginDrop else .failed) ∧
        ∀ x ∈ l', ∃ p, x = .pluginIngress p .success) := by
  induction ch generalizing log pkt with
  | nil => exact ⟨[], rfl, .inl ⟨by simp, rfl⟩⟩
  | cons n rest ih =>
    unfold Chain.ingress
    generalize (n.bind fun x => x.ingress) = o
    cases o with
    | none => exact ih log pkt
    | some f =>
      dsimp only
      generalize f log pkt cap = q
      obtain ⟨v, q⟩ := q
      cases v with
      | drop => exact ⟨[.pluginIngress pkt .drop], rfl, .inr ⟨_, _, [], rfl, by simp, rfl, by simp⟩⟩
      | fail => exact ⟨[.pluginIngress pkt .fail], rfl, .inr ⟨_, _, [], rfl, by simp, rfl, by simp⟩⟩
      | success =>
        obtain ⟨l, e, ih⟩ := ih (.pluginIngress pkt .success :: log) q
        refine ⟨l ++ [.pluginIngress pkt .success], by dsimp only; rw [e]; simp, ?_⟩
        rcases ih with ⟨hl, hr⟩ | ⟨p, r, l', h1, h2, h3, h4⟩
        · refine .inl ⟨?_, hr⟩
          intro x hx
          rcases List.mem_append.mp hx with hx | hx
          · exact hl x hx
          · simp at hx; exact ⟨_, hx⟩
        · refine .inr ⟨p, r, l' ++ [.pluginIngress pkt .success], by rw [h1]; rfl, h2, h3, ?_⟩
          intro x hx
          rcases List.mem_append.mp hx with hx | hx
          · exact h4 x hx
          · simp at hx; exact ⟨_, hx⟩

/-- A chain that lets the packet pass consists of plugins that all let it pass. -/
theorem Chain.egress_passed (ch : Chain) (log : Log) (pkt : Bytes) (cap : Nat)
    (h : (Chain.egress ch log pkt cap).2.2 = .success) :
    ∃ l, (Chain.egress ch log pkt cap).1 = l ++ log ∧ ∀ x ∈ l, ∃ p, x = .pluginEgress p .success := by
  induction ch with
  | nil => exact ⟨[], rfl, by simp⟩
  | cons n rest ih =>
    unfold Chain.egress at h ⊢
    dsimp only at h ⊢
    by_cases h1 : (Chain.egress rest log pkt cap).2.2 ≠ .success
    · rw [if_pos h1] at h; exact absurd h h1
    · rw [if_neg h1] at h ⊢
      obtain ⟨l, e, hl⟩ := ih (by simpa using h1)
      generalize (n.bind fun x => x.egress) = o at h ⊢
      cases o with
      | none => exact ⟨l, e, hl⟩
      | some f =>
        dsimp only at h ⊢
        generalize f (Chain.egress rest log pkt cap).1 (Chain.egress rest log pkt cap).2.1 cap = q at h ⊢
        obtain ⟨v, q⟩ := q
        cases v with
        | success =>
          refine ⟨.pluginEgress _ .success :: l, by rw [e]; rfl, ?_⟩
          intro x hx
          rcases List.mem_cons.mp hx with rfl | hx
          · exact ⟨_, rfl⟩
          · exact hl x hx
        | _ => cases h

theorem Chain.ingress_passed (ch : Chain) (log : Log) (pkt : Bytes) (cap : Nat)
    (h : (Chain.ingress ch log pkt cap).2.2 = .success) :
    ∃ l, (Chain.ingress ch log pkt cap).1 = l ++ log ∧ ∀ x ∈ l, ∃ p, x = .pluginIngress p .success := by
  induction ch generalizing log pkt with
  | nil => exact ⟨[], rfl, by simp⟩
  | cons n rest ih =>
    unfold Chain.ingress at h ⊢
    generalize (n.bind fun x => x.ingress) = o at h ⊢
    cases o with
    | none => exact ih log pkt h
    | some f =>
      dsimp only at h ⊢
      generalize f log pkt cap = q at h ⊢
      obtain ⟨v, q⟩ := q
      cases v with
      | success =>
        obtain ⟨l, e, hl⟩ := ih _ _ h
        refine ⟨l ++ [.pluginIngress pkt .success], by dsimp only; rw [e]; simp, ?_⟩
        intro x hx
        rcases List.mem_append.mp hx with hx | hx
        · exact hl x hx
        · simp at hx; exact ⟨_, hx⟩
      | _ => cases h

/-- Running the outside egress chain is an I/O frame. -/
theorem egress_frame (c : Conn) (ch : Chain) (pkt : Bytes) (cap : Nat) :
    IoFrame c { c with log := (ch.egress c.log pkt cap).1 } := by
  obtain ⟨l, h1, h2⟩ := Chain.egress_log ch c.log pkt cap
  refine ⟨l, c.packetSeen, c.streamLeft, c.wolfError, by simp [h1], ?_⟩
  intro x hx
  obtain ⟨p, r, rfl⟩ := h2 x hx
  trivial

theorem outsideWriteCb_frame (env : Env) (c : Conn) (pkt : Bytes) (h : c.cbs.outsideWrite = true)
    (hl : pkt.length ≤ 1500) : IoFrame c (outsideWriteCb env c pkt).1 :=
  IoFrame.emit c ⟨h, hl⟩

theorem dtlsWrite_frame (env : Env) (c : Conn) (rec : Bytes) :
    IoFrame c (dtlsWrite env c rec).1 := by
  unfold dtlsWrite
  split
  · exact .refl c
  · have h0 := egress_frame c c.outsidePlugins (wireHeader c ++ rec) maxWireMtu
    simp only []
    split
    · exact h0
    · split
      · exact h0
      · rename_i hlen
        split
        · exact h0
        · rename_i hcb
          have hcb' : c.cbs.outsideWrite = true := by simpa using hcb
          have hl : (c.outsidePlugins.egress c.log (wireHeader c ++ rec) maxWireMtu).2.1.length ≤ 1500 := by
            simp only [not_or, Nat.not_lt, gt_iff_lt, maxWireMtu] at hlen; exact hlen.2
          have w : ∀ c' : Conn, c'.cbs.outsideWrite = true → IoFrame c' (outsideWriteCb env c'
              (c.outsidePlugins.egress c.log (wireHeader c ++ rec) maxWireMtu).2.1).1 :=
            fun c' h => outsideWriteCb_frame env c' _ h hl
          have h1 := h0.trans (w _ hcb')
          split
          · exact h1
          · split
            · have h2 := h1.trans (w _ hcb')
              split
              · exact h2
              · have h3 := h2.trans (w _ hcb')
                split <;> exact h3
            · exact h1

theorem tlsWrite_frame (env : Env) (c : Conn) (rec : Bytes) :
    IoFrame c (tlsWrite env c rec).1 := by
  unfold tlsWrite
  simp only []
  generalize (if rec.length < maxWireMtu then rec.length else maxWireMtu) = n
  have h0 := egress_frame c c.outsidePlugins (rec.take n) maxWireMtu
  split
  · exact h0
  · split
    · exact h0
    · rename_i hlen
      split
      · exact h0
      · rename_i hcb
        have hcb' : c.cbs.outsideWrite = true := by simpa using hcb
        have hl : (c.outsidePlugins.egress c.log (rec.take n) maxWireMtu).2.1.length ≤ 1500 := by
          simp only [not_or, Nat.not_lt, gt_iff_lt, maxWireMtu] at hlen; exact hlen.2
        have h1 := h0.trans (outsideWriteCb_frame env _ _ hcb' hl)
        split <;> exact h1

theorem ioStep_frame (env : Env) (c : Conn) (r : IoReq) : IoFrame c (ioStep env c r) := by
  cases r with
  | send rec =>
    simp only [ioStep]
    cases c.connType
    · exact (dtlsWrite_frame env c rec).trans (.emit _ trivial)
    · exact (tlsWrite_frame env c rec).trans (.emit _ trivial)
  | recv sz =>
    simp only [ioStep]
    cases c.connType
    · refine IoFrame.trans ?_ (.emit _ trivial)
      simp only [dtlsRead]
      split
      · exact .refl c
      · split
        · exact .refl c
        · split <;> exact ⟨[], true, c.streamLeft, c.wolfError, rfl, by simp⟩
    · refine IoFrame.trans ?_ (.emit _ trivial)
      simp only [tlsRead]
      split
      · exact .refl c
      · exact ⟨[], c.packetSeen, _, c.wolfError, rfl, by simp⟩

theorem ioRun_frame (env : Env) (c : Conn) (io : List IoReq) : IoFrame c (ioRun env c io) := by
  unfold ioRun
  induction io generalizing c with
  | nil => exact .refl c
  | cons r rest ih => exact (ioStep_frame env c r).trans (ih _)

theorem sslDo_frame (env : Env) (c : Conn) (call : SslCall) : IoFrame c (sslDo env c call).1 :=
  (IoFrame.emit c (e := .sslCall call _) trivial).trans (ioRun_frame env _ _)

/-- Accessors of an I/O frame. -/
theorem IoFrame.fields {c c' : Conn} (h : IoFrame c c') :
    c'.state = c.state ∧ c'.isServer = c.isServer ∧ c'.cbs = c.cbs ∧ c'.wolfSet = c.wolfSet ∧
    c'.renegInProgress = c.renegInProgress ∧ c'.nudgeTimerRunning = c.nudgeTimerRunning ∧
    c'.pmtud = c.pmtud ∧ c'.sessionId = c.sessionId ∧ c'.pendingSessionId = c.pendingSessionId ∧
    c'.fragTable = c.fragTable ∧ c'.connType = c.connType := by
  obtain ⟨l, ps, sl, we, rfl, -⟩ := h; simp

theorem IoFrame.log {c c' : Conn} (h : IoFrame c c') :
    ∃ l, c'.log = l ++ c.log ∧ ∀ x ∈ l, IoEff c x := by
  obtain ⟨l, ps, sl, we, rfl, h⟩ := h; exact ⟨l, rfl, h⟩

theorem IoFrame.err (c : Conn) (e : SslErr) : IoFrame c { c with wolfError := e } :=
  ⟨[], c.packetSeen, c.streamLeft, e, rfl, by simp⟩

/-- Sending a message is a TLS call, then possibly setting the error field. -/
theorem sendMessage_eq (env : Env) (c : Conn) (msg : Bytes) :
    ∃ e, (sendMessage env c msg).1 = { (sslDo env c (.write msg)).1 with wolfError := e } := by
  unfold sendMessage
  generalize sslDo env c (.write msg) = q
  obtain ⟨c1, r⟩ := q
  simp only
  split
  · exact ⟨c1.wolfError, rfl⟩
  · split
    · exact ⟨c1.wolfError, rfl⟩
    · exact ⟨c1.wolfError, rfl⟩
    · exact ⟨c1.wolfError, rfl⟩
    · split
      · exact ⟨c1.wolfError, rfl⟩
      · exact ⟨_, rfl⟩

theorem sendMessage_frame (env : Env) (c : Conn) (msg : Bytes) :
    IoFrame c (sendMessage env c msg).1 := by
  obtain ⟨e, h⟩ := sendMessage_eq env c msg
  rw [h]
  exact (sslDo_frame env c _).trans (.err _ e)

/-! ### PMTU discovery -/

/-- The one assertion of the PMTU code. -/
def assertSite : String := "pmtud.c:184 assert"

/-- Effects of the PMTU discovery functions. -/
def PEff (c : Conn) : Effect → Prop
  | .pmtudTime .. => c.cbs.pmtudTime = true
  | .pmtudState _ => c.cbs.pmtudState = true
  | .ub s => s = assertSite
  | e => IoEff c e

/-- What the PMTU discovery functions can change. -/
def PFrame (c c' : Conn) : Prop :=
  ∃ l ps sl we pm pn, c' = { c with log := l ++ c.log, packetSeen := ps, streamLeft := sl,
                                    wolfError := we, pmtud := pm, pingNextId := pn } ∧
    ∀ x ∈ l, PEff c x

theorem IoEff.pEff {c : Conn} {e : Effect} (h : IoEff c e) : PEff c e := by
  cases e <;> simp_all [IoEff, PEff]

theorem PFrame.refl (c : Conn) : PFrame c c :=
  ⟨[], c.packetSeen, c.streamLeft, c.wolfError, c.pmtud, c.pingNextId, rfl, by simp⟩

theorem PFrame.trans {a b c : Conn} (h1 : PFrame a b) (h2 : PFrame b c) : PFrame a c := by
  obtain ⟨l1, p1, s1, w1, m1, n1, rfl, e1⟩ := h1
  obtain ⟨l2, p2, s2, w2, m2, n2, rfl, e2⟩ := h2
  refine ⟨l2 ++ l1, p2, s2, w2, m2, n2, by simp, ?_⟩
  intro x hx
  rcases List.mem_append.mp hx with h | h
  · have := e2 x h
    cases x <;> simp_all [PEff, IoEff]
  · exact e1 x h

theorem IoFrame.pFrame {c c' : Conn} (h : IoFrame c c') : PFrame c c' := by
  obtain ⟨l, ps, sl, we, rfl, h⟩ := h
  exact ⟨l, ps, sl, we, c.pmtud, c.pingNextId, rfl, fun x hx => (h x hx).pEff⟩

theorem PFrame.upd (c : Conn) (pm : Pmtud) (pn : Nat) :
    PFrame c { c with pmtud := pm, pingNextId := pn } :=
  ⟨[], c.packetSeen, c.streamLeft, c.wolfError, pm, pn, rfl, by simp⟩

theorem PFrame.updP (c : Conn) (pm : Pmtud) : PFrame c { c with pmtud := pm } :=
  ⟨[], c.packetSeen, c.streamLeft, c.wolfError, pm, c.pingNextId, rfl, by simp⟩

theorem PFrame.emit (c : Conn) {e : Effect} (h : PEff c e) : PFrame c (c.emit e) :=
  ⟨[e], c.packetSeen, c.streamLeft, c.wolfError, c.pmtud, c.pingNextId, rfl, by simpa using h⟩

theorem pmtudChangeState_frame (c : Conn) (s : PmtudState) : PFrame c (pmtudChangeState c s) := by
  unfold pmtudChangeState
  simp only
  have h := PFrame.updP c { c.pmtud with state := s }
  split
  · rename_i hb; exact h.trans (.emit _ hb)
  · exact h

theorem sendProbe_frame (env : Env) (c : Conn) (mtu : Nat) : PFrame c (sendProbe env c mtu).1 := by
  unfold sendProbe
  split
  · exact .refl c
  · split
    · exact .refl c
    · simp only
      have h0 := PFrame.upd c { c.pmtud with probeCount := (c.pmtud.probeCount + 1) % 256, probingSize := mtu } ((c.pingNextId + 1) % 65536)
      have h1 := h0.trans (sendMessage_frame env _ (probeMsg c.pingNextId mtu)).pFrame
      generalize sendMessage env _ (probeMsg c.pingNextId mtu) = q at h1 ⊢
      obtain ⟨c1, rc⟩ := q
      simp only at h1 ⊢
      by_cases hrc : rc = .success
      · simp only [hrc, ne_eq, not_true_eq_false, if_false]
        have h2 := h1.trans (.updP c1 { c1.pmtud with pendingId := c.pingNextId })
        split
        · rename_i hb; exact h2.trans (.emit _ hb)
        · exact h2
      · simp only [hrc, ne_eq, not_false_eq_true, if_true]
        split
        · rename_i hb; exact h1.trans (.emit _ hb)
        · exact h1

theorem retryProbe_frame (env : Env) (c : Conn) (ms : Nat) : PFrame c (retryProbe env c ms).1 := by
  unfold retryProbe
  by_cases h : c.cbs.pmtudTime = true
  · rw [if_pos h]
    exact (PFrame.emit c (e := .pmtudTime _ _) h).trans (.updP _ _)
  · rw [if_neg h]
    exact .updP _ _

theorem startBaseProbing_frame (env : Env) (c : Conn) : PFrame c (startBaseProbing env c).1 := by
  unfold startBaseProbing
  split
  · exact .refl c
  · exact .refl c
  · exact ((pmtudChangeState_frame c .base).trans (.updP _ _)).trans (sendProbe_frame env _ _)

theorem baseConfirmed_frame (env : Env) (c : Conn) : PFrame c (baseConfirmed env c).1 := by
  unfold baseConfirmed
  split
  · exact ((pmtudChangeState_frame c .searching).trans (.updP _ _)).trans (sendProbe_frame env _ _)
  · exact .refl c

theorem confirmBaseFailed_frame (env : Env) (c : Conn) : PFrame c (confirmBaseFailed env c).1 := by
  unfold confirmBaseFailed
  split
  · exact (pmtudChangeState_frame c .error).trans (retryProbe_frame env _ _)
  · exact .refl c

theorem searchCompleted_frame (env : Env) (c : Conn) : PFrame c (searchCompleted env c).1 := by
  unfold searchCompleted
  split
  · exact ((PFrame.updP c _).trans (pmtudChangeState_frame _ _)).trans (retryProbe_frame env _ _)
  · exact .refl c

theorem blackholeDetected_frame (env : Env) (c : Conn) : PFrame c (blackholeDetected env c).1 := by
  unfold blackholeDetected
  split
  · exact ((pmtudChangeState_frame c .base).trans (.updP _ _)).trans (sendProbe_frame env _ _)
  · exact .refl c

theorem handleProbeAck_frame (env : Env) (c : Conn) (id : Nat) :
    PFrame c (handleProbeAck env c id).1 := by
  unfold handleProbeAck
  split
  · exact .refl c
  · have h0 : PFrame c (if c.cbs.pmtudTime then (pmtudTimeCb env c 0).1 else c) := by
      split
      · rename_i hb; exact .emit _ hb
      · exact .refl c
    simp only
    generalize (if c.cbs.pmtudTime then (pmtudTimeCb env c 0).1 else c) = c1 at h0 ⊢
    have h1 := h0.trans (.updP c1 { c1.pmtud with pendingId := 0, probeCount := 0 })
    split
    · exact h1.trans (baseConfirmed_frame env _)
    · split
      · exact h1.trans (searchCompleted_frame env _)
      · exact h1.trans (sendProbe_frame env _ _)
    · exact h1.trans (baseConfirmed_frame env _)
    · exact h1.trans (retryProbe_frame env _ _)
    · exact h1

theorem handleProbeTimeout_frame (env : Env) (c : Conn) :
    PFrame c (handleProbeTimeout env c).1 := by
  unfold handleProbeTimeout
  split
  · exact sendProbe_frame env c _
  · simp only
    have h1 := PFrame.updP c { c.pmtud with pendingId := 0, probeCount := 0 }
    split
    · split
      · exact h1.trans (sendProbe_frame env _ _)
      · exact h1.trans (confirmBaseFailed_frame env _)
    · split
      · exact (h1.trans (.updP _ _)).trans (sendProbe_frame env _ _)
      · split
        · exact h1.trans (.emit _ rfl)
        · exact (h1.trans (.updP _ _)).trans (searchCompleted_frame env _)
    · exact h1.trans (blackholeDetected_frame env _)
    · exact h1.trans (retryProbe_frame env _ _)
    · exact h1

theorem PFrame.fields {c c' : Conn} (h : PFrame c c') :
    c'.state = c.state ∧ c'.isServer = c.isServer ∧ c'.cbs = c.cbs ∧ c'.wolfSet = c.wolfSet ∧
    c'.renegInProgress = c.renegInProgress ∧ c'.nudgeTimerRunning = c.nudgeTimerRunning ∧
    c'.sessionId = c.sessionId ∧ c'.pendingSessionId = c.pendingSessionId ∧
    c'.fragTable = c.fragTable ∧ c'.connType = c.connType := by
  obtain ⟨l, ps, sl, we, pm, pn, rfl, -⟩ := h; simp

end Lightway
