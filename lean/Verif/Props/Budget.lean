import Verif.Spec.Budget
import Verif.Props.Survive
import Verif.Props.Push
import Verif.Props.Screen
import Verif.Proofs.Link2

/-!
# C101: how much a call sends
-/

namespace Lightway
open Spec

/-- Messages handed to the TLS layer in a piece of history. -/
def wrote (x : Log) : Int := (writes x).length

/-- Messages that came out of the TLS layer in a piece of history. -/
def arrived (x : Log) : Int := (messages x).length

/-- `d` extends the history of `c`, and sends at most one message for each that arrived, and `k` more. -/
def Spend (k : Int) (c d : Conn) : Prop := ∃ x, d.log = x ++ c.log ∧ wrote x ≤ arrived x + k

theorem Spend.trans {a b c : Conn} {j k : Int} (h1 : Spend j a b) (h2 : Spend k b c) : Spend (j + k) a c := by
  obtain ⟨x, e, hx⟩ := h1
  obtain ⟨y, e', hy⟩ := h2
  refine ⟨y ++ x, by rw [e', e]; simp, ?_⟩
  unfold wrote arrived at *
  rw [writes_app, messages_append, List.length_append, List.length_append]
  push_cast; omega

theorem Spend.mono {a b : Conn} {j k : Int} (h : Spend j a b) (hk : j ≤ k) : Spend k a b := by
  obtain ⟨x, e, hx⟩ := h; exact ⟨x, e, by omega⟩

theorem Spend.refl (c : Conn) : Spend 0 c c := ⟨[], rfl, by decide⟩

theorem Spend.same {a b : Conn} (h : b.log = a.log) : Spend 0 a b := ⟨[], h, by decide⟩

theorem Spend.of_log {a b c : Conn} {k : Int} (h : Spend k a b) (hc : c.log = b.log) : Spend k a c := by
  obtain ⟨x, e, hx⟩ := h; exact ⟨x, hc.trans e, hx⟩

theorem Spend.to_log {a b c : Conn} {k : Int} (h : Spend k a b) (hc : a.log = c.log) : Spend k c b := by
  obtain ⟨x, e, hx⟩ := h; exact ⟨x, by rw [e, hc], hx⟩

theorem Spend.note (c : Conn) {e : Effect} (h : ∀ m ok, e ≠ .sslCall (.write m) ok) : Spend 0 c (c.emit e) := by
  refine ⟨[e], rfl, ?_⟩
  have h1 : writes [e] = [] := by
    cases e <;> try rfl
    rename_i k ok
    cases k <;> first | rfl | exact absurd rfl (h _ _)
  unfold wrote arrived; rw [h1]; simp

theorem TFrame.spend {c d : Conn} (h : TFrame c d) : Spend 0 c d := by
  obtain ⟨l, inc, ps, sl, we, fm, wt, nt, rip, rd, sid, psid, rfl, h⟩ := h
  refine ⟨l, rfl, ?_⟩
  have := writes_tail [] h
  rw [List.append_nil] at this
  unfold wrote arrived
  rw [this]
  simp [Spec.writes]

theorem CbExt.spend {c d : Conn} (h : CbExt c d) : Spend 0 c d := by
  obtain ⟨l, e, h⟩ := h
  refine ⟨l, e, ?_⟩
  have := writes_append [] h
  rw [List.append_nil] at this
  unfold wrote arrived
  rw [this]
  simp [Spec.writes]

theorem sendMessage_spend (env : Env) (c : Conn) (m : Bytes) : Spend 1 c (sendMessage env c m).1 := by
  obtain ⟨l, ok, e, h⟩ := sendMessage_log env c m
  refine ⟨l ++ [.sslCall (.write m) ok], by rw [e]; simp, ?_⟩
  unfold wrote arrived
  rw [writes_append _ h]
  simp [writes]
  omega

theorem sslDo_spend (env : Env) (c : Conn) (k : SslCall) (h : ∀ m, k ≠ .write m) : Spend 0 c (sslDo env c k).1 := by
  unfold sslDo
  simp only
  have := (Spend.note c (e := .sslCall k (if c.wolfSet then env.ssl c.log k else nullSslRes).ok)
    (by intro m ok e; injection e with e _; exact h m e)).trans (ioRun_cbExt env _ (if c.wolfSet then env.ssl c.log k else nullSslRes).io).spend
  exact this.mono (by omega)

theorem setState_spend (c : Conn) (s : ConnState) : Spend 0 c (setState c s) := by
  unfold setState
  split
  · exact .refl c
  · exact (Spend.note c (e := .state s c.cbs.stateChange) (by simp)).of_log rfl

theorem sendAuth_spend (env : Env) (c : Conn) : Spend 1 c (sendAuth env c).1 := by
  unfold sendAuth
  split
  · exact (Spend.refl c).mono (by omega)
  simp only
  have h := setState_spend c .authenticating
  generalize setState c .authenticating = c1 at h ⊢
  repeat' split
  all_goals first
    | exact h.mono (by omega)
    | exact (h.trans (sendMessage_spend env c1 _)).mono (by omega)

theorem changeState_spend (env : Env) (c : Conn) (s : ConnState) :
    Spend (if s = .linkUp then 1 else 0) c (changeState env c s) := by
  have hz : (0 : Int) ≤ if s = .linkUp then 1 else 0 := by split <;> omega
  unfold changeState
  by_cases hc : c.state = s
  · rw [if_pos hc]; exact (Spend.refl c).mono hz
  rw [if_neg hc]
  simp only
  have h := setState_spend c s
  by_cases hs : s = .linkUp ∧ (!(setState c s).isServer) = true
  · rw [if_pos hs, if_pos hs.1]
    exact (h.trans (sendAuth_spend env _)).mono (by omega)
  · rw [if_neg hs]; exact h.mono hz

theorem pmtudChangeState_spend (c : Conn) (s : PmtudState) : Spend 0 c (pmtudChangeState c s) := by
  unfold pmtudChangeState
  simp only
  split
  · exact (Spend.note c (e := .pmtudState s) (by simp)).of_log rfl
  · exact .same rfl

theorem pmtudTimeCb_spend (env : Env) (c : Conn) (ms : Nat) : Spend 0 c (pmtudTimeCb env c ms).1 :=
  Spend.note c (by simp)

theorem sendProbe_spend (env : Env) (c : Conn) (mtu : Nat) : Spend 1 c (sendProbe env c mtu).1 := by
  unfold sendProbe
  split
  · exact (Spend.refl c).mono (by omega)
  split
  · exact (Spend.refl c).mono (by omega)
  simp only
  have h1 := (sendMessage_spend env { c with
    pingNextId := (c.pingNextId + 1) % 65536,
    pmtud := { c.pmtud with probeCount := (c.pmtud.probeCount + 1) % 256, probingSize := mtu } } (probeMsg c.pingNextId mtu)).to_log (c := c) rfl
  generalize sendMessage env _ (probeMsg c.pingNextId mtu) = q at h1 ⊢
  obtain ⟨c1, rc⟩ := q
  simp only at h1 ⊢
  have h2 : Spend 1 c (if rc ≠ .success then c1 else { c1 with pmtud := { c1.pmtud with pendingId := c.pingNextId } }) := by
    split
    · exact h1
    · exact h1.of_log rfl
  generalize (if rc ≠ .success then c1 else { c1 with pmtud := { c1.pmtud with pendingId := c.pingNextId } } : Conn) = c2 at h2 ⊢
  generalize (if rc ≠ .success then 10 else 5000) = ms
  split
  · exact (h2.trans (pmtudTimeCb_spend env c2 ms)).mono (by omega)
  · exact h2

theorem retryProbe_spend (env : Env) (c : Conn) (ms : Nat) : Spend 0 c (retryProbe env c ms).1 := by
  unfold retryProbe
  by_cases h : c.cbs.pmtudTime = true
  · simp only [h, if_true]
    exact (pmtudTimeCb_spend env c ms).of_log rfl
  · simp only [h]
    exact .same rfl

theorem startBaseProbing_spend (env : Env) (c : Conn) : Spend 1 c (startBaseProbing env c).1 := by
  unfold startBaseProbing
  split
  · exact (Spend.refl c).mono (by omega)
  · exact (Spend.refl c).mono (by omega)
  · exact Spend.mono (j := 0 + 1) (Spend.trans (pmtudChangeState_spend c .base) ((sendProbe_spend env _ _).to_log rfl)) (by omega)

theorem baseConfirmed_spend (env : Env) (c : Conn) : Spend 1 c (baseConfirmed env c).1 := by
  unfold baseConfirmed
  split
  · exact Spend.mono (j := 0 + 1) (Spend.trans (pmtudChangeState_spend c .searching) ((sendProbe_spend env _ _).to_log rfl)) (by omega)
  · exact (Spend.refl c).mono (by omega)

theorem confirmBaseFailed_spend (env : Env) (c : Conn) : Spend 0 c (confirmBaseFailed env c).1 := by
  unfold confirmBaseFailed
  split
  · exact ((pmtudChangeState_spend c .error).trans (retryProbe_spend env _ _)).mono (by omega)
  · exact .refl c

theorem searchCompleted_spend (env : Env) (c : Conn) : Spend 0 c (searchCompleted env c).1 := by
  unfold searchCompleted
  split
  · exact (((pmtudChangeState_spend { c with pmtud := { c.pmtud with effective := min c.pmtud.probingSize maxPlpmtu } }
      .searchComplete).to_log (c := c) rfl).trans (retryProbe_spend env _ _)).mono (by omega)
  · exact .refl c

theorem blackholeDetected_spend (env : Env) (c : Conn) : Spend 1 c (blackholeDetected env c).1 := by
  unfold blackholeDetected
  split
  · exact Spend.mono (j := 0 + 1) (Spend.trans (pmtudChangeState_spend c .base) ((sendProbe_spend env _ _).to_log rfl)) (by omega)
  · exact (Spend.refl c).mono (by omega)

theorem handleProbeAck_spend (env : Env) (c : Conn) (id : Nat) : Spend 1 c (handleProbeAck env c id).1 := by
  unfold handleProbeAck
  split
  · exact (Spend.refl c).mono (by omega)
  simp only
  have h1 : Spend 0 c (if c.cbs.pmtudTime = true then (pmtudTimeCb env c 0).1 else c) := by
    split
    · exact pmtudTimeCb_spend env c 0
    · exact .refl c
  generalize (if c.cbs.pmtudTime = true then (pmtudTimeCb env c 0).1 else c) = c1 at h1 ⊢
  have h1 : Spend 0 c { c1 with pmtud := { c1.pmtud with pendingId := 0, probeCount := 0 } } := h1.of_log rfl
  split
  · exact (h1.trans (baseConfirmed_spend env _)).mono (by omega)
  · split
    · exact (h1.trans (searchCompleted_spend env _)).mono (by omega)
    · exact (h1.trans (sendProbe_spend env _ _)).mono (by omega)
  · exact (h1.trans (baseConfirmed_spend env _)).mono (by omega)
  · exact (h1.trans (retryProbe_spend env _ _)).mono (by omega)
  · exact h1.mono (by omega)

theorem handleProbeTimeout_spend (env : Env) (c : Conn) : Spend 1 c (handleProbeTimeout env c).1 := by
  unfold handleProbeTimeout
  split
  · exact sendProbe_spend env c _
  simp only
  have h1 : Spend 0 c { c with pmtud := { c.pmtud with pendingId := 0, probeCount := 0 } } := .same rfl
  split
  · split
    · exact (h1.trans (sendProbe_spend env _ _)).mono (by omega)
    · exact (h1.trans (confirmBaseFailed_spend env _)).mono (by omega)
  · split
    · exact Spend.mono (j := 0 + 1) (Spend.trans h1 ((sendProbe_spend env _ _).to_log rfl)) (by omega)
    · split
      · exact (h1.trans (Spend.note _ (e := .ub "pmtud.c:184 assert") (by simp))).mono (by omega)
      · exact Spend.mono (j := 0 + 0) (Spend.trans h1 ((searchCompleted_spend env _).to_log rfl)) (by omega)
  · exact (h1.trans (blackholeDetected_spend env _)).mono (by omega)
  · exact (h1.trans (retryProbe_spend env _ _)).mono (by omega)
  · exact h1.mono (by omega)

/-! ### Handling a message -/

theorem handlePing_spend (env : Env) (c : Conn) (m : Bytes) : Spend 1 c (handlePing env c m).1 := by
  unfold handlePing
  repeat' split
  all_goals first
    | exact (Spend.refl c).mono (by omega)
    | exact (Spend.note c (by simp)).mono (by omega)
    | exact sendMessage_spend env c _

theorem handlePong_spend (env : Env) (c : Conn) (m : Bytes) : Spend 1 c (handlePong env c m).1 := by
  unfold handlePong
  repeat' split
  all_goals first
    | exact (Spend.refl c).mono (by omega)
    | exact (Spend.note c (by simp)).mono (by omega)
    | exact handleProbeAck_spend env c _

theorem handleServerConfig_spend (env : Env) (c : Conn) (m : Bytes) : Spend 0 c (handleServerConfig env c m).1 := by
  unfold handleServerConfig
  simp only
  repeat' split
  all_goals first
    | exact .refl c
    | exact Spend.note c (by simp)

theorem egress_spend (c : Conn) (ch : Chain) (pkt : Bytes) (cap : Nat) : Spend 0 c { c with log := (ch.egress c.log pkt cap).1 } :=
  (egress_cbExt c ch pkt cap).spend

theorem internalHandleData_spend (c : Conn) (p : Bytes) : Spend 0 c (internalHandleData c p).1 := by
  unfold internalHandleData
  simp only
  have h := egress_spend c c.insidePlugins p p.length
  generalize c.insidePlugins.egress c.log p p.length = r at h ⊢
  repeat' split
  all_goals first
    | exact h
    | exact (h.trans (Spend.note _ (by simp))).mono (by omega)

theorem handleData_spend (c : Conn) (m : Bytes) : Spend 0 c (handleData c m).1 := by
  unfold handleData
  simp only
  repeat' split
  all_goals first
    | exact .refl c
    | exact Spend.note c (by simp)
    | exact internalHandleData_spend c _

theorem handleDeprecated13_spend (c : Conn) (m : Bytes) : Spend 0 c (handleDeprecated13 c m).1 := by
  unfold handleDeprecated13
  repeat' split
  all_goals first
    | exact .refl c
    | exact Spend.note c (by simp)
    | exact internalHandleData_spend c _

theorem fragApply_spend (env : Env) (c : Conn) (t : FragTable) (en : FragEntry) (id off : Nat) (last : Bool) (d : Bytes) :
    Spend 0 c (fragApply env c t en id off last d).1 := by
  unfold fragApply
  simp only
  have h : Spend 0 c (c.emit (.clock (env.now c.log))) := Spend.note c (by simp)
  generalize c.emit (.clock (env.now c.log)) = c1 at h ⊢
  split
  · exact (h.trans (Spend.note _ (by simp))).mono (by omega)
  · rename_i en' rc asm _
    have h2 : Spend 0 c { c1 with fragTable := some (t.set id en') } := h.of_log rfl
    generalize ({ c1 with fragTable := some (t.set id en') } : Conn) = c2 at h2 ⊢
    split
    · exact h2
    · split
      · split
        · exact (h2.trans (Spend.note c2 (by simp))).mono (by omega)
        · split
          · exact (h2.trans (Spend.note c2 (by simp))).mono (by omega)
          · rename_i p _
            exact ((h2.trans (internalHandleData_spend c2 p)).of_log rfl).mono (by omega)
      · exact h2

theorem fragReceive_spend (env : Env) (c : Conn) (id off : Nat) (last : Bool) (d : Bytes) :
    Spend 0 c (fragReceive env c id off last d).1 := by
  unfold fragReceive
  split
  · exact .refl c
  rename_i t _
  simp only
  have h1 : Spend 0 c (if (t.slot (id % t.num)).isNone then c.emit (.alloc (env.alloc c.log)) else c) := by
    split
    · exact Spend.note c (by simp)
    · exact .refl c
  generalize (if (t.slot (id % t.num)).isNone then c.emit (.alloc (env.alloc c.log)) else c) = c1 at h1 ⊢
  have h2 : Spend 0 c (if ((t.slot (id % t.num)).isNone && env.alloc c.log) = true then c1.emit (.clock (env.now c1.log)) else c1) := by
    split
    · exact (h1.trans (Spend.note c1 (by simp))).mono (by omega)
    · exact h1
  generalize (if ((t.slot (id % t.num)).isNone && env.alloc c.log) = true then c1.emit (.clock (env.now c1.log)) else c1) = c2 at h2 ⊢
  split
  · exact h2.of_log rfl
  · exact Spend.mono (j := 0 + 0) (h2.trans ((fragApply_spend env _ _ _ _ _ _ _).to_log rfl)) (by omega)

theorem handleDataFrag_spend (env : Env) (c : Conn) (m : Bytes) : Spend 0 c (handleDataFrag env c m).1 := by
  unfold handleDataFrag
  simp only
  repeat' split
  all_goals first
    | exact .refl c
    | exact Spend.note c (by simp)
    | exact fragReceive_spend env c _ _ _ _

theorem handleConfigIpv4_spend (env : Env) (c : Conn) (m : Bytes) : Spend 0 c (handleConfigIpv4 env c m).1 := by
  unfold handleConfigIpv4
  split
  · exact .refl c
  split
  · exact .refl c
  split
  · exact .refl c
  split
  · rename_i s _ _ _ _ _ _ _
    simp only
    have h := (setState_spend { c with sessionId := rdLe s } .configuring).to_log (c := c) rfl
    generalize setState { c with sessionId := rdLe s } .configuring = c1 at h ⊢
    split
    · split
      · exact (h.trans (Spend.note c1 (by simp))).mono (by omega)
      · exact ((h.trans (Spend.note c1 (by simp))).trans (setState_spend _ _)).mono (by omega)
    · exact (h.trans (setState_spend c1 _)).mono (by omega)
  · exact Spend.note c (by simp)

theorem authSwitch_spend (env : Env) (c : Conn) (m : Bytes) (ty : UInt8) :
    match authSwitch env c m ty with
    | .ret c' _ _ => Spend 0 c c'
    | .verdict c' _ _ _ => Spend 0 c c' := by
  unfold authSwitch
  simp only
  repeat' split
  all_goals (rename_i h)
  all_goals (repeat' split at h)
  all_goals first
    | (injection h with h1; subst h1; first | exact .refl c | exact Spend.note c (by simp) | exact (Spend.note c (by simp)).of_log rfl)
    | cases h

theorem handleAuth_spend (env : Env) (c : Conn) (m : Bytes) : Spend 1 c (handleAuth env c m).1 := by
  show Spend 1 c (handleAuthBuf env c m).1
  have h0 : Spend 1 c c := (Spend.refl c).mono (by omega)
  unfold handleAuthBuf
  split
  · exact h0
  split
  · exact h0
  split
  · exact h0
  split
  · exact h0
  split
  · rename_i ty _
    have h := authSwitch_spend env c m ty
    generalize authSwitch env c m ty = o at h ⊢
    cases o with
    | ret c' rc p => exact Spend.mono h (by omega)
    | verdict c' ok rc p =>
      simp only at h ⊢
      split
      · exact ((h.trans (sendMessage_spend env c' _)).trans (setState_spend _ _)).mono (by omega)
      · have h2 : Spend 0 c (c'.emit (.populate (env.populate c'.log).1)) := (h.trans (Spend.note c' (by simp))).mono (by omega)
        split
        · exact (h2.trans (sendMessage_spend env _ _)).mono (by omega)
        · exact ((h2.trans (sendMessage_spend env _ _)).trans (setState_spend _ _)).mono (by omega)
  · exact (Spend.note c (by simp)).mono (by omega)

theorem processMessage_spend (env : Env) (c : Conn) (m : Bytes) : Spend 1 c (processMessage env c m).1 := by
  have z : Spend 1 c c := (Spend.refl c).mono (by omega)
  have up : ∀ {d : Conn}, Spend 0 c d → Spend 1 c d := fun h => h.mono (by omega)
  have ite : ∀ {p : Prop} [Decidable p] {a b : Conn × RC}, Spend 1 c a.1 → Spend 1 c b.1 → Spend 1 c (if p then a else b).1 := by
    intro p _ a b ha hb; split
    · exact ha
    · exact hb
  unfold processMessage
  cases m with
  | nil => exact z.of_log rfl
  | cons id t =>
  simp only
  refine ite z ?_
  refine ite (handlePing_spend env c _) ?_
  refine ite (handlePong_spend env c _) ?_
  refine ite (ite (handleAuth_spend env c _) z) ?_
  refine ite (up (handleData_spend c _)) ?_
  refine ite (ite (up (handleConfigIpv4_spend env c _)) z) ?_
  refine ite (ite z z) ?_
  refine ite z ?_
  refine ite z ?_
  refine ite z ?_
  refine ite (up (handleDeprecated13_spend c _)) ?_
  refine ite (ite (up (handleServerConfig_spend env c _)) z) ?_
  exact ite (up (handleDataFrag_spend env c _)) z

theorem message_spend (c : Conn) (m : Bytes) : Spend (-1) c (c.emit (.message m)) :=
  ⟨[.message m], rfl, by unfold wrote arrived; simp [writes, messages]⟩

theorem messageLoop_spend (env : Env) (reads : List ReadRes) : ∀ c : Conn, Spend 0 c (messageLoop env c reads).1 := by
  induction reads with
  | nil =>
    intro c
    unfold messageLoop
    have h : ∀ ok, Spend 0 c (c.emit (.sslCall .read ok)) := fun ok => Spend.note c (by intro m o e; injection e with e _; cases e)
    split
    · exact (h false).of_log rfl
    · exact h false
  | cons r rest ih =>
    intro c
    unfold messageLoop
    have h : ∀ ok, Spend 0 c (c.emit (.sslCall .read ok)) := fun ok => Spend.note c (by intro m o e; injection e with e _; cases e)
    split
    · exact (h false).of_log rfl
    · simp only
      have h1 : Spend 0 c (ioRun env (c.emit (.sslCall .read (!(r.plain.take maxWireMtu).isEmpty))) r.io) :=
        ((h _).trans (ioRun_cbExt env _ r.io).spend).mono (by omega)
      generalize ioRun env (c.emit (.sslCall .read (!(r.plain.take maxWireMtu).isEmpty))) r.io = d at h1 ⊢
      split
      · split
        · exact h1
        · exact h1
        · exact h1
        · exact (h1.trans (ih d)).mono (by omega)
        · split
          · exact h1
          · exact h1.of_log rfl
      · have h2 : Spend 0 c (processMessage env (d.emit (.message (r.plain.take maxWireMtu))) (r.plain.take maxWireMtu)).1 :=
          ((h1.trans (message_spend d _)).trans (processMessage_spend env _ _)).mono (by omega)
        generalize processMessage env (d.emit (.message (r.plain.take maxWireMtu))) (r.plain.take maxWireMtu) = q at h2 ⊢
        obtain ⟨c1, rc⟩ := q
        simp only at h2 ⊢
        split
        · exact h2
        · exact (h2.trans (ih c1)).mono (by omega)

theorem handleMessages_spend (env : Env) (c : Conn) (reads : List ReadRes) : Spend 0 c (handleMessages env c reads).1 := by
  unfold handleMessages
  have h := messageLoop_spend env reads c
  generalize messageLoop env c reads = q at h ⊢
  obtain ⟨m, o⟩ := q
  cases o with
  | some rc => exact h
  | none =>
    simp only at h ⊢
    split
    · have hs := h.trans (renegotiateSsl_t env m).spend
      generalize renegotiateSsl env m = q at hs ⊢
      obtain ⟨s, rs⟩ := q
      simp only at hs ⊢
      split
      · exact hs.mono (by omega)
      · exact (hs.trans (renegTail_t env s).spend).mono (by omega)
    · exact (h.trans (renegTail_t env m).spend).mono (by omega)

/-- One more while the handshake is going on: the log-in message. -/
def extra (s : ConnState) : Int := if s = .connecting then 1 else 0

theorem extra_nonneg (s : ConnState) : 0 ≤ extra s := by unfold extra; split <;> omega

theorem verifyConnection_spend (env : Env) (c : Conn) (reads : List ReadRes) :
    Spend (extra c.state) c (verifyConnection env c reads).1 := by
  unfold verifyConnection
  simp only
  have h0 : Spend 0 c (if !c.firstMessageReceived then
      generateEvent { c with firstMessageReceived := true } .firstMessageReceived else c) := by
    split
    · exact (Spend.note c (e := .event .firstMessageReceived c.cbs.event) (by simp)).of_log rfl
    · exact .refl c
  have hst : (if !c.firstMessageReceived then
      generateEvent { c with firstMessageReceived := true } .firstMessageReceived else c).state = c.state := by
    split <;> rfl
  generalize (if !c.firstMessageReceived then
      generateEvent { c with firstMessageReceived := true } .firstMessageReceived else c) = c1 at h0 hst ⊢
  have hn := extra_nonneg c.state
  split
  · rename_i hcon
    have e1 : extra c.state = 1 := by unfold extra; rw [if_pos (by rw [← hst]; exact hcon)]
    have h1 := h0.trans (sslDo_spend env c1 .negotiate (by simp))
    generalize sslDo env c1 .negotiate = q at h1 ⊢
    obtain ⟨c2, r⟩ := q
    simp only at h1 ⊢
    split
    · split
      · split
        · exact h1.mono (by omega)
        · split
          · exact h1.mono (by omega)
          · exact (h1.of_log rfl).mono (by omega)
      · split
        · exact (h1.trans (updateTimeout_t env c2).spend).mono (by omega)
        · exact h1.mono (by omega)
    · have h2 := (h1.trans (changeState_spend env c2 .linkUp)).trans (handleMessages_spend env _ reads)
      exact h2.mono (by rw [e1]; simp)
  · exact (h0.trans (handleMessages_spend env c1 reads)).mono (by omega)

theorem input_spend (c : Conn) (s : Nat) (b : Bytes) : Spend 0 c (c.emit (.input s b)) := Spend.note c (by simp)

theorem outsidePacket_spend (env : Env) (c : Conn) (pkt : Bytes) (reads : List ReadRes) :
    Spend (extra c.state) c (outsidePacket env c pkt reads).1 := by
  have z : Spend (extra c.state) c c := (Spend.refl c).mono (extra_nonneg _)
  unfold outsidePacket
  split
  · exact z
  split
  · rename_i he ver s body _ _ _ _
    split
    · exact z
    split
    · exact z
    split
    · exact z
    simp only
    have h2 := (input_spend c (rdLe s) body).trans
      ((verifyConnection_spend env { c.emit (.input (rdLe s) body) with incoming := some body, packetSeen := false } reads).to_log rfl)
    have h2 : Spend (extra c.state) c (verifyConnection env { c.emit (.input (rdLe s) body) with incoming := some body, packetSeen := false } reads).1 :=
      h2.mono (by show 0 + extra c.state ≤ extra c.state; omega)
    generalize verifyConnection env { c.emit (.input (rdLe s) body) with incoming := some body, packetSeen := false } reads = q at h2 ⊢
    obtain ⟨d, rc⟩ := q
    simp only at h2 ⊢
    split
    · exact h2
    · exact (h2.trans (updateSessionIncoming_t d _).spend).mono (by omega)
  · exact (Spend.note c (by simp)).mono (extra_nonneg _)

theorem outsideData_spend (env : Env) (c : Conn) (buf : Bytes) (reads : List ReadRes) :
    Spend (extra c.state) c (outsideData env c buf reads).1 := by
  have hn := extra_nonneg c.state
  unfold outsideData
  split
  · exact (Spend.refl c).mono hn
  simp only
  have h := (ingress_cbExt c c.outsidePlugins buf buf.length).spend
  have hst : ({ c with log := (c.outsidePlugins.ingress c.log buf buf.length).1 } : Conn).state = c.state := rfl
  generalize c.outsidePlugins.ingress c.log buf buf.length = r at h hst ⊢
  generalize ({ c with log := r.1 } : Conn) = d at h hst ⊢
  split
  · exact h.mono hn
  split
  · exact h.mono hn
  split
  · exact h.mono hn
  split
  · exact (h.trans (outsidePacket_spend env d _ reads)).mono (by rw [hst]; omega)
  · unfold outsideStream
    by_cases hl : d.streamLeft.length ≠ 0
    · have e : setupStreamState d r.2.1 = ({ d with wolfError := .none }, .sslError) := by unfold setupStreamState; rw [if_pos hl]
      rw [e]
      exact (h.of_log rfl).mono hn
    · have e : setupStreamState d r.2.1 = ({ d.emit (.input 0 r.2.1) with incoming := some r.2.1, streamLeft := r.2.1 }, .success) := by
        unfold setupStreamState; rw [if_neg hl]
      rw [e]
      show Spend _ c (verifyConnection env { d.emit (.input 0 r.2.1) with incoming := some r.2.1, streamLeft := r.2.1 } reads).1
      have h2 := (h.trans (input_spend d 0 r.2.1)).trans
        ((verifyConnection_spend env { d.emit (.input 0 r.2.1) with incoming := some r.2.1, streamLeft := r.2.1 } reads).to_log rfl)
      exact h2.mono (by show 0 + 0 + extra d.state ≤ _; rw [hst]; omega)

/-! ### The other calls -/

theorem fragLoop_spend (env : Env) (size id : Nat) (h0 : 0 < size) (n : Nat) : ∀ (c : Conn) (off : Nat) (pkt : Bytes),
    pkt.length = n → Spend (((pkt.length + size - 1) / size : Nat) : Int) c (fragLoop env c size id off pkt).1 := by
  induction n using Nat.strongRecOn with
  | ind n ih =>
    intro c off pkt hn
    unfold fragLoop
    by_cases hz : pkt.length = 0
    · rw [dif_pos hz]; exact (Spend.refl c).mono (Int.natCast_nonneg _)
    · rw [dif_neg hz, dif_neg (by omega)]
      simp only
      have hd1 : (pkt.length + size - 1) / size = (pkt.length - size + size - 1) / size + 1 ∨ pkt.length < size := by
        by_cases hlt : pkt.length < size
        · exact .inr hlt
        · left
          have : pkt.length + size - 1 = (pkt.length - size + size - 1) + size := by omega
          rw [this, Nat.add_div_right _ h0]
      have hd2 : 1 ≤ (pkt.length + size - 1) / size := (Nat.le_div_iff_mul_le h0).mpr (by omega)
      split
      · exact (Spend.note c (by simp)).mono (by omega)
      · have h1 := sendMessage_spend env c (fragMsg id off (decide (pkt.length > size)) (pkt.take size))
        generalize sendMessage env c (fragMsg id off (decide (pkt.length > size)) (pkt.take size)) = q at h1 ⊢
        obtain ⟨c1, rc⟩ := q
        simp only at h1 ⊢
        split
        · exact h1.mono (by omega)
        · have h2 := ih (pkt.drop size).length (by simp; omega) c1 ((off + (pkt.take size).length) % 65536) (pkt.drop size) rfl
          refine (h1.trans h2).mono ?_
          rw [List.length_drop]
          rcases hd1 with h | h
          · omega
          · have : (pkt.length - size + size - 1) / size = 0 := Nat.div_eq_of_lt (by omega)
            rw [this]; omega

theorem pieces_le {n size : Nat} (h : 496 ≤ size) : (n + size - 1) / size ≤ pieces n := by
  unfold pieces
  rw [Nat.div_le_iff_le_mul_add_pred (by omega)]
  have h1 : (n + 495) / 496 * 496 ≤ (n + 495) / 496 * size := Nat.mul_le_mul_left _ h
  have h2 : n + 495 < (n + 495) / 496 * 496 + 496 := by
    have := Nat.lt_div_mul_add (a := n + 495) (b := 496) (by omega); omega
  have h3 : size * ((n + 495) / 496) = (n + 495) / 496 * size := Nat.mul_comm _ _
  omega

theorem insidePacket_spend (env : Env) (c : Conn) (pkt : Bytes) (hpm : PmRange c.pmtud) :
    Spend ((max 1 (pieces (sizeSub c.outsideMtu packetOverhead)) : Nat) : Int) c (insidePacket env c pkt).1 := by
  have hr := effectivePmtu_range hpm
  have up : ∀ {d : Conn} {k : Nat}, Spend 0 c d → Spend (k : Int) c d := fun h => h.mono (by omega)
  unfold insidePacket
  split
  · exact up (.refl c)
  split
  · exact up (.refl c)
  simp only
  split
  · exact up (.refl c)
  split
  · exact up (.refl c)
  split
  · exact up (Spend.note c (by simp))
  split
  · exact up (.refl c)
  rename_i q rc hq hrc
  generalize sizeSub c.outsideMtu packetOverhead = cap at *
  have h1 := (ingress_cbExt c c.insidePlugins q cap).spend
  generalize c.insidePlugins.ingress c.log q cap = r at h1 ⊢
  obtain ⟨log', p, rc'⟩ := r
  simp only at h1 ⊢
  split
  · exact up h1
  split
  · exact up h1
  split
  · exact up h1
  rename_i hcap
  have hone : (1 : Int) ≤ ((max 1 (pieces cap) : Nat) : Int) := by omega
  split
  · split
    · exact up h1
    · exact (h1.trans (sendMessage_spend env _ _)).mono (by omega)
  · unfold fragAndSend
    simp only
    split
    · exact up h1
    · have hs : 496 ≤ (effectivePmtu c + 3 - 7) / 8 * 8 := by omega
      refine (h1.trans ((fragLoop_spend env ((effectivePmtu c + 3 - 7) / 8 * 8) c.fragNextId (by omega) p.length
        { c with log := log', fragNextId := (c.fragNextId + 1) % 65536 } 0 p rfl).to_log rfl)).mono ?_
      have h2 := pieces_le (n := p.length) hs
      have h3 : pieces p.length ≤ pieces cap := Nat.div_le_div_right (by omega)
      omega

theorem configure_spend (env : Env) (c : Conn) (ctx : SslCtx) : Spend 0 c (configure env c ctx).1 := by
  obtain ⟨x, y, ok, ft, e, _⟩ := configure_shape env c ctx
  exact ⟨[.table ctx.maxFragEntries, .alloc ok, .callbacks ctx.cbs], by rw [e]; rfl, by simp [wrote, arrived, writes, messages]⟩

theorem setupType_spend (env : Env) (c : Conn) (ctx : SslCtx) : Spend 0 c (setupType env c ctx).1 := by
  unfold setupType
  split
  · simp only
    have h := sslDo_spend env c (.setMtu (c.outsideMtu - packetOverhead + 37)) (by simp)
    generalize sslDo env c (.setMtu (c.outsideMtu - packetOverhead + 37)) = q at h ⊢
    obtain ⟨c1, r⟩ := q
    simp only at h ⊢
    split
    · exact h
    split
    · have h2 := h.trans (sslDo_spend env c1 .allowChFrag (by simp))
      generalize sslDo env c1 .allowChFrag = q at h2 ⊢
      obtain ⟨c2, r2⟩ := q
      simp only at h2 ⊢
      split <;> exact h2.mono (by omega)
    · exact h
  · split
    · have h := sslDo_spend env c (.useSNI (cstr c.sniHostname)) (by simp)
      generalize sslDo env c (.useSNI (cstr c.sniHostname)) = q at h ⊢
      obtain ⟨c1, r⟩ := q
      simp only at h ⊢
      split <;> exact h
    · exact .refl c

theorem setupDn_spend (env : Env) (c : Conn) (ctx : SslCtx) : Spend 0 c (setupDn env c ctx).1 := by
  unfold setupDn
  split
  · have h := sslDo_spend env c (.checkDomainName (cstr ctx.serverDn)) (by simp)
    generalize sslDo env c (.checkDomainName (cstr ctx.serverDn)) = q at h ⊢
    obtain ⟨c1, r⟩ := q
    simp only at h ⊢
    split <;> exact h
  · exact .refl c

theorem setupPqc_spend (env : Env) (c : Conn) : Spend 0 c (setupPqc env c).1 := by
  unfold setupPqc
  split
  · have h := sslDo_spend env c .useKeyShare (by simp)
    generalize sslDo env c .useKeyShare = q at h ⊢
    obtain ⟨c1, r⟩ := q
    simp only at h ⊢
    split <;> exact h
  · exact .refl c

theorem setupSsl_spend (env : Env) (c : Conn) (ctx : SslCtx) : Spend 0 c (setupSsl env c ctx).1 := by
  unfold setupSsl
  simp only
  have h0 : Spend 0 c { c.emit (.sslCall .new (env.ssl c.log .new).ok) with wolfSet := (env.ssl c.log .new).ok } :=
    (Spend.note c (e := .sslCall .new (env.ssl c.log .new).ok) (by simp)).of_log rfl
  generalize ({ c.emit (.sslCall .new (env.ssl c.log .new).ok) with wolfSet := (env.ssl c.log .new).ok } : Conn) = c0 at h0 ⊢
  split
  · exact h0
  have h1 := h0.trans (setupType_spend env c0 ctx)
  generalize setupType env c0 ctx = q at h1 ⊢
  obtain ⟨c1, o1⟩ := q
  cases o1 with
  | some rc => exact h1.mono (by omega)
  | none =>
    simp only at h1 ⊢
    have h2 := h1.trans (setupDn_spend env c1 ctx)
    generalize setupDn env c1 ctx = q at h2 ⊢
    obtain ⟨c2, o2⟩ := q
    cases o2 with
    | some rc => exact h2.mono (by omega)
    | none => exact (h2.trans (setupPqc_spend env c2)).mono (by omega)

theorem internalConnect_spend (env : Env) (c : Conn) (ctx : SslCtx) (i o : Chain) : Spend 1 c (internalConnect env c ctx i o).1 := by
  unfold internalConnect
  have h := configure_spend env c ctx
  generalize configure env c ctx = q at h ⊢
  obtain ⟨c1, rc⟩ := q
  simp only at h ⊢
  have h1 : Spend 0 c { c1.emit (.chains i.plugins o.plugins) with insidePlugins := i, outsidePlugins := o } :=
    ((h.trans (Spend.note c1 (e := .chains i.plugins o.plugins) (by simp))).of_log rfl).mono (by omega)
  generalize ({ c1.emit (.chains i.plugins o.plugins) with insidePlugins := i, outsidePlugins := o } : Conn) = c2 at h1 ⊢
  split
  · exact h1.mono (by omega)
  have h2 := h1.trans (setupSsl_spend env c2 ctx)
  generalize setupSsl env c2 ctx = q at h2 ⊢
  obtain ⟨c3, o3⟩ := q
  cases o3 with
  | some rc => exact h2.mono (by omega)
  | none =>
    simp only at h2 ⊢
    have h3 := (h2.trans (changeState_spend env c3 .connecting)).trans (sslDo_spend env _ .negotiate (by simp))
    generalize sslDo env (changeState env c3 .connecting) .negotiate = q at h3 ⊢
    obtain ⟨c4, r⟩ := q
    simp only at h3 ⊢
    have e : (if ConnState.connecting = .linkUp then (1 : Int) else 0) = 0 := by decide
    rw [e] at h3
    split
    · split
      · exact ((h3.trans (changeState_spend env c4 .connecting)).trans (updateTimeout_t env _).spend).mono (by rw [e]; omega)
      · exact ((h3.trans (changeState_spend env c4 .connecting)).trans (updateTimeout_t env _).spend).mono (by rw [e]; omega)
      · exact h3.mono (by omega)
    · exact ((h3.trans (changeState_spend env c4 .linkUp)).trans (updateTimeout_t env _).spend).mono (by simp)

theorem generateSessionId_spend (env : Env) (c : Conn) : Spend 0 c (generateSessionId env c).1 := by
  unfold generateSessionId
  simp only
  repeat' split
  all_goals exact Spend.note c (by simp)

theorem clientConnect_spend (env : Env) (c : Conn) (ctx : SslCtx) (i o : Chain) : Spend 1 c (clientConnect env c ctx i o).1 := by
  unfold clientConnect
  simp only
  split
  · exact (Spend.refl c).mono (by omega)
  · exact ((Spend.note c (e := .role false) (by simp)).trans
      ((internalConnect_spend env { c.emit (.role false) with isServer := false } ctx i o).to_log rfl)).mono (by omega)

theorem serverConnect_spend (env : Env) (c : Conn) (ctx : SslCtx) (i o : Chain) : Spend 1 c (serverConnect env c ctx i o).1 := by
  unfold serverConnect
  simp only
  split
  · exact (Spend.refl c).mono (by omega)
  · have h := (Spend.note c (e := .role true) (by simp)).trans
      ((internalConnect_spend env { c.emit (.role true) with isServer := true } ctx i o).to_log rfl)
    generalize internalConnect env { c.emit (.role true) with isServer := true } ctx i o = q at h ⊢
    obtain ⟨c1, rc⟩ := q
    simp only at h ⊢
    split
    · exact h.mono (by omega)
    · have h2 := h.trans (generateSessionId_spend env c1)
      generalize generateSessionId env c1 = q at h2 ⊢
      obtain ⟨c2, o2⟩ := q
      cases o2 with
      | none => exact h2.mono (by omega)
      | some s => exact (h2.of_log rfl).mono (by omega)

theorem disconnect_spend (env : Env) (c : Conn) : Spend 1 c (disconnect env c).1 := by
  unfold disconnect
  split
  · exact (Spend.refl c).mono (by omega)
  split
  · exact (Spend.refl c).mono (by omega)
  simp only
  have h := ((setState_spend c .disconnecting).trans (sendMessage_spend env _ [msgGoodbye])).trans (sslDo_spend env _ .shutdown (by simp))
  have h : Spend 1 c (sslDo env (sendGoodbye env (setState c .disconnecting)) .shutdown).1 := h.mono (by omega)
  generalize (sslDo env (sendGoodbye env (setState c .disconnecting)) .shutdown).1 = d at h ⊢
  have h2 : Spend 1 c { d.emit (.timer 0) with cbs := { d.cbs with insideWrite := false, outsideWrite := false }, wolfTimeout := 0 } :=
    ((h.trans (Spend.note d (e := .timer 0) (by simp))).of_log rfl).mono (by omega)
  exact ((h2.trans (Spend.note _ (by simp))).trans (setState_spend _ _)).mono (by omega)

theorem keepalive_spend (env : Env) (c : Conn) : Spend 1 c (keepalive env c).1 := by
  unfold keepalive
  split
  · exact (Spend.refl c).mono (by omega)
  simp only
  have h := (sendMessage_spend env { c with pingNextId := (c.pingNextId + 1) % 65536 } (pingMsg c.pingNextId)).to_log (c := c) rfl
  generalize sendMessage env { c with pingNextId := (c.pingNextId + 1) % 65536 } (pingMsg c.pingNextId) = q at h ⊢
  obtain ⟨c1, rc⟩ := q
  simp only at h ⊢
  split
  · exact h.of_log rfl
  · exact h

theorem nudge_spend (env : Env) (c : Conn) : Spend 1 c (nudge env c).1 := by
  unfold nudge
  simp only
  have h0 : Spend 0 c { c with nudgeTimerRunning := false } := .same rfl
  generalize ({ c with nudgeTimerRunning := false } : Conn) = d at h0 ⊢
  split
  · exact ((h0.trans (sendAuth_spend env d)).trans (updateTimeout_t env _).spend).mono (by omega)
  · have h1 := h0.trans (sslDo_spend env d .gotTimeout (by simp))
    generalize sslDo env d .gotTimeout = q at h1 ⊢
    obtain ⟨c1, r⟩ := q
    simp only at h1 ⊢
    split
    · split
      · exact (h1.trans (updateTimeout_t env c1).spend).mono (by omega)
      · exact (h1.trans (updateTimeout_t env c1).spend).mono (by omega)
      · exact (h1.trans (setState_spend c1 _)).mono (by omega)
    · exact (h1.trans (updateTimeout_t env c1).spend).mono (by omega)

/-! ### The property -/

theorem startPmtud_spend (env : Env) (c : Conn) : Spend 1 c (startPmtud env c).1 := by
  unfold startPmtud
  have h0 : Spend 1 c c := (Spend.refl c).mono (by omega)
  repeat' split
  all_goals first
    | exact h0
    | exact startBaseProbing_spend env c

theorem sendServerConfig_spend (env : Env) (c : Conn) (b : Bytes) : Spend 1 c (sendServerConfig env c b).1 := by
  unfold sendServerConfig
  have h0 : Spend 1 c c := (Spend.refl c).mono (by omega)
  repeat' split
  all_goals first
    | exact h0
    | exact sendMessage_spend env c _

theorem rotateSession_spend (env : Env) (c : Conn) : Spend 0 c (rotateSession env c).1 := by
  unfold rotateSession
  split
  · exact .refl c
  · have h := generateSessionId_spend env c
    generalize generateSessionId env c = q at h ⊢
    obtain ⟨c1, o⟩ := q
    cases o with
    | none => exact h
    | some s => exact h.of_log rfl

theorem insidePacket_spend' (env : Env) (c : Conn) (pkt : Bytes) (hpm : PmRange c.pmtud)
    (hm : c.state = .online → 114 < c.outsideMtu ∧ c.outsideMtu < 65536) :
    Spend ((max 1 (pieces (c.outsideMtu - 114)) : Nat) : Int) c (insidePacket env c pkt).1 := by
  by_cases ho : c.state = .online
  · obtain ⟨h1, h2⟩ := hm ho
    have h := insidePacket_spend env c pkt hpm
    rw [capacity_eq (by omega) (by omega)] at h
    exact h
  · unfold insidePacket
    rw [if_pos ho]
    exact (Spend.refl c).mono (by omega)

theorem exec_spend (env : Env) (c : Conn) (op : Op) (hpm : PmRange c.pmtud)
    (hm : c.state = .online → 114 < c.outsideMtu ∧ c.outsideMtu < 65536) :
    Spend (allowance c.state c.outsideMtu op : Nat) c (exec env c op).1 := by
  cases op with
  | clientConnect ctx i o => exact clientConnect_spend env c ctx i o
  | serverConnect ctx i o => exact serverConnect_spend env c ctx i o
  | disconnect => exact disconnect_spend env c
  | insidePacket p => exact insidePacket_spend' env c p hpm hm
  | outsideData b rs =>
    have h := outsideData_spend env c b rs
    have e : extra c.state = (allowance c.state c.outsideMtu (.outsideData b rs) : Nat) := by
      unfold extra allowance; split <;> rfl
    rw [← e]; exact h
  | nudge => exact nudge_spend env c
  | keepalive => exact keepalive_spend env c
  | sendServerConfig b => exact sendServerConfig_spend env c b
  | scheduleReneg => exact .same rfl
  | rotateSession => exact rotateSession_spend env c
  | startPmtud => exact startPmtud_spend env c
  | pmtudTimeout => exact handleProbeTimeout_spend env c
  | setUsername s => exact .same rfl
  | setPassword s => exact .same rfl
  | setAuthToken t =>
    show Spend 0 c (setAuthToken c t).1
    unfold setAuthToken
    repeat' split
    all_goals first | exact .same rfl | exact Spend.note c (by simp)
  | setAuthBuffer b =>
    show Spend 0 c (setAuthBuffer c b).1
    unfold setAuthBuffer
    repeat' split
    all_goals first | exact .same rfl | exact Spend.note c (by simp)
  | setOutsideMtu m => exact .same (by show (setOutsideMtu c m).1.log = _; unfold setOutsideMtu; split <;> rfl)
  | setProtocolVersion a b => exact .same rfl
  | setSessionId s => exact .same (by show (setSessionId c s).1.log = _; unfold setSessionId; split <;> rfl)
  | setSni s => exact .same rfl

/-- `d` extends the history of `c` with at most three datagrams for each record. -/
def Copies (l l' : Log) : Prop := ∃ x, l' = x ++ l ∧ (datagrams x).length ≤ 3 * (records x).length

theorem Copies.trans {a b c : Log} (h1 : Copies a b) (h2 : Copies b c) : Copies a c := by
  obtain ⟨x, rfl, hx⟩ := h1
  obtain ⟨y, rfl, hy⟩ := h2
  refine ⟨y ++ x, by simp, ?_⟩
  unfold datagrams records at *
  rw [List.filterMap_append, List.filterMap_append, List.length_append, List.length_append]
  omega

theorem datagrams_none {x : Log} (h : ∀ e ∈ x, ¬NetEff e) : datagrams x = [] := by
  unfold datagrams
  rw [List.filterMap_eq_nil_iff]
  intro e he
  have := h e he
  cases e <;> first | rfl | exact absurd trivial this

theorem Copies.quiet {l x : Log} (h : ∀ e ∈ x, ¬NetEff e) : Copies l (x ++ l) := ⟨x, rfl, by rw [datagrams_none h]; simp⟩

theorem datagrams_le (x : Log) : (datagrams x).length ≤ x.length := List.length_filterMap_le _ _

theorem ioStep_copies (env : Env) (m : Conn) (r : IoReq) : Copies m.log (ioStep env m r).log := by
  cases r with
  | recv sz =>
    obtain ⟨res, e⟩ := recv_log env m sz
    exact ⟨[.sslIn sz res], by rw [e]; rfl, by simp [datagrams]⟩
  | send rec =>
    have key : ∀ (pl copies : Log) (res : Option Nat), (∀ e ∈ pl, ∃ p r, e = .pluginEgress p r) → copies.length ≤ 3 →
        (ioStep env m (.send rec)).log = .sslOut rec res :: (copies ++ (pl ++ m.log)) → Copies m.log (ioStep env m (.send rec)).log := by
      intro pl copies res hpl hc e
      refine ⟨.sslOut rec res :: (copies ++ pl), by rw [e]; simp, ?_⟩
      have h1 : datagrams (.sslOut rec res :: (copies ++ pl)) = datagrams copies := by
        have h2 : datagrams pl = [] := datagrams_none (by intro e he; obtain ⟨p, r, rfl⟩ := hpl e he; simp [NetEff])
        have h3 : datagrams (.sslOut rec res :: (copies ++ pl)) = datagrams copies ++ datagrams pl := by
          unfold datagrams; rw [← List.filterMap_append]; rfl
        rw [h3, h2, List.append_nil]
      have h2 : 1 ≤ (records (.sslOut rec res :: (copies ++ pl))).length := by
        have : records (.sslOut rec res :: (copies ++ pl)) = rec :: records (copies ++ pl) := rfl
        rw [this]; simp
      have := datagrams_le copies
      rw [h1]; omega
    have tr : ∀ {t : Nat} {q : Bytes} {n : Nat} {copies : Log} {res : Option Nat}, t ≤ 3 →
        Transmitted t q n copies res → copies.length ≤ 3 := by
      rintro t q n copies res ht (⟨rfl, -⟩ | ⟨k, rc, hk, -, rfl, -⟩)
      · simpa using ht
      · simp; omega
    cases ht : m.connType with
    | datagram =>
      obtain ⟨pl, copies, res, q, e, hpl, -, h⟩ := dtls_send env m rec ht
      refine key pl copies res hpl ?_ e
      rcases h with ⟨rfl, -⟩ | ⟨-, -, -, h⟩
      · simp
      · exact tr (by split <;> omega) h
    | stream =>
      obtain ⟨pl, copies, res, q, e, hpl, -, h⟩ := tls_send env m rec ht
      refine key pl copies res hpl ?_ e
      rcases h with ⟨rfl, -⟩ | ⟨-, -, h⟩
      · simp
      · exact tr (by omega) h

theorem exec_copies {env : Env} {a : Api} {c c' : Conn} (h : M env a c c') : Copies c.log c'.log := by
  refine walk_call (P := fun d => Copies c.log d.log) h ⟨[], rfl, by simp [datagrams]⟩ ?_ ?_ ?_
  · intro b d _ ho _ hb
    obtain ⟨l, e, hl, -⟩ := ho
    exact hb.trans (e ▸ Copies.quiet hl)
  · intro b d _ hl _ hb
    obtain ⟨l, e, hl⟩ := hl
    exact hb.trans (e ▸ Copies.quiet fun x hx => (hl x hx).2)
  · intro m r _ _ hm
    exact hm.trans (ioStep_copies env m r)

theorem messages_none {x : Log} (h : ∀ e ∈ x, ∀ p, e ≠ .message p) : messages x = [] := by
  induction x with
  | nil => rfl
  | cons e x ih =>
    have h1 := ih fun e he => h e (List.mem_cons_of_mem _ he)
    have h2 := h e (List.mem_cons_self ..)
    cases e <;> first | exact h1 | exact absurd rfl (h2 _)

/-- **C101.** No call floods the network.  In every reachable state, a call hands to the TLS layer at most as many
messages as came out of it during the call, and `allowance` more: none for a call that only sets something, one for
any other call, for a packet as many as the MTU makes room for, and for receiving none, except one when it finds the
connection CONNECTING.  Only receiving takes messages out of the TLS layer.  And the datagrams handed to the host are
at most three for each record the TLS layer produced. -/
theorem C101_bounded_output (env : Env) (ops : List Op) (op : Op) :
    ∃ x, (step env (run env ops) op).1.log = x ++ (run env ops).log ∧
      (writes x).length ≤ (messages x).length + allowance (run env ops).state (run env ops).outsideMtu op ∧
      ((∀ b rs, op ≠ .outsideData b rs) → messages x = []) ∧
      (datagrams x).length ≤ 3 * (records x).length := by
  have hg := run_good env ops
  have hgs := hg.step op
  have hall := permitted_everywhere env (ops ++ [op])
  rw [run_snoc] at hall
  generalize run env ops = c at hg hgs hall ⊢
  obtain ⟨⟨o, hi⟩, hs⟩ := hg
  obtain ⟨l, el, hl⟩ := step_log env op hi
  have e0 : (step env c op).1.log = (.ret (step env c op).2 :: l ++ [.api op.api]) ++ c.log := by rw [el]; simp
  have hm : c.state = .online → 114 < c.outsideMtu ∧ c.outsideMtu < 65536 := by
    intro h
    have := hs.online h
    rcases hs.mtu with h | h
    · exact absurd h this
    · exact h
  refine ⟨_, e0, ?_, ?_, ?_⟩
  · obtain ⟨x, ex, hx⟩ := exec_spend env (c.emit (.api op.api)) op hi.pm hm
    have e1 : (step env c op).1.log = (.ret (step env c op).2 :: x ++ [.api op.api]) ++ c.log := by
      rw [exec_to_step]
      show .ret (step env c op).2 :: (exec env (c.emit (.api op.api)) op).1.log = _
      rw [ex]
      show _ = .ret (step env c op).2 :: (x ++ [.api op.api]) ++ c.log
      show _ = .ret (step env c op).2 :: ((x ++ [.api op.api]) ++ c.log)
      rw [List.append_assoc]; rfl
    rw [List.append_cancel_right (e0.symm.trans e1)]
    have h1 : writes (.ret (step env c op).2 :: x ++ [.api op.api]) = writes x := by
      show writes (x ++ [.api op.api]) = _
      rw [writes_app]; simp [writes]
    have h2 : messages (.ret (step env c op).2 :: x ++ [.api op.api]) = messages x := by
      show messages (x ++ [.api op.api]) = _
      rw [messages_append]; simp [messages]
    rw [h1, h2]
    unfold wrote arrived at hx
    have h3 : allowance (c.emit (.api op.api)).state (c.emit (.api op.api)).outsideMtu op = allowance c.state c.outsideMtu op := rfl
    rw [h3] at hx
    exact_mod_cast hx
  · intro hne
    have hap : op.api ≠ .outsideData := by cases op <;> first | exact absurd rfl (hne _ _) | simp [Op.api]
    have hno : ∀ e ∈ l, ∀ p, e ≠ .message p := by
      rintro e he p rfl
      obtain ⟨n, o', rfl⟩ := List.append_of_mem he
      have hp := hall.at (e0.trans (by simp : _ = (.ret (step env c op).2 :: n) ++ .message p :: (o' ++ .api op.api :: c.log)))
      have ha := hp.2.2.2.2
      rw [lastApi_noMark (fun e he => hl e (by simp [he]))] at ha
      exact hap (Option.some.inj ha)
    refine messages_none ?_
    intro e he p
    rcases List.mem_append.1 he with he | he
    · rcases List.mem_cons.1 he with rfl | he
      · simp
      · exact hno e he p
    · rw [List.mem_singleton.1 he]; simp
  · obtain ⟨x, ex, hx⟩ := exec_copies (exec_star env o c op hi)
    have e2 : (entry c op).log = .api op.api :: c.log := by cases op <;> rfl
    have e1 : (step env c op).1.log = (.ret (step env c op).2 :: x ++ [.api op.api]) ++ c.log := by
      rw [exec_to_step]
      show .ret (step env c op).2 :: (exec env (c.emit (.api op.api)) op).1.log = _
      rw [ex, e2]; simp
    rw [List.append_cancel_right (e0.symm.trans e1)]
    have h1 : datagrams (.ret (step env c op).2 :: x ++ [.api op.api]) = datagrams x := by
      show datagrams (x ++ [.api op.api]) = _
      unfold datagrams; rw [List.filterMap_append]; simp
    have h2 : records (.ret (step env c op).2 :: x ++ [.api op.api]) = records x := by
      show records (x ++ [.api op.api]) = _
      unfold records; rw [List.filterMap_append]; simp
    rw [h1, h2]; exact hx

namespace Demo

/-- Messages sent, messages that arrived, datagrams and records of a call. -/
def output (env : Env) (c : Conn) (op : Op) : Nat × Nat × Nat × Nat :=
  let x := newPart env c op
  ((writes x).length, (messages x).length, (datagrams x).length, (records x).length)

/-- Two pings in one datagram. -/
def twoPings : Op := .outsideData (dgram [7]) [msg [2, 0, 1, 0, 0], msg [2, 0, 2, 0, 0], msg [9, 9]]

end Demo

/-- Each allowance is used: completing the handshake sends the credentials, in three copies, though no message has
arrived; connected, three messages of which two are pings bring two pongs; a keepalive is one message; a packet is
one, and with an MTU of 1500 the bound is three; a setter sends nothing. -/
example : (run Demo.env (Demo.clientOps.take 4)).state = .connecting ∧
    Demo.output Demo.env (run Demo.env (Demo.clientOps.take 4)) (.outsideData (Demo.dgram [1, 2, 3]) []) = (1, 0, 3, 1) ∧
    Demo.output Demo.env (run Demo.env Demo.clientOps) Demo.twoPings = (2, 3, 2, 2) ∧
    Demo.output Demo.env (run Demo.env Demo.clientOps) .keepalive = (1, 0, 1, 1) ∧
    Demo.output Demo.env (run Demo.env Demo.clientOps) (.insidePacket Demo.ipPkt) = (1, 0, 1, 1) ∧
    Demo.output Demo.env (run Demo.env Demo.clientOps) (.setUsername [1]) = (0, 0, 0, 0) ∧
    allowance .online (run Demo.env Demo.clientOps).outsideMtu (.insidePacket Demo.ipPkt) = 3 := by decide +kernel

end Lightway
