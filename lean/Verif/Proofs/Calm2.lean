import Verif.Proofs.Calm
import Verif.Proofs.Locate

/-!
# Which calls start a renegotiation
-/

namespace Lightway
open Spec

theorem sendMessage_rest (env : Env) (c : Conn) (m : Bytes) : Rest c (sendMessage env c m).1 := by
  obtain ⟨l, ok, e, hl⟩ := sendMessage_log env c m
  obtain ⟨l', ps, sl, we, e', hl'⟩ := sendMessage_frame env c m
  refine ⟨⟨l ++ [.sslCall (.write m) ok], by rw [e]; simp, ?_⟩, by rw [e'], by rw [e']⟩
  intro x hx
  rcases List.mem_append.mp hx with h | h
  · have := hl x h
    cases x <;> simp_all [CbIo, Idle]
  · rw [List.mem_singleton] at h; rw [h]; trivial

theorem setState_rest (c : Conn) (s : ConnState) : Rest c (setState c s) := by
  unfold setState
  split
  · exact .refl c
  · exact ⟨⟨[.state s c.cbs.stateChange], rfl, by simp [Idle]⟩, rfl, rfl⟩

theorem sendAuth_rest (env : Env) (c : Conn) : Rest c (sendAuth env c).1 := by
  unfold sendAuth
  split
  · exact .refl c
  simp only
  have h := setState_rest c .authenticating
  generalize setState c .authenticating = c1 at h ⊢
  repeat' split
  all_goals first | exact h | exact h.trans (sendMessage_rest env c1 _)

theorem changeState_rest (env : Env) (c : Conn) (s : ConnState) : Rest c (changeState env c s) := by
  unfold changeState
  split
  · exact .refl c
  · simp only
    split
    · exact (setState_rest c s).trans (sendAuth_rest env _)
    · exact setState_rest c s

/-! ## The other calls -/

theorem confirmBaseFailed_unmoved (env : Env) (c : Conn) : Unmoved c (confirmBaseFailed env c).1 := by
  unfold confirmBaseFailed
  split
  · exact (pmtudChangeState_unmoved c .error).trans (retryProbe_unmoved env _ _)
  · exact .refl c

theorem blackholeDetected_unmoved (env : Env) (c : Conn) : Unmoved c (blackholeDetected env c).1 := by
  unfold blackholeDetected
  split
  · exact ((pmtudChangeState_unmoved c .base).trans (.updP _ _)).trans (sendProbe_unmoved env _ _)
  · exact .refl c

theorem handleProbeTimeout_unmoved (env : Env) (c : Conn) : Unmoved c (handleProbeTimeout env c).1 := by
  unfold handleProbeTimeout
  split
  · exact sendProbe_unmoved env c _
  simp only
  have h2 := Unmoved.updP c { c.pmtud with pendingId := 0, probeCount := 0 }
  split
  · split
    · exact h2.trans (sendProbe_unmoved env _ _)
    · exact h2.trans (confirmBaseFailed_unmoved env _)
  · split
    · exact (h2.trans (.updP _ _)).trans (sendProbe_unmoved env _ _)
    · split
      · exact h2.emit trivial
      · exact (h2.trans (.updP _ _)).trans (searchCompleted_unmoved env _)
  · exact h2.trans (blackholeDetected_unmoved env _)
  · exact h2.trans (retryProbe_unmoved env _ _)
  · exact h2

theorem fragLoop_unmoved (env : Env) (size id : Nat) : ∀ (n : Nat) (c : Conn) (off : Nat) (pkt : Bytes), pkt.length ≤ n →
    Unmoved c (fragLoop env c size id off pkt).1 := by
  intro n
  induction n with
  | zero =>
    intro c off pkt h
    rw [fragLoop]
    simp only [Nat.le_zero.mp h, dite_true]
    exact .refl c
  | succ n ih =>
    intro c off pkt h
    rw [fragLoop]
    split
    · exact .refl c
    split
    · exact .emit (.refl c) trivial
    simp only
    split
    · exact .emit (.refl c) trivial
    have h1 := sendMessage_unmoved env c (fragMsg id off (decide (pkt.length > size)) (pkt.take size))
    generalize sendMessage env c (fragMsg id off (decide (pkt.length > size)) (pkt.take size)) = q at h1 ⊢
    obtain ⟨c1, rc⟩ := q
    simp only at h1 ⊢
    split
    · exact h1
    · exact h1.trans (ih c1 _ _ (by rw [List.length_drop]; omega))

theorem fragAndSend_unmoved (env : Env) (c : Conn) (pkt : Bytes) (n : Nat) : Unmoved c (fragAndSend env c pkt n).1 := by
  unfold fragAndSend
  simp only
  split
  · exact .refl c
  · have h : Unmoved c { c with fragNextId := (c.fragNextId + 1) % 65536 } := .of_log rfl
    exact h.trans (fragLoop_unmoved env _ _ _ _ _ _ (Nat.le_refl _))

theorem insidePacket_unmoved (env : Env) (c : Conn) (pkt : Bytes) : Unmoved c (insidePacket env c pkt).1 := by
  unfold insidePacket
  split
  · exact .refl c
  split
  · exact .refl c
  simp only
  split
  · exact .refl c
  split
  · exact .refl c
  split
  · exact .emit (.refl c) trivial
  split
  · exact .refl c
  rename_i p rc _ _
  have h : Unmoved c { c with log := (c.insidePlugins.ingress c.log p (sizeSub c.outsideMtu packetOverhead)).1 } := by
    obtain ⟨l, h1, h2⟩ := Chain.ingress_log c.insidePlugins c.log p (sizeSub c.outsideMtu packetOverhead)
    refine ⟨⟨l, h1, fun x hx => ?_⟩, rfl, rfl⟩
    obtain ⟨p, r, rfl⟩ := h2 x hx
    trivial
  generalize c.insidePlugins.ingress c.log p (sizeSub c.outsideMtu packetOverhead) = r at h ⊢
  generalize ({ c with log := r.1 } : Conn) = d at h ⊢
  split
  · exact h
  split
  · exact h
  split
  · exact h
  split
  · split
    · exact h
    · exact h.trans (sendMessage_unmoved env d _)
  · exact h.trans (fragAndSend_unmoved env d _ _)

theorem disconnect_unmoved (env : Env) (c : Conn) : Unmoved c (disconnect env c).1 := by
  unfold disconnect
  split
  · exact .refl c
  split
  · exact .refl c
  simp only
  have h : Unmoved c (sslDo env (sendGoodbye env (setState c .disconnecting)) .shutdown).1 :=
    ((setState_unmoved c _).trans (sendMessage_unmoved env _ _)).trans (sslDo_unmoved env _ .shutdown (fun _ => trivial))
  generalize (sslDo env (sendGoodbye env (setState c .disconnecting)) .shutdown).1 = d at h ⊢
  refine Unmoved.trans (h.trans ?_) (setState_unmoved _ _)
  exact ⟨⟨[.callbacks { d.cbs with insideWrite := false, outsideWrite := false }, .timer 0], rfl, by simp [Silent]⟩, rfl, rfl⟩

theorem nudge_unmoved (env : Env) (c : Conn) : Unmoved c (nudge env c).1 := by
  unfold nudge
  simp only
  have h0 : Unmoved c { c with nudgeTimerRunning := false } := .of_log rfl
  have hs : ({ c with nudgeTimerRunning := false } : Conn).state = c.state := rfl
  generalize ({ c with nudgeTimerRunning := false } : Conn) = d at h0 hs ⊢
  split
  · exact (h0.trans (sendAuth_unmoved env d)).trans (updateTimeout_rest env _).unmoved
  · have h1 := h0.trans (sslDo_unmoved env d .gotTimeout (fun _ => trivial))
    generalize sslDo env d .gotTimeout = q at h1 ⊢
    obtain ⟨c1, r⟩ := q
    simp only at h1 ⊢
    split
    · split
      · exact h1.trans (updateTimeout_rest env _).unmoved
      · exact h1.trans (updateTimeout_rest env _).unmoved
      · exact h1.trans (setState_unmoved _ _)
    · exact h1.trans (updateTimeout_rest env _).unmoved

theorem configure_unmoved (env : Env) (c : Conn) (ctx : SslCtx) : Unmoved c (configure env c ctx).1 := by
  obtain ⟨x, y, ok, ft, e, _⟩ := configure_shape env c ctx
  rw [e]
  exact ⟨⟨[.table ctx.maxFragEntries, .alloc ok, .callbacks ctx.cbs], rfl, by simp [Silent]⟩, rfl, rfl⟩

theorem setupType_unmoved (env : Env) (c : Conn) (ctx : SslCtx) : Unmoved c (setupType env c ctx).1 := by
  unfold setupType
  split
  · have h1 := sslDo_unmoved env c (.setMtu (c.outsideMtu - packetOverhead + 37)) (fun _ => trivial)
    generalize sslDo env c (.setMtu (c.outsideMtu - packetOverhead + 37)) = q at h1 ⊢
    obtain ⟨c1, r⟩ := q
    simp only at h1 ⊢
    split
    · exact h1
    split
    · have h2 := h1.trans (sslDo_unmoved env c1 .allowChFrag (fun _ => trivial))
      generalize sslDo env c1 .allowChFrag = q at h2 ⊢
      obtain ⟨c2, r2⟩ := q
      simp only at h2 ⊢
      split <;> exact h2
    · exact h1
  · split
    · have h1 := sslDo_unmoved env c (.useSNI (cstr c.sniHostname)) (fun _ => trivial)
      generalize sslDo env c (.useSNI (cstr c.sniHostname)) = q at h1 ⊢
      obtain ⟨c1, r⟩ := q
      simp only at h1 ⊢
      split <;> exact h1
    · exact .refl c

theorem setupDn_unmoved (env : Env) (c : Conn) (ctx : SslCtx) : Unmoved c (setupDn env c ctx).1 := by
  unfold setupDn
  split
  · have h1 := sslDo_unmoved env c (.checkDomainName (cstr ctx.serverDn)) (fun _ => trivial)
    generalize sslDo env c (.checkDomainName (cstr ctx.serverDn)) = q at h1 ⊢
    obtain ⟨c1, r⟩ := q
    simp only at h1 ⊢
    split <;> exact h1
  · exact .refl c

theorem setupPqc_unmoved (env : Env) (c : Conn) : Unmoved c (setupPqc env c).1 := by
  unfold setupPqc
  split
  · have h1 := sslDo_unmoved env c .useKeyShare (fun _ => trivial)
    generalize sslDo env c .useKeyShare = q at h1 ⊢
    obtain ⟨c1, r⟩ := q
    simp only at h1 ⊢
    split <;> exact h1
  · exact .refl c

theorem setupSsl_unmoved (env : Env) (c : Conn) (ctx : SslCtx) : Unmoved c (setupSsl env c ctx).1 := by
  unfold setupSsl
  simp only
  have h0 : Unmoved c { c.emit (.sslCall .new (env.ssl c.log .new).ok) with wolfSet := (env.ssl c.log .new).ok } :=
    ⟨⟨[.sslCall .new (env.ssl c.log .new).ok], rfl, by simp [Silent]⟩, rfl, rfl⟩
  generalize ({ c.emit (.sslCall .new (env.ssl c.log .new).ok) with wolfSet := (env.ssl c.log .new).ok } : Conn) = d at h0 ⊢
  split
  · exact h0
  have h1 := h0.trans (setupType_unmoved env d ctx)
  generalize setupType env d ctx = q at h1 ⊢
  obtain ⟨c1, o⟩ := q
  cases o with
  | some rc => exact h1
  | none =>
    simp only at h1 ⊢
    have h2 := h1.trans (setupDn_unmoved env c1 ctx)
    generalize setupDn env c1 ctx = q at h2 ⊢
    obtain ⟨c2, o⟩ := q
    cases o with
    | some rc => exact h2
    | none => exact h2.trans (setupPqc_unmoved env c2)

theorem internalConnect_unmoved (env : Env) (c : Conn) (ctx : SslCtx) (i o : Chain) : Unmoved c (internalConnect env c ctx i o).1 := by
  unfold internalConnect
  have h0 := configure_unmoved env c ctx
  generalize configure env c ctx = q at h0 ⊢
  obtain ⟨c0, rc⟩ := q
  simp only at h0 ⊢
  have h1 : Unmoved c { c0.emit (.chains i.plugins o.plugins) with insidePlugins := i, outsidePlugins := o } :=
    h0.trans ⟨⟨[.chains i.plugins o.plugins], rfl, by simp [Silent]⟩, rfl, rfl⟩
  generalize ({ c0.emit (.chains i.plugins o.plugins) with insidePlugins := i, outsidePlugins := o } : Conn) = d at h1 ⊢
  split
  · exact h1
  have h2 := h1.trans (setupSsl_unmoved env d ctx)
  generalize setupSsl env d ctx = q at h2 ⊢
  obtain ⟨c2, oo⟩ := q
  cases oo with
  | some rc => exact h2
  | none =>
    simp only at h2 ⊢
    have h3 := (h2.trans (changeState_unmoved env c2 .connecting)).trans (sslDo_unmoved env _ .negotiate (fun _ => trivial))
    generalize sslDo env (changeState env c2 .connecting) .negotiate = q at h3 ⊢
    obtain ⟨c3, r⟩ := q
    simp only at h3 ⊢
    split
    · split
      · exact (h3.trans (changeState_unmoved env c3 _)).trans (updateTimeout_rest env _).unmoved
      · exact (h3.trans (changeState_unmoved env c3 _)).trans (updateTimeout_rest env _).unmoved
      · exact h3
    · exact (h3.trans (changeState_unmoved env c3 _)).trans (updateTimeout_rest env _).unmoved

theorem clientConnect_unmoved (env : Env) (c : Conn) (ctx : SslCtx) (i o : Chain) : Unmoved c (clientConnect env c ctx i o).1 := by
  unfold clientConnect
  simp only
  split
  · exact .refl c
  · have h : Unmoved c { c.emit (.role false) with isServer := false } := ⟨⟨[.role false], rfl, by simp [Silent]⟩, rfl, rfl⟩
    exact h.trans (internalConnect_unmoved env _ ctx i o)

theorem serverConnect_unmoved (env : Env) (c : Conn) (ctx : SslCtx) (i o : Chain) : Unmoved c (serverConnect env c ctx i o).1 := by
  unfold serverConnect
  simp only
  split
  · exact .refl c
  · have h : Unmoved c { c.emit (.role true) with isServer := true } := ⟨⟨[.role true], rfl, by simp [Silent]⟩, rfl, rfl⟩
    have h2 := h.trans (internalConnect_unmoved env _ ctx i o)
    generalize internalConnect env _ ctx i o = q at h2 ⊢
    obtain ⟨c1, rc⟩ := q
    simp only at h2 ⊢
    split
    · exact h2
    · unfold generateSessionId
      simp only
      have h3 : Unmoved c (c1.emit (.rng ((env.rng c1.log).map (· % 2 ^ 64)))) := h2.emit trivial
      generalize Option.map (fun x => x % 2 ^ 64) (env.rng c1.log) = v at h3 ⊢
      cases v with
      | none => exact h3
      | some s => exact h3.trans (.of_log rfl)

theorem rotateSession_unmoved (env : Env) (c : Conn) : Unmoved c (rotateSession env c).1 := by
  unfold rotateSession
  split
  · exact .refl c
  · unfold generateSessionId
    simp only
    have h3 : Unmoved c (c.emit (.rng ((env.rng c.log).map (· % 2 ^ 64)))) := .emit (.refl c) trivial
    generalize Option.map (fun x => x % 2 ^ 64) (env.rng c.log) = v at h3 ⊢
    cases v with
    | none => exact h3
    | some s => exact h3.trans (.of_log rfl)

theorem keepalive_unmoved (env : Env) (c : Conn) : Unmoved c (keepalive env c).1 := by
  unfold keepalive
  split
  · exact .refl c
  · simp only
    have h : Unmoved c { c with pingNextId := (c.pingNextId + 1) % 65536 } := .of_log rfl
    generalize ({ c with pingNextId := (c.pingNextId + 1) % 65536 } : Conn) = d at h ⊢
    have h1 := h.trans (sendMessage_unmoved env d (pingMsg c.pingNextId))
    generalize sendMessage env d (pingMsg c.pingNextId) = q at h1 ⊢
    obtain ⟨c1, rc⟩ := q
    simp only at h1 ⊢
    split
    · exact h1.trans (.of_log rfl)
    · exact h1

theorem sendServerConfig_unmoved (env : Env) (c : Conn) (b : Bytes) : Unmoved c (sendServerConfig env c b).1 := by
  unfold sendServerConfig
  split
  · exact .refl c
  split
  · exact .refl c
  split
  · exact .refl c
  · exact sendMessage_unmoved env c _

theorem startPmtud_unmoved (env : Env) (c : Conn) : Unmoved c (startPmtud env c).1 := by
  unfold startPmtud
  split
  · exact .refl c
  split
  · exact .refl c
  split
  · exact .refl c
  · exact startBaseProbing_unmoved env c

/-- Every call but receive and schedule leaves renegotiation alone. -/
theorem exec_unmoved (env : Env) (c : Conn) (op : Op) (h : op.api ≠ .outsideData) (hs : op.api ≠ .scheduleReneg) :
    Unmoved c (exec env c op).1 := by
  cases op <;> simp only [Op.api, ne_eq, not_true_eq_false, reduceCtorEq, not_false_eq_true] at h hs
  case clientConnect ctx i o => exact clientConnect_unmoved env c ctx i o
  case serverConnect ctx i o => exact serverConnect_unmoved env c ctx i o
  case disconnect => exact disconnect_unmoved env c
  case insidePacket p => exact insidePacket_unmoved env c p
  case nudge => exact nudge_unmoved env c
  case keepalive => exact keepalive_unmoved env c
  case sendServerConfig b => exact sendServerConfig_unmoved env c b
  case rotateSession => exact rotateSession_unmoved env c
  case startPmtud => exact startPmtud_unmoved env c
  case pmtudTimeout => exact handleProbeTimeout_unmoved env c
  case setUsername s => exact .of_log rfl
  case setPassword s => exact .of_log rfl
  case setAuthToken s =>
    show Unmoved c (setAuthToken c s).1
    unfold setAuthToken
    repeat' split
    all_goals first | exact .refl c | exact .emit (.refl c) trivial | exact .of_log rfl
  case setAuthBuffer s =>
    show Unmoved c (setAuthBuffer c s).1
    unfold setAuthBuffer
    repeat' split
    all_goals first | exact .refl c | exact .emit (.refl c) trivial | exact .of_log rfl
  case setOutsideMtu m =>
    show Unmoved c (setOutsideMtu c m).1
    unfold setOutsideMtu
    split
    · exact .refl c
    · exact .of_log rfl
  case setProtocolVersion => exact .of_log rfl
  case setSessionId s =>
    show Unmoved c (setSessionId c s).1
    unfold setSessionId
    split
    · exact .refl c
    · exact .of_log rfl
  case setSni => exact .of_log rfl

/-! ## The receive call -/

/-- How a receive call treats a renegotiation request: the message loop was not completed, or it was, and then the
request (if there was one) was answered. -/
inductive RecvOut (c d : Conn) (rc : RC) : Prop
  | quiet (h : Unmoved c d) (hp : rc = .success → Rest c d)
  | undue (m : Conn) (hm : Unmoved c m) (hd : m.renegDue = false) (ht : Hush m d) (hdue : d.renegDue = false)
      (hst : d.state = m.state)
  | due (m s : Conn) (rs : RC) (hm : Unmoved c m) (hd : m.renegDue = true) (hs : StepOut m s rs)
      (ht : Hush s d) (hdue : d.renegDue = false) (hst : d.state = m.state)

theorem RecvOut.pre {c c1 d : Conn} {rc : RC} (h : Rest c c1) (o : RecvOut c1 d rc) : RecvOut c d rc := by
  cases o with
  | quiet h1 hp => exact .quiet (h.unmoved.trans h1) (fun e => h.trans (hp e))
  | undue m hm hd ht hdue hst => exact .undue m (h.unmoved.trans hm) hd ht hdue hst
  | due m s rs hm hd hs ht hdue hst => exact .due m s rs (h.unmoved.trans hm) hd hs ht hdue hst

theorem RecvOut.post {c d d' : Conn} {rc rc' : RC} (o : RecvOut c d rc) (h : Rest d d') (hst : d'.state = d.state)
    (hrc : rc' = .success → rc = .success) : RecvOut c d' rc' := by
  cases o with
  | quiet h1 hp => exact .quiet (h1.trans h.unmoved) (fun e => (hp (hrc e)).trans h)
  | undue m hm hd ht hdue hs => exact .undue m hm hd (ht.trans h.unmoved.hush) (h.due.trans hdue) (hst.trans hs)
  | due m s rs hm hd hs ht hdue hs' => exact .due m s rs hm hd hs (ht.trans h.unmoved.hush) (h.due.trans hdue) (hst.trans hs')

theorem TFrame.sameState {c c' : Conn} (h : TFrame c c') : c'.state = c.state := by
  obtain ⟨l, inc, ps, sl, we, fm, wt, nt, rip, rd, sid, psid, rfl, h⟩ := h; rfl

theorem handleMessages_ren (env : Env) (c : Conn) (reads : List ReadRes) :
    RecvOut c (handleMessages env c reads).1 (handleMessages env c reads).2 := by
  unfold handleMessages
  have h := messageLoop_unmoved env reads c
  generalize messageLoop env c reads = q at h ⊢
  obtain ⟨m, o⟩ := q
  cases o with
  | some rc => exact .quiet h.1 (fun e => absurd e (h.2 rc rfl))
  | none =>
    simp only at h ⊢
    cases hd : m.renegDue with
    | false =>
      simp only [Bool.false_eq_true, if_false]
      have ht := renegTail_hush env m
      exact .undue m h.1 hd ht.1 (ht.2.trans hd) (renegTail_t env m).sameState
    | true =>
      simp only [if_true]
      have hs := renegotiateSsl_ren env m
      have hst := (renegotiateSsl_t env m).sameState
      generalize renegotiateSsl env m = q at hs hst ⊢
      obtain ⟨s, rs⟩ := q
      simp only at hs hst ⊢
      split
      · exact .due m s rs h.1 hd hs.1 (.refl s) hs.2 hst
      · have ht := renegTail_hush env s
        exact .due m s rs h.1 hd hs.1 ht.1 (ht.2.trans hs.2) ((renegTail_t env s).sameState.trans hst)

theorem verifyConnection_ren (env : Env) (c : Conn) (reads : List ReadRes) :
    RecvOut c (verifyConnection env c reads).1 (verifyConnection env c reads).2 := by
  unfold verifyConnection
  have h0 : Rest c (if !c.firstMessageReceived then
      generateEvent { c with firstMessageReceived := true } .firstMessageReceived else c) := by
    split
    · exact ⟨⟨[.event .firstMessageReceived c.cbs.event], rfl, by simp [Idle]⟩, rfl, rfl⟩
    · exact .refl c
  simp only
  generalize (if !c.firstMessageReceived then
      generateEvent { c with firstMessageReceived := true } .firstMessageReceived else c) = c1 at h0 ⊢
  split
  · have h1 := h0.trans (sslDo_rest env c1 .negotiate (fun _ => trivial))
    generalize sslDo env c1 .negotiate = q at h1 ⊢
    obtain ⟨c2, r⟩ := q
    simp only at h1 ⊢
    split
    · split
      · split
        · exact .quiet h1.unmoved (fun _ => h1)
        · split
          · exact .quiet h1.unmoved (fun _ => h1)
          · exact .quiet (h1.unmoved.trans (.of_log rfl)) (fun _ => h1.trans (.of_log rfl))
      · split
        · have h2 := h1.trans (updateTimeout_rest env c2)
          exact .quiet h2.unmoved (fun _ => h2)
        · exact .quiet h1.unmoved (fun _ => h1)
    · exact .pre (h1.trans (changeState_rest env c2 .linkUp)) (handleMessages_ren env _ reads)
  · exact .pre h0 (handleMessages_ren env c1 reads)

theorem outsidePacket_ren (env : Env) (c : Conn) (pkt : Bytes) (reads : List ReadRes) :
    RecvOut c (outsidePacket env c pkt reads).1 (outsidePacket env c pkt reads).2 := by
  have hq : ∀ rc, RecvOut c c rc := fun rc => .quiet (.refl c) (fun _ => .refl c)
  unfold outsidePacket
  split
  · exact hq _
  split
  · rename_i he ver s body _ _ _ _
    split
    · exact hq _
    split
    · exact hq _
    split
    · exact hq _
    simp only
    have h1 : Rest c { c.emit (.input (rdLe s) body) with incoming := some body, packetSeen := false } :=
      ⟨⟨[.input (rdLe s) body], rfl, by simp [Idle]⟩, rfl, rfl⟩
    have h2 := RecvOut.pre h1 (verifyConnection_ren env _ reads)
    generalize verifyConnection env { c.emit (.input (rdLe s) body) with incoming := some body, packetSeen := false } reads = q at h2 ⊢
    obtain ⟨d, rc⟩ := q
    simp only at h2 ⊢
    split
    · exact h2
    · rename_i hrc
      exact h2.post (updateSessionIncoming_rest d _) (updateSessionIncoming_t d _).sameState
        (fun _ => by simpa using hrc)
  · have h : Rest c (c.ub "wire header") := .emit (.refl c) trivial
    exact .quiet h.unmoved (fun _ => h)

theorem outsideStream_ren (env : Env) (c : Conn) (buf : Bytes) (reads : List ReadRes) :
    RecvOut c (outsideStream env c buf reads).1 (outsideStream env c buf reads).2 := by
  unfold outsideStream
  by_cases h : c.streamLeft.length ≠ 0
  · have e : setupStreamState c buf = ({ c with wolfError := .none }, .sslError) := by unfold setupStreamState; rw [if_pos h]
    rw [e]
    exact .quiet (.of_log rfl) (fun _ => .of_log rfl)
  · have e : setupStreamState c buf = ({ c.emit (.input 0 buf) with incoming := some buf, streamLeft := buf }, .success) := by
      unfold setupStreamState; rw [if_neg h]
    rw [e]
    have h1 : Rest c { c.emit (.input 0 buf) with incoming := some buf, streamLeft := buf } :=
      ⟨⟨[.input 0 buf], rfl, by simp [Idle]⟩, rfl, rfl⟩
    exact .pre h1 (verifyConnection_ren env _ reads)

theorem outsideData_ren (env : Env) (c : Conn) (buf : Bytes) (reads : List ReadRes) :
    RecvOut c (outsideData env c buf reads).1 (outsideData env c buf reads).2 := by
  unfold outsideData
  split
  · exact .quiet (.refl c) (fun _ => .refl c)
  simp only
  have h : Rest c { c with log := (c.outsidePlugins.ingress c.log buf buf.length).1 } := by
    obtain ⟨l, h1, h2⟩ := Chain.ingress_log c.outsidePlugins c.log buf buf.length
    refine ⟨⟨l, h1, fun x hx => ?_⟩, rfl, rfl⟩
    obtain ⟨p, r, rfl⟩ := h2 x hx
    trivial
  have hct : ({ c with log := (c.outsidePlugins.ingress c.log buf buf.length).1 } : Conn).connType = c.connType := rfl
  generalize c.outsidePlugins.ingress c.log buf buf.length = r at h hct ⊢
  generalize ({ c with log := r.1 } : Conn) = d at h hct ⊢
  split
  · exact .quiet h.unmoved (fun _ => h)
  split
  · exact .quiet h.unmoved (fun _ => h)
  split
  · exact .quiet h.unmoved (fun _ => h)
  split
  · exact .pre h (outsidePacket_ren env d _ reads)
  · exact .pre h (outsideStream_ren env d _ reads)

end Lightway
