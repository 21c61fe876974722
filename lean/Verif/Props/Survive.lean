import Verif.Proofs.Calm2
import Verif.Props.Tables
import Verif.Props.Life
import Verif.Props.Login

/-!
# C100: a session outlives every harmless result
-/

namespace Lightway
open Spec

/-- Not on the way down. -/
def Up (s : ConnState) : Prop := s ≠ .disconnecting ∧ s ≠ .disconnected

/-- The results of a refused log-in. -/
def denials : List RC := [.accessDenied, .accessDeniedNoAuthUserpassHandler, .accessDeniedNoAuthTokenHandler,
  .accessDeniedNoAuthBufHandler]

/-- If the connection was not on the way down before, it is not after, or the result says that a log-in was refused. -/
def Lives (c d : Conn) (rc : RC) : Prop := Up c.state → Up d.state ∨ rc ∈ denials

theorem Lives.same {c d : Conn} (rc : RC) (h : d.state = c.state) : Lives c d rc := fun hu => .inl (by rw [h]; exact hu)

theorem Lives.pre {c c1 d : Conn} {rc : RC} (h : c1.state = c.state) (hl : Lives c1 d rc) : Lives c d rc :=
  fun hu => hl (by rw [h]; exact hu)

theorem PFrame.sameState {c c' : Conn} (h : PFrame c c') : c'.state = c.state := by
  obtain ⟨l, ps, sl, we, pm, pn, rfl, h⟩ := h; rfl

theorem sendMessage_sameState (env : Env) (c : Conn) (m : Bytes) : (sendMessage env c m).1.state = c.state :=
  (sendMessage_frame env c m).pFrame.sameState

theorem handlePing_state (env : Env) (c : Conn) (m : Bytes) : (handlePing env c m).1.state = c.state := by
  unfold handlePing
  repeat' split
  all_goals first | rfl | exact sendMessage_sameState env c _

theorem handlePong_state (env : Env) (c : Conn) (m : Bytes) : (handlePong env c m).1.state = c.state := by
  unfold handlePong
  repeat' split
  all_goals first | rfl | exact (handleProbeAck_frame env c _).sameState

theorem handleServerConfig_state (env : Env) (c : Conn) (m : Bytes) : (handleServerConfig env c m).1.state = c.state := by
  unfold handleServerConfig
  simp only
  repeat' split
  all_goals rfl

theorem internalHandleData_state (c : Conn) (p : Bytes) : (internalHandleData c p).1.state = c.state := by
  unfold internalHandleData
  simp only
  repeat' split
  all_goals rfl

theorem handleData_state (c : Conn) (m : Bytes) : (handleData c m).1.state = c.state := by
  unfold handleData
  simp only
  repeat' split
  all_goals first | rfl | exact internalHandleData_state c _

theorem handleDeprecated13_state (c : Conn) (m : Bytes) : (handleDeprecated13 c m).1.state = c.state := by
  unfold handleDeprecated13
  repeat' split
  all_goals first | rfl | exact internalHandleData_state c _

theorem fragApply_state (env : Env) (c : Conn) (t : FragTable) (en : FragEntry) (id off : Nat) (last : Bool) (d : Bytes) :
    (fragApply env c t en id off last d).1.state = c.state := by
  unfold fragApply
  simp only
  split
  · rfl
  · split
    · rfl
    · split
      · split
        · rfl
        · split
          · rfl
          · exact internalHandleData_state _ _
      · rfl

theorem fragReceive_state (env : Env) (c : Conn) (id off : Nat) (last : Bool) (d : Bytes) :
    (fragReceive env c id off last d).1.state = c.state := by
  unfold fragReceive
  split
  · rfl
  rename_i t _
  simp only
  have h1 : (if (t.slot (id % t.num)).isNone then c.emit (.alloc (env.alloc c.log)) else c).state = c.state := by
    split <;> rfl
  generalize (if (t.slot (id % t.num)).isNone then c.emit (.alloc (env.alloc c.log)) else c) = c1 at h1 ⊢
  have h2 : (if ((t.slot (id % t.num)).isNone && env.alloc c.log) = true then c1.emit (.clock (env.now c1.log)) else c1).state = c.state := by
    split <;> exact h1
  generalize (if ((t.slot (id % t.num)).isNone && env.alloc c.log) = true then c1.emit (.clock (env.now c1.log)) else c1) = c2 at h2 ⊢
  split
  · exact h2
  · exact (fragApply_state env _ _ _ _ _ _ _).trans h2

theorem handleDataFrag_state (env : Env) (c : Conn) (m : Bytes) : (handleDataFrag env c m).1.state = c.state := by
  unfold handleDataFrag
  simp only
  repeat' split
  all_goals first | rfl | exact fragReceive_state env c _ _ _ _

theorem handleConfigIpv4_lives (env : Env) (c : Conn) (m : Bytes) : Lives c (handleConfigIpv4 env c m).1 (handleConfigIpv4 env c m).2 := by
  intro hu
  left
  unfold handleConfigIpv4
  split
  · exact hu
  split
  · exact hu
  split
  · exact hu
  split
  · simp only
    have ho : Up .online := ⟨by decide, by decide⟩
    split
    · split
      · show Up (setState _ _).state
        rw [setState_state]; exact ⟨by decide, by decide⟩
      · show Up (setState _ _).state
        rw [setState_state]; exact ho
    · show Up (setState _ _).state
      rw [setState_state]; exact ho
  · exact hu

theorem authSwitch_state (env : Env) (c : Conn) (m : Bytes) (ty : UInt8) :
    match authSwitch env c m ty with
    | .ret c' _ _ => c'.state = c.state
    | .verdict c' _ rc _ => c'.state = c.state ∧ rc ∈ denials := by
  unfold authSwitch
  simp only
  repeat' split
  all_goals (rename_i h)
  all_goals (repeat' split at h)
  all_goals first
    | (injection h with h1 h2 h3; subst h1; subst h3; exact ⟨rfl, by simp [denials]⟩)
    | (injection h with h1; subst h1; rfl)
    | cases h

theorem handleAuth_lives (env : Env) (c : Conn) (m : Bytes) : Lives c (handleAuth env c m).1 (handleAuth env c m).2 := by
  intro hu
  show Up (handleAuthBuf env c m).1.state ∨ (handleAuthBuf env c m).2.1 ∈ denials
  unfold handleAuthBuf
  split
  · exact .inl hu
  split
  · exact .inl hu
  split
  · exact .inl hu
  split
  · exact .inl hu
  split
  · rename_i ty _
    have h := authSwitch_state env c m ty
    generalize authSwitch env c m ty = o at h ⊢
    cases o with
    | ret c' rc p => exact .inl (by show Up c'.state; rw [show c'.state = c.state from h]; exact hu)
    | verdict c' ok rc p =>
      simp only at h ⊢
      split
      · exact .inr h.2
      · split
        · left
          show Up (sendMessage env _ _).1.state
          rw [sendMessage_sameState]
          show Up c'.state
          rw [h.1]; exact hu
        · left
          show Up (setState _ _).state
          rw [setState_state]; exact ⟨by decide, by decide⟩
  · exact .inl hu

theorem ite_lives {c : Conn} {p : Prop} [Decidable p] {a b : Conn × RC} (ha : Lives c a.1 a.2) (hb : Lives c b.1 b.2) :
    Lives c (if p then a else b).1 (if p then a else b).2 := by
  split
  · exact ha
  · exact hb

theorem processMessage_lives (env : Env) (c : Conn) (m : Bytes) : Lives c (processMessage env c m).1 (processMessage env c m).2 := by
  unfold processMessage
  cases m with
  | nil => exact .same _ rfl
  | cons id t =>
  simp only
  by_cases h : id = msgNoop
  · rw [if_pos h]; exact .same _ rfl
  rw [if_neg h]; clear h
  by_cases h : id = msgPing
  · rw [if_pos h]; exact .same _ (handlePing_state env c _)
  rw [if_neg h]; clear h
  by_cases h : id = msgPong
  · rw [if_pos h]; exact .same _ (handlePong_state env c _)
  rw [if_neg h]; clear h
  by_cases h : id = msgAuth
  · rw [if_pos h]; exact (ite_lives (handleAuth_lives env c _) (.same _ rfl))
  rw [if_neg h]; clear h
  by_cases h : id = msgData
  · rw [if_pos h]; exact .same _ (handleData_state c _)
  rw [if_neg h]; clear h
  by_cases h : id = msgConfigIpv4
  · rw [if_pos h]; exact (ite_lives (handleConfigIpv4_lives env c _) (.same _ rfl))
  rw [if_neg h]; clear h
  by_cases h : id = msgAuthResponse
  · rw [if_pos h]; exact (ite_lives (.same _ rfl) (.same _ rfl))
  rw [if_neg h]; clear h
  by_cases h : id = msgAuthResponseWithConfig
  · rw [if_pos h]; exact .same _ rfl
  rw [if_neg h]; clear h
  by_cases h : id = msgGoodbye
  · rw [if_pos h]; exact .same _ rfl
  rw [if_neg h]; clear h
  by_cases h : id = msgExtension
  · rw [if_pos h]; exact .same _ rfl
  rw [if_neg h]; clear h
  by_cases h : id = msgDeprecated13
  · rw [if_pos h]; exact .same _ (handleDeprecated13_state c _)
  rw [if_neg h]; clear h
  by_cases h : id = msgServerConfig
  · rw [if_pos h]; exact (ite_lives (.same _ (handleServerConfig_state env c _)) (.same _ rfl))
  rw [if_neg h]; clear h
  by_cases h : id = msgDataWithFrag
  · rw [if_pos h]; exact .same _ (handleDataFrag_state env c _)
  rw [if_neg h]; clear h
  exact .same _ rfl

theorem denials_ne : RC.success ∉ denials := by decide

/-- The result of the message loop as a result code. -/
def loopRc : Option RC → RC
  | some rc => rc
  | none => .success

theorem messageLoop_lives (env : Env) (reads : List ReadRes) : ∀ c : Conn,
    Lives c (messageLoop env c reads).1 (loopRc (messageLoop env c reads).2) := by
  induction reads with
  | nil =>
    intro c
    unfold messageLoop
    split
    · exact .same _ rfl
    · exact .same _ rfl
  | cons r rest ih =>
    intro c
    unfold messageLoop
    split
    · exact .same _ rfl
    · simp only
      have h1 : (ioRun env (c.emit (.sslCall .read (!(r.plain.take maxWireMtu).isEmpty))) r.io).state = c.state :=
        (ioRun_frame env (c.emit (.sslCall .read (!(r.plain.take maxWireMtu).isEmpty))) r.io).pFrame.sameState
      generalize ioRun env (c.emit (.sslCall .read (!(r.plain.take maxWireMtu).isEmpty))) r.io = d at h1 ⊢
      split
      · split
        · exact .same _ h1
        · exact .same _ h1
        · exact .same _ h1
        · exact .pre h1 (ih d)
        · split
          · exact .same _ h1
          · exact .same _ h1
      · have h2 := processMessage_lives env (d.emit (.message (r.plain.take maxWireMtu))) (r.plain.take maxWireMtu)
        generalize processMessage env (d.emit (.message (r.plain.take maxWireMtu))) (r.plain.take maxWireMtu) = q at h2 ⊢
        obtain ⟨c1, rc⟩ := q
        simp only at h2 ⊢
        have h3 : Lives c c1 rc := h2.pre h1
        split
        · exact h3
        · rename_i hrc
          have hrc' : rc = .success := by simpa using hrc
          intro hu
          rcases h3 hu with h | h
          · exact ih c1 h
          · rw [hrc'] at h; exact absurd h denials_ne

theorem handleMessages_lives (env : Env) (c : Conn) (reads : List ReadRes) :
    Lives c (handleMessages env c reads).1 (handleMessages env c reads).2 := by
  unfold handleMessages
  have h := messageLoop_lives env reads c
  generalize messageLoop env c reads = q at h ⊢
  obtain ⟨m, o⟩ := q
  cases o with
  | some rc => exact h
  | none =>
    have h' : Up c.state → Up m.state := fun hu => (h hu).elim id (fun h => absurd h denials_ne)
    simp only
    split
    · have hst := (renegotiateSsl_t env m).sameState
      generalize renegotiateSsl env m = q at hst ⊢
      obtain ⟨s, rs⟩ := q
      simp only at hst ⊢
      split
      · exact fun hu => .inl (by rw [hst]; exact h' hu)
      · exact fun hu => .inl (by rw [(renegTail_t env s).sameState, hst]; exact h' hu)
    · exact fun hu => .inl (by rw [(renegTail_t env m).sameState]; exact h' hu)

theorem sendAuth_up (env : Env) (c : Conn) (hu : Up c.state) : Up (sendAuth env c).1.state := by
  unfold sendAuth
  split
  · exact hu
  simp only
  have h : Up (setState c .authenticating).state := by rw [setState_state]; exact ⟨by decide, by decide⟩
  generalize setState c .authenticating = c1 at h ⊢
  repeat' split
  all_goals first | exact h | (rw [sendMessage_sameState]; exact h)

theorem changeState_up (env : Env) (c : Conn) (s : ConnState) (hs : Up s) (hc : Up c.state) : Up (changeState env c s).state := by
  unfold changeState
  split
  · exact hc
  · simp only
    have h : Up (setState c s).state := by rw [setState_state]; exact hs
    split
    · exact sendAuth_up env _ h
    · exact h

theorem verifyConnection_lives (env : Env) (c : Conn) (reads : List ReadRes) :
    Lives c (verifyConnection env c reads).1 (verifyConnection env c reads).2 := by
  unfold verifyConnection
  have h0 : (if !c.firstMessageReceived then
      generateEvent { c with firstMessageReceived := true } .firstMessageReceived else c).state = c.state := by
    split <;> rfl
  simp only
  generalize (if !c.firstMessageReceived then
      generateEvent { c with firstMessageReceived := true } .firstMessageReceived else c) = c1 at h0 ⊢
  split
  · have h1 : (sslDo env c1 .negotiate).1.state = c.state := (sslDo_frame env c1 .negotiate).pFrame.sameState.trans h0
    generalize sslDo env c1 .negotiate = q at h1 ⊢
    obtain ⟨c2, r⟩ := q
    simp only at h1 ⊢
    split
    · split
      · split
        · exact .same _ h1
        · split
          · exact .same _ h1
          · exact .same _ h1
      · split
        · exact .same _ ((updateTimeout_t env c2).sameState.trans h1)
        · exact .same _ h1
    · intro hu
      exact handleMessages_lives env _ reads (changeState_up env c2 .linkUp ⟨by decide, by decide⟩ (by rw [h1]; exact hu))
  · exact .pre h0 (handleMessages_lives env c1 reads)

theorem outsidePacket_lives (env : Env) (c : Conn) (pkt : Bytes) (reads : List ReadRes) :
    Lives c (outsidePacket env c pkt reads).1 (outsidePacket env c pkt reads).2 := by
  unfold outsidePacket
  split
  · exact .same _ rfl
  split
  · rename_i he ver s body _ _ _ _
    split
    · exact .same _ rfl
    split
    · exact .same _ rfl
    split
    · exact .same _ rfl
    simp only
    have h2 := Lives.pre (c := c) rfl (verifyConnection_lives env { c.emit (.input (rdLe s) body) with incoming := some body, packetSeen := false } reads)
    generalize verifyConnection env { c.emit (.input (rdLe s) body) with incoming := some body, packetSeen := false } reads = q at h2 ⊢
    obtain ⟨d, rc⟩ := q
    simp only at h2 ⊢
    split
    · exact h2
    · rename_i hrc
      have hrc' : rc = .success := by simpa using hrc
      intro hu
      rcases h2 hu with h | h
      · left; rw [(updateSessionIncoming_t d _).sameState]; exact h
      · rw [hrc'] at h; exact absurd h denials_ne
  · exact .same _ rfl

theorem outsideData_lives (env : Env) (c : Conn) (buf : Bytes) (reads : List ReadRes) :
    Lives c (outsideData env c buf reads).1 (outsideData env c buf reads).2 := by
  unfold outsideData
  split
  · exact .same _ rfl
  simp only
  have hst : ({ c with log := (c.outsidePlugins.ingress c.log buf buf.length).1 } : Conn).state = c.state := rfl
  generalize c.outsidePlugins.ingress c.log buf buf.length = r at hst ⊢
  generalize ({ c with log := r.1 } : Conn) = d at hst ⊢
  split
  · exact .same _ hst
  split
  · exact .same _ hst
  split
  · exact .same _ hst
  split
  · exact .pre hst (outsidePacket_lives env d _ reads)
  · refine .pre hst ?_
    unfold outsideStream
    by_cases h : d.streamLeft.length ≠ 0
    · have e : setupStreamState d r.2.1 = ({ d with wolfError := .none }, .sslError) := by unfold setupStreamState; rw [if_pos h]
      rw [e]
      exact .same _ rfl
    · have e : setupStreamState d r.2.1 = ({ d.emit (.input 0 r.2.1) with incoming := some r.2.1, streamLeft := r.2.1 }, .success) := by
        unfold setupStreamState; rw [if_neg h]
      rw [e]
      show Lives d (verifyConnection env { d.emit (.input 0 r.2.1) with incoming := some r.2.1, streamLeft := r.2.1 } reads).1
        (verifyConnection env { d.emit (.input 0 r.2.1) with incoming := some r.2.1, streamLeft := r.2.1 } reads).2
      exact Lives.pre (c1 := { d.emit (.input 0 r.2.1) with incoming := some r.2.1, streamLeft := r.2.1 }) rfl (verifyConnection_lives env _ reads)

theorem nudge_lives (env : Env) (c : Conn) (hu : Up c.state) : Up (nudge env c).1.state ∨ (nudge env c).2 = .connectionTimedOut := by
  unfold nudge
  simp only
  have hs : ({ c with nudgeTimerRunning := false } : Conn).state = c.state := rfl
  generalize ({ c with nudgeTimerRunning := false } : Conn) = d at hs ⊢
  split
  · left
    rw [(updateTimeout_t env _).sameState]
    exact sendAuth_up env d (by rw [hs]; exact hu)
  · have h1 : (sslDo env d .gotTimeout).1.state = c.state := (sslDo_frame env d .gotTimeout).pFrame.sameState.trans hs
    generalize sslDo env d .gotTimeout = q at h1 ⊢
    obtain ⟨c1, r⟩ := q
    simp only at h1 ⊢
    have h2 : Up (updateTimeout env c1).state := by rw [(updateTimeout_t env c1).sameState, h1]; exact hu
    split
    · split
      · exact .inl h2
      · exact .inl h2
      · exact .inr rfl
    · exact .inl h2

theorem fatal_denial {rc : RC} (h : rc ∈ denials) (ty : ConnType) : isErrorFatal ty rc = true := by
  cases ty <;> simp only [denials, List.mem_cons, List.not_mem_nil, or_false] at h <;> rcases h with rfl | rfl | rfl | rfl <;> rfl

/-- **C100.** Whatever the host does, except disconnecting and connecting anew, and whatever arrives: if a call finds the
connection in any state but DISCONNECTING and DISCONNECTED and leaves it in one of these, its result is one that
`he_conn_is_error_fatal` calls fatal. -/
theorem C100_down_is_fatal (env : Env) (ops : List Op) (op : Op) (hd : op.api ≠ .disconnect) (hc : ¬IsConnect op.api)
    (h0 : stateAt (run env ops).log ≠ .disconnecting ∧ stateAt (run env ops).log ≠ .disconnected)
    (h1 : stateAt (run env (ops ++ [op])).log = .disconnecting ∨ stateAt (run env (ops ++ [op])).log = .disconnected)
    (ty : ConnType) : isErrorFatal ty (step env (run env ops) op).2 = true := by
  obtain ⟨⟨ap, hi⟩, _⟩ := run_good env ops
  rw [← run_state] at h0 h1
  rw [run_snoc] at h1
  generalize run env ops = c at h0 h1 hi ⊢
  have nd : ¬Up (step env c op).1.state := by
    rintro ⟨a, b⟩; rcases h1 with h | h
    · exact a h
    · exact b h
  by_cases hr : op.api = .outsideData
  · cases op <;> simp only [Op.api, reduceCtorEq] at hr
    rename_i buf reads
    rcases outsideData_lives env (c.emit (.api .outsideData)) buf reads h0 with h | h
    · exact absurd h nd
    · exact fatal_denial h ty
  by_cases hn : op.api = .nudge
  · cases op <;> simp only [Op.api, reduceCtorEq] at hn
    rcases nudge_lives env (c.emit (.api .nudge)) h0 with h | h
    · exact absurd h nd
    · show isErrorFatal ty (nudge env (c.emit (.api .nudge))).2 = true
      rw [h]; cases ty <;> rfl
  refine absurd (step_state env op hi Up ?_ h0) nd
  intro d s hs he
  cases s with
  | disconnecting => rcases he.2 with h | h
                     · exact absurd h.1 hd
                     · exact absurd h.1 hr
  | disconnected => rcases he with h | h
                    · exact absurd h.1 hd
                    · exact absurd h.1 hn
  | _ => exact ⟨by decide, by decide⟩

/-- **C100.** An established session stays ONLINE for as long as every call returns a result that
`he_conn_is_error_fatal` calls harmless, unless the host itself disconnects or connects anew: whatever the calls are,
whatever arrives from the network, and whatever the TLS library and the callbacks answer. -/
theorem C100_session_survives (env : Env) (ty : ConnType) (before ops : List Op)
    (h0 : stateAt (run env before).log = .online)
    (hd : ∀ op ∈ ops, op.api ≠ .disconnect ∧ ¬IsConnect op.api)
    (hh : ∀ pre op post, ops = pre ++ op :: post → isErrorFatal ty (step env (run env (before ++ pre)) op).2 = false) :
    stateAt (run env (before ++ ops)).log = .online := by
  induction ops using snoc_induct with
  | h0 => rw [List.append_nil]; exact h0
  | h1 ops op ih =>
    have ho := ih (fun o h => hd o (List.mem_append_left _ h))
      (fun pre o post h => hh pre o (post ++ [op]) (by rw [h]; simp))
    have hop := hd op (List.mem_append_right _ (List.mem_singleton_self op))
    have hr := hh ops op [] rfl
    rw [← List.append_assoc]
    have hup := mt (fun h1 => C100_down_is_fatal env (before ++ ops) op hop.1 hop.2
      ⟨by rw [ho]; decide, by rw [ho]; decide⟩ h1 ty) (by rw [hr]; decide)
    obtain ⟨⟨ap, hi⟩, _⟩ := run_good env (before ++ ops)
    rw [← run_state] at ho hup ⊢
    rw [run_snoc] at hup ⊢
    have := step_state env op hi (fun s => s = .online ∨ s = .disconnecting ∨ s = .disconnected) (by
      intro d s hs he
      cases s with
      | none => exact he.elim
      | connecting => exact absurd he.1 hop.2
      | linkUp => rw [he.1] at hs; simp at hs
      | authenticating => rw [he.1] at hs; simp at hs
      | configuring => rw [he.1] at hs; simp at hs
      | online => exact .inl rfl
      | disconnecting => exact .inr (.inl rfl)
      | disconnected => exact .inr (.inr rfl)) (.inl ho)
    exact this.resolve_right hup

/-- A server session whose second log-in is refused: DISCONNECTING, with the fatal result "access denied". -/
def Demo.secondLogin : Op :=
  .outsideData (Demo.dgram [9]) [Demo.msg (authUserPassMsg { username := [106, 105, 109] ++ zeros 48,
                                                              password := [112, 119] ++ zeros 49 })]

example : stateAt (run Demo.env Demo.serverOps).log = .online ∧
    stateAt (run Demo.env (Demo.serverOps ++ [Demo.secondLogin])).log = .disconnecting ∧
    (step Demo.env (run Demo.env Demo.serverOps) Demo.secondLogin).2 = .accessDenied ∧
    Demo.secondLogin.api = .outsideData := by decide +kernel

/-- Calls that go wrong without harm: a datagram that is not ours, an empty one, a bad message, an inside packet that is
not IPv4. -/
def Demo.noise : List Op :=
  [.outsideData [1, 2, 3] [], .outsideData [] [], .outsideData (zeros 40) [], .outsideData (Demo.dgram [9]) [Demo.msg [77, 1]], .insidePacket [1, 2, 3],
   .keepalive]

example : stateAt (run Demo.env (Demo.clientOps ++ Demo.noise)).log = .online ∧
    (Demo.noise.map fun op => (step Demo.env (run Demo.env Demo.clientOps) op).2) =
      [.packetTooSmall, .packetTooSmall, .notHePacket, .success, .packetTooSmall, .success] := by decide +kernel

/-- The results of the calls of a run, one after another. -/
def Demo.results (c : Conn) : List Op → List RC
  | [] => []
  | op :: ops => (step Demo.env c op).2 :: Demo.results (step Demo.env c op).1 ops

example : (Demo.results (run Demo.env Demo.clientOps) Demo.noise).all (fun rc => !isErrorFatal .datagram rc) = true := by
  decide +kernel

/-- A client session that times out: DISCONNECTED, with the fatal result "connection timed out". -/
example : let env : Env := { Demo.env with ssl := fun l c => match c with | .gotTimeout => { ok := false, val := -1, err := .none, io := [] } | c => Demo.env.ssl l c }
    stateAt (run env Demo.clientOps).log = .online ∧ stateAt (run env (Demo.clientOps ++ [.nudge])).log = .disconnected ∧
    (step env (run env Demo.clientOps) .nudge).2 = .connectionTimedOut := by decide +kernel

end Lightway
