import Verif.Props.Trace

/-!
# More properties of every history: silence after disconnect, roles, timers, events, memory safety
-/

namespace Lightway
open Spec

/-! ## C06 -/

/-- The callbacks that carry data or decisions between host and peer. -/
def HostCallback : Effect → Prop
  | .insideWrite _ | .outsideWrite .. | .netConfig .. | .serverConfig .. | .authUserPass ..
  | .authToken .. | .authBuf .. | .populate _ => True
  | _ => False

/-- A call marker other than connect, or no call marker. -/
def NotConnectMark : Effect → Prop
  | .api a => ¬IsConnect a
  | _ => True

theorem closed_ext {l : Log} (added : Log) (h : closed l = true) (hn : ∀ x ∈ added, NotConnectMark x) :
    closed (added ++ l) = true := by
  induction added with
  | nil => exact h
  | cons x xs ih =>
    have ih := ih (fun y hy => hn y (by simp [hy]))
    have hx := hn x (by simp)
    rw [List.cons_append]
    unfold closed
    split
    · simp_all
    · rename_i heq; cases heq; exact absurd (.inl rfl) hx
    · rename_i heq; cases heq; exact absurd (.inr rfl) hx
    · rename_i heq; cases heq
      split
      · rfl
      · exact ih
    · rename_i heq; cases heq; exact ih

/-- What later calls add to the history contains no connect marker if none of them is a connect. -/
theorem run_log_ext (env : Env) (ops more : List Op) (hn : ∀ op ∈ more, notConnect op) :
    ∃ added, (run env (ops ++ more)).log = added ++ (run env ops).log ∧
      ∀ x ∈ added, NotConnectMark x := by
  induction more generalizing ops with
  | nil => exact ⟨[], by simp, by simp⟩
  | cons op more ih =>
    obtain ⟨a1, e1, h1⟩ := ih (ops ++ [op]) (fun o ho => hn o (by simp [ho]))
    obtain ⟨o, hi⟩ := run_inv env ops
    obtain ⟨l, e2, h2⟩ := step_log env op hi
    rw [run_snoc, e2] at e1
    refine ⟨a1 ++ (.ret (step env (run env ops) op).2 :: l ++ [.api op.api]), ?_, ?_⟩
    · rw [show ops ++ op :: more = ops ++ [op] ++ more by simp, e1]; simp
    · intro x hx
      simp only [List.mem_append, List.mem_cons, List.not_mem_nil, or_false] at hx
      rcases hx with hx | (rfl | hx) | rfl
      · exact h1 x hx
      · trivial
      · have := h2 x hx
        cases x <;> simp_all [NoMark, NotConnectMark]
      · exact notConnect_api (hn op (by simp))

theorem HostCallback.not_closed {e : Effect} {l : Log} (h : HostCallback e) (hp : Permitted e l) :
    closed l = false := by
  cases e <;> simp only [HostCallback] at h <;> exact hp.2.1

/-- **C06.** After a disconnect call that returned success, whatever calls follow (other than connect)
and whatever the peer sends, none of the data, configuration and authentication callbacks runs. -/
theorem C06_silence_after_disconnect (env : Env) (ops more : List Op)
    (hd : (step env (run env ops) .disconnect).2 = .success) (hn : ∀ op ∈ more, notConnect op) :
    ∃ added, (run env (ops ++ .disconnect :: more)).log = added ++ (run env (ops ++ [.disconnect])).log ∧
      ∀ e ∈ added, ¬HostCallback e := by
  obtain ⟨added, e1, h1⟩ := run_log_ext env (ops ++ [.disconnect]) more hn
  rw [show ops ++ [.disconnect] ++ more = ops ++ .disconnect :: more by simp] at e1
  refine ⟨added, e1, ?_⟩
  intro e he hc
  obtain ⟨x, y, rfl⟩ := List.append_of_mem he
  have hp : Permitted e (y ++ (run env (ops ++ [.disconnect])).log) :=
    permitted_at (env := env) (ops := ops ++ .disconnect :: more) (newer := x) (by rw [e1]; simp)
  have hcl : closed (run env (ops ++ [.disconnect])).log = true := by
    obtain ⟨o, hi⟩ := run_inv env ops
    obtain ⟨l, e2, h2⟩ := step_log env .disconnect hi
    rw [run_snoc, e2, hd]
    simp only [List.cons_append, closed]
    rw [if_pos]
    clear e2
    induction l with
    | nil => rfl
    | cons z zs ih =>
      have := h2 z (by simp)
      have ih := ih (fun w hw => h2 w (by simp [hw]))
      rw [List.cons_append]
      unfold lastApi
      split
      · simp_all
      · rename_i heq; cases heq; simp [NoMark] at this
      · rename_i heq; cases heq; exact ih
  have := hc.not_closed hp
  rw [closed_ext y hcl (fun z hz => h1 z (by simp [hz]))] at this
  cases this

example : (step Demo.env (run Demo.env Demo.clientOps) .disconnect).2 = .success := by decide +kernel

/-! ## C08 -/

/-- **C08**, callbacks: on a server no configuration callback runs; on a client no authentication or
populate callback runs. -/
theorem C08_callbacks_by_role {env : Env} {ops : List Op} {newer older : Log} {e : Effect}
    (h : (run env ops).log = newer ++ e :: older) :
    (serverAt older = true → (∀ cfg rc, e ≠ .netConfig cfg rc) ∧ (∀ b rc, e ≠ .serverConfig b rc)) ∧
    (serverAt older = false → (∀ u p ok, e ≠ .authUserPass u p ok) ∧ (∀ t ok, e ≠ .authToken t ok) ∧
      (∀ t b ok, e ≠ .authBuf t b ok) ∧ (∀ rc, e ≠ .populate rc)) := by
  have hp := permitted_at h
  constructor
  · intro hs
    constructor
    · rintro cfg rc rfl; rw [hp.2.2.1] at hs; cases hs
    · rintro cfg rc rfl; rw [hp.2.2.1] at hs; cases hs
  · intro hs
    refine ⟨?_, ?_, ?_, ?_⟩
    · rintro u p ok rfl; rw [hp.2.2.1] at hs; cases hs
    · rintro u ok rfl; rw [hp.2.2.1] at hs; cases hs
    · rintro u p ok rfl; rw [hp.2.2.1] at hs; cases hs
    · rintro u rfl; rw [hp.2.2.1] at hs; cases hs

/-- **C08**, state: messages of the other role change nothing at all. -/
theorem C08_foreign_messages_ignored (env : Env) (c : Conn) (id : UInt8) (body : Bytes) :
    (c.isServer = true → id = 6 ∨ id = 7 ∨ id = 14 → processMessage env c (id :: body) = (c, .success)) ∧
    (c.isServer = false → id = 4 → processMessage env c (id :: body) = (c, .success)) := by
  constructor
  · rintro hs (rfl | rfl | rfl) <;>
      simp [processMessage, hs, msgNoop, msgPing, msgPong, msgAuth, msgData, msgConfigIpv4, msgAuthResponse,
        msgAuthResponseWithConfig, msgGoodbye, msgExtension, msgDeprecated13, msgServerConfig]
  · rintro hs rfl
    simp [processMessage, hs, msgNoop, msgPing, msgPong, msgAuth]

example : Demo.occurs (fun e l => match e with | .authUserPass .. => serverAt l | _ => false)
      (run Demo.env Demo.serverOps).log = true ∧
    Demo.occurs (fun e l => match e with | .netConfig .. => !serverAt l | _ => false)
      (run Demo.env Demo.clientOps).log = true := by decide +kernel

/-! ## C18 -/

/-- **C18.** Whatever the peer, the network and the TLS library deliver and whatever the host calls, no
out-of-bounds read or write, overflow, null dereference or infinite loop is reached, as long as memory
allocation succeeds; the one exception is the `assert` in PMTU discovery (`pmtud.c:184`), see C34. -/
theorem C18_memory_safe (env : Env) (ha : ∀ l, env.alloc l = true)
    (hn : ∀ l, (env.ssl l .new).ok = true) (ops : List Op) (site : String)
    (h : Effect.ub site ∈ (run env ops).log) : site = "pmtud.c:184 assert" := by
  obtain ⟨o, hi⟩ := run_inv env ops
  exact hi.ub ⟨ha, hn⟩ site h

example : (∀ l, Demo.env.alloc l = true) ∧ (∀ l, (Demo.env.ssl l .new).ok = true) :=
  ⟨fun _ => rfl, fun _ => rfl⟩

/-- The allocation hypothesis is needed: the third allocation (a fragment node) failing is a null
dereference in `he_fragment_entry_update`. -/
theorem C18_needs_allocation : ∃ (env : Env) (ops : List Op) (site : String),
    site ≠ "pmtud.c:184 assert" ∧ Effect.ub site ∈ (run env ops).log :=
  ⟨{ Demo.env with alloc := fun l => !Demo.occurs (fun e _ => match e with | .clock _ => true | _ => false) l },
    Demo.clientOps ++ [.outsideData (Demo.dgram [9]) [Demo.msg [15, 0, 8, 0, 1, 32, 0, 1, 2, 3, 4, 5, 6, 7, 8]]],
    "frag", by decide, by decide +kernel⟩

/-! ## C45 -/

/-- No call of `he_conn_nudge` in a stretch of history. -/
def noNudge (l : Log) : Prop := Effect.api .nudge ∉ l

theorem nudgeArmed_between (mid : Log) (t : Int) (older : Log) (h : noNudge mid) :
    nudgeArmed (mid ++ .nudgeTime t :: older) = true := by
  induction mid with
  | nil => rfl
  | cons x xs ih =>
    have ih := ih (fun hm => h (by simp [hm]))
    rw [List.cons_append]
    unfold nudgeArmed
    split
    · simp_all
    · rfl
    · rename_i heq; cases heq; exact absurd List.mem_cons_self h
    · rename_i heq; cases heq; exact ih

/-- **C45.** Between two invocations of the nudge-time callback the host called `he_conn_nudge`. -/
theorem C45_one_nudge_timer {env : Env} {ops : List Op} {newer mid older : Log} {t1 t2 : Int}
    (h : (run env ops).log = newer ++ .nudgeTime t2 :: mid ++ .nudgeTime t1 :: older) :
    Effect.api .nudge ∈ mid := by
  have hp := permitted_at (env := env) (ops := ops) (newer := newer) (e := .nudgeTime t2)
    (older := mid ++ .nudgeTime t1 :: older) (by rw [h]; simp)
  apply Classical.byContradiction
  intro hc
  have := nudgeArmed_between mid t1 older hc
  rw [hp.2.1] at this; cases this

/-- A client that sets up its connection and is nudged once, so that the timer is armed twice. -/
def demoNudge : List Op :=
  [ .setUsername [106, 111, 101], .setPassword [112, 119], .setOutsideMtu 1500,
    .clientConnect Demo.ctx [] [], .nudge ]

example : ((run Demo.env demoNudge).log.countP
    (fun e => match e with | .nudgeTime _ => true | _ => false)) = 2 := by decide +kernel

/-! ## C48 -/

theorem renegOpen_between (mid : Log) (n : Bool) (older : Log)
    (h : ∀ m, Effect.event .renegCompleted m ∉ mid) :
    renegOpen (mid ++ .event .renegStarted n :: older) = true := by
  induction mid with
  | nil => rfl
  | cons x xs ih =>
    have ih := ih (fun m hm => h m (by simp [hm]))
    rw [List.cons_append]
    unfold renegOpen
    split
    · simp_all
    · rfl
    · rename_i heq; cases heq; exact absurd List.mem_cons_self (h _)
    · rename_i heq; cases heq; exact ih

theorem renegOpen_since {l : Log} (h : renegOpen l = true) :
    ∃ newer n older, l = newer ++ .event .renegStarted n :: older ∧
      ∀ m, Effect.event .renegCompleted m ∉ newer := by
  induction l with
  | nil => cases h
  | cons x xs ih =>
    unfold renegOpen at h
    split at h
    · simp_all
    · rename_i heq; cases heq; exact ⟨[], _, _, rfl, by simp⟩
    · cases h
    · rename_i hne heq
      cases heq
      obtain ⟨a, n, b, rfl, hm⟩ := ih h
      refine ⟨x :: a, n, b, rfl, ?_⟩
      intro m hc
      rcases List.mem_cons.mp hc with rfl | hc
      · exact hne m rfl
      · exact hm m hc

theorem renegRequested_since {l : Log} (h : renegRequested l = true) :
    ∃ newer older, l = newer ++ .api .scheduleReneg :: older ∧
      ∀ m, Effect.event .renegStarted m ∉ newer := by
  induction l with
  | nil => cases h
  | cons x xs ih =>
    unfold renegRequested at h
    split at h
    · simp_all
    · rename_i heq; cases heq; exact ⟨[], _, rfl, by simp⟩
    · cases h
    · rename_i hne heq
      cases heq
      obtain ⟨a, b, rfl, hm⟩ := ih h
      refine ⟨x :: a, b, rfl, ?_⟩
      intro m hc
      rcases List.mem_cons.mp hc with rfl | hc
      · exact hne m rfl
      · exact hm m hc

/-- **C48**, STARTED: happens only ONLINE, only after a schedule call not yet answered by a STARTED, and
between two STARTED there is a COMPLETED. -/
theorem C48_started {env : Env} {ops : List Op} {newer older : Log} {n : Bool}
    (h : (run env ops).log = newer ++ .event .renegStarted n :: older) :
    stateAt older = .online ∧
    (∃ a b, older = a ++ .api .scheduleReneg :: b ∧ ∀ m, Effect.event .renegStarted m ∉ a) ∧
    (∀ mid n' rest, older = mid ++ .event .renegStarted n' :: rest →
      ∃ m, Effect.event .renegCompleted m ∈ mid) := by
  have hp := permitted_at h
  refine ⟨hp.2.2.1, renegRequested_since hp.2.2.2.1, ?_⟩
  rintro mid n' rest rfl
  apply Classical.byContradiction
  intro hc
  have := renegOpen_between mid n' rest (fun m hm => hc ⟨m, hm⟩)
  rw [hp.2.1] at this; cases this

/-- **C48**, COMPLETED: directly preceded (among the renegotiation events) by a STARTED. -/
theorem C48_completed {env : Env} {ops : List Op} {newer older : Log} {n : Bool}
    (h : (run env ops).log = newer ++ .event .renegCompleted n :: older) :
    ∃ a m b, older = a ++ .event .renegStarted m :: b ∧ ∀ k, Effect.event .renegCompleted k ∉ a :=
  renegOpen_since (permitted_at h).2.1

/-- A client that schedules a renegotiation and receives a packet. -/
def demoReneg : List Op :=
  Demo.clientOps ++ [.scheduleReneg, .outsideData (Demo.dgram [9]) [], .scheduleReneg,
    .outsideData (Demo.dgram [9]) []]

example : ((run Demo.env demoReneg).log.filterMap (fun e => match e with
      | .event .renegStarted _ => some true | .event .renegCompleted _ => some false | _ => none)) =
    [false, true, false, true] := by decide +kernel

/-! ## C49 -/

theorem firstSeen_append (mid : Log) (n : Bool) (older : Log) :
    firstSeen (mid ++ .event .firstMessageReceived n :: older) = true := by
  induction mid with
  | nil => rfl
  | cons x xs ih =>
    rw [List.cons_append]
    unfold firstSeen
    split <;> simp_all

/-- **C49.** FIRST_MESSAGE_RECEIVED is generated at most once, and only inside a receive call. -/
theorem C49_first_message_once {env : Env} {ops : List Op} {newer older : Log} {n : Bool}
    (h : (run env ops).log = newer ++ .event .firstMessageReceived n :: older) :
    lastApi older = some .outsideData ∧ (∀ m, Effect.event .firstMessageReceived m ∉ older) ∧
      (∀ m, Effect.event .firstMessageReceived m ∉ newer) := by
  refine ⟨(permitted_at h).2.2, ?_, ?_⟩
  · intro m hm
    obtain ⟨x, y, rfl⟩ := List.append_of_mem hm
    have := (permitted_at h).2.1
    rw [firstSeen_append] at this; cases this
  · intro m hm
    obtain ⟨x, y, rfl⟩ := List.append_of_mem hm
    have hp := permitted_at (env := env) (ops := ops) (newer := x) (e := .event .firstMessageReceived m)
      (older := y ++ .event .firstMessageReceived n :: older) (by rw [h]; simp)
    have := hp.2.1
    rw [firstSeen_append] at this; cases this

example : Effect.event .firstMessageReceived true ∈ (run Demo.env Demo.clientOps).log := by decide +kernel

/-! ## C50 -/

/-- **C50.** Every network configuration handed to the host comes from the CONFIG_IPV4 message just
received: the strings are NUL-terminated inside their 24-byte fields and equal the message's (cut at 23
characters), and the MTU is between 1 and 1350, equal to the message's when that is a number in range. -/
theorem C50_config_sane {env : Env} {ops : List Op} {newer older : Log} {cfg : NetCfg} {rc : RC}
    (h : (run env ops).log = newer ++ .netConfig cfg rc :: older) :
    SaneCfg cfg ∧ ∃ n pkt rest, older = .state .configuring n :: .message pkt :: rest ∧
      IsConfigMsg pkt ∧ CfgOf pkt cfg := by
  obtain ⟨_, _, _, _, hs, n, pkt, rest, h1, _, h2, h3⟩ := permitted_at h
  exact ⟨hs, n, pkt, rest, h1, h2, h3⟩

example : Demo.occurs (fun e _ => match e with
    | .netConfig cfg _ => cfg.localIp == [49, 48, 46, 49] ++ zeros 20 && cfg.mtu == 1350 | _ => false)
    (run Demo.env Demo.clientOps).log = true := by decide +kernel

/-! ## C66 -/

/-- **C66.** An authentication callback runs only directly after an AUTH message arrived, receives exactly
the fields of that message, and the declared lengths lie inside the message. -/
theorem C66_auth_callback_args {env : Env} {ops : List Op} {newer older : Log} {e : Effect}
    (h : (run env ops).log = newer ++ e :: older)
    (he : (∃ u p ok, e = .authUserPass u p ok) ∨ (∃ t ok, e = .authToken t ok) ∨
      (∃ ty b ok, e = .authBuf ty b ok)) :
    ∃ pkt rest, older = .message pkt :: rest ∧ AuthArgs pkt e := by
  have hp := permitted_at h
  rcases he with ⟨u, p, ok, rfl⟩ | ⟨t, ok, rfl⟩ | ⟨ty, b, ok, rfl⟩ <;>
  · obtain ⟨_, _, _, _, _, _, _, h⟩ := hp; exact h

example : Demo.occurs (fun e _ => match e with | .authUserPass _ _ ok => ok | _ => false)
    (run Demo.env Demo.serverOps).log = true := by decide +kernel

/-- **C66**, refusal: an AUTH message too short for its type, or declaring more bytes than it has, runs no
callback and changes nothing. -/
theorem C66_short_auth_refused (env : Env) (c : Conn) (pkt : Bytes) (ty : UInt8)
    (hty : pkt[1]? = some ty)
    (hbad : (ty = 1 ∧ c.cbs.auth = true ∧ pkt.length < 104) ∨
      (ty = 2 ∧ c.cbs.authToken = true ∧ (pkt.length < 5 ∨ pkt.length < 4 + num (field pkt 2 2))) ∨
      (ty = 23 ∧ c.cbs.authBuf = true ∧ (pkt.length < 5 ∨ pkt.length < 4 + num (field pkt 2 2)))) :
    (handleAuth env c pkt).1 = c ∧ (handleAuth env c pkt).2 ≠ .success := by
  have e1 : rd pkt 1 1 = some [ty] := by
    obtain ⟨h, h2⟩ := List.getElem?_eq_some_iff.mp hty
    rw [rd_one h, h2]
  unfold handleAuth handleAuthBuf
  split
  · simp
  split
  · simp
  split
  · simp
  split
  · simp
  rw [e1]
  simp only
  have key : ∀ ty', ty' = 2 ∨ ty' = 23 → ty = ty' → ¬(pkt.length ≤ 4) → pkt.length < 5 ∨ pkt.length < 4 + num (field pkt 2 2) →
      rdBe16 (List.take 2 (List.drop 2 pkt)) > pkt.length - 4 := by
    intro _ _ _ h4 h5
    rw [num_rdBe16 (field_length (by omega))] at h5
    unfold field at h5; omega
  rcases hbad with ⟨rfl, h1, h2⟩ | ⟨rfl, h1, h2⟩ | ⟨rfl, h1, h2⟩
  · simp [authSwitch, authUserPassTy, h1, h2]
  · simp only [authSwitch, authUserPassTy, authTokenTy, h1]
    rw [if_neg (by decide), if_pos True.intro, if_pos True.intro]
    by_cases h4 : pkt.length ≤ 4
    · rw [if_pos h4]; simp
    · rw [if_neg h4, rd_isSome (by omega)]
      simp only
      rw [if_pos (key 2 (.inl rfl) rfl h4 h2)]
      simp
  · simp only [authSwitch, authUserPassTy, authTokenTy, authCbTy, h1]
    rw [if_neg (by decide), if_neg (by decide), if_pos True.intro, if_pos True.intro]
    by_cases h4 : pkt.length ≤ 4
    · rw [if_pos h4]; simp
    · rw [if_neg h4, rd_isSome (by omega)]
      simp only
      rw [if_pos (key 23 (.inr rfl) rfl h4 h2)]
      simp

end Lightway
