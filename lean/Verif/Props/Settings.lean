import Verif.Props.Login

/-!
# C78: the settings a connection works with
-/

namespace Lightway
open Spec

/-- The settings of a connection that other properties refer to (padding: C10; transport: C24, C26; aggressive mode,
version: C25, C28, C29; roaming: C59; plugin chains: C53, C65, C71). -/
structure Spec.Settings where
  server : Bool
  transport : ConnType
  padding : Padding
  aggressive : Bool
  noRoaming : Bool
  postQuantum : Bool
  version : UInt8 × UInt8
  inside : Chain
  outside : Chain

/-- The settings in force. -/
def Spec.settings (c : Conn) : Settings :=
  ⟨c.isServer, c.connType, c.padding, c.aggressive, c.disableRoaming, c.usePqc, (c.verMajor, c.verMinor), c.insidePlugins, c.outsidePlugins⟩

/-- What a connect call with context `ctx` and plugin chains `i`, `o` brings into force: everything is taken from the
context; a protocol version chosen before stays, otherwise it is the newest the context supports. -/
def Spec.settingsFrom (server : Bool) (ctx : SslCtx) (i o : Chain) (chosen : UInt8 × UInt8) : Settings :=
  ⟨server, ctx.connType, ctx.padding, ctx.aggressive, ctx.disableRoaming, ctx.usePqc,
   if chosen.1 = 0 then (ctx.maxMajor, ctx.maxMinor) else chosen, i, o⟩

theorem sslDo_settings (env : Env) (c : Conn) (k : SslCall) : settings (sslDo env c k).1 = settings c := by
  obtain ⟨l, ps, sl, we, e, -⟩ := sslDo_frame env c k
  rw [e]; rfl

theorem sendMessage_settings (env : Env) (c : Conn) (m : Bytes) : settings (sendMessage env c m).1 = settings c := by
  obtain ⟨l, ps, sl, we, e, -⟩ := sendMessage_frame env c m
  rw [e]; rfl

theorem setState_settings (c : Conn) (s : ConnState) : settings (setState c s) = settings c := by
  unfold setState; split <;> rfl

theorem updateTimeout_settings (env : Env) (c : Conn) : settings (updateTimeout env c) = settings c := by
  obtain ⟨_, _, _, _, _, _, _, _, _, _, _, _, e, _⟩ := updateTimeout_t env c
  rw [e]; rfl

theorem sendAuth_settings (env : Env) (c : Conn) : settings (sendAuth env c).1 = settings c := by
  unfold sendAuth
  split
  · rfl
  · have h := setState_settings c .authenticating
    simp only
    generalize setState c .authenticating = d at h ⊢
    rw [← h]
    split
    · exact sendMessage_settings ..
    · split
      · split
        · rfl
        · exact sendMessage_settings ..
      · split
        · split
          · rfl
          · exact sendMessage_settings ..
        · rfl

theorem changeState_settings (env : Env) (c : Conn) (s : ConnState) : settings (changeState env c s) = settings c := by
  unfold changeState
  split
  · rfl
  · have h := setState_settings c s
    simp only
    generalize setState c s = d at h ⊢
    rw [← h]
    split
    · exact sendAuth_settings env d
    · rfl

theorem setupType_settings (env : Env) (c : Conn) (ctx : SslCtx) : settings (setupType env c ctx).1 = settings c := by
  unfold setupType
  split
  · have h := sslDo_settings env c (.setMtu (c.outsideMtu - packetOverhead + 37))
    generalize sslDo env c (.setMtu (c.outsideMtu - packetOverhead + 37)) = q at h ⊢
    obtain ⟨d, r⟩ := q
    simp only at h ⊢
    split
    · exact h
    · split
      · have h2 := sslDo_settings env d .allowChFrag
        generalize sslDo env d .allowChFrag = q at h2 ⊢
        obtain ⟨f, r⟩ := q
        simp only at h2 ⊢
        split <;> exact h2.trans h
      · exact h
  · split
    · have h := sslDo_settings env c (.useSNI (cstr c.sniHostname))
      generalize sslDo env c (.useSNI (cstr c.sniHostname)) = q at h ⊢
      obtain ⟨d, r⟩ := q
      simp only at h ⊢
      split <;> exact h
    · rfl

theorem setupDn_settings (env : Env) (c : Conn) (ctx : SslCtx) : settings (setupDn env c ctx).1 = settings c := by
  unfold setupDn
  split
  · have h := sslDo_settings env c (.checkDomainName (cstr ctx.serverDn))
    generalize sslDo env c (.checkDomainName (cstr ctx.serverDn)) = q at h ⊢
    obtain ⟨d, r⟩ := q
    simp only at h ⊢
    split <;> exact h
  · rfl

theorem setupPqc_settings (env : Env) (c : Conn) : settings (setupPqc env c).1 = settings c := by
  unfold setupPqc
  split
  · have h := sslDo_settings env c .useKeyShare
    generalize sslDo env c .useKeyShare = q at h ⊢
    obtain ⟨d, r⟩ := q
    simp only at h ⊢
    split <;> exact h
  · rfl

theorem setupSsl_settings (env : Env) (c : Conn) (ctx : SslCtx) : settings (setupSsl env c ctx).1 = settings c := by
  unfold setupSsl
  simp only
  have h0 : settings ({ c.emit (.sslCall .new (env.ssl c.log .new).ok) with wolfSet := (env.ssl c.log .new).ok } : Conn) = settings c := rfl
  generalize ({ c.emit (.sslCall .new (env.ssl c.log .new).ok) with wolfSet := (env.ssl c.log .new).ok } : Conn) = d at h0 ⊢
  split
  · exact h0
  · have h1 := setupType_settings env d ctx
    generalize setupType env d ctx = q at h1 ⊢
    obtain ⟨e, r⟩ := q
    rcases r with _ | rc
    · have h2 := setupDn_settings env e ctx
      simp only
      generalize setupDn env e ctx = q at h2 ⊢
      obtain ⟨f, r⟩ := q
      rcases r with _ | rc
      · exact (setupPqc_settings env f).trans (h2.trans (h1.trans h0))
      · exact h2.trans (h1.trans h0)
    · exact h1.trans h0

theorem internalConnect_settings (env : Env) (c : Conn) (ctx : SslCtx) (i o : Chain) :
    settings (internalConnect env c ctx i o).1 = settingsFrom c.isServer ctx i o (c.verMajor, c.verMinor) := by
  have h0 : settings (configured env c ctx i o) = settingsFrom c.isServer ctx i o (c.verMajor, c.verMinor) := by
    unfold configured configure settings settingsFrom
    simp only
    by_cases hv : c.verMajor = 0
    · rw [if_pos hv, if_pos hv, if_pos hv]
      split <;> rfl
    · rw [if_neg hv, if_neg hv, if_neg hv]
      split <;> rfl
  rw [← h0]
  rcases internalConnect_shape env c ctx i o with ⟨-, e⟩ | ⟨-, ⟨rc, -, e⟩ | ⟨-, e⟩⟩
  · rw [e]
  · rw [e]; exact setupSsl_settings ..
  · rw [e]
    refine Eq.trans ?_ (setupSsl_settings env (configured env c ctx i o) ctx)
    refine Eq.trans ?_ (setState_settings _ .connecting)
    generalize setState (setupSsl env (configured env c ctx i o) ctx).1 .connecting = d
    unfold negotiateFirst
    simp only
    split
    · exact (updateTimeout_settings ..).trans ((changeState_settings ..).trans (sslDo_settings ..))
    · split
      · exact (updateTimeout_settings ..).trans (sslDo_settings ..)
      · exact sslDo_settings ..

/-- One step of a call other than connecting and choosing the version keeps the settings. -/
theorem Micro.settings {env : Env} {a : Api} {c c' : Conn} (h : Micro env a c c') (ha : ¬IsConnect a) (hs : a ≠ .setter) :
    Spec.settings c' = Spec.settings c := by
  cases h with
  | io r => obtain ⟨l, ps, sl, we, pm, pn, e, -⟩ := (ioStep_frame env c r).pFrame; rw [e]; rfl
  | state s hne h => exact setState_settings c s
  | configure ctx h hq => exact absurd h ha
  | plugins i o h hq => exact absurd h ha
  | role b h => exact absurd h ha
  | version x y h hq => exact absurd h hs
  | probeAck id h hs hm => obtain ⟨l, ps, sl, we, pm, pn, e, -⟩ := handleProbeAck_frame env c id; rw [e]; rfl
  | probeTimeout h => obtain ⟨l, ps, sl, we, pm, pn, e, -⟩ := handleProbeTimeout_frame env c; rw [e]; rfl
  | startBase h hs hd => obtain ⟨l, ps, sl, we, pm, pn, e, -⟩ := startBaseProbing_frame env c; rw [e]; rfl
  | _ => rfl

theorem Star.settings {env : Env} {a : Api} {c c' : Conn} (h : M env a c c') (ha : ¬IsConnect a) (hs : a ≠ .setter) :
    Spec.settings c' = Spec.settings c := by
  induction h with
  | refl => rfl
  | tail _ s ih => exact (s.settings ha hs).trans ih

/-- Calls that may change the settings. -/
def Spec.Resets : Op → Prop
  | .clientConnect .. | .serverConnect .. | .setProtocolVersion .. => True
  | _ => False

theorem step_settings {env : Env} {c : Conn} (hg : Good env c) (op : Op) (hr : ¬Resets op) : settings (step env c op).1 = settings c := by
  obtain ⟨o, hi⟩ := hg.inv
  by_cases hs : op.api = .setter
  · cases op <;> simp only [Op.api, reduceCtorEq] at hs <;> first | exact absurd trivial hr | skip
    all_goals
      first
      | rfl
      | (show settings (_ : Conn × RC).1 = _
         simp only [step, exec, setAuthToken, setAuthBuffer, setOutsideMtu, setSessionId]
         repeat' split
         all_goals rfl)
  · have h := (exec_star env o c op hi).settings (by cases op <;> first | exact absurd trivial hr | (intro h; cases h <;> simp_all [Op.api])) hs
    have h0 : settings (entry c op) = settings c := by cases op <;> rfl
    exact h.trans h0

/-- **C78.**  Once a connect call has passed validation, the connection works with exactly the settings of that
call's context and plugin chains, whatever the outcome of the call and whatever calls follow, until the next connect
call (or a new choice of protocol version). -/
theorem C78_settings (env : Env) (pre later : List Op) (server : Bool) (ctx : SslCtx) (i o : Chain)
    (hv : if server = true then isValidServer ctx (run env pre) = .success else isValidClient ctx (run env pre) = .success)
    (hl : ∀ op ∈ later, ¬Resets op) :
    settings (run env (pre ++ connectOp server ctx i o :: later)) =
      settingsFrom server ctx i o (settings (run env pre)).version := by
  revert hl
  refine snoc_induct (P := fun later => (∀ op ∈ later, ¬Resets op) →
    settings (run env (pre ++ connectOp server ctx i o :: later)) =
      settingsFrom server ctx i o (settings (run env pre)).version) ?_ ?_ later
  · intro _
    rw [run_snoc]
    generalize run env pre = c at hv ⊢
    cases server with
    | false =>
      have e : (step env c (connectOp false ctx i o)).1 = ((internalConnect env { (c.emit (.api .clientConnect)).emit (.role false) with isServer := false } ctx i o).1).emit
          (.ret (internalConnect env { (c.emit (.api .clientConnect)).emit (.role false) with isServer := false } ctx i o).2) := by
        have hb : clientConnect env (c.emit (.api .clientConnect)) ctx i o =
            internalConnect env { (c.emit (.api .clientConnect)).emit (.role false) with isServer := false } ctx i o := by
          unfold clientConnect
          simp only
          rw [if_neg (show ¬isValidClient ctx (c.emit (.api .clientConnect)) ≠ .success from fun h => h hv)]
        show (clientConnect env (c.emit (.api .clientConnect)) ctx i o).1.emit (.ret (clientConnect env (c.emit (.api .clientConnect)) ctx i o).2) = _
        rw [hb]
      rw [e]
      exact internalConnect_settings env { (c.emit (.api .clientConnect)).emit (.role false) with isServer := false } ctx i o
    | true =>
      have h0 := internalConnect_settings env { (c.emit (.api .serverConnect)).emit (.role true) with isServer := true } ctx i o
      have hb : settings (serverConnect env (c.emit (.api .serverConnect)) ctx i o).1 = settings
          (internalConnect env { (c.emit (.api .serverConnect)).emit (.role true) with isServer := true } ctx i o).1 := by
        unfold serverConnect
        simp only
        rw [if_neg (show ¬isValidServer ctx (c.emit (.api .serverConnect)) ≠ .success from fun h => h hv)]
        generalize internalConnect env { (c.emit (.api .serverConnect)).emit (.role true) with isServer := true } ctx i o = q
        obtain ⟨d, rc⟩ := q
        simp only
        split
        · rfl
        · unfold generateSessionId
          simp only
          cases env.rng d.log <;> rfl
      show settings (serverConnect env (c.emit (.api .serverConnect)) ctx i o).1 = _
      rw [hb, h0]; rfl
  · intro later op ih hl
    have : pre ++ connectOp server ctx i o :: (later ++ [op]) = (pre ++ connectOp server ctx i o :: later) ++ [op] := by simp
    rw [this, run_snoc, step_settings (run_good env _) op (hl op (by simp))]
    exact ih fun o h => hl o (by simp [h])

/-- Not vacuous: both demo connects pass validation, and calls follow that keep the settings. -/
example : isValidClient { Demo.ctx with padding := .pad450 } (run Demo.env (Demo.clientOps.take 3)) = .success ∧
    isValidServer Demo.ctx (run Demo.env (Demo.serverOps.take 1)) = .success ∧
    (settings (run Demo.env (Demo.clientOps.take 3 ++ connectOp false { Demo.ctx with padding := .pad450 } [] [] :: Demo.clientOps.drop 4))).padding = .pad450 ∧
    (settings (run Demo.env Demo.serverOps)).version = (1, 2) := by decide +kernel

end Lightway
