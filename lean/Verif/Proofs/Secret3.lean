import Verif.Proofs.Secret2

/-!
# Hiding the credentials commutes with every call
-/

namespace Lightway
open Spec
variable {w : Watch} {pay : Option (Padding × Nat)} {inn : Bool} {env : Env}

theorem isValidClient_mask (ctx : SslCtx) (c : Conn) : isValidClient ctx (mask w c) = isValidClient ctx c := by
  have e1 : isUsernameSet (mask w c) = isUsernameSet c := by
    simp only [isUsernameSet, configIsEmptyString]
    rw [show (mask w c).username = c.username.map hide from rfl, cstr_hide]; simp
  have e2 : isPasswordSet (mask w c) = isPasswordSet c := by
    simp only [isPasswordSet, configIsEmptyString]
    rw [show (mask w c).password = c.password.map hide from rfl, cstr_hide]; simp
  unfold isValidClient
  rw [e1, e2]
  rfl

/-- The end of `configure`. -/
def makeTable (env : Env) (c : Conn) (n : Nat) : Conn × RC :=
  if env.alloc c.log then
    ({ (c.emit (.alloc (env.alloc c.log))).emit (.table n) with fragTable := some (FragTable.create n) }, .success)
  else ({ (c.emit (.alloc (env.alloc c.log))).emit (.table n) with fragTable := none }, .noMemory)

theorem makeTable_par (hE : Sealed w env) {c : Conn} (h : Shut w c) (n : Nat) : Par w (makeTable env c n) (makeTable env (mask w c) n) := by
  unfold makeTable
  have e : env.alloc (mask w c).log = env.alloc c.log := hE.alloc c.log
  rw [e]
  exact Par.ite Iff.rfl (fun _ => ⟨rfl, h⟩) (fun _ => ⟨rfl, h⟩)

theorem configure_par (hE : Sealed w env) {c : Conn} (h : Shut w c) (ctx : SslCtx) :
    Par w (configure env c ctx) (configure env (mask w c) ctx) := by
  exact makeTable_par hE (c := ({ c with
    disableRoaming := ctx.disableRoaming
    padding := ctx.padding
    aggressive := ctx.aggressive
    usePqc := ctx.usePqc
    connType := ctx.connType
    verMajor := if c.verMajor = 0 then ctx.maxMajor else c.verMajor
    verMinor := if c.verMajor = 0 then ctx.maxMinor else c.verMinor
    cbs := ctx.cbs
    pingNextId := 1 } : Conn).emit (.callbacks ctx.cbs)) h ctx.maxFragEntries

theorem setupType_par (hE : Sealed w env) {c : Conn} (h : Shut w c) (ctx : SslCtx) :
    Par w (setupType env c ctx) (setupType env (mask w c) ctx) := by
  unfold setupType
  cases ctx.connType with
  | datagram =>
    refine Par.bind (sslDo_par hE h rfl) (fun c r h => ?_)
    refine Par.ite Iff.rfl (fun _ => par h _) (fun _ => ?_)
    refine Par.ite Iff.rfl (fun _ => ?_) (fun _ => par h _)
    refine Par.bind (sslDo_par hE h rfl) (fun c r h => ?_)
    exact Par.ite Iff.rfl (fun _ => par h _) (fun _ => par h _)
  | stream =>
    refine Par.ite Iff.rfl (fun _ => ?_) (fun _ => par h _)
    refine Par.bind (sslDo_par hE h rfl) (fun c r h => ?_)
    exact Par.ite Iff.rfl (fun _ => par h _) (fun _ => par h _)

theorem setupDn_par (hE : Sealed w env) {c : Conn} (h : Shut w c) (ctx : SslCtx) :
    Par w (setupDn env c ctx) (setupDn env (mask w c) ctx) := by
  unfold setupDn
  refine Par.ite Iff.rfl (fun _ => ?_) (fun _ => par h _)
  refine Par.bind (sslDo_par hE h rfl) (fun c r h => ?_)
  exact Par.ite Iff.rfl (fun _ => par h _) (fun _ => par h _)

theorem setupPqc_par (hE : Sealed w env) {c : Conn} (h : Shut w c) : Par w (setupPqc env c) (setupPqc env (mask w c)) := by
  unfold setupPqc
  refine Par.ite Iff.rfl (fun _ => ?_) (fun _ => par h _)
  refine Par.bind (sslDo_par hE h rfl) (fun c r h => ?_)
  exact Par.ite Iff.rfl (fun _ => par h _) (fun _ => par h _)

/-- `setupSsl` with the TLS object made. -/
def setupRest (env : Env) (c : Conn) (ctx : SslCtx) : Conn × Option RC :=
  match setupType env c ctx with
  | (c, some rc) => (c, some rc)
  | (c, none) =>
    match setupDn env c ctx with
    | (c, some rc) => (c, some rc)
    | (c, none) => setupPqc env c

theorem setupRest_par (hE : Sealed w env) {c : Conn} (h : Shut w c) (ctx : SslCtx) :
    Par w (setupRest env c ctx) (setupRest env (mask w c) ctx) := by
  unfold setupRest
  refine Par.bind (setupType_par hE h ctx) (fun c q h => ?_)
  cases q with
  | some rc => exact par h _
  | none =>
    dsimp only
    refine Par.bind (setupDn_par hE h ctx) (fun c q h => ?_)
    cases q with
    | some rc => exact par h _
    | none => exact setupPqc_par hE h

theorem setupSsl_eq (env : Env) (c : Conn) (ctx : SslCtx) : setupSsl env c ctx =
    if !(env.ssl c.log .new).ok then
      ({ c.emit (.sslCall .new (env.ssl c.log .new).ok) with wolfSet := (env.ssl c.log .new).ok }, some .initFailed)
    else setupRest env { c.emit (.sslCall .new (env.ssl c.log .new).ok) with wolfSet := (env.ssl c.log .new).ok } ctx := rfl

theorem setupSsl_par (hE : Sealed w env) {c : Conn} (h : Shut w c) (ctx : SslCtx) :
    Par w (setupSsl env c ctx) (setupSsl env (mask w c) ctx) := by
  rw [setupSsl_eq, setupSsl_eq]
  have e : env.ssl (mask w c).log .new = env.ssl c.log .new := hE.ssl c.log .new
  rw [e]
  generalize (env.ssl c.log .new).ok = n
  refine Par.ite Iff.rfl (fun _ => ⟨rfl, h⟩) (fun _ => ?_)
  exact setupRest_par hE (c := { c.emit (.sslCall .new n) with wolfSet := n }) h ctx

/-- The end of `internalConnect`. -/
def connected (env : Env) (c : Conn) (r : SslRes) : Conn × RC :=
  if !r.ok then
    match r.err with
    | .wantRead | .wantWrite => (updateTimeout env (changeState env c .connecting), .success)
    | _ => (c, .connectFailed)
  else (updateTimeout env (changeState env c .linkUp), .success)

theorem connected_par (hE : Sealed w env) {c : Conn} (h : Shut w c) (r : SslRes) :
    Par w (connected env c r) (connected env (mask w c) r) := by
  have u : ∀ s, Par w (updateTimeout env (changeState env c s), RC.success) (updateTimeout env (changeState env (mask w c) s), .success) := by
    intro s
    refine ParC.bind (changeState_par hE h s) (fun c h => ?_)
    exact ParC.bind (updateTimeout_par hE h) (fun c h => par h _)
  unfold connected
  refine Par.ite Iff.rfl (fun _ => ?_) (fun _ => u .linkUp)
  generalize r.err = e
  cases e <;> first | exact u .connecting | exact par h _

/-- `internalConnect` after the set-up. -/
def afterSetup (env : Env) : Conn × Option RC → Conn × RC
  | (c, some rc) => (c, rc)
  | (c, none) => connected env (sslDo env (changeState env c .connecting) .negotiate).1
      (sslDo env (changeState env c .connecting) .negotiate).2

theorem afterSetup_par (hE : Sealed w env) {x y : Conn × Option RC} (h : Par w x y) : Par w (afterSetup env x) (afterSetup env y) := by
  refine Par.bind h (fun c q h => ?_)
  cases q with
  | some rc => exact par h _
  | none =>
    unfold afterSetup
    dsimp only
    refine ParC.bind (changeState_par hE h .connecting) (fun c h => ?_)
    exact Par.bind (sslDo_par hE h rfl) (fun c r h => connected_par hE h r)

/-- `internalConnect` after `configure`. -/
def afterConfigure (env : Env) (ctx : SslCtx) (i o : Chain) (c : Conn) (rc : RC) : Conn × RC :=
  if rc ≠ .success then ({ c.emit (.chains i.plugins o.plugins) with insidePlugins := i, outsidePlugins := o }, rc)
  else afterSetup env (setupSsl env { c.emit (.chains i.plugins o.plugins) with insidePlugins := i, outsidePlugins := o } ctx)

theorem afterConfigure_par (hE : Sealed w env) (ctx : SslCtx) {i o : Chain} (hi : SealedChain w i) (ho : SealedChain w o) (hn : w.pay.isSome ∨ w.inn → i = []) {c : Conn}
    (h : Shut w c) (rc : RC) : Par w (afterConfigure env ctx i o c rc) (afterConfigure env ctx i o (mask w c) rc) := by
  have h1 : Shut w { c.emit (.chains i.plugins o.plugins) with insidePlugins := i, outsidePlugins := o } := ⟨h.client, hi, ho, hn⟩
  unfold afterConfigure
  refine Par.ite Iff.rfl (fun _ => ⟨rfl, h1⟩) (fun _ => ?_)
  exact afterSetup_par hE (setupSsl_par hE h1 ctx)

theorem internalConnect_eq (env : Env) (c : Conn) (ctx : SslCtx) (i o : Chain) : internalConnect env c ctx i o =
    afterConfigure env ctx i o (configure env c ctx).1 (configure env c ctx).2 := by
  unfold internalConnect afterConfigure
  generalize configure env c ctx = q
  obtain ⟨c, rc⟩ := q
  dsimp only
  by_cases hr : rc ≠ .success
  · rw [if_pos hr, if_pos hr]
  · rw [if_neg hr, if_neg hr]
    unfold afterSetup
    generalize setupSsl env _ ctx = q
    obtain ⟨c, q⟩ := q
    cases q <;> rfl

theorem internalConnect_par (hE : Sealed w env) (ctx : SslCtx) {i o : Chain} (hi : SealedChain w i) (ho : SealedChain w o) (hn : w.pay.isSome ∨ w.inn → i = []) {c : Conn}
    (h : Shut w c) : Par w (internalConnect env c ctx i o) (internalConnect env (mask w c) ctx i o) := by
  rw [internalConnect_eq, internalConnect_eq]
  exact Par.bind (configure_par hE h ctx) (fun c rc h => afterConfigure_par hE ctx hi ho hn h rc)

theorem clientConnect_par (hE : Sealed w env) (ctx : SslCtx) {i o : Chain} (hi : SealedChain w i) (ho : SealedChain w o) (hn : w.pay.isSome ∨ w.inn → i = []) {c : Conn}
    (h : Shut w c) : Par w (clientConnect env c ctx i o) (clientConnect env (mask w c) ctx i o) := by
  unfold clientConnect
  rw [isValidClient_mask]
  refine Par.ite Iff.rfl (fun _ => par h _) (fun _ => ?_)
  exact internalConnect_par hE ctx hi ho hn (c := { c.emit (.role false) with isServer := false }) ⟨fun _ => rfl, h.2⟩

/-- The end of `disconnect`. -/
def hangUp (c : Conn) : Conn × RC :=
  let c := { c.emit (.timer 0) with cbs := { c.cbs with insideWrite := false, outsideWrite := false }, wolfTimeout := 0 }
  let c := c.emit (.callbacks c.cbs)
  (setState c .disconnected, .success)

theorem hangUp_par {c : Conn} (h : Shut w c) : Par w (hangUp c) (hangUp (mask w c)) := by
  have h1 : Shut w (({ c.emit (.timer 0) with cbs := { c.cbs with insideWrite := false, outsideWrite := false }, wolfTimeout := 0 } : Conn).emit
    (.callbacks { c.cbs with insideWrite := false, outsideWrite := false })) := h
  obtain ⟨e, hs⟩ := setState_par h1 .disconnected
  exact ⟨congrArg (·, RC.success) e, hs⟩

theorem disconnect_par (hE : Sealed w env) {c : Conn} (h : Shut w c) : Par w (disconnect env c) (disconnect env (mask w c)) := by
  unfold disconnect
  refine Par.ite Iff.rfl (fun _ => par h _) (fun _ => ?_)
  refine Par.ite Iff.rfl (fun _ => par h _) (fun _ => ?_)
  have k : Par w (hangUp (sslDo env (sendGoodbye env (setState c .disconnecting)) .shutdown).1)
      (hangUp (sslDo env (sendGoodbye env (setState (mask w c) .disconnecting)) .shutdown).1) := by
    refine ParC.bind (setState_par h .disconnecting) (fun c h => ?_)
    refine ParC.bind (sendGoodbye_par hE h) (fun c h => ?_)
    exact Par.bind (sslDo_par hE h rfl) (fun c _ h => hangUp_par h)
  exact k

theorem keepalive_par (hE : Sealed w env) {c : Conn} (h : Shut w c) : Par w (keepalive env c) (keepalive env (mask w c)) := by
  unfold keepalive
  refine Par.ite Iff.rfl (fun _ => par h _) (fun _ => ?_)
  have h1 : Shut w { c with pingNextId := (c.pingNextId + 1) % 65536 } := h
  have k : Par w (sendMessage env { c with pingNextId := (c.pingNextId + 1) % 65536 } (pingMsg c.pingNextId))
      (sendMessage env { mask w c with pingNextId := ((mask w c).pingNextId + 1) % 65536 } (pingMsg (mask w c).pingNextId)) :=
    sendMessage_par hE h1 (by simp [pingMsg, msgPing])
  have e0 : (mask w c).pingNextId = c.pingNextId := rfl
  dsimp only
  rw [e0] at k ⊢
  generalize c.pingNextId = id at k
  refine Par.bind k (fun c rc h => ?_)
  exact Par.ite Iff.rfl (fun _ => ⟨rfl, h⟩) (fun _ => par h _)

theorem sendServerConfig_par (hE : Sealed w env) {c : Conn} (h : Shut w c) (b : Bytes) :
    Par w (sendServerConfig env c b) (sendServerConfig env (mask w c) b) := by
  unfold sendServerConfig
  refine Par.ite Iff.rfl (fun _ => par h _) (fun _ => ?_)
  refine Par.ite Iff.rfl (fun _ => par h _) (fun _ => ?_)
  refine Par.ite Iff.rfl (fun _ => par h _) (fun _ => ?_)
  exact sendMessage_par hE h (by simp [serverConfigMsg, msgServerConfig])

theorem rotateSession_par (hE : Sealed w env) {c : Conn} (h : Shut w c) :
    Par w (rotateSession env c) (rotateSession env (mask w c)) := by
  unfold rotateSession
  refine Par.ite Iff.rfl (fun _ => par h _) (fun _ => ?_)
  refine Par.bind (generateSessionId_par hE h) (fun c q h => ?_)
  cases q with
  | none => exact par h _
  | some s => exact ⟨rfl, h⟩

/-- The end of `serverConnect`. -/
def withSession (q : Conn × Option Nat) : Conn × RC :=
  match q with
  | (c, none) => (c, .rngFailure)
  | (c, some s) => ({ c with sessionId := s }, .success)

theorem withSession_par {x y : Conn × Option Nat} (h : Par w x y) : Par w (withSession x) (withSession y) := by
  refine Par.bind h (fun c q h => ?_)
  cases q with
  | none => exact par h _
  | some s => exact ⟨rfl, h⟩

theorem serverConnect_par (hE : Sealed ⟨true, pay, inn⟩ env) (ctx : SslCtx) {i o : Chain} (hi : SealedChain ⟨true, pay, inn⟩ i) (ho : SealedChain ⟨true, pay, inn⟩ o) (hn : pay.isSome ∨ inn → i = [])
    {c : Conn} (h : Shut ⟨true, pay, inn⟩ c) : Par ⟨true, pay, inn⟩ (serverConnect env c ctx i o) (serverConnect env (mask ⟨true, pay, inn⟩ c) ctx i o) := by
  have e : isValidServer ctx (mask ⟨true, pay, inn⟩ c) = isValidServer ctx c := rfl
  unfold serverConnect
  rw [e]
  refine Par.ite Iff.rfl (fun _ => par h _) (fun _ => ?_)
  have h1 : Shut ⟨true, pay, inn⟩ { c.emit (.role true) with isServer := true } := ⟨fun e => Bool.noConfusion e, h.2⟩
  have k : Par ⟨true, pay, inn⟩ (internalConnect env { c.emit (.role true) with isServer := true } ctx i o)
      (internalConnect env { (mask ⟨true, pay, inn⟩ c).emit (.role true) with isServer := true } ctx i o) := internalConnect_par hE ctx hi ho hn h1
  refine Par.bind k (fun c rc h => ?_)
  refine Par.ite Iff.rfl (fun _ => par h _) (fun _ => ?_)
  exact withSession_par (generateSessionId_par hE h)

theorem nudge_par (hE : Sealed w env) {c : Conn} (h : Shut w c) : Par w (nudge env c) (nudge env (mask w c)) := by
  have h1 : Shut w { c with nudgeTimerRunning := false } := h
  have u : ∀ c, Shut w c → Par w (updateTimeout env c, RC.success) (updateTimeout env (mask w c), .success) :=
    fun c h => ParC.bind (updateTimeout_par hE h) (fun c h => par h _)
  unfold nudge
  refine ParC.bind (x := { c with nudgeTimerRunning := false }) (y := { mask w c with nudgeTimerRunning := false }) ⟨rfl, h1⟩ (fun c h => ?_)
  refine Par.ite Iff.rfl (fun _ => ?_) (fun _ => ?_)
  · exact ParC.bind (sendAuth_par hE h).fst (fun c h => u c h)
  · refine Par.bind (sslDo_par hE h rfl) (fun c r h => ?_)
    refine Par.ite Iff.rfl (fun _ => ?_) (fun _ => u c h)
    generalize r.err = e
    cases e <;> first | exact u c h | exact ParC.bind (setState_par h .disconnected) (fun c h => par h _)

theorem startPmtud_par (hE : Sealed w env) {c : Conn} (h : Shut w c) : Par w (startPmtud env c) (startPmtud env (mask w c)) := by
  unfold startPmtud
  refine Par.ite Iff.rfl (fun _ => par h _) (fun _ => ?_)
  refine Par.ite Iff.rfl (fun _ => par h _) (fun _ => ?_)
  exact Par.ite Iff.rfl (fun _ => par h _) (fun _ => startBaseProbing_par hE h)

theorem setUsername_par {c : Conn} (h : Shut w c) (s : Bytes) : Par w (setUsername c s) (setUsername (mask w c) (s.map hide)) := by
  have e : setConfigString (mask w c).username (s.map hide) = _ := setConfigString_hide c.username s
  unfold setUsername
  rw [e]
  exact ⟨rfl, h⟩

theorem setPassword_par {c : Conn} (h : Shut w c) (s : Bytes) : Par w (setPassword c s) (setPassword (mask w c) (s.map hide)) := by
  have e : setConfigString (mask w c).password (s.map hide) = _ := setConfigString_hide c.password s
  unfold setPassword
  rw [e]
  exact ⟨rfl, h⟩

theorem setAuthToken_par {c : Conn} (h : Shut w c) (s : Bytes) : Par w (setAuthToken c s) (setAuthToken (mask w c) (s.map hide)) := by
  have e : wr (mask w c).authBuffer 0 (s.map hide) = _ := wr_hide c.authBuffer s 0
  unfold setAuthToken
  rw [e, List.length_map]
  refine Par.ite Iff.rfl (fun _ => par h _) (fun _ => ?_)
  refine Par.ite Iff.rfl (fun _ => par h _) (fun _ => ?_)
  cases wr c.authBuffer 0 s <;> exact ⟨rfl, h⟩

theorem setAuthBuffer_par {c : Conn} (h : Shut w c) (s : Bytes) : Par w (setAuthBuffer c s) (setAuthBuffer (mask w c) (s.map hide)) := by
  have e : wr (mask w c).authBuffer 0 (s.map hide) = _ := wr_hide c.authBuffer s 0
  unfold setAuthBuffer
  rw [e, List.length_map]
  refine Par.ite Iff.rfl (fun _ => par h _) (fun _ => ?_)
  refine Par.ite Iff.rfl (fun _ => par h _) (fun _ => ?_)
  cases wr c.authBuffer 0 s <;> exact ⟨rfl, h⟩

theorem exec_par (hE : Sealed w env) {op : Op} (ho : CallOf w op) (hp : ∀ p, op = .insidePacket p → w.pay = none) {c : Conn} (h : Shut w c) :
    Par w (exec env c op) (exec env (mask w c) (hideOp w op)) := by
  cases op with
  | clientConnect ctx i o => exact clientConnect_par hE ctx ho.1 ho.2.1 ho.2.2 h
  | serverConnect ctx i o =>
    obtain ⟨srv, pay, inn⟩ := w
    obtain ⟨hs, hi, hq, hn⟩ := ho
    cases (show srv = true from hs)
    exact serverConnect_par hE ctx hi hq hn h
  | disconnect => exact disconnect_par hE h
  | insidePacket p =>
    have hw := hp p rfl
    have e : hideOp w (.insidePacket p) = .insidePacket p := by unfold hideOp; rw [hw]
    rw [e]
    exact insidePacket_par hw hE h p
  | outsideData b rs =>
    exact outsideData_par hE h b rs
  | nudge => exact nudge_par hE h
  | keepalive => exact keepalive_par hE h
  | sendServerConfig b => exact sendServerConfig_par hE h b
  | scheduleReneg => exact ⟨rfl, h⟩
  | rotateSession => exact rotateSession_par hE h
  | startPmtud => exact startPmtud_par hE h
  | pmtudTimeout => exact handleProbeTimeout_par hE h
  | setUsername s => exact setUsername_par h s
  | setPassword s => exact setPassword_par h s
  | setAuthToken t => exact setAuthToken_par h t
  | setAuthBuffer b => exact setAuthBuffer_par h b
  | setOutsideMtu m =>
    show Par w (setOutsideMtu c m) (setOutsideMtu (mask w c) m)
    unfold setOutsideMtu
    exact Par.ite Iff.rfl (fun _ => par h _) (fun _ => ⟨rfl, h⟩)
  | setProtocolVersion a b => exact ⟨rfl, h⟩
  | setSessionId s =>
    show Par w (setSessionId c s) (setSessionId (mask w c) s)
    unfold setSessionId
    exact Par.ite Iff.rfl (fun _ => par h _) (fun _ => ⟨rfl, h⟩)
  | setSni s => exact ⟨rfl, h⟩

theorem api_hide (op : Op) : (hideOp w op).api = op.api := by
  obtain ⟨srv, pay, inn⟩ := w
  cases pay <;> cases op <;> rfl

theorem step_par (hE : Sealed w env) {op : Op} (ho : CallOf w op) (hp : ∀ p, op = .insidePacket p → w.pay = none) {c : Conn} (h : Shut w c) :
    Par w (step env c op) (step env (mask w c) (hideOp w op)) := by
  have h1 : Shut w (c.emit (.api op.api)) := h
  have k : Par w (exec env (c.emit (.api op.api)) op) (exec env ((mask w c).emit (.api (hideOp w op).api)) (hideOp w op)) := by
    rw [api_hide]; exact exec_par hE ho hp h1
  unfold step
  exact Par.bind k (fun c rc h => ⟨rfl, h⟩)

end Lightway
