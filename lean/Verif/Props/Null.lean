import Verif.Spec.Null
import Verif.Props.Demo

/-!
# C104: NULL arguments
-/

namespace Lightway
open Spec

/-- **C104.** A public call on a connection with NULL for the connection or for any other pointer it needs returns
`HE_ERR_NULL_POINTER`, whatever its other arguments, and nothing happens: the connection, its history (no callback, no TLS
call, no marker) and its context pointer are as before. -/
theorem C104_null_refused (env : Env) (h : Option HostConn) (call : CallN) (hn : NullArg h call) :
    callN env h call = (h, .nullPointer) := by
  rcases hn with hn | hn
  · cases h with
    | some h => simp at hn
    | none => cases call <;> first | rfl | (rename_i p; cases p <;> rfl) | (rename_i p _; cases p <;> rfl) |
        (rename_i p _ _; cases p <;> rfl)
  · cases call <;> simp only [pointers, List.mem_singleton, List.not_mem_nil, Bool.false_eq] at hn <;>
      (rw [Option.isSome_eq_false_iff, Option.isNone_iff_eq_none] at hn; subst hn; cases h <;> rfl)

/-- **C104.** Over any history of public calls, with NULL arguments among them: the connection behaves as if the host had
made only the calls without NULL arguments – every theorem about `run` applies to it – and `he_conn_get_context` returns the
pointer most recently set, which no other call changes. -/
theorem C104_null_calls_are_no_calls (env : Env) (h : HostConn) (calls : List CallN) :
    ∃ h', runN env (some h) calls = some h' ∧ h'.conn = runFrom env h.conn (realOps calls) ∧
      getContext (runN env (some h) calls) = (match contexts calls with | [] => h.data | p :: _ => some p) := by
  induction calls generalizing h with
  | nil => exact ⟨h, rfl, rfl, rfl⟩
  | cons call calls ih =>
    have key : ∀ (h1 : HostConn) (op : List Op) (ps : List Ptr), (callN env (some h) call).1 = some h1 →
        realOps (call :: calls) = op ++ realOps calls → h1.conn = runFrom env h.conn op →
        contexts (call :: calls) = contexts calls ++ ps → h1.data = (match ps with | [] => h.data | p :: _ => some p) →
        ∃ h', runN env (some h) (call :: calls) = some h' ∧ h'.conn = runFrom env h.conn (realOps (call :: calls)) ∧
          getContext (runN env (some h) (call :: calls)) =
            (match contexts (call :: calls) with | [] => h.data | p :: _ => some p) := by
      intro h1 op ps e1 e2 e3 e4 e5
      obtain ⟨h', g1, g2, g3⟩ := ih h1
      have e : runN env (some h) (call :: calls) = runN env (some h1) calls := by
        show runN env (callN env (some h) call).1 calls = _
        rw [e1]
      refine ⟨h', by rw [e, g1], ?_, ?_⟩
      · rw [g2, e2, e3]
        unfold runFrom; rw [List.foldl_append]
      · rw [e, g3, e4]
        cases contexts calls with
        | nil => exact e5
        | cons p ps => rfl
    cases call
    case clientConnect ctx i o => cases ctx with
      | none => exact key h [] [] rfl rfl rfl (by simp [contexts]) rfl
      | some ctx => exact key _ [_] [] rfl rfl rfl (by simp [contexts]) rfl
    case serverConnect ctx i o => cases ctx with
      | none => exact key h [] [] rfl rfl rfl (by simp [contexts]) rfl
      | some ctx => exact key _ [_] [] rfl rfl rfl (by simp [contexts]) rfl
    case outsideData p r => cases p with
      | none => exact key h [] [] rfl rfl rfl (by simp [contexts]) rfl
      | some p => exact key _ [_] [] rfl rfl rfl (by simp [contexts]) rfl
    case setContext p => cases p with
      | none => exact key h [] [] rfl rfl rfl (by simp [contexts]) rfl
      | some p => exact key _ [] [p] rfl rfl rfl (by simp [contexts]) rfl
    case setProtocolVersion a b => exact key _ [_] [] rfl rfl rfl (by simp [contexts]) rfl
    all_goals first
      | exact key _ [_] [] rfl rfl rfl (by simp [contexts]) rfl
      | (rename_i p; cases p with
          | none => exact key h [] [] rfl rfl rfl (by simp [contexts]) rfl
          | some p => exact key _ [_] [] rfl rfl rfl (by simp [contexts]) rfl)

/-- **C104.** The same for a context: NULL for the context or a text, buffer or file name it needs is refused with
`HE_ERR_NULL_POINTER` and nothing changes, no TLS call is made.  (`he_ssl_ctx_stop` ignores its argument.)  Registering a
callback with a NULL context does nothing. -/
theorem C104_ctx_null_refused (t : TlsCtxEnv) (o : Option CtxObj) (call : CtxCallN)
    (hn : o.isSome = false ∨ false ∈ ctxPointers call) (hs : call ≠ .stop) :
    ctxCallN t o call = (o, .nullPointer) ∧ ∀ k p, ctxSetCbN t none k p = none := by
  refine ⟨?_, fun _ _ => rfl⟩
  rcases hn with hn | hn
  · cases o with
    | some o => simp at hn
    | none => cases call <;> first | rfl | exact absurd rfl hs
  · cases o with
    | none => cases call <;> first | rfl | exact absurd rfl hs
    | some o =>
      cases call
      case setServerDn s => cases s <;> simp [ctxPointers] at hn; rfl
      case setCa s _ => cases s <;> simp [ctxPointers] at hn; rfl
      case setCertKey c k => cases c <;> cases k <;> simp [ctxPointers] at hn <;> rfl
      all_goals simp [ctxPointers] at hn

/-- **C104.** The functions that return a value answer for NULL: not connected, not set, no session, no name, no timer, the
default MTU, an error is fatal, not valid. -/
theorem C104_null_values (env : Env) (v : TlsVer) (name : Option Bytes) (rc : RC) (ctx : Option SslCtx) (k : CbKind) (r : StartRes)
    (ch : Chain) (p : Plugin) :
    getState none = .none ∧ getUsername none = none ∧ usernameSet none = false ∧ passwordSet none = false ∧
    authTokenSet none = false ∧ authBufferSet none = false ∧ getOutsideMtu none = 0 ∧ outsideMtuSet none = false ∧
    getProtocolVersion none = none ∧ getSessionId none = 0 ∧ getPendingSessionId none = 0 ∧
    supportsRenegotiation env none = some false ∧ getContext none = none ∧ isErrorFatalN none rc = true ∧
    getNudgeTimeN none = 0 ∧ getEffectivePmtuN none = 1350 ∧ getCurrentProtocol v none = .none ∧ getTlsName name none = none ∧
    isValidClientN ctx none = .nullPointer ∧ isValidServerN ctx none = .nullPointer ∧
    isCaSetN none = false ∧ isServerDnSetN none = false ∧ isCbSetN k none = false ∧
    clientConnectN env r none = (none, .nullPointer) ∧ clientDisconnectN env none = (none, .nullPointer) ∧
    clientConfigValidN none = .nullPointer ∧ registerN ch none = (ch, .nullPointer) ∧
    registerN [] (some p) = ([], .nullPointer) := by
  simp [getState, getUsername, usernameSet, passwordSet, authTokenSet, authBufferSet, getOutsideMtu, outsideMtuSet,
    getProtocolVersion, getSessionId, getPendingSessionId, supportsRenegotiation, getContext, isErrorFatalN, getNudgeTimeN,
    getEffectivePmtuN, maxMtu, getCurrentProtocol, getTlsName, isValidClientN, isValidServerN, isCaSetN, isServerDnSetN, isCbSetN,
    clientConnectN, clientDisconnectN, clientConfigValidN, registerN, Chain.register]

/-- **C104 (exceptions).** Three functions do not do what the rest do: `he_ssl_ctx_is_server_cert_key_set(NULL)` says that a
certificate is set, `he_ssl_ctx_get_padding_type(NULL)` returns a number that is no padding type, and
`he_conn_is_valid_client(NULL, conn)` finds the configuration of any connection with credentials and MTU but no version set
valid, although connecting with that NULL context is refused. -/
theorem C104_exceptions (env : Env) (h : HostConn) (i o : Chain)
    (hm : isOutsideMtuSet h.conn = true) (hu : isUsernameSet h.conn = true) (hp : isPasswordSet h.conn = true)
    (hb : isAuthBufferSet h.conn = false) (hv : h.conn.verMajor = 0) :
    isCertKeySetN none = true ∧ (∀ c : CtxObj, getPaddingN none ≠ getPaddingN (some c)) ∧
    isValidClientN none (some h.conn) = .success ∧
    (callN env (some h) (.clientConnect none i o)).2 = .nullPointer := by
  refine ⟨rfl, ?_, ?_, rfl⟩
  · intro c
    simp only [getPaddingN]
    cases c.base.padding <;> simp
  · simp [isValidClientN, hm, hu, hp, hb, hv]

/-- **C104.** With NULL for the context, the two validity checks answer for a connection with no version set as they do with
any context; with a version set they never accept, and report the same failure as with any context that does not accept it
either. -/
theorem C104_valid_null_context (c : Conn) (ctx : SslCtx) :
    (c.verMajor = 0 → isValidClientN none (some c) = isValidClientN (some ctx) (some c) ∧
      isValidServerN none (some c) = isValidServerN (some ctx) (some c)) ∧
    (c.verMajor ≠ 0 →
      isValidClientN none (some c) = (if isValidClientN (some ctx) (some c) = .success then .incorrectProtocolVersion
        else isValidClientN (some ctx) (some c)) ∧
      isValidServerN none (some c) = (if isValidServerN (some ctx) (some c) = .success then .incorrectProtocolVersion
        else isValidServerN (some ctx) (some c))) := by
  simp only [isValidClientN, isValidServerN, isValidClient, isValidServer]
  constructor
  · intro h
    simp [h]
  · intro h
    constructor
    · rcases Bool.eq_false_or_eq_true (isAuthBufferSet c) with h1 | h1 <;>
        rcases Bool.eq_false_or_eq_true (isUsernameSet c) with h2 | h2 <;>
        rcases Bool.eq_false_or_eq_true (isPasswordSet c) with h3 | h3 <;>
        rcases Bool.eq_false_or_eq_true (isOutsideMtuSet c) with h4 | h4 <;>
        rcases Bool.eq_false_or_eq_true (isLatestVersion ctx c.verMajor c.verMinor) with h5 | h5 <;>
        simp [h, h1, h2, h3, h4, h5]
    · rcases Bool.eq_false_or_eq_true (isOutsideMtuSet c) with h4 | h4 <;>
        rcases Bool.eq_false_or_eq_true (isSupportedVersion ctx c.verMajor c.verMinor) with h5 | h5 <;>
        simp [h, h4, h5]

/-- **C104.** The protocol and the names the TLS library reports are passed on once a TLS object exists, and only then. -/
theorem C104_tls_getters (c : Conn) (v : TlsVer) (name : Option Bytes) :
    (c.wolfSet = true → getTlsName name (some c) = name ∧ (getCurrentProtocol v (some c) = .tls13 ↔ v = .tls13) ∧
      (getCurrentProtocol v (some c) = .dtls12 ↔ v = .dtls12) ∧ (getCurrentProtocol v (some c) = .dtls13 ↔ v = .dtls13)) ∧
    (c.wolfSet = false → getTlsName name (some c) = none ∧ getCurrentProtocol v (some c) = .none) := by
  constructor
  · intro h
    cases v <;> simp [getTlsName, getCurrentProtocol, h]
  · intro h
    simp [getTlsName, getCurrentProtocol, h]

/-- **C104.** Over any history of calls on a context, registrations of callbacks and NULL arguments among them: it is as if the
host had made only the calls without NULL arguments – every theorem about `ctxRun` (C84, C85) applies to it. -/
theorem C104_ctx_null_calls_are_no_calls (t : TlsCtxEnv) (calls : List CtxHostCall) :
    runCtxN t (some {}) calls = some (ctxRun t (realCtxOps calls)).1 := by
  suffices h : ∀ (calls : List CtxHostCall) (o : CtxObj),
      runCtxN t (some o) calls = some (CtxObj.runFrom t o (realCtxOps calls)).1 from h calls {}
  intro calls
  induction calls with
  | nil => intro o; rfl
  | cons c calls ih =>
    intro o
    cases c with
    | register k p => exact ih _
    | call c =>
      cases c
      case setServerDn s => cases s <;> exact ih _
      case setCa b _ => cases b <;> exact ih _
      case setCertKey c k => cases c <;> cases k <;> exact ih _
      all_goals exact ih _

/-- **C104.** A call on a connection with real pointers is the call on the library's state: its effect and its answer; the
context pointer stays.  Setting the context pointer succeeds and changes nothing else. -/
theorem C104_real_call (env : Env) (h : HostConn) (call : CallN) :
    (∀ op, realOps [call] = [op] →
      callN env (some h) call = (some ⟨(step env h.conn op).1, h.data⟩, (step env h.conn op).2)) ∧
    (∀ p, call = .setContext (some p) → callN env (some h) call = (some ⟨h.conn, some p⟩, .success)) := by
  constructor
  · intro op hop
    cases call
    case clientConnect ctx i o => cases ctx <;> simp [realOps] at hop <;> subst hop <;> rfl
    case serverConnect ctx i o => cases ctx <;> simp [realOps] at hop <;> subst hop <;> rfl
    case insidePacket b => cases b <;> simp [realOps] at hop <;> subst hop <;> rfl
    case outsideData b r => cases b <;> simp [realOps] at hop <;> subst hop <;> rfl
    case sendServerConfig b => cases b <;> simp [realOps] at hop <;> subst hop <;> rfl
    case setUsername b => cases b <;> simp [realOps] at hop <;> subst hop <;> rfl
    case setPassword b => cases b <;> simp [realOps] at hop <;> subst hop <;> rfl
    case setAuthToken b => cases b <;> simp [realOps] at hop <;> subst hop <;> rfl
    case setAuthBuffer b => cases b <;> simp [realOps] at hop <;> subst hop <;> rfl
    case setSni b => cases b <;> simp [realOps] at hop <;> subst hop <;> rfl
    case setContext p => cases p <;> simp [realOps] at hop
    all_goals (simp [realOps] at hop; subst hop; rfl)
  · intro p e
    subst e; rfl

/-- **C104.** With real pointers the functions returning a value give the object's: the questions answered in C84 and C90, the
time and MTU of the connection, and a registered plugin is in the chain. -/
theorem C104_real_values (o : CtxObj) (c : Conn) (k : CbKind) (rc : RC) (ch : Chain) (p : Plugin) (ctx : SslCtx) :
    isCaSetN (some o) = o.isCaSet ∧ isServerDnSetN (some o) = isServerDnSet o.base ∧ isCbSetN k (some o) = o.isCbSet k ∧
    isCertKeySetN (some o) = o.isCertKeySet ∧ isErrorFatalN (some c) rc = isErrorFatal c.connType rc ∧
    getNudgeTimeN (some c) = getNudgeTime c ∧ getEffectivePmtuN (some c) = effectivePmtu c ∧
    isValidClientN (some ctx) (some c) = isValidClient ctx c ∧ isValidServerN (some ctx) (some c) = isValidServer ctx c ∧
    registerN ch (some p) = ch.register p :=
  ⟨rfl, rfl, rfl, rfl, rfl, rfl, rfl, rfl, rfl, rfl⟩

/-- **C104.** A call on a context with real pointers is the call on the object: its effect and its answer. -/
theorem C104_ctx_real_call (t : TlsCtxEnv) (o : CtxObj) (call : CtxCallN) (hn : false ∉ ctxPointers call) (op : CtxOp)
    (hop : realCtxOps [.call call] = [op]) : ctxCallN t (some o) call = (some (o.step t op).1, (o.step t op).2) := by
  cases call
  case setServerDn s => cases s <;> simp [realCtxOps] at hop <;> subst hop <;> rfl
  case setCa b _ => cases b <;> simp [realCtxOps] at hop <;> subst hop <;> rfl
  case setCertKey c k => cases c <;> cases k <;> simp [realCtxOps] at hop <;> subst hop <;> rfl
  case stop => cases hop
  all_goals (simp [realCtxOps] at hop; subst hop; rfl)

/-- **C104.** The padding type set is the one reported, by its number in the header. -/
theorem C104_padding_reported (t : TlsCtxEnv) (o : CtxObj) (p : Padding) :
    (ctxCallN t (some o) (.setPadding p)).2 = .success ∧ getPaddingN (ctxCallN t (some o) (.setPadding p)).1 = paddingNumber p := by
  cases p <;> exact ⟨rfl, rfl⟩

/-- **C104.** Connecting, disconnecting and checking a client act on its own context, connection and chains, and on nothing else:
disconnecting is `he_conn_disconnect` on its connection; connecting starts its context and, if that succeeded, is
`he_conn_client_connect` on its connection with the started context and its chains. -/
theorem C104_client_real_call (env : Env) (r : StartRes) (cl : Client) :
    (∃ cl', clientDisconnectN env (some cl) = (some cl', (step env cl.conn .disconnect).2) ∧ cl'.ctx = cl.ctx ∧
      cl'.inside = cl.inside ∧ cl'.outside = cl.outside ∧ cl'.conn = (step env cl.conn .disconnect).1) ∧
    (∃ cl', (clientConnectN env r (some cl)).1 = some cl' ∧ cl'.ctx = (ctxStart cl.ctx r).1 ∧
      cl'.inside = cl.inside ∧ cl'.outside = cl.outside ∧
      ((ctxStart cl.ctx r).2 ≠ .success → cl'.conn = cl.conn ∧ (clientConnectN env r (some cl)).2 = (ctxStart cl.ctx r).2) ∧
      ((ctxStart cl.ctx r).2 = .success →
        (cl'.conn, (clientConnectN env r (some cl)).2) = step env cl.conn (.clientConnect cl'.ctx cl.inside cl.outside))) ∧
    clientConfigValidN (some cl) = cl.isConfigValid := by
  refine ⟨⟨_, rfl, rfl, rfl, rfl, rfl⟩, ⟨_, rfl, ?_⟩, rfl⟩
  unfold clientConnectN Client.connect
  by_cases h : (ctxStart cl.ctx r).2 ≠ .success
  · dsimp only
    rw [if_pos h]
    exact ⟨rfl, rfl, rfl, fun _ => ⟨rfl, rfl⟩, fun h' => absurd h' h⟩
  · dsimp only
    rw [if_neg h]
    exact ⟨rfl, rfl, rfl, fun h' => absurd h' h, fun _ => rfl⟩

/-- **C104.** Starting and stopping the library succeeds exactly when the TLS library's own start and stop do, and otherwise each
fails with its own code. -/
theorem C104_init_cleanup (ok : Bool) :
    (heInit ok = .success ↔ ok = true) ∧ (heInit ok = .initFailed ↔ ok = false) ∧
    (heCleanup ok = .success ↔ ok = true) ∧ (heCleanup ok = .cleanupFailed ↔ ok = false) := by
  cases ok <;> decide

namespace Demo

/-- C104: NULL calls between the calls of a client that goes online; the context pointer survives. -/
def nullCalls : List CallN :=
  [ .setContext (some 7), .setUsername none, .setUsername (some [106, 111, 101]), .setContext none, .setPassword (some [112, 119]),
    .setAuthToken none, .setOutsideMtu 1500, .clientConnect none [] [], .clientConnect (some ctx) [] [], .insidePacket none,
    .outsideData none [], .outsideData (some (dgram [1, 2, 3])) [],
    .outsideData (some (dgram [9])) [msg (configIpv4Msg 4242 netCfg)], .sendServerConfig none ]

example : contexts nullCalls = [7] ∧ (realOps nullCalls).map Op.api = clientOps.map Op.api ∧
    getContext (runN env (some { conn := Conn.create }) nullCalls) = some 7 ∧
    (runN env (some { conn := Conn.create }) nullCalls).map (fun h => h.conn.state) = some .online := by decide +kernel

/-- C104: NULL calls between the calls on a context. -/
example : (realCtxOps [.call (.setCa none 3), .register .event (some 9), .call (.setCertKey (some 1) none), .call (.setPadding .full),
      .call .stop, .call (.setCertKey (some 1) (some 2))]) = [.setCb .event (some 9), .setPadding .full, .setCertKey 1 2] ∧
    (runCtxN (fun _ _ => .ok) (some {}) [.call (.setCertKey (some 1) none), .call (.setCertKey (some 1) (some 2))]).map
      (fun o => (o.cert, o.key)) = some (some 1, some 2) := by decide +kernel

/-- C104: a call with a NULL argument; the hypotheses of `C104_exceptions`. -/
example : NullArg (some { conn := Conn.create }) (.setSni none) ∧
    (let c := run env [.setUsername [106], .setPassword [112], .setOutsideMtu 1500]
     isOutsideMtuSet c = true ∧ isUsernameSet c = true ∧ isPasswordSet c = true ∧ isAuthBufferSet c = false ∧
       c.verMajor = 0) := by
  refine ⟨.inr (by simp [pointers]), by decide +kernel⟩

end Demo

end Lightway
