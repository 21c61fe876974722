import Verif.Model.Flow
import Verif.Model.SslCtxM

/-!
# The public API of src/he/conn.c as operations on one connection
`step` brackets each call with `.api` and `.ret` markers.
-/

namespace Lightway

/-- `he_conn_is_error_fatal`. src/he/conn.c:35-83 -/
def isErrorFatal (ty : ConnType) (rc : RC) : Bool :=
  match ty with
  | .stream =>
    match rc with
    | .success | .sslErrorNonfatal | .wantRead | .wantWrite | .notConnected => false
    | _ => true
  | .datagram =>
    match rc with
    | .success | .invalidConnState | .sslErrorNonfatal | .wantRead | .wantWrite
    | .secureRenegotiationError | .notConnected | .emptyPacket | .packetTooSmall | .notHePacket
    | .unsupportedPacketType | .badPacket | .badFragment | .unknownSession => false
    | _ => true

/-- `he_conn_is_username_set`, `..password_set`, `..auth_buffer_set`, `..outside_mtu_set`.
src/he/conn.c:964-990, 1040-1047, 1074-1081 -/
def isUsernameSet (c : Conn) : Bool := !configIsEmptyString c.username
def isPasswordSet (c : Conn) : Bool := !configIsEmptyString c.password
def isAuthBufferSet (c : Conn) : Bool := c.authBufferLength ≠ 0
def isOutsideMtuSet (c : Conn) : Bool := c.outsideMtu > 0

/-- `he_conn_is_valid_client`. src/he/conn.c:85-113 -/
def isValidClient (ctx : SslCtx) (c : Conn) : RC :=
  let auth : RC :=
    if !isAuthBufferSet c then
      if !isUsernameSet c then .confUsernameNotSet
      else if !isPasswordSet c then .confPasswordNotSet
      else .success
    else if isUsernameSet c then .confConflictingAuthMethods
    else .success
  if auth ≠ .success then auth
  else if !isOutsideMtuSet c then .confMtuNotSet
  else if c.verMajor ≠ 0 ∧ !isLatestVersion ctx c.verMajor c.verMinor then .incorrectProtocolVersion
  else .success

/-- `he_conn_is_valid_server`. src/he/conn.c:115-131 -/
def isValidServer (ctx : SslCtx) (c : Conn) : RC :=
  if !isOutsideMtuSet c then .confMtuNotSet
  else if c.verMajor ≠ 0 ∧ !isSupportedVersion ctx c.verMajor c.verMinor then
    .incorrectProtocolVersion
  else .success

/-- `he_internal_conn_configure`. src/he/conn.c:155-200.  The two allocations of the fragment table
are one oracle answer. -/
def configure (env : Env) (c : Conn) (ctx : SslCtx) : Conn × RC :=
  let c := { c with
    disableRoaming := ctx.disableRoaming
    padding := ctx.padding
    aggressive := ctx.aggressive
    usePqc := ctx.usePqc
    connType := ctx.connType
    verMajor := if c.verMajor = 0 then ctx.maxMajor else c.verMajor
    verMinor := if c.verMajor = 0 then ctx.maxMinor else c.verMinor
    cbs := ctx.cbs
    pingNextId := 1 }
  let c := c.emit (.callbacks ctx.cbs)
  let ok := env.alloc c.log
  let c := (c.emit (.alloc ok)).emit (.table ctx.maxFragEntries)
  if ok then ({ c with fragTable := some (FragTable.create ctx.maxFragEntries) }, .success)
  else ({ c with fragTable := none }, .noMemory)

/-- Set-up that depends on the connection type. src/he/conn.c:225-264.  `none` means continue. -/
def setupType (env : Env) (c : Conn) (ctx : SslCtx) : Conn × Option RC :=
  match ctx.connType with
  | .datagram =>
    let (c, r) := sslDo env c (.setMtu (c.outsideMtu - packetOverhead + 37))
    if !r.ok then (c, some .invalidMtuSize)
    else if c.isServer then
      let (c, r) := sslDo env c .allowChFrag
      if !r.ok then (c, some .cannotEnableChFrag) else (c, none)
    else (c, none)
  | .stream =>
    if !c.isServer ∧ cstr c.sniHostname ≠ [] then
      let (c, r) := sslDo env c (.useSNI (cstr c.sniHostname))
      if !r.ok then
        (c, some (match r.err with
          | .memory => .sslOutOfMemory
          | .badFuncArg => .sslError
          | _ => .failed))
      else (c, none)
    else (c, none)

/-- Domain-name check. src/he/conn.c:271-277 -/
def setupDn (env : Env) (c : Conn) (ctx : SslCtx) : Conn × Option RC :=
  if isServerDnSet ctx then
    let (c, r) := sslDo env c (.checkDomainName (cstr ctx.serverDn))
    if !r.ok then (c, some .initFailed) else (c, none)
  else (c, none)

/-- Post-quantum key share. src/he/conn.c:279-287 -/
def setupPqc (env : Env) (c : Conn) : Conn × Option RC :=
  if !c.isServer ∧ c.usePqc then
    let (c, r) := sslDo env c .useKeyShare
    if !r.ok then (c, some .initFailed) else (c, none)
  else (c, none)

/-- Set-up of the TLS object before negotiation. src/he/conn.c:220-287.  `none` means continue. -/
def setupSsl (env : Env) (c : Conn) (ctx : SslCtx) : Conn × Option RC :=
  let n := (env.ssl c.log .new).ok
  let c := { c.emit (.sslCall .new n) with wolfSet := n }
  if !n then (c, some .initFailed)
  else
    match setupType env c ctx with
    | (c, some rc) => (c, some rc)
    | (c, none) =>
      match setupDn env c ctx with
      | (c, some rc) => (c, some rc)
      | (c, none) => setupPqc env c

/-- `he_conn_internal_connect`. src/he/conn.c:202-322 -/
def internalConnect (env : Env) (c : Conn) (ctx : SslCtx) (inside outside : Chain) : Conn × RC :=
  let (c, rc) := configure env c ctx
  let c := { c.emit (.chains inside.plugins outside.plugins) with
             insidePlugins := inside, outsidePlugins := outside }
  if rc ≠ .success then (c, rc)
  else
    match setupSsl env c ctx with
    | (c, some rc) => (c, rc)
    | (c, none) =>
      let c := changeState env c .connecting
      let (c, r) := sslDo env c .negotiate
      if !r.ok then
        match r.err with
        | .wantRead | .wantWrite =>
          (updateTimeout env (changeState env c .connecting), .success)
        | _ => (c, .connectFailed)
      else (updateTimeout env (changeState env c .linkUp), .success)

/-- `he_conn_client_connect`. src/he/conn.c:324-341 -/
def clientConnect (env : Env) (c : Conn) (ctx : SslCtx) (inside outside : Chain) : Conn × RC :=
  let rc := isValidClient ctx c
  if rc ≠ .success then (c, rc)
  else internalConnect env { c.emit (.role false) with isServer := false } ctx inside outside

/-- `he_conn_server_connect`. src/he/conn.c:343-376 -/
def serverConnect (env : Env) (c : Conn) (ctx : SslCtx) (inside outside : Chain) : Conn × RC :=
  let rc := isValidServer ctx c
  if rc ≠ .success then (c, rc)
  else
    let (c, rc) := internalConnect env { c.emit (.role true) with isServer := true } ctx inside outside
    if rc ≠ .success then (c, rc)
    else
      match generateSessionId env c with
      | (c, none) => (c, .rngFailure)
      | (c, some s) => ({ c with sessionId := s }, .success)

/-- `he_conn_disconnect`. src/he/conn.c:378-415 -/
def disconnect (env : Env) (c : Conn) : Conn × RC :=
  if !c.wolfSet then (c, .neverConnected)
  else if c.state = .disconnecting ∨ c.state = .none ∨ c.state = .connecting ∨
      c.state = .disconnected then (c, .invalidConnState)
  else
    let c := setState c .disconnecting
    let c := sendGoodbye env c
    let c := (sslDo env c .shutdown).1
    let c := { c.emit (.timer 0) with cbs := { c.cbs with insideWrite := false, outsideWrite := false },
                                      wolfTimeout := 0 }
    let c := c.emit (.callbacks c.cbs)
    (setState c .disconnected, .success)

/-- The keepalive PING message. src/he/conn.c:513-522 -/
def pingMsg (id : Nat) : Bytes := [msgPing] ++ be16 id ++ [0, 0]

/-- `he_conn_send_keepalive`. src/he/conn.c:503-530 -/
def keepalive (env : Env) (c : Conn) : Conn × RC :=
  if c.state ≠ .online then (c, .invalidConnState)
  else
    let id := c.pingNextId
    let c := { c with pingNextId := (id + 1) % 65536 }
    let (c, rc) := sendMessage env c (pingMsg id)
    if rc = .success then ({ c with pingPendingId := id }, rc) else (c, rc)

/-- The SERVER_CONFIG message. src/he/conn.c:577-579 -/
def serverConfigMsg (buf : Bytes) : Bytes := [msgServerConfig] ++ be16 buf.length ++ buf

/-- `he_conn_send_server_config`. src/he/conn.c:550-583 -/
def sendServerConfig (env : Env) (c : Conn) (buf : Bytes) : Conn × RC :=
  if !c.isServer then (c, .invalidConnState)
  else if !validStateForServerConfig c then (c, .invalidConnState)
  else if buf.length > maxMtu - 3 then (c, .packetTooLarge)
  else sendMessage env c (serverConfigMsg buf)

/-- `he_conn_schedule_renegotiation`. src/he/conn.c:696-704 -/
def scheduleReneg (c : Conn) : Conn × RC := ({ c with renegDue := true }, .success)

/-- `he_conn_nudge`. src/he/conn.c:807-845 -/
def nudge (env : Env) (c : Conn) : Conn × RC :=
  let c := { c with nudgeTimerRunning := false }
  if c.state = .authenticating then (updateTimeout env (sendAuth env c).1, .success)
  else
    let (c, r) := sslDo env c .gotTimeout
    if !r.ok then
      match r.err with
      | .wantRead | .wantWrite => (updateTimeout env c, .success)
      | _ => (setState c .disconnected, .connectionTimedOut)
    else (updateTimeout env c, .success)

/-- `he_conn_get_nudge_time`. src/he/conn.c:795-805 -/
def getNudgeTime (c : Conn) : Int :=
  if c.state = .online ∧ !c.renegInProgress then 0 else c.wolfTimeout

/-- `he_conn_rotate_session_id`. src/he/conn.c:883-907 -/
def rotateSession (env : Env) (c : Conn) : Conn × RC :=
  if !c.isServer ∨ c.pendingSessionId ≠ 0 then (c, .invalidConnState)
  else
    match generateSessionId env c with
    | (c, none) => (c, .rngFailure)
    | (c, some s) => ({ c with pendingSessionId := s }, .success)

/-- `he_conn_set_protocol_version`. src/he/conn.c:921-930 -/
def setProtocolVersion (c : Conn) (maj min : UInt8) : Conn × RC :=
  ({ c with verMajor := maj, verMinor := min }, .success)

/-- `he_conn_set_username`. src/he/conn.c:945-953 -/
def setUsername (c : Conn) (s : Bytes) : Conn × RC :=
  let r := setConfigString c.username s
  ({ c with authType := authUserPassTy, username := r.1 }, r.2)

/-- `he_conn_set_password`. src/he/conn.c:973-981 -/
def setPassword (c : Conn) (s : Bytes) : Conn × RC :=
  let r := setConfigString c.password s
  ({ c with authType := authUserPassTy, password := r.1 }, r.2)

/-- `he_conn_set_auth_token`. src/he/conn.c:992-1009 -/
def setAuthToken (c : Conn) (tok : Bytes) : Conn × RC :=
  if tok.length = 0 then (c, .emptyString)
  else if tok.length ≥ maxMtu then (c, .stringTooLong)
  else
    match wr c.authBuffer 0 tok with
    | none => (c.ub "set_auth_token", .failed)
    | some b => ({ c with authType := authTokenTy, authBuffer := b,
                          authBufferLength := tok.length }, .success)

/-- `he_conn_set_auth_buffer2`. src/he/conn.c:1020-1038 -/
def setAuthBuffer (c : Conn) (buf : Bytes) : Conn × RC :=
  if buf.length = 0 then (c, .emptyString)
  else if buf.length > maxMtu - 4 then (c, .stringTooLong)
  else
    match wr c.authBuffer 0 buf with
    | none => (c.ub "set_auth_buffer", .failed)
    | some b => ({ c with authType := authCbTy, authBuffer := b,
                          authBufferLength := buf.length }, .success)

/-- `he_conn_set_outside_mtu`. src/he/conn.c:1049-1063 (`uint16_t` argument) -/
def setOutsideMtu (c : Conn) (mtu : UInt16) : Conn × RC :=
  if mtu.toNat ≤ packetOverhead then (c, .invalidMtuSize)
  else ({ c with outsideMtu := mtu.toNat }, .success)

/-- `he_conn_set_session_id`. src/he/conn.c:1156-1167 -/
def setSessionId (c : Conn) (s : UInt64) : Conn × RC :=
  if c.sessionId ≠ 0 then (c, .invalidConnState) else ({ c with sessionId := s.toNat }, .success)

/-- `he_conn_set_sni_hostname`. src/he/conn.c:133-141 -/
def setSni (c : Conn) (s : Bytes) : Conn × RC :=
  ({ c with sniHostname := strncpy c.sniHostname s maxHostnameLen }, .success)

/-- `he_conn_start_pmtu_discovery`. src/he/conn.c:1206-1223 -/
def startPmtud (env : Env) (c : Conn) : Conn × RC :=
  if c.state ≠ .online then (c, .invalidConnState)
  else if !c.cbs.pmtudState ∨ !c.cbs.pmtudTime then (c, .pmtudCallbacksNotSet)
  else if c.pmtud.state ≠ .disabled then (c, .success)
  else startBaseProbing env c

/-- `he_conn_pmtud_probe_timeout`. src/he/conn.c:1232-1237 -/
def pmtudTimeout (env : Env) (c : Conn) : Conn × RC := handleProbeTimeout env c

/-- The calls a host can make on one connection. -/
inductive Op
  | clientConnect (ctx : SslCtx) (inside outside : Chain)
  | serverConnect (ctx : SslCtx) (inside outside : Chain)
  | disconnect
  | insidePacket (pkt : Bytes)
  | outsideData (buf : Bytes) (reads : List ReadRes)
  | nudge
  | keepalive
  | sendServerConfig (buf : Bytes)
  | scheduleReneg
  | rotateSession
  | startPmtud
  | pmtudTimeout
  | setUsername (s : Bytes)
  | setPassword (s : Bytes)
  | setAuthToken (tok : Bytes)
  | setAuthBuffer (buf : Bytes)
  | setOutsideMtu (mtu : UInt16)
  | setProtocolVersion (maj min : UInt8)
  | setSessionId (s : UInt64)
  | setSni (s : Bytes)

/-- The marker of a call. -/
def Op.api : Op → Api
  | .clientConnect .. => .clientConnect
  | .serverConnect .. => .serverConnect
  | .disconnect => .disconnect
  | .insidePacket _ => .insidePacket
  | .outsideData .. => .outsideData
  | .nudge => .nudge
  | .keepalive => .keepalive
  | .sendServerConfig _ => .sendServerConfig
  | .scheduleReneg => .scheduleReneg
  | .rotateSession => .rotateSession
  | .startPmtud => .startPmtud
  | .pmtudTimeout => .pmtudTimeout
  | _ => .setter

/-- The body of a call. -/
def exec (env : Env) (c : Conn) : Op → Conn × RC
  | .clientConnect ctx i o => clientConnect env c ctx i o
  | .serverConnect ctx i o => serverConnect env c ctx i o
  | .disconnect => disconnect env c
  | .insidePacket p => insidePacket env c p
  | .outsideData b rs => outsideData env c b rs
  | .nudge => nudge env c
  | .keepalive => keepalive env c
  | .sendServerConfig b => sendServerConfig env c b
  | .scheduleReneg => scheduleReneg c
  | .rotateSession => rotateSession env c
  | .startPmtud => startPmtud env c
  | .pmtudTimeout => pmtudTimeout env c
  | .setUsername s => setUsername c s
  | .setPassword s => setPassword c s
  | .setAuthToken t => setAuthToken c t
  | .setAuthBuffer b => setAuthBuffer c b
  | .setOutsideMtu m => setOutsideMtu c m
  | .setProtocolVersion a b => setProtocolVersion c a b
  | .setSessionId s => setSessionId c s
  | .setSni s => setSni c s

/-- One API call with its markers. -/
def step (env : Env) (c : Conn) (op : Op) : Conn × RC :=
  let r := exec env (c.emit (.api op.api)) op
  (r.1.emit (.ret r.2), r.2)

/-- A whole history of API calls on a fresh connection. -/
def run (env : Env) (ops : List Op) : Conn :=
  ops.foldl (fun c op => (step env c op).1) Conn.create

end Lightway
