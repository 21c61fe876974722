import Verif.Model.Api

/-!
# Calls made from inside callbacks
The functions of the model again, with the host allowed to call the library from inside its callbacks: `k` is what such
calls do to the connection.  It is applied after every callback that receives the connection, except the outside write
callback (which runs inside the TLS library).  A callback that is not installed gives the host no such opportunity.
Plugins do not receive the connection.  `stepR` with `k = id` is `step` (`stepR_id` in Proofs/ReenterId).

The functions that make no callback are those of the main model.  Values that the C code keeps in local variables
across a callback are bound before it; everything else is read again from the connection.
-/

namespace Lightway

/-- What calls made from inside a callback do to the connection. -/
abbrev Hook := Conn → Conn

/-- `he_internal_change_conn_state` without the LINK_UP hook. src/he/conn.c:417-433 -/
def setStateR (k : Hook) (c : Conn) (s : ConnState) : Conn :=
  if c.state = s then c
  else
    let n := c.cbs.stateChange
    let c := { c with state := s, log := .state s n :: c.log }
    if n then k c else c

/-- `he_internal_generate_event`. src/he/conn.c:856-866 -/
def generateEventR (k : Hook) (c : Conn) (e : Event) : Conn :=
  let n := c.cbs.event
  let c := c.emit (.event e n)
  if n then k c else c

/-- `he_internal_send_auth`. src/he/conn.c:670-694 with 585-668 -/
def sendAuthR (k : Hook) (env : Env) (c : Conn) : Conn × RC :=
  if c.state ≠ .linkUp ∧ c.state ≠ .authenticating then (c, .invalidConnState)
  else
    let c := setStateR k c .authenticating
    if c.authType = authUserPassTy then sendMessage env c (authUserPassMsg c)
    else if c.authType = authTokenTy then
      if 4 + c.authBufferLength > maxWireMtu then (c, .invalidConnState)
      else sendMessage env c (authBufMsg authTokenTy (c.authBuffer.take c.authBufferLength))
    else if c.authType = authCbTy then
      if 4 + c.authBufferLength > maxMtu then (c, .invalidConnState)
      else sendMessage env c (authBufMsg authCbTy (c.authBuffer.take c.authBufferLength))
    else (c, .invalidAuthType)

/-- `he_internal_change_conn_state`. src/he/conn.c:417-447 -/
def changeStateR (k : Hook) (env : Env) (c : Conn) (s : ConnState) : Conn :=
  if c.state = s then c
  else
    let c := setStateR k c s
    if s = .linkUp ∧ !c.isServer then (sendAuthR k env c).1 else c

/-- `he_internal_update_timeout`. src/he/conn.c:758-793: the flag is set after the callback. -/
def updateTimeoutR (k : Hook) (env : Env) (c : Conn) : Conn :=
  if c.state = .online ∧ !c.renegInProgress then c
  else
    let (c, r) := sslDo env c .currentTimeout
    let t : Int := r.val * 100
    let (c, v) := sslVer env c
    let (c, t) :=
      if v ≠ .dtls12 then
        let (c, q) := sslDo env c .quickTimeout
        (c, if q.ok then t.tdiv 4 else t)
      else (c, t)
    let c := { c.emit (.timer t) with wolfTimeout := t }
    if c.cbs.nudgeTime ∧ !c.nudgeTimerRunning then
      { k (c.emit (.nudgeTime t)) with nudgeTimerRunning := true }
    else c

/-- `he_internal_renegotiate_ssl`. src/he/conn.c:706-756 -/
def renegotiateSslR (k : Hook) (env : Env) (c : Conn) : Conn × RC :=
  let c := { c with renegDue := false }
  if c.renegInProgress ∨ c.state ≠ .online then (c, .success)
  else
    let (c, v) := sslVer env c
    let go (c : Conn) (r : SslRes) : Conn × RC :=
      let c := { c with renegInProgress := true }
      let c := generateEventR k c .renegStarted
      if r.ok then (c, .success)
      else
        match r.err with
        | .none | .wantRead | .wantWrite | .appDataReady => (updateTimeoutR k env c, .success)
        | .secureReneg => (c, .secureRenegotiationError)
        | e => ({ c with wolfError := e }, .sslError)
    if v = .dtls12 then
      let (c, s) := sslDo env c .renegSupport
      if !s.ok then (c, .success)
      else
        let (c, r) := sslDo env c .rehandshake
        go c r
    else
      let (c, r) := sslDo env c .updateKeys
      go c r

/-- `he_internal_pmtud_change_state`. src/he/pmtud.c:37-45 -/
def pmtudChangeStateR (k : Hook) (c : Conn) (s : PmtudState) : Conn :=
  let c := { c with pmtud := { c.pmtud with state := s } }
  if c.cbs.pmtudState then k (c.emit (.pmtudState s)) else c

/-- One call of the PMTUD timer callback. -/
def pmtudTimeCbR (k : Hook) (env : Env) (c : Conn) (ms : Nat) : Conn × RC :=
  let rc := env.pmtudTime c.log ms
  (k (c.emit (.pmtudTime ms rc)), rc)

/-- `he_internal_pmtud_send_probe`. src/he/pmtud.c:47-94 -/
def sendProbeR (k : Hook) (env : Env) (c : Conn) (mtu : Nat) : Conn × RC :=
  if c.state ≠ .online then (c, .invalidConnState)
  else if mtu < minPlpmtu ∨ mtu > maxPlpmtu then (c, .invalidMtuSize)
  else
    let id := c.pingNextId
    let c := { c with pingNextId := (id + 1) % 65536,
                      pmtud := { c.pmtud with probeCount := (c.pmtud.probeCount + 1) % 256,
                                              probingSize := mtu } }
    let (c, rc) := sendMessage env c (probeMsg id mtu)
    let ms := if rc ≠ .success then 10 else 5000
    let c := if rc ≠ .success then c else { c with pmtud := { c.pmtud with pendingId := id } }
    let c := if c.cbs.pmtudTime then (pmtudTimeCbR k env c ms).1 else c
    (c, .success)

/-- `he_internal_pmtud_retry_probe`. src/he/pmtud.c:329-339 -/
def retryProbeR (k : Hook) (env : Env) (c : Conn) (ms : Nat) : Conn × RC :=
  let (c, rc) := if c.cbs.pmtudTime then pmtudTimeCbR k env c ms else (c, .pmtudCallbacksNotSet)
  ({ c with pmtud := { c.pmtud with probeCount := 0 } }, rc)

/-- `he_internal_pmtud_start_base_probing`. src/he/pmtud.c:202-231 -/
def startBaseProbingR (k : Hook) (env : Env) (c : Conn) : Conn × RC :=
  match c.pmtud.state with
  | .base => (c, .success)
  | .error => (c, .invalidConnState)
  | _ =>
    let c := pmtudChangeStateR k c .base
    let c := { c with pmtud := { c.pmtud with base := initialPlpmtu, probeCount := 0 } }
    sendProbeR k env c c.pmtud.base

/-- `he_internal_pmtud_base_confirmed`. src/he/pmtud.c:233-257 -/
def baseConfirmedR (k : Hook) (env : Env) (c : Conn) : Conn × RC :=
  if c.pmtud.state = .base ∨ c.pmtud.state = .error then
    let c := pmtudChangeStateR k c .searching
    let c := { c with pmtud := { c.pmtud with probeCount := 0, bigStep := true } }
    sendProbeR k env c (c.pmtud.base + 32)
  else (c, .invalidConnState)

/-- `he_internal_pmtud_confirm_base_failed`. src/he/pmtud.c:259-277 -/
def confirmBaseFailedR (k : Hook) (env : Env) (c : Conn) : Conn × RC :=
  if c.pmtud.state = .base then
    retryProbeR k env (pmtudChangeStateR k c .error) 60000
  else (c, .invalidConnState)

/-- `he_internal_pmtud_search_completed`. src/he/pmtud.c:279-301 -/
def searchCompletedR (k : Hook) (env : Env) (c : Conn) : Conn × RC :=
  if c.pmtud.state = .searching then
    let c := { c with pmtud := { c.pmtud with effective := min c.pmtud.probingSize maxPlpmtu } }
    retryProbeR k env (pmtudChangeStateR k c .searchComplete) 600000
  else (c, .invalidConnState)

/-- `he_internal_pmtud_blackhole_detected`. src/he/pmtud.c:303-327 -/
def blackholeDetectedR (k : Hook) (env : Env) (c : Conn) : Conn × RC :=
  if c.pmtud.state = .searching ∨ c.pmtud.state = .searchComplete then
    let c := pmtudChangeStateR k c .base
    let c := { c with pmtud := { c.pmtud with base := minPlpmtu, probeCount := 0 } }
    sendProbeR k env c c.pmtud.base
  else (c, .invalidConnState)

/-- `he_internal_pmtud_handle_probe_ack`. src/he/pmtud.c:96-146 -/
def handleProbeAckR (k : Hook) (env : Env) (c : Conn) (id : Nat) : Conn × RC :=
  if c.pmtud.pendingId ≠ id then (c, .success)
  else
    let c := if c.cbs.pmtudTime then (pmtudTimeCbR k env c 0).1 else c
    let c := { c with pmtud := { c.pmtud with pendingId := 0, probeCount := 0 } }
    match c.pmtud.state with
    | .base => baseConfirmedR k env c
    | .searching =>
      if c.pmtud.probingSize ≥ maxPlpmtu then searchCompletedR k env c
      else
        let sz := c.pmtud.probingSize + (if c.pmtud.bigStep then 32 else 8)
        ((sendProbeR k env c (min sz maxPlpmtu)).1, .success)
    | .error => baseConfirmedR k env c
    | .searchComplete => retryProbeR k env c 600000
    | .disabled => (c, .success)

/-- `he_internal_pmtud_handle_probe_timeout`. src/he/pmtud.c:148-200 -/
def handleProbeTimeoutR (k : Hook) (env : Env) (c : Conn) : Conn × RC :=
  if c.pmtud.probeCount < 3 then sendProbeR k env c c.pmtud.probingSize
  else
    let c := { c with pmtud := { c.pmtud with pendingId := 0, probeCount := 0 } }
    match c.pmtud.state with
    | .base =>
      if c.pmtud.probingSize = initialPlpmtu then sendProbeR k env c minPlpmtu
      else confirmBaseFailedR k env c
    | .searching =>
      if c.pmtud.bigStep then
        let c := { c with pmtud := { c.pmtud with bigStep := false } }
        sendProbeR k env c (c.pmtud.probingSize - 32 + 8)
      else if c.pmtud.probingSize ≤ c.pmtud.base then (c.ub "pmtud.c:184 assert", .failed)
      else
        let c := { c with pmtud := { c.pmtud with probingSize := c.pmtud.probingSize - 8 } }
        searchCompletedR k env c
    | .searchComplete => blackholeDetectedR k env c
    | .error => retryProbeR k env c 60000
    | .disabled => (c, .success)

/-- `he_handle_msg_pong`. src/he/msg_handlers.c:68-91 -/
def handlePongR (k : Hook) (env : Env) (c : Conn) (pkt : Bytes) : Conn × RC :=
  if pkt.length < 5 then (c, .success)
  else
    match rd pkt 1 2 with
    | none => (c.ub "pong", .failed)
    | some id =>
      if rdBe16 id = c.pingPendingId then (generateEventR k c .pong, .success)
      else ((handleProbeAckR k env c (rdBe16 id)).1, .success)

/-- `he_handle_msg_server_config`. src/he/msg_handlers.c:93-133 -/
def handleServerConfigR (k : Hook) (env : Env) (c : Conn) (pkt : Bytes) : Conn × RC :=
  if c.isServer then (c, .invalidConnState)
  else if !validStateForServerConfig c then (c, .invalidConnState)
  else if pkt.length < 3 then (c, .packetTooSmall)
  else
    match rd pkt 1 2 with
    | none => (c.ub "server_config", .failed)
    | some len =>
      if rdBe16 len > pkt.length - 3 then (c, .pointerWouldOverflow)
      else if !c.cbs.serverConfig then (c, .success)
      else
        match rd pkt 3 (rdBe16 len) with
        | none => (c.ub "server_config", .failed)
        | some buf =>
          let rc := env.serverConfig c.log buf
          let c := k (c.emit (.serverConfig buf rc))
          if rc ≠ .success then (c, .callbackFailed) else (c, .success)

/-- The part of `he_handle_msg_config_ipv4` after the checks. src/he/msg_handlers.c:184-204 -/
def applyConfigR (k : Hook) (env : Env) (c : Conn) (cfg : NetCfg) (session : Nat) : Conn × RC :=
  let c := { c with sessionId := session }
  let c := setStateR k c .configuring
  if c.cbs.netConfig then
    let rc := env.netConfig c.log cfg
    let c := k (c.emit (.netConfig cfg rc))
    if rc ≠ .success then (c, .callbackFailed)
    else (setStateR k c .online, .success)
  else (setStateR k c .online, .success)

/-- `he_handle_msg_config_ipv4`. src/he/msg_handlers.c:135-205 -/
def handleConfigIpv4R (k : Hook) (env : Env) (c : Conn) (pkt : Bytes) : Conn × RC :=
  if c.state = .online then (c, .success)
  else if c.isServer ∨ c.state ≠ .authenticating then (c, .invalidConnState)
  else if pkt.length < 105 then (c, .packetTooSmall)
  else
    match rd pkt 1 24, rd pkt 25 24, rd pkt 49 24, rd pkt 73 24, rd pkt 97 8, wr pkt 96 [0] with
    | some l, some p, some d, some m, some s, some _ =>
      applyConfigR k env c
        { localIp := copyIpField l, peerIp := copyIpField p, dnsIp := copyIpField d,
          mtu := configMtu (setNul m 23) } (rdLe s)
    | _, _, _, _, _, _ => (c.ub "config_ipv4", .failed)

/-- The `switch(msg->auth_type)`. src/he/msg_handlers.c:250-315 -/
def authSwitchR (k : Hook) (env : Env) (c : Conn) (pkt : Bytes) (ty : UInt8) : AuthOut :=
  if ty = authUserPassTy then
    if c.cbs.auth then
      if pkt.length < 104 then .ret c .packetTooSmall pkt
      else
        match rd pkt 4 50, rd pkt 54 50, wr pkt 54 (zeros 50) with
        | some u, some p, some pkt' =>
          let ok := env.authUserPass c.log u p
          let c := k (c.emit (.authUserPass u p ok))
          let c := { c with username := setNul (strncpy c.username u 50) 50 }
          .verdict c ok .accessDenied pkt'
        | _, _, _ => .ret (c.ub "auth userpass") .failed pkt
    else .verdict c false .accessDeniedNoAuthUserpassHandler pkt
  else if ty = authTokenTy then
    if c.cbs.authToken then
      if pkt.length ≤ 4 then .ret c .packetTooSmall pkt
      else
        match rd pkt 2 2 with
        | none => .ret (c.ub "auth token") .failed pkt
        | some len =>
          if rdBe16 len > pkt.length - 4 then .ret c .packetTooSmall pkt
          else
            match rd pkt 4 (rdBe16 len) with
            | none => .ret (c.ub "auth token") .failed pkt
            | some tok =>
              let ok := env.authToken c.log tok
              .verdict (k (c.emit (.authToken tok ok))) ok .accessDenied pkt
    else .verdict c false .accessDeniedNoAuthTokenHandler pkt
  else if ty = authCbTy then
    if c.cbs.authBuf then
      if pkt.length ≤ 4 then .ret c .packetTooSmall pkt
      else
        match rd pkt 2 2 with
        | none => .ret (c.ub "auth buf") .failed pkt
        | some len =>
          if rdBe16 len > pkt.length - 4 then .ret c .packetTooSmall pkt
          else
            match rd pkt 4 (rdBe16 len) with
            | none => .ret (c.ub "auth buf") .failed pkt
            | some buf =>
              let ok := env.authBuf c.log ty buf
              .verdict (k (c.emit (.authBuf ty buf ok))) ok .accessDenied pkt
    else .verdict c false .accessDeniedNoAuthBufHandler pkt
  else .verdict c false .accessDenied pkt

/-- `he_handle_msg_auth` after the switch. src/he/msg_handlers.c:317-363: a callback that was removed in between is a NULL
call. -/
def afterAuthR (k : Hook) (env : Env) (c : Conn) (ok : Bool) (rc : RC) (pkt : Bytes) : Conn × RC × Bytes :=
  if !ok then
    let c := sendAuthDenied env c
    (setStateR k c .disconnecting, rc, pkt)
  else if !c.cbs.populate then (c.ub "populate callback removed", .failed, pkt)
  else
    let r := env.populate c.log
    let session := c.sessionId
    let c := k (c.emit (.populate r.1))
    if r.1 ≠ .success then (sendAuthDenied env c, r.1, pkt)
    else
      let c := (sendMessage env c (configIpv4Msg session r.2)).1
      (setStateR k c .online, .success, pkt)

/-- `he_handle_msg_auth`. src/he/msg_handlers.c:217-364 -/
def handleAuthBufR (k : Hook) (env : Env) (c : Conn) (pkt : Bytes) : Conn × RC × Bytes :=
  if !c.isServer ∧ (c.state ≠ .linkUp ∧ c.state ≠ .online) then (c, .invalidConnState, pkt)
  else if !c.cbs.populate then (c, .invalidConnState, pkt)
  else if !c.cbs.auth ∧ !c.cbs.authToken ∧ !c.cbs.authBuf then (c, .invalidConnState, pkt)
  else if pkt.length < 2 then (c, .packetTooSmall, pkt)
  else
    match rd pkt 1 1 with
    | some [ty] =>
      match authSwitchR k env c pkt ty with
      | .ret c rc pkt => (c, rc, pkt)
      | .verdict c ok rc pkt => afterAuthR k env c ok rc pkt
    | _ => (c.ub "auth", .failed, pkt)

/-- `he_handle_msg_auth` without the buffer. -/
def handleAuthR (k : Hook) (env : Env) (c : Conn) (pkt : Bytes) : Conn × RC :=
  ((handleAuthBufR k env c pkt).1, (handleAuthBufR k env c pkt).2.1)

/-- `internal_handle_data`. src/he/msg_handlers.c:366-397 -/
def internalHandleDataR (k : Hook) (c : Conn) (pkt : Bytes) : Conn × RC :=
  let r := c.insidePlugins.egress c.log pkt pkt.length
  let c := { c with log := r.1 }
  if r.2.2 = .pluginDrop then (c, .success)
  else if r.2.2 ≠ .success then (c, .failed)
  else if r.2.1.length > pkt.length then (c, .failed)
  else if !ipv4Valid r.2.1 then (c, .badPacket)
  else if c.cbs.insideWrite then (k (c.emit (.insideWrite r.2.1)), .success)
  else (c, .success)

/-- `he_handle_msg_data`. src/he/msg_handlers.c:399-435 -/
def handleDataR (k : Hook) (c : Conn) (pkt : Bytes) : Conn × RC :=
  if c.state ≠ .online then (c, .invalidConnState)
  else if pkt.length < 3 then (c, .packetTooSmall)
  else
    match rd pkt 1 2 with
    | none => (c.ub "data", .failed)
    | some l =>
      let len := if c.verMajor = 1 ∧ c.verMinor = 0 then rdLe16 l else rdBe16 l
      if len > pkt.length - 3 then (c, .pointerWouldOverflow)
      else
        match rd pkt 3 len with
        | none => (c.ub "data", .failed)
        | some inner => internalHandleDataR k c inner

/-- `he_handle_msg_data_with_frag` after the table lookup. src/he/msg_handlers.c:478-502: after the delivery the entry is
deleted from the table the connection then has. -/
def fragApplyR (k : Hook) (env : Env) (c : Conn) (t : FragTable) (en : FragEntry) (id off : Nat) (last : Bool)
    (d : Bytes) : Conn × RC :=
  let now := env.now c.log
  let c := c.emit (.clock now)
  let en := if now - en.timestamp > 64 then { en.reset with timestamp := now } else en
  match en.update (env.alloc c.log) d off last with
  | none => (c.ub "frag", .failed)
  | some (en, rc, assembled) =>
    let c := { c with fragTable := some (t.set id en) }
    if rc ≠ .success then (c, rc)
    else if assembled then
      match en.nodes with
      | [] => (c.ub "frag", .failed)
      | hd :: _ =>
        match rd en.data 0 hd.e with
        | none => (c.ub "frag", .failed)
        | some p =>
          let r := internalHandleDataR k c p
          ({ r.1 with fragTable := r.1.fragTable.map (·.delete id) }, r.2)
    else (c, .success)

/-- `he_handle_msg_data_with_frag` after the header was parsed. src/he/msg_handlers.c:470-502 -/
def fragReceiveR (k : Hook) (env : Env) (c : Conn) (id off : Nat) (last : Bool) (d : Bytes) : Conn × RC :=
  match c.fragTable with
  | none => (c, .noMemory)
  | some t =>
    let fresh := (t.slot (id % t.num)).isNone
    let al := env.alloc c.log
    let c := if fresh then c.emit (.alloc al) else c
    let now := env.now c.log
    let c := if fresh && al then c.emit (.clock now) else c
    match t.find al now id with
    | (t, none) => ({ c with fragTable := some t }, .noMemory)
    | (t, some en) => fragApplyR k env { c with fragTable := some t } t en id off last d

/-- `he_handle_msg_data_with_frag`. src/he/msg_handlers.c:437-503 -/
def handleDataFragR (k : Hook) (env : Env) (c : Conn) (pkt : Bytes) : Conn × RC :=
  if c.state ≠ .online then (c, .invalidConnState)
  else if pkt.length < 7 then (c, .packetTooSmall)
  else
    match rd pkt 1 2, rd pkt 3 2, rd pkt 5 2 with
    | some l, some i, some o =>
      let len := rdBe16 l
      if len > pkt.length - 7 then (c, .pointerWouldOverflow)
      else
        let off := rdBe16 o % 8192 * 8
        if off + len > maxWireMtu then (c, .pointerWouldOverflow)
        else
          match rd pkt 7 len with
          | none => (c.ub "data_frag", .failed)
          | some d => fragReceiveR k env c (rdBe16 i) off (rdBe16 o / 8192 % 2 = 0) d
    | _, _, _ => (c.ub "data_frag", .failed)

/-- `he_handle_msg_deprecated_13`. src/he/msg_handlers.c:505-533 -/
def handleDeprecated13R (k : Hook) (c : Conn) (pkt : Bytes) : Conn × RC :=
  if c.state ≠ .online then (c, .invalidConnState)
  else if pkt.length < 5 then (c, .packetTooSmall)
  else
    match rd pkt 1 2 with
    | none => (c.ub "deprecated_13", .failed)
    | some l =>
      if rdBe16 l > pkt.length - 5 then (c, .pointerWouldOverflow)
      else
        match rd pkt 5 (rdBe16 l) with
        | none => (c.ub "deprecated_13", .failed)
        | some inner => internalHandleDataR k c inner

/-- `he_internal_flow_process_message`. src/he/flow.c:144-214 -/
def processMessageR (k : Hook) (env : Env) (c : Conn) (pkt : Bytes) : Conn × RC :=
  match pkt with
  | [] => ({ c with wolfError := .none }, .sslError)
  | id :: _ =>
    if id = msgNoop then (c, .success)
    else if id = msgPing then handlePing env c pkt
    else if id = msgPong then handlePongR k env c pkt
    else if id = msgAuth then (if c.isServer then handleAuthR k env c pkt else (c, .success))
    else if id = msgData then handleDataR k c pkt
    else if id = msgConfigIpv4 then
      (if !c.isServer then handleConfigIpv4R k env c pkt else (c, .success))
    else if id = msgAuthResponse then
      (if !c.isServer then (c, .accessDenied) else (c, .success))
    else if id = msgAuthResponseWithConfig then (c, .success)
    else if id = msgGoodbye then (c, .serverGoodbye)
    else if id = msgExtension then (c, .success)
    else if id = msgDeprecated13 then handleDeprecated13R k c pkt
    else if id = msgServerConfig then
      (if !c.isServer then handleServerConfigR k env c pkt else (c, .success))
    else if id = msgDataWithFrag then handleDataFragR k env c pkt
    else (c, .success)

/-- The `while(true)` loop of `he_internal_flow_outside_data_handle_messages`. src/he/flow.c:216-265, 475-491 -/
def messageLoopR (k : Hook) (env : Env) (c : Conn) : List ReadRes → Conn × Option RC
  | [] =>
    if c.wolfSet then (c.emit (.sslCall .read false), none)
    else
      let c := { c.emit (.sslCall .read false) with wolfError := .badFuncArg }
      (c, some (if c.connType = .stream then .sslError else .sslErrorNonfatal))
  | r :: rest =>
    if !c.wolfSet then
      let c := { c.emit (.sslCall .read false) with wolfError := .badFuncArg }
      (c, some (if c.connType = .stream then .sslError else .sslErrorNonfatal))
    else
      let plain := r.plain.take maxWireMtu
      let c := ioRun env (c.emit (.sslCall .read (!plain.isEmpty))) r.io
      if plain.isEmpty then
        match r.err with
        | .none | .wantRead | .wantWrite => (c, none)
        | .appDataReady => messageLoopR k env c rest
        | e =>
          if r.retZero then (c, some .connectionWasClosed)
          else
            let c := { c with wolfError := e }
            (c, some (if c.connType = .stream then .sslError else .sslErrorNonfatal))
      else
        let (c, rc) := processMessageR k env (c.emit (.message plain)) plain
        if rc ≠ .success then (c, some rc) else messageLoopR k env c rest

/-- The end of `he_internal_flow_outside_data_handle_messages`. src/he/flow.c:517-524 -/
def renegFinR (k : Hook) (env : Env) (c : Conn) (pending : Bool) : Conn × RC :=
  let c := if !pending then generateEventR k c .renegCompleted else c
  let c := { c with renegInProgress := pending }
  (updateTimeoutR k env c, .success)

/-- Tail of `he_internal_flow_outside_data_handle_messages`. src/he/flow.c:493-527 -/
def renegTailR (k : Hook) (env : Env) (c : Conn) : Conn × RC :=
  if !c.renegInProgress then (c, .success)
  else
    let (c, v) := sslVer env c
    if v = .dtls12 then
      let (c, r) := sslDo env c .renegPending
      renegFinR k env c (r.val ≠ 0)
    else
      let (c, r) := sslDo env c .keyUpdateResponse
      if !r.ok then ({ c with wolfError := r.err }, .sslError)
      else renegFinR k env c (r.val ≠ 0)

/-- `he_internal_flow_outside_data_handle_messages`. src/he/flow.c:466-528 -/
def handleMessagesR (k : Hook) (env : Env) (c : Conn) (reads : List ReadRes) : Conn × RC :=
  match messageLoopR k env c reads with
  | (c, some rc) => (c, rc)
  | (c, none) =>
    if c.renegDue then
      let (c, rc) := renegotiateSslR k env c
      if rc ≠ .success then (c, rc) else renegTailR k env c
    else renegTailR k env c

/-- The rest of `he_internal_flow_outside_data_verify_connection` after the event. src/he/flow.c:425-463 -/
def negotiateR (k : Hook) (env : Env) (c : Conn) (reads : List ReadRes) : Conn × RC :=
  if c.state = .connecting then
    let (c, r) := sslDo env c .negotiate
    if !r.ok then
      if r.err ≠ .wantRead ∧ r.err ≠ .wantWrite then
        if r.err = .asnSigConfirm then (c, .cannotVerifyServerCert)
        else if r.err = .domainMismatch then (c, .serverDnMismatch)
        else ({ c with wolfError := r.err }, .sslError)
      else
        ((if c.connType = .datagram then updateTimeoutR k env c else c), .success)
    else handleMessagesR k env (changeStateR k env c .linkUp) reads
  else handleMessagesR k env c reads

/-- `he_internal_flow_outside_data_verify_connection`. src/he/flow.c:409-464 -/
def verifyConnectionR (k : Hook) (env : Env) (c : Conn) (reads : List ReadRes) : Conn × RC :=
  let c :=
    if !c.firstMessageReceived then
      generateEventR k { c with firstMessageReceived := true } .firstMessageReceived
    else c
  negotiateR k env c reads

/-- `he_internal_update_session_incoming`. src/he/flow.c:267-297 -/
def updateSessionIncomingR (k : Hook) (c : Conn) (session : Nat) : Conn × RC :=
  if session = 0 then (c, .success)
  else if c.isServer then
    if session = c.sessionId then (c, .success)
    else if session = c.pendingSessionId then
      (generateEventR k { c with sessionId := session, pendingSessionId := sessionEmpty }
        .pendingSessionAcknowledged, .success)
    else (c, .unknownSession)
  else ({ c with sessionId := session }, .success)

/-- `he_internal_flow_outside_packet_received`. src/he/flow.c:344-393 -/
def outsidePacketR (k : Hook) (env : Env) (c : Conn) (pkt : Bytes) (reads : List ReadRes) : Conn × RC :=
  if pkt.length < 16 then (c, .packetTooSmall)
  else
    match rd pkt 0 2, rd pkt 2 2, rd pkt 8 8, rd pkt 16 (pkt.length - 16) with
    | some he, some ver, some s, some body =>
      if he ≠ [72, 101] then (c, .notHePacket)
      else if ver ≠ [c.verMajor, c.verMinor] then (c, .incorrectProtocolVersion)
      else if rdLe s = sessionReject then (c, .rejectedSession)
      else
        let c := { c.emit (.input (rdLe s) body) with incoming := some body, packetSeen := false }
        let (c, rc) := verifyConnectionR k env c reads
        if rc ≠ .success then (c, rc) else updateSessionIncomingR k c (rdLe s)
    | _, _, _, _ => (c.ub "wire header", .failed)

/-- `he_internal_flow_outside_stream_received`. src/he/flow.c:395-407 -/
def outsideStreamR (k : Hook) (env : Env) (c : Conn) (buf : Bytes) (reads : List ReadRes) : Conn × RC :=
  let (c, rc) := setupStreamState c buf
  if rc ≠ .success then (c, rc) else verifyConnectionR k env c reads

/-- `he_conn_outside_data_received`. src/he/flow.c:299-336 -/
def outsideDataR (k : Hook) (env : Env) (c : Conn) (buf : Bytes) (reads : List ReadRes) : Conn × RC :=
  if c.state = .disconnecting ∨ c.state = .disconnected then (c, .invalidConnState)
  else
    let r := c.outsidePlugins.ingress c.log buf buf.length
    let c := { c with log := r.1 }
    if r.2.2 = .pluginDrop then (c, .success)
    else if r.2.2 ≠ .success then (c, r.2.2)
    else if r.2.1.length > buf.length then (c, .failed)
    else
      match c.connType with
      | .datagram => outsidePacketR k env c r.2.1 reads
      | .stream => outsideStreamR k env c r.2.1 reads

/-- The end of `he_conn_internal_connect`. src/he/conn.c:289-321 -/
def firstFlightR (k : Hook) (env : Env) (c : Conn) : Conn × RC :=
  let c := changeStateR k env c .connecting
  let (c, r) := sslDo env c .negotiate
  if !r.ok then
    match r.err with
    | .wantRead | .wantWrite =>
      (updateTimeoutR k env (changeStateR k env c .connecting), .success)
    | _ => (c, .connectFailed)
  else (updateTimeoutR k env (changeStateR k env c .linkUp), .success)

/-- `he_conn_internal_connect`. src/he/conn.c:202-322 -/
def internalConnectR (k : Hook) (env : Env) (c : Conn) (ctx : SslCtx) (inside outside : Chain) : Conn × RC :=
  let (c, rc) := configure env c ctx
  let c := { c.emit (.chains inside.plugins outside.plugins) with
             insidePlugins := inside, outsidePlugins := outside }
  if rc ≠ .success then (c, rc)
  else
    match setupSsl env c ctx with
    | (c, some rc) => (c, rc)
    | (c, none) => firstFlightR k env c

/-- `he_conn_client_connect`. src/he/conn.c:324-341 -/
def clientConnectR (k : Hook) (env : Env) (c : Conn) (ctx : SslCtx) (inside outside : Chain) : Conn × RC :=
  let rc := isValidClient ctx c
  if rc ≠ .success then (c, rc)
  else internalConnectR k env { c.emit (.role false) with isServer := false } ctx inside outside

/-- `he_conn_server_connect`. src/he/conn.c:343-376 -/
def serverConnectR (k : Hook) (env : Env) (c : Conn) (ctx : SslCtx) (inside outside : Chain) : Conn × RC :=
  let rc := isValidServer ctx c
  if rc ≠ .success then (c, rc)
  else
    let (c, rc) := internalConnectR k env { c.emit (.role true) with isServer := true } ctx inside outside
    if rc ≠ .success then (c, rc)
    else
      match generateSessionId env c with
      | (c, none) => (c, .rngFailure)
      | (c, some s) => ({ c with sessionId := s }, .success)

/-- `he_conn_disconnect`. src/he/conn.c:378-415 -/
def disconnectR (k : Hook) (env : Env) (c : Conn) : Conn × RC :=
  if !c.wolfSet then (c, .neverConnected)
  else if c.state = .disconnecting ∨ c.state = .none ∨ c.state = .connecting ∨
      c.state = .disconnected then (c, .invalidConnState)
  else
    let c := setStateR k c .disconnecting
    let c := sendGoodbye env c
    let c := (sslDo env c .shutdown).1
    let c := { c.emit (.timer 0) with cbs := { c.cbs with insideWrite := false, outsideWrite := false },
                                      wolfTimeout := 0 }
    let c := c.emit (.callbacks c.cbs)
    (setStateR k c .disconnected, .success)

/-- `he_conn_nudge`. src/he/conn.c:807-845 -/
def nudgeR (k : Hook) (env : Env) (c : Conn) : Conn × RC :=
  let c := { c with nudgeTimerRunning := false }
  if c.state = .authenticating then (updateTimeoutR k env (sendAuthR k env c).1, .success)
  else
    let (c, r) := sslDo env c .gotTimeout
    if !r.ok then
      match r.err with
      | .wantRead | .wantWrite => (updateTimeoutR k env c, .success)
      | _ => (setStateR k c .disconnected, .connectionTimedOut)
    else (updateTimeoutR k env c, .success)

/-- `he_conn_start_pmtu_discovery`. src/he/conn.c:1206-1223 -/
def startPmtudR (k : Hook) (env : Env) (c : Conn) : Conn × RC :=
  if c.state ≠ .online then (c, .invalidConnState)
  else if !c.cbs.pmtudState ∨ !c.cbs.pmtudTime then (c, .pmtudCallbacksNotSet)
  else if c.pmtud.state ≠ .disabled then (c, .success)
  else startBaseProbingR k env c

/-- The body of a call.  The calls that make no callback but the outside write are those of the main model. -/
def execR (k : Hook) (env : Env) (c : Conn) : Op → Conn × RC
  | .clientConnect ctx i o => clientConnectR k env c ctx i o
  | .serverConnect ctx i o => serverConnectR k env c ctx i o
  | .disconnect => disconnectR k env c
  | .outsideData b rs => outsideDataR k env c b rs
  | .nudge => nudgeR k env c
  | .startPmtud => startPmtudR k env c
  | .pmtudTimeout => handleProbeTimeoutR k env c
  | op => exec env c op

/-- One API call with its markers. -/
def stepR (k : Hook) (env : Env) (c : Conn) (op : Op) : Conn × RC :=
  let r := execR k env (c.emit (.api op.api)) op
  (r.1.emit (.ret r.2), r.2)

/-- A call by a host that reacts to a callback, knowing the history up to it, by making the calls `host history`; calls
are nested at most `n` deep. -/
def nested (env : Env) (host : Log → List Op) : Nat → Conn → Op → Conn × RC
  | 0, c, op => stepR id env c op
  | n + 1, c, op =>
    stepR (fun c => (host c.log).foldl (fun c op => (nested env host n c op).1) c) env c op

/-- A whole history on a fresh connection. -/
def runNested (env : Env) (host : Log → List Op) (n : Nat) (ops : List Op) : Conn :=
  ops.foldl (fun c op => (nested env host n c op).1) Conn.create

end Lightway
