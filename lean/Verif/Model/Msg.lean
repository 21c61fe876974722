import Verif.Model.PmtudM
import Verif.Model.Network
import Verif.Model.Frag

/-!
# src/he/msg_handlers.c
`pkt` is the decrypted message; the C code receives it with its length, and `rd`/`wr` refuse to leave
it.  (The NULL-argument branches cannot be taken: the caller passes the address of a stack buffer.)
-/

namespace Lightway

/-- C locale `isspace`. -/
def isSpace (b : UInt8) : Bool := b = 32 || (9 ≤ b.toNat && b.toNat ≤ 13)

def isDigit (b : UInt8) : Bool := 48 ≤ b.toNat && b.toNat ≤ 57

/-- Value of a run of decimal digits. -/
def decValue (ds : Bytes) : Nat := ds.foldl (fun acc d => acc * 10 + (d.toNat - 48)) 0

/-- The sign and digits `%u` accepts after white space. -/
def splitSign : Bytes → Bool × Bytes
  | b :: t => if b = 45 then (true, t) else if b = 43 then (false, t) else (false, b :: t)
  | [] => (false, [])

/-- `sscanf(s, "%u", &x)` of glibc followed by reading the `unsigned` as `int`: white space is
skipped, an optional sign, at least one digit, conversion by `strtoul` (saturating at 2^64-1), then
truncation to 32 bits.  `none` means the return value is not 1.  src/he/msg_handlers.c:176 -/
def scanU (s : Bytes) : Option Int :=
  let t := (cstr s).dropWhile isSpace
  let (neg, t) := splitSign t
  let ds := t.takeWhile isDigit
  if ds.isEmpty then none
  else
    let v := decValue ds
    let v := if v ≥ 2 ^ 64 then 2 ^ 64 - 1 else if neg then (2 ^ 64 - v) % 2 ^ 64 else v
    let w : Nat := v % 4294967296
    some (if w < 2147483648 then (w : Int) else (w : Int) - 4294967296)

/-- Copying a 24-byte string field and forcing NUL termination (src/he/msg_handlers.c:163-170,
346-353). -/
def copyIpField (src : Bytes) : Bytes := setNul (strncpy (zeros 24) src 24) 23

/-- `he_handle_msg_ping`. src/he/msg_handlers.c:41-66 -/
def handlePing (env : Env) (c : Conn) (pkt : Bytes) : Conn × RC :=
  if c.state ≠ .online then (c, .invalidConnState)
  else if pkt.length < 5 then (c, .packetTooSmall)
  else
    match rd pkt 1 2 with
    | none => (c.ub "ping", .failed)
    | some id => sendMessage env c ([msgPong] ++ id ++ [0, 0])

/-- `he_handle_msg_pong`. src/he/msg_handlers.c:68-91 -/
def handlePong (env : Env) (c : Conn) (pkt : Bytes) : Conn × RC :=
  if pkt.length < 5 then (c, .success)
  else
    match rd pkt 1 2 with
    | none => (c.ub "pong", .failed)
    | some id =>
      if rdBe16 id = c.pingPendingId then (generateEvent c .pong, .success)
      else ((handleProbeAck env c (rdBe16 id)).1, .success)

/-- `he_handle_msg_server_config`. src/he/msg_handlers.c:93-133 -/
def handleServerConfig (env : Env) (c : Conn) (pkt : Bytes) : Conn × RC :=
  if c.isServer then (c, .invalidConnState)
  else if !validStateForServerConfig c then (c, .invalidConnState)
  else if pkt.length < 3 then (c, .packetTooSmall)
  else
    match rd pkt 1 2 with
    | none => (c.ub "server_config", .failed)
    | some len =>
      if rdBe16 len > pkt.length - 3 then (c, .pointerWouldOverflow)
      else if !c.cbs.serverConfig then (c, .success)
      else
        match rd pkt 3 (rdBe16 len) with
        | none => (c.ub "server_config", .failed)
        | some buf =>
          let rc := env.serverConfig c.log buf
          let c := c.emit (.serverConfig buf rc)
          if rc ≠ .success then (c, .callbackFailed) else (c, .success)

/-- The MTU handed to the configuration callback. src/he/msg_handlers.c:176-182 -/
def configMtu (s : Bytes) : Nat :=
  match scanU s with
  | none => maxMtu
  | some v => if v ≤ 0 ∨ v > maxMtu then maxMtu else v.toNat

/-- `he_handle_msg_config_ipv4`. src/he/msg_handlers.c:135-205.-/
def handleConfigIpv4 (env : Env) (c : Conn) (pkt : Bytes) : Conn × RC :=
  if c.state = .online then (c, .success)
  else if c.isServer ∨ c.state ≠ .authenticating then (c, .invalidConnState)
  else if pkt.length < 105 then (c, .packetTooSmall)
  else
    match rd pkt 1 24, rd pkt 25 24, rd pkt 49 24, rd pkt 73 24, rd pkt 97 8, wr pkt 96 [0] with
    | some l, some p, some d, some m, some s, some _ =>
      let cfg : NetCfg :=
        { localIp := copyIpField l, peerIp := copyIpField p, dnsIp := copyIpField d,
          mtu := configMtu (setNul m 23) }
      let c := { c with sessionId := rdLe s }
      let c := setState c .configuring
      if c.cbs.netConfig then
        let rc := env.netConfig c.log cfg
        let c := c.emit (.netConfig cfg rc)
        if rc ≠ .success then (c, .callbackFailed)
        else (setState c .online, .success)
      else (setState c .online, .success)
    | _, _, _, _, _, _ => (c.ub "config_ipv4", .failed)

/-- The AUTH_RESPONSE message of `he_internal_send_auth_denied_response`: id 7, status
`HE_AUTH_STATUS_SUCCESS` (0), zeros (53 bytes in all). src/he/msg_handlers.c:207-215 -/
def authDeniedMsg : Bytes := [msgAuthResponse, 0] ++ zeros 51

/-- `he_internal_send_auth_denied_response`. src/he/msg_handlers.c:207-215 -/
def sendAuthDenied (env : Env) (c : Conn) : Conn := (sendMessage env c authDeniedMsg).1

/-- Outcome of the authentication switch of `he_handle_msg_auth`. -/
inductive AuthOut
  /-- early return of the handler -/
  | ret (c : Conn) (rc : RC) (pkt : Bytes)
  /-- the switch was left; `ok` is `auth_state`, `rc` is `auth_res` -/
  | verdict (c : Conn) (ok : Bool) (rc : RC) (pkt : Bytes)

/-- The `switch(msg->auth_type)`. src/he/msg_handlers.c:250-315.  The message buffer is returned
because the password in it is overwritten. -/
def authSwitch (env : Env) (c : Conn) (pkt : Bytes) (ty : UInt8) : AuthOut :=
  if ty = authUserPassTy then
    if c.cbs.auth then
      if pkt.length < 104 then .ret c .packetTooSmall pkt
      else
        match rd pkt 4 50, rd pkt 54 50, wr pkt 54 (zeros 50) with
        | some u, some p, some pkt' =>
          let ok := env.authUserPass c.log u p
          let c := c.emit (.authUserPass u p ok)
          let c := { c with username := setNul (strncpy c.username u 50) 50 }
          .verdict c ok .accessDenied pkt'
        | _, _, _ => .ret (c.ub "auth userpass") .failed pkt
    else .verdict c false .accessDeniedNoAuthUserpassHandler pkt
  else if ty = authTokenTy then
    if c.cbs.authToken then
      if pkt.length ≤ 4 then .ret c .packetTooSmall pkt
      else
        match rd pkt 2 2 with
        | none => .ret (c.ub "auth token") .failed pkt
        | some len =>
          if rdBe16 len > pkt.length - 4 then .ret c .packetTooSmall pkt
          else
            match rd pkt 4 (rdBe16 len) with
            | none => .ret (c.ub "auth token") .failed pkt
            | some tok =>
              let ok := env.authToken c.log tok
              .verdict (c.emit (.authToken tok ok)) ok .accessDenied pkt
    else .verdict c false .accessDeniedNoAuthTokenHandler pkt
  else if ty = authCbTy then
    if c.cbs.authBuf then
      if pkt.length ≤ 4 then .ret c .packetTooSmall pkt
      else
        match rd pkt 2 2 with
        | none => .ret (c.ub "auth buf") .failed pkt
        | some len =>
          if rdBe16 len > pkt.length - 4 then .ret c .packetTooSmall pkt
          else
            match rd pkt 4 (rdBe16 len) with
            | none => .ret (c.ub "auth buf") .failed pkt
            | some buf =>
              let ok := env.authBuf c.log ty buf
              .verdict (c.emit (.authBuf ty buf ok)) ok .accessDenied pkt
    else .verdict c false .accessDeniedNoAuthBufHandler pkt
  else .verdict c false .accessDenied pkt

/-- The CONFIG_IPV4 message the server sends. src/he/msg_handlers.c:326-355 ("1350" as MTU) -/
def configIpv4Msg (session : Nat) (cfg : NetCfg) : Bytes :=
  [msgConfigIpv4] ++ copyIpField cfg.localIp ++ copyIpField cfg.peerIp ++ copyIpField cfg.dnsIp ++
    ([49, 51, 53, 48] ++ zeros 20) ++ le64 session

/-- `he_handle_msg_auth`: connection, return code, message buffer afterwards.
src/he/msg_handlers.c:217-364 -/
def handleAuthBuf (env : Env) (c : Conn) (pkt : Bytes) : Conn × RC × Bytes :=
  if !c.isServer ∧ (c.state ≠ .linkUp ∧ c.state ≠ .online) then (c, .invalidConnState, pkt)
  else if !c.cbs.populate then (c, .invalidConnState, pkt)
  else if !c.cbs.auth ∧ !c.cbs.authToken ∧ !c.cbs.authBuf then (c, .invalidConnState, pkt)
  else if pkt.length < 2 then (c, .packetTooSmall, pkt)
  else
    match rd pkt 1 1 with
    | some [ty] =>
      match authSwitch env c pkt ty with
      | .ret c rc pkt => (c, rc, pkt)
      | .verdict c ok rc pkt =>
        if !ok then
          let c := sendAuthDenied env c
          (setState c .disconnecting, rc, pkt)
        else
          let r := env.populate c.log
          let session := c.sessionId
          let c := c.emit (.populate r.1)
          if r.1 ≠ .success then (sendAuthDenied env c, r.1, pkt)
          else
            let c := (sendMessage env c (configIpv4Msg session r.2)).1
            (setState c .online, .success, pkt)
    | _ => (c.ub "auth", .failed, pkt)

/-- `he_handle_msg_auth` without the buffer. -/
def handleAuth (env : Env) (c : Conn) (pkt : Bytes) : Conn × RC :=
  ((handleAuthBuf env c pkt).1, (handleAuthBuf env c pkt).2.1)

/-- `internal_handle_data`. src/he/msg_handlers.c:366-397 -/
def internalHandleData (c : Conn) (pkt : Bytes) : Conn × RC :=
  let r := c.insidePlugins.egress c.log pkt pkt.length
  let c := { c with log := r.1 }
  if r.2.2 = .pluginDrop then (c, .success)
  else if r.2.2 ≠ .success then (c, .failed)
  else if r.2.1.length > pkt.length then (c, .failed)
  else if !ipv4Valid r.2.1 then (c, .badPacket)
  else if c.cbs.insideWrite then (c.emit (.insideWrite r.2.1), .success)
  else (c, .success)

/-- `he_handle_msg_data`. src/he/msg_handlers.c:399-435 -/
def handleData (c : Conn) (pkt : Bytes) : Conn × RC :=
  if c.state ≠ .online then (c, .invalidConnState)
  else if pkt.length < 3 then (c, .packetTooSmall)
  else
    match rd pkt 1 2 with
    | none => (c.ub "data", .failed)
    | some l =>
      let len := if c.verMajor = 1 ∧ c.verMinor = 0 then rdLe16 l else rdBe16 l
      if len > pkt.length - 3 then (c, .pointerWouldOverflow)
      else
        match rd pkt 3 len with
        | none => (c.ub "data", .failed)
        | some inner => internalHandleData c inner

/-- `he_handle_msg_data_with_frag` after the table lookup (`t` is the table, `en` the entry found or
created in it): expiry, update, delivery, deletion. src/he/msg_handlers.c:478-502 -/
def fragApply (env : Env) (c : Conn) (t : FragTable) (en : FragEntry) (id off : Nat) (last : Bool)
    (d : Bytes) : Conn × RC :=
  let now := env.now c.log
  let c := c.emit (.clock now)
  let en := if now - en.timestamp > 64 then { en.reset with timestamp := now } else en
  match en.update (env.alloc c.log) d off last with
  | none => (c.ub "frag", .failed)
  | some (en, rc, assembled) =>
    let c := { c with fragTable := some (t.set id en) }
    if rc ≠ .success then (c, rc)
    else if assembled then
      match en.nodes with
      | [] => (c.ub "frag", .failed)
      | hd :: _ =>
        match rd en.data 0 hd.e with
        | none => (c.ub "frag", .failed)
        | some p =>
          let r := internalHandleData c p
          ({ r.1 with fragTable := some ((t.set id en).delete id) }, r.2)
    else (c, .success)

/-- `he_handle_msg_data_with_frag` after the header was parsed: table lookup, then `fragApply`.
src/he/msg_handlers.c:470-502 -/
def fragReceive (env : Env) (c : Conn) (id off : Nat) (last : Bool) (d : Bytes) : Conn × RC :=
  match c.fragTable with
  | none => (c, .noMemory)
  | some t =>
    let fresh := (t.slot (id % t.num)).isNone
    let al := env.alloc c.log
    let c := if fresh then c.emit (.alloc al) else c
    let now := env.now c.log
    let c := if fresh && al then c.emit (.clock now) else c
    match t.find al now id with
    | (t, none) => ({ c with fragTable := some t }, .noMemory)
    | (t, some en) => fragApply env { c with fragTable := some t } t en id off last d

/-- `he_handle_msg_data_with_frag`. src/he/msg_handlers.c:437-503; the `uint16_t offset` is
`(off & 0x1FFF) * 8`, which fits 16 bits, and `mf` is bit 13. -/
def handleDataFrag (env : Env) (c : Conn) (pkt : Bytes) : Conn × RC :=
  if c.state ≠ .online then (c, .invalidConnState)
  else if pkt.length < 7 then (c, .packetTooSmall)
  else
    match rd pkt 1 2, rd pkt 3 2, rd pkt 5 2 with
    | some l, some i, some o =>
      let len := rdBe16 l
      if len > pkt.length - 7 then (c, .pointerWouldOverflow)
      else
        let off := rdBe16 o % 8192 * 8
        if off + len > maxWireMtu then (c, .pointerWouldOverflow)
        else
          match rd pkt 7 len with
          | none => (c.ub "data_frag", .failed)
          | some d => fragReceive env c (rdBe16 i) off (rdBe16 o / 8192 % 2 = 0) d
    | _, _, _ => (c.ub "data_frag", .failed)

/-- `he_handle_msg_deprecated_13`. src/he/msg_handlers.c:505-533 (the length is at offset 1 of the
5-byte header, src/he/he_internal.h struct he_deprecated_msg_13) -/
def handleDeprecated13 (c : Conn) (pkt : Bytes) : Conn × RC :=
  if c.state ≠ .online then (c, .invalidConnState)
  else if pkt.length < 5 then (c, .packetTooSmall)
  else
    match rd pkt 1 2 with
    | none => (c.ub "deprecated_13", .failed)
    | some l =>
      if rdBe16 l > pkt.length - 5 then (c, .pointerWouldOverflow)
      else
        match rd pkt 5 (rdBe16 l) with
        | none => (c.ub "deprecated_13", .failed)
        | some inner => internalHandleData c inner

end Lightway
