import Verif.Model.Msg

/-!
# src/he/flow.c and the sending side of src/he/frag.c
-/

namespace Lightway

/-- `he_internal_flow_should_fragment`. src/he/flow.c:37-39 -/
def shouldFragment (c : Conn) (pmtu length : Nat) : Bool :=
  c.connType = .datagram && decide (length > pmtu)

/-- One DATA_WITH_FRAG message: id, length, fragment id, offset field, data.
src/he/frag.c:49-70.  `off` is the byte offset (a multiple of 8), `mf` the more-fragments flag. -/
def fragMsg (id off : Nat) (mf : Bool) (d : Bytes) : Bytes :=
  [msgDataWithFrag] ++ be16 d.length ++ be16 id ++
    be16 (off / 8 + (if mf then 8192 else 0)) ++ d

/-- The fragment loop. src/he/frag.c:47-81.  `size` is the rounded fragment size; a zero size would
loop forever and an oversized one would overflow the 1500-byte buffer: both are recorded as
undefined behaviour.  `off` is `uint16_t`; the packet is shorter than 2^16. -/
def fragLoop (env : Env) (c : Conn) (size id off : Nat) (pkt : Bytes) : Conn × RC :=
  if _hz : pkt.length = 0 then (c, .success)
  else if _hs : size = 0 then (c.ub "frag.c:48 infinite loop", .failed)
  else
    let d := pkt.take size
    if d.length + 7 > maxWireMtu then (c.ub "frag.c:70 overflow", .failed)
    else
      let (c, rc) := sendMessage env c (fragMsg id off (decide (pkt.length > size)) d)
      if rc ≠ .success then (c, rc)
      else fragLoop env c size id ((off + d.length) % 65536) (pkt.drop size)
termination_by pkt.length
decreasing_by simp; omega

/-- `he_internal_frag_and_send_message`. src/he/frag.c:28-84 -/
def fragAndSend (env : Env) (c : Conn) (pkt : Bytes) (fragSize : Nat) : Conn × RC :=
  let size := fragSize / 8 * 8
  if pkt.length ≤ size then (c, .failed)
  else
    let id := c.fragNextId
    fragLoop env { c with fragNextId := (id + 1) % 65536 } size id 0 pkt

/-- The DATA message with padding. src/he/flow.c:104-126: a zeroed 1500-byte buffer, of which
`actual + 3` bytes are sent. -/
def dataMsg (c : Conn) (pkt : Bytes) : Bytes :=
  [msgData] ++ (if c.verMajor = 1 ∧ c.verMinor = 0 then le16 pkt.length else be16 pkt.length) ++
    pkt ++ zeros (dataPacketLength c.padding pkt.length - pkt.length)

/-- Subtraction in `size_t` (wraps around). src/he/flow.c:58-60 -/
@[irreducible] def sizeSub (a b : Nat) : Nat := (a + (2 ^ 64 - b)) % 2 ^ 64

/-- `he_conn_inside_packet_received`. src/he/flow.c:41-142.  `capacity` is computed in `size_t`. -/
def insidePacket (env : Env) (c : Conn) (pkt : Bytes) : Conn × RC :=
  if c.state ≠ .online then (c, .invalidConnState)
  else if pkt.length < 20 then (c, .packetTooSmall)
  else
    let capacity := sizeSub c.outsideMtu packetOverhead
    if pkt.length > capacity then (c, .packetTooLarge)
    else if !ipv4Valid pkt then (c, .unsupportedPacketType)
    else
      let pmtu := effectivePmtu c
      match clampMss pkt (pmtu - 40) with
      | none => (c.ub "clamp_mss", .failed)
      | some (pkt, rc) =>
        if rc ≠ .success then (c, rc)
        else
          let r := c.insidePlugins.ingress c.log pkt capacity
          let c := { c with log := r.1 }
          let pkt := r.2.1
          if r.2.2 = .pluginDrop then (c, .success)
          else if r.2.2 ≠ .success then (c, .failed)
          else if pkt.length > capacity then (c, .failed)
          else if !shouldFragment c pmtu pkt.length then
            if pkt.length + 3 > maxWireMtu then (c, .failed)
            else sendMessage env c (dataMsg c pkt)
          else fragAndSend env c pkt (pmtu + 3 - 7)

/-- `he_internal_flow_process_message`. src/he/flow.c:144-214.  The read buffer holds 1 to 1500
bytes; an empty message is the `< sizeof(he_msg_hdr_t)` branch. -/
def processMessage (env : Env) (c : Conn) (pkt : Bytes) : Conn × RC :=
  match pkt with
  | [] => ({ c with wolfError := .none }, .sslError)
  | id :: _ =>
    if id = msgNoop then (c, .success)
    else if id = msgPing then handlePing env c pkt
    else if id = msgPong then handlePong env c pkt
    else if id = msgAuth then (if c.isServer then handleAuth env c pkt else (c, .success))
    else if id = msgData then handleData c pkt
    else if id = msgConfigIpv4 then
      (if !c.isServer then handleConfigIpv4 env c pkt else (c, .success))
    else if id = msgAuthResponse then
      (if !c.isServer then (c, .accessDenied) else (c, .success))
    else if id = msgAuthResponseWithConfig then (c, .success)
    else if id = msgGoodbye then (c, .serverGoodbye)
    else if id = msgExtension then (c, .success)
    else if id = msgDeprecated13 then handleDeprecated13 c pkt
    else if id = msgServerConfig then
      (if !c.isServer then handleServerConfig env c pkt else (c, .success))
    else if id = msgDataWithFrag then handleDataFrag env c pkt
    else (c, .success)

/-- What `wolfSSL_read(NULL, ...)` reports. -/
def nullReadRes : ReadRes := { plain := [], retZero := false, err := .badFuncArg, io := [] }

/-- The `while(true)` loop of `he_internal_flow_outside_data_handle_messages` together with
`he_internal_flow_fetch_message`. src/he/flow.c:216-265, 475-491.  `reads` lists the outcomes of the
successive `wolfSSL_read` calls; after the last one the library reports would-block.  The result says
whether the loop was left by `break` (`none`) or by returning an error. -/
def messageLoop (env : Env) (c : Conn) : List ReadRes → Conn × Option RC
  | [] =>
    -- one more read, nothing available
    if c.wolfSet then (c.emit (.sslCall .read false), none)
    else
      let c := { c.emit (.sslCall .read false) with wolfError := .badFuncArg }
      (c, some (if c.connType = .stream then .sslError else .sslErrorNonfatal))
  | r :: rest =>
    if !c.wolfSet then
      let c := { c.emit (.sslCall .read false) with wolfError := .badFuncArg }
      (c, some (if c.connType = .stream then .sslError else .sslErrorNonfatal))
    else
      let plain := r.plain.take maxWireMtu
      let c := ioRun env (c.emit (.sslCall .read (!plain.isEmpty))) r.io
      if plain.isEmpty then
        match r.err with
        | .none | .wantRead | .wantWrite => (c, none)
        | .appDataReady => messageLoop env c rest
        | e =>
          if r.retZero then (c, some .connectionWasClosed)
          else
            let c := { c with wolfError := e }
            (c, some (if c.connType = .stream then .sslError else .sslErrorNonfatal))
      else
        let (c, rc) := processMessage env (c.emit (.message plain)) plain
        if rc ≠ .success then (c, some rc) else messageLoop env c rest

/-- Tail of `he_internal_flow_outside_data_handle_messages`: renegotiation bookkeeping.
src/he/flow.c:493-527.  `renegPending`: the value is `resp_pending`; `keyUpdateResponse`: `ok` means
return value 0 and the value is `resp_pending`. -/
def renegTail (env : Env) (c : Conn) : Conn × RC :=
  if !c.renegInProgress then (c, .success)
  else
    let (c, v) := sslVer env c
    let fin (c : Conn) (pending : Bool) : Conn × RC :=
      let c := if !pending then generateEvent c .renegCompleted else c
      let c := { c with renegInProgress := pending }
      (updateTimeout env c, .success)
    if v = .dtls12 then
      let (c, r) := sslDo env c .renegPending
      fin c (r.val ≠ 0)
    else
      let (c, r) := sslDo env c .keyUpdateResponse
      if !r.ok then ({ c with wolfError := r.err }, .sslError)
      else fin c (r.val ≠ 0)

/-- `he_internal_flow_outside_data_handle_messages`. src/he/flow.c:466-528 -/
def handleMessages (env : Env) (c : Conn) (reads : List ReadRes) : Conn × RC :=
  match messageLoop env c reads with
  | (c, some rc) => (c, rc)
  | (c, none) =>
    if c.renegDue then
      let (c, rc) := renegotiateSsl env c
      if rc ≠ .success then (c, rc) else renegTail env c
    else renegTail env c

/-- `he_internal_flow_outside_data_verify_connection`. src/he/flow.c:409-464 -/
def verifyConnection (env : Env) (c : Conn) (reads : List ReadRes) : Conn × RC :=
  let c :=
    if !c.firstMessageReceived then
      generateEvent { c with firstMessageReceived := true } .firstMessageReceived
    else c
  if c.state = .connecting then
    let (c, r) := sslDo env c .negotiate
    if !r.ok then
      if r.err ≠ .wantRead ∧ r.err ≠ .wantWrite then
        if r.err = .asnSigConfirm then (c, .cannotVerifyServerCert)
        else if r.err = .domainMismatch then (c, .serverDnMismatch)
        else ({ c with wolfError := r.err }, .sslError)
      else
        ((if c.connType = .datagram then updateTimeout env c else c), .success)
    else handleMessages env (changeState env c .linkUp) reads
  else handleMessages env c reads

/-- `he_internal_update_session_incoming`. src/he/flow.c:267-297 -/
def updateSessionIncoming (c : Conn) (session : Nat) : Conn × RC :=
  if session = 0 then (c, .success)
  else if c.isServer then
    if session = c.sessionId then (c, .success)
    else if session = c.pendingSessionId then
      (generateEvent { c with sessionId := session, pendingSessionId := sessionEmpty }
        .pendingSessionAcknowledged, .success)
    else (c, .unknownSession)
  else ({ c with sessionId := session }, .success)

/-- `he_internal_flow_outside_packet_received`. src/he/flow.c:344-393 -/
def outsidePacket (env : Env) (c : Conn) (pkt : Bytes) (reads : List ReadRes) : Conn × RC :=
  if pkt.length < 16 then (c, .packetTooSmall)
  else
    match rd pkt 0 2, rd pkt 2 2, rd pkt 8 8, rd pkt 16 (pkt.length - 16) with
    | some he, some ver, some s, some body =>
      if he ≠ [72, 101] then (c, .notHePacket)
      else if ver ≠ [c.verMajor, c.verMinor] then (c, .incorrectProtocolVersion)
      else if rdLe s = sessionReject then (c, .rejectedSession)
      else
        let c := { c.emit (.input (rdLe s) body) with incoming := some body, packetSeen := false }
        let (c, rc) := verifyConnection env c reads
        if rc ≠ .success then (c, rc) else updateSessionIncoming c (rdLe s)
    | _, _, _, _ => (c.ub "wire header", .failed)

/-- `he_internal_flow_outside_stream_received`. src/he/flow.c:395-407 -/
def outsideStream (env : Env) (c : Conn) (buf : Bytes) (reads : List ReadRes) : Conn × RC :=
  let (c, rc) := setupStreamState c buf
  if rc ≠ .success then (c, rc) else verifyConnection env c reads

/-- `he_conn_outside_data_received`. src/he/flow.c:299-336 -/
def outsideData (env : Env) (c : Conn) (buf : Bytes) (reads : List ReadRes) : Conn × RC :=
  if c.state = .disconnecting ∨ c.state = .disconnected then (c, .invalidConnState)
  else
    let r := c.outsidePlugins.ingress c.log buf buf.length
    let c := { c with log := r.1 }
    if r.2.2 = .pluginDrop then (c, .success)
    else if r.2.2 ≠ .success then (c, r.2.2)
    else if r.2.1.length > buf.length then (c, .failed)
    else
      match c.connType with
      | .datagram => outsidePacket env c r.2.1 reads
      | .stream => outsideStream env c r.2.1 reads

end Lightway
