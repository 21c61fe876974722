import Verif.Model.Wolf
import Verif.Model.Config

/-!
# Internal functions of src/he/conn.c: sending, state changes, timers
-/

namespace Lightway

/-- Message identifiers. src/he/he_internal.h:303-334 -/
def msgNoop : UInt8 := 1
def msgPing : UInt8 := 2
def msgPong : UInt8 := 3
def msgAuth : UInt8 := 4
def msgData : UInt8 := 5
def msgConfigIpv4 : UInt8 := 6
def msgAuthResponse : UInt8 := 7
def msgAuthResponseWithConfig : UInt8 := 8
def msgExtension : UInt8 := 9
def msgGoodbye : UInt8 := 12
def msgDeprecated13 : UInt8 := 13
def msgServerConfig : UInt8 := 14
def msgDataWithFrag : UInt8 := 15

/-- `he_auth_type_t`. include/he.h:337-347 -/
def authUserPassTy : UInt8 := 1
def authTokenTy : UInt8 := 2
def authCbTy : UInt8 := 23

/-- `HE_PACKET_OVERHEAD` = 5 + 16 + 20 + 8 + 37 + 28. src/he/he_internal.h:469-471 -/
def packetOverhead : Nat := 114

/-- `he_internal_send_message`. src/he/conn.c:449-483.  `ok` means `wolfSSL_write` returned a positive
value, `val = 0` distinguishes the zero return. -/
def sendMessage (env : Env) (c : Conn) (msg : Bytes) : Conn × RC :=
  let (c, r) := sslDo env c (.write msg)
  if r.ok then (c, .success)
  else
    match r.err with
    | .none => (c, .success)
    | .wantWrite => (c, .wantWrite)
    | .wantRead => (c, .wantRead)
    | e => if r.val = 0 then (c, .connectionWasClosed)
           else ({ c with wolfError := e }, .sslError)

/-- `he_internal_generate_event`. src/he/conn.c:856-866 -/
def generateEvent (c : Conn) (e : Event) : Conn := c.emit (.event e c.cbs.event)

/-- `he_internal_change_conn_state` without the LINK_UP hook. src/he/conn.c:417-433 -/
def setState (c : Conn) (s : ConnState) : Conn :=
  if c.state = s then c
  else { c with state := s, log := .state s c.cbs.stateChange :: c.log }

/-- The AUTH message for user name and password: header, lengths, two zero-padded 50-byte fields.
src/he/conn.c:585-609 -/
def authUserPassMsg (c : Conn) : Bytes :=
  let ul := strnlen c.username 50
  let pl := strnlen c.password 50
  [msgAuth, authUserPassTy, UInt8.ofNat ul, UInt8.ofNat pl]
    ++ (c.username.take ul ++ zeros (50 - ul)) ++ (c.password.take pl ++ zeros (50 - pl))

/-- The AUTH message for a token or a buffer. src/he/conn.c:633-640, 660-667 -/
def authBufMsg (ty : UInt8) (buf : Bytes) : Bytes :=
  [msgAuth, ty] ++ be16 buf.length ++ buf

/-- `he_internal_send_auth`. src/he/conn.c:670-694 with 585-668.  The nested
`he_internal_change_conn_state(conn, AUTHENTICATING)` has no hook, so `setState` models it. -/
def sendAuth (env : Env) (c : Conn) : Conn × RC :=
  if c.state ≠ .linkUp ∧ c.state ≠ .authenticating then (c, .invalidConnState)
  else
    let c := setState c .authenticating
    if c.authType = authUserPassTy then sendMessage env c (authUserPassMsg c)
    else if c.authType = authTokenTy then
      if 4 + c.authBufferLength > maxWireMtu then (c, .invalidConnState)
      else sendMessage env c (authBufMsg authTokenTy (c.authBuffer.take c.authBufferLength))
    else if c.authType = authCbTy then
      if 4 + c.authBufferLength > maxMtu then (c, .invalidConnState)
      else sendMessage env c (authBufMsg authCbTy (c.authBuffer.take c.authBufferLength))
    else (c, .invalidAuthType)

/-- `he_internal_change_conn_state`. src/he/conn.c:417-447 -/
def changeState (env : Env) (c : Conn) (s : ConnState) : Conn :=
  if c.state = s then c
  else
    let c := setState c s
    if s = .linkUp ∧ !c.isServer then (sendAuth env c).1 else c

/-- `wolfSSL_version(conn->wolf_ssl)`: wolfSSL dereferences its argument, so a NULL `WOLFSSL*` is
recorded as undefined behaviour.  Called at src/he/conn.c:723, 782 and src/he/flow.c:504. -/
def sslVer (env : Env) (c : Conn) : Conn × SslVersion :=
  if c.wolfSet then (c, env.sslVersion c.log) else (c.ub "wolfSSL_version(NULL)", .other)

/-- `he_internal_update_timeout`. src/he/conn.c:758-793.  Integer division truncates. -/
def updateTimeout (env : Env) (c : Conn) : Conn :=
  if c.state = .online ∧ !c.renegInProgress then c
  else
    let (c, r) := sslDo env c .currentTimeout
    -- both multipliers are 100
    let t : Int := r.val * 100
    let (c, v) := sslVer env c
    let (c, t) :=
      if v ≠ .dtls12 then
        let (c, q) := sslDo env c .quickTimeout
        (c, if q.ok then t.tdiv 4 else t)
      else (c, t)
    let c := { c.emit (.timer t) with wolfTimeout := t }
    if c.cbs.nudgeTime ∧ !c.nudgeTimerRunning then
      { c.emit (.nudgeTime t) with nudgeTimerRunning := true }
    else c

/-- `he_internal_send_goodbye`. src/he/conn.c:485-501 -/
def sendGoodbye (env : Env) (c : Conn) : Conn := (sendMessage env c [msgGoodbye]).1

/-- `he_internal_renegotiate_ssl`. src/he/conn.c:706-756 -/
def renegotiateSsl (env : Env) (c : Conn) : Conn × RC :=
  let c := { c with renegDue := false }
  if c.renegInProgress ∨ c.state ≠ .online then (c, .success)
  else
    let (c, v) := sslVer env c
    let go (c : Conn) (r : SslRes) : Conn × RC :=
      let c := { c with renegInProgress := true }
      let c := generateEvent c .renegStarted
      if r.ok then (c, .success)
      else
        match r.err with
        | .none | .wantRead | .wantWrite | .appDataReady => (updateTimeout env c, .success)
        | .secureReneg => (c, .secureRenegotiationError)
        | e => ({ c with wolfError := e }, .sslError)
    if v = .dtls12 then
      let (c, s) := sslDo env c .renegSupport
      if !s.ok then (c, .success)
      else
        let (c, r) := sslDo env c .rehandshake
        go c r
    else
      let (c, r) := sslDo env c .updateKeys
      go c r

/-- `he_internal_generate_session_id`. src/he/conn.c:868-881 -/
def generateSessionId (env : Env) (c : Conn) : Conn × Option Nat :=
  let v := (env.rng c.log).map (· % 2 ^ 64)
  (c.emit (.rng v), v)

/-- `he_conn_get_effective_pmtu`. src/he/conn.c:1225-1230 -/
def effectivePmtu (c : Conn) : Nat :=
  if c.pmtud.effective = 0 ∨ c.pmtud.state ≠ .searchComplete then maxMtu else c.pmtud.effective

/-- `he_internal_calculate_data_packet_length`. src/he/conn.c:1083-1116 -/
def dataPacketLength (p : Padding) (length : Nat) : Nat :=
  if length ≥ maxMtu then length
  else match p with
    | .none => length
    | .full => maxMtu
    | .pad450 => if length ≤ 450 then 450 else if length ≤ 900 then 900 else maxMtu

/-- `he_internal_is_valid_state_for_server_config`. src/he/conn.c:533-548 -/
def validStateForServerConfig (c : Conn) : Bool :=
  c.state = .linkUp || c.state = .authenticating || c.state = .configuring || c.state = .online

end Lightway
