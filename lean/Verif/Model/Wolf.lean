import Verif.Model.Plugin

/-!
# src/he/wolf.c, src/he/core.c: the I/O callbacks the TLS library calls, and calls into it
The non-multithreaded build is modelled (packet pointers live in the connection).
-/

namespace Lightway

/-- `HE_PACKET_SESSION_EMPTY`, `HE_PACKET_SESSION_REJECT`. src/he/he_internal.h / flow.c -/
def sessionEmpty : Nat := 0
def sessionReject : Nat := 2 ^ 64 - 1

/-- The 16-byte wire header written into a zeroed buffer by `he_internal_write_packet_header`.
src/he/wolf.c:74-104: 'H' 'e' major minor aggressive reserved[3] session(8, host order) -/
def wireHeader (c : Conn) : Bytes :=
  [72, 101, c.verMajor, c.verMinor, if c.aggressive then 1 else 0, 0, 0, 0] ++
  le64 (if c.disableRoaming then sessionReject
        else if c.pendingSessionId ≠ sessionEmpty then c.pendingSessionId else c.sessionId)

/-- One call of the outside-write callback. -/
def outsideWriteCb (env : Env) (c : Conn) (pkt : Bytes) : Conn × RC :=
  let rc := env.outsideWrite c.log pkt
  (c.emit (.outsideWrite pkt rc), rc)

/-- `he_wolf_dtls_write_internal`: result `none` is `WOLFSSL_CBIO_ERR_GENERAL`.
src/he/wolf.c:111-180 -/
def dtlsWrite (env : Env) (c : Conn) (rec : Bytes) : Conn × Option Nat :=
  if rec.length + 16 > maxWireMtu then (c, none)
  else
    let r := c.outsidePlugins.egress c.log (wireHeader c ++ rec) maxWireMtu
    let c := { c with log := r.1 }
    if r.2.2 = .pluginDrop then (c, some rec.length)
    else if r.2.2 ≠ .success ∨ r.2.1.length > maxWireMtu then (c, none)
    else if !c.cbs.outsideWrite then (c, some rec.length)
    else
      let (c, rc) := outsideWriteCb env c r.2.1
      if rc ≠ .success then (c, none)
      else if c.state ≠ .online ∨ c.aggressive then
        let (c, rc) := outsideWriteCb env c r.2.1
        if rc ≠ .success then (c, none)
        else
          let (c, rc) := outsideWriteCb env c r.2.1
          if rc ≠ .success then (c, none) else (c, some rec.length)
      else (c, some rec.length)

/-- `he_wolf_tls_write_internal`. src/he/wolf.c:235-288 -/
def tlsWrite (env : Env) (c : Conn) (rec : Bytes) : Conn × Option Nat :=
  let n := if rec.length < maxWireMtu then rec.length else maxWireMtu
  let r := c.outsidePlugins.egress c.log (rec.take n) maxWireMtu
  let c := { c with log := r.1 }
  if r.2.2 = .pluginDrop then (c, some rec.length)
  else if r.2.2 ≠ .success ∨ r.2.1.length > maxWireMtu then (c, none)
  else if !c.cbs.outsideWrite then (c, some n)
  else
    let (c, rc) := outsideWriteCb env c r.2.1
    if rc ≠ .success then (c, none) else (c, some n)

/-- `he_wolf_dtls_read`. src/he/wolf.c:26-72 -/
def dtlsRead (c : Conn) (sz : Nat) : Conn × InRes :=
  match c.incoming with
  | none => (c, .wantRead)
  | some pkt =>
    if c.packetSeen then (c, .wantRead)
    else if pkt.length > sz then ({ c with packetSeen := true }, .dropped)
    else ({ c with packetSeen := true }, .bytes pkt)

/-- `he_wolf_tls_read`. src/he/wolf.c:182-228.  (The NULL-pointer test at 205 cannot fire when bytes
are left, because `he_internal_setup_stream_state` sets both.) -/
def tlsRead (c : Conn) (sz : Nat) : Conn × InRes :=
  if c.streamLeft.length = 0 then (c, .wantRead)
  else
    let n := if sz < c.streamLeft.length then sz else c.streamLeft.length
    ({ c with streamLeft := c.streamLeft.drop n }, .bytes (c.streamLeft.take n))

/-- One I/O request of the TLS library, dispatched to the callbacks registered for the connection
type. src/he/ssl_ctx.c:135-141 -/
def ioStep (env : Env) (c : Conn) : IoReq → Conn
  | .send rec =>
    let r := match c.connType with
      | .datagram => dtlsWrite env c rec
      | .stream => tlsWrite env c rec
    r.1.emit (.sslOut rec r.2)
  | .recv sz =>
    let r := match c.connType with
      | .datagram => dtlsRead c sz
      | .stream => tlsRead c sz
    r.1.emit (.sslIn sz r.2)

/-- Perform the I/O of one TLS library call. -/
def ioRun (env : Env) (c : Conn) (io : List IoReq) : Conn := io.foldl (ioStep env) c

/-- Result of every wolfSSL function on a NULL `WOLFSSL*`: `BAD_FUNC_ARG`, no I/O. -/
def nullSslRes : SslRes := { ok := false, val := -1, err := .badFuncArg, io := [] }

/-- A call into the TLS library on `conn->wolf_ssl`. -/
def sslDo (env : Env) (c : Conn) (call : SslCall) : Conn × SslRes :=
  let r := if c.wolfSet then env.ssl c.log call else nullSslRes
  (ioRun env (c.emit (.sslCall call r.ok)) r.io, r)

/-- `he_internal_setup_stream_state`. src/he/core.c:23-39 -/
def setupStreamState (c : Conn) (data : Bytes) : Conn × RC :=
  if c.streamLeft.length ≠ 0 then ({ c with wolfError := .none }, .sslError)
  else ({ c.emit (.input 0 data) with incoming := some data, streamLeft := data }, .success)

end Lightway
