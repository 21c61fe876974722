import Verif.Basic

/-!
# Types of the model: return codes, states, observable effects, environment, connection

Every host callback, TLS-library call and operating-system service is an *oracle* in `Env`; an oracle
receives the whole history of effects so far, so a theorem quantifying over `Env` covers every
behaviour of host, TLS library, plugins, allocator, clock and random generator.
-/

namespace Lightway

/-- Return codes. include/he.h:68-199 -/
inductive RC
  | success | stringTooLong | emptyString | invalidConnState | nullPointer | emptyPacket
  | packetTooSmall | zeroSize | negativeNumber | initFailed | noMemory | notHePacket
  | sslBadFiletype | sslBadFile | sslOutOfMemory | sslAsnInput | sslBuffer | sslCert | sslError
  | confUsernameNotSet | confPasswordNotSet | confCaNotSet | confMtuNotSet | wantRead | wantWrite
  | confOutsideWriteCbNotSet | connectFailed | connectionTimedOut | notConnected
  | unsupportedPacketType | connectionWasClosed | badPacket | callbackFailed | failed
  | serverDnMismatch | cannotVerifyServerCert | neverConnected | invalidMtuSize | cleanupFailed
  | rejectedSession | accessDenied | packetTooLarge | inactivityTimeout | pointerWouldOverflow
  | invalidConnectionType | rngFailure | confAuthCbNotSet | pluginDrop | unknownSession
  | sslErrorNonfatal | incorrectProtocolVersion | confConflictingAuthMethods
  | accessDeniedNoAuthBufHandler | accessDeniedNoAuthUserpassHandler | serverGoodbye
  | invalidAuthType | accessDeniedNoAuthTokenHandler | pmtudCallbacksNotSet | badFragment
  | secureRenegotiationError | cannotEnableChFrag
  deriving DecidableEq, Repr

/-- `he_conn_state_t`. include/he.h:204-222 -/
inductive ConnState
  | none | disconnected | connecting | disconnecting | authenticating | linkUp | online
  | configuring
  deriving DecidableEq, Repr

/-- `he_conn_event_t`. include/he.h:224-238 -/
inductive Event
  | firstMessageReceived | pong | rejectedFragmentedPackets | renegStarted | renegCompleted
  | pendingSessionAcknowledged
  deriving DecidableEq, Repr

/-- `he_padding_type_t`. include/he.h:244-251 -/
inductive Padding | none | full | pad450
  deriving DecidableEq, Repr

/-- `he_connection_type_t`. include/he.h:256-261 (other integer values, which the setter refuses,
are not modelled) -/
inductive ConnType | datagram | stream
  deriving DecidableEq, Repr

/-- `he_pmtud_state_t`. include/he.h:281-312 -/
inductive PmtudState | disabled | base | searching | searchComplete | error
  deriving DecidableEq, Repr

/-- The SSL protocol version as distinguished by the code (`wolfSSL_version`). -/
inductive SslVersion | dtls12 | other
  deriving DecidableEq, Repr

/-- `he_network_config_ipv4_t` as the host sees it: three string buffers of 24 bytes and the MTU.
include/he.h (struct he_network_config_ipv4) -/
structure NetCfg where
  localIp : Bytes
  peerIp : Bytes
  dnsIp : Bytes
  mtu : Nat
  deriving DecidableEq, Repr

/-- wolfSSL error numbers the code distinguishes (everything else is `other`). -/
inductive SslErr
  | none | wantRead | wantWrite | appDataReady | secureReneg | asnSigConfirm | domainMismatch
  | memory | badFuncArg | other (n : Int)
  deriving DecidableEq, Repr

/-- Calls into the TLS library. The names are those of the wolfSSL functions. -/
inductive SslCall
  | new
  | setMtu (n : Nat)
  | allowChFrag
  | useSNI (host : Bytes)
  | checkDomainName (dn : Bytes)
  | useKeyShare
  | negotiate
  | write (msg : Bytes)
  | read
  | shutdown
  | rehandshake
  | updateKeys
  | gotTimeout
  | currentTimeout
  | version
  | quickTimeout
  | renegSupport
  | renegPending
  | keyUpdateResponse
  deriving DecidableEq, Repr

/-- What the TLS library asks of the I/O callbacks during one call: send a record, or read up to
`sz` bytes. -/
inductive IoReq
  | send (rec : Bytes)
  | recv (sz : Nat)
  deriving DecidableEq, Repr

/-- Result of a TLS library call: whether it returned `SSL_SUCCESS` (or the success value of that
function), the signed return value, the error `wolfSSL_get_error` then reports, and the I/O it
performed through the library's callbacks. -/
structure SslRes where
  ok : Bool
  val : Int
  err : SslErr
  io : List IoReq
  deriving DecidableEq, Repr

/-- Result of one `wolfSSL_read`: decrypted bytes (non-empty means a positive return value), or a
non-positive return value with an error. -/
structure ReadRes where
  plain : Bytes
  retZero : Bool
  err : SslErr
  io : List IoReq
  deriving DecidableEq, Repr

/-- Result of a plugin function. include/he_plugin.h (he_plugin_return_code_t) -/
inductive PluginRet | success | fail | drop
  deriving DecidableEq, Repr

/-- Host API functions, as markers in the history. -/
inductive Api
  | clientConnect | serverConnect | disconnect | insidePacket | outsideData | nudge | keepalive
  | sendServerConfig | scheduleReneg | rotateSession | startPmtud | pmtudTimeout | setter
  deriving DecidableEq, Repr

/-- Outcome of one read callback: the bytes given to the TLS library, would-block, nothing because
the buffer was too small, or an error. -/
inductive InRes
  | bytes (bs : Bytes) | wantRead | dropped
  deriving DecidableEq, Repr

/-- Which callbacks are registered (non-NULL). src/he/he_internal.h:212-234 -/
structure Callbacks where
  stateChange : Bool := false
  nudgeTime : Bool := false
  insideWrite : Bool := false
  outsideWrite : Bool := false
  netConfig : Bool := false
  serverConfig : Bool := false
  event : Bool := false
  auth : Bool := false
  authToken : Bool := false
  authBuf : Bool := false
  populate : Bool := false
  pmtudTime : Bool := false
  pmtudState : Bool := false
  deriving DecidableEq, Repr

/-- Everything observable outside the library, in the order it happens. -/
inductive Effect
  /-- the host called this API function -/
  | api (a : Api)
  /-- the API function returned -/
  | ret (rc : RC)
  /-- the connection state became `s`; `notified` says whether a state callback was registered and
  therefore called with `s` -/
  | state (s : ConnState) (notified : Bool)
  /-- an event was generated; `notified` says whether an event callback was registered and therefore
  called with it -/
  | event (e : Event) (notified : Bool)
  | insideWrite (pkt : Bytes)
  | outsideWrite (pkt : Bytes) (rc : RC)
  | netConfig (cfg : NetCfg) (rc : RC)
  | serverConfig (buf : Bytes) (rc : RC)
  | nudgeTime (ms : Int)
  | authUserPass (user pass : Bytes) (ok : Bool)
  | authToken (tok : Bytes) (ok : Bool)
  | authBuf (ty : UInt8) (buf : Bytes) (ok : Bool)
  | populate (rc : RC)
  | pmtudTime (ms : Nat) (rc : RC)
  | pmtudState (s : PmtudState)
  | sslCall (call : SslCall) (ok : Bool)
  /-- the TLS library asked to send a record; `accepted` is the positive count reported back, `none`
  an error -/
  | sslOut (rec : Bytes) (accepted : Option Nat)
  /-- the TLS library asked to read up to `sz` bytes -/
  | sslIn (sz : Nat) (res : InRes)
  | rng (v : Option Nat)
  | clock (t : Int)
  | alloc (ok : Bool)
  | pluginIngress (pkt : Bytes) (r : PluginRet)
  | pluginEgress (pkt : Bytes) (r : PluginRet)
  /-- the TLS library delivered this decrypted message and its processing begins (no callback) -/
  | message (plain : Bytes)
  /-- these bytes became the TLS library's input; `session` is the session id in the datagram's header,
  0 on streams (ghost marker, no callback) -/
  | input (session : Nat) (body : Bytes)
  /-- the connection's callback pointers became `cbs` (ghost marker, no callback) -/
  | callbacks (cbs : Callbacks)
  /-- a connect call replaced the fragment table by an empty one; `requested` is the configured number
  of entries (ghost marker, no callback) -/
  | table (requested : Nat)
  /-- a connect call installed plugin chains holding this many plugins (ghost marker, no callback) -/
  | chains (inside outside : Nat)
  /-- `conn->is_server` was assigned by a connect call (ghost marker, no callback) -/
  | role (server : Bool)
  /-- the connection's retransmission time became `ms` (ghost marker, no callback) -/
  | timer (ms : Int)
  /-- undefined behaviour at the named site -/
  | ub (site : String)
  deriving DecidableEq, Repr

/-- History, newest first. -/
abbrev Log := List Effect

/-- One plugin: both functions optional (`plugin_struct_t`, include/he_plugin.h).  They see the
history, so a plugin may be stateful.  A result longer than the capacity models a plugin that sets
`*length` too large. -/
structure Plugin where
  ingress : Option (Log → Bytes → Nat → PluginRet × Bytes)
  egress : Option (Log → Bytes → Nat → PluginRet × Bytes)

/-- A plugin chain: its nodes in order; a node may hold no plugin (a fresh chain has one empty
node); the empty list is a NULL chain. src/he/he_internal.h:297-300 -/
abbrev Chain := List (Option Plugin)

/-- The environment: host callbacks, TLS library, allocator, clock and random generator. -/
structure Env where
  ssl : Log → SslCall → SslRes
  sslVersion : Log → SslVersion
  outsideWrite : Log → Bytes → RC
  netConfig : Log → NetCfg → RC
  serverConfig : Log → Bytes → RC
  authUserPass : Log → Bytes → Bytes → Bool
  authToken : Log → Bytes → Bool
  authBuf : Log → UInt8 → Bytes → Bool
  /-- result of the populate callback and the config it filled in -/
  populate : Log → RC × NetCfg
  pmtudTime : Log → Nat → RC
  /-- `wc_RNG_GenerateBlock` for 8 bytes: `none` is failure -/
  rng : Log → Option Nat
  now : Log → Int
  /-- does `he_calloc` succeed -/
  alloc : Log → Bool

/-- `he_internal_pmtud_t`. src/he/he_internal.h:153-166 -/
structure Pmtud where
  state : PmtudState := .disabled
  effective : Nat := 0
  base : Nat := 0
  probeCount : Nat := 0
  probingSize : Nat := 0
  bigStep : Bool := false
  pendingId : Nat := 0
  deriving DecidableEq, Repr

/-- `he_fragment_entry_node_t`. src/he/frag.h -/
structure FragNode where
  b : Nat
  e : Nat
  last : Bool
  deriving DecidableEq, Repr

/-- `he_fragment_entry_t`: 1500-byte buffer, creation time, the linked list of nodes in list order.
src/he/frag.h -/
structure FragEntry where
  data : Bytes
  timestamp : Int
  nodes : List FragNode
  deriving DecidableEq, Repr

/-- `he_fragment_table_t`: number of slots and their contents (NULL slot = `none`).
Slots are a total function; only indices below `num` are ever used. src/he/frag.h -/
structure FragTable where
  num : Nat
  slot : Nat → Option FragEntry

/-- `he_ssl_ctx_t`. src/he/he_internal.h:92-151.  Pointers to certificates are kept only as
"is set". -/
structure SslCtx where
  serverDn : Bytes := zeros 51
  useChacha : Bool := false
  caSet : Bool := false
  certSet : Bool := false
  keySet : Bool := false
  connType : ConnType := .datagram
  cbs : Callbacks := {}
  disableRoaming : Bool := false
  padding : Padding := .none
  aggressive : Bool := false
  usePqc : Bool := false
  minMajor : UInt8 := 0
  minMinor : UInt8 := 0
  maxMajor : UInt8 := 0
  maxMinor : UInt8 := 0
  maxFragEntries : Nat := 0
  deriving DecidableEq, Repr

/-- `he_conn_t`. src/he/he_internal.h:170-295.  `wolfSet` says whether `wolf_ssl` is non-NULL.
`incoming = none` is a NULL `incoming_data` pointer; `streamLeft` is the unread rest of the stream
buffer (`incoming_data_left_to_read` bytes at `incoming_data_read_offset_ptr`).  The opaque user
context pointer and the unused `write_buffer` are omitted.  `log` is the history of effects. -/
structure Conn where
  isServer : Bool := false
  insidePlugins : Chain := []
  outsidePlugins : Chain := []
  authType : UInt8 := 0
  username : Bytes := zeros 51
  password : Bytes := zeros 51
  sniHostname : Bytes := zeros 256
  authBuffer : Bytes := zeros 1350
  authBufferLength : Nat := 0
  outsideMtu : Nat := 0
  disableRoaming : Bool := false
  padding : Padding := .none
  aggressive : Bool := false
  usePqc : Bool := false
  connType : ConnType := .datagram
  cbs : Callbacks := {}
  verMajor : UInt8 := 0
  verMinor : UInt8 := 0
  wolfSet : Bool := false
  state : ConnState := .none
  wolfTimeout : Int := 0
  incoming : Option Bytes := none
  packetSeen : Bool := false
  streamLeft : Bytes := []
  sessionId : Nat := 0
  pendingSessionId : Nat := 0
  firstMessageReceived : Bool := false
  nudgeTimerRunning : Bool := false
  renegInProgress : Bool := false
  renegDue : Bool := false
  pingNextId : Nat := 0
  pingPendingId : Nat := 0
  pmtud : Pmtud := {}
  fragNextId : Nat := 0
  fragTable : Option FragTable := none
  wolfError : SslErr := .none
  log : Log := []

/-- Append an effect to the history. -/
def Conn.emit (c : Conn) (e : Effect) : Conn := { c with log := e :: c.log }

/-- Record undefined behaviour. -/
def Conn.ub (c : Conn) (site : String) : Conn := c.emit (.ub site)

/-- `he_conn_create`: a zeroed object. src/he/conn.c:143-145 -/
def Conn.create : Conn := {}

end Lightway
