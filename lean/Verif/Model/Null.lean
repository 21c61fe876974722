import Verif.Model.Getters
import Verif.Model.CtxLife
import Verif.Model.Client

/-!
# The public functions with their NULL checks

A pointer argument is an `Option`: `none` is NULL.  The functions of the other model files take objects; here each public
function is modelled from its first line on, in the order in which it tests its pointers.  The context pointer of a
connection (`conn->data`) is modelled here too.
-/

namespace Lightway

/-- A connection together with its context pointer. src/he/he_internal.h:168-290 -/
structure HostConn where
  conn : Conn
  data : Option Ptr := none

/-- The public functions that act on a connection and return a code, with their pointer arguments.  (A plugin chain may be
NULL: that is the empty chain.) -/
inductive CallN
  | clientConnect (ctx : Option SslCtx) (inside outside : Chain)
  | serverConnect (ctx : Option SslCtx) (inside outside : Chain)
  | disconnect
  | insidePacket (pkt : Option Bytes)
  | outsideData (buf : Option Bytes) (reads : List ReadRes)
  | nudge
  | keepalive
  | sendServerConfig (buf : Option Bytes)
  | scheduleReneg
  | rotateSession
  | startPmtud
  | pmtudTimeout
  | setUsername (s : Option Bytes)
  | setPassword (s : Option Bytes)
  | setAuthToken (tok : Option Bytes)
  | setAuthBuffer (buf : Option Bytes)
  | setOutsideMtu (mtu : UInt16)
  | setProtocolVersion (maj min : UInt8)
  | setSessionId (s : UInt64)
  | setSni (s : Option Bytes)
  | setContext (p : Option Ptr)

/-- Run a call whose pointers have all been tested. -/
def HostConn.go (env : Env) (h : HostConn) (op : Op) : Option HostConn × RC :=
  let r := step env h.conn op
  (some { h with conn := r.1 }, r.2)

/-- One public call.  Lines of the tests: client_connect src/he/conn.c:326-328, server_connect 345-347, disconnect 379-381,
inside_packet src/he/flow.c:43-45, outside_data 301-303, nudge conn.c:809-811, keepalive 505-507, server_config 551-553,
schedule_renegotiation 698-700, rotate_session_id 885-887, start_pmtu_discovery 1207-1209, pmtud_probe_timeout 1233-1235,
username 947-949, password 975-977, auth_token 993-995, auth_buffer2 1021-1023, outside_mtu 1051-1053,
protocol_version 923-925, session_id 1157-1159, sni 134-136, set_context 1118-1127. -/
def callN (env : Env) (h : Option HostConn) : CallN → Option HostConn × RC
  | .clientConnect ctx i o =>
    match h, ctx with
    | some h, some ctx => h.go env (.clientConnect ctx i o)
    | h, _ => (h, .nullPointer)
  | .serverConnect ctx i o =>
    match h, ctx with
    | some h, some ctx => h.go env (.serverConnect ctx i o)
    | h, _ => (h, .nullPointer)
  | .disconnect => match h with | some h => h.go env .disconnect | none => (none, .nullPointer)
  | .insidePacket p =>
    match p, h with
    | some p, some h => h.go env (.insidePacket p)
    | _, h => (h, .nullPointer)
  | .outsideData b rs =>
    match b, h with
    | some b, some h => h.go env (.outsideData b rs)
    | _, h => (h, .nullPointer)
  | .nudge => match h with | some h => h.go env .nudge | none => (none, .nullPointer)
  | .keepalive => match h with | some h => h.go env .keepalive | none => (none, .nullPointer)
  | .sendServerConfig b =>
    match h, b with
    | some h, some b => h.go env (.sendServerConfig b)
    | h, _ => (h, .nullPointer)
  | .scheduleReneg => match h with | some h => h.go env .scheduleReneg | none => (none, .nullPointer)
  | .rotateSession => match h with | some h => h.go env .rotateSession | none => (none, .nullPointer)
  | .startPmtud => match h with | some h => h.go env .startPmtud | none => (none, .nullPointer)
  | .pmtudTimeout => match h with | some h => h.go env .pmtudTimeout | none => (none, .nullPointer)
  | .setUsername s =>
    match h, s with
    | some h, some s => h.go env (.setUsername s)
    | h, _ => (h, .nullPointer)
  | .setPassword s =>
    match h, s with
    | some h, some s => h.go env (.setPassword s)
    | h, _ => (h, .nullPointer)
  | .setAuthToken t =>
    match h, t with
    | some h, some t => h.go env (.setAuthToken t)
    | h, _ => (h, .nullPointer)
  | .setAuthBuffer b =>
    match h, b with
    | some h, some b => h.go env (.setAuthBuffer b)
    | h, _ => (h, .nullPointer)
  | .setOutsideMtu m => match h with | some h => h.go env (.setOutsideMtu m) | none => (none, .nullPointer)
  | .setProtocolVersion a b =>
    match h with | some h => h.go env (.setProtocolVersion a b) | none => (none, .nullPointer)
  | .setSessionId s => match h with | some h => h.go env (.setSessionId s) | none => (none, .nullPointer)
  | .setSni s =>
    match h, s with
    | some h, some s => h.go env (.setSni s)
    | h, _ => (h, .nullPointer)
  | .setContext p =>
    match h, p with
    | some h, some p => (some { h with data := some p }, .success)
    | h, _ => (h, .nullPointer)

/-- `he_conn_get_context`. src/he/conn.c:1129-1136 -/
def getContext : Option HostConn → Option Ptr
  | none => none
  | some h => h.data

/-- `he_conn_is_error_fatal` tests its pointer first. src/he/conn.c:35-40 -/
def isErrorFatalN : Option Conn → RC → Bool
  | none, _ => true
  | some c, rc => isErrorFatal c.connType rc

/-- `he_conn_get_nudge_time`. src/he/conn.c:795-805 -/
def getNudgeTimeN : Option Conn → Int
  | none => 0
  | some c => getNudgeTime c

/-- `he_conn_get_effective_pmtu`: 1350 for NULL. src/he/conn.c:1225-1230 -/
def getEffectivePmtuN : Option Conn → Nat
  | none => maxMtu
  | some c => effectivePmtu c

/-- What `wolfSSL_version` may answer. -/
inductive TlsVer | tls13 | dtls12 | dtls13 | other
  deriving DecidableEq, Repr

/-- `he_connection_protocol_t`. include/he.h:266-275 -/
inductive ConnProtocol | none | tls13 | dtls12 | dtls13
  deriving DecidableEq, Repr

/-- `he_conn_get_current_protocol`; `v` is the TLS library's answer. src/he/conn.c:1180-1197 -/
def getCurrentProtocol (v : TlsVer) : Option Conn → ConnProtocol
  | .none => .none
  | some c =>
    if !c.wolfSet then .none
    else match v with
      | .tls13 => .tls13
      | .dtls12 => .dtls12
      | .dtls13 => .dtls13
      | .other => .none

/-- `he_conn_get_current_cipher` and `he_conn_get_curve_name`; `name` is the TLS library's answer (`none`: NULL, or no
cipher). src/he/conn.c:1169-1178, 1199-1204 -/
def getTlsName (name : Option Bytes) : Option Conn → Option Bytes
  | none => none
  | some c => if !c.wolfSet then none else name

/-- `he_conn_is_valid_client`: only the connection is tested; of a NULL context no version is the latest.
src/he/conn.c:85-113, src/he/ssl_ctx.c:409-413 -/
def isValidClientN (ctx : Option SslCtx) : Option Conn → RC
  | none => .nullPointer
  | some c => match ctx with
    | some ctx => isValidClient ctx c
    | none =>
      let auth : RC :=
        if !isAuthBufferSet c then
          if !isUsernameSet c then .confUsernameNotSet
          else if !isPasswordSet c then .confPasswordNotSet
          else .success
        else if isUsernameSet c then .confConflictingAuthMethods
        else .success
      if auth ≠ .success then auth
      else if !isOutsideMtuSet c then .confMtuNotSet
      else if c.verMajor ≠ 0 then .incorrectProtocolVersion
      else .success

/-- `he_conn_is_valid_server`. src/he/conn.c:115-131, src/he/ssl_ctx.c:376-381 -/
def isValidServerN (ctx : Option SslCtx) : Option Conn → RC
  | none => .nullPointer
  | some c => match ctx with
    | some ctx => isValidServer ctx c
    | none =>
      if !isOutsideMtuSet c then .confMtuNotSet
      else if c.verMajor ≠ 0 then .incorrectProtocolVersion
      else .success

/-- `he_plugin_register_plugin`: the empty list is a NULL chain. src/he/plugin_chain.c:34-37 -/
def registerN (ch : Chain) : Option Plugin → Chain × RC
  | none => (ch, .nullPointer)
  | some p => ch.register p

/-! ### The context object -/

/-- The functions of src/he/ssl_ctx.c that return a code, with their pointer arguments. -/
inductive CtxCallN
  | setMinVersion (maj min : UInt8)
  | setMaxVersion (maj min : UInt8)
  | setServerDn (s : Option Bytes)
  | setUseChacha (b : Bool)
  | setCa (buf : Option Ptr) (len : Nat)
  | setCertKey (cert key : Option Ptr)
  | setConnType (n : Int)
  | disableRoaming
  | setPadding (p : Padding)
  | aggressive
  | setUsePqc (b : Bool)
  | setMaxFrag (n : Nat)
  | start
  | startServer
  | stop

/-- Run a call whose pointers have all been tested. -/
def CtxObj.go (t : TlsCtxEnv) (o : CtxObj) (op : CtxOp) : Option CtxObj × RC :=
  let r := o.step t op
  (some r.1, r.2)

/-- One call.  Lines of the tests in src/he/ssl_ctx.c: 331-333, 355-357, server_dn 423-425 with src/he/config.c:51-53,
chacha 450-452, ca 469-475, cert/key 504-510, connection type 530-532, roaming 708-710, padding 729-731, aggressive 748-750,
pqc 759-761, max_frag_entries 770-772, start 154-156, start_server 236-238; `he_ssl_ctx_stop` (311-314) does not look at its
argument. -/
def ctxCallN (t : TlsCtxEnv) (o : Option CtxObj) : CtxCallN → Option CtxObj × RC
  | .setMinVersion a b => match o with | some o => o.go t (.setMinVersion a b) | none => (none, .nullPointer)
  | .setMaxVersion a b => match o with | some o => o.go t (.setMaxVersion a b) | none => (none, .nullPointer)
  | .setServerDn s =>
    match o with
    | none => (none, .nullPointer)
    | some o => match s with
      | none => (some o, .nullPointer)
      | some s => o.go t (.setServerDn s)
  | .setUseChacha b => match o with | some o => o.go t (.setUseChacha b) | none => (none, .nullPointer)
  | .setCa buf len =>
    match o with
    | none => (none, .nullPointer)
    | some o => match buf with
      | none => (some o, .nullPointer)
      | some buf => o.go t (.setCa buf len)
  | .setCertKey cert key =>
    match o with
    | none => (none, .nullPointer)
    | some o => match cert, key with
      | some cert, some key => o.go t (.setCertKey cert key)
      | _, _ => (some o, .nullPointer)
  | .setConnType n => match o with | some o => o.go t (.setConnType n) | none => (none, .nullPointer)
  | .disableRoaming => match o with | some o => o.go t .disableRoaming | none => (none, .nullPointer)
  | .setPadding p => match o with | some o => o.go t (.setPadding p) | none => (none, .nullPointer)
  | .aggressive => match o with | some o => o.go t .aggressive | none => (none, .nullPointer)
  | .setUsePqc b => match o with | some o => o.go t (.setUsePqc b) | none => (none, .nullPointer)
  | .setMaxFrag n => match o with | some o => o.go t (.setMaxFrag n) | none => (none, .nullPointer)
  | .start => match o with | some o => o.go t .start | none => (none, .nullPointer)
  | .startServer => match o with | some o => o.go t .startServer | none => (none, .nullPointer)
  | .stop => (o, .success)

/-- The registration functions: `void`, and a NULL context is ignored. src/he/ssl_ctx.c:542-704 -/
def ctxSetCbN (t : TlsCtxEnv) (o : Option CtxObj) (k : CbKind) (p : Option Ptr) : Option CtxObj :=
  match o with
  | none => none
  | some o => (o.go t (.setCb k p)).1

/-- `he_ssl_ctx_is_ca_set`. src/he/ssl_ctx.c:492-499 -/
def isCaSetN : Option CtxObj → Bool
  | none => false
  | some o => o.isCaSet

/-- `he_ssl_ctx_is_server_dn_set`. src/he/ssl_ctx.c:439-446 -/
def isServerDnSetN : Option CtxObj → Bool
  | none => false
  | some o => isServerDnSet o.base

/-- `he_ssl_ctx_is_*_cb_set`. src/he/ssl_ctx.c:551-630 -/
def isCbSetN (k : CbKind) : Option CtxObj → Bool
  | none => false
  | some o => o.isCbSet k

/-- `he_ssl_ctx_is_server_cert_key_set`: for NULL it returns `HE_ERR_NULL_POINTER` as a `bool`. src/he/ssl_ctx.c:518-525 -/
def isCertKeySetN : Option CtxObj → Bool
  | none => true
  | some o => o.isCertKeySet

/-- `he_ssl_ctx_get_padding_type`, as the number returned: for NULL, HE_ERR_NULL_POINTER, that is -4.
src/he/ssl_ctx.c:737-744, include/he.h:84, 245-251 -/
def getPaddingN : Option CtxObj → Int
  | none => -4
  | some o => match o.base.padding with
    | .none => 0
    | .full => 1
    | .pad450 => 2

/-! ### The client object, initialisation -/

/-- The functions of src/he/client.c.  src/he/client.c:60-62, 86-88, 99-101; `he_client_destroy` (46-57) accepts NULL. -/
def clientConnectN (env : Env) (r : StartRes) : Option Client → Option Client × RC
  | none => (none, .nullPointer)
  | some cl => let q := cl.connect env r; (some q.1, q.2)

def clientDisconnectN (env : Env) : Option Client → Option Client × RC
  | none => (none, .nullPointer)
  | some cl => let q := cl.disconnect env; (some q.1, q.2)

def clientConfigValidN : Option Client → RC
  | none => .nullPointer
  | some cl => cl.isConfigValid

/-- `he_init` and `he_cleanup`; the argument is whether the TLS library's function succeeded. src/he/ssl_ctx.c:33-53 -/
def heInit (ok : Bool) : RC := if ok then .success else .initFailed
def heCleanup (ok : Bool) : RC := if ok then .success else .cleanupFailed

/-- A host making calls on one connection object. -/
def runN (env : Env) (h : Option HostConn) : List CallN → Option HostConn
  | [] => h
  | call :: calls => runN env (callN env h call).1 calls

/-- A host's call on a context: one that returns a code, or the registration of a callback (`none`: NULL). -/
inductive CtxHostCall
  | call (c : CtxCallN)
  | register (k : CbKind) (p : Option Ptr)

/-- A host making calls on one context object. -/
def runCtxN (t : TlsCtxEnv) (o : Option CtxObj) : List CtxHostCall → Option CtxObj
  | [] => o
  | .call c :: calls => runCtxN t (ctxCallN t o c).1 calls
  | .register k p :: calls => runCtxN t (ctxSetCbN t o k p) calls

end Lightway
