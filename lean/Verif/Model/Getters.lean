import Verif.Model.Api

/-!
# Getters of a connection
A NULL pointer is `none`.  The context pointer (he_conn_set_context, he_conn_get_context: stored and returned as is) and
the names of cipher and curve, which are passed on from the TLS library, are not modelled.
-/

namespace Lightway

/-- `he_conn_get_state`. src/he/conn.c:847-854 -/
def getState : Option Conn → ConnState
  | none => .none
  | some c => c.state

/-- `he_conn_get_username`: the text up to its NUL; `none` is NULL. src/he/conn.c:955-962 -/
def getUsername : Option Conn → Option Bytes
  | none => none
  | some c => some (cstr c.username)

/-- `he_conn_is_username_set`. src/he/conn.c:964-971 -/
def usernameSet : Option Conn → Bool
  | none => false
  | some c => isUsernameSet c

/-- `he_conn_is_password_set`. src/he/conn.c:983-990 -/
def passwordSet : Option Conn → Bool
  | none => false
  | some c => isPasswordSet c

/-- `he_conn_is_auth_token_set`. src/he/conn.c:1011-1018 -/
def authTokenSet : Option Conn → Bool
  | none => false
  | some c => c.authType == authTokenTy && c.authBufferLength != 0

/-- `he_conn_is_auth_buffer_set`. src/he/conn.c:1040-1047 -/
def authBufferSet : Option Conn → Bool
  | none => false
  | some c => isAuthBufferSet c

/-- `he_conn_get_outside_mtu`. src/he/conn.c:1065-1072 -/
def getOutsideMtu : Option Conn → Nat
  | none => 0
  | some c => c.outsideMtu

/-- `he_conn_is_outside_mtu_set`. src/he/conn.c:1074-1081 -/
def outsideMtuSet : Option Conn → Bool
  | none => false
  | some c => isOutsideMtuSet c

/-- `he_conn_get_protocol_version`; `none` is HE_ERR_NULL_POINTER. src/he/conn.c:932-941 -/
def getProtocolVersion : Option Conn → Option (UInt8 × UInt8)
  | none => none
  | some c => some (c.verMajor, c.verMinor)

/-- `he_conn_get_session_id`. src/he/conn.c:1138-1145 -/
def getSessionId : Option Conn → Nat
  | none => 0
  | some c => c.sessionId

/-- `he_conn_get_pending_session_id`. src/he/conn.c:1147-1154 -/
def getPendingSessionId : Option Conn → Nat
  | none => 0
  | some c => c.pendingSessionId

/-- `he_conn_get_ssl_error` (of the build without threads; a NULL connection is dereferenced, so there is none).
src/he/conn.c:1254-1260.  The setter, src/he/conn.c:1245-1252, is `{ c with wolfError := .. }` wherever it is called. -/
def getSslError (c : Conn) : SslErr := c.wolfError

/-- `he_conn_supports_renegotiation`; `none` means that `wolfSSL_version` is given a NULL TLS object, which it
dereferences.  src/he/conn.c:909-919 -/
def supportsRenegotiation (env : Env) : Option Conn → Option Bool
  | none => some false
  | some c =>
    if !c.wolfSet then none
    else if env.sslVersion c.log = .dtls12 then some (env.ssl c.log .renegSupport).ok
    else some true

end Lightway
