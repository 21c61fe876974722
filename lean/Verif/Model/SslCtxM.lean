import Verif.Model.Config

/-!
# src/he/ssl_ctx.c
TLS-library set-up calls inside `he_ssl_ctx_start*` are one oracle answer each.
-/

namespace Lightway

/-- `HE_WIRE_{MINIMUM,MAXIMUM}_PROTOCOL_*`: 1.0 to 1.2. include/he.h:46-49 -/
def wireMinMajor : UInt8 := 1
def wireMinMinor : UInt8 := 0
def wireMaxMajor : UInt8 := 1
def wireMaxMinor : UInt8 := 2

/-- `he_ssl_ctx_create`: zeroed object. src/he/ssl_ctx.c:111-113 -/
def SslCtx.create : SslCtx := {}

/-- `he_ssl_ctx_is_server_dn_set`. src/he/ssl_ctx.c:439-446 -/
def isServerDnSet (ctx : SslCtx) : Bool := !configIsEmptyString ctx.serverDn

/-- `he_ssl_ctx_is_auth_cb_set`. src/he/ssl_ctx.c:668-675 -/
def isAuthCbSet (ctx : SslCtx) : Bool := ctx.cbs.auth || ctx.cbs.authBuf

/-- `he_ssl_ctx_is_valid_client` with `..is_valid_common`. src/he/ssl_ctx.c:55-85 -/
def ctxValidClient (ctx : SslCtx) : RC :=
  if !ctx.cbs.outsideWrite then .confOutsideWriteCbNotSet
  else if !ctx.caSet then .confCaNotSet
  else .success

/-- `he_ssl_ctx_is_valid_server`. src/he/ssl_ctx.c:87-109 -/
def ctxValidServer (ctx : SslCtx) : RC :=
  if !ctx.cbs.outsideWrite then .confOutsideWriteCbNotSet
  else if !(ctx.certSet && ctx.keySet) then .confCaNotSet
  else if !isAuthCbSet ctx then .confAuthCbNotSet
  else .success

/-- `he_is_valid_wire_protocol_version`. src/he/ssl_ctx.c:316-326 -/
def validWireVersion (maj min : UInt8) : Bool :=
  !(decide (maj < wireMinMajor) || (maj = wireMinMajor && decide (min < wireMinMinor)) ||
    decide (maj > wireMaxMajor) || (maj = wireMaxMajor && decide (min > wireMaxMinor)))

/-- `he_ssl_ctx_set_minimum_supported_version`. src/he/ssl_ctx.c:328-350 -/
def setMinVersion (ctx : SslCtx) (maj min : UInt8) : SslCtx × RC :=
  let (maj, min) := if maj = 0 ∧ min = 0 then (wireMinMajor, wireMinMinor) else (maj, min)
  if !validWireVersion maj min then (ctx, .incorrectProtocolVersion)
  else ({ ctx with minMajor := maj, minMinor := min }, .success)

/-- `he_ssl_ctx_set_maximum_supported_version`. src/he/ssl_ctx.c:352-374 -/
def setMaxVersion (ctx : SslCtx) (maj min : UInt8) : SslCtx × RC :=
  let (maj, min) := if maj = 0 ∧ min = 0 then (wireMaxMajor, wireMaxMinor) else (maj, min)
  if !validWireVersion maj min then (ctx, .incorrectProtocolVersion)
  else ({ ctx with maxMajor := maj, maxMinor := min }, .success)

/-- `he_ssl_ctx_is_supported_version`. src/he/ssl_ctx.c:376-407 -/
def isSupportedVersion (ctx : SslCtx) (maj min : UInt8) : Bool :=
  if maj < ctx.minMajor ∨ maj > ctx.maxMajor then false
  else if maj = ctx.minMajor ∧ min < ctx.minMinor then false
  else if maj = ctx.maxMajor ∧ min > ctx.maxMinor then false
  else true

/-- `he_ssl_ctx_is_latest_version`. src/he/ssl_ctx.c:409-418 -/
def isLatestVersion (ctx : SslCtx) (maj min : UInt8) : Bool :=
  maj = ctx.maxMajor && min = ctx.maxMinor

/-- Outcome of the TLS-library set-up in `he_ssl_ctx_start*`: context creation, loading of the
certificate material, cipher/version/group set-up, secure renegotiation. -/
structure StartRes where
  newCtx : Bool
  /-- `some rc` is the mapped error of loading the CA (client) or the certificate, key or random
  generator (server) -/
  load : Option RC
  ciphers : Bool
  reneg : Bool

/-- `he_ssl_ctx_start_common`. src/he/ssl_ctx.c:122-150 -/
def ctxStartCommon (ctx : SslCtx) (reneg : Bool) : SslCtx × RC :=
  let ctx := { ctx with minMajor := wireMinMajor, minMinor := wireMinMinor,
                        maxMajor := wireMaxMajor, maxMinor := wireMaxMinor }
  if ctx.connType = .datagram ∧ !reneg then (ctx, .initFailed) else (ctx, .success)

/-- `he_ssl_ctx_start`. src/he/ssl_ctx.c:152-233 -/
def ctxStart (ctx : SslCtx) (r : StartRes) : SslCtx × RC :=
  if ctxValidClient ctx ≠ .success then (ctx, ctxValidClient ctx)
  else if !r.newCtx then (ctx, .initFailed)
  else
    match r.load with
    | some rc => (ctx, rc)
    | none => if !r.ciphers then (ctx, .initFailed) else ctxStartCommon ctx r.reneg

/-- `he_ssl_ctx_start_server`. src/he/ssl_ctx.c:235-309 -/
def ctxStartServer (ctx : SslCtx) (r : StartRes) : SslCtx × RC :=
  if ctxValidServer ctx ≠ .success then (ctx, ctxValidServer ctx)
  else if !r.newCtx then (ctx, .initFailed)
  else if r.load.isSome then (ctx, .initFailed)
  else if !r.ciphers then (ctx, .initFailed)
  else ctxStartCommon ctx r.reneg

/-- `he_ssl_ctx_set_server_dn`. src/he/ssl_ctx.c:421-428 -/
def setServerDn (ctx : SslCtx) (s : Bytes) : SslCtx × RC :=
  let r := setConfigString ctx.serverDn s
  ({ ctx with serverDn := r.1 }, r.2)

/-- `he_ssl_ctx_set_ca`. src/he/ssl_ctx.c:467-490 -/
def setCa (ctx : SslCtx) (length : Nat) : SslCtx × RC :=
  if length = 0 then (ctx, .zeroSize) else ({ ctx with caSet := true }, .success)

/-- `he_ssl_ctx_set_server_cert_key_files`. src/he/ssl_ctx.c:501-516 -/
def setServerCertKey (ctx : SslCtx) : SslCtx × RC :=
  ({ ctx with certSet := true, keySet := true }, .success)

/-- `he_ssl_ctx_set_max_frag_entries`. src/he/ssl_ctx.c:768-777 -/
def setMaxFragEntries (ctx : SslCtx) (n : Nat) : SslCtx × RC :=
  ({ ctx with maxFragEntries := if n > 65536 then 65536 else n }, .success)

/-- `he_ssl_ctx_set_connection_type`. src/he/ssl_ctx.c:527-540; any other integer is refused. -/
def setConnType (ctx : SslCtx) (n : Int) : SslCtx × RC :=
  if n = 0 then ({ ctx with connType := .datagram }, .success)
  else if n = 1 then ({ ctx with connType := .stream }, .success)
  else (ctx, .invalidConnectionType)

/-- `he_ssl_ctx_set_disable_roaming`, `..set_padding_type`, `..set_aggressive_mode`,
`..set_use_pqc`, `..set_use_chacha20`. src/he/ssl_ctx.c:448-456, 706-765 -/
def setDisableRoaming (ctx : SslCtx) : SslCtx × RC := ({ ctx with disableRoaming := true }, .success)
def setPaddingType (ctx : SslCtx) (p : Padding) : SslCtx × RC := ({ ctx with padding := p }, .success)
def setAggressiveMode (ctx : SslCtx) : SslCtx × RC := ({ ctx with aggressive := true }, .success)
def setUsePqc (ctx : SslCtx) (b : Bool) : SslCtx × RC := ({ ctx with usePqc := b }, .success)
def setUseChacha (ctx : SslCtx) (b : Bool) : SslCtx × RC := ({ ctx with useChacha := b }, .success)

/-- The callback registration functions: each writes its own pointer (`b` is "non-NULL").
src/he/ssl_ctx.c:542-704 -/
def setCallbacks (ctx : SslCtx) (f : Callbacks → Callbacks) : SslCtx := { ctx with cbs := f ctx.cbs }

end Lightway
