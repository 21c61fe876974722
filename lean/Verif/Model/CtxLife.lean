import Verif.Model.SslCtxM

/-!
# The context object of src/he/ssl_ctx.c, with its pointers and the TLS-library calls of its start functions

`SslCtx` (Model/Types) is what a connection copies.  Here the whole object is modelled: the pointers the host hands in
(a certificate-authority buffer, certificate and key file names, callbacks; all kept by address, not copied) and every
TLS-library call the two start functions make, in order.
-/

namespace Lightway

/-- A host address (of a buffer, a file name or a function). -/
abbrev Ptr := Nat

/-- What a TLS-library set-up call answers; for `wolfSSL_CTX_new` and `wc_InitRng`, `ok` is a non-NULL pointer and 0.
The names are the library's error constants that `he_ssl_ctx_start` tells apart. src/he/ssl_ctx.c:188-203 -/
inductive TlsRes
  | ok | badFiletype | badFile | memory | asnInput | buffer | other
  deriving DecidableEq, Repr

/-- The method a TLS context is made for. src/he/ssl_ctx.c:170-176, 247-253 -/
inductive TlsMethod
  | tls13Client | dtlsClient | tls13Server | dtlsServer
  deriving DecidableEq, Repr

/-- The TLS-library calls made on a context. -/
inductive CtxCall
  | new (m : TlsMethod)
  | loadVerify (buf : Ptr) (size : Nat)
  | certFile (name : Ptr)
  | keyFile (name : Ptr)
  | initRng
  | minDtls12
  | ciphers (list : String)
  | groups (names : List String)
  | ioRecv (stream : Bool)
  | ioSend (stream : Bool)
  | secureReneg
  deriving DecidableEq, Repr

/-- The callbacks of a context, by kind. -/
inductive CbKind
  | stateChange | nudgeTime | insideWrite | outsideWrite | netConfig | serverConfig | event | auth | authToken | authBuf
  | populate | pmtudTime | pmtudState
  deriving DecidableEq, Repr

/-- Register (or clear) one callback: each registration function assigns its own field.
src/he/ssl_ctx.c:542-704 -/
def CbKind.put (b : Bool) : CbKind → Callbacks → Callbacks
  | .stateChange, s => { s with stateChange := b }
  | .nudgeTime, s => { s with nudgeTime := b }
  | .insideWrite, s => { s with insideWrite := b }
  | .outsideWrite, s => { s with outsideWrite := b }
  | .netConfig, s => { s with netConfig := b }
  | .serverConfig, s => { s with serverConfig := b }
  | .event, s => { s with event := b }
  | .auth, s => { s with auth := b }
  | .authToken, s => { s with authToken := b }
  | .authBuf, s => { s with authBuf := b }
  | .populate, s => { s with populate := b }
  | .pmtudTime, s => { s with pmtudTime := b }
  | .pmtudState, s => { s with pmtudState := b }

/-- `he_ssl_ctx_t`. src/he/he_internal.h:92-166.  `base` holds the fields a connection uses, `calls` the TLS calls made
so far, oldest first. -/
structure CtxObj where
  base : SslCtx := {}
  ca : Option (Ptr × Nat) := none
  cert : Option Ptr := none
  key : Option Ptr := none
  cb : CbKind → Option Ptr := fun _ => none
  calls : List CtxCall := []

/-- The TLS library: its answer to a call, given all earlier calls. -/
abbrev TlsCtxEnv := List CtxCall → CtxCall → TlsRes

/-- Make one TLS call. -/
def CtxObj.tls (t : TlsCtxEnv) (o : CtxObj) (call : CtxCall) : CtxObj × TlsRes :=
  ({ o with calls := o.calls ++ [call] }, t o.calls call)

/-- `he_ssl_ctx_start_common`. src/he/ssl_ctx.c:122-150 -/
def CtxObj.startCommon (t : TlsCtxEnv) (o : CtxObj) : CtxObj × RC :=
  let o := { o with base := { o.base with minMajor := wireMinMajor, minMinor := wireMinMinor,
                                          maxMajor := wireMaxMajor, maxMinor := wireMaxMinor } }
  let stream : Bool := o.base.connType = .stream
  let o := (o.tls t (.ioRecv stream)).1
  let o := (o.tls t (.ioSend stream)).1
  if o.base.connType = .datagram then
    let (o, r) := o.tls t .secureReneg
    if r ≠ .ok then (o, .initFailed) else (o, .success)
  else (o, .success)

/-- The error codes of loading the certificate authority. src/he/ssl_ctx.c:188-203 -/
def loadError : TlsRes → RC
  | .badFiletype => .sslBadFiletype
  | .badFile => .sslBadFile
  | .memory => .sslOutOfMemory
  | .asnInput => .sslAsnInput
  | .buffer => .sslBuffer
  | _ => .sslCert

/-- `he_ssl_ctx_start`. src/he/ssl_ctx.c:152-233.  The CA pointer is set when the validity check passes; `getD` is
never used then. -/
def CtxObj.start (t : TlsCtxEnv) (o : CtxObj) : CtxObj × RC :=
  if ctxValidClient o.base ≠ .success then (o, ctxValidClient o.base)
  else
    let (o, r) := o.tls t (.new (if o.base.connType = .stream then .tls13Client else .dtlsClient))
    if r ≠ .ok then (o, .initFailed)
    else
      let (o, r) := o.tls t (.loadVerify (o.ca.getD (0, 0)).1 (o.ca.getD (0, 0)).2)
      if r ≠ .ok then (o, loadError r)
      else if o.base.connType = .stream then
        let (o, r) := o.tls t (.ciphers
          (if o.base.useChacha then "TLS13-CHACHA20-POLY1305-SHA256" else "TLS13-AES256-GCM-SHA384"))
        if r ≠ .ok then (o, .initFailed) else o.startCommon t
      else
        let (o, r) := o.tls t .minDtls12
        if r ≠ .ok then (o, .initFailed)
        else
          let (o, r) := o.tls t (.ciphers
            (if o.base.useChacha then "TLS13-CHACHA20-POLY1305-SHA256:ECDHE-RSA-CHACHA20-POLY1305"
             else "TLS13-AES256-GCM-SHA384:ECDHE-RSA-AES256-GCM-SHA384"))
          if r ≠ .ok then (o, .initFailed) else o.startCommon t

/-- `he_ssl_ctx_start_server`, in a build with post-quantum groups. src/he/ssl_ctx.c:235-309 -/
def CtxObj.startServer (t : TlsCtxEnv) (o : CtxObj) : CtxObj × RC :=
  if ctxValidServer o.base ≠ .success then (o, ctxValidServer o.base)
  else
    let (o, r) := o.tls t (.new (if o.base.connType = .stream then .tls13Server else .dtlsServer))
    if r ≠ .ok then (o, .initFailed)
    else
      let (o, r) := o.tls t (.certFile (o.cert.getD 0))
      if r ≠ .ok then (o, .initFailed)
      else
        let (o, r) := o.tls t (.keyFile (o.key.getD 0))
        if r ≠ .ok then (o, .initFailed)
        else
          let (o, r) := o.tls t .initRng
          if r ≠ .ok then (o, .initFailed)
          else
            let (o, r) := o.tls t (.ciphers
              (if o.base.connType = .stream then "TLS13-AES256-GCM-SHA384:TLS13-CHACHA20-POLY1305-SHA256"
               else "TLS13-CHACHA20-POLY1305-SHA256:ECDHE-RSA-CHACHA20-POLY1305" ++
                    ":TLS13-AES256-GCM-SHA384:ECDHE-RSA-AES256-GCM-SHA384"))
            if r ≠ .ok then (o, .initFailed)
            else
              let (o, r) := o.tls t (.groups ["P521_ML_KEM_1024", "P521_KYBER_LEVEL5", "P256_KYBER_LEVEL1",
                "ECC_SECP256R1", "ECC_X25519"])
              if r ≠ .ok then (o, .initFailed) else o.startCommon t

/-- The calls a host may make on a context it created.  NULL arguments are not modelled except where a pointer may be
NULL in normal use (clearing a callback). -/
inductive CtxOp
  | setMinVersion (maj min : UInt8)
  | setMaxVersion (maj min : UInt8)
  | setServerDn (s : Bytes)
  | setUseChacha (b : Bool)
  | setCa (buf : Ptr) (len : Nat)
  | setCertKey (cert key : Ptr)
  | setConnType (n : Int)
  | setCb (k : CbKind) (p : Option Ptr)
  | disableRoaming
  | setPadding (p : Padding)
  | aggressive
  | setUsePqc (b : Bool)
  | setMaxFrag (n : Nat)
  | start
  | startServer
  | stop
  deriving DecidableEq, Repr

/-- One host call on a context: the new object and the return code (functions returning `void` count as successful).
src/he/ssl_ctx.c:152-777 -/
def CtxObj.step (t : TlsCtxEnv) (o : CtxObj) : CtxOp → CtxObj × RC
  | .setMinVersion maj min => let r := Lightway.setMinVersion o.base maj min; ({ o with base := r.1 }, r.2)
  | .setMaxVersion maj min => let r := Lightway.setMaxVersion o.base maj min; ({ o with base := r.1 }, r.2)
  | .setServerDn s => let r := Lightway.setServerDn o.base s; ({ o with base := r.1 }, r.2)
  | .setUseChacha b => let r := Lightway.setUseChacha o.base b; ({ o with base := r.1 }, r.2)
  | .setCa buf len =>
    let r := Lightway.setCa o.base len
    ({ o with base := r.1, ca := if r.2 = .success then some (buf, len) else o.ca }, r.2)
  | .setCertKey cert key =>
    let r := setServerCertKey o.base
    ({ o with base := r.1, cert := some cert, key := some key }, r.2)
  | .setConnType n => let r := Lightway.setConnType o.base n; ({ o with base := r.1 }, r.2)
  | .setCb k p =>
    ({ o with base := setCallbacks o.base (k.put p.isSome), cb := fun j => if j = k then p else o.cb j }, .success)
  | .disableRoaming => let r := setDisableRoaming o.base; ({ o with base := r.1 }, r.2)
  | .setPadding p => let r := setPaddingType o.base p; ({ o with base := r.1 }, r.2)
  | .aggressive => let r := setAggressiveMode o.base; ({ o with base := r.1 }, r.2)
  | .setUsePqc b => let r := Lightway.setUsePqc o.base b; ({ o with base := r.1 }, r.2)
  | .setMaxFrag n => let r := setMaxFragEntries o.base n; ({ o with base := r.1 }, r.2)
  | .start => o.start t
  | .startServer => o.startServer t
  | .stop => (o, .success)

/-- One entry of a context's history: the call, its result and the TLS calls made during it. -/
structure CtxEntry where
  op : CtxOp
  rc : RC
  calls : List CtxCall
  deriving DecidableEq, Repr

/-- A host making calls on an object: the object afterwards and the history. -/
def CtxObj.runFrom (t : TlsCtxEnv) (o : CtxObj) : List CtxOp → CtxObj × List CtxEntry
  | [] => (o, [])
  | op :: ops =>
    let r := o.step t op
    let q := r.1.runFrom t ops
    (q.1, ⟨op, r.2, r.1.calls.drop o.calls.length⟩ :: q.2)

/-- A host making calls on a fresh context (`he_ssl_ctx_create`). src/he/ssl_ctx.c:111-113 -/
def ctxRun (t : TlsCtxEnv) (ops : List CtxOp) : CtxObj × List CtxEntry := CtxObj.runFrom t {} ops

/-! ### The getters -/

/-- `he_ssl_ctx_is_*_cb_set` for the five callbacks that have one; src/he/ssl_ctx.c:552-628.  The same test is what a
connection makes before calling any of the thirteen. -/
def CtxObj.isCbSet (o : CtxObj) (k : CbKind) : Bool := (o.cb k).isSome
/-- `he_ssl_ctx_is_ca_set`. src/he/ssl_ctx.c:492-499 -/
def CtxObj.isCaSet (o : CtxObj) : Bool := o.ca.isSome
/-- `he_ssl_ctx_is_server_cert_key_set`. src/he/ssl_ctx.c:518-525 -/
def CtxObj.isCertKeySet (o : CtxObj) : Bool := o.cert.isSome && o.key.isSome

end Lightway
