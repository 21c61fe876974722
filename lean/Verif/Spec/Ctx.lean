import Verif.Model.CtxLife

/-!
# What a context should remember, and what starting it should do
-/

namespace Lightway

/-- The last value a history gives. -/
def lastGiven {α : Type} (f : CtxEntry → Option α) (h : List CtxEntry) : Option α := (h.filterMap f).getLast?

/-- Keep a value only if the call was accepted. -/
def accepted {α : Type} (e : CtxEntry) (v : α) : Option α := if e.rc = .success then some v else none

/-- 0.0 names the default version. -/
def named (maj min : UInt8) (default : UInt8 × UInt8) : UInt8 × UInt8 := if maj = 0 ∧ min = 0 then default else (maj, min)

/-- Installing the read callback. -/
def CtxCall.isIoRecv : CtxCall → Bool
  | .ioRecv _ => true
  | _ => false

/-- Did this call get as far as installing the I/O callbacks?  (Then the versions are reset, C61.) -/
def reachedIo (e : CtxEntry) : Bool := e.calls.any CtxCall.isIoRecv

def givesMin (e : CtxEntry) : Option (UInt8 × UInt8) :=
  match e.op with
  | .setMinVersion maj min => accepted e (named maj min (1, 0))
  | .start | .startServer => if reachedIo e then some (1, 0) else none
  | _ => none
def givesMax (e : CtxEntry) : Option (UInt8 × UInt8) :=
  match e.op with
  | .setMaxVersion maj min => accepted e (named maj min (1, 2))
  | .start | .startServer => if reachedIo e then some (1, 2) else none
  | _ => none
/-- The distinguished name; of 50 characters only 49 are kept (C43). -/
def givesDn (e : CtxEntry) : Option Bytes :=
  match e.op with | .setServerDn s => accepted e ((cstr s).take 49) | _ => none
def givesChacha (e : CtxEntry) : Option Bool := match e.op with | .setUseChacha b => some b | _ => none
def givesCa (e : CtxEntry) : Option (Option (Ptr × Nat)) :=
  match e.op with | .setCa b n => accepted e (some (b, n)) | _ => none
def givesCertKey (e : CtxEntry) : Option (Option Ptr × Option Ptr) :=
  match e.op with | .setCertKey c k => some (some c, some k) | _ => none
/-- 0 is datagram, 1 is stream. -/
def givesType (e : CtxEntry) : Option ConnType :=
  match e.op with | .setConnType n => accepted e (if n = 1 then .stream else .datagram) | _ => none
def givesCb (k : CbKind) (e : CtxEntry) : Option (Option Ptr) :=
  match e.op with | .setCb j p => if j = k then some p else none | _ => none
def givesPadding (e : CtxEntry) : Option Padding := match e.op with | .setPadding p => some p | _ => none
def givesPqc (e : CtxEntry) : Option Bool := match e.op with | .setUsePqc b => some b | _ => none
/-- At most 65536 entries. -/
def givesFrag (e : CtxEntry) : Option Nat := match e.op with | .setMaxFrag n => some (min n 65536) | _ => none

/-- Which settings a connection finds registered. -/
def CbKind.has (s : Callbacks) : CbKind → Bool
  | .stateChange => s.stateChange
  | .nudgeTime => s.nudgeTime
  | .insideWrite => s.insideWrite
  | .outsideWrite => s.outsideWrite
  | .netConfig => s.netConfig
  | .serverConfig => s.serverConfig
  | .event => s.event
  | .auth => s.auth
  | .authToken => s.authToken
  | .authBuf => s.authBuf
  | .populate => s.populate
  | .pmtudTime => s.pmtudTime
  | .pmtudState => s.pmtudState

/-! ### Starting -/

/-- Installing I/O callbacks has no result. -/
def CtxCall.cannotFail : CtxCall → Bool
  | .ioRecv _ | .ioSend _ => true
  | _ => false

/-- Carry out a plan up to its first failure, after the calls `before`: the calls made, and the failure. -/
def attempt (t : TlsCtxEnv) (before : List CtxCall) : List CtxCall → List CtxCall × Option (CtxCall × TlsRes)
  | [] => ([], none)
  | c :: plan =>
    if c.cannotFail = true ∨ t before c = .ok then (c :: (attempt t (before ++ [c]) plan).1, (attempt t (before ++ [c]) plan).2)
    else ([c], some (c, t before c))

/-- What a client context asks of TLS: certificates verified against the configured authority, TLS 1.3 on a stream, at
least DTLS 1.2 on datagrams, exactly one AEAD. -/
def clientPlan (ty : ConnType) (chacha : Bool) (ca : Ptr × Nat) : List CtxCall :=
  match ty with
  | .stream =>
    [.new .tls13Client, .loadVerify ca.1 ca.2,
     .ciphers (if chacha then "TLS13-CHACHA20-POLY1305-SHA256" else "TLS13-AES256-GCM-SHA384"),
     .ioRecv true, .ioSend true]
  | .datagram =>
    [.new .dtlsClient, .loadVerify ca.1 ca.2, .minDtls12,
     .ciphers (if chacha then "TLS13-CHACHA20-POLY1305-SHA256:ECDHE-RSA-CHACHA20-POLY1305"
               else "TLS13-AES256-GCM-SHA384:ECDHE-RSA-AES256-GCM-SHA384"),
     .ioRecv false, .ioSend false, .secureReneg]

/-- What a server context asks of TLS. -/
def serverPlan (ty : ConnType) (cert key : Ptr) : List CtxCall :=
  let pqGroups := ["P521_ML_KEM_1024", "P521_KYBER_LEVEL5", "P256_KYBER_LEVEL1", "ECC_SECP256R1", "ECC_X25519"]
  match ty with
  | .stream =>
    [.new .tls13Server, .certFile cert, .keyFile key, .initRng,
     .ciphers "TLS13-AES256-GCM-SHA384:TLS13-CHACHA20-POLY1305-SHA256", .groups pqGroups,
     .ioRecv true, .ioSend true]
  | .datagram =>
    [.new .dtlsServer, .certFile cert, .keyFile key, .initRng,
     .ciphers ("TLS13-CHACHA20-POLY1305-SHA256:ECDHE-RSA-CHACHA20-POLY1305" ++
               ":TLS13-AES256-GCM-SHA384:ECDHE-RSA-AES256-GCM-SHA384"), .groups pqGroups,
     .ioRecv false, .ioSend false, .secureReneg]

/-- The code a failure is reported with: loading the authority's certificates has codes of its own. -/
def failureCode : CtxCall × TlsRes → RC
  | (.loadVerify _ _, .badFiletype) => .sslBadFiletype
  | (.loadVerify _ _, .badFile) => .sslBadFile
  | (.loadVerify _ _, .memory) => .sslOutOfMemory
  | (.loadVerify _ _, .asnInput) => .sslAsnInput
  | (.loadVerify _ _, .buffer) => .sslBuffer
  | (.loadVerify _ _, _) => .sslCert
  | _ => .initFailed

end Lightway
