import Verif.Spec.Screen

/-!
# What the result of a receive call means
-/

namespace Lightway.Spec

/-- How the TLS layer ends its offer of messages. -/
inductive ReadEnd
  /-- nothing more for now -/
  | quiet
  /-- the peer closed the TLS session -/
  | closed
  /-- a read failed -/
  | failed
  deriving DecidableEq, Repr

/-- How the offer `onOffer reads` ends. -/
def offerEnd : List ReadRes → ReadEnd
  | [] => .quiet
  | r :: rest =>
    if r.plain ≠ [] then offerEnd rest
    else if r.err = .appDataReady then offerEnd rest
    else if r.err = .none ∨ r.err = .wantRead ∨ r.err = .wantWrite then .quiet
    else if r.retZero = true then .closed else .failed

/-- Handing a packet to the host can fail: a plugin was asked and spoilt it, or what is left is not IPv4. -/
def DataEnd (tail : Log) (rc : RC) : Prop :=
  (rc = .failed ∧ ∃ p r, Effect.pluginEgress p r ∈ tail) ∨ rc = .badPacket

/-- With which code an AUTH message is denied. -/
def denial (cbs : Callbacks) (m : Bytes) : RC :=
  if m[1]? = some 1 ∧ cbs.auth = false then .accessDeniedNoAuthUserpassHandler
  else if m[1]? = some 2 ∧ cbs.authToken = false then .accessDeniedNoAuthTokenHandler
  else if m[1]? = some 23 ∧ cbs.authBuf = false then .accessDeniedNoAuthBufHandler
  else .accessDenied

/-- Acting on a message (which was not turned away) ended the call with `rc`; `tail` is what happened since the
message arrived. -/
def ActedEnd (cbs : Callbacks) (m : Bytes) (tail : Log) (rc : RC) : Prop :=
  match m.head? with
  | some 2 =>                                                              -- PING: the answer was not sent
    (∃ w, Effect.sslCall (.write w) false ∈ tail) ∧
      (rc = .wantRead ∨ rc = .wantWrite ∨ rc = .connectionWasClosed ∨ rc = .sslError)
  | some 4 =>                                                              -- AUTH: denied, or no configuration
    (rc = denial cbs m ∧ ∃ n, Effect.state .disconnecting n ∈ tail) ∨ .populate rc ∈ tail
  | some 5 =>                                                              -- DATA: also too short for its length
    DataEnd tail rc ∨ (rc = .pointerWouldOverflow ∧ m.length < 3 + max (num16 m 1) (num16le m 1))
  | some 13 => DataEnd tail rc
  | some 6 => rc = .callbackFailed ∧ ∃ cfg r, Effect.netConfig cfg r ∈ tail ∧ r ≠ .success
  | some 14 => rc = .callbackFailed ∧ ∃ b r, Effect.serverConfig b r ∈ tail ∧ r ≠ .success
  | some 15 => DataEnd tail rc ∨ rc = .noMemory ∨ rc = .badFragment ∨ (rc = .failed ∧ ∃ s, Effect.ub s ∈ tail)
  | _ => False

/-- Message `m`, which arrived after `older`, ended the call with `rc`. -/
def EndedBy (older : Log) (m : Bytes) (tail : Log) (rc : RC) : Prop :=
  match screen (serverAt older) (stateAt older) (registered older) m with
  | some v => v = .refused rc ∧ tail = []
  | none => rc ≠ .success ∧ ActedEnd (registered older) m tail rc

/-- What a step of a renegotiation amounts to, by the answer of TLS (other calls are no such steps). -/
def renegCode (call : SslCall) (r : SslRes) : RC :=
  match call with
  | .rehandshake | .updateKeys =>
    if r.ok = true ∨ r.err = .none ∨ r.err = .wantRead ∨ r.err = .wantWrite ∨ r.err = .appDataReady then .success
    else if r.err = .secureReneg then .secureRenegotiationError
    else .sslError
  | .keyUpdateResponse => if r.ok = true then .success else .sslError
  | _ => .success

/-- No step of a renegotiation taken after the last read went wrong. -/
def RenegFine (env : Env) (base x : Log) : Prop :=
  ∀ newer call ok older, x = newer ++ .sslCall call ok :: older → (∀ o, .sslCall .read o ∉ newer) →
    renegCode call (env.ssl (older ++ base) call) = .success

/-- The reasons for the result `rc` of a receive call that got through to TLS: `x` is its history (newest first, the
result on top), `base` the history before it, `reads` what TLS had to offer. -/
inductive ReceiveEnd (env : Env) (stream : Bool) (reads : List ReadRes) (base x : Log) (rc : RC) : Prop
  /-- everything on offer was processed, and no renegotiation that followed went wrong -/
  | done (h : messages x = onOffer reads) (e : offerEnd reads = .quiet) (g : ∃ o, .sslCall .read o ∈ x)
      (f : RenegFine env base x) (r : rc = .success ∨ rc = .unknownSession)
  /-- everything on offer was processed, a step of the renegotiation that followed failed, with this code -/
  | renegotiation (h : messages x = onOffer reads) (e : offerEnd reads = .quiet)
      (f : ∃ newer call ok older, x = newer ++ .sslCall call ok :: older ∧ renegCode call (env.ssl (older ++ base) call) = rc)
      (r : rc ≠ .success)
  /-- everything on offer was processed, then the peer had closed -/
  | closed (h : messages x = onOffer reads) (e : offerEnd reads = .closed) (r : rc = .connectionWasClosed)
  /-- everything on offer was processed, then reading failed -/
  | failed (h : messages x = onOffer reads) (e : offerEnd reads = .failed)
      (r : rc = if stream then .sslError else .sslErrorNonfatal)
  /-- the last message processed ended the call; the others were not looked at -/
  | message (tail older : Log) (m : Bytes) (h : x = .ret rc :: (tail ++ .message m :: older)) (t : messages tail = [])
      (p : messages older ++ [m] <+: onOffer reads) (e : EndedBy (older ++ base) m tail rc)

end Lightway.Spec

namespace Lightway.Spec

/-- An answer of the host (or of a plugin) which, given while message `m` is handled, must end the call, and the code
it must end with. -/
def fatal (m : Bytes) (e : Effect) : Option RC :=
  match m.head? with
  | some 4 =>
    match e with
    | .authUserPass _ _ false => some .accessDenied
    | .authToken _ false => some .accessDenied
    | .authBuf _ _ false => some .accessDenied
    | .populate r => if r = .success then none else some r
    | _ => none
  | some 6 =>
    match e with
    | .netConfig _ r => if r = .success then none else some .callbackFailed
    | _ => none
  | some 14 =>
    match e with
    | .serverConfig _ r => if r = .success then none else some .callbackFailed
    | _ => none
  | some 5 | some 13 | some 15 =>
    match e with
    | .pluginEgress _ .fail => some .failed
    | _ => none
  | _ => none

/-- What a write to TLS amounts to, by the answer of TLS. -/
def writeCode (r : SslRes) : RC :=
  if r.ok = true ∨ r.err = .none then .success
  else if r.err = .wantWrite then .wantWrite
  else if r.err = .wantRead then .wantRead
  else if r.val = 0 then .connectionWasClosed
  else .sslError

/-- The same with the answers of TLS: the answer to a PING, written after `l`, must have been taken. -/
def fatalAt (env : Env) (l : Log) (m : Bytes) (e : Effect) : Option RC :=
  if m.head? = some 2 then
    match e with
    | .sslCall (.write w) _ =>
      if writeCode (env.ssl l (.write w)) = .success then none else some (writeCode (env.ssl l (.write w)))
    | _ => none
  else fatal m e

/-- The message being handled (until the next call into TLS). -/
def handling : Log → Option Bytes
  | [] => none
  | .message m :: _ => some m
  | .sslCall _ _ :: _ => none
  | .api _ :: _ => none
  | _ :: l => handling l

/-- The code a receive call in progress must end with, if such an answer was given. -/
def due (env : Env) : Log → Option RC
  | [] => none
  | .api _ :: _ => none
  | e :: l =>
    match due env l with
    | some q => some q
    | none =>
      match handling l with
      | some m => fatalAt env l m e
      | none => none

end Lightway.Spec
