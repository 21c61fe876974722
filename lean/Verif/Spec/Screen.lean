import Verif.Spec.History

/-!
# Which received messages are turned away

The table of the wire protocol read as a filter: given the role, the state and the callbacks of the
receiver, which messages are refused or ignored, and with which result.  `none` means that the message
is acted upon.
-/

namespace Lightway.Spec

inductive Verdict
  /-- the message is skipped, the next one is read -/
  | ignored
  /-- the call ends with this result -/
  | refused (rc : RC)
  deriving DecidableEq, Repr

/-- The 16-bit number in network byte order at offset `off`. -/
def num16 (m : Bytes) (off : Nat) : Nat := num (field m off 2)

/-- The same in little-endian order (protocol version 1.0). -/
def num16le (m : Bytes) (off : Nat) : Nat := num (field m off 2).reverse

/-- May packets flow?  Data and pings are handled only ONLINE. -/
def whenOnline (st : ConnState) (k : Option Verdict) : Option Verdict :=
  if st = .online then k else some (.refused .invalidConnState)

/-- The message must have at least `n` bytes. -/
def whenLong (m : Bytes) (n : Nat) (k : Option Verdict) : Option Verdict :=
  if m.length < n then some (.refused .packetTooSmall) else k

/-- The message must be able to hold the announced number of bytes after its header. -/
def whenHolds (m : Bytes) (hdr announced : Nat) (k : Option Verdict) : Option Verdict :=
  if hdr + announced > m.length then some (.refused .pointerWouldOverflow) else k

/-- AUTH on a server that can handle it. -/
def screenAuth (cbs : Callbacks) (m : Bytes) : Option Verdict :=
  whenLong m 2 <|
  if m[1]? = some 1 ∧ cbs.auth then whenLong m 104 none
  else if (m[1]? = some 2 ∧ cbs.authToken) ∨ (m[1]? = some 23 ∧ cbs.authBuf) then
    whenLong m 5 (whenLong m (4 + num16 m 2) none)
  else none

/-- The filter. -/
def screen (server : Bool) (st : ConnState) (cbs : Callbacks) (m : Bytes) : Option Verdict :=
  match m.head? with
  | some 2 => whenOnline st (whenLong m 5 none)                              -- PING
  | some 3 => if m.length < 5 then some .ignored else none                   -- PONG
  | some 4 =>                                                                -- AUTH
    if server then
      if cbs.populate ∧ (cbs.auth ∨ cbs.authToken ∨ cbs.authBuf) then screenAuth cbs m
      else some (.refused .invalidConnState)
    else some .ignored
  | some 5 =>                                                                -- DATA
    whenOnline st (whenLong m 3 (whenHolds m 3 (min (num16 m 1) (num16le m 1)) none))
  | some 6 =>                                                                -- CONFIG_IPV4
    if server ∨ st = .online then some .ignored
    else if st = .authenticating then whenLong m 105 none
    else some (.refused .invalidConnState)
  | some 7 => some (if server then .ignored else .refused .accessDenied)     -- AUTH_RESPONSE
  | some 12 => some (.refused .serverGoodbye)                                -- GOODBYE
  | some 13 => whenOnline st (whenLong m 5 (whenHolds m 5 (num16 m 1) none)) -- deprecated data
  | some 14 =>                                                               -- SERVER_CONFIG
    if server then some .ignored
    else if st = .linkUp ∨ st = .authenticating ∨ st = .configuring ∨ st = .online then
      whenLong m 3 (whenHolds m 3 (num16 m 1) (if cbs.serverConfig then none else some .ignored))
    else some (.refused .invalidConnState)
  | some 15 =>                                                               -- DATA_WITH_FRAG
    whenOnline st <| whenLong m 7 <| whenHolds m 7 (num16 m 1) <|
      if num16 m 5 % 8192 * 8 + num16 m 1 > 1500 then some (.refused .pointerWouldOverflow) else none
  | _ => some .ignored                                                       -- anything else

/-- What must come right after message `m` was received with history `older`. -/
def Screened (m : Bytes) (older : Log) (e : Effect) : Prop :=
  match screen (serverAt older) (stateAt older) (registered older) m with
  | none => True
  | some .ignored => ∃ ok, e = .sslCall .read ok
  | some (.refused rc) => e = .ret rc

/-- The messages a TLS layer with these answers has to offer, in order: reading stops at the first
answer without data, unless that answer says that data is ready.  A read buffer holds 1500 bytes. -/
def onOffer : List ReadRes → List Bytes
  | [] => []
  | r :: rest =>
    if r.plain ≠ [] then r.plain.take 1500 :: onOffer rest
    else if r.err = .appDataReady then onOffer rest else []

/-- The messages of a (newest first) piece of history, in the order they were received. -/
def messages : Log → List Bytes
  | [] => []
  | .message m :: l => messages l ++ [m]
  | _ :: l => messages l

end Lightway.Spec
