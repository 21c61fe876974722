import Verif.Model.Types

/-!
# What may happen when: a specification over histories

A history lists effects newest first.  The functions below read facts off a history; `Permitted e l`
says when effect `e` may directly follow history `l`.  Nothing here refers to the connection object
or to the functions of the model.
-/

namespace Lightway.Spec

/-- The connection state: the last announced one. -/
def stateAt : Log → ConnState
  | [] => .none
  | .state s _ :: _ => s
  | _ :: l => stateAt l

/-- Is the connection a server? Decided by the last connect call that passed validation. -/
def serverAt : Log → Bool
  | [] => false
  | .role b :: _ => b
  | _ :: l => serverAt l

/-- The API call in progress (or the last one). -/
def lastApi : Log → Option Api
  | [] => none
  | .api a :: _ => some a
  | _ :: l => lastApi l

/-- A nudge timer was requested and the host has not called nudge since. -/
def nudgeArmed : Log → Bool
  | [] => false
  | .nudgeTime _ :: _ => true
  | .api .nudge :: _ => false
  | _ :: l => nudgeArmed l

/-- A renegotiation was started and not completed. -/
def renegOpen : Log → Bool
  | [] => false
  | .event .renegStarted _ :: _ => true
  | .event .renegCompleted _ :: _ => false
  | _ :: l => renegOpen l

/-- The host scheduled a renegotiation and none was started since. -/
def renegRequested : Log → Bool
  | [] => false
  | .api .scheduleReneg :: _ => true
  | .event .renegStarted _ :: _ => false
  | _ :: l => renegRequested l

/-- The first-message event was generated. -/
def firstSeen : Log → Bool
  | [] => false
  | .event .firstMessageReceived _ :: _ => true
  | _ :: l => firstSeen l

/-- A disconnect call returned success and no connect call was made since. -/
def closed : Log → Bool
  | [] => false
  | .api .clientConnect :: _ => false
  | .api .serverConnect :: _ => false
  | .ret .success :: l => if lastApi l = some .disconnect then true else closed l
  | _ :: l => closed l

/-- The callbacks registered on the connection. -/
def registered : Log → Callbacks
  | [] => {}
  | .callbacks b :: _ => b
  | _ :: l => registered l

/-- A callback may be invoked only if it is registered; a state change and an event are reported
exactly if their callback is registered. -/
def CbOk (b : Callbacks) : Effect → Prop
  | .state _ n => n = b.stateChange
  | .event _ n => n = b.event
  | .insideWrite _ => b.insideWrite = true
  | .outsideWrite _ _ => b.outsideWrite = true
  | .netConfig _ _ => b.netConfig = true
  | .serverConfig _ _ => b.serverConfig = true
  | .nudgeTime _ => b.nudgeTime = true
  | .authUserPass _ _ _ => b.auth = true
  | .authToken _ _ => b.authToken = true
  | .authBuf _ _ _ => b.authBuf = true
  | .populate _ => b.populate = true
  | .pmtudTime _ _ => b.pmtudTime = true
  | .pmtudState _ => b.pmtudState = true
  | _ => True

/-- An authentication callback that said yes. -/
def AuthOk : Effect → Prop
  | .authUserPass _ _ ok => ok = true
  | .authToken _ ok => ok = true
  | .authBuf _ _ ok => ok = true
  | _ => False

/-- `len` bytes at offset `off` of a message. -/
def field (pkt : Bytes) (off len : Nat) : Bytes := (pkt.drop off).take len

/-- Number in network byte order. -/
def num (bs : Bytes) : Nat := bs.foldl (fun a b => a * 256 + b.toNat) 0

/-- Value of a string of decimal digits. -/
def decimal (bs : Bytes) : Nat := bs.foldl (fun a b => a * 10 + (b.toNat - 48)) 0

/-- A CONFIG_IPV4 message. -/
def IsConfigMsg (pkt : Bytes) : Prop := pkt.head? = some 6 ∧ 105 ≤ pkt.length

/-- The last message the TLS library delivered during the current API call. -/
def lastMessage : Log → Option Bytes
  | [] => none
  | .api _ :: _ => none
  | .message p :: _ => some p
  | _ :: l => lastMessage l

/-- The last thing that happened is that a plugin refused a packet (drop or fail). -/
def Vetoed : Log → Prop
  | .pluginIngress _ r :: _ => r ≠ .success
  | .pluginEgress _ r :: _ => r ≠ .success
  | _ => False

/-- The connection has a TLS object: the last attempt to create one succeeded. -/
def hasTls : Log → Bool
  | [] => false
  | .sslCall .new ok :: _ => ok
  | _ :: l => hasTls l

/-- The last clock reading. -/
def lastClock : Log → Option Int
  | [] => none
  | .clock t :: _ => some t
  | _ :: l => lastClock l

/-- A packet was delivered since the last message was received (in this call). -/
def deliveredSince : Log → Bool
  | [] => false
  | .api _ :: _ => false
  | .message _ :: _ => false
  | .insideWrite _ :: _ => true
  | _ :: l => deliveredSince l

/-- How many plugins the inside chain holds. -/
def insidePluginsAt : Log → Nat
  | [] => 0
  | .chains i _ :: _ => i
  | _ :: l => insidePluginsAt l

/-- The configured number of fragment table entries. -/
def tableAt : Log → Nat
  | [] => 0
  | .table n :: _ => n
  | _ :: l => tableAt l

/-- The authentication callback receives exactly what the AUTH message carries. -/
def AuthArgs (pkt : Bytes) : Effect → Prop
  | .authUserPass u p _ => pkt.head? = some 4 ∧ pkt[1]? = some 1 ∧ 104 ≤ pkt.length ∧
      u = field pkt 4 50 ∧ p = field pkt 54 50
  | .authToken t _ => pkt.head? = some 4 ∧ pkt[1]? = some 2 ∧
      4 + num (field pkt 2 2) ≤ pkt.length ∧ t = field pkt 4 (num (field pkt 2 2))
  | .authBuf ty b _ => pkt.head? = some 4 ∧ pkt[1]? = some 23 ∧ ty = 23 ∧
      4 + num (field pkt 2 2) ≤ pkt.length ∧ b = field pkt 4 (num (field pkt 2 2))
  | _ => False

/-- An authentication callback that said no. -/
def AuthNo : Effect → Prop
  | .authUserPass _ _ ok => ok = false
  | .authToken _ ok => ok = false
  | .authBuf _ _ ok => ok = false
  | _ => False

/-- Effects of handing bytes to the TLS layer and to the network. -/
def IsIo : Effect → Prop
  | .sslCall .. | .sslOut .. | .sslIn .. | .outsideWrite .. | .pluginEgress .. => True
  | _ => False

/-- The host has just approved the credentials and supplied a network configuration; since then only
the answer was sent. -/
def Approved (l : Log) : Prop :=
  ∃ sent e rest, l = sent ++ .populate .success :: e :: rest ∧ AuthOk e ∧ ∀ x ∈ sent, IsIo x

/-- An AUTH message just arrived and was not approved: the callback said no or there was none; since
then only the answer was sent. -/
def Denied (l : Log) : Prop :=
  ∃ sent mid pkt rest, l = sent ++ mid ++ .message pkt :: rest ∧ (∀ x ∈ sent, IsIo x) ∧
    (mid = [] ∨ ∃ e, mid = [e] ∧ AuthNo e) ∧ pkt.head? = some 4

/-- A CONFIG_IPV4 message just arrived while AUTHENTICATING, was announced as CONFIGURING, and, if
`cfgd`, the host's configuration callback accepted it. -/
def ConfigAccepted (l : Log) (cfgd : Bool) : Prop :=
  ∃ n pkt rest, IsConfigMsg pkt ∧ stateAt rest = .authenticating ∧
    ((cfgd = true ∧ ∃ cfg, l = .netConfig cfg .success :: .state .configuring n :: .message pkt :: rest)
     ∨ (cfgd = false ∧ l = .state .configuring n :: .message pkt :: rest))

/-- Network activity: records written through the outside callback (or refused), nothing else. -/
def NetIo : Effect → Prop
  | .sslOut .. | .sslIn .. | .outsideWrite .. | .pluginEgress .. => True
  | _ => False

/-- The TLS library has just reported a completed handshake; since then only records were exchanged. -/
def Negotiated (l : Log) : Prop :=
  ∃ io rest, l = io ++ .sslCall .negotiate true :: rest ∧ ∀ e ∈ io, NetIo e

/-- The connection life cycle: which state may follow history `l`. -/
def EdgeOk (l : Log) (s : ConnState) : Prop :=
  let old := stateAt l
  old ≠ s ∧
  match s with
  | .none => False
  | .connecting => lastApi l = some .clientConnect ∨ lastApi l = some .serverConnect
  | .linkUp => old = .connecting ∧ Negotiated l ∧
      (lastApi l = some .clientConnect ∨ lastApi l = some .serverConnect ∨ lastApi l = some .outsideData)
  | .authenticating => (∃ n rest, l = .state .linkUp n :: rest) ∧ serverAt l = false
  | .configuring => old = .authenticating ∧ serverAt l = false ∧
      ∃ pkt rest, l = .message pkt :: rest ∧ IsConfigMsg pkt
  | .online =>
    (serverAt l = false ∧ old = .configuring ∧
        ConfigAccepted l (registered l).netConfig) ∨
    (serverAt l = true ∧ old ≠ .connecting ∧ old ≠ .disconnecting ∧ old ≠ .disconnected ∧ Approved l)
  | .disconnecting =>
    (lastApi l = some .disconnect ∧
      (old = .linkUp ∨ old = .authenticating ∨ old = .configuring ∨ old = .online)) ∨
    (serverAt l = true ∧ lastApi l = some .outsideData ∧ old ≠ .connecting ∧ old ≠ .disconnected ∧
      Denied l)
  | .disconnected =>
    (lastApi l = some .disconnect ∧ old = .disconnecting) ∨
    (lastApi l = some .nudge ∧ old ≠ .authenticating)

/-- A NUL-terminated string inside a 24-byte field. -/
def TermField (bs : Bytes) : Prop := bs.length = 24 ∧ bs[23]? = some 0

/-- A network configuration fit for the host. -/
def SaneCfg (cfg : NetCfg) : Prop :=
  TermField cfg.localIp ∧ TermField cfg.peerIp ∧ TermField cfg.dnsIp ∧ 1 ≤ cfg.mtu ∧ cfg.mtu ≤ 1350

/-- The text begins with a number as C's `%u` reads one: white space, a sign or none, digits up to the first other character. -/
def ReadsNumber (text : Bytes) (neg : Bool) (digits : Bytes) : Prop :=
  ∃ white sign rest, text = white ++ (sign ++ (digits ++ rest)) ∧ (∀ b ∈ white, b ∈ [9, 10, 11, 12, 13, 32]) ∧
    (sign = [] ∧ neg = false ∨ sign = [43] ∧ neg = false ∨ sign = [45] ∧ neg = true) ∧
    digits ≠ [] ∧ (∀ b ∈ digits, 48 ≤ b.toNat ∧ b.toNat ≤ 57) ∧ (∀ b, rest.head? = some b → ¬(48 ≤ b.toNat ∧ b.toNat ≤ 57))

/-- What is left of the number in 32 bits: `strtoul` stops at 2^64-1, negates in 64 bits, and the upper half is lost. -/
def low32 (neg : Bool) (v : Nat) : Nat := (if 2 ^ 64 ≤ v then 2 ^ 64 - 1 else if neg then 2 ^ 64 - v else v) % 2 ^ 32

/-- The MTU a text announces: the number it begins with if what is left of it in 32 bits is from 1 to 1350, otherwise 1350. -/
def MtuOf (text : Bytes) (mtu : Nat) : Prop :=
  (∀ neg d, ReadsNumber text neg d →
    mtu = if 1 ≤ low32 neg (decimal d) ∧ low32 neg (decimal d) ≤ 1350 then low32 neg (decimal d) else 1350) ∧
  ((∀ neg d, ¬ReadsNumber text neg d) → mtu = 1350)

/-- The configuration given to the host is the one in the message: the three strings (cut at 23
characters), and the MTU its text announces. -/
def CfgOf (pkt : Bytes) (cfg : NetCfg) : Prop :=
  cstr cfg.localIp = (cstr (field pkt 1 24)).take 23 ∧
  cstr cfg.peerIp = (cstr (field pkt 25 24)).take 23 ∧
  cstr cfg.dnsIp = (cstr (field pkt 49 24)).take 23 ∧
  MtuOf (cstr (field pkt 73 23)) cfg.mtu

/-- When may effect `e` directly follow history `l`? -/
def Permitted (e : Effect) (l : Log) : Prop :=
  CbOk (registered l) e ∧
  match e with
  | .insideWrite _ => closed l = false ∧ stateAt l = .online ∧ lastApi l = some .outsideData ∧
      ∃ pkt, lastMessage l = some pkt ∧
        (pkt.head? = some 5 ∨ pkt.head? = some 13 ∨ pkt.head? = some 15)
  | .state s _ => EdgeOk l s
  | .message _ => stateAt l ≠ .connecting ∧ stateAt l ≠ .disconnecting ∧ stateAt l ≠ .disconnected ∧
      lastApi l = some .outsideData
  | .netConfig cfg _ =>
    closed l = false ∧ serverAt l = false ∧ lastApi l = some .outsideData ∧ SaneCfg cfg ∧
      ∃ n pkt rest, l = .state .configuring n :: .message pkt :: rest ∧
        stateAt rest = .authenticating ∧ IsConfigMsg pkt ∧ CfgOf pkt cfg
  | .serverConfig buf _ =>
    closed l = false ∧ serverAt l = false ∧ lastApi l = some .outsideData ∧
      (stateAt l = .linkUp ∨ stateAt l = .authenticating ∨ stateAt l = .configuring ∨
        stateAt l = .online) ∧
      ∃ pkt rest, l = .message pkt :: rest ∧ pkt.head? = some 14 ∧
        3 + num (field pkt 1 2) ≤ pkt.length ∧ buf = field pkt 3 (num (field pkt 1 2))
  | .authUserPass _ _ _ | .authToken _ _ | .authBuf _ _ _ =>
    closed l = false ∧ serverAt l = true ∧ lastApi l = some .outsideData ∧
      stateAt l ≠ .connecting ∧ stateAt l ≠ .disconnecting ∧ stateAt l ≠ .disconnected ∧
      ∃ pkt rest, l = .message pkt :: rest ∧ AuthArgs pkt e
  | .populate _ => closed l = false ∧ serverAt l = true ∧ ∃ e rest, l = e :: rest ∧ AuthOk e
  | .outsideWrite pkt _ => closed l = false ∧ pkt.length ≤ 1500
  | .nudgeTime _ => nudgeArmed l = false ∧ ¬(stateAt l = .online ∧ renegOpen l = false)
  | .event .firstMessageReceived _ => firstSeen l = false ∧ lastApi l = some .outsideData
  | .event .renegStarted _ =>
    renegOpen l = false ∧ stateAt l = .online ∧ renegRequested l = true ∧
      lastApi l = some .outsideData
  | .event .renegCompleted _ => renegOpen l = true ∧ lastApi l = some .outsideData
  | .event .pendingSessionAcknowledged _ => serverAt l = true ∧ lastApi l = some .outsideData
  | .event .pong _ => lastApi l = some .outsideData ∧
      ∃ pkt rest, l = .message pkt :: rest ∧ pkt.head? = some 3 ∧ 5 ≤ pkt.length
  | .event .rejectedFragmentedPackets _ => False
  | _ => True

/-- Every effect of a history satisfies `P` with respect to the history before it. -/
def AllAt (P : Effect → Log → Prop) : Log → Prop
  | [] => True
  | e :: l => P e l ∧ AllAt P l

theorem AllAt.at {P : Effect → Log → Prop} {l : Log} (h : AllAt P l) {newer : Log} {e : Effect}
    {older : Log} (hl : l = newer ++ e :: older) : P e older := by
  subst hl
  induction newer with
  | nil => exact h.1
  | cons x xs ih => exact ih h.2

end Lightway.Spec
