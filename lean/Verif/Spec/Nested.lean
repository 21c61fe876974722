import Verif.Spec.History
import Verif.Spec.Wire

/-!
# What may happen when the host calls the library from inside its callbacks
As `Spec/History`, for histories in which calls are nested: the marks of a nested call lie between those of the call
that contains it.  `act` says that the host may make calls from inside the callbacks announcing CONNECTING and
CONFIGURING and the network configuration callback; without it the life cycle is the usual one.
-/

namespace Lightway.Spec

/-- The callbacks from which a call disturbs the life cycle. -/
def Sensitive : Log → Prop
  | .netConfig .. :: _ => True
  | .state .connecting _ :: _ => True
  | .state .configuring _ :: _ => True
  | _ => False

/-- What may lie between two moments of one call: effects of that call, and complete calls made from its callbacks. -/
inductive Inner : List Effect → Prop
  | nil : Inner []
  | eff {e : Effect} {x : List Effect} : (∀ a, e ≠ .api a) → (∀ r, e ≠ .ret r) → Inner x → Inner (e :: x)
  | call {r : RC} {a : Api} {x y : List Effect} : Inner x → Inner y → Inner (.ret r :: (x ++ .api a :: y))

/-- Complete calls, and nothing else: what the host did from inside a callback. -/
inductive Calls : List Effect → Prop
  | nil : Calls []
  | call {r : RC} {a : Api} {x y : List Effect} : Inner x → Calls y → Calls (.ret r :: (x ++ .api a :: y))

/-- An AUTH message was accepted by the host's callback, and that is the last thing this call did. -/
def AuthAccepted (l : Log) : Prop :=
  ∃ y e pkt old, l = y ++ e :: .message pkt :: old ∧ Calls y ∧ AuthOk e ∧ AuthArgs pkt e ∧ serverAt old = true

/-- An AUTH message was accepted by the host's callback, the host then supplied a network configuration, and since
then this call only sent. -/
def LoggedIn (l : Log) : Prop :=
  ∃ sent y l', l = sent ++ (y ++ .populate .success :: l') ∧ (∀ e ∈ sent, IsIo e) ∧ Calls y ∧ AuthAccepted l'

/-- A CONFIG_IPV4 message arrived while a client was AUTHENTICATING, was announced, and that is the last thing this
call did. -/
def ConfigSeen (pkt : Bytes) (l : Log) : Prop :=
  ∃ y n old, l = y ++ .state .configuring n :: .message pkt :: old ∧ Calls y ∧ IsConfigMsg pkt ∧
    stateAt old = .authenticating ∧ serverAt old = false

/-- A CONFIG_IPV4 message was announced and then accepted by the network configuration callback, if there is one. -/
def ConfigTaken (l : Log) : Prop :=
  (∃ y cfg l' pkt, l = y ++ .netConfig cfg .success :: l' ∧ Calls y ∧ ConfigSeen pkt l') ∨
  ((registered l).netConfig = false ∧ ∃ pkt, ConfigSeen pkt l)

/-- An AUTH message arrived at a server in this call. -/
def AuthArrived (l : Log) : Prop :=
  ∃ x pkt old, l = x ++ .message pkt :: old ∧ Inner x ∧ pkt.head? = some 4 ∧ serverAt old = true

/-- What this call did since a tunnel-data message arrived. -/
def Handling : Effect → Prop
  | .pluginEgress .. | .clock _ | .alloc _ => True
  | _ => False

/-- What a connect call does up to the first announcement. -/
def ConnectEff : Effect → Prop
  | .callbacks _ | .alloc _ | .table _ | .chains .. | .sslCall .. | .ub _ => True
  | e => NetIo e

/-- The life cycle with nested calls. -/
def NestEdge (act : Prop) (l : Log) (s : ConnState) : Prop :=
  stateAt l ≠ s ∧
  match s with
  | .none => False
  | .connecting => ∃ x b old, l = x ++ .role b :: old ∧ Inner x ∧ (act ∨ ∀ e ∈ x, ConnectEff e)
  | .linkUp => Negotiated l ∧ (act ∨ stateAt l = .connecting)
  | .authenticating => stateAt l = .linkUp ∧ serverAt l = false
  | .configuring => stateAt l = .authenticating ∧ serverAt l = false ∧
      ∃ pkt rest, l = .message pkt :: rest ∧ IsConfigMsg pkt
  | .online => (ConfigTaken l ∧ (act ∨ stateAt l = .configuring)) ∨ LoggedIn l
  | .disconnecting => (stateAt l = .linkUp ∨ stateAt l = .authenticating ∨ stateAt l = .configuring ∨
      stateAt l = .online) ∨ AuthArrived l
  | .disconnected => True

/-- Where a host that makes calls from its callbacks can provoke undefined behaviour: at the assertion of pmtud.c, and
by removing the populate callback, with a connect call, from the authentication callback that accepts a client. -/
def UbSite (l : Log) (s : String) : Prop :=
  s = "pmtud.c:184 assert" ∨
  (s = "populate callback removed" ∧ AuthAccepted l ∧ (registered l).populate = false)

/-- When may effect `e` directly follow history `l`? -/
def NestPermitted (act sane : Prop) (e : Effect) (l : Log) : Prop :=
  CbOk (registered l) e ∧
  match e with
  | .insideWrite _ => stateAt l = .online ∧
      ∃ x pkt old, l = x ++ .message pkt :: old ∧ (∀ e ∈ x, Handling e) ∧
        (pkt.head? = some 5 ∨ pkt.head? = some 13 ∨ pkt.head? = some 15)
  | .outsideWrite p _ => p.length ≤ 1500
  | .callbacks b => (b.insideWrite = false ∧ b.outsideWrite = false) ∨ ∃ r rest, l = .role r :: rest
  | .state s _ => NestEdge act l s
  | .netConfig cfg _ => SaneCfg cfg ∧ ∃ pkt, CfgOf pkt cfg ∧ ConfigSeen pkt l
  | .serverConfig buf _ => serverAt l = false ∧
      (stateAt l = .linkUp ∨ stateAt l = .authenticating ∨ stateAt l = .configuring ∨ stateAt l = .online) ∧
      ∃ pkt rest, l = .message pkt :: rest ∧ pkt.head? = some 14 ∧
        3 + num (field pkt 1 2) ≤ pkt.length ∧ buf = field pkt 3 (num (field pkt 1 2))
  | .authUserPass _ _ _ | .authToken _ _ | .authBuf _ _ _ => serverAt l = true ∧
      ∃ pkt rest, l = .message pkt :: rest ∧ AuthArgs pkt e
  | .populate _ => AuthAccepted l
  | .ub s => sane → UbSite l s
  | .ret r => ∃ x a old, l = x ++ .api a :: old ∧ Inner x ∧
      (a = .disconnect → r = .success → ∃ y b z, x = y ++ .callbacks b :: z ∧ Inner y ∧ Inner z ∧
        b.insideWrite = false ∧ b.outsideWrite = false)
  | _ => True

end Lightway.Spec
