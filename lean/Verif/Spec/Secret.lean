import Verif.Model.Api

/-!
# What an observer without the credentials sees

`hide` replaces every byte of a credential by a star (a NUL, which ends a text, stays).  An AUTH message is seen with its
header and lengths but with stars for the credentials in it.  `w` says whether the observer watches a server: then the
credentials are hidden in what arrives and in what the authentication callbacks are given; for a client they are hidden in what
it sends.
-/

namespace Lightway.Spec

/-- A star for every byte but NUL. -/
def hide (b : UInt8) : UInt8 := if b = 0 then 0 else 42

/-- A message with the credentials hidden: after id, type and two length bytes of an AUTH message (id 4). -/
def hideMsg : Bytes → Bytes
  | 4 :: ty :: l1 :: l2 :: secret => 4 :: ty :: l1 :: l2 :: secret.map hide
  | m => m

/-- What the observer watches: a client (`srv = false`: credentials hidden in what it sends) or a connection of either role
(`srv = true`: in what arrives too).  `pay` says whether the packets of the tunnel are hidden as well: their contents, and – with
the given padding – the lengths from 20 up to the given bound.  `inn` says whether the packets that arrive are hidden too. -/
structure Watch where
  srv : Bool
  pay : Option (Padding × Nat)
  inn : Bool

def Watch.client : Watch := ⟨false, none, false⟩
def Watch.server : Watch := ⟨true, none, false⟩
def Watch.both (pad : Padding) (n : Nat) (inn : Bool) : Watch := ⟨true, some (pad, n), inn⟩
def Watch.traffic (pad : Padding) (n : Nat) : Watch := .both pad n false
def Watch.tunnel : Watch := .both .none 0 true

/-- A message with the packet in it blanked: all of a DATA message (id 5), what follows the seven header bytes of a fragment
(id 15). -/
def hideData : Bytes → Bytes
  | 5 :: rest => 5 :: zeros rest.length
  | 15 :: l1 :: l2 :: i1 :: i2 :: o1 :: o2 :: d => 15 :: l1 :: l2 :: i1 :: i2 :: o1 :: o2 :: zeros d.length
  | m => m

/-- A sent message as the observer sees it. -/
def hideOut (w : Watch) (m : Bytes) : Bytes := if w.pay.isSome then hideData (hideMsg m) else hideMsg m

/-- The least length padded like `len`. -/
def leastPadded : Padding → Nat → Nat
  | .none, len => len
  | .full, _ => 20
  | .pad450, len => if len ≤ 450 then 20 else if len ≤ 900 then 451 else 901

/-- The length of a packet as the observer sees it. -/
def shownLength (pad : Padding) (n len : Nat) : Nat := if 20 ≤ len ∧ len ≤ n then leastPadded pad len else len

/-- A packet as the observer sees it: its first byte (IP version), and its length up to padding. -/
def hidePkt (pad : Padding) (n : Nat) : Bytes → Bytes
  | [] => []
  | b :: rest => b :: zeros (shownLength pad n (rest.length + 1) - 1)

/-- A packet that arrived as the observer sees it: first byte (IP version) and length. -/
def blankPkt : Bytes → Bytes
  | [] => []
  | b :: rest => b :: zeros rest.length

/-- The bytes of a fragment as the observer sees them; the first byte of the packet is in the one with offset 0. -/
def blankFrag (off : Nat) (d : Bytes) : Bytes := if off = 0 then blankPkt d else zeros d.length

/-- An arrived message with the packet in it hidden. -/
def hideIn : Bytes → Bytes
  | 5 :: l1 :: l2 :: p => 5 :: l1 :: l2 :: blankPkt p
  | 13 :: l1 :: l2 :: x :: y :: p => 13 :: l1 :: l2 :: x :: y :: blankPkt p
  | 15 :: l1 :: l2 :: i1 :: i2 :: o1 :: o2 :: d =>
    15 :: l1 :: l2 :: i1 :: i2 :: o1 :: o2 :: blankFrag ((o1.toNat * 256 + o2.toNat) % 8192) d
  | m => m

/-- A received message as the observer sees it. -/
def inMsg (w : Watch) (m : Bytes) : Bytes :=
  let m := if w.srv then hideMsg m else m
  if w.inn then hideIn m else m

/-- A read as the observer sees it. -/
def inRead (w : Watch) (r : ReadRes) : ReadRes := { r with plain := inMsg w r.plain }

/-- A packet handed to the host as the observer sees it. -/
def shade (w : Watch) (p : Bytes) : Bytes := if w.inn then blankPkt p else p

/-- A TLS-library call with the credentials hidden. -/
def hideCall (w : Watch) : SslCall → SslCall
  | .write m => .write (hideOut w m)
  | call => call

/-- An effect with the credentials hidden. -/
def hideEff (w : Watch) : Effect → Effect
  | .sslCall call ok => .sslCall (hideCall w call) ok
  | .message m => .message (inMsg w m)
  | .insideWrite p => .insideWrite (shade w p)
  | .authUserPass u p ok => if w.srv then .authUserPass (u.map hide) (p.map hide) ok else .authUserPass u p ok
  | .authToken t ok => if w.srv then .authToken (t.map hide) ok else .authToken t ok
  | .authBuf ty b ok => if w.srv then .authBuf ty (b.map hide) ok else .authBuf ty b ok
  | e => e

/-- A history with the credentials hidden: everything else – return codes, states, events, the other callbacks, the bytes handed
to the network – is unchanged. -/
def hideLog (w : Watch) (l : Log) : Log := l.map (hideEff w)

/-- What is seen from outside the TLS library: every effect but the calls into the library. -/
def outsideTls (l : Log) : Log := l.filter (fun e => match e with | .sslCall .. => false | _ => true)

/-- What is seen besides the TLS library and the packets handed to the host, which are seen up to `shade`. -/
def outsideTunnel (l : Log) : Log :=
  (l.filter (fun e => match e with
    | .sslCall .. | .message .. | .authUserPass .. | .authToken .. | .authBuf .. => false
    | _ => true)).map (fun e => match e with | .insideWrite p => .insideWrite (blankPkt p) | e => e)

/-- What is seen of a server besides its TLS library and its authentication callbacks. -/
def outsideAuth (l : Log) : Log :=
  l.filter (fun e => match e with
    | .sslCall .. | .message .. | .authUserPass .. | .authToken .. | .authBuf .. => false
    | _ => true)

/-- A host call with the credentials hidden. -/
def hideOp (w : Watch) : Op → Op
  | .setUsername s => .setUsername (s.map hide)
  | .setPassword s => .setPassword (s.map hide)
  | .setAuthToken s => .setAuthToken (s.map hide)
  | .setAuthBuffer s => .setAuthBuffer (s.map hide)
  | .outsideData buf reads => .outsideData buf (reads.map (inRead w))
  | .insidePacket p => match w.pay with | some (pad, n) => .insidePacket (hidePkt pad n p) | none => .insidePacket p
  | op => op

/-- The environment does not look into AUTH messages: the TLS library's behaviour (and so the records it makes) depends on
their length only, the host's callbacks not on them at all.  For a server (`w`) the answers of the authentication callbacks are
taken as given: they may depend on the whole history but the bytes of the credentials. -/
structure Sealed (w : Watch) (env : Env) : Prop where
  ssl : ∀ l call, env.ssl (hideLog w l) (hideCall w call) = env.ssl l call
  sslVersion : ∀ l, env.sslVersion (hideLog w l) = env.sslVersion l
  outsideWrite : ∀ l, env.outsideWrite (hideLog w l) = env.outsideWrite l
  netConfig : ∀ l, env.netConfig (hideLog w l) = env.netConfig l
  serverConfig : ∀ l, env.serverConfig (hideLog w l) = env.serverConfig l
  pmtudTime : ∀ l, env.pmtudTime (hideLog w l) = env.pmtudTime l
  rng : ∀ l, env.rng (hideLog w l) = env.rng l
  now : ∀ l, env.now (hideLog w l) = env.now l
  alloc : ∀ l, env.alloc (hideLog w l) = env.alloc l
  populate : w.srv = true → ∀ l, env.populate (hideLog w l) = env.populate l
  authUserPass : w.srv = true → ∀ l u p, env.authUserPass (hideLog w l) (u.map hide) (p.map hide) = env.authUserPass l u p
  authToken : w.srv = true → ∀ l t, env.authToken (hideLog w l) (t.map hide) = env.authToken l t
  authBuf : w.srv = true → ∀ l ty b, env.authBuf (hideLog w l) ty (b.map hide) = env.authBuf l ty b

/-- Nor do the plugins. -/
def SealedChain (w : Watch) (ch : Chain) : Prop :=
  ∀ p, some p ∈ ch → (∀ f, p.ingress = some f → ∀ l, f (hideLog w l) = f l) ∧
    (∀ f, p.egress = some f → ∀ l, f (hideLog w l) = f l)

/-- A call with sealed plugins; unless a server is watched, no call makes the connection a server; if the packets are hidden there
are no inside plugins, which would see them. -/
def CallOf (w : Watch) : Op → Prop
  | .serverConnect _ i o => w.srv = true ∧ SealedChain w i ∧ SealedChain w o ∧ (w.pay.isSome ∨ w.inn → i = [])
  | .clientConnect _ i o => SealedChain w i ∧ SealedChain w o ∧ (w.pay.isSome ∨ w.inn → i = [])
  | _ => True

end Lightway.Spec
