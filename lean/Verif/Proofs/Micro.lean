import Verif.Proofs.PmRange
import Verif.Spec.Wire
import Verif.Spec.Sent
import Verif.Spec.Timer

/-!
# Micro steps
`Micro env a c c'`: one elementary effect the library can have during API call `a`.
-/

namespace Lightway
open Spec

/-- Allocation never fails and the TLS library always creates its object. -/
def EnvOk (env : Env) : Prop := (∀ l, env.alloc l = true) ∧ ∀ l, (env.ssl l .new).ok = true

def IsConnect (a : Api) : Prop := a = .clientConnect ∨ a = .serverConnect

/-- Effects without consequences for any history function or field. -/
def Quiet : Effect → Prop
  | .sslCall (.write _) _ | .sslCall .new _ => False
  | .sslCall .. | .rng _ | .clock _ | .alloc _ | .pluginIngress .. | .pluginEgress .. => True
  | _ => False

/-- States in which messages are processed. -/
def MsgState (s : ConnState) : Prop := s ≠ .connecting ∧ s ≠ .disconnecting ∧ s ≠ .disconnected

/-- Allowed state changes, in terms of the connection. -/
def Edge (a : Api) (c : Conn) : ConnState → Prop
  | .none => False
  | .connecting => IsConnect a ∧ c.wolfSet = true
  | .linkUp => c.state = .connecting ∧ (IsConnect a ∨ a = .outsideData) ∧ Negotiated c.log
  | .authenticating => c.state = .linkUp ∧ c.isServer = false ∧ (IsConnect a ∨ a = .outsideData) ∧
      ∃ n rest, c.log = .state .linkUp n :: rest
  | .configuring => c.state = .authenticating ∧ c.isServer = false ∧ a = .outsideData ∧
      ∃ pkt rest, c.log = .message pkt :: rest ∧ IsConfigMsg pkt
  | .online => a = .outsideData ∧ c.wolfSet = true ∧
      ((c.isServer = false ∧ c.state = .configuring ∧ ConfigAccepted c.log c.cbs.netConfig) ∨
       (c.isServer = true ∧ MsgState c.state ∧ Approved c.log))
  | .disconnecting => c.wolfSet = true ∧
      ((a = .disconnect ∧ (c.state = .linkUp ∨ c.state = .authenticating ∨
          c.state = .configuring ∨ c.state = .online)) ∨
       (a = .outsideData ∧ c.isServer = true ∧ MsgState c.state ∧ Denied c.log))
  | .disconnected => (a = .disconnect ∧ c.state = .disconnecting) ∨
      (a = .nudge ∧ c.state ≠ .authenticating)

/-- An answer of an authentication callback. -/
def AuthEff : Effect → Prop
  | .authUserPass .. | .authToken .. | .authBuf .. => True
  | _ => False

/-- The user name stored after a credentials callback: the one presented, if one was. -/
def nameAfter (old : Bytes) : Effect → Bytes
  | .authUserPass n _ _ => setNul (strncpy old n 50) 50
  | _ => old

/-- Since the API call began, nothing but the host's ingress plugins ran. -/
def JustCalled (a : Api) (l : Log) : Prop :=
  ∃ x old, l = x ++ .api a :: old ∧ ∀ e ∈ x, ∃ p, e = .pluginIngress p .success

/-- Not a call or return marker. -/
def NoMark : Effect → Prop
  | .api _ | .ret _ => False
  | _ => True

/-- During the current API call the TLS library was given input from a datagram with session id `s`. -/
def InputSession (s : Nat) (l : Log) : Prop :=
  ∃ x body old, l = x ++ .input s body :: old ∧ ∀ e ∈ x, NoMark e

/-- What a connect call does before it talks to the TLS library. -/
def SetupEff : Effect → Prop
  | .role _ | .callbacks _ | .alloc _ | .table _ | .chains .. => True
  | _ => False

/-- Since the API call began, only the settings were copied. -/
def Preparing (a : Api) (l : Log) : Prop :=
  ∃ x old, l = x ++ .api a :: old ∧ ∀ e ∈ x, SetupEff e

/-- The main invariant; `o` is the API call in progress. -/
structure Inv (env : Env) (o : Option Api) (c : Conn) : Prop where
  api : lastApi c.log = o
  st : stateAt c.log = c.state
  role : serverAt c.log = c.isServer
  nudge : nudgeArmed c.log = c.nudgeTimerRunning
  reneg : renegOpen c.log = c.renegInProgress
  first : firstSeen c.log = true → c.firstMessageReceived = true
  due : c.renegDue = true → renegRequested c.log = true
  clos : closed c.log = true →
    c.state = .disconnected ∧ c.cbs.insideWrite = false ∧ c.cbs.outsideWrite = false
  all : AllAt Permitted c.log
  buf : c.authBuffer.length = 1350
  wolf : EnvOk env → c.wolfSet = false →
    (c.state = .none ∨ c.state = .disconnected) ∧ c.renegInProgress = false
  frag : ∀ t, c.fragTable = some t → TableWf t
  pm : PmRange c.pmtud
  ub : EnvOk env → ∀ s, Effect.ub s ∈ c.log → s = assertSite
  reg : registered c.log = c.cbs

/-- The AUTH message made of the credentials a connection holds. -/
def authMsg (c : Conn) : Bytes :=
  if c.authType = authUserPassTy then authUserPassMsg c
  else authBufMsg c.authType (c.authBuffer.take c.authBufferLength)

inductive Micro (env : Env) (a : Api) : Conn → Conn → Prop
  | io (c : Conn) (r : IoReq) (hnv : ¬Vetoed c.log) : Micro env a c (ioStep env c r)
  | quiet (c : Conn) (e : Effect) (h : Quiet e)
      (hj : ∀ p r, e = .pluginIngress p r → JustCalled a c.log := by intro _ _ h; cases h)
      (hv : ∀ p r, e = .pluginEgress p r → ¬Vetoed c.log := by intro _ _ h; cases h) : Micro env a c (c.emit e)
  | err (c : Conn) (e : SslErr) : Micro env a c { c with wolfError := e }
  | tmo (c : Conn) (t : Int) (h : (a = .disconnect ∧ t = 0) ∨ ((EnvOk env → t = reportedTimer env c.log) ∧
        ¬(c.state = .online ∧ c.renegInProgress = false))) :
      Micro env a c { c.emit (.timer t) with wolfTimeout := t }
  | dgram (c : Conn) (s : Nat) (body : Bytes) (h : a = .outsideData) (hf : JustCalled a c.log)
      (ht : c.connType = .datagram) :
      Micro env a c { c.emit (.input s body) with incoming := some body, packetSeen := false }
  | stream (c : Conn) (buf : Bytes) (h : a = .outsideData) (hf : JustCalled a c.log) (hs : c.streamLeft = [])
      (ht : c.connType = .stream) :
      Micro env a c { c.emit (.input 0 buf) with incoming := some buf, streamLeft := buf }
  | state (c : Conn) (s : ConnState) (hne : c.state ≠ s) (h : Edge a c s) :
      Micro env a c (setState c s)
  | insideWrite (c : Conn) (p : Bytes) (h : a = .outsideData) (hs : c.state = .online)
      (hc : c.cbs.insideWrite = true)
      (hv : ipv4Valid p = true)
      (hm : ∃ pkt, lastMessage c.log = some pkt ∧
        ((pkt.head? = some 5 ∧ (c.insidePlugins.plugins = 0 → ∃ n, 3 + n ≤ pkt.length ∧ p = field pkt 3 n ∧
            (n = num (field pkt 1 2) ∨ n = rdLe (field pkt 1 2)))) ∨
         (pkt.head? = some 13 ∧ (c.insidePlugins.plugins = 0 → 5 + num (field pkt 1 2) ≤ pkt.length ∧
            p = field pkt 5 (num (field pkt 1 2))))))
      (hnv : ¬Vetoed c.log)
      (hver : c.insidePlugins.plugins = 0 → ∀ pkt, lastMessage c.log = some pkt → pkt.head? = some 5 →
        p = field pkt 3 (if c.verMajor = 1 ∧ c.verMinor = 0 then rdLe (field pkt 1 2) else num (field pkt 1 2)))
      (hone : deliveredSince c.log = false)
      (hpl : ∃ d start, c.insidePlugins.egress start d d.length = (c.log, p, .success) ∧ p.length ≤ d.length ∧
        ∀ pkt, lastMessage c.log = some pkt →
          (pkt.head? = some 5 → d = field pkt 3 (if c.verMajor = 1 ∧ c.verMinor = 0 then rdLe (field pkt 1 2) else num (field pkt 1 2))) ∧
          (pkt.head? = some 13 → d = field pkt 5 (num (field pkt 1 2)))) :
      Micro env a c (c.emit (.insideWrite p))
  | insideFrag (c : Conn) (t : FragTable) (pkt : Bytes) (g : Fragment) (en : FragEntry) (hd : FragNode)
      (tl : List FragNode) (p : Bytes) (h : a = .outsideData) (hs : c.state = .online)
      (hc : c.cbs.insideWrite = true) (hv : ipv4Valid p = true) (ht : c.fragTable = some t)
      (hm : lastMessage c.log = some pkt) (hg : carried pkt = some g) (hen : t.slot (g.id % t.num) = some en)
      (hn : en.nodes = hd :: tl) (hlast : hd.last = true) (hb : hd.b = 0)
      (hclk : ∃ now, lastClock c.log = some now ∧ now - en.timestamp ≤ 64)
      (hp : c.insidePlugins.plugins = 0 → p = en.data.take hd.e) (hnv : ¬Vetoed c.log)
      (hone : deliveredSince c.log = false)
      (hpl : ∃ start, c.insidePlugins.egress start (en.data.take hd.e) (en.data.take hd.e).length = (c.log, p, .success) ∧
        p.length ≤ (en.data.take hd.e).length) :
      Micro env a c { c.emit (.insideWrite p) with fragTable := some (t.delete g.id) }
  | message (c : Conn) (p : Bytes) (h : a = .outsideData) (hs : MsgState c.state) : Micro env a c (c.emit (.message p))
  | sessCfg (c : Conn) (s : Nat) (h : a = .outsideData) (hr : c.isServer = false)
      (hs : c.state = .authenticating) (hm : ∃ pkt rest, c.log = .message pkt :: rest ∧ IsConfigMsg pkt ∧
        s = rdLe (field pkt 97 8)) (hlt : s < 2 ^ 64) :
      Micro env a c { c with sessionId := s }
  | netCfg (c : Conn) (cfg : NetCfg) (rc : RC) (h : a = .outsideData) (hr : c.isServer = false)
      (hs : c.state = .configuring) (hcfg : SaneCfg cfg) (hc : c.cbs.netConfig = true)
      (hl : ∃ n pkt rest, c.log = .state .configuring n :: .message pkt :: rest ∧
        stateAt rest = .authenticating ∧ IsConfigMsg pkt ∧ CfgOf pkt cfg) :
      Micro env a c (c.emit (.netConfig cfg rc))
  | srvCfg (c : Conn) (buf : Bytes) (rc : RC) (h : a = .outsideData) (hr : c.isServer = false)
      (hs : validStateForServerConfig c = true) (hc : c.cbs.serverConfig = true)
      (hm : ∃ pkt rest, c.log = .message pkt :: rest ∧ pkt.head? = some 14 ∧
        3 + num (field pkt 1 2) ≤ pkt.length ∧ buf = field pkt 3 (num (field pkt 1 2))) :
      Micro env a c (c.emit (.serverConfig buf rc))
  | auth (c : Conn) (e : Effect) (u : Bytes) (hu : c.username.length = 51 → u.length = 51) (he : AuthEff e) (hc : CbOk c.cbs e) (h : a = .outsideData)
      (hr : c.isServer = true) (hs : MsgState c.state)
      (hm : ∃ pkt rest, c.log = .message pkt :: rest ∧ AuthArgs pkt e) (hn : u = nameAfter c.username e) :
      Micro env a c { c.emit e with username := u }
  | populate (c : Conn) (rc : RC) (h : a = .outsideData) (hr : c.isServer = true)
      (hs : MsgState c.state) (hc : c.cbs.populate = true) (hl : ∃ e rest, c.log = e :: rest ∧ AuthOk e) :
      Micro env a c (c.emit (.populate rc))
  | first (c : Conn) (h : a = .outsideData) (hf : c.firstMessageReceived = false) :
      Micro env a c (generateEvent { c with firstMessageReceived := true } .firstMessageReceived)
  | dueOff (c : Conn) : Micro env a c { c with renegDue := false }
  | renegStart (c : Conn) (h : a = .outsideData) (hr : c.renegInProgress = false)
      (hs : c.state = .online) (hq : renegRequested c.log = true) (hd : c.renegDue = false) :
      Micro env a c (generateEvent { c with renegInProgress := true } .renegStarted)
  | renegDone (c : Conn) (h : a = .outsideData) (hr : c.renegInProgress = true) :
      Micro env a c { generateEvent c .renegCompleted with renegInProgress := false }
  | pong (c : Conn) (h : a = .outsideData)
      (hm : ∃ pkt rest, c.log = .message pkt :: rest ∧ pkt.head? = some 3 ∧ 5 ≤ pkt.length ∧
        num (field pkt 1 2) = c.pingPendingId) : Micro env a c (generateEvent c .pong)
  | sessAck (c : Conn) (s : Nat) (h : a = .outsideData) (hr : c.isServer = true)
      (hs : s = c.pendingSessionId) (hz : s ≠ 0) (hin : InputSession s c.log) :
      Micro env a c (generateEvent { c with sessionId := s, pendingSessionId := sessionEmpty }
        .pendingSessionAcknowledged)
  | sessClient (c : Conn) (s : Nat) (h : a = .outsideData) (hr : c.isServer = false) (hz : s ≠ 0)
      (hlt : s < 2 ^ 64) (hin : InputSession s c.log) : Micro env a c { c with sessionId := s }
  | sessServer (c : Conn) (s : Nat) (h : a = .serverConnect) (hlt : s < 2 ^ 64) :
      Micro env a c { c with sessionId := s }
  | rotate (c : Conn) (s : Nat) (h : a = .rotateSession) (hr : c.isServer = true)
      (hp : c.pendingSessionId = 0) (hlt : s < 2 ^ 64) : Micro env a c { c with pendingSessionId := s }
  | sessSet (c : Conn) (s : Nat) (h : a = .setter) (hz : c.sessionId = 0) (hlt : s < 2 ^ 64) :
      Micro env a c { c with sessionId := s }
  | nudgeTime (c : Conn) (t : Int) (hc : c.cbs.nudgeTime = true) (hn : c.nudgeTimerRunning = false)
      (hs : ¬(c.state = .online ∧ c.renegInProgress = false)) (ht : ∃ rest, c.log = .timer t :: rest) :
      Micro env a c { c.emit (.nudgeTime t) with nudgeTimerRunning := true }
  | role (c : Conn) (b : Bool) (h : IsConnect a) (hq : Preparing a c.log) (hb : b = true → a = .serverConnect) :
      Micro env a c { c.emit (.role b) with isServer := b }
  | configure (c : Conn) (ctx : SslCtx) (h : IsConnect a) (hq : Preparing a c.log) : Micro env a c (configure env c ctx).1
  | plugins (c : Conn) (i o : Chain) (h : IsConnect a) (hq : Preparing a c.log) :
      Micro env a c { c.emit (.chains i.plugins o.plugins) with insidePlugins := i, outsidePlugins := o }
  | wolfNew (c : Conn) (h : IsConnect a) (hm : c.outsideMtu ≠ 0) (ht : c.fragTable.isSome = true) :
      Micro env a c { c.emit (.sslCall .new (env.ssl c.log .new).ok) with
        wolfSet := (env.ssl c.log .new).ok }
  | dropCbs (c : Conn) (h : a = .disconnect) :
      Micro env a c
        ({ c with cbs := { c.cbs with insideWrite := false, outsideWrite := false } }.emit (.callbacks { c.cbs with insideWrite := false, outsideWrite := false }))
  | creds (c : Conn) (ty : UInt8) (u p sni buf : Bytes) (n : Nat) (h : a = .setter)
      (hb : buf.length = c.authBuffer.length) (hu : c.username.length = 51 → u.length = 51)
      (hp : c.password.length = 51 → p.length = 51) (hn : n = c.authBufferLength ∨ n < 1350) :
      Micro env a c { c with authType := ty, username := u, password := p, sniHostname := sni,
                             authBuffer := buf, authBufferLength := n }
  | mtu (c : Conn) (m : Nat) (h : a = .setter) (hm : 114 < m ∧ m < 65536) :
      Micro env a c { c with outsideMtu := m }
  | version (c : Conn) (x y : UInt8) (h : a = .setter) (hq : Preparing a c.log) :
      Micro env a c { c with verMajor := x, verMinor := y }
  | probeAck (c : Conn) (id : Nat) (h : a = .outsideData) (hs : MsgState c.state)
      (hm : ∃ pkt rest, c.log = .message pkt :: rest ∧ pkt.head? = some 3 ∧ 5 ≤ pkt.length ∧
        id = num (field pkt 1 2)) :
      Micro env a c (handleProbeAck env c id).1
  | probeTimeout (c : Conn) (h : a = .pmtudTimeout) : Micro env a c (handleProbeTimeout env c).1
  | startBase (c : Conn) (h : a = .startPmtud) (hs : c.state = .online)
      (hd : c.pmtud.state = .disabled) (hc : c.cbs.pmtudState = true ∧ c.cbs.pmtudTime = true) :
      Micro env a c (startBaseProbing env c).1
  | write (c : Conn) (m : Bytes) (ok : Bool) (h : Inv env (some a) c → SentOk m c.log)
      (hp : m.head? ≠ some 2) (ha : m.head? = some 4 → m = authMsg c)
      (hc : m.head? = some 6 → field m 97 8 = le64 c.sessionId) :
      Micro env a c (c.emit (.sslCall (.write m) ok))
  | ping (c : Conn) (ok : Bool) (h : a = .keepalive) (hs : c.state = .online) :
      Micro env a c { c.emit (.sslCall (.write (pingMsg c.pingNextId)) ok) with
        pingNextId := (c.pingNextId + 1) % 65536 }
  | pingPending (c : Conn) (n : Nat) (h : a = .keepalive) : Micro env a c { c with pingPendingId := n }
  | fragNext (c : Conn) (n : Nat) (h : a = .insidePacket) (hn : n < 65536) : Micro env a c { c with fragNextId := n }
  | fragNew (c : Conn) (t : FragTable) (id : Nat) (now : Int) (h : a = .outsideData) (ht : c.fragTable = some t)
      (hn : t.slot (id % t.num) = none)
      (hl : ∃ pkt g rest, carried pkt = some g ∧ g.id = id ∧ c.log = .clock now :: .alloc true :: .message pkt :: rest) :
      Micro env a c { c with fragTable := some (t.set id (FragEntry.fresh now)) }
  | fragPut (c : Conn) (t : FragTable) (g : Fragment) (en en' : FragEntry) (now : Int) (al : Bool) (rc : RC)
      (asm : Bool) (h : a = .outsideData) (ht : c.fragTable = some t) (hs : t.slot (g.id % t.num) = some en)
      (hl : ∃ pkt rest, carried pkt = some g ∧ (c.log = .clock now :: .message pkt :: rest ∨
          c.log = .clock now :: .clock en.timestamp :: .alloc true :: .message pkt :: rest))
      (hu : (en.expire now).update al g.data g.off (!g.more) = some (en', rc, asm)) :
      Micro env a c { c with fragTable := some (t.set g.id en') }
  | fragDel (c : Conn) (t : FragTable) (pkt : Bytes) (g : Fragment) (h : a = .outsideData)
      (ht : c.fragTable = some t) (hm : lastMessage c.log = some pkt) (hg : carried pkt = some g) :
      Micro env a c { c with fragTable := some (t.delete g.id) }
  | ub (c : Conn) (s : String) (h : ¬EnvOk env) : Micro env a c (c.ub s)

/-- Reflexive transitive closure. -/
inductive Star {α : Type} (R : α → α → Prop) : α → α → Prop
  | refl (a : α) : Star R a a
  | tail {a b c : α} (h : Star R a b) (s : R b c) : Star R a c

theorem Star.one {α : Type} {R : α → α → Prop} {a b : α} (h : R a b) : Star R a b :=
  .tail (.refl a) h

theorem Star.trans {α : Type} {R : α → α → Prop} {a b c : α} (h1 : Star R a b) (h2 : Star R b c) :
    Star R a c := by
  induction h2 with
  | refl => exact h1
  | tail _ s ih => exact ih.tail s

/-- Frames preserve the invariant. -/
theorem Inv.pFrame {env : Env} {o : Option Api} {c c' : Conn} (hi : Inv env o c)
    (h : PFrame c c') (hp : PmRange c'.pmtud) : Inv env o c' := by
  obtain ⟨l, ps, sl, we, pm, pn, rfl, hl⟩ := h
  have hn : ∀ x ∈ l, Neutral x := fun x hx => (hl x hx).neutral
  constructor <;> simp only
  · rw [lastApi_neutral _ hn, hi.api]
  · rw [stateAt_neutral _ hn, hi.st]
  · rw [serverAt_neutral _ hn, hi.role]
  · rw [nudgeArmed_neutral _ hn, hi.nudge]
  · rw [renegOpen_neutral _ hn, hi.reneg]
  · rw [firstSeen_neutral _ hn]; exact hi.first
  · rw [renegRequested_neutral _ hn]; exact hi.due
  · rw [closed_neutral _ hn]; exact hi.clos
  · exact allAt_frame hl (fun h => (hi.clos h).2.2) hi.reg hi.all
  · exact hi.buf
  · exact hi.wolf
  · exact hi.frag
  · exact hp
  · intro he s hs
    rcases List.mem_append.mp hs with h | h
    · exact hl _ h
    · exact hi.ub he s h
  · rw [registered_neutral _ hn]; exact hi.reg

theorem Inv.ioFrame {env : Env} {o : Option Api} {c c' : Conn} (hi : Inv env o c)
    (h : IoFrame c c') : Inv env o c' :=
  hi.pFrame h.pFrame (by rw [ioFrame_pmtud h]; exact hi.pm)

/-- Emitting a neutral, permitted effect that is not undefined behaviour. -/
theorem Inv.emit {env : Env} {o : Option Api} {c : Conn} (hi : Inv env o c) (e : Effect)
    (hn : Neutral e) (hp : Permitted e c.log) (hu : EnvOk env → ∀ s, e ≠ .ub s) :
    Inv env o (c.emit e) := by
  have hn' : ∀ x ∈ [e], Neutral x := by simpa using hn
  constructor <;> simp only [Conn.emit]
  · rw [← hi.api]; exact lastApi_neutral c.log hn'
  · rw [← hi.st]; exact stateAt_neutral c.log hn'
  · rw [← hi.role]; exact serverAt_neutral c.log hn'
  · rw [← hi.nudge]; exact nudgeArmed_neutral c.log hn'
  · rw [← hi.reneg]; exact renegOpen_neutral c.log hn'
  · intro h; rw [show firstSeen (e :: c.log) = firstSeen c.log from firstSeen_neutral c.log hn'] at h
    exact hi.first h
  · intro h; rw [show renegRequested (e :: c.log) = renegRequested c.log from renegRequested_neutral c.log hn']
    exact hi.due h
  · intro h; rw [show closed (e :: c.log) = closed c.log from closed_neutral c.log hn'] at h
    exact hi.clos h
  · exact ⟨hp, hi.all⟩
  · exact hi.buf
  · exact hi.wolf
  · exact hi.frag
  · exact hi.pm
  · intro he s hs
    rcases List.mem_cons.mp hs with h | h
    · exact absurd h.symm (hu he s)
    · exact hi.ub he s h
  · rw [← hi.reg]; exact registered_neutral c.log hn'

theorem IsConnect.not_closed {env : Env} {a : Api} {c : Conn} (hi : Inv env (some a) c)
    (h : IsConnect a) : closed c.log = false := by
  cases hc : closed c.log
  · rfl
  · have := closed_lastApi hc
    rw [hi.api] at this
    rcases h with rfl | rfl <;> simp at this

theorem Inv.not_closed {env : Env} {o : Option Api} {c : Conn} (hi : Inv env o c)
    (h : c.state ≠ .disconnected) : closed c.log = false := by
  cases hc : closed c.log
  · rfl
  · exact absurd (hi.clos hc).1 h

/-- A state change along an allowed edge. -/
theorem Inv.setState {env : Env} {a : Api} {c : Conn} (hi : Inv env (some a) c) {s : ConnState}
    (hne : c.state ≠ s) (h : Edge a c s) : Inv env (some a) (setState c s) := by
  unfold Lightway.setState
  rw [if_neg hne]
  have hnc : s ≠ .disconnected → closed c.log = false := by
    intro hs
    cases hc : closed c.log
    · rfl
    · have h1 := (hi.clos hc).1
      have h2 := closed_lastApi hc
      rw [hi.api] at h2
      exfalso
      cases s <;> simp_all [Edge, IsConnect, MsgState]
  constructor <;> simp only
  · exact hi.api
  · rfl
  · exact hi.role
  · exact hi.nudge
  · exact hi.reneg
  · exact hi.first
  · exact hi.due
  · intro hc
    have hc' : closed c.log = true := hc
    by_cases hs : s = .disconnected
    · exact ⟨hs, (hi.clos hc').2⟩
    · rw [hnc hs] at hc'; cases hc'
  · refine ⟨⟨by show _ = _; rw [hi.reg], ?_⟩, hi.all⟩
    show EdgeOk c.log s
    unfold EdgeOk
    rw [hi.st, hi.api, hi.role, hi.reg]
    refine ⟨hne, ?_⟩
    cases s <;> simp_all [Edge, IsConnect, MsgState]
    case linkUp =>
      rcases h.2.1 with (h | h) | h
      · exact .inl h
      · exact .inr (.inl h)
      · exact .inr (.inr h)
    case online =>
      rcases h.2.2 with ⟨h1, h2, h3⟩ | ⟨h1, h2, h3⟩
      · exact .inl ⟨h1, h2, h3⟩
      · exact .inr ⟨h1, h2.1, h2.2.1, h2.2.2, h3⟩
    case disconnecting =>
      rcases h.2 with h | h
      · exact .inl h
      · exact .inr ⟨h.2.1, h.1, h.2.2.1.1, h.2.2.1.2, h.2.2.2⟩
  · exact hi.buf
  · intro he hw
    have := hi.wolf he hw
    cases s <;> simp_all [Edge, IsConnect, MsgState]
  · exact hi.frag
  · exact hi.pm
  · intro he t ht
    simp at ht
    exact hi.ub he t ht
  · exact hi.reg

/-- What `configure` leaves. -/
theorem configure_shape (env : Env) (c : Conn) (ctx : SslCtx) : ∃ x y ok ft,
    (configure env c ctx).1 = { c with
      disableRoaming := ctx.disableRoaming, padding := ctx.padding, aggressive := ctx.aggressive,
      usePqc := ctx.usePqc, connType := ctx.connType, verMajor := x, verMinor := y, cbs := ctx.cbs,
      pingNextId := 1, fragTable := ft, log := .table ctx.maxFragEntries :: .alloc ok :: .callbacks ctx.cbs :: c.log } ∧
    (ft = none ∨ ft = some (FragTable.create ctx.maxFragEntries)) := by
  refine ⟨if c.verMajor = 0 then ctx.maxMajor else c.verMajor,
    if c.verMajor = 0 then ctx.maxMinor else c.verMinor, env.alloc (.callbacks ctx.cbs :: c.log), ?_⟩
  cases h : env.alloc (.callbacks ctx.cbs :: c.log)
  · exact ⟨none, by simp [configure, Conn.emit, h], .inl rfl⟩
  · exact ⟨some (FragTable.create ctx.maxFragEntries), by simp [configure, Conn.emit, h], .inr rfl⟩

theorem carried_head {pkt : Bytes} {g : Fragment} (h : carried pkt = some g) : pkt.head? = some 15 := by
  unfold carried at h
  split at h
  · rename_i h1; exact h1.1
  · cases h

/-- Every micro step preserves the invariant. -/
theorem Micro.inv {env : Env} {a : Api} {c c' : Conn} (hm : Micro env a c c')
    (hi : Inv env (some a) c) : Inv env (some a) c' := by
  cases hm with
  | io r => exact hi.ioFrame (ioStep_frame env c r)
  | quiet e h =>
    refine hi.emit e ?_ ?_ ?_ <;> cases e <;> simp_all [Quiet, Neutral, Permitted, CbOk]
  | err e => exact ⟨hi.1, hi.2, hi.3, hi.4, hi.5, hi.6, hi.7, hi.8, hi.9, hi.10, hi.11, hi.12, hi.13, hi.14, hi.15⟩
  | tmo t _ =>
    have hi := hi.emit (.timer t) trivial ⟨trivial, trivial⟩ (fun _ _ h => by cases h)
    exact ⟨hi.1, hi.2, hi.3, hi.4, hi.5, hi.6, hi.7, hi.8, hi.9, hi.10, hi.11, hi.12, hi.13, hi.14, hi.15⟩
  | dgram s body h =>
    have hi := hi.emit (.input s body) trivial ⟨trivial, trivial⟩ (by simp)
    exact ⟨hi.1, hi.2, hi.3, hi.4, hi.5, hi.6, hi.7, hi.8, hi.9, hi.10, hi.11, hi.12, hi.13, hi.14, hi.15⟩
  | stream buf h hs =>
    have hi := hi.emit (.input 0 buf) trivial ⟨trivial, trivial⟩ (by simp)
    exact ⟨hi.1, hi.2, hi.3, hi.4, hi.5, hi.6, hi.7, hi.8, hi.9, hi.10, hi.11, hi.12, hi.13, hi.14, hi.15⟩
  | state s hne h => exact hi.setState hne h
  | insideWrite p h hs hc hv hm =>
    refine hi.emit _ trivial ?_ (by simp)
    refine ⟨by rw [hi.reg]; exact hc, hi.not_closed (by simp [hs]), by rw [hi.st, hs], by rw [hi.api, h], ?_⟩
    obtain ⟨pkt, h1, h2 | h2⟩ := hm
    · exact ⟨pkt, h1, .inl h2.1⟩
    · exact ⟨pkt, h1, .inr (.inl h2.1)⟩
  | insideFrag t pkt g en hd tl p h hs hc hv ht hm hg hen hn hlast hb hclk hp =>
    have hi2 := hi.emit (.insideWrite p) trivial
      ⟨by rw [hi.reg]; exact hc, hi.not_closed (by simp [hs]), by rw [hi.st, hs], by rw [hi.api, h],
        pkt, hm, .inr (.inr (carried_head hg))⟩ (by simp)
    exact ⟨hi2.1, hi2.2, hi2.3, hi2.4, hi2.5, hi2.6, hi2.7, hi2.8, hi2.9, hi2.10, hi2.11,
      fun t2 h2 => by simp only [Option.some.injEq] at h2; rw [← h2]; exact delete_wf (hi.12 t ht) _,
      hi2.13, hi2.14, hi2.15⟩
  | message p h hs =>
    exact hi.emit _ trivial ⟨trivial, by rw [hi.st]; exact hs.1, by rw [hi.st]; exact hs.2.1, by rw [hi.st]; exact hs.2.2,
      by rw [hi.api, h]⟩ (by simp)
  | sessCfg s h hr hs hm _ =>
    exact ⟨hi.1, hi.2, hi.3, hi.4, hi.5, hi.6, hi.7, hi.8, hi.9, hi.10, hi.11, hi.12, hi.13, hi.14, hi.15⟩
  | netCfg cfg rc h hr hs hcfg hc hl =>
    refine hi.emit _ trivial ?_ (by simp)
    exact ⟨by rw [hi.reg]; exact hc, hi.not_closed (by simp [hs]), by rw [hi.role, hr], by rw [hi.api, h],
      hcfg, hl⟩
  | srvCfg buf rc h hr hs hc hm =>
    simp only [validStateForServerConfig, Bool.or_eq_true, decide_eq_true_eq] at hs
    refine hi.emit _ trivial ?_ (by simp)
    refine ⟨by rw [hi.reg]; exact hc, hi.not_closed ?_, by rw [hi.role, hr], by rw [hi.api, h], ?_, hm⟩
    · intro h; rw [h] at hs; simp at hs
    · rw [hi.st]; rcases hs with ((hs | hs) | hs) | hs <;> simp [hs]
  | auth e u _ he hc h hr hs hm =>
    have hp : Permitted e c.log := by
      refine ⟨by rw [hi.reg]; exact hc, ?_⟩
      cases e <;> simp_all [AuthEff, hi.role, hi.api, hi.st, MsgState, hi.not_closed]
    have hi := hi.emit e (by cases e <;> simp_all [AuthEff, Neutral]) hp
      (by cases e <;> simp_all [AuthEff])
    exact ⟨hi.1, hi.2, hi.3, hi.4, hi.5, hi.6, hi.7, hi.8, hi.9, hi.10, hi.11, hi.12, hi.13, hi.14, hi.15⟩
  | populate rc h hr hs hc hl =>
    refine hi.emit _ trivial ?_ (by simp)
    exact ⟨by rw [hi.reg]; exact hc, hi.not_closed hs.2.2, by rw [hi.role, hr], hl⟩
  | first h hf =>
    have hfs : firstSeen c.log = false := by
      cases hx : firstSeen c.log
      · rfl
      · rw [hi.first hx] at hf; cases hf
    exact ⟨hi.1, hi.2, hi.3, hi.4, hi.5, fun _ => rfl, hi.7, hi.8,
      ⟨⟨by show _ = _; rw [hi.reg], hfs, by rw [hi.api, h]⟩, hi.9⟩, hi.10, hi.11, hi.12, hi.13,
      fun he s hs => hi.14 he s (by simpa [generateEvent, Conn.emit] using hs), hi.15⟩
  | dueOff => exact ⟨hi.1, hi.2, hi.3, hi.4, hi.5, hi.6, by simp, hi.8, hi.9, hi.10, hi.11, hi.12, hi.13, hi.14, hi.15⟩
  | renegStart h hr hs hq hd =>
    refine ⟨hi.1, hi.2, hi.3, hi.4, rfl, hi.6, ?_, hi.8, ⟨?_, hi.9⟩, hi.10, ?_, hi.12, hi.13,
      fun he s hs => hi.14 he s (by simpa [generateEvent, Conn.emit] using hs), hi.15⟩
    · intro hx; simp [generateEvent, Conn.emit, hd] at hx
    · exact ⟨by show _ = _; rw [hi.reg], by rw [hi.reneg, hr], by rw [hi.st, hs], hq, by rw [hi.api, h]⟩
    · intro he hw
      have := hi.wolf he hw
      simp [hs] at this
  | renegDone h hr =>
    refine ⟨hi.1, hi.2, hi.3, hi.4, rfl, hi.6, hi.7, hi.8, ⟨?_, hi.9⟩, hi.10, ?_, hi.12, hi.13,
      fun he s hs => hi.14 he s (by simpa [generateEvent, Conn.emit] using hs), hi.15⟩
    · exact ⟨by show _ = _; rw [hi.reg], by rw [hi.reneg, hr], by rw [hi.api, h]⟩
    · intro he hw
      exact ⟨(hi.wolf he hw).1, rfl⟩
  | pong h hm =>
    exact ⟨hi.1, hi.2, hi.3, hi.4, hi.5, hi.6, hi.7, hi.8, ⟨⟨by show _ = _; rw [hi.reg], by show lastApi _ = _; rw [hi.api, h],
        by obtain ⟨pkt, rest, h1, h2, h3, _⟩ := hm; exact ⟨pkt, rest, h1, h2, h3⟩⟩, hi.9⟩,
      hi.10, hi.11, hi.12, hi.13, fun he s hs => hi.14 he s (by simpa [generateEvent, Conn.emit] using hs), hi.15⟩
  | sessAck s h hr hs hz _ =>
    exact ⟨hi.1, hi.2, hi.3, hi.4, hi.5, hi.6, hi.7, hi.8,
      ⟨⟨by show _ = _; rw [hi.reg], by rw [hi.role, hr], by rw [hi.api, h]⟩, hi.9⟩,
      hi.10, hi.11, hi.12, hi.13, fun he s hs => hi.14 he s (by simpa [generateEvent, Conn.emit] using hs), hi.15⟩
  | sessClient s h hr hz _ _ => exact ⟨hi.1, hi.2, hi.3, hi.4, hi.5, hi.6, hi.7, hi.8, hi.9, hi.10, hi.11, hi.12, hi.13, hi.14, hi.15⟩
  | sessServer s h _ => exact ⟨hi.1, hi.2, hi.3, hi.4, hi.5, hi.6, hi.7, hi.8, hi.9, hi.10, hi.11, hi.12, hi.13, hi.14, hi.15⟩
  | rotate s h hr hp _ => exact ⟨hi.1, hi.2, hi.3, hi.4, hi.5, hi.6, hi.7, hi.8, hi.9, hi.10, hi.11, hi.12, hi.13, hi.14, hi.15⟩
  | sessSet s h hz _ => exact ⟨hi.1, hi.2, hi.3, hi.4, hi.5, hi.6, hi.7, hi.8, hi.9, hi.10, hi.11, hi.12, hi.13, hi.14, hi.15⟩
  | nudgeTime t hc hn hs =>
    refine ⟨hi.1, hi.2, hi.3, rfl, hi.5, hi.6, hi.7, hi.8, ⟨?_, hi.9⟩, hi.10, hi.11, hi.12, hi.13,
      fun he s hs => hi.14 he s (by simpa [Conn.emit] using hs), hi.15⟩
    exact ⟨by rw [hi.reg]; exact hc, by rw [hi.nudge, hn], by rw [hi.st, hi.reneg]; exact hs⟩
  | role b h =>
    refine ⟨hi.1, hi.2, rfl, hi.4, hi.5, hi.6, hi.7, hi.8, ⟨⟨trivial, trivial⟩, hi.9⟩, hi.10, hi.11, hi.12, hi.13,
      fun he s hs => hi.14 he s (by simpa [Conn.emit] using hs), hi.15⟩
  | configure ctx h =>
    have hnc := h.not_closed hi
    obtain ⟨x, y, ok, ft, e, hft⟩ := configure_shape env c ctx
    rw [e]
    refine ⟨hi.1, hi.2, hi.3, hi.4, hi.5, hi.6, hi.7, ?_,
      ⟨⟨trivial, trivial⟩, ⟨trivial, trivial⟩, ⟨trivial, trivial⟩, hi.9⟩, hi.10, hi.11, ?_, hi.13,
      fun he s hs => hi.14 he s (by simpa using hs), rfl⟩
    · intro hc; exact absurd (show closed c.log = true from hc) (by simp [hnc])
    · intro t ht
      simp only at ht
      rcases hft with rfl | rfl
      · cases ht
      · simp only [Option.some.injEq] at ht
        rw [← ht]; intro i e hie; simp [FragTable.create] at hie
  | plugins i o h => exact ⟨hi.1, hi.2, hi.3, hi.4, hi.5, hi.6, hi.7, hi.8, ⟨⟨trivial, trivial⟩, hi.9⟩, hi.10, hi.11, hi.12, hi.13,
      fun he s hs => hi.14 he s (by simpa [Conn.emit] using hs), hi.15⟩
  | wolfNew h _ _ =>
    refine ⟨hi.1, hi.2, hi.3, hi.4, hi.5, hi.6, hi.7, hi.8, ⟨⟨trivial, trivial⟩, hi.9⟩, hi.10, ?_, hi.12, hi.13,
      fun he s hs => hi.14 he s (by simpa [Conn.emit] using hs), hi.15⟩
    intro he hw
    rw [show _ = (env.ssl c.log .new).ok from rfl, he.2 c.log] at hw
    cases hw
  | dropCbs h =>
    exact ⟨hi.1, hi.2, hi.3, hi.4, hi.5, hi.6, hi.7, fun hc => ⟨(hi.8 hc).1, rfl, rfl⟩,
      ⟨⟨trivial, trivial⟩, hi.9⟩, hi.10,
      hi.11, hi.12, hi.13, fun he s hs => hi.14 he s (by simpa [Conn.emit] using hs), rfl⟩
  | creds ty u p sni buf n h hb _ _ _ =>
    exact ⟨hi.1, hi.2, hi.3, hi.4, hi.5, hi.6, hi.7, hi.8, hi.9, hb.trans hi.10, hi.11, hi.12, hi.13, hi.14, hi.15⟩
  | mtu m h hm => exact ⟨hi.1, hi.2, hi.3, hi.4, hi.5, hi.6, hi.7, hi.8, hi.9, hi.10, hi.11, hi.12, hi.13, hi.14, hi.15⟩
  | version x y h => exact ⟨hi.1, hi.2, hi.3, hi.4, hi.5, hi.6, hi.7, hi.8, hi.9, hi.10, hi.11, hi.12, hi.13, hi.14, hi.15⟩
  | probeAck id h hs _ => exact hi.pFrame (handleProbeAck_frame env c id) (handleProbeAck_range env id hi.pm)
  | probeTimeout h => exact hi.pFrame (handleProbeTimeout_frame env c) (handleProbeTimeout_range env hi.pm)
  | startBase h hs hd => exact hi.pFrame (startBaseProbing_frame env c) (startBaseProbing_range env hi.pm)
  | write m ok _ _ _ => exact hi.emit (.sslCall (.write m) ok) trivial ⟨trivial, trivial⟩ (by simp)
  | ping ok _ _ =>
    have hi := hi.emit (.sslCall (.write (pingMsg c.pingNextId)) ok) trivial ⟨trivial, trivial⟩ (by simp)
    exact ⟨hi.1, hi.2, hi.3, hi.4, hi.5, hi.6, hi.7, hi.8, hi.9, hi.10, hi.11, hi.12, hi.13, hi.14, hi.15⟩
  | pingPending n h => exact ⟨hi.1, hi.2, hi.3, hi.4, hi.5, hi.6, hi.7, hi.8, hi.9, hi.10, hi.11, hi.12, hi.13, hi.14, hi.15⟩
  | fragNext n h _ => exact ⟨hi.1, hi.2, hi.3, hi.4, hi.5, hi.6, hi.7, hi.8, hi.9, hi.10, hi.11, hi.12, hi.13, hi.14, hi.15⟩
  | fragNew t id now h ht hn hl =>
    refine ⟨hi.1, hi.2, hi.3, hi.4, hi.5, hi.6, hi.7, hi.8, hi.9, hi.10, hi.11, ?_, hi.13, hi.14, hi.15⟩
    intro t2 h2
    simp only [Option.some.injEq] at h2
    rw [← h2]
    exact set_wf (hi.12 t ht) id (fresh_wf now)
  | fragPut t g en en' now al rc asm h ht hs hl hu =>
    refine ⟨hi.1, hi.2, hi.3, hi.4, hi.5, hi.6, hi.7, hi.8, hi.9, hi.10, hi.11, ?_, hi.13, hi.14, hi.15⟩
    intro t2 h2
    simp only [Option.some.injEq] at h2
    rw [← h2]
    exact set_wf (hi.12 t ht) _ ((update_wf (expire_wf now (hi.12 t ht _ _ hs))).1 _ _ _ hu)
  | fragDel t pkt g h ht hm hg =>
    refine ⟨hi.1, hi.2, hi.3, hi.4, hi.5, hi.6, hi.7, hi.8, hi.9, hi.10, hi.11, ?_, hi.13, hi.14, hi.15⟩
    intro t2 h2
    simp only [Option.some.injEq] at h2
    rw [← h2]
    exact delete_wf (hi.12 t ht) _
  | ub s h => exact hi.emit _ trivial ⟨trivial, trivial⟩ (fun he => absurd he h)

theorem Star.inv {env : Env} {a : Api} {c c' : Conn} (hm : Star (Micro env a) c c')
    (hi : Inv env (some a) c) : Inv env (some a) c' := by
  induction hm with
  | refl => exact hi
  | tail _ s ih => exact s.inv ih

end Lightway
