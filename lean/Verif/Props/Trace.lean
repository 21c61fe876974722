import Verif.Props.Demo
import Verif.Proofs.Tools

/-!
# Properties of every history
`run env ops` is the connection after any list of API calls, with any host, peer, TLS library, plugins,
allocator, clock and random generator `env`.  Its `log` is the history, newest effect first, so
`log = newer ++ e :: older` says: `e` happened, and `older` is everything before it.
The functions reading facts off a history (`stateAt`, `serverAt`, `lastApi`, `closed`, `registered`, ...)
are defined in `Spec/History.lean` without reference to the model.
-/

namespace Lightway
open Spec

/-- Every effect of every history is permitted after the history before it. -/
theorem permitted_everywhere (env : Env) (ops : List Op) : AllAt Permitted (run env ops).log := by
  obtain ⟨o, h⟩ := run_inv env ops; exact h.all

theorem permitted_at {env : Env} {ops : List Op} {newer : Log} {e : Effect} {older : Log}
    (h : (run env ops).log = newer ++ e :: older) : Permitted e older :=
  (permitted_everywhere env ops).at h

/-- What `he_conn_get_state` reports between calls is the last announced state. -/
theorem state_is_last_announced (env : Env) (ops : List Op) :
    (run env ops).state = stateAt (run env ops).log := by
  obtain ⟨o, h⟩ := run_inv env ops; exact h.st.symm

/-! ## C01 -/

/-- **C01.** The inside-write callback runs only while the state is ONLINE, during a receive call, and
only while a tunnel-data message (5, 13 or 15) is processed. -/
theorem C01_inside_write_only_online {env : Env} {ops : List Op} {newer older : Log} {pkt : Bytes}
    (h : (run env ops).log = newer ++ .insideWrite pkt :: older) :
    stateAt older = .online ∧ lastApi older = some .outsideData ∧
      (registered older).insideWrite = true ∧
      ∃ msg, lastMessage older = some msg ∧
        (msg.head? = some 5 ∨ msg.head? = some 13 ∨ msg.head? = some 15) := by
  have := permitted_at h
  exact ⟨this.2.2.1, this.2.2.2.1, this.1, this.2.2.2.2⟩

/-- Client session that receives one tunnel packet. -/
def demoDeliver : List Op :=
  Demo.clientOps ++ [.outsideData (Demo.dgram [9]) [Demo.msg ([5, 0, 28] ++ Demo.ipPkt)]]

example : Effect.insideWrite Demo.ipPkt ∈ (run Demo.env demoDeliver).log := by decide +kernel

/-! ## C02 -/

/-- **C02.** A server's transition to ONLINE directly follows, within the same receive call, an
authentication callback that said yes and a populate callback that succeeded; only bytes of the answer
were sent in between. -/
theorem C02_server_online_needs_approval {env : Env} {ops : List Op} {newer older : Log} {n : Bool}
    (h : (run env ops).log = newer ++ .state .online n :: older) (hs : serverAt older = true) :
    ∃ sent e rest, older = sent ++ .populate .success :: e :: rest ∧ AuthOk e ∧
      (∀ x ∈ sent, IsIo x) ∧ lastApi rest = some .outsideData ∧
      ((registered rest).auth = true ∨ (registered rest).authToken = true ∨
        (registered rest).authBuf = true) := by
  have hp := permitted_at h
  rcases hp.2.2 with ⟨h1, _⟩ | ⟨_, _, _, _, sent, e, rest, e1, e2, e3⟩
  · rw [hs] at h1; cases h1
  · have h2 : (run env ops).log = (newer ++ .state .online n :: sent ++ [.populate .success]) ++ e :: rest := by
      rw [h, e1]; simp
    have hp2 := permitted_at h2
    refine ⟨sent, e, rest, e1, e2, e3, ?_, ?_⟩
    · cases e <;> simp_all [AuthOk, Permitted]
    · cases e <;> simp_all [AuthOk, Permitted, CbOk]

example : Demo.occurs (fun e l => Demo.toState .online e && serverAt l) (run Demo.env Demo.serverOps).log = true := by
  decide +kernel

/-! ## C03 -/

/-- **C03.** A client's transition to ONLINE happens from CONFIGURING, directly after a CONFIG_IPV4
message arrived in AUTHENTICATING, was announced as CONFIGURING and, if a network-config callback is
registered, was accepted by that callback. -/
theorem C03_client_online_needs_config {env : Env} {ops : List Op} {newer older : Log} {n : Bool}
    (h : (run env ops).log = newer ++ .state .online n :: older) (hs : serverAt older = false) :
    stateAt older = .configuring ∧
    ∃ m pkt rest, IsConfigMsg pkt ∧ stateAt rest = .authenticating ∧
      (((registered older).netConfig = true ∧
          ∃ cfg, older = .netConfig cfg .success :: .state .configuring m :: .message pkt :: rest) ∨
       ((registered older).netConfig = false ∧
          older = .state .configuring m :: .message pkt :: rest)) := by
  have hp := permitted_at h
  rcases hp.2.2 with ⟨_, h2, h3⟩ | ⟨h1, _⟩
  · exact ⟨h2, h3⟩
  · rw [hs] at h1; cases h1

example : Demo.occurs (fun e l => Demo.toState .online e && !serverAt l) (run Demo.env Demo.clientOps).log = true := by
  decide +kernel

/-! ## C04 -/

/-- The documented life cycle, for a connection that is a server or not. -/
inductive Lifecycle : Bool → ConnState → ConnState → Prop
  /-- a connect call may restart from anywhere -/
  | connect (b s) : s ≠ .connecting → Lifecycle b s .connecting
  | linkUp (b) : Lifecycle b .connecting .linkUp
  | auth : Lifecycle false .linkUp .authenticating
  | conf : Lifecycle false .authenticating .configuring
  | onlineClient : Lifecycle false .configuring .online
  /-- server: any state in which messages are processed -/
  | onlineServer (s) : s ≠ .connecting → s ≠ .disconnecting → s ≠ .disconnected → s ≠ .online →
      Lifecycle true s .online
  /-- the host disconnects -/
  | closing (b s) : s = .linkUp ∨ s = .authenticating ∨ s = .configuring ∨ s = .online →
      Lifecycle b s .disconnecting
  /-- server: credentials denied -/
  | denied (s) : s ≠ .connecting → s ≠ .disconnected → s ≠ .disconnecting →
      Lifecycle true s .disconnecting
  | closed (b) : Lifecycle b .disconnecting .disconnected
  /-- the handshake timed out -/
  | timeout (b s) : s ≠ .authenticating → s ≠ .disconnected → Lifecycle b s .disconnected

/-- **C04.** Every announced state change is an edge of the life cycle, starting from the state before;
it is reported to the host exactly if a state callback is registered. -/
theorem C04_lifecycle {env : Env} {ops : List Op} {newer older : Log} {s : ConnState} {n : Bool}
    (h : (run env ops).log = newer ++ .state s n :: older) :
    Lifecycle (serverAt older) (stateAt older) s ∧ stateAt older ≠ s ∧
      n = (registered older).stateChange := by
  have hp := permitted_at h
  refine ⟨?_, hp.2.1, hp.1⟩
  have he := hp.2
  cases s <;> simp only [EdgeOk] at he
  case none => exact he.2.elim
  case connecting => exact .connect _ _ he.1
  case linkUp => rw [he.2.1]; exact .linkUp _
  case authenticating =>
    obtain ⟨-, ⟨n, rest, hl⟩, h2⟩ := he
    rw [h2, hl]; exact .auth
  case configuring => rw [he.2.1, he.2.2.1]; exact .conf
  case online =>
    rcases he.2 with ⟨h1, h2, _⟩ | ⟨h1, h2, h3, h4, _⟩
    · rw [h1, h2]; exact .onlineClient
    · rw [h1]; exact .onlineServer _ h2 h3 h4 he.1
  case disconnecting =>
    rcases he.2 with ⟨_, h1⟩ | ⟨h1, _, h2, h3, _⟩
    · exact .closing _ _ h1
    · rw [h1]; exact .denied _ h2 h3 he.1
  case disconnected =>
    rcases he.2 with ⟨_, h1⟩ | ⟨_, h1⟩
    · rw [h1]; exact .closed _
    · exact .timeout _ _ h1 he.1

/-- **C04**, the other half: between calls the reported state is the last one announced. -/
theorem C04_state_reported (env : Env) (ops : List Op) :
    (run env ops).state = stateAt (run env ops).log := state_is_last_announced env ops

example : ((run Demo.env Demo.clientOps).log.filterMap
      (fun e => match e with | .state s n => some (s, n) | _ => none)).reverse =
    [(.connecting, true), (.linkUp, true), (.authenticating, true), (.configuring, true),
      (.online, true)] := by decide +kernel
/-! ## C05 -/

def notConnect : Op → Prop
  | .clientConnect .. | .serverConnect .. => False
  | _ => True

theorem notConnect_api {op : Op} (h : notConnect op) : ¬IsConnect op.api := by
  cases op <;> simp_all [notConnect, IsConnect, Op.api]

/-- **C05**, part 1: processing an AUTH message that is not approved ends in DISCONNECTING with an
access-denied code. -/
theorem C05_denied_is_disconnecting (env : Env) (c : Conn) (pkt : Bytes) (ty : UInt8)
    (hs : c.isServer = true) (hp : c.cbs.populate = true)
    (hcb : c.cbs.auth = true ∨ c.cbs.authToken = true ∨ c.cbs.authBuf = true)
    (hty : pkt[1]? = some ty)
    (hno : ∀ u p, env.authUserPass c.log u p = false) (hno2 : ∀ t, env.authToken c.log t = false)
    (hno3 : ∀ t b, env.authBuf c.log t b = false)
    (hlen : ty = 1 → c.cbs.auth = true → 104 ≤ pkt.length)
    (hlen2 : (ty = 2 ∧ c.cbs.authToken = true) ∨ (ty = 23 ∧ c.cbs.authBuf = true) →
      5 ≤ pkt.length ∧ 4 + num (field pkt 2 2) ≤ pkt.length) :
    (handleAuth env c pkt).1.state = .disconnecting ∧
    ((handleAuth env c pkt).2 = .accessDenied ∨
     (handleAuth env c pkt).2 = .accessDeniedNoAuthUserpassHandler ∨
     (handleAuth env c pkt).2 = .accessDeniedNoAuthTokenHandler ∨
     (handleAuth env c pkt).2 = .accessDeniedNoAuthBufHandler) := by
  have hl : 2 ≤ pkt.length := by
    have := List.getElem?_eq_some_iff.mp hty
    obtain ⟨h, _⟩ := this; omega
  have e1 : rd pkt 1 1 = some [ty] := by
    obtain ⟨h, h2⟩ := List.getElem?_eq_some_iff.mp hty
    rw [rd_one h, h2]
  unfold handleAuth handleAuthBuf
  rw [if_neg (by simp [hs]), if_neg (by simp [hp]), if_neg (by rcases hcb with h | h | h <;> simp [h]),
    if_neg (by omega), e1]
  simp only
  unfold authSwitch
  by_cases t1 : ty = authUserPassTy
  · rw [if_pos t1]
    cases ha : c.cbs.auth
    · simp [setState_state]
    · have := hlen t1 ha
      simp only [if_true]
      rw [if_neg (by omega), rd_isSome (by omega), rd_isSome (by omega), wr_isSome (by simp; omega)]
      simp [hno, setState_state]
  rw [if_neg t1]
  by_cases t2 : ty = authTokenTy
  · rw [if_pos t2]
    cases ha : c.cbs.authToken
    · simp [setState_state]
    · have := hlen2 (.inl ⟨t2, ha⟩)
      simp only [if_true]
      rw [num_rdBe16 (field_length (by omega))] at this
      have h2 : rdBe16 (List.take 2 (List.drop 2 pkt)) + 4 ≤ pkt.length := by
        have := this.2; unfold field at this; omega
      rw [if_neg (by omega), rd_isSome (by omega)]
      simp only
      rw [if_neg (by omega), rd_isSome (by omega)]
      simp [hno2, setState_state]
  rw [if_neg t2]
  by_cases t3 : ty = authCbTy
  · rw [if_pos t3]
    cases ha : c.cbs.authBuf
    · simp [setState_state]
    · have := hlen2 (.inr ⟨t3, ha⟩)
      simp only [if_true]
      rw [num_rdBe16 (field_length (by omega))] at this
      have h2 : rdBe16 (List.take 2 (List.drop 2 pkt)) + 4 ≤ pkt.length := by
        have := this.2; unfold field at this; omega
      rw [if_neg (by omega), rd_isSome (by omega)]
      simp only
      rw [if_neg (by omega), rd_isSome (by omega)]
      simp [hno3, setState_state]
  · rw [if_neg t3]
    simp [setState_state]

/-- **C05**, part 2: from DISCONNECTING no sequence of calls without a connect reaches anything but
DISCONNECTING and DISCONNECTED. -/
theorem C05_no_return_from_disconnecting (env : Env) (ops more : List Op)
    (h : (run env ops).state = .disconnecting ∨ (run env ops).state = .disconnected)
    (hn : ∀ op ∈ more, notConnect op) :
    (run env (ops ++ more)).state = .disconnecting ∨ (run env (ops ++ more)).state = .disconnected := by
  induction more generalizing ops with
  | nil => simpa using h
  | cons op more ih =>
    have := ih (ops ++ [op]) ?_ (fun o ho => hn o (by simp [ho]))
    · simpa using this
    rw [run_snoc]
    obtain ⟨o, hi⟩ := run_inv env ops
    refine step_state env op hi (fun s => s = .disconnecting ∨ s = .disconnected) ?_ h
    intro c s hc he
    have hop := notConnect_api (hn op (by simp))
    cases s <;> simp only [Edge, reduceCtorEq, or_true, true_or, or_self] at he ⊢
    case connecting => exact hop he.1
    case linkUp => rcases hc with h | h <;> rw [h] at he <;> simp at he
    case authenticating => rcases hc with h | h <;> rw [h] at he <;> simp at he
    case configuring => rcases hc with h | h <;> rw [h] at he <;> simp at he
    case online =>
      rcases he.2.2 with ⟨_, h2, _⟩ | ⟨_, h2, _⟩
      · rcases hc with h | h <;> rw [h] at h2 <;> cases h2
      · rcases hc with h | h
        · exact h2.2.1 h
        · exact h2.2.2 h

/-- Server session in which a peer presents the wrong password. -/
def demoDenied : List Op :=
  [ .setOutsideMtu 1500, .serverConnect Demo.ctx [] [],
    .outsideData (Demo.dgram [1, 2, 3]) [],
    .outsideData (Demo.dgram [9]) [Demo.msg (authUserPassMsg
      { Conn.create with username := [106, 111, 101] ++ zeros 48, password := [120, 119] ++ zeros 49 })] ]

example : (run Demo.env demoDenied).state = .disconnecting ∧
    (run Demo.env (demoDenied ++ [.nudge, .keepalive, .disconnect])).state = .disconnecting ∧
    Effect.ret .accessDenied ∈ (run Demo.env demoDenied).log := by decide +kernel

end Lightway
