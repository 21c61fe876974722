import Verif.Props.Screen
import Verif.Props.Trace

/-!
# The TLS handshake gates the link (C75)
-/

namespace Lightway
open Spec

/-- **C75.**  The link comes up only at the moment the TLS library reports a completed handshake. -/
theorem C75_link_needs_handshake (env : Env) (ops : List Op) {newer older : Log} {n : Bool}
    (h : (run env ops).log = newer ++ .state .linkUp n :: older) : Negotiated older ∧ stateAt older = .connecting := by
  have hp := permitted_at h
  have he : EdgeOk older .linkUp := hp.2
  exact ⟨he.2.2.1, he.2.1⟩

/-- **C75.**  No message is processed before the link is up or after it was closed. -/
theorem C75_messages_need_link (env : Env) (ops : List Op) {newer older : Log} {m : Bytes}
    (h : (run env ops).log = newer ++ .message m :: older) :
    stateAt older ≠ .connecting ∧ stateAt older ≠ .disconnecting ∧ stateAt older ≠ .disconnected ∧
      lastApi older = some .outsideData := (permitted_at h).2

/-- No plugin and no transport header refused the data: the TLS library is consulted from `c1`. -/
structure Reach (c c1 : Conn) (s : Nat) (b : Bytes) (l : Log) : Prop where
  log : c1.log = .input s b :: (l ++ c.log)
  plugins : ∀ x ∈ l, ∃ p, x = .pluginIngress p .success
  state : c1.state = c.state
  wolf : c1.wolfSet = c.wolfSet
  role : c1.isServer = c.isServer
  auth : c1.authType = c.authType ∧ c1.authBufferLength = c.authBufferLength

theorem outsideData_reach (env : Env) (c : Conn) (buf : Bytes) (reads : List ReadRes) :
    (∃ l, (outsideData env c buf reads).1.log = l ++ c.log ∧ (∀ x ∈ l, ∃ p q, x = .pluginIngress p q) ∧
      (outsideData env c buf reads).1.state = c.state) ∨
    ∃ c1 s b l, Reach c c1 s b l ∧ (outsideData env c buf reads = verifyConnection env c1 reads ∨
      ((verifyConnection env c1 reads).2 = .success ∧
        outsideData env c buf reads = updateSessionIncoming (verifyConnection env c1 reads).1 s)) := by
  unfold outsideData
  split
  · exact .inl ⟨[], rfl, by simp, rfl⟩
  simp only
  obtain ⟨l, hl, hruns⟩ := Chain.ingress_runs c.outsidePlugins c.log buf buf.length
  have hall : ∀ x ∈ l, ∃ p q, x = .pluginIngress p q := by
    rcases hruns with ⟨h, _⟩ | ⟨p, r, l', h1, _, _, h4⟩
    · intro x hx; obtain ⟨p, e⟩ := h x hx; exact ⟨p, _, e⟩
    · intro x hx
      rw [h1] at hx
      rcases List.mem_cons.mp hx with rfl | hx
      · exact ⟨p, r, rfl⟩
      · obtain ⟨p, e⟩ := h4 x hx; exact ⟨p, _, e⟩
  split
  · exact .inl ⟨l, hl, hall, rfl⟩
  split
  · exact .inl ⟨l, hl, hall, rfl⟩
  rename_i hok
  have hok : (c.outsidePlugins.ingress c.log buf buf.length).2.2 = .success := by simpa using hok
  have hs : ∀ x ∈ l, ∃ p, x = .pluginIngress p .success := by
    rcases hruns with ⟨h, _⟩ | ⟨p, r, l', h1, h2, h3, h4⟩
    · exact h
    · rw [hok] at h3; split at h3 <;> cases h3
  generalize (c.outsidePlugins.ingress c.log buf buf.length).2.1 = pk
  generalize (c.outsidePlugins.ingress c.log buf buf.length).1 = lg at hl ⊢
  split
  · exact .inl ⟨l, hl, hall, rfl⟩
  split
  · unfold outsidePacket
    split
    · exact .inl ⟨l, hl, hall, rfl⟩
    · rw [rd_isSome (by omega), rd_isSome (by omega), rd_isSome (by omega), rd_isSome (by omega)]
      simp only
      split
      · exact .inl ⟨l, hl, hall, rfl⟩
      · split
        · exact .inl ⟨l, hl, hall, rfl⟩
        · split
          · exact .inl ⟨l, hl, hall, rfl⟩
          · right
            generalize List.take _ (List.drop 16 pk) = body
            generalize rdLe (List.take 8 (List.drop 8 pk)) = sess
            refine ⟨{ ({ c with log := lg } : Conn).emit (.input sess body) with incoming := some body, packetSeen := false }, sess, body, l, ⟨by show Effect.input sess body :: lg = _; rw [hl], hs, rfl, rfl, rfl, rfl, rfl⟩, ?_⟩
            by_cases hr : (verifyConnection env { ({ c with log := lg } : Conn).emit (.input sess body) with incoming := some body, packetSeen := false } reads).2 = .success
            · exact .inr ⟨hr, by rw [if_neg (by simpa using hr)]⟩
            · exact .inl (by rw [if_pos hr])
  · unfold outsideStream setupStreamState
    by_cases hsl : c.streamLeft.length = 0
    · simp only [hsl, ne_eq, not_true_eq_false, if_false]
      exact .inr ⟨{ ({ c with log := lg } : Conn).emit (.input 0 pk) with incoming := some pk, streamLeft := pk }, 0, pk, l, ⟨by show Effect.input 0 pk :: lg = _; rw [hl], hs, rfl, rfl, rfl, rfl, rfl⟩, .inl rfl⟩
    · simp only [hsl, ne_eq, not_false_eq_true, if_true]
      exact .inl ⟨l, hl, hall, rfl⟩

/-- What a failed handshake step makes of a receive call. -/
def Spec.HandshakeFailure (err : SslErr) (rc : RC) : Prop :=
  match err with
  | .wantRead | .wantWrite => rc = .success ∨ rc = .unknownSession
  | .asnSigConfirm => rc = .cannotVerifyServerCert
  | .domainMismatch => rc = .serverDnMismatch
  | _ => rc = .sslError

/-- The answer of the TLS library to the negotiation call made after history `l` (an error if there is no TLS
object). -/
def Spec.negotiation (env : Env) (l : Log) : SslRes :=
  if hasTls l then env.ssl l .negotiate else { ok := false, val := -1, err := .badFuncArg, io := [] }

/-- How verifying goes while CONNECTING. -/
theorem verifyConnection_connecting (env : Env) (c : Conn) (reads : List ReadRes) (hs : c.state = .connecting) :
    ∃ c1 f, c1.log = f ++ c.log ∧ (∀ e ∈ f, ∃ n, e = .event .firstMessageReceived n) ∧ c1.state = .connecting ∧
      c1.wolfSet = c.wolfSet ∧ c1.isServer = c.isServer ∧ c1.authType = c.authType ∧
      c1.authBufferLength = c.authBufferLength ∧
      verifyConnection env c reads =
        let q := sslDo env c1 .negotiate
        if q.2.ok = false then
          if q.2.err ≠ .wantRead ∧ q.2.err ≠ .wantWrite then
            if q.2.err = .asnSigConfirm then (q.1, .cannotVerifyServerCert)
            else if q.2.err = .domainMismatch then (q.1, .serverDnMismatch)
            else ({ q.1 with wolfError := q.2.err }, .sslError)
          else ((if q.1.connType = .datagram then updateTimeout env q.1 else q.1), .success)
        else handleMessages env (changeState env q.1 .linkUp) reads := by
  unfold verifyConnection
  have key : ∃ c1, (if (!c.firstMessageReceived) = true then
      generateEvent { c with firstMessageReceived := true } .firstMessageReceived else c) = c1 ∧
      ∃ f, c1.log = f ++ c.log ∧ (∀ e ∈ f, ∃ n, e = .event .firstMessageReceived n) ∧ c1.state = .connecting ∧
      c1.wolfSet = c.wolfSet ∧ c1.isServer = c.isServer ∧ c1.authType = c.authType ∧
      c1.authBufferLength = c.authBufferLength := by
    split
    · exact ⟨_, rfl, [.event .firstMessageReceived c.cbs.event], rfl, by simp, hs, rfl, rfl, rfl, rfl⟩
    · exact ⟨_, rfl, [], rfl, by simp, hs, rfl, rfl, rfl, rfl⟩
  obtain ⟨c1, he, f, h1, h2, h3, h4, h6, h7, h8⟩ := key
  rw [he]
  refine ⟨c1, f, h1, h2, h3, h4, h6, h7, h8, ?_⟩
  simp only
  rw [if_pos h3]
  generalize sslDo env c1 .negotiate = q
  obtain ⟨c2, r⟩ := q
  simp only
  cases r.ok <;> rfl

theorem TFrame.state {c c' : Conn} (h : TFrame c c') : c'.state = c.state := by
  obtain ⟨l, _, _, _, _, _, _, _, _, _, _, _, rfl, _⟩ := h; rfl

theorem updateSessionIncoming_rc (c : Conn) (s : Nat) :
    (updateSessionIncoming c s).2 = .success ∨ (updateSessionIncoming c s).2 = .unknownSession := by
  unfold updateSessionIncoming
  repeat' split
  all_goals simp

theorem handleMessages_ext (env : Env) (c : Conn) (reads : List ReadRes) :
    ∃ x, (handleMessages env c reads).1.log = x ++ c.log := by
  obtain ⟨ms, ⟨x, hx, _⟩, _⟩ := messageLoop_msgs env c reads
  have h := handleMessages_after env c reads
  generalize messageLoop env c reads = q at hx h
  obtain ⟨c1, o⟩ := q
  cases o with
  | some rc => rw [h.1 rc rfl]; exact ⟨x, hx⟩
  | none =>
    obtain ⟨y, hy, _⟩ := h.2 rfl
    exact ⟨y ++ x, by rw [hy]; show y ++ c1.log = _; rw [show c1.log = x ++ c.log from hx]; simp⟩

theorem changeState_linkUp_log (env : Env) (c : Conn) (hs : c.state = .connecting) :
    ∃ x n, (changeState env c .linkUp).log = x ++ .state .linkUp n :: c.log := by
  unfold changeState
  rw [if_neg (by simp [hs])]
  have hl : (setState c .linkUp).log = .state .linkUp c.cbs.stateChange :: c.log := by
    unfold setState; rw [if_neg (by simp [hs])]
  simp only
  generalize setState c .linkUp = c1 at hl ⊢
  split
  · obtain ⟨x, hx, _⟩ := sendAuth_noMsg env c1
    exact ⟨x, _, by rw [hx, hl]⟩
  · exact ⟨[], _, hl⟩

/-- Before the handshake continues: plugins, the accepted input, the first-message event. -/
def Prelude (z : Log) : Prop := ∀ e ∈ z, Still e ∧ ∀ call ok, e ≠ .sslCall call ok

theorem verify_step (env : Env) (c : Conn) (reads : List ReadRes) (hs : c.state = .connecting) :
    ∃ y z, (verifyConnection env c reads).1.log = y ++ .sslCall .negotiate
        (if c.wolfSet then env.ssl (z ++ c.log) .negotiate else nullSslRes).ok :: (z ++ c.log) ∧ Prelude z ∧
      ((if c.wolfSet then env.ssl (z ++ c.log) .negotiate else nullSslRes).ok = false →
        (verifyConnection env c reads).1.state = .connecting ∧ messages y = [] ∧
        HandshakeFailure (if c.wolfSet then env.ssl (z ++ c.log) .negotiate else nullSslRes).err (verifyConnection env c reads).2) ∧
      ((if c.wolfSet then env.ssl (z ++ c.log) .negotiate else nullSslRes).ok = true →
        ∃ n y' io, y = y' ++ .state .linkUp n :: io ∧ ∀ e ∈ io, NetIo e) := by
  obtain ⟨c1, f, h1, h2, h3, h4, -, -, -, h5⟩ := verifyConnection_connecting env c reads hs
  have hq2 : (sslDo env c1 .negotiate).2 = (if c.wolfSet then env.ssl (f ++ c.log) .negotiate else nullSslRes) := by
    unfold sslDo; simp only [h4, h1]
  obtain ⟨l, hl, hio⟩ := sslDo_says env c1 .negotiate
  have hn := (sslDo_n env c1 .negotiate).state
  rw [hq2] at hl
  generalize hae : (if c.wolfSet = true then env.ssl (f ++ c.log) .negotiate else nullSslRes) = a at *
  have hlm : messages l = [] := messages_still fun e he => by have := hio e he; cases e <;> simp_all [NetIo, Still]
  have hf : Prelude f := fun e he => by obtain ⟨n, rfl⟩ := h2 e he; exact ⟨trivial, by simp⟩
  rw [h5]
  simp only
  rw [hq2]
  have hs2 : (sslDo env c1 .negotiate).1.state = .connecting := by rw [hn, h3]
  rw [h1] at hl
  generalize (sslDo env c1 .negotiate).1 = d at hl hs2 ⊢
  by_cases hok : a.ok = false
  · rw [if_pos hok]
    rw [hok] at hl
    have fin : ∀ (d' : Conn) (rc : RC), NoMsg d d' → d'.state = d.state → HandshakeFailure a.err rc →
        ∃ y z, d'.log = y ++ .sslCall .negotiate (if c.wolfSet then env.ssl (z ++ c.log) .negotiate else nullSslRes).ok :: (z ++ c.log) ∧ Prelude z ∧
        ((if c.wolfSet then env.ssl (z ++ c.log) .negotiate else nullSslRes).ok = false →
          d'.state = .connecting ∧ messages y = [] ∧
          HandshakeFailure (if c.wolfSet then env.ssl (z ++ c.log) .negotiate else nullSslRes).err rc) ∧
        ((if c.wolfSet then env.ssl (z ++ c.log) .negotiate else nullSslRes).ok = true →
          ∃ n y' io, y = y' ++ .state .linkUp n :: io ∧ ∀ e ∈ io, NetIo e) := by
      intro d' rc ⟨m, hm, hst⟩ hs' hh
      refine ⟨m ++ l, f, ?_, hf, fun _ => ⟨by rw [hs', hs2], ?_, by rw [hae]; exact hh⟩, fun h => ?_⟩
      · rw [hae, hok, hm, hl]; simp
      · rw [messages_append, hlm, messages_still hst]; rfl
      · rw [hae, hok] at h; cases h
    split
    · rename_i hw
      split
      · rename_i he; exact fin d _ (.refl _) rfl (by rw [he]; rfl)
      · split
        · rename_i he; exact fin d _ (.refl _) rfl (by rw [he]; rfl)
        · rename_i he1 he2
          refine fin { d with wolfError := a.err } _ (.of_log rfl) rfl ?_
          unfold HandshakeFailure
          split <;> simp_all
    · rename_i hw
      have hh : HandshakeFailure a.err .success := by
        have : a.err = .wantRead ∨ a.err = .wantWrite := by
          by_cases h : a.err = .wantRead
          · exact .inl h
          · exact .inr (Classical.byContradiction fun h' => hw ⟨h, h'⟩)
        rcases this with h | h <;> rw [h] <;> exact .inl rfl
      split
      · exact fin (updateTimeout env d) _ (updateTimeout_t env d).noMsg (updateTimeout_t env d).state hh
      · exact fin d _ (.refl _) rfl hh
  · rw [if_neg hok]
    have hok : a.ok = true := by simpa using hok
    obtain ⟨x1, n, hx1⟩ := changeState_linkUp_log env d hs2
    obtain ⟨x2, hx2⟩ := handleMessages_ext env (changeState env d .linkUp) reads
    refine ⟨x2 ++ (x1 ++ .state .linkUp n :: l), f, ?_, hf, fun h => ?_, fun _ => ⟨n, x2 ++ x1, l, by simp, hio⟩⟩
    · rw [hae, hx2, hx1, hl]; simp
    · rw [hae, hok] at h; cases h

open Spec in
/-- **C75.**  A receive call on a connection that is CONNECTING either never consults TLS, or continues the
handshake first.  If the handshake does not complete, the connection stays CONNECTING, no message is
processed, and the result tells a certificate that cannot be verified and a wrong server name apart from
other failures.  If it completes, the link comes up before anything else. -/
theorem C75_handshake_step (env : Env) (ops : List Op) (buf : Bytes) (reads : List ReadRes)
    (hs : stateAt (run env ops).log = .connecting) {x : Log}
    (hx : (run env (ops ++ [.outsideData buf reads])).log = x ++ (run env ops).log) :
    let rc := (step env (run env ops) (.outsideData buf reads)).2
    ((∀ call ok, .sslCall call ok ∉ x) ∧ stateAt (x ++ (run env ops).log) = .connecting ∧ messages x = []) ∨
    ∃ y z, x = y ++ .sslCall .negotiate (negotiation env (z ++ (run env ops).log)).ok :: z ∧
      (∀ call ok, .sslCall call ok ∉ z) ∧ messages z = [] ∧
      ((negotiation env (z ++ (run env ops).log)).ok = false →
        stateAt (x ++ (run env ops).log) = .connecting ∧ messages y = [] ∧
        HandshakeFailure (negotiation env (z ++ (run env ops).log)).err rc) ∧
      ((negotiation env (z ++ (run env ops).log)).ok = true →
        ∃ n y' io, y = y' ++ .state .linkUp n :: io ∧ ∀ e ∈ io, NetIo e) := by
  have hg := run_good env ops
  have htls := run_tls env ops
  have hst := run_state env ops
  have hst' := run_state env (ops ++ [.outsideData buf reads])
  rw [hx, run_snoc] at hst'
  rw [run_snoc] at hx
  generalize run env ops = c at *
  obtain ⟨⟨ap, hi⟩, _⟩ := hg
  have hlog : (step env c (.outsideData buf reads)).1.log =
      .ret (outsideData env (c.emit (.api .outsideData)) buf reads).2 :: (outsideData env (c.emit (.api .outsideData)) buf reads).1.log := rfl
  have hres : (step env c (.outsideData buf reads)).2 = (outsideData env (c.emit (.api .outsideData)) buf reads).2 := rfl
  have hste : (step env c (.outsideData buf reads)).1.state = (outsideData env (c.emit (.api .outsideData)) buf reads).1.state := rfl
  rw [hlog] at hx
  rw [hres]
  rw [← hst', hste]
  have fin : ∀ y, (outsideData env (c.emit (.api .outsideData)) buf reads).1.log = y ++ (c.emit (.api .outsideData)).log →
      x = .ret (outsideData env (c.emit (.api .outsideData)) buf reads).2 :: y ++ [.api .outsideData] := by
    intro y hy
    rw [hy] at hx
    refine (List.append_cancel_right (bs := c.log) ?_).symm
    rw [← hx]; simp [Conn.emit]
  have hs0 : (c.emit (.api .outsideData)).state = .connecting := by show c.state = _; rw [hst, hs]
  have mono : ∀ z : Log, Prelude z → hasTls (z ++ .api .outsideData :: c.log) = hasTls c.log := by
    intro z hz
    induction z with
    | nil => rfl
    | cons e z ih =>
      have h1 := hz e (.head _)
      have h2 := ih fun e he => hz e (.tail _ he)
      cases e <;> first | exact h2 | exact absurd rfl (h1.2 _ _)
  rcases outsideData_reach env (c.emit (.api .outsideData)) buf reads with ⟨l, hl, hp, hst1⟩ | ⟨c1, s, b, l, hr, hout⟩
  · left
    have hxe := fin l hl
    have hstill : ∀ e ∈ x, Still e ∧ ∀ call ok, e ≠ .sslCall call ok := by
      rw [hxe]
      intro e he
      simp only [List.cons_append, List.mem_cons, List.mem_append, List.not_mem_nil, or_false] at he
      rcases he with rfl | he | rfl
      · exact ⟨trivial, by simp⟩
      · obtain ⟨p, q, rfl⟩ := hp e he
        exact ⟨trivial, by simp⟩
      · exact ⟨trivial, by simp⟩
    exact ⟨fun call ok hm => (hstill _ hm).2 call ok rfl, by rw [hst1]; exact hs0, messages_still fun e he => (hstill e he).1⟩
  · right
    have hs1 : c1.state = .connecting := by rw [hr.state]; exact hs0
    obtain ⟨y, z, e1, hz, hf, ht⟩ := verify_step env c1 reads hs1
    have hpre : Prelude (z ++ (.input s b :: (l ++ [.api .outsideData]))) := by
      intro e he
      simp only [List.mem_append, List.mem_cons, List.not_mem_nil, or_false] at he
      rcases he with he | rfl | he | rfl
      · exact hz e he
      · exact ⟨trivial, by simp⟩
      · obtain ⟨p, rfl⟩ := hr.plugins e he
        exact ⟨trivial, by simp⟩
      · exact ⟨trivial, by simp⟩
    have hzl : z ++ c1.log = (z ++ (.input s b :: (l ++ [.api .outsideData]))) ++ c.log := by
      rw [hr.log]; simp [Conn.emit]
    have hpre' : Prelude (z ++ (.input s b :: l)) := fun e he => hpre e (by
      simp only [List.mem_append, List.mem_cons] at he ⊢
      rcases he with h | h | h
      · exact .inl h
      · exact .inr (.inl h)
      · exact .inr (.inr (.inl h)))
    have hneg : (if c1.wolfSet then env.ssl (z ++ c1.log) .negotiate else nullSslRes) =
        negotiation env ((z ++ (.input s b :: (l ++ [.api .outsideData]))) ++ c.log) := by
      unfold negotiation
      have : hasTls ((z ++ (.input s b :: (l ++ [.api .outsideData]))) ++ c.log) = c1.wolfSet := by
        rw [hr.wolf]
        show _ = c.wolfSet
        rw [htls, ← mono _ hpre']
        simp
      rw [this, hzl]; rfl
    rw [hneg, hzl] at e1
    rw [hneg] at hf ht
    generalize hzz : z ++ (Effect.input s b :: (l ++ [.api .outsideData])) = zz at e1 hf ht hpre
    have hms : messages zz = [] := messages_still fun e he => (hpre e he).1
    have done : ∀ r : Conn × RC, outsideData env (c.emit (.api .outsideData)) buf reads = r → ∀ m, r.1.log = m ++ (verifyConnection env c1 reads).1.log →
        x = (.ret r.2 :: (m ++ y)) ++ .sslCall .negotiate (negotiation env (zz ++ c.log)).ok :: zz := by
      intro r hre m hm
      rw [hre] at hx
      refine (List.append_cancel_right (bs := c.log) ?_).symm
      rw [← hx, hm, e1]; simp
    rcases hout with ho | ⟨hsuc, ho⟩
    · have hxe := done _ ho [] rfl
      refine ⟨_, zz, hxe, fun call ok hm => (hpre _ hm).2 call ok rfl, hms, fun h => ?_, fun h => ?_⟩
      · obtain ⟨a, b', d⟩ := hf h
        rw [ho]
        exact ⟨a, b', d⟩
      · obtain ⟨n, y', io, hy, hio⟩ := ht h
        exact ⟨n, .ret (verifyConnection env c1 reads).2 :: y', io, by rw [hy]; simp, hio⟩
    · obtain ⟨m, hm, hms'⟩ := (updateSessionIncoming_t (verifyConnection env c1 reads).1 s).noMsg
      have hxe := done _ ho m hm
      refine ⟨_, zz, hxe, fun call ok hm => (hpre _ hm).2 call ok rfl, hms, fun h => ?_, fun h => ?_⟩
      · obtain ⟨a, b', d⟩ := hf h
        rw [ho, (updateSessionIncoming_t _ s).state]
        refine ⟨a, ?_, ?_⟩
        · show messages (m ++ y) = []
          rw [messages_append, b', messages_still hms']; rfl
        · rw [hsuc] at d
          have := updateSessionIncoming_rc (verifyConnection env c1 reads).1 s
          generalize (negotiation env (zz ++ c.log)).err = er at d ⊢
          cases er <;> first | exact this | cases d
      · obtain ⟨n, y', io, hy, hio⟩ := ht h
        exact ⟨n, .ret (updateSessionIncoming (verifyConnection env c1 reads).1 s).2 :: (m ++ y'), io, by rw [hy]; simp, hio⟩

/-- Not vacuous: the demo client is CONNECTING after its connect call; its second negotiation succeeds. -/
example : stateAt (run Demo.env (Demo.clientOps.take 4)).log = .connecting ∧
    stateAt (run Demo.env (Demo.clientOps.take 5)).log ≠ .connecting := by decide +kernel

/-- A host whose TLS library rejects the server's certificate at the second negotiation call. -/
def Demo.wary : Env := { Demo.env with ssl := fun l call => match call with
  | .negotiate => if Demo.negotiations l = 0 then Demo.ssl l .negotiate else { ok := false, val := -1, err := .asnSigConfirm, io := [] }
  | _ => Demo.ssl l call }

example : stateAt (run Demo.wary (Demo.clientOps.take 4)).log = .connecting ∧
    (step Demo.wary (run Demo.wary (Demo.clientOps.take 4)) (.outsideData (Demo.dgram [1, 2, 3]) [])).2 = .cannotVerifyServerCert := by
  decide +kernel

end Lightway
