import Verif.Proofs.Ids
import Verif.Props.Wire4

/-!
# Session identifiers: C30, C31, C33
-/

namespace Lightway
open Spec

/-- Number of acknowledgement events in a piece of history. -/
def acks (l : Log) : Nat :=
  l.countP (fun e => match e with | .event .pendingSessionAcknowledged _ => true | _ => false)

theorem acks_none {l : Log} (h : ∀ x ∈ l, NotAck x) : acks l = 0 := by
  unfold acks
  rw [List.countP_eq_zero]
  intro x hx
  have := h x hx
  clear h
  cases x
  case event e b => cases e <;> simp_all [NotAck]
  all_goals simp

theorem acks_append (a b : Log) : acks (a ++ b) = acks a + acks b := by unfold acks; simp

/-- What a receive call does to the ids: nothing but learning from a CONFIG_IPV4 message, or, after everything else succeeded,
looking at the session id of the datagram. -/
theorem outsideData_ids (env : Env) (c : Conn) (buf : Bytes) (reads : List ReadRes) :
    ConfigIds c (outsideData env c buf reads).1 ∨
    ∃ s body d l, c.connType = .datagram ∧ ConfigIds c d ∧ d.log = l ++ c.log ∧ .input s body ∈ l ∧
      outsideData env c buf reads = updateSessionIncoming d s := by
  unfold outsideData
  split
  · exact .inl (KeepIds.refl c).config
  simp only
  have h0 : KeepIds c { c with log := (c.outsidePlugins.ingress c.log buf buf.length).1 } := by
    obtain ⟨l, e, h⟩ := c.outsidePlugins.ingress_log c.log buf buf.length
    refine ⟨rfl, rfl, rfl, l, e, fun x hx => ?_⟩
    obtain ⟨_, _, h⟩ := h x hx
    rw [h]; trivial
  have hct : ({ c with log := (c.outsidePlugins.ingress c.log buf buf.length).1 } : Conn).connType = c.connType := rfl
  generalize c.outsidePlugins.ingress c.log buf buf.length = r at h0 hct ⊢
  generalize ({ c with log := r.1 } : Conn) = c1 at h0 hct ⊢
  split
  · exact .inl h0.config
  split
  · exact .inl h0.config
  split
  · exact .inl h0.config
  split
  · rename_i hdg
    unfold outsidePacket
    split
    · exact .inl h0.config
    rw [rd_isSome (by omega), rd_isSome (by omega), rd_isSome (by omega), rd_isSome (by omega)]
    simp only
    split
    · exact .inl h0.config
    split
    · exact .inl h0.config
    split
    · exact .inl h0.config
    generalize rdLe (List.take 8 (List.drop 8 r.2.1)) = s
    generalize List.take (r.2.1.length - 16) (List.drop 16 r.2.1) = body
    have h1 : KeepIds c1 { c1.emit (.input s body) with incoming := some body, packetSeen := false } :=
      ⟨rfl, rfl, rfl, [.input s body], rfl, by simp [NotAck]⟩
    have hl : ({ c1.emit (.input s body) with incoming := some body, packetSeen := false } : Conn).log = .input s body :: c1.log := rfl
    generalize ({ c1.emit (.input s body) with incoming := some body, packetSeen := false } : Conn) = c2 at h1 hl ⊢
    have h2 := (h0.trans h1).config.trans (verifyConnection_ids env c2 reads)
    obtain ⟨x, hx, _⟩ := (verifyConnection_ids env c2 reads).log
    obtain ⟨y, hy, _⟩ := h0.log
    generalize verifyConnection env c2 reads = q at h2 hx ⊢
    obtain ⟨d, rc⟩ := q
    simp only at h2 hx ⊢
    split
    · exact .inl h2
    · exact .inr ⟨s, body, d, x ++ .input s body :: y, hdg, h2, by rw [hx, hl, hy]; simp, by simp, rfl⟩
  · unfold outsideStream setupStreamState
    by_cases hl : c1.streamLeft.length = 0
    rotate_left
    · simp only [hl, ne_eq, not_false_eq_true, if_true, reduceCtorEq]
      exact .inl (h0.trans .upd).config
    · simp only [hl, ne_eq, not_true_eq_false, if_false]
      have h1 : KeepIds c1 { c1.emit (.input 0 r.2.1) with incoming := some r.2.1, streamLeft := r.2.1 } :=
        ⟨rfl, rfl, rfl, [.input 0 r.2.1], rfl, by simp [NotAck]⟩
      generalize ({ c1.emit (.input 0 r.2.1) with incoming := some r.2.1, streamLeft := r.2.1 } : Conn) = c2 at h1 ⊢
      exact .inl ((h0.trans h1).config.trans (verifyConnection_ids env c2 reads))

/-- A receive call from its marker to its return. -/
theorem step_recv (env : Env) (c : Conn) (buf : Bytes) (reads : List ReadRes) :
    step env c (.outsideData buf reads) = ((outsideData env (c.emit (.api .outsideData)) buf reads).1.emit
    (.ret (outsideData env (c.emit (.api .outsideData)) buf reads).2),
    (outsideData env (c.emit (.api .outsideData)) buf reads).2) := rfl

/-- The calls that are neither connects nor setters of the session id. -/
def Ordinary (op : Op) : Prop := op.api ≠ .clientConnect ∧ op.api ≠ .serverConnect ∧ ∀ s, op ≠ .setSessionId s

/-- Calls other than receiving, rotating, connecting and setting keep the ids, and acknowledge nothing. -/
theorem Micro.idsKeep {env : Env} {a : Api} {c c' : Conn} (h : Micro env a c c') (h1 : ¬IsConnect a)
    (h2 : a ≠ .outsideData) (h3 : a ≠ .setter) :
    c'.isServer = c.isServer ∧ c'.sessionId = c.sessionId ∧ (a ≠ .rotateSession → c'.pendingSessionId = c.pendingSessionId) ∧
    ∃ l, c'.log = l ++ c.log ∧ ∀ x ∈ l, NotAck x := by
  have hk : KeepIds c c' → c'.isServer = c.isServer ∧ c'.sessionId = c.sessionId ∧
      (a ≠ .rotateSession → c'.pendingSessionId = c.pendingSessionId) ∧ ∃ l, c'.log = l ++ c.log ∧ ∀ x ∈ l, NotAck x :=
    fun k => ⟨k.role, k.sess, fun _ => k.pend, k.log⟩
  cases h with
  | io r => exact hk (ioStep_frame env c r).keepIds
  | quiet e h => exact hk (.emit c (by cases e <;> simp_all [Quiet, NotAck]))
  | state s hne h => exact hk (setState_kids c s)
  | role b h => exact absurd h h1
  | configure ctx h => exact absurd h h1
  | plugins i o h => exact absurd h h1
  | wolfNew h => exact absurd h h1
  | probeTimeout h => exact hk (handleProbeTimeout_frame env c).keepIds
  | startBase h hs hd => exact hk (startBaseProbing_frame env c).keepIds
  | rotate s h => exact ⟨rfl, rfl, fun h' => absurd h h', [], rfl, by simp⟩
  | sessServer s h => exact absurd (.inr h) h1
  | dgram s b h => exact absurd h h2
  | stream b h => exact absurd h h2
  | insideWrite p h => exact absurd h h2
  | insideFrag t p g en hd tl q h => exact absurd h h2
  | message p h => exact absurd h h2
  | sessCfg s h => exact absurd h h2
  | netCfg g r h => exact absurd h h2
  | srvCfg g r h => exact absurd h h2
  | auth e u hu he hc h => exact absurd h h2
  | populate r h => exact absurd h h2
  | first h => exact absurd h h2
  | renegStart h => exact absurd h h2
  | renegDone h => exact absurd h h2
  | pong h => exact absurd h h2
  | sessAck s h => exact absurd h h2
  | sessClient s h => exact absurd h h2
  | probeAck i h => exact absurd h h2
  | fragNew t i n h => exact absurd h h2
  | fragPut t g e f n al r s h => exact absurd h h2
  | fragDel t p g h => exact absurd h h2
  | sessSet s h => exact absurd h h3
  | creds ty u p s b n h => exact absurd h h3
  | mtu m h => exact absurd h h3
  | version x y h => exact absurd h h3
  | err | dueOff | pingPending | fragNext => exact hk .upd
  | tmo t => exact hk ⟨rfl, rfl, rfl, [_], rfl, by simp [NotAck]⟩
  | nudgeTime t => exact hk ⟨rfl, rfl, rfl, [_], rfl, by simp [NotAck]⟩
  | write m ok => exact hk ⟨rfl, rfl, rfl, [_], rfl, by simp [NotAck]⟩
  | ping ok => exact hk ⟨rfl, rfl, rfl, [_], rfl, by simp [NotAck]⟩
  | dropCbs h => exact hk ⟨rfl, rfl, rfl, [_], rfl, by simp [NotAck]⟩
  | ub s h => exact hk ⟨rfl, rfl, rfl, [_], rfl, by simp [NotAck]⟩

theorem Star.idsKeep {env : Env} {a : Api} {c c' : Conn} (h : M env a c c') (h1 : ¬IsConnect a)
    (h2 : a ≠ .outsideData) (h3 : a ≠ .setter) :
    c'.isServer = c.isServer ∧ c'.sessionId = c.sessionId ∧ (a ≠ .rotateSession → c'.pendingSessionId = c.pendingSessionId) ∧
    ∃ l, c'.log = l ++ c.log ∧ ∀ x ∈ l, NotAck x := by
  induction h with
  | refl => exact ⟨rfl, rfl, fun _ => rfl, [], rfl, by simp⟩
  | tail _ s ih =>
    obtain ⟨a1, a2, a3, l, a4, a5⟩ := ih
    obtain ⟨b1, b2, b3, k, b4, b5⟩ := s.idsKeep h1 h2 h3
    refine ⟨b1.trans a1, b2.trans a2, fun h => (b3 h).trans (a3 h), k ++ l, by rw [b4, a4]; simp, fun x hx => ?_⟩
    rcases List.mem_append.mp hx with h | h
    · exact b5 x h
    · exact a5 x h

/-- Setters other than that of the session id. -/
theorem setter_ids (env : Env) (c : Conn) (op : Op) (h : op.api = .setter) (hs : ∀ s, op ≠ .setSessionId s) :
    KeepIds c (exec env c op).1 := by
  cases op <;> simp only [Op.api, reduceCtorEq] at h
  case setSessionId s => exact absurd rfl (hs s)
  all_goals
    simp only [exec, setUsername, setPassword, setAuthToken, setAuthBuffer, setOutsideMtu, setProtocolVersion, setSni]
    repeat' split
    all_goals first | exact .refl c | exact .emit c trivial | exact .upd

/-- Any call except connecting, receiving and setting the session id. -/
theorem step_ids {env : Env} {c : Conn} (hg : Good env c) (op : Op) (ho : Ordinary op) (hr : op.api ≠ .outsideData) :
    (step env c op).1.isServer = c.isServer ∧ (step env c op).1.sessionId = c.sessionId ∧
    (op ≠ .rotateSession → (step env c op).1.pendingSessionId = c.pendingSessionId) ∧
    ∃ x, (step env c op).1.log = x ++ c.log ∧ acks x = 0 := by
  obtain ⟨⟨ap, hi⟩, hs⟩ := hg
  by_cases hset : op.api = .setter
  · have h := setter_ids env (c.emit (.api op.api)) op hset ho.2.2
    obtain ⟨l, e, hl⟩ := h.log
    refine ⟨h.role, h.sess, fun _ => h.pend, .ret (step env c op).2 :: (l ++ [.api op.api]), ?_, ?_⟩
    · rw [exec_to_step]
      show Effect.ret _ :: (exec env (c.emit (.api op.api)) op).1.log = _
      rw [e]; simp [Conn.emit]
    · exact acks_none (by
        intro x hx
        simp only [List.mem_cons, List.mem_append, List.not_mem_nil, or_false] at hx
        rcases hx with rfl | hx | rfl
        · trivial
        · exact hl x hx
        · trivial)
  · obtain ⟨h1, h2, h3, l, e, hl⟩ := (exec_star env ap c op hi).idsKeep
      (fun h => h.elim (fun h => absurd h ho.1) (fun h => absurd h ho.2.1)) hr hset
    have e1 : (entry c op).isServer = c.isServer := by cases op <;> first | rfl | exact absurd rfl ho.1 | exact absurd rfl ho.2.1
    have e2 : (entry c op).sessionId = c.sessionId := by cases op <;> rfl
    have e3 : (entry c op).pendingSessionId = c.pendingSessionId := by cases op <;> rfl
    refine ⟨h1.trans e1, h2.trans e2, fun h => (h3 ?_).trans e3, .ret (step env c op).2 :: (l ++ [.api op.api]), ?_, ?_⟩
    · intro ha; cases op <;> simp_all [Op.api]
    · rw [exec_to_step]
      show Effect.ret _ :: (exec env (c.emit (.api op.api)) op).1.log = _
      rw [e, entry_log]; simp
    · exact acks_none (by
        intro x hx
        simp only [List.mem_cons, List.mem_append, List.not_mem_nil, or_false] at hx
        rcases hx with rfl | hx | rfl
        · trivial
        · exact hl x hx
        · trivial)

/-- The ids after the header was looked at. -/
theorem updateSession_server {d : Conn} {s : Nat} (hr : d.isServer = true) :
    (s ≠ 0 ∧ s ≠ d.sessionId ∧ s = d.pendingSessionId ∧ updateSessionIncoming d s =
      (generateEvent { d with sessionId := s, pendingSessionId := 0 } .pendingSessionAcknowledged, .success)) ∨
    ((s = 0 ∨ s = d.sessionId) ∧ updateSessionIncoming d s = (d, .success)) ∨
    (s ≠ 0 ∧ s ≠ d.sessionId ∧ s ≠ d.pendingSessionId ∧ updateSessionIncoming d s = (d, .unknownSession)) := by
  unfold updateSessionIncoming
  by_cases h0 : s = 0
  · rw [if_pos h0]; exact .inr (.inl ⟨.inl h0, rfl⟩)
  · rw [if_neg h0, if_pos hr]
    by_cases h1 : s = d.sessionId
    · rw [if_pos h1]; exact .inr (.inl ⟨.inr h1, rfl⟩)
    · rw [if_neg h1]
      by_cases h2 : s = d.pendingSessionId
      · rw [if_pos h2]; exact .inl ⟨h0, h1, h2, rfl⟩
      · rw [if_neg h2]; exact .inr (.inr ⟨h0, h1, h2, rfl⟩)

theorem acks_ends {l : Log} (r : RC) (a : Api) : acks (.ret r :: (l ++ [.api a])) = acks l := by
  rw [show Effect.ret r :: (l ++ [Effect.api a]) = [Effect.ret r] ++ (l ++ [Effect.api a]) from rfl, acks_append, acks_append]
  simp [acks]

/-- **C30.** Whatever call is made on a server connection, apart from connecting again and setting the id: it stays a server, and
either its session id stays, its pending id stays unless this call is a rotation, and no acknowledgement is announced; or the call
is a successful receipt of a datagram carrying the pending id, which becomes the session id, no rotation is pending any more, and
exactly one acknowledgement is announced. -/
theorem C30_server_session_changes {env : Env} {c : Conn} (hg : Good env c) (op : Op) (ho : Ordinary op) (hr : c.isServer = true) :
    (step env c op).1.isServer = true ∧ ∃ x, (step env c op).1.log = x ++ c.log ∧
    (((step env c op).1.sessionId = c.sessionId ∧
      (op ≠ .rotateSession → (step env c op).1.pendingSessionId = c.pendingSessionId) ∧ acks x = 0) ∨
     (∃ buf reads body, op = .outsideData buf reads ∧ (step env c op).2 = .success ∧ c.connType = .datagram ∧
       .input c.pendingSessionId body ∈ x ∧ c.pendingSessionId ≠ 0 ∧ c.pendingSessionId ≠ c.sessionId ∧
       (step env c op).1.sessionId = c.pendingSessionId ∧ (step env c op).1.pendingSessionId = 0 ∧ acks x = 1)) := by
  by_cases hrecv : op.api = .outsideData
  · cases op <;> simp only [Op.api, reduceCtorEq] at hrecv
    rename_i buf reads
    rw [step_recv]
    rcases outsideData_ids env (c.emit (.api .outsideData)) buf reads with h | ⟨s, body, d, l, ht, h, hl, hin, e⟩
    · obtain ⟨l, e, hl, hs⟩ := h.log
      refine ⟨h.role.trans hr, .ret (outsideData env (c.emit (.api .outsideData)) buf reads).2 :: (l ++ [.api .outsideData]), ?_,
        .inl ⟨?_, fun _ => h.pend, ?_⟩⟩
      · simp only [Conn.emit] at e ⊢; rw [e]; simp
      · rcases hs with hs | ⟨hs, _⟩
        · exact hs
        · rw [show (c.emit (.api .outsideData)).isServer = c.isServer from rfl, hr] at hs; cases hs
      · rw [acks_ends]; exact acks_none hl
    · have hd : d.isServer = true := h.role.trans hr
      obtain ⟨k, hk, hna, hs⟩ := h.log
      have hkl : k = l := List.append_cancel_right (hk.symm.trans hl)
      subst hkl
      have hs : d.sessionId = c.sessionId := by
        rcases hs with hs | ⟨hs, _⟩
        · exact hs
        · rw [show (c.emit (.api .outsideData)).isServer = c.isServer from rfl, hr] at hs; cases hs
      have hp : d.pendingSessionId = c.pendingSessionId := h.pend
      rw [e]
      rcases updateSession_server (s := s) hd with ⟨h1, h2, h3, e2⟩ | ⟨_, e2⟩ | ⟨_, _, _, e2⟩
      · rw [e2]
        refine ⟨hd, .ret .success :: .event .pendingSessionAcknowledged d.cbs.event :: (k ++ [.api .outsideData]), ?_,
          .inr ⟨buf, reads, body, rfl, rfl, ht, ?_, ?_, ?_, ?_, rfl, ?_⟩⟩
        · simp only [Conn.emit, generateEvent] at hk ⊢; rw [hk]; simp
        · rw [← hp, ← h3]; simp [hin]
        · rw [← hp, ← h3]; exact h1
        · rw [← hp, ← h3, ← hs]; exact h2
        · exact h3.trans hp
        · have := acks_none hna
          unfold acks at this ⊢
          simp [this]
      · rw [e2]
        refine ⟨hd, .ret .success :: (k ++ [.api .outsideData]), ?_, .inl ⟨hs, fun _ => hp, ?_⟩⟩
        · simp only [Conn.emit] at hk ⊢; rw [hk]; simp
        · rw [acks_ends]; exact acks_none hna
      · rw [e2]
        refine ⟨hd, .ret .unknownSession :: (k ++ [.api .outsideData]), ?_, .inl ⟨hs, fun _ => hp, ?_⟩⟩
        · simp only [Conn.emit] at hk ⊢; rw [hk]; simp
        · rw [acks_ends]; exact acks_none hna
  · obtain ⟨h1, h2, h3, x, h4, h5⟩ := step_ids hg op ho hrecv
    exact ⟨h1.trans hr, x, h4, .inl ⟨h2, h3, h5⟩⟩

/-- A datagram connection without outside plugins receives a datagram that passes the header check. -/
theorem outsideData_header (env : Env) (c : Conn) (buf : Bytes) (reads : List ReadRes)
    (hs : c.state ≠ .disconnecting ∧ c.state ≠ .disconnected) (ht : c.connType = .datagram)
    (hp : c.outsidePlugins.plugins = 0) (h : refusal c.verMajor c.verMinor buf = none) :
    ∃ d rc, ConfigIds c d ∧ outsideData env c buf reads =
      if rc ≠ .success then (d, rc) else updateSessionIncoming d (numLe (field buf 8 8)) := by
  unfold outsideData
  rw [if_neg (by exact not_or.mpr hs), ingress_noPlugins hp]
  simp only [reduceCtorEq, if_false, ne_eq, not_true_eq_false, gt_iff_lt, Nat.lt_irrefl]
  rw [show ({ c with log := c.log } : Conn) = c from rfl]
  split
  rotate_left
  · rename_i hct; rw [ht] at hct; cases hct
  unfold outsidePacket
  unfold refusal at h
  split at h
  · cases h
  rename_i h1
  rw [if_neg h1, rd_isSome (by omega), rd_isSome (by omega), rd_isSome (by omega), rd_isSome (by omega)]
  simp only
  simp only [field, numLe_rdLe] at h ⊢
  split at h
  · cases h
  rename_i h2
  rw [if_neg h2]
  split at h
  · cases h
  rename_i h3
  rw [if_neg h3]
  split at h
  · cases h
  rename_i h4
  rw [if_neg (show ¬rdLe (List.take 8 (List.drop 8 buf)) = sessionReject from h4)]
  generalize rdLe (List.take 8 (List.drop 8 buf)) = s
  generalize List.take (buf.length - 16) (List.drop 16 buf) = body
  have h1 : KeepIds c { c.emit (.input s body) with incoming := some body, packetSeen := false } :=
    ⟨rfl, rfl, rfl, [.input s body], rfl, by simp [NotAck]⟩
  generalize ({ c.emit (.input s body) with incoming := some body, packetSeen := false } : Conn) = c2 at h1 ⊢
  have h2 := h1.config.trans (verifyConnection_ids env c2 reads)
  generalize verifyConnection env c2 reads = q at h2 ⊢
  exact ⟨q.1, q.2, h2, rfl⟩

/-- **C30.** A datagram whose session id is neither 0, nor the server's session id, nor its pending id is never accepted: the call
does not succeed and both ids stay; if the TLS library and the message handlers had no objection, the code is
`HE_ERR_UNKNOWN_SESSION`. -/
theorem C30_unknown_session_refused (env : Env) (c : Conn) (buf : Bytes) (reads : List ReadRes)
    (hr : c.isServer = true) (hs : c.state ≠ .disconnecting ∧ c.state ≠ .disconnected) (ht : c.connType = .datagram)
    (hp : c.outsidePlugins.plugins = 0) (h : refusal c.verMajor c.verMinor buf = none)
    (h0 : numLe (field buf 8 8) ≠ 0) (h1 : numLe (field buf 8 8) ≠ c.sessionId)
    (h2 : numLe (field buf 8 8) ≠ c.pendingSessionId) :
    (step env c (.outsideData buf reads)).2 ≠ .success ∧
    (step env c (.outsideData buf reads)).1.sessionId = c.sessionId ∧
    (step env c (.outsideData buf reads)).1.pendingSessionId = c.pendingSessionId := by
  obtain ⟨d, rc, hd, e⟩ := outsideData_header env (c.emit (.api .outsideData)) buf reads hs ht hp h
  rw [step_recv, e]
  have hrole : d.isServer = true := hd.role.trans hr
  have hsess : d.sessionId = c.sessionId := by
    obtain ⟨_, _, _, hs | ⟨hs, _⟩⟩ := hd.log
    · exact hs
    · rw [show (c.emit (.api .outsideData)).isServer = c.isServer from rfl, hr] at hs; cases hs
  have hpend : d.pendingSessionId = c.pendingSessionId := hd.pend
  by_cases hrc : rc = .success
  · rw [if_neg (by simpa using hrc)]
    rcases updateSession_server (s := numLe (field buf 8 8)) hrole with ⟨_, _, h3, _⟩ | ⟨h3 | h3, _⟩ | ⟨_, _, _, e2⟩
    · exact absurd (h3.trans hpend) h2
    · exact absurd h3 h0
    · exact absurd (h3.trans hsess) h1
    · rw [e2]; exact ⟨by simp, hsess, hpend⟩
  · rw [if_pos hrc]; exact ⟨hrc, hsess, hpend⟩

/-- **C30.** Conversely, when a datagram carrying the pending id is received successfully, the server adopts it. -/
theorem C30_pending_adopted (env : Env) (c : Conn) (buf : Bytes) (reads : List ReadRes)
    (hr : c.isServer = true) (hs : c.state ≠ .disconnecting ∧ c.state ≠ .disconnected) (ht : c.connType = .datagram)
    (hp : c.outsidePlugins.plugins = 0) (h : refusal c.verMajor c.verMinor buf = none)
    (h0 : c.pendingSessionId ≠ 0) (h1 : c.pendingSessionId ≠ c.sessionId)
    (h2 : numLe (field buf 8 8) = c.pendingSessionId) (hok : (step env c (.outsideData buf reads)).2 = .success) :
    (step env c (.outsideData buf reads)).1.sessionId = c.pendingSessionId ∧
    (step env c (.outsideData buf reads)).1.pendingSessionId = 0 := by
  obtain ⟨d, rc, hd, e⟩ := outsideData_header env (c.emit (.api .outsideData)) buf reads hs ht hp h
  rw [step_recv, e] at hok ⊢
  have hrole : d.isServer = true := hd.role.trans hr
  have hsess : d.sessionId = c.sessionId := by
    obtain ⟨_, _, _, hs | ⟨hs, _⟩⟩ := hd.log
    · exact hs
    · rw [show (c.emit (.api .outsideData)).isServer = c.isServer from rfl, hr] at hs; cases hs
  have hpend : d.pendingSessionId = c.pendingSessionId := hd.pend
  by_cases hrc : rc = .success
  · rw [if_neg (by simpa using hrc)] at hok ⊢
    rcases updateSession_server (s := numLe (field buf 8 8)) hrole with ⟨_, _, h3, e2⟩ | ⟨h3 | h3, _⟩ | ⟨_, _, h3, _⟩
    · rw [e2]; exact ⟨h2, rfl⟩
    · exact absurd (h2.symm.trans h3) h0
    · exact absurd (h2.symm.trans (h3.trans hsess)) h1
    · exact absurd (h2.trans hpend.symm) h3
  · rw [if_pos hrc] at hok; exact absurd hok hrc

/-- **C31.** A client's session id changes only by being set when it was zero, by a CONFIG_IPV4 message, or by a successful receive
call that accepted a datagram with that non-zero id in its header. -/
theorem C31_client_session_changes {env : Env} {c : Conn} (hg : Good env c) (op : Op) (hr : c.isServer = false)
    (ho : op.api ≠ .serverConnect) :
    (step env c op).1.sessionId = c.sessionId ∨
    (∃ s, op = .setSessionId s ∧ c.sessionId = 0 ∧ (step env c op).1.sessionId = s.toNat) ∨
    ∃ buf reads x, op = .outsideData buf reads ∧ (step env c op).1.log = x ++ c.log ∧
      ((∃ pkt, .message pkt ∈ x ∧ pkt.head? = some 6 ∧ 105 ≤ pkt.length ∧
          (step env c op).1.sessionId = numLe (field pkt 97 8)) ∨
       ((step env c op).2 = .success ∧ (step env c op).1.sessionId ≠ 0 ∧ c.connType = .datagram ∧
          ∃ body, .input (step env c op).1.sessionId body ∈ x)) := by
  by_cases hrecv : op.api = .outsideData
  · cases op <;> simp only [Op.api, reduceCtorEq] at hrecv
    rename_i buf reads
    rw [step_recv]
    have hcfg : ∀ (d : Conn) (rc : RC), ConfigIds (c.emit (.api .outsideData)) d →
        d.sessionId = c.sessionId ∨ ∃ x, (d.emit (.ret rc)).log = x ++ c.log ∧ ∃ pkt, .message pkt ∈ x ∧ pkt.head? = some 6 ∧
          105 ≤ pkt.length ∧ d.sessionId = numLe (field pkt 97 8) := by
      intro d rc h
      obtain ⟨l, e, hl, hs⟩ := h.log
      rcases hs with hs | ⟨_, pkt, m1, m2, m3, m4⟩
      · exact .inl hs
      · refine .inr ⟨.ret rc :: (l ++ [.api .outsideData]), ?_, pkt, by simp [m1], m2, m3, by rw [numLe_rdLe]; exact m4⟩
        simp only [Conn.emit] at e ⊢; rw [e]; simp
    rcases outsideData_ids env (c.emit (.api .outsideData)) buf reads with h | ⟨s, body, d, l, ht, h, hl, hin, e⟩
    · rcases hcfg _ (outsideData env (c.emit (.api .outsideData)) buf reads).2 h with h1 | ⟨x, h1, h2⟩
      · exact .inl h1
      · exact .inr (.inr ⟨buf, reads, x, rfl, h1, .inl h2⟩)
    · rw [e]
      have hd : d.isServer = false := h.role.trans hr
      unfold updateSessionIncoming
      by_cases h0 : s = 0
      · rw [if_pos h0]
        rcases hcfg _ .success h with h1 | ⟨x, h1, h2⟩
        · exact .inl h1
        · exact .inr (.inr ⟨buf, reads, x, rfl, h1, .inl h2⟩)
      · rw [if_neg h0, if_neg (by simp [hd])]
        refine .inr (.inr ⟨buf, reads, .ret .success :: (l ++ [.api .outsideData]), rfl, ?_, .inr ⟨rfl, h0, ht, body, ?_⟩⟩)
        · simp only [Conn.emit] at hl ⊢; rw [hl]; simp
        · simp [Conn.emit, hin]
  · by_cases hset : ∃ s, op = .setSessionId s
    · obtain ⟨s, rfl⟩ := hset
      have e : step env c (.setSessionId s) = ((setSessionId (c.emit (.api .setter)) s).1.emit
        (.ret (setSessionId (c.emit (.api .setter)) s).2), (setSessionId (c.emit (.api .setter)) s).2) := rfl
      rw [e]
      unfold setSessionId
      by_cases h0 : c.sessionId = 0
      · rw [if_neg (by simpa [Conn.emit] using h0)]
        exact .inr (.inl ⟨s, rfl, h0, rfl⟩)
      · rw [if_pos (by simpa [Conn.emit] using h0)]
        exact .inl rfl
    · by_cases hc : op.api = .clientConnect
      · obtain ⟨⟨ap, hi⟩, hs⟩ := hg
        have := (exec_star env ap c op hi).ids (by rw [hc]; simp)
        left
        refine this.1.trans ?_
        cases op <;> rfl
      · exact .inl (step_ids hg op ⟨hc, ho, fun s h => hset ⟨s, h⟩⟩ hrecv).2.1

/-- A rotation. -/
theorem step_rotate (env : Env) (c : Conn) :
    ((c.isServer = false ∨ c.pendingSessionId ≠ 0) ∧
      step env c .rotateSession = (refused c .rotateSession .invalidConnState, .invalidConnState)) ∨
    (c.isServer = true ∧ c.pendingSessionId = 0 ∧
      ((env.rng (.api .rotateSession :: c.log) = none ∧ (step env c .rotateSession).2 = .rngFailure ∧
          (step env c .rotateSession).1.pendingSessionId = 0 ∧
          (step env c .rotateSession).1.log = .ret .rngFailure :: .rng none :: .api .rotateSession :: c.log) ∨
       ∃ v, env.rng (.api .rotateSession :: c.log) = some v ∧ (step env c .rotateSession).2 = .success ∧
          (step env c .rotateSession).1.pendingSessionId = v % 2 ^ 64 ∧
          (step env c .rotateSession).1.log = .ret .success :: .rng (some (v % 2 ^ 64)) :: .api .rotateSession :: c.log)) := by
  have e : step env c .rotateSession = ((rotateSession env (c.emit (.api .rotateSession))).1.emit
    (.ret (rotateSession env (c.emit (.api .rotateSession))).2), (rotateSession env (c.emit (.api .rotateSession))).2) := rfl
  have f1 : (c.emit (.api .rotateSession)).isServer = c.isServer := rfl
  have f2 : (c.emit (.api .rotateSession)).pendingSessionId = c.pendingSessionId := rfl
  by_cases h : c.isServer = false ∨ c.pendingSessionId ≠ 0
  · left
    refine ⟨h, ?_⟩
    rw [e]
    unfold rotateSession
    rw [if_pos (by rw [f1, f2]; rcases h with h | h <;> simp [h])]
    rfl
  · right
    obtain ⟨h1, h2⟩ := not_or.mp h
    have h1 : c.isServer = true := by simpa using h1
    have h2 : c.pendingSessionId = 0 := by simpa using h2
    refine ⟨h1, h2, ?_⟩
    rw [e]
    unfold rotateSession generateSessionId
    rw [if_neg (by rw [f1, f2]; simp [h1, h2])]
    have hl : (c.emit (.api .rotateSession)).log = .api .rotateSession :: c.log := rfl
    rw [hl]
    cases hv : env.rng (.api .rotateSession :: c.log) with
    | none => exact .inl ⟨rfl, rfl, h2, rfl⟩
    | some v => exact .inr ⟨v, rfl, rfl, rfl, rfl⟩

/-- **C33.** A rotation succeeds only on a server without a pending rotation; the pending id is then the drawn one. -/
theorem C33_rotation_guarded (env : Env) (c : Conn) (h : (step env c .rotateSession).2 = .success) :
    c.isServer = true ∧ c.pendingSessionId = 0 ∧ ∃ v, env.rng (.api .rotateSession :: c.log) = some v ∧
      (step env c .rotateSession).1.pendingSessionId = v % 2 ^ 64 ∧
      .rng (some (v % 2 ^ 64)) ∈ (step env c .rotateSession).1.log := by
  rcases step_rotate env c with ⟨_, e⟩ | ⟨h1, h2, ⟨_, e, _⟩ | ⟨v, h3, _, h4, h5⟩⟩
  · rw [e] at h; cases h
  · rw [e] at h; cases h
  · exact ⟨h1, h2, v, h3, h4, by rw [h5]; simp⟩

/-- **C33.** While a rotation is pending another one is refused, and nothing else happens. -/
theorem C33_second_rotation_refused (env : Env) (c : Conn) (h : c.pendingSessionId ≠ 0) :
    step env c .rotateSession = (refused c .rotateSession .invalidConnState, .invalidConnState) := by
  rcases step_rotate env c with ⟨_, e⟩ | ⟨_, h2, _⟩
  · exact e
  · exact absurd h2 h

/-- **C33.** Once a rotation is pending it stays pending, with the same id, over any sequence of calls other than connects and
setting the session id, until an acknowledgement is announced; so until then every further rotation is refused.
(The part that fails: a drawn id of zero, see `C33_zero_id_not_pending`.) -/
theorem C33_refused_until_acknowledged_partial {env : Env} {c : Conn} (hg : Good env c) (ops : List Op)
    (ho : ∀ op ∈ ops, Ordinary op) (hr : c.isServer = true) (hp : c.pendingSessionId ≠ 0) :
    ∃ x, (runFrom env c ops).log = x ++ c.log ∧ (acks x = 0 →
      (runFrom env c ops).pendingSessionId = c.pendingSessionId ∧ (runFrom env c ops).sessionId = c.sessionId ∧
      (step env (runFrom env c ops) .rotateSession).2 = .invalidConnState) := by
  suffices H : ∃ x, (runFrom env c ops).log = x ++ c.log ∧ (acks x = 0 →
      (runFrom env c ops).pendingSessionId = c.pendingSessionId ∧ (runFrom env c ops).sessionId = c.sessionId) by
    obtain ⟨x, h1, h2⟩ := H
    refine ⟨x, h1, fun h => ⟨(h2 h).1, (h2 h).2, ?_⟩⟩
    rw [C33_second_rotation_refused env _ (by rw [(h2 h).1]; exact hp)]
  induction ops generalizing c with
  | nil => exact ⟨[], rfl, fun _ => ⟨rfl, rfl⟩⟩
  | cons op ops ih =>
    obtain ⟨h1, x, h2, h3⟩ := C30_server_session_changes hg op (ho op (by simp)) hr
    show ∃ x, (runFrom env (step env c op).1 ops).log = x ++ c.log ∧ _
    rcases h3 with ⟨h4, h5, h6⟩ | ⟨_, _, _, _, _, _, _, _, _, _, _, h6⟩
    · have hpend : (step env c op).1.pendingSessionId = c.pendingSessionId := by
        by_cases hrot : op = .rotateSession
        · subst hrot
          rw [C33_second_rotation_refused env c hp]; rfl
        · exact h5 hrot
      obtain ⟨y, e1, e2⟩ := ih (hg.step op) (fun o h => ho o (by simp [h])) h1 (by rw [hpend]; exact hp)
      refine ⟨y ++ x, by rw [e1, h2]; simp, fun h => ?_⟩
      rw [acks_append] at h
      have := e2 (by omega)
      exact ⟨this.1.trans hpend, this.2.trans h4⟩
    · -- the acknowledgement was announced
      obtain ⟨z, hz⟩ : ∃ z, (runFrom env (step env c op).1 ops).log = z ++ (step env c op).1.log := by
        clear ih
        have hgs := hg.step op
        generalize (step env c op).1 = d at *
        have : ∀ (ops : List Op) (d : Conn), Good env d → ∃ z, (runFrom env d ops).log = z ++ d.log := by
          intro ops
          induction ops with
          | nil => intro d _; exact ⟨[], rfl⟩
          | cons op ops ih =>
            intro d hd
            obtain ⟨z, hz⟩ := ih _ (hd.step op)
            obtain ⟨⟨ap, hi⟩, _⟩ := hd
            obtain ⟨l, e, _⟩ := step_log env op hi
            exact ⟨z ++ (.ret (step env d op).2 :: l ++ [.api op.api]), by
              show (runFrom env (step env d op).1 ops).log = _
              rw [hz, e]; simp⟩
        exact this ops d hgs
      refine ⟨z ++ x, by rw [hz, h2]; simp, fun h => ?_⟩
      rw [acks_append] at h
      omega

/-! ## Concrete cases -/

namespace Demo

/-- A random generator that yields zero. -/
def zeroEnv : Env := { env with rng := fun l => if l.length < 40 then some 7 else some 0 }

/-- An online server after a rotation. -/
def rotated : List Op := serverOps ++ [.rotateSession]

/-- A datagram with a given session id. -/
def dgramWith (s : Nat) (body : Bytes) : Bytes := [72, 101, 1, 2, 0, 0, 0, 0] ++ le64 s ++ body

/-- C30, C33: a rotation is pending; a datagram with the pending id completes it, one with a foreign id is refused. -/
example : (run env rotated).isServer = true ∧ (run env rotated).pendingSessionId ≠ 0 ∧
    (run env rotated).pendingSessionId ≠ (run env rotated).sessionId ∧
    (run env rotated).connType = .datagram ∧ (run env rotated).outsidePlugins.plugins = 0 ∧
    refusal (run env rotated).verMajor (run env rotated).verMinor (dgramWith (run env rotated).pendingSessionId [1]) = none ∧
    numLe (field (dgramWith (run env rotated).pendingSessionId [1]) 8 8) = (run env rotated).pendingSessionId ∧
    (step env (run env rotated) (.outsideData (dgramWith (run env rotated).pendingSessionId [1]) [])).2 = .success ∧
    acks (newPart env (run env rotated) (.outsideData (dgramWith (run env rotated).pendingSessionId [1]) [])) = 1 ∧
    (step env (run env rotated) (.outsideData (dgramWith 5 [1]) [])).2 = .unknownSession ∧
    (step env (run env rotated) .rotateSession).2 = .invalidConnState := by decide +kernel

/-- C31: the client learnt 4242 from CONFIG_IPV4; it then learns another id from a datagram. -/
example : (run env clientOps).sessionId = 4242 ∧ (run env clientOps).isServer = false ∧
    (step env (run env clientOps) (.outsideData (dgramWith 5 [1]) [])).1.sessionId = 5 := by decide +kernel

end Demo

open Demo in
/-- **C33 (negation).** If the random generator yields 0, the rotation is reported as successful but nothing is pending, and a second
rotation is not refused. -/
theorem C33_zero_id_not_pending :
    (run zeroEnv serverOps).isServer = true ∧ (run zeroEnv serverOps).sessionId = 7 ∧
    (step zeroEnv (run zeroEnv serverOps) .rotateSession).2 = .success ∧
    (step zeroEnv (run zeroEnv serverOps) .rotateSession).1.pendingSessionId = 0 ∧
    (step zeroEnv (step zeroEnv (run zeroEnv serverOps) .rotateSession).1 .rotateSession).2 = .success := by
  decide +kernel

end Lightway
