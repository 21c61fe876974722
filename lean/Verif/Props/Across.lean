import Verif.Props.Wire4
import Verif.Props.Plugins
import Verif.Props.Budget

/-!
# C103: a record crosses a pair of matching outside plugin chains
-/

namespace Lightway
open Spec

/-- The receiver's outside plugins undo the sender's, whatever either has seen before, and the sender's do not shorten a
datagram (`flow.c` refuses a result longer than what was received). -/
def UndoesOut (receiver sender : Chain) : Prop :=
  ∀ l l' l1 pkt q cap, sender.egress l pkt cap = (l1, q, .success) →
    pkt.length ≤ q.length ∧ ∃ l2, receiver.ingress l' q q.length = (l2, pkt, .success)

/-- A record of a datagram connection: what goes to the network is what the plugins made of header and record. -/
theorem dtls_send_plugged (env : Env) (m : Conn) (rec : Bytes) (hd : m.connType = .datagram) :
    ∃ pl copies res q, (ioStep env m (.send rec)).log = .sslOut rec res :: (copies ++ (pl ++ m.log)) ∧
      (∀ e ∈ pl, ∃ p r, e = .pluginEgress p r) ∧ (∀ e ∈ copies, ∃ rc, e = .outsideWrite q rc) ∧
      (copies ≠ [] → ∃ l1, m.outsidePlugins.egress m.log (wireHeader m ++ rec) maxWireMtu = (l1, q, .success)) := by
  simp only [ioStep, hd]
  obtain ⟨pl, hpl, hpe⟩ := Chain.egress_log m.outsidePlugins m.log (wireHeader m ++ rec) maxWireMtu
  unfold dtlsWrite
  by_cases h1 : rec.length + 16 > maxWireMtu
  · rw [if_pos h1]
    exact ⟨[], [], none, [], rfl, by simp, by simp, by simp⟩
  rw [if_neg h1]
  generalize m.outsidePlugins.egress m.log (wireHeader m ++ rec) maxWireMtu = r at hpl
  obtain ⟨l, q, rc⟩ := r
  simp only at hpl ⊢
  subst hpl
  by_cases h2 : rc = .pluginDrop
  · rw [if_pos h2]; exact ⟨pl, [], _, q, rfl, hpe, by simp, by simp⟩
  rw [if_neg h2]
  by_cases h3 : rc ≠ .success ∨ q.length > maxWireMtu
  · rw [if_pos h3]; exact ⟨pl, [], _, q, rfl, hpe, by simp, by simp⟩
  rw [if_neg h3]
  have hs : rc = .success := Decidable.not_not.mp fun h => h3 (.inl h)
  subst hs
  by_cases h4 : (!m.cbs.outsideWrite) = true
  · rw [if_pos h4]; exact ⟨pl, [], _, q, rfl, hpe, by simp, by simp⟩
  rw [if_neg h4]
  unfold outsideWriteCb
  simp only
  repeat' split
  all_goals first
    | exact ⟨pl, [.outsideWrite q _], _, q, rfl, hpe, by simp, fun _ => ⟨_, rfl⟩⟩
    | exact ⟨pl, [.outsideWrite q _, .outsideWrite q _], _, q, rfl, hpe, by simp, fun _ => ⟨_, rfl⟩⟩
    | exact ⟨pl, [.outsideWrite q _, .outsideWrite q _, .outsideWrite q _], _, q, rfl, hpe, by simp, fun _ => ⟨_, rfl⟩⟩

/-- Receiving a datagram whose plugins restore header and record. -/
theorem recv_restored (env : Env) (peer c : Conn) (rec p : Bytes) (reads : List ReadRes) (l2 : Log)
    (hs : peer.state ≠ .disconnecting ∧ peer.state ≠ .disconnected) (ht : peer.connType = .datagram)
    (hi : peer.outsidePlugins.ingress (.api .outsideData :: peer.log) p p.length = (l2, wireHeader c ++ rec, .success))
    (hl : (wireHeader c ++ rec).length ≤ p.length) (h6 : c.sessionId < 2 ^ 64) (h7 : c.pendingSessionId < 2 ^ 64)
    (hv : peer.verMajor = c.verMajor ∧ peer.verMinor = c.verMinor) :
    ∃ pl, (∀ e ∈ pl, ∃ x, e = .pluginIngress x .success) ∧
      (advertised c.disableRoaming c.sessionId c.pendingSessionId = 2 ^ 64 - 1 →
        (step env peer (.outsideData p reads)).2 = .rejectedSession ∧
        (step env peer (.outsideData p reads)).1.log =
          .ret .rejectedSession :: (pl ++ .api .outsideData :: peer.log)) ∧
      (advertised c.disableRoaming c.sessionId c.pendingSessionId ≠ 2 ^ 64 - 1 →
        ∃ y, (step env peer (.outsideData p reads)).1.log =
          y ++ .input (advertised c.disableRoaming c.sessionId c.pendingSessionId) rec ::
            (pl ++ .api .outsideData :: peer.log)) := by
  obtain ⟨pl, e1, e2⟩ := Chain.ingress_runs peer.outsidePlugins (.api .outsideData :: peer.log) p p.length
  rw [hi] at e1 e2
  have hpl : ∀ e ∈ pl, ∃ x, e = .pluginIngress x .success := by
    rcases e2 with ⟨h, _⟩ | ⟨x, r, l', _, _, h, _⟩
    · exact h
    · exfalso; simp only at h; split at h <;> cases h
  simp only at e1
  subst e1
  refine ⟨pl, hpl, ?_⟩
  have hstep : step env peer (.outsideData p reads) =
      ((outsideData env (peer.emit (.api .outsideData)) p reads).1.emit
        (.ret (outsideData env (peer.emit (.api .outsideData)) p reads).2),
       (outsideData env (peer.emit (.api .outsideData)) p reads).2) := rfl
  have hodd : outsideData env (peer.emit (.api .outsideData)) p reads =
      outsidePacket env { peer with log := pl ++ .api .outsideData :: peer.log } (wireHeader c ++ rec) reads := by
    unfold outsideData
    rw [if_neg (fun h => h.elim hs.1 hs.2)]
    have hi' : (peer.emit (.api .outsideData)).outsidePlugins.ingress (peer.emit (.api .outsideData)).log p p.length =
      (pl ++ .api .outsideData :: peer.log, wireHeader c ++ rec, .success) := hi
    rw [hi']
    dsimp only
    rw [if_neg (by simp), if_neg (by simp), if_neg (by omega)]
    have pick : ∀ (t : ConnType) (A B : Conn × RC), t = .datagram →
        (match t with | .datagram => A | .stream => B) = A := by rintro _ A B rfl; rfl
    exact pick _ _ _ ht
  rw [hstep, hodd]
  generalize hid : advertised c.disableRoaming c.sessionId c.pendingSessionId = id
  have hlt : id < 256 ^ 8 := by
    rw [← hid]; unfold advertised; split
    · decide
    · split <;> assumption
  have hw : wireHeader c = [72, 101, c.verMajor, c.verMinor, if c.aggressive then 1 else 0, 0, 0, 0] ++ leN 8 id := by
    rw [← hid]; rfl
  have hll := leN_length 8 id
  have hnum : rdLe (leN 8 id) = id := by rw [← numLe_rdLe]; exact numLe_leN 8 id hlt
  have hpk : outsidePacket env { peer with log := pl ++ .api .outsideData :: peer.log } (wireHeader c ++ rec) reads =
      if id = sessionReject then ({ peer with log := pl ++ .api .outsideData :: peer.log }, .rejectedSession)
      else
        let c := { ({ peer with log := pl ++ .api .outsideData :: peer.log } : Conn).emit (.input id rec) with
          incoming := some rec, packetSeen := false }
        let (c, rc) := verifyConnection env c reads
        if rc ≠ .success then (c, rc) else updateSessionIncoming c id := by
    have r1 : rd (wireHeader c ++ rec) 0 2 = some [72, 101] := by rw [hw]; simp [rd]
    have r2 : rd (wireHeader c ++ rec) 2 2 = some [c.verMajor, c.verMinor] := by rw [hw]; simp [rd]
    have r3 : rd (wireHeader c ++ rec) 8 8 = some (leN 8 id) := by
      rw [hw]
      simp only [rd, List.cons_append, List.nil_append, List.length_cons, List.length_append, hll, List.drop_succ_cons,
        List.drop_zero]
      rw [if_pos (by omega), List.take_append_of_le_length (by omega), List.take_of_length_le (by omega)]
    have hwl : (wireHeader c).length = 16 := by rw [hw]; simp [hll]
    have r4 : rd (wireHeader c ++ rec) 16 ((wireHeader c ++ rec).length - 16) = some rec := by
      simp only [rd, List.length_append, hwl]
      rw [if_pos (by omega), ← hwl, List.drop_left, List.take_of_length_le (by rw [hwl]; omega)]
    unfold outsidePacket
    rw [if_neg (by simp [hwl])]
    rw [r1, r2, r3, r4]
    dsimp only
    rw [if_neg (by simp), if_neg (by simp [hv.1, hv.2]), hnum]
  rw [hpk]
  constructor
  · intro h
    rw [if_pos (show id = sessionReject from h)]
    exact ⟨rfl, rfl⟩
  · intro h
    rw [if_neg (show ¬id = sessionReject from h)]
    dsimp only
    generalize hm : ({ ({ peer with log := pl ++ .api .outsideData :: peer.log } : Conn).emit (.input id rec) with
          incoming := some rec, packetSeen := false } : Conn) = m
    have hml : m.log = .input id rec :: (pl ++ .api .outsideData :: peer.log) := by rw [← hm]; rfl
    obtain ⟨x, hx, _⟩ := verifyConnection_spend env m reads
    by_cases hr : (verifyConnection env m reads).2 ≠ .success
    · rw [if_pos hr]
      refine ⟨.ret (verifyConnection env m reads).2 :: x, ?_⟩
      show Effect.ret _ :: (verifyConnection env m reads).1.log = _
      rw [hx, hml]; rfl
    · rw [if_neg hr]
      obtain ⟨z, hz⟩ : ∃ z, (updateSessionIncoming (verifyConnection env m reads).1 id).1.log =
          z ++ (verifyConnection env m reads).1.log := by
        unfold updateSessionIncoming
        repeat' split
        all_goals first
          | exact ⟨[], rfl⟩
          | exact ⟨[_], rfl⟩
          | exact ⟨[_, _], rfl⟩
      refine ⟨.ret (updateSessionIncoming (verifyConnection env m reads).1 id).2 :: (z ++ x), ?_⟩
      show Effect.ret _ :: (updateSessionIncoming (verifyConnection env m reads).1 id).1.log = _
      rw [hz, hx, hml]
      simp

/-- **C103.** Sender and receiver are datagram connections of the same protocol version, the receiver not closing or closed,
with any outside plugins such that the receiver's undo the sender's.  Whatever bytes any call on the sender handed to the
network carry one TLS record (the one then reported to the sender's TLS library); given those bytes, the receiver runs its
plugins, all of them succeed, and its TLS library is offered exactly that record under exactly the id the sender advertised –
unless that id is the reserved one (which a sender with roaming disabled always advertises), when the datagram is refused with
`HE_ERR_REJECTED_SESSION` and nothing else happens. -/
theorem C103_record_crosses {env : Env} {c : Conn} (hg : Good env c) (op : Op) {n o : Log} {p : Bytes} {rc : RC}
    (hd : (step env c op).1.connType = .datagram)
    (h : (step env c op).1.log = n ++ .outsideWrite p rc :: (o ++ c.log))
    (env' : Env) (peer : Conn) (reads : List ReadRes)
    (hs : peer.state ≠ .disconnecting ∧ peer.state ≠ .disconnected) (ht : peer.connType = .datagram)
    (hv : peer.verMajor = (step env c op).1.verMajor ∧ peer.verMinor = (step env c op).1.verMinor)
    (hun : UndoesOut peer.outsidePlugins (step env c op).1.outsidePlugins) :
    ∃ rec res newer copies session pending pl,
      n = newer ++ .sslOut rec res :: copies ∧ (∀ e ∈ copies, ∃ rc', e = .outsideWrite p rc') ∧
      (op.api ≠ .outsideData → op.api ≠ .serverConnect → op.api ≠ .rotateSession → op.api ≠ .setter →
        session = c.sessionId ∧ pending = c.pendingSessionId) ∧
      (∀ e ∈ pl, ∃ x, e = .pluginIngress x .success) ∧
      (advertised (step env c op).1.disableRoaming session pending = 2 ^ 64 - 1 →
        (step env' peer (.outsideData p reads)).2 = .rejectedSession ∧
        (step env' peer (.outsideData p reads)).1.log = .ret .rejectedSession :: (pl ++ .api .outsideData :: peer.log)) ∧
      (advertised (step env c op).1.disableRoaming session pending ≠ 2 ^ 64 - 1 →
        ∃ y, (step env' peer (.outsideData p reads)).1.log =
          y ++ .input (advertised (step env c op).1.disableRoaming session pending) rec ::
            (pl ++ .api .outsideData :: peer.log)) := by
  obtain ⟨b, m, r, n1, o1, n2, h1, h2, h3, h4, h5, h6, h7, h8, h9, h10⟩ := step_locate hg op (by trivial) h
  cases r with
  | recv sz =>
    obtain ⟨res, e⟩ := recv_log env m sz
    rw [e] at h8
    have := (split_in h8).1
    cases this
  | send rec =>
    rw [h3.ty] at hd
    rw [h3.out] at hun
    rw [h3.maj, h3.min] at hv
    rw [h3.roam]
    obtain ⟨pl, copies, res, q, e, g1, g2, g3⟩ := dtls_send_plugged env m rec hd
    rw [e] at h8
    obtain ⟨k1, k2, g4, g5⟩ := split_write h8 g1
    obtain ⟨l1, hl1⟩ := g3 (by rw [g5]; simp)
    obtain ⟨_, hq⟩ := g2 (.outsideWrite p rc) (by rw [g5]; simp)
    simp only [Effect.outsideWrite.injEq] at hq
    obtain ⟨rfl, -⟩ := hq
    obtain ⟨hlen, l2, hin⟩ := hun m.log (.api .outsideData :: peer.log) l1 _ p maxWireMtu hl1
    obtain ⟨pl', a1, a2, a3⟩ := recv_restored env' peer m rec p reads l2 hs ht hin hlen h6 h7 hv
    refine ⟨rec, res, n2, k1, m.sessionId, m.pendingSessionId, pl', by rw [h10, g4], ?_, ?_, a1, a2, a3⟩
    · intro x hx
      exact g2 x (by rw [g5]; simp [hx])
    · intro b1 b2 b3 b4
      have hb : m.sessionId = b.sessionId ∧ m.pendingSessionId = b.pendingSessionId := by
        have := h2.fields; exact ⟨this.2.2.2.2.2.2.1, this.2.2.2.2.2.2.2.1⟩
      have he : (entry c op).sessionId = c.sessionId ∧ (entry c op).pendingSessionId = c.pendingSessionId := by
        cases op <;> exact ⟨rfl, rfl⟩
      have := h1.ids ⟨b1, b2, b3, b4⟩
      rw [hb.1, hb.2, this.1, this.2, he.1, he.2]
      exact ⟨rfl, rfl⟩

/-! ## Chains that undo each other -/

/-- A plugin whose ingress undoes its egress, and whose egress does not shorten what it is given. -/
def OutMirrors (p : Plugin) : Prop :=
  match p.egress, p.ingress with
  | none, none => True
  | some e, some i => ∀ l l' pkt cap cap' q, e l pkt cap = (.success, q) →
      pkt.length ≤ q.length ∧ i l' q cap' = (.success, pkt)
  | _, _ => False

/-- The same chain of such plugins on both sides. -/
theorem undoesOut_mirrors (ch : Chain) (hm : ∀ p, some p ∈ ch → OutMirrors p) : UndoesOut ch ch := by
  have key : ∀ (ch : Chain), (∀ p, some p ∈ ch → OutMirrors p) → ∀ l l' l1 pkt q cap cap',
      ch.egress l pkt cap = (l1, q, .success) →
      pkt.length ≤ q.length ∧ ∃ l2, ch.ingress l' q cap' = (l2, pkt, .success) := by
    intro ch
    induction ch with
    | nil =>
      intro _ l l' l1 pkt q cap cap' h
      simp only [Chain.egress, Prod.mk.injEq] at h
      obtain ⟨_, rfl, _⟩ := h
      exact ⟨Nat.le_refl _, l', rfl⟩
    | cons node rest ih =>
      intro hm l l' l1 pkt q cap cap' h
      have ih := ih (fun p hp => hm p (by simp [hp]))
      simp only [Chain.egress] at h
      generalize hr : Chain.egress rest l pkt cap = r at h
      obtain ⟨l0, q0, rc0⟩ := r
      by_cases hs : rc0 = .success
      · subst hs
        simp only [ne_eq, not_true_eq_false, if_false] at h
        cases node with
        | none =>
          simp only [Option.bind_none, Prod.mk.injEq, and_true] at h
          obtain ⟨rfl, rfl⟩ := h
          obtain ⟨g1, l2, g2⟩ := ih l l' _ pkt _ cap cap' hr
          exact ⟨g1, l2, by simp only [Chain.ingress, Option.bind_none]; exact g2⟩
        | some p =>
          have hp := hm p (by simp)
          unfold OutMirrors at hp
          simp only [Option.bind_some] at h
          split at hp
          · rename_i h1 h2
            rw [h1] at h
            simp only [Prod.mk.injEq, and_true] at h
            obtain ⟨rfl, rfl⟩ := h
            obtain ⟨g1, l2, g2⟩ := ih l l' _ pkt _ cap cap' hr
            exact ⟨g1, l2, by simp only [Chain.ingress, Option.bind_some, h2]; exact g2⟩
          · rename_i e i h1 h2
            rw [h1] at h
            simp only at h
            generalize hq : e l0 q0 cap = rq at h
            obtain ⟨v, q1⟩ := rq
            cases v with
            | fail => simp at h
            | drop => simp at h
            | success =>
              simp only [Prod.mk.injEq, and_true] at h
              obtain ⟨_, rfl⟩ := h
              obtain ⟨k1, k2⟩ := hp l0 l' q0 cap cap' q1 hq
              obtain ⟨g1, l2, g2⟩ := ih l (.pluginIngress q1 .success :: l') _ pkt _ cap cap' hr
              exact ⟨by omega, l2, by simp only [Chain.ingress, Option.bind_some, h2, k2]; exact g2⟩
          · exact hp.elim
      · rw [if_pos hs] at h
        simp only [Prod.mk.injEq] at h
        exact absurd h.2.2 hs
  intro l l' l1 pkt q cap h
  exact key ch hm l l' l1 pkt q cap q.length h

theorem flip_outMirrors : OutMirrors flipPlugin := by
  show ∀ l l' pkt cap cap' q, _ → _
  intro l l' pkt cap cap' q h
  have := flip_mirrors l l' pkt cap cap' q h
  refine ⟨?_, this⟩
  simp only [Prod.mk.injEq, true_and] at h
  subst h
  simp

namespace Demo

/-- Client and server with an outside plugin that flips every byte of each datagram. -/
def flipClient : List Op := clientOpsWith ctx |>.map fun
  | .clientConnect x i _ => .clientConnect x i [some flipPlugin, none]
  | .outsideData b r => .outsideData (b.map fun x => 255 - x) r
  | op => op

def flipServer : List Op := serverOpsWith ctx |>.map fun
  | .serverConnect x i _ => .serverConnect x i [some flipPlugin]
  | .outsideData b r => .outsideData (b.map fun x => 255 - x) r
  | op => op

/-- C103: all hypotheses are met – an online client with a flipping plugin sends a keepalive, a server of the same version
with the same plugin is online – and the record arrives under the client's session id. -/
example : (step env (run env flipClient) .keepalive).1.connType = .datagram ∧
    (newPart env (run env flipClient) .keepalive).any isWrite = true ∧
    (run env flipClient).sessionId = 4242 ∧ (run env flipClient).disableRoaming = false ∧
    (run env flipServer).state = .online ∧ (run env flipServer).connType = .datagram ∧
    (run env flipServer).verMajor = (step env (run env flipClient) .keepalive).1.verMajor ∧
    (run env flipServer).verMinor = (step env (run env flipClient) .keepalive).1.verMinor := by decide +kernel

/-- C103: the chains undo each other. -/
example : UndoesOut [some flipPlugin] [some flipPlugin, none] := by
  intro l l' l1 pkt q cap h
  exact undoesOut_mirrors [some flipPlugin] (by
    intro p hp; simp only [List.mem_singleton, Option.some.injEq] at hp; subst hp; exact flip_outMirrors) l l' l1 pkt q cap h

end Demo

end Lightway
