import Verif.Proofs.Locate
import Verif.Props.Demo

/-!
# The wire: C23, C25, C28, C29, C59
-/

namespace Lightway
open Spec

theorem entry_log (c : Conn) (op : Op) : (entry c op).log = .api op.api :: c.log := by cases op <;> rfl

/-- The moment of a network effect of a call on a connection with a history. -/
theorem step_locate {env : Env} {c : Conn} (hg : Good env c) (op : Op) {n o : Log} {e : Effect} (he : NetEff e)
    (h : (step env c op).1.log = n ++ e :: (o ++ c.log)) :
    ∃ b m r n1 o1 n2, M env op.api (entry c op) b ∧ PFrame b m ∧ SameWire m (step env c op).1 ∧
      stateAt m.log = m.state ∧ registered m.log = m.cbs ∧ m.sessionId < 2 ^ 64 ∧ m.pendingSessionId < 2 ^ 64 ∧
      (ioStep env m r).log = n1 ++ e :: (o1 ++ m.log) ∧ o ++ c.log = o1 ++ m.log ∧ n = n2 ++ n1 := by
  obtain ⟨⟨ap, hi⟩, hs⟩ := hg
  have hx := exec_star env ap c op hi
  have hl : (step env c op).1.log = .ret (step env c op).2 :: (exec env (c.emit (.api op.api)) op).1.log := rfl
  rw [hl] at h
  cases n with
  | nil => simp only [List.nil_append, List.cons.injEq] at h; rw [← h.1] at he; exact absurd he (by simp [NetEff])
  | cons w n =>
    simp only [List.cons_append, List.cons.injEq] at h
    obtain ⟨x, hxl, -⟩ := hx.logExt
    have hsplit : ∃ k, o ++ c.log = k ++ (entry c op).log := by
      rw [entry_log c op] at hxl ⊢
      rw [hxl] at h
      rcases split_ext h.2.symm with ⟨k, h1, h2⟩ | ⟨k, h1, h2⟩
      · exact ⟨k, h2⟩
      · exfalso
        cases k with
        | nil => simp only [List.nil_append, List.cons.injEq] at h2; rw [← h2.1] at he; exact he
        | cons y k =>
          simp only [List.cons_append, List.cons.injEq] at h2
          have := congrArg List.length h2.2
          simp at this
          omega
    obtain ⟨k, hk⟩ := hsplit
    rw [hk] at h
    obtain ⟨b, m, r, n1, o1, n2, h1, h2, h3, h4, h5, h6⟩ := locate hx he h.2
    have hib := h1.inv (entry_inv hi op)
    have h0 : Sizes (entry c op) := by
      cases op <;> exact ⟨hs.1, hs.2, hs.3, hs.4, hs.5, hs.6, hs.7, hs.8, hs.9, hs.10⟩
    have hsb := h1.sizes h0
    refine ⟨b, m, r, n1, o1, w :: n2, h1, h2, ?_, ?_, ?_, ?_, ?_, h4, hk.trans h5, by rw [h6]; rfl⟩
    · exact ⟨h3.1, h3.2, h3.3, h3.4, h3.5, h3.6⟩
    all_goals
      obtain ⟨l, ps, sl, we, pm, pn, rfl, hl⟩ := h2
      have hn : ∀ x ∈ l, Neutral x := fun x hx => (hl x hx).neutral
    · simp only; rw [stateAt_neutral _ hn]; exact hib.st
    · simp only; rw [registered_neutral _ hn]; exact hib.reg
    · exact hsb.sess
    · exact hsb.pend

theorem numLe_rdLe (bs : Bytes) : numLe bs = rdLe bs := by
  induction bs with
  | nil => rfl
  | cons b bs ih => simp [numLe, rdLe, ih]

theorem numLe_leN (k n : Nat) (h : n < 256 ^ k) : numLe (leN k n) = n := by
  induction k generalizing n with
  | zero => simp at h; subst h; rfl
  | succ k ih =>
    have : n / 256 < 256 ^ k := by rw [Nat.pow_succ] at h; omega
    simp only [leN, numLe, ih _ this, UInt8.toNat_ofNat']
    omega

/-- The id a connection advertises. -/
def advertised (disableRoaming : Bool) (session pending : Nat) : Nat :=
  if disableRoaming then 2 ^ 64 - 1 else if pending ≠ 0 then pending else session

theorem decode_wire (c : Conn) (rec : Bytes) (hs : c.sessionId < 2 ^ 64) (hp : c.pendingSessionId < 2 ^ 64) :
    decodeDatagram (wireHeader c ++ rec) =
      some ({ major := c.verMajor, minor := c.verMinor, aggressive := c.aggressive,
              session := advertised c.disableRoaming c.sessionId c.pendingSessionId }, rec) := by
  have hlt : advertised c.disableRoaming c.sessionId c.pendingSessionId < 256 ^ 8 := by
    unfold advertised; split
    · decide
    · split <;> assumption
  have e : wireHeader c = [72, 101, c.verMajor, c.verMinor, if c.aggressive then 1 else 0, 0, 0, 0] ++
      leN 8 (advertised c.disableRoaming c.sessionId c.pendingSessionId) := rfl
  rw [e]
  generalize advertised c.disableRoaming c.sessionId c.pendingSessionId = s at hlt
  have hl := leN_length 8 s
  have hd := numLe_leN 8 s hlt
  generalize leN 8 s = b at hl hd
  simp only [List.cons_append, List.nil_append, decodeDatagram]
  rw [if_pos (by simp [hl]), List.take_append_of_le_length (by omega), List.take_of_length_le (by omega), hd,
    List.drop_append_of_le_length (by omega), List.drop_of_length_le (by omega)]
  cases c.aggressive <;> simp

/-- One record on a datagram connection: the plugins run, then the copies are sent. -/
theorem dtls_send (env : Env) (m : Conn) (rec : Bytes) (hd : m.connType = .datagram) :
    ∃ pl copies res q, (ioStep env m (.send rec)).log = .sslOut rec res :: (copies ++ (pl ++ m.log)) ∧
      (∀ e ∈ pl, ∃ p r, e = .pluginEgress p r) ∧
      (m.outsidePlugins.plugins = 0 → q = wireHeader m ++ rec ∧ pl = []) ∧
      ((copies = [] ∧ ((rec.length + 16 > 1500 ∧ res = none) ∨ (m.cbs.outsideWrite = false ∧ res = some rec.length) ∨
          m.outsidePlugins.plugins ≠ 0)) ∨
       (q.length ≤ 1500 ∧ rec.length + 16 ≤ 1500 ∧ m.cbs.outsideWrite = true ∧
        Transmitted (if m.state = .online ∧ m.aggressive = false then 1 else 3) q rec.length copies res)) := by
  simp only [ioStep, hd]
  obtain ⟨pl, hpl, hpe⟩ := Chain.egress_log m.outsidePlugins m.log (wireHeader m ++ rec) maxWireMtu
  have hno : m.outsidePlugins.plugins = 0 →
      m.outsidePlugins.egress m.log (wireHeader m ++ rec) maxWireMtu = (m.log, wireHeader m ++ rec, .success) :=
    fun h => egress_noPlugins h _ _ _
  unfold dtlsWrite
  by_cases h1 : rec.length + 16 > maxWireMtu
  · rw [if_pos h1]
    exact ⟨[], [], none, wireHeader m ++ rec, rfl, by simp, fun _ => ⟨rfl, rfl⟩, .inl ⟨rfl, .inl ⟨h1, rfl⟩⟩⟩
  rw [if_neg h1]
  have h1' : rec.length + 16 ≤ 1500 := by simpa [maxWireMtu] using h1
  generalize m.outsidePlugins.egress m.log (wireHeader m ++ rec) maxWireMtu = r at hpl hno
  obtain ⟨l, q, rc⟩ := r
  simp only at hpl hno ⊢
  subst hpl
  have hpl0 : m.outsidePlugins.plugins = 0 → q = wireHeader m ++ rec ∧ pl = [] := by
    intro h
    have := hno h
    simp only [Prod.mk.injEq] at this
    exact ⟨this.2.1, by simpa using this.1⟩
  have hsucc : m.outsidePlugins.plugins = 0 → rc = .success := by
    intro h; have := hno h; simp only [Prod.mk.injEq] at this; exact this.2.2
  by_cases h2 : rc = .pluginDrop
  · rw [if_pos h2]
    exact ⟨pl, [], _, q, rfl, hpe, hpl0, .inl ⟨rfl, .inr (.inr fun h => by rw [hsucc h] at h2; cases h2)⟩⟩
  rw [if_neg h2]
  by_cases h3 : rc ≠ .success ∨ q.length > maxWireMtu
  · rw [if_pos h3]
    refine ⟨pl, [], _, q, rfl, hpe, hpl0, .inl ⟨rfl, .inr (.inr fun h => ?_)⟩⟩
    rcases h3 with h3 | h3
    · exact h3 (hsucc h)
    · rw [(hpl0 h).1] at h3
      simp only [List.length_append, wireHeader, le64, leN_length, List.length_cons, List.length_nil, maxWireMtu] at h3
      omega
  rw [if_neg h3]
  simp only [not_or, Decidable.not_not, Nat.not_lt, maxWireMtu, gt_iff_lt] at h3
  by_cases h4 : m.cbs.outsideWrite = true
  case neg =>
    have h4 : m.cbs.outsideWrite = false := by simpa using h4
    simp only [h4, Bool.not_false, if_true]
    exact ⟨pl, [], _, q, rfl, hpe, hpl0, .inl ⟨rfl, .inr (.inl ⟨trivial, rfl⟩)⟩⟩
  have cb : ∀ c p, ∃ rc, outsideWriteCb env c p = (c.emit (.outsideWrite p rc), rc) := fun c p => ⟨_, rfl⟩
  simp only [h4, Bool.not_true, Bool.false_eq_true, if_false]
  obtain ⟨r1, hr1⟩ := cb { m with log := pl ++ m.log } q
  rw [hr1]
  simp only
  by_cases e1 : r1 = .success
  case neg =>
    simp only [e1, ne_eq, not_false_eq_true, if_true]
    refine ⟨pl, [.outsideWrite q r1], none, q, rfl, hpe, hpl0, .inr ⟨h3.2, h1', trivial, .inr ⟨0, r1, ?_, e1, rfl, rfl⟩⟩⟩
    split <;> omega
  simp only [e1, ne_eq, not_true_eq_false, if_false]
  by_cases h5 : m.state = .online ∧ m.aggressive = false
  · rw [if_neg (by simp [Conn.emit, h5.1, h5.2]), if_pos h5]
    exact ⟨pl, [.outsideWrite q .success], _, q, rfl, hpe, hpl0, .inr ⟨h3.2, h1', trivial, .inl ⟨rfl, rfl⟩⟩⟩
  rw [if_pos (by
    by_cases hs : m.state = .online
    · exact .inr (by show m.aggressive = true; simpa using fun hh => h5 ⟨hs, hh⟩)
    · exact .inl hs), if_neg h5]
  obtain ⟨r2, hr2⟩ := cb ({ m with log := pl ++ m.log }.emit (.outsideWrite q .success)) q
  rw [hr2]
  simp only
  by_cases e2 : r2 = .success
  case neg =>
    simp only [e2, not_false_eq_true, if_true]
    exact ⟨pl, [.outsideWrite q r2, .outsideWrite q .success], none, q, rfl, hpe, hpl0,
      .inr ⟨h3.2, h1', trivial, .inr ⟨1, r2, by omega, e2, rfl, rfl⟩⟩⟩
  simp only [e2, not_true_eq_false, if_false]
  obtain ⟨r3, hr3⟩ := cb (({ m with log := pl ++ m.log }.emit (.outsideWrite q .success)).emit (.outsideWrite q .success)) q
  rw [hr3]
  simp only
  by_cases e3 : r3 = .success
  case neg =>
    simp only [e3, not_false_eq_true, if_true]
    exact ⟨pl, [.outsideWrite q r3, .outsideWrite q .success, .outsideWrite q .success], none, q, rfl, hpe, hpl0,
      .inr ⟨h3.2, h1', trivial, .inr ⟨2, r3, by omega, e3, rfl, rfl⟩⟩⟩
  simp only [e3, not_true_eq_false, if_false]
  exact ⟨pl, [.outsideWrite q .success, .outsideWrite q .success, .outsideWrite q .success], _, q, rfl, hpe, hpl0,
    .inr ⟨h3.2, h1', trivial, .inl ⟨rfl, rfl⟩⟩⟩

/-- One record on a stream connection. -/
theorem tls_send (env : Env) (m : Conn) (rec : Bytes) (hd : m.connType = .stream) :
    ∃ pl copies res q, (ioStep env m (.send rec)).log = .sslOut rec res :: (copies ++ (pl ++ m.log)) ∧
      (∀ e ∈ pl, ∃ p r, e = .pluginEgress p r) ∧
      (m.outsidePlugins.plugins = 0 → q = rec.take 1500 ∧ pl = []) ∧
      ((copies = [] ∧ ((m.cbs.outsideWrite = false ∧ res = some (min rec.length 1500)) ∨ m.outsidePlugins.plugins ≠ 0)) ∨
       (q.length ≤ 1500 ∧ m.cbs.outsideWrite = true ∧ Transmitted 1 q (min rec.length 1500) copies res)) := by
  simp only [ioStep, hd]
  unfold tlsWrite
  have hn : (if rec.length < maxWireMtu then rec.length else maxWireMtu) = min rec.length 1500 := by
    by_cases h : rec.length < maxWireMtu
    · rw [if_pos h]; simp only [maxWireMtu] at h; omega
    · rw [if_neg h]; simp only [maxWireMtu] at h ⊢; omega
  rw [hn]
  simp only
  obtain ⟨pl, hpl, hpe⟩ := Chain.egress_log m.outsidePlugins m.log (rec.take (min rec.length 1500)) maxWireMtu
  have hno : m.outsidePlugins.plugins = 0 →
      m.outsidePlugins.egress m.log (rec.take (min rec.length 1500)) maxWireMtu =
        (m.log, rec.take (min rec.length 1500), .success) :=
    fun h => egress_noPlugins h _ _ _
  have htk : rec.take (min rec.length 1500) = rec.take 1500 := by
    by_cases h : rec.length < 1500
    · rw [Nat.min_eq_left (by omega), List.take_of_length_le (by omega), List.take_of_length_le (by omega)]
    · rw [Nat.min_eq_right (by omega)]
  generalize m.outsidePlugins.egress m.log (rec.take (min rec.length 1500)) maxWireMtu = r at hpl hno
  obtain ⟨l, q, rc⟩ := r
  simp only at hpl hno ⊢
  subst hpl
  have hpl0 : m.outsidePlugins.plugins = 0 → q = rec.take 1500 ∧ pl = [] := by
    intro h
    have := hno h
    simp only [Prod.mk.injEq] at this
    exact ⟨this.2.1.trans htk, by simpa using this.1⟩
  have hsucc : m.outsidePlugins.plugins = 0 → rc = .success := by
    intro h; have := hno h; simp only [Prod.mk.injEq] at this; exact this.2.2
  by_cases h2 : rc = .pluginDrop
  · rw [if_pos h2]
    exact ⟨pl, [], _, q, rfl, hpe, hpl0, .inl ⟨rfl, .inr fun h => by rw [hsucc h] at h2; cases h2⟩⟩
  rw [if_neg h2]
  by_cases h3 : rc ≠ .success ∨ q.length > maxWireMtu
  · rw [if_pos h3]
    refine ⟨pl, [], _, q, rfl, hpe, hpl0, .inl ⟨rfl, .inr fun h => ?_⟩⟩
    rcases h3 with h3 | h3
    · exact h3 (hsucc h)
    · rw [(hpl0 h).1] at h3
      simp only [List.length_take, maxWireMtu] at h3
      omega
  rw [if_neg h3]
  simp only [not_or, Decidable.not_not, Nat.not_lt, maxWireMtu, gt_iff_lt] at h3
  by_cases h4 : m.cbs.outsideWrite = true
  case neg =>
    have h4 : m.cbs.outsideWrite = false := by simpa using h4
    simp only [h4, Bool.not_false, if_true]
    exact ⟨pl, [], _, q, rfl, hpe, hpl0, .inl ⟨rfl, .inl ⟨trivial, rfl⟩⟩⟩
  have cb : ∀ c p, ∃ rc, outsideWriteCb env c p = (c.emit (.outsideWrite p rc), rc) := fun c p => ⟨_, rfl⟩
  simp only [h4, Bool.not_true, Bool.false_eq_true, if_false]
  obtain ⟨r1, hr1⟩ := cb { m with log := pl ++ m.log } q
  rw [hr1]
  simp only
  by_cases e1 : r1 = .success
  case neg =>
    simp only [e1, ne_eq, not_false_eq_true, if_true]
    exact ⟨pl, [.outsideWrite q r1], none, q, rfl, hpe, hpl0, .inr ⟨h3.2, trivial, .inr ⟨0, r1, by omega, e1, rfl, rfl⟩⟩⟩
  simp only [e1, ne_eq, not_true_eq_false, if_false]
  exact ⟨pl, [.outsideWrite q .success], _, q, rfl, hpe, hpl0, .inr ⟨h3.2, trivial, .inl ⟨rfl, rfl⟩⟩⟩

/-- One read request adds exactly its own record. -/
theorem recv_log (env : Env) (m : Conn) (sz : Nat) : ∃ res, (ioStep env m (.recv sz)).log = .sslIn sz res :: m.log := by
  simp only [ioStep]
  cases m.connType with
  | datagram =>
    simp only [dtlsRead]
    split
    · exact ⟨_, rfl⟩
    · split
      · exact ⟨_, rfl⟩
      · split <;> exact ⟨_, rfl⟩
  | stream =>
    simp only [tlsRead]
    split <;> exact ⟨_, rfl⟩

theorem transmitted_mem {t : Nat} {q : Bytes} {n : Nat} {copies : Log} {res : Option Nat}
    (h : Transmitted t q n copies res) : ∀ e ∈ copies, ∃ rc, e = .outsideWrite q rc := by
  rcases h with ⟨rfl, -⟩ | ⟨k, rc, -, -, rfl, -⟩
  · intro e he; exact ⟨_, (List.mem_replicate.mp he).2⟩
  · intro e he
    rcases List.mem_cons.mp he with rfl | he
    · exact ⟨_, rfl⟩
    · exact ⟨_, (List.mem_replicate.mp he).2⟩

/-! ### Session ids during a call -/

theorem Micro.ids {env : Env} {a : Api} {c c' : Conn} (h : Micro env a c c')
    (ha : a ≠ .outsideData ∧ a ≠ .serverConnect ∧ a ≠ .rotateSession ∧ a ≠ .setter) :
    c'.sessionId = c.sessionId ∧ c'.pendingSessionId = c.pendingSessionId := by
  cases h with
  | io r => have := (ioStep_frame env c r).fields; simp [this]
  | state s hne h => unfold setState; split <;> exact ⟨rfl, rfl⟩
  | configure ctx h hq => obtain ⟨_, _, _, _, e, _⟩ := configure_shape env c ctx; rw [e]; exact ⟨rfl, rfl⟩
  | probeAck id h hs hm => have := (handleProbeAck_frame env c id).fields; simp [this]
  | probeTimeout h => have := (handleProbeTimeout_frame env c).fields; simp [this]
  | startBase h hs hd => have := (startBaseProbing_frame env c).fields; simp [this]
  | sessCfg s h => exact absurd h ha.1
  | sessAck s h => exact absurd h ha.1
  | sessClient s h => exact absurd h ha.1
  | sessServer s h => exact absurd h ha.2.1
  | rotate s h => exact absurd h ha.2.2.1
  | sessSet s h => exact absurd h ha.2.2.2
  | _ => exact ⟨rfl, rfl⟩

theorem Star.ids {env : Env} {a : Api} {c c' : Conn} (h : M env a c c')
    (ha : a ≠ .outsideData ∧ a ≠ .serverConnect ∧ a ≠ .rotateSession ∧ a ≠ .setter) :
    c'.sessionId = c.sessionId ∧ c'.pendingSessionId = c.pendingSessionId := by
  induction h with
  | refl => exact ⟨rfl, rfl⟩
  | tail _ s ih => have := s.ids ha; exact ⟨this.1.trans ih.1, this.2.trans ih.2⟩

/-- While data is received, each step keeps the ids, or it is one of the three ways to learn a session id. -/
theorem Micro.idsRecv {env : Env} {c c' : Conn} (h : Micro env .outsideData c c') :
    c'.isServer = c.isServer ∧
    ((c'.sessionId = c.sessionId ∧ c'.pendingSessionId = c.pendingSessionId) ∨
     (c.isServer = true ∧ c.pendingSessionId ≠ 0 ∧ c'.sessionId = c.pendingSessionId ∧ c'.pendingSessionId = 0 ∧
        InputSession c'.sessionId c.log) ∨
     (c.isServer = false ∧ c'.pendingSessionId = c.pendingSessionId ∧
        ((∃ pkt rest, c.log = .message pkt :: rest ∧ IsConfigMsg pkt ∧ c'.sessionId = rdLe (field pkt 97 8)) ∨
         (c'.sessionId ≠ 0 ∧ InputSession c'.sessionId c.log)))) := by
  cases h with
  | io r => have := (ioStep_frame env c r).fields; simp [this]
  | state s hne h => unfold setState; split <;> exact ⟨rfl, .inl ⟨rfl, rfl⟩⟩
  | configure ctx h hq => rcases h with h | h <;> cases h
  | probeAck id h hs hm => have := (handleProbeAck_frame env c id).fields; simp [this]
  | probeTimeout h => cases h
  | startBase h hs hd => cases h
  | sessCfg s h hr hs hm => exact ⟨rfl, .inr (.inr ⟨hr, rfl, .inl hm⟩)⟩
  | sessAck s h hr hs hz hin => subst hs; exact ⟨rfl, .inr (.inl ⟨hr, hz, rfl, rfl, hin⟩)⟩
  | sessClient s h hr hz hlt hin => exact ⟨rfl, .inr (.inr ⟨hr, rfl, .inr ⟨hz, hin⟩⟩)⟩
  | sessServer s h => cases h
  | rotate s h => cases h
  | sessSet s h => cases h
  | role b h => rcases h with h | h <;> cases h
  | _ => exact ⟨rfl, .inl ⟨rfl, rfl⟩⟩

/-- Receiving data, a server either keeps its ids or adopts the pending one. -/
theorem Star.idsServer {env : Env} {c c' : Conn} (h : M env .outsideData c c') (hr : c.isServer = true) :
    c'.isServer = true ∧ ((c'.sessionId = c.sessionId ∧ c'.pendingSessionId = c.pendingSessionId) ∨
      (c.pendingSessionId ≠ 0 ∧ c'.sessionId = c.pendingSessionId ∧ c'.pendingSessionId = 0)) := by
  induction h with
  | refl => exact ⟨hr, .inl ⟨rfl, rfl⟩⟩
  | tail _ s ih =>
    obtain ⟨h1, h2⟩ := s.idsRecv
    refine ⟨h1.trans ih.1, ?_⟩
    rcases h2 with ⟨h2, h3⟩ | ⟨_, h2, h3, h4, _⟩ | ⟨h2, _⟩
    · rcases ih.2 with ⟨i1, i2⟩ | ⟨i1, i2, i3⟩
      · exact .inl ⟨h2.trans i1, h3.trans i2⟩
      · exact .inr ⟨i1, h2.trans i2, h3.trans i3⟩
    · rcases ih.2 with ⟨i1, i2⟩ | ⟨i1, i2, i3⟩
      · exact .inr ⟨by rw [← i2]; exact h2, h3.trans i2, h4⟩
      · exact absurd i3 h2
    · rw [ih.1] at h2; cases h2

/-- Where a client may have learnt a session id during a call with history `l` since its beginning. -/
def Learnt (s : Nat) (l : Log) : Prop :=
  (∃ pkt, .message pkt ∈ l ∧ IsConfigMsg pkt ∧ s = rdLe (field pkt 97 8)) ∨ ∃ body, .input s body ∈ l

theorem Star.idsClient {env : Env} {c c' : Conn} {old : Log} (h : M env .outsideData c c') (hr : c.isServer = false)
    (hl : c.log = .api .outsideData :: old) :
    c'.isServer = false ∧ c'.pendingSessionId = c.pendingSessionId ∧
      ∃ x, c'.log = x ++ c.log ∧ (∀ e ∈ x, NoMark e) ∧ (c'.sessionId = c.sessionId ∨ Learnt c'.sessionId x) := by
  induction h with
  | refl => exact ⟨hr, rfl, [], rfl, by simp, .inl rfl⟩
  | tail _ s ih =>
    obtain ⟨h1, h2⟩ := s.idsRecv
    obtain ⟨i1, i2, x, i3, i4, i5⟩ := ih
    obtain ⟨y, h3, h4⟩ := s.logExt
    have hm : ∀ e ∈ y ++ x, NoMark e := by
      intro e he
      rcases List.mem_append.mp he with h | h
      · exact h4 e h
      · exact i4 e h
    have keep : ∀ s, Learnt s x → Learnt s (y ++ x) := by
      rintro s (⟨pkt, h, h'⟩ | ⟨b, h⟩)
      · exact .inl ⟨pkt, by simp [h], h'⟩
      · exact .inr ⟨b, by simp [h]⟩
    refine ⟨h1.trans i1, ?_, y ++ x, by rw [h3, i3]; simp, hm, ?_⟩
    · rcases h2 with ⟨_, h2⟩ | ⟨h2, _⟩ | ⟨_, h2, _⟩
      · exact h2.trans i2
      · rw [i1] at h2; cases h2
      · exact h2.trans i2
    · rcases h2 with ⟨h2, _⟩ | ⟨h2, _⟩ | ⟨_, _, ⟨pkt, rest, g1, g2, g3⟩ | ⟨_, z, body, o, g1, g2⟩⟩
      · rcases i5 with i5 | i5
        · exact .inl (h2.trans i5)
        · right; rw [h2]; exact keep _ i5
      · rw [i1] at h2; cases h2
      · right; left
        rw [i3, hl] at g1
        cases x with
        | nil => simp at g1
        | cons w x =>
          simp only [List.cons_append, List.cons.injEq] at g1
          exact ⟨pkt, by rw [g1.1]; simp, g2, g3⟩
      · right; right
        rw [i3, hl] at g1
        rcases split_ext g1.symm with ⟨k, e1, _⟩ | ⟨k, e1, e2⟩
        · exact ⟨body, by rw [e1]; simp⟩
        · exfalso
          cases k with
          | nil => simp at e2
          | cons w k =>
            simp only [List.cons_append, List.cons.injEq] at e2
            have := g2 w (by rw [e1]; simp)
            rw [← e2.1] at this
            exact this

/-! ### Splitting at an effect of one record -/

theorem split_write {rec : Bytes} {res : Option Nat} {copies pl ml n1 o1 : Log} {p : Bytes} {rc : RC}
    (h : .sslOut rec res :: (copies ++ (pl ++ ml)) = n1 ++ .outsideWrite p rc :: (o1 ++ ml))
    (hpl : ∀ e ∈ pl, ∃ p r, e = .pluginEgress p r) :
    ∃ k1 k2, n1 = .sslOut rec res :: k1 ∧ copies = k1 ++ .outsideWrite p rc :: k2 := by
  cases n1 with
  | nil => simp at h
  | cons w n1 =>
    simp only [List.cons_append, List.cons.injEq] at h
    rcases split_ext h.2.symm with ⟨k, h1, _⟩ | ⟨k, h1, h2⟩
    · exact ⟨n1, k, by rw [h.1], h1⟩
    · exfalso
      rcases split_ext h2.symm with ⟨k', h3, _⟩ | ⟨k', h3, h4⟩
      · obtain ⟨_, _, h5⟩ := hpl (.outsideWrite p rc) (by rw [h3]; simp)
        cases h5
      · have := congrArg List.length h4
        simp at this
        omega

theorem split_out {rec rec' : Bytes} {res res' : Option Nat} {copies pl ml n1 o1 : Log}
    (h : .sslOut rec res :: (copies ++ (pl ++ ml)) = n1 ++ .sslOut rec' res' :: (o1 ++ ml))
    (hc : ∀ e ∈ copies, ∃ p r, e = .outsideWrite p r) (hpl : ∀ e ∈ pl, ∃ p r, e = .pluginEgress p r) :
    n1 = [] ∧ rec' = rec ∧ res' = res ∧ o1 = copies ++ pl := by
  cases n1 with
  | nil =>
    simp only [List.nil_append, List.cons.injEq, Effect.sslOut.injEq] at h
    refine ⟨rfl, h.1.1.symm, h.1.2.symm, ?_⟩
    have := h.2
    rw [← List.append_assoc] at this
    exact (List.append_cancel_right this).symm
  | cons w n1 =>
    simp only [List.cons_append, List.cons.injEq] at h
    exfalso
    rcases split_ext h.2.symm with ⟨k, h1, _⟩ | ⟨k, h1, h2⟩
    · obtain ⟨_, _, h5⟩ := hc (.sslOut rec' res') (by rw [h1]; simp)
      cases h5
    · rcases split_ext h2.symm with ⟨k', h3, _⟩ | ⟨k', h3, h4⟩
      · obtain ⟨_, _, h5⟩ := hpl (.sslOut rec' res') (by rw [h3]; simp)
        cases h5
      · have := congrArg List.length h4
        simp at this
        omega

theorem split_in {ml n1 o1 : Log} {sz : Nat} {res : InRes} {e : Effect}
    (h : .sslIn sz res :: ml = n1 ++ e :: (o1 ++ ml)) : e = .sslIn sz res ∧ n1 = [] ∧ o1 = [] := by
  have := congrArg List.length h
  simp at this
  have h1 : n1 = [] := List.length_eq_zero_iff.mp (by omega)
  have h2 : o1 = [] := List.length_eq_zero_iff.mp (by omega)
  subst h1 h2
  simp at h
  exact ⟨h.symm, rfl, rfl⟩

/-- **C23.** Every datagram handed to the network during any call on a datagram connection without outside plugins
decodes to the connection's protocol version, its aggressive-mode flag, the id it advertises, and the TLS record it
carries (the record whose transmission is then reported to the TLS library).  The ids are those the connection had when the
call was made; receiving data, a client may meanwhile have learnt a new session id from a CONFIG_IPV4 message or from the
header of the datagram being processed; a server connecting draws its id during the call. -/
theorem C23_header_round_trip {env : Env} {c : Conn} (hg : Good env c) (op : Op) {n o : Log} {p : Bytes} {rc : RC}
    (hd : (step env c op).1.connType = .datagram) (hp : (step env c op).1.outsidePlugins.plugins = 0)
    (h : (step env c op).1.log = n ++ .outsideWrite p rc :: (o ++ c.log)) :
    ∃ rec res newer copies session pending,
      n = newer ++ .sslOut rec res :: copies ∧ (∀ e ∈ copies, ∃ rc', e = .outsideWrite p rc') ∧
      decodeDatagram p = some
        ({ major := (step env c op).1.verMajor, minor := (step env c op).1.verMinor,
           aggressive := (step env c op).1.aggressive,
           session := advertised (step env c op).1.disableRoaming session pending }, rec) ∧
      (op.api ≠ .outsideData → op.api ≠ .serverConnect → op.api ≠ .rotateSession → op.api ≠ .setter →
        session = c.sessionId ∧ pending = c.pendingSessionId) ∧
      (op.api = .outsideData → c.isServer = true → ∀ b,
        advertised b session pending = advertised b c.sessionId c.pendingSessionId) ∧
      (op.api = .outsideData → c.isServer = false → pending = c.pendingSessionId ∧
        (session = c.sessionId ∨ ∃ since, o ++ c.log = since ++ .api .outsideData :: c.log ∧ Learnt session since)) := by
  obtain ⟨b, m, r, n1, o1, n2, h1, h2, h3, h4, h5, h6, h7, h8, h9, h10⟩ := step_locate hg op (by trivial) h
  cases r with
  | recv sz =>
    obtain ⟨res, e⟩ := recv_log env m sz
    rw [e] at h8
    have := (split_in h8).1
    cases this
  | send rec =>
    rw [h3.ty] at hd
    rw [h3.out] at hp
    obtain ⟨pl, copies, res, q, e, g1, g2, g3⟩ := dtls_send env m rec hd
    rw [e] at h8
    obtain ⟨k1, k2, g4, g5⟩ := split_write h8 g1
    rcases g3 with ⟨g3, _⟩ | ⟨_, _, _, g3⟩
    · rw [g3] at g5; simp at g5
    · have hmem := transmitted_mem g3
      obtain ⟨_, hq⟩ := hmem (.outsideWrite p rc) (by rw [g5]; simp)
      simp only [Effect.outsideWrite.injEq] at hq
      have hb : m.sessionId = b.sessionId ∧ m.pendingSessionId = b.pendingSessionId := by
        have := h2.fields; exact ⟨this.2.2.2.2.2.2.1, this.2.2.2.2.2.2.2.1⟩
      have he : (entry c op).sessionId = c.sessionId ∧ (entry c op).pendingSessionId = c.pendingSessionId ∧
          (entry c op).isServer = c.isServer := by cases op <;> exact ⟨rfl, rfl, rfl⟩
      refine ⟨rec, res, n2, k1, m.sessionId, m.pendingSessionId, by rw [h10, g4], ?_, ?_, ?_, ?_, ?_⟩
      · intro x hx
        obtain ⟨r', hr'⟩ := hmem x (by rw [g5]; simp [hx])
        exact ⟨r', by rw [hr', hq.1]⟩
      · rw [hq.1, (g2 hp).1, decode_wire m rec h6 h7, h3.maj, h3.min, h3.agg, h3.roam]
      · intro a1 a2 a3 a4
        have := h1.ids ⟨a1, a2, a3, a4⟩
        rw [hb.1, hb.2, this.1, this.2, he.1, he.2.1]
        exact ⟨rfl, rfl⟩
      · intro a1 hr bb
        rw [a1] at h1
        obtain ⟨_, i⟩ := h1.idsServer (he.2.2.trans hr)
        rw [hb.1, hb.2]
        rw [he.1, he.2.1] at i
        rcases i with ⟨i1, i2⟩ | ⟨i1, i2, i3⟩
        · rw [i1, i2]
        · rw [i2, i3]
          unfold advertised
          simp [i1]
      · intro a1 hr
        have hel := entry_log c op
        rw [a1] at h1 hel
        obtain ⟨_, i1, x, i2, i3, i4⟩ := h1.idsClient (he.2.2.trans hr) hel
        rw [hb.1, hb.2, i1, he.2.1]
        refine ⟨rfl, ?_⟩
        rcases i4 with i4 | i4
        · exact .inl (i4.trans he.1)
        · right
          obtain ⟨l, hl, _⟩ := h2.logExt
          refine ⟨o1 ++ l ++ x, ?_, ?_⟩
          · rw [h9, hl, i2, hel]; simp
          · rcases i4 with ⟨pkt, j1, j2⟩ | ⟨bd, j1⟩
            · exact .inl ⟨pkt, by simp [j1], j2⟩
            · exact .inr ⟨bd, by simp [j1]⟩

/-- **C29.** Every record the TLS library sends on a datagram connection is, unless it is too long, no callback is registered or
a plugin stops it, transmitted once when ONLINE and not in aggressive mode and three times otherwise, each time the same bytes,
stopping at the first failed transmission, which is reported. -/
theorem C29_triple_transmission {env : Env} {c : Conn} (hg : Good env c) (op : Op) {n o : Log} {rec : Bytes} {res : Option Nat}
    (hd : (step env c op).1.connType = .datagram)
    (h : (step env c op).1.log = n ++ .sslOut rec res :: (o ++ c.log)) :
    ∃ copies before q, o ++ c.log = copies ++ before ∧
      ((copies = [] ∧ ((rec.length + 16 > 1500 ∧ res = none) ∨
          ((registered before).outsideWrite = false ∧ res = some rec.length) ∨
          (step env c op).1.outsidePlugins.plugins ≠ 0)) ∨
       ((registered before).outsideWrite = true ∧ q.length ≤ 1500 ∧
        Transmitted (if stateAt before = .online ∧ (step env c op).1.aggressive = false then 1 else 3) q rec.length
          copies res)) := by
  obtain ⟨b, m, r, n1, o1, n2, h1, h2, h3, h4, h5, h6, h7, h8, h9, h10⟩ := step_locate hg op (by trivial) h
  cases r with
  | recv sz =>
    obtain ⟨res, e⟩ := recv_log env m sz
    rw [e] at h8
    have := (split_in h8).1
    cases this
  | send rec' =>
    rw [h3.ty] at hd
    obtain ⟨pl, copies, res', q, e, g1, g2, g3⟩ := dtls_send env m rec' hd
    have hc : ∀ e ∈ copies, ∃ p r, e = .outsideWrite p r := by
      rcases g3 with ⟨g3, _⟩ | ⟨_, _, _, g3⟩
      · rw [g3]; simp
      · intro e he; obtain ⟨r, hr⟩ := transmitted_mem g3 e he; exact ⟨q, r, hr⟩
    rw [e] at h8
    obtain ⟨_, hr, hs, ho⟩ := split_out h8 hc g1
    subst hr hs
    have hn : ∀ x ∈ pl, Neutral x := by
      intro x hx; obtain ⟨p, r, rfl⟩ := g1 x hx; trivial
    refine ⟨copies, pl ++ m.log, q, by rw [h9, ho]; simp, ?_⟩
    rw [registered_neutral _ hn, stateAt_neutral _ hn, h4, h5, h3.agg, h3.out]
    rcases g3 with ⟨g3, g4⟩ | ⟨g3, _, g4, g5⟩
    · exact .inl ⟨g3, g4⟩
    · exact .inr ⟨g4, g3, g5⟩

end Lightway
