import Verif.Proofs.Trav5
import Verif.Proofs.Recv

/-!
# Session identifiers while received data is processed
Before the header's session id is looked at, a server's ids stay, and a client's session id changes only by a
CONFIG_IPV4 message.
-/

namespace Lightway
open Spec

/-- Anything but the acknowledgement of a pending session. -/
def NotAck : Effect → Prop
  | .event .pendingSessionAcknowledged _ => False
  | _ => True

/-- Ids kept, and no acknowledgement. -/
structure KeepIds (c c' : Conn) : Prop where
  role : c'.isServer = c.isServer
  sess : c'.sessionId = c.sessionId
  pend : c'.pendingSessionId = c.pendingSessionId
  log : ∃ l, c'.log = l ++ c.log ∧ ∀ x ∈ l, NotAck x

theorem KeepIds.refl (c : Conn) : KeepIds c c := ⟨rfl, rfl, rfl, [], rfl, by simp⟩

theorem KeepIds.trans {a b c : Conn} (h : KeepIds a b) (g : KeepIds b c) : KeepIds a c := by
  obtain ⟨l1, e1, h1⟩ := h.log
  obtain ⟨l2, e2, h2⟩ := g.log
  refine ⟨g.role.trans h.role, g.sess.trans h.sess, g.pend.trans h.pend, l2 ++ l1, by rw [e2, e1]; simp, ?_⟩
  intro x hx
  rcases List.mem_append.mp hx with h | h
  · exact h2 x h
  · exact h1 x h

theorem KeepIds.emit (c : Conn) {e : Effect} (h : NotAck e) : KeepIds c (c.emit e) :=
  ⟨rfl, rfl, rfl, [e], rfl, by simpa using h⟩

/-- A change of other fields. -/
theorem KeepIds.upd {c c' : Conn} (h1 : c'.isServer = c.isServer := by rfl) (h2 : c'.sessionId = c.sessionId := by rfl)
    (h3 : c'.pendingSessionId = c.pendingSessionId := by rfl) (h4 : c'.log = c.log := by rfl) : KeepIds c c' :=
  ⟨h1, h2, h3, [], by rw [h4]; rfl, by simp⟩

theorem PFrame.keepIds {c c' : Conn} (h : PFrame c c') : KeepIds c c' := by
  obtain ⟨l, ps, sl, we, pm, pn, rfl, hl⟩ := h
  refine ⟨rfl, rfl, rfl, l, rfl, fun x hx => ?_⟩
  have := hl x hx
  cases x <;> simp_all [PEff, IoEff, NotAck]

theorem IoFrame.keepIds {c c' : Conn} (h : IoFrame c c') : KeepIds c c' := h.pFrame.keepIds

theorem sslDo_kids (env : Env) (c : Conn) (call : SslCall) : KeepIds c (sslDo env c call).1 := (sslDo_frame env c call).keepIds
theorem ioRun_kids (env : Env) (c : Conn) (io : List IoReq) : KeepIds c (ioRun env c io) := (ioRun_frame env c io).keepIds
theorem sendMessage_kids (env : Env) (c : Conn) (m : Bytes) : KeepIds c (sendMessage env c m).1 := (sendMessage_frame env c m).keepIds

theorem setState_kids (c : Conn) (s : ConnState) : KeepIds c (setState c s) := by
  unfold setState
  split
  · exact .refl c
  · exact ⟨rfl, rfl, rfl, [.state s c.cbs.stateChange], rfl, by simp [NotAck]⟩

theorem sslVer_kids (env : Env) (c : Conn) : KeepIds c (sslVer env c).1 := by
  unfold sslVer
  split
  · exact .refl c
  · exact .emit c trivial

theorem sendAuth_kids (env : Env) (c : Conn) : KeepIds c (sendAuth env c).1 := by
  unfold sendAuth
  split
  · exact .refl c
  · simp only
    have h := setState_kids c .authenticating
    generalize setState c .authenticating = d at h
    repeat' split
    all_goals first | exact h | exact h.trans (sendMessage_kids env d _)

theorem changeState_kids (env : Env) (c : Conn) (s : ConnState) : KeepIds c (changeState env c s) := by
  unfold changeState
  split
  · exact .refl c
  · simp only
    have h := setState_kids c s
    generalize setState c s = d at h
    split
    · exact h.trans (sendAuth_kids env d)
    · exact h

theorem updateTimeout_kids (env : Env) (c : Conn) : KeepIds c (updateTimeout env c) := by
  unfold updateTimeout
  split
  · exact .refl c
  · simp only
    have h1 := sslDo_kids env c .currentTimeout
    generalize sslDo env c .currentTimeout = q at h1 ⊢
    obtain ⟨c1, r1⟩ := q
    simp only at h1 ⊢
    have h2 := h1.trans (sslVer_kids env c1)
    generalize sslVer env c1 = q at h2 ⊢
    obtain ⟨c2, v⟩ := q
    simp only at h2 ⊢
    have fin : ∀ (d : Conn) (t : Int), KeepIds c d → KeepIds c
        (if d.cbs.nudgeTime = true ∧ (!d.nudgeTimerRunning) = true then
          { ({ d with wolfTimeout := t } : Conn).emit (.nudgeTime t) with nudgeTimerRunning := true }
        else { d with wolfTimeout := t }) := by
      intro d t h
      split
      · exact (h.trans (KeepIds.emit d (e := .nudgeTime t) trivial)).trans .upd
      · exact h.trans .upd
    by_cases hv : v ≠ .dtls12
    · have h3 := h2.trans (sslDo_kids env c2 .quickTimeout)
      simp only [hv, ne_eq, not_false_eq_true, if_true]
      exact fin _ _ (h3.trans (.emit _ trivial))
    · simp only [hv, if_false]
      exact fin _ _ (h2.trans (.emit _ trivial))

theorem renegotiateSsl_kids (env : Env) (c : Conn) : KeepIds c (renegotiateSsl env c).1 := by
  unfold renegotiateSsl
  simp only
  have h0 : KeepIds c { c with renegDue := false } := .upd
  generalize ({ c with renegDue := false } : Conn) = d at h0
  split
  · exact h0
  · have h1 := h0.trans (sslVer_kids env d)
    generalize sslVer env d = q at h1 ⊢
    obtain ⟨d1, v⟩ := q
    simp only at h1 ⊢
    have go : ∀ (d : Conn) (r : SslRes), KeepIds c d → KeepIds c
        (if r.ok = true then (generateEvent { d with renegInProgress := true } .renegStarted, RC.success)
        else match r.err with
        | .none | .wantRead | .wantWrite | .appDataReady =>
          (updateTimeout env (generateEvent { d with renegInProgress := true } .renegStarted), .success)
        | .secureReneg => (generateEvent { d with renegInProgress := true } .renegStarted, .secureRenegotiationError)
        | e => ({ generateEvent { d with renegInProgress := true } .renegStarted with wolfError := e }, .sslError)).1 := by
      intro d r h
      have h2 : KeepIds c (generateEvent { d with renegInProgress := true } .renegStarted) :=
        (h.trans (b := d) (c := { d with renegInProgress := true }) .upd).trans (KeepIds.emit _ trivial)
      generalize generateEvent { d with renegInProgress := true } .renegStarted = d2 at h2 ⊢
      split
      · exact h2
      · split
        · exact h2.trans (updateTimeout_kids env d2)
        · exact h2.trans (updateTimeout_kids env d2)
        · exact h2.trans (updateTimeout_kids env d2)
        · exact h2.trans (updateTimeout_kids env d2)
        · exact h2
        · exact h2.trans .upd
    split
    · have h2 := h1.trans (sslDo_kids env d1 .renegSupport)
      generalize sslDo env d1 .renegSupport = q at h2 ⊢
      obtain ⟨d2, s⟩ := q
      simp only at h2 ⊢
      split
      · exact h2
      · have h3 := h2.trans (sslDo_kids env d2 .rehandshake)
        generalize sslDo env d2 .rehandshake = q at h3 ⊢
        exact go q.1 q.2 h3
    · have h3 := h1.trans (sslDo_kids env d1 .updateKeys)
      generalize sslDo env d1 .updateKeys = q at h3 ⊢
      exact go q.1 q.2 h3

theorem renegTail_kids (env : Env) (c : Conn) : KeepIds c (renegTail env c).1 := by
  unfold renegTail
  split
  · exact .refl c
  · simp only
    have h1 := sslVer_kids env c
    generalize sslVer env c = q at h1 ⊢
    obtain ⟨c1, v⟩ := q
    simp only at h1 ⊢
    have fin : ∀ (d : Conn) (p : Bool), KeepIds c d → KeepIds c
        (updateTimeout env { (if (!p) = true then generateEvent d .renegCompleted else d) with renegInProgress := p }) := by
      intro d p h
      refine KeepIds.trans ?_ (updateTimeout_kids env _)
      cases p
      · exact (h.trans (KeepIds.emit d (e := .event .renegCompleted d.cbs.event) trivial)).trans .upd
      · exact h.trans .upd
    split
    · have h2 := h1.trans (sslDo_kids env c1 .renegPending)
      generalize sslDo env c1 .renegPending = q at h2 ⊢
      exact fin q.1 _ h2
    · have h2 := h1.trans (sslDo_kids env c1 .keyUpdateResponse)
      generalize sslDo env c1 .keyUpdateResponse = q at h2 ⊢
      obtain ⟨c2, r⟩ := q
      simp only at h2 ⊢
      split
      · exact h2.trans .upd
      · exact fin c2 _ h2

theorem egress_kids (c : Conn) (ch : Chain) (p : Bytes) (cap : Nat) : KeepIds c { c with log := (ch.egress c.log p cap).1 } := by
  obtain ⟨l, e, h⟩ := ch.egress_log c.log p cap
  refine ⟨rfl, rfl, rfl, l, e, fun x hx => ?_⟩
  obtain ⟨_, _, h⟩ := h x hx
  rw [h]; trivial

theorem internalHandleData_kids (c : Conn) (p : Bytes) : KeepIds c (internalHandleData c p).1 := by
  unfold internalHandleData
  simp only
  have h := egress_kids c c.insidePlugins p p.length
  generalize c.insidePlugins.egress c.log p p.length = r at h ⊢
  obtain ⟨l, q, rc⟩ := r
  simp only at h ⊢
  repeat' split
  all_goals first | exact h | exact h.trans (KeepIds.emit _ trivial)

theorem handleData_kids (c : Conn) (p : Bytes) : KeepIds c (handleData c p).1 := by
  unfold handleData
  simp only
  repeat' split
  all_goals first | exact .refl c | exact .emit c trivial | exact internalHandleData_kids c _

theorem handleDeprecated13_kids (c : Conn) (p : Bytes) : KeepIds c (handleDeprecated13 c p).1 := by
  unfold handleDeprecated13
  repeat' split
  all_goals first | exact .refl c | exact .emit c trivial | exact internalHandleData_kids c _

theorem frag_aux {c : Conn} (d : Conn) (p : Bytes) (f : Option FragTable) (h : KeepIds c d) :
    KeepIds c { (internalHandleData d p).1 with fragTable := f } := by
  have h2 := h.trans (internalHandleData_kids d p)
  generalize internalHandleData d p = q at h2 ⊢
  exact h2.trans .upd

theorem fragApply_kids (env : Env) (c : Conn) (t : FragTable) (en : FragEntry) (id off : Nat) (last : Bool) (d : Bytes) :
    KeepIds c (fragApply env c t en id off last d).1 := by
  unfold fragApply
  simp only
  have h := KeepIds.emit c (e := .clock (env.now c.log)) trivial
  generalize env.now c.log = now at h ⊢
  generalize c.emit (.clock now) = c1 at h ⊢
  split
  · exact h.trans (.emit _ trivial)
  · split
    · exact h.trans .upd
    · split
      · split
        · exact (h.trans (b := c1) .upd).trans (.emit _ trivial)
        · split
          · exact (h.trans (b := c1) .upd).trans (.emit _ trivial)
          · exact frag_aux _ _ _ (h.trans (b := c1) .upd)
      · exact h.trans .upd

theorem fragReceive_kids (env : Env) (c : Conn) (id off : Nat) (last : Bool) (d : Bytes) :
    KeepIds c (fragReceive env c id off last d).1 := by
  unfold fragReceive
  split
  · exact .refl c
  · rename_i t ht
    simp only
    have h1 : KeepIds c (if (t.slot (id % t.num)).isNone then c.emit (.alloc (env.alloc c.log)) else c) := by
      split
      · exact .emit c trivial
      · exact .refl c
    generalize (if (t.slot (id % t.num)).isNone then c.emit (.alloc (env.alloc c.log)) else c) = c1 at h1 ⊢
    have h2 : KeepIds c (if ((t.slot (id % t.num)).isNone && env.alloc c.log) then c1.emit (.clock (env.now c1.log)) else c1) := by
      split
      · exact h1.trans (.emit c1 trivial)
      · exact h1
    generalize (if ((t.slot (id % t.num)).isNone && env.alloc c.log) then c1.emit (.clock (env.now c1.log)) else c1) = c2 at h2 ⊢
    split
    · exact h2.trans .upd
    · exact (h2.trans (b := c2) .upd).trans (fragApply_kids ..)

theorem handleDataFrag_kids (env : Env) (c : Conn) (p : Bytes) : KeepIds c (handleDataFrag env c p).1 := by
  unfold handleDataFrag
  simp only
  repeat' split
  all_goals first | exact .refl c | exact .emit c trivial | exact fragReceive_kids ..

theorem handlePing_kids (env : Env) (c : Conn) (p : Bytes) : KeepIds c (handlePing env c p).1 := by
  unfold handlePing
  repeat' split
  all_goals first | exact .refl c | exact .emit c trivial | exact sendMessage_kids ..

theorem handlePong_kids (env : Env) (c : Conn) (p : Bytes) : KeepIds c (handlePong env c p).1 := by
  unfold handlePong
  repeat' split
  all_goals first | exact .refl c | exact .emit c trivial | exact (handleProbeAck_frame env c _).keepIds

theorem handleServerConfig_kids (env : Env) (c : Conn) (p : Bytes) : KeepIds c (handleServerConfig env c p).1 := by
  unfold handleServerConfig
  simp only
  repeat' split
  all_goals first | exact .refl c | exact .emit c trivial

/-- As `KeepIds`, for the outcome of the authentication switch. -/
def AuthKeep (c : Conn) : AuthOut → Prop
  | .ret d _ _ => KeepIds c d
  | .verdict d _ _ _ => KeepIds c d

theorem authSwitch_kids (env : Env) (c : Conn) (p : Bytes) (ty : UInt8) : AuthKeep c (authSwitch env c p ty) := by
  unfold authSwitch
  simp only
  repeat' split
  all_goals first
    | exact KeepIds.refl c
    | exact KeepIds.emit c trivial
    | exact (KeepIds.emit c (e := .authUserPass _ _ _) trivial).trans .upd

theorem handleAuth_kids (env : Env) (c : Conn) (p : Bytes) : KeepIds c (handleAuth env c p).1 := by
  show KeepIds c (handleAuthBuf env c p).1
  unfold handleAuthBuf sendAuthDenied
  simp only
  split
  · exact .refl c
  split
  · exact .refl c
  split
  · exact .refl c
  split
  · exact .refl c
  split
  · rename_i ty _
    have h := authSwitch_kids env c p ty
    split
    · rename_i e; rw [e] at h; exact h
    · rename_i d ok rc pkt e
      rw [e] at h
      split
      · exact (h.trans (sendMessage_kids env d _)).trans (setState_kids _ _)
      · have h2 := h.trans (KeepIds.emit d (e := .populate (env.populate d.log).1) trivial)
        generalize d.emit (.populate (env.populate d.log).1) = d2 at h2 ⊢
        split
        · exact h2.trans (sendMessage_kids env d2 _)
        · exact (h2.trans (sendMessage_kids env d2 _)).trans (setState_kids _ _)
  · exact .emit c trivial

/-- What a CONFIG_IPV4 message may change. -/
theorem handleConfigIpv4_ids (env : Env) (c : Conn) (p : Bytes) :
    KeepIds c (handleConfigIpv4 env c p).1 ∨
    (c.isServer = false ∧ c.state = .authenticating ∧ 105 ≤ p.length ∧
      KeepIds { c with sessionId := rdLe (field p 97 8) } (handleConfigIpv4 env c p).1) := by
  unfold handleConfigIpv4
  split
  · exact .inl (.refl c)
  split
  · exact .inl (.refl c)
  rename_i hr
  obtain ⟨hr, hs⟩ := not_or.mp hr
  split
  · exact .inl (.refl c)
  rename_i hl
  split
  · rename_i l pp d m s _ _ _ _ _ hs97 _
    right
    refine ⟨by simpa using hr, by simpa using hs, by omega, ?_⟩
    have hse : s = field p 97 8 := by
      rw [rd_isSome (by omega)] at hs97
      simp only [Option.some.injEq] at hs97
      exact hs97.symm
    subst hse
    simp only
    have h1 := setState_kids { c with sessionId := rdLe (field p 97 8) } .configuring
    generalize setState { c with sessionId := rdLe (field p 97 8) } .configuring = d1 at h1 ⊢
    split
    · split
      · exact h1.trans (.emit _ trivial)
      · exact (h1.trans (.emit d1 (by trivial))).trans (setState_kids _ _)
    · exact h1.trans (setState_kids _ _)
  · exact .inl (.emit c trivial)

/-- Ids kept, except that a client may have learnt its session id from a CONFIG_IPV4 message. -/
structure ConfigIds (c c' : Conn) : Prop where
  role : c'.isServer = c.isServer
  pend : c'.pendingSessionId = c.pendingSessionId
  log : ∃ l, c'.log = l ++ c.log ∧ (∀ x ∈ l, NotAck x) ∧
    (c'.sessionId = c.sessionId ∨ (c.isServer = false ∧ ∃ pkt, .message pkt ∈ l ∧ pkt.head? = some 6 ∧ 105 ≤ pkt.length ∧
      c'.sessionId = rdLe (field pkt 97 8)))

theorem KeepIds.config {c c' : Conn} (h : KeepIds c c') : ConfigIds c c' := by
  obtain ⟨l, e, hl⟩ := h.log
  exact ⟨h.role, h.pend, l, e, hl, .inl h.sess⟩

theorem ConfigIds.trans {a b c : Conn} (h : ConfigIds a b) (g : ConfigIds b c) : ConfigIds a c := by
  obtain ⟨l1, e1, h1, s1⟩ := h.log
  obtain ⟨l2, e2, h2, s2⟩ := g.log
  refine ⟨g.role.trans h.role, g.pend.trans h.pend, l2 ++ l1, by rw [e2, e1]; simp, ?_, ?_⟩
  · intro x hx
    rcases List.mem_append.mp hx with h | h
    · exact h2 x h
    · exact h1 x h
  · rcases s2 with s2 | ⟨r2, pkt, m2, k2⟩
    · rcases s1 with s1 | ⟨r1, pkt, m1, k1, k2, k3⟩
      · exact .inl (s2.trans s1)
      · exact .inr ⟨r1, pkt, by simp [m1], k1, k2, s2.trans k3⟩
    · exact .inr ⟨h.role ▸ r2, pkt, by simp [m2], k2⟩

/-- Processing a message that was just recorded. -/
theorem processMessage_ids (env : Env) (c : Conn) (p : Bytes) :
    KeepIds c (processMessage env c p).1 ∨
    (c.isServer = false ∧ p.head? = some 6 ∧ 105 ≤ p.length ∧
      KeepIds { c with sessionId := rdLe (field p 97 8) } (processMessage env c p).1) := by
  unfold processMessage
  split
  · exact .inl .upd
  · rename_i id rest
    have hd : (id :: rest).head? = some id := rfl
    generalize id :: rest = p at hd ⊢
    by_cases h : id = msgNoop
    · rw [if_pos h]
      exact .inl (.refl c)
    rw [if_neg h]; clear h
    by_cases h : id = msgPing
    · rw [if_pos h]
      exact .inl (handlePing_kids env c _)
    rw [if_neg h]; clear h
    by_cases h : id = msgPong
    · rw [if_pos h]
      exact .inl (handlePong_kids env c _)
    rw [if_neg h]; clear h
    by_cases h : id = msgAuth
    · rw [if_pos h]
      split
      · exact .inl (handleAuth_kids env c _)
      · exact .inl (.refl c)
    rw [if_neg h]; clear h
    by_cases h : id = msgData
    · rw [if_pos h]
      exact .inl (handleData_kids c _)
    rw [if_neg h]; clear h
    by_cases h : id = msgConfigIpv4
    · rw [if_pos h]
      split
      · rcases handleConfigIpv4_ids env c p with g | ⟨h1, h2, h3, h4⟩
        · exact .inl g
        · exact .inr ⟨h1, by rw [hd, h]; rfl, h3, h4⟩
      · exact .inl (.refl c)
    rw [if_neg h]; clear h
    by_cases h : id = msgAuthResponse
    · rw [if_pos h]
      split <;> exact .inl (.refl c)
    rw [if_neg h]; clear h
    by_cases h : id = msgAuthResponseWithConfig
    · rw [if_pos h]
      exact .inl (.refl c)
    rw [if_neg h]; clear h
    by_cases h : id = msgGoodbye
    · rw [if_pos h]
      exact .inl (.refl c)
    rw [if_neg h]; clear h
    by_cases h : id = msgExtension
    · rw [if_pos h]
      exact .inl (.refl c)
    rw [if_neg h]; clear h
    by_cases h : id = msgDeprecated13
    · rw [if_pos h]
      exact .inl (handleDeprecated13_kids c _)
    rw [if_neg h]; clear h
    by_cases h : id = msgServerConfig
    · rw [if_pos h]
      split
      · exact .inl (handleServerConfig_kids env c _)
      · exact .inl (.refl c)
    rw [if_neg h]; clear h
    by_cases h : id = msgDataWithFrag
    · rw [if_pos h]
      exact .inl (handleDataFrag_kids env c _)
    rw [if_neg h]; clear h
    exact .inl (.refl c)

theorem message_ids (env : Env) (c : Conn) (p : Bytes) : ConfigIds c (processMessage env (c.emit (.message p)) p).1 := by
  rcases processMessage_ids env (c.emit (.message p)) p with h | ⟨h1, h2, h3, h4⟩
  · exact ((KeepIds.emit c (by trivial)).trans h).config
  · obtain ⟨l, e, hl⟩ := h4.log
    refine ⟨h4.role, h4.pend, l ++ [.message p], ?_, ?_, .inr ⟨h1, p, by simp, h2, h3, h4.sess⟩⟩
    · rw [e]; simp [Conn.emit]
    · intro x hx
      rcases List.mem_append.mp hx with h | h
      · exact hl x h
      · rw [List.mem_singleton.mp h]; trivial

theorem messageLoop_ids (env : Env) (c : Conn) (reads : List ReadRes) : ConfigIds c (messageLoop env c reads).1 := by
  induction reads generalizing c with
  | nil =>
    unfold messageLoop
    split
    · exact (KeepIds.emit c (by trivial)).config
    · exact ((KeepIds.emit c (e := .sslCall .read false) trivial).trans .upd).config
  | cons r rest ih =>
    unfold messageLoop
    split
    · exact ((KeepIds.emit c (e := .sslCall .read false) trivial).trans .upd).config
    · simp only
      have h1 := (KeepIds.emit c (e := .sslCall .read (!(r.plain.take maxWireMtu).isEmpty)) trivial).trans (ioRun_kids env _ r.io)
      generalize ioRun env (c.emit (.sslCall .read (!(r.plain.take maxWireMtu).isEmpty))) r.io = d at h1 ⊢
      split
      · split
        · exact h1.config
        · exact h1.config
        · exact h1.config
        · exact h1.config.trans (ih d)
        · split
          · exact h1.config
          · exact (h1.trans .upd).config
      · have h2 := h1.config.trans (message_ids env d (r.plain.take maxWireMtu))
        generalize processMessage env (d.emit (.message (r.plain.take maxWireMtu))) (r.plain.take maxWireMtu) = q at h2 ⊢
        obtain ⟨d2, rc⟩ := q
        simp only at h2 ⊢
        split
        · exact h2
        · exact h2.trans (ih d2)

theorem handleMessages_ids (env : Env) (c : Conn) (reads : List ReadRes) : ConfigIds c (handleMessages env c reads).1 := by
  unfold handleMessages
  have h1 := messageLoop_ids env c reads
  generalize messageLoop env c reads = q at h1 ⊢
  obtain ⟨d, o⟩ := q
  cases o with
  | some rc => exact h1
  | none =>
    simp only at h1 ⊢
    split
    · have h2 := h1.trans (renegotiateSsl_kids env d).config
      generalize renegotiateSsl env d = q at h2 ⊢
      obtain ⟨d2, rc⟩ := q
      simp only at h2 ⊢
      split
      · exact h2
      · exact h2.trans (renegTail_kids env d2).config
    · exact h1.trans (renegTail_kids env d).config

/-- Everything a receive call does before it looks at the header's session id. -/
theorem verifyConnection_ids (env : Env) (c : Conn) (reads : List ReadRes) : ConfigIds c (verifyConnection env c reads).1 := by
  unfold verifyConnection
  simp only
  have h0 : KeepIds c (if (!c.firstMessageReceived) = true then
      generateEvent { c with firstMessageReceived := true } .firstMessageReceived else c) := by
    split
    · exact (KeepIds.upd (c := c) (c' := { c with firstMessageReceived := true })).trans (.emit _ trivial)
    · exact .refl c
  generalize (if (!c.firstMessageReceived) = true then
      generateEvent { c with firstMessageReceived := true } .firstMessageReceived else c) = d at h0 ⊢
  split
  · have h1 := h0.trans (sslDo_kids env d .negotiate)
    generalize sslDo env d .negotiate = q at h1 ⊢
    obtain ⟨d1, r⟩ := q
    simp only at h1 ⊢
    split
    · split
      · split
        · exact h1.config
        · split
          · exact h1.config
          · exact (h1.trans .upd).config
      · simp only
        split
        · exact (h1.trans (updateTimeout_kids env d1)).config
        · exact h1.config
    · exact (h1.trans (changeState_kids env d1 _)).config.trans (handleMessages_ids env _ reads)
  · exact h0.config.trans (handleMessages_ids env d reads)

end Lightway
