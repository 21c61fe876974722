import Verif.Proofs.Sizes

/-!
# Receiving one decrypted message through the API
`recv_one` connects `he_conn_outside_data_received`, when the TLS library yields one message, with the
processing of that message.
-/

namespace Lightway
open Spec

/-- Effects around the processing of a message: I/O, TLS calls other than writing, bookkeeping events. -/
def TailEff : Effect → Prop
  | .sslCall (.write _) _ => False
  | .sslCall .. | .sslOut .. | .sslIn .. | .outsideWrite .. | .pluginEgress .. | .pluginIngress ..
  | .nudgeTime _ | .timer _ | .event .renegStarted _ | .event .renegCompleted _
  | .event .pendingSessionAcknowledged _ | .event .firstMessageReceived _ | .ub _ | .api _ | .ret _ | .input .. => True
  | _ => False

theorem CbIo.tail {e : Effect} (h : CbIo e) : TailEff e := by cases e <;> simp_all [CbIo, TailEff]

/-- What can change before the message is processed. -/
def RFrame (c c' : Conn) : Prop :=
  ∃ l inc ps sl we fm, c' = { c with
      log := l ++ c.log, incoming := inc, packetSeen := ps, streamLeft := sl,
      wolfError := we, firstMessageReceived := fm } ∧ ∀ x ∈ l, TailEff x

/-- What can change after it was processed. -/
def TFrame (c c' : Conn) : Prop :=
  ∃ l inc ps sl we fm wt nt rip rd sid psid, c' = { c with
      log := l ++ c.log, incoming := inc, packetSeen := ps,
      streamLeft := sl, wolfError := we, firstMessageReceived := fm, wolfTimeout := wt, nudgeTimerRunning := nt,
      renegInProgress := rip, renegDue := rd, sessionId := sid, pendingSessionId := psid } ∧ ∀ x ∈ l, TailEff x

theorem RFrame.refl (c : Conn) : RFrame c c :=
  ⟨[], c.incoming, c.packetSeen, c.streamLeft, c.wolfError, c.firstMessageReceived, rfl, by simp [TailEff]⟩

theorem RFrame.trans {a b c : Conn} (h1 : RFrame a b) (h2 : RFrame b c) : RFrame a c := by
  obtain ⟨l1, _, _, _, _, _, rfl, e1⟩ := h1
  obtain ⟨l2, i, p, s, w, f, rfl, e2⟩ := h2
  refine ⟨l2 ++ l1, i, p, s, w, f, by simp, ?_⟩
  intro x hx
  rcases List.mem_append.mp hx with h | h
  · exact e2 x h
  · exact e1 x h

theorem TFrame.trans {a b c : Conn} (h1 : TFrame a b) (h2 : TFrame b c) : TFrame a c := by
  obtain ⟨l1, _, _, _, _, _, _, _, _, _, _, _, rfl, e1⟩ := h1
  obtain ⟨l2, i, p, s, w, f, wt, nt, rip, rd, sid, psid, rfl, e2⟩ := h2
  refine ⟨l2 ++ l1, i, p, s, w, f, wt, nt, rip, rd, sid, psid, by simp, ?_⟩
  intro x hx
  rcases List.mem_append.mp hx with h | h
  · exact e2 x h
  · exact e1 x h

theorem RFrame.tFrame {c c' : Conn} (h : RFrame c c') : TFrame c c' := by
  obtain ⟨l, i, p, s, w, f, rfl, e⟩ := h
  exact ⟨l, i, p, s, w, f, c.wolfTimeout, c.nudgeTimerRunning, c.renegInProgress, c.renegDue, c.sessionId,
    c.pendingSessionId, rfl, e⟩

theorem TFrame.refl (c : Conn) : TFrame c c := (RFrame.refl c).tFrame

theorem RFrame.emit (c : Conn) {e : Effect} (h : TailEff e) : RFrame c (c.emit e) :=
  ⟨[e], c.incoming, c.packetSeen, c.streamLeft, c.wolfError, c.firstMessageReceived, rfl, by simpa using h⟩

theorem ioRun_r (env : Env) (c : Conn) (io : List IoReq) : RFrame c (ioRun env c io) := by
  obtain ⟨l, ps, sl, we, e, _⟩ := ioRun_frame env c io
  obtain ⟨l', e', h'⟩ := ioRun_cbExt env c io
  have : l' = l := by rw [e] at e'; exact (List.append_cancel_right e').symm
  subst this
  exact ⟨l', c.incoming, ps, sl, we, c.firstMessageReceived, e, fun x hx => (h' x hx).tail⟩

theorem sslDo_r (env : Env) (c : Conn) (call : SslCall) (h : ∀ m, call ≠ .write m) :
    RFrame c (sslDo env c call).1 := by
  refine (RFrame.emit c (e := .sslCall call _) ?_).trans (ioRun_r env _ _)
  cases call <;> first | trivial | exact absurd rfl (h _)

theorem sslVer_r (env : Env) (c : Conn) : RFrame c (sslVer env c).1 := by
  unfold sslVer
  split
  · exact .refl c
  · exact .emit c trivial

theorem updateTimeout_t (env : Env) (c : Conn) : TFrame c (updateTimeout env c) := by
  unfold updateTimeout
  split
  · exact .refl c
  simp only
  have h1 := sslDo_r env c .currentTimeout (by simp)
  generalize sslDo env c .currentTimeout = q at h1 ⊢
  obtain ⟨c1, r⟩ := q
  simp only at h1 ⊢
  have h2 := h1.trans (sslVer_r env c1)
  generalize sslVer env c1 = q at h2 ⊢
  obtain ⟨c2, v⟩ := q
  simp only at h2 ⊢
  have h3 : RFrame c (if v ≠ .dtls12 then
        let q := sslDo env c2 .quickTimeout
        (q.1, if q.2.ok then (r.val * 100).tdiv 4 else r.val * 100)
      else (c2, r.val * 100)).1 := by
    split
    · exact h2.trans (sslDo_r env c2 .quickTimeout (by simp))
    · exact h2
  generalize (if v ≠ .dtls12 then
        let q := sslDo env c2 .quickTimeout
        (q.1, if q.2.ok then (r.val * 100).tdiv 4 else r.val * 100)
      else (c2, r.val * 100)) = q at h3 ⊢
  obtain ⟨c3, t⟩ := q
  simp only at h3 ⊢
  split
  · refine h3.tFrame.trans ⟨[.nudgeTime t, .timer t], c3.incoming, c3.packetSeen, c3.streamLeft, c3.wolfError, c3.firstMessageReceived,
      t, true, c3.renegInProgress, c3.renegDue, c3.sessionId, c3.pendingSessionId, rfl, by simp [TailEff]⟩
  · refine h3.tFrame.trans ⟨[.timer t], c3.incoming, c3.packetSeen, c3.streamLeft, c3.wolfError, c3.firstMessageReceived,
      t, c3.nudgeTimerRunning, c3.renegInProgress, c3.renegDue, c3.sessionId, c3.pendingSessionId, rfl, by simp [TailEff]⟩

theorem TFrame.err (c : Conn) (e : SslErr) : TFrame c { c with wolfError := e } :=
  RFrame.tFrame ⟨[], c.incoming, c.packetSeen, c.streamLeft, e, c.firstMessageReceived, rfl, by simp [TailEff]⟩

theorem renegGo_t (env : Env) (c : Conn) (r : SslRes) :
    TFrame c (if r.ok then
        (generateEvent { c with renegInProgress := true } .renegStarted, RC.success)
      else
        match r.err with
        | .none | .wantRead | .wantWrite | .appDataReady =>
          (updateTimeout env (generateEvent { c with renegInProgress := true } .renegStarted), .success)
        | .secureReneg => (generateEvent { c with renegInProgress := true } .renegStarted, .secureRenegotiationError)
        | e => ({ generateEvent { c with renegInProgress := true } .renegStarted with wolfError := e }, .sslError)).1 := by
  have h : TFrame c (generateEvent { c with renegInProgress := true } .renegStarted) :=
    ⟨[.event .renegStarted c.cbs.event], c.incoming, c.packetSeen, c.streamLeft, c.wolfError, c.firstMessageReceived,
      c.wolfTimeout, c.nudgeTimerRunning, true, c.renegDue, c.sessionId, c.pendingSessionId, rfl, by simp [TailEff]⟩
  generalize generateEvent { c with renegInProgress := true } .renegStarted = c1 at h ⊢
  split
  · exact h
  · split
    · exact h.trans (updateTimeout_t env c1)
    · exact h.trans (updateTimeout_t env c1)
    · exact h.trans (updateTimeout_t env c1)
    · exact h.trans (updateTimeout_t env c1)
    · exact h
    · exact h.trans (.err c1 _)

theorem renegotiateSsl_t (env : Env) (c : Conn) : TFrame c (renegotiateSsl env c).1 := by
  unfold renegotiateSsl
  simp only
  have h0 : TFrame c { c with renegDue := false } :=
    ⟨[], c.incoming, c.packetSeen, c.streamLeft, c.wolfError, c.firstMessageReceived,
      c.wolfTimeout, c.nudgeTimerRunning, c.renegInProgress, false, c.sessionId, c.pendingSessionId, rfl, by simp [TailEff]⟩
  split
  · exact h0
  · generalize ({ c with renegDue := false } : Conn) = c0 at h0 ⊢
    have h1 := h0.trans (sslVer_r env c0).tFrame
    generalize sslVer env c0 = q at h1 ⊢
    obtain ⟨c1, v⟩ := q
    simp only at h1 ⊢
    split
    · have h2 := h1.trans (sslDo_r env c1 .renegSupport (by simp)).tFrame
      generalize sslDo env c1 .renegSupport = q at h2 ⊢
      obtain ⟨c2, s⟩ := q
      simp only at h2 ⊢
      split
      · exact h2
      · have h3 := h2.trans (sslDo_r env c2 .rehandshake (by simp)).tFrame
        generalize sslDo env c2 .rehandshake = q at h3 ⊢
        obtain ⟨c3, r⟩ := q
        exact h3.trans (renegGo_t env c3 r)
    · have h3 := h1.trans (sslDo_r env c1 .updateKeys (by simp)).tFrame
      generalize sslDo env c1 .updateKeys = q at h3 ⊢
      obtain ⟨c3, r⟩ := q
      exact h3.trans (renegGo_t env c3 r)

theorem renegFin_t (env : Env) (c : Conn) (pending : Bool) :
    TFrame c (updateTimeout env { (if !pending then generateEvent c .renegCompleted else c) with
      renegInProgress := pending }) := by
  refine TFrame.trans ?_ (updateTimeout_t env _)
  cases pending
  · exact ⟨[.event .renegCompleted c.cbs.event], c.incoming, c.packetSeen, c.streamLeft, c.wolfError, c.firstMessageReceived,
      c.wolfTimeout, c.nudgeTimerRunning, false, c.renegDue, c.sessionId, c.pendingSessionId, rfl, by simp [TailEff]⟩
  · exact ⟨[], c.incoming, c.packetSeen, c.streamLeft, c.wolfError, c.firstMessageReceived,
      c.wolfTimeout, c.nudgeTimerRunning, true, c.renegDue, c.sessionId, c.pendingSessionId, rfl, by simp [TailEff]⟩

theorem renegTail_t (env : Env) (c : Conn) : TFrame c (renegTail env c).1 := by
  unfold renegTail
  split
  · exact .refl c
  · simp only
    have h1 := (sslVer_r env c).tFrame
    generalize sslVer env c = q at h1 ⊢
    obtain ⟨c1, v⟩ := q
    simp only at h1 ⊢
    split
    · have h2 := h1.trans (sslDo_r env c1 .renegPending (by simp)).tFrame
      generalize sslDo env c1 .renegPending = q at h2 ⊢
      obtain ⟨c2, r⟩ := q
      exact h2.trans (renegFin_t env c2 _)
    · have h2 := h1.trans (sslDo_r env c1 .keyUpdateResponse (by simp)).tFrame
      generalize sslDo env c1 .keyUpdateResponse = q at h2 ⊢
      obtain ⟨c2, r⟩ := q
      simp only at h2 ⊢
      split
      · exact h2.trans (.err c2 _)
      · exact h2.trans (renegFin_t env c2 _)

theorem updateSessionIncoming_t (c : Conn) (s : Nat) : TFrame c (updateSessionIncoming c s).1 := by
  unfold updateSessionIncoming
  split
  · exact .refl c
  · split
    · split
      · exact .refl c
      · split
        · exact ⟨[.event .pendingSessionAcknowledged c.cbs.event], c.incoming, c.packetSeen, c.streamLeft, c.wolfError,
            c.firstMessageReceived, c.wolfTimeout, c.nudgeTimerRunning, c.renegInProgress, c.renegDue, s, sessionEmpty,
            rfl, by simp [TailEff]⟩
        · exact .refl c
    · exact ⟨[], c.incoming, c.packetSeen, c.streamLeft, c.wolfError,
            c.firstMessageReceived, c.wolfTimeout, c.nudgeTimerRunning, c.renegInProgress, c.renegDue, s, c.pendingSessionId,
            rfl, by simp [TailEff]⟩

/-- The connection accepts these bytes as input for the TLS layer: they pass the host's outside plugins,
and then the datagram header is right, or no stream bytes are left over. -/
def Accepts (c : Conn) (buf : Bytes) : Prop :=
  ∃ log p, c.outsidePlugins.ingress c.log buf buf.length = (log, p, .success) ∧ p.length ≤ buf.length ∧
    match c.connType with
    | .datagram => 16 ≤ p.length ∧ p.take 2 = [72, 101] ∧ field p 2 2 = [c.verMajor, c.verMinor] ∧
        rdLe (field p 8 8) ≠ 2 ^ 64 - 1
    | .stream => c.streamLeft = []

/-- States in which he_conn_outside_data_received reads messages without negotiating first. -/
def Reading (c : Conn) : Prop :=
  c.wolfSet = true ∧ c.state ≠ .connecting ∧ c.state ≠ .disconnecting ∧ c.state ≠ .disconnected

/-- How the rest of the call continues after message processing returned `q`. -/
def RecvPost (q s : Conn × RC) : Prop :=
  TFrame q.1 s.1 ∧ (q.2 ≠ .success → s.2 = q.2)

theorem messageLoop_one (env : Env) (c : Conn) (r : ReadRes) (hw : c.wolfSet = true)
    (hm : r.plain ≠ []) (hl : r.plain.length ≤ 1500) :
    ∃ d, RFrame c d ∧
      ((processMessage env (d.emit (.message r.plain)) r.plain).2 ≠ .success ∧
        messageLoop env c [r] = ((processMessage env (d.emit (.message r.plain)) r.plain).1,
          some (processMessage env (d.emit (.message r.plain)) r.plain).2) ∨
       (processMessage env (d.emit (.message r.plain)) r.plain).2 = .success ∧
        RFrame (processMessage env (d.emit (.message r.plain)) r.plain).1 (messageLoop env c [r]).1) := by
  have htk : r.plain.take maxWireMtu = r.plain := List.take_of_length_le (by simpa [maxWireMtu] using hl)
  refine ⟨ioRun env (c.emit (.sslCall .read true)) r.io, (RFrame.emit c (e := .sslCall .read true) trivial).trans (ioRun_r env _ _), ?_⟩
  have hne : r.plain.isEmpty = false := by cases h : r.plain <;> simp_all
  unfold messageLoop
  rw [htk]
  simp only [hw, Bool.not_true, Bool.false_eq_true, if_false, hne, Bool.not_false]
  generalize processMessage env _ r.plain = q
  obtain ⟨c1, rc⟩ := q
  simp only
  by_cases h : rc = .success
  · right
    refine ⟨h, ?_⟩
    rw [if_neg (by simp [h])]
    unfold messageLoop
    split
    · exact .emit c1 trivial
    · exact (RFrame.emit c1 (e := .sslCall .read false) trivial).trans
        ⟨[], _, _, _, _, _, rfl, by simp [TailEff]⟩
  · left
    exact ⟨h, by rw [if_pos h]⟩

theorem handleMessages_one (env : Env) (c : Conn) (r : ReadRes) (hw : c.wolfSet = true)
    (hm : r.plain ≠ []) (hl : r.plain.length ≤ 1500) :
    ∃ d, RFrame c d ∧ RecvPost (processMessage env (d.emit (.message r.plain)) r.plain) (handleMessages env c [r]) := by
  obtain ⟨d, hd, h⟩ := messageLoop_one env c r hw hm hl
  refine ⟨d, hd, ?_⟩
  unfold handleMessages
  generalize processMessage env (d.emit (.message r.plain)) r.plain = q at h ⊢
  rcases h with ⟨h1, h2⟩ | ⟨h1, h2⟩
  · rw [h2]
    exact ⟨.refl _, fun _ => rfl⟩
  · refine ⟨h2.tFrame.trans ?_, fun h => absurd h1 h⟩
    generalize messageLoop env c [r] = q2
    obtain ⟨c2, o⟩ := q2
    cases o with
    | some rc => exact .refl _
    | none =>
      simp only
      split
      · have h3 := renegotiateSsl_t env c2
        generalize renegotiateSsl env c2 = q3 at h3 ⊢
        obtain ⟨c3, rc⟩ := q3
        simp only at h3 ⊢
        split
        · exact h3
        · exact h3.trans (renegTail_t env c3)
      · exact renegTail_t env c2

theorem verifyConnection_one (env : Env) (c : Conn) (r : ReadRes) (hs : Reading c)
    (hm : r.plain ≠ []) (hl : r.plain.length ≤ 1500) :
    ∃ d, RFrame c d ∧ RecvPost (processMessage env (d.emit (.message r.plain)) r.plain) (verifyConnection env c [r]) := by
  unfold verifyConnection
  have h0 : RFrame c (if !c.firstMessageReceived then
      generateEvent { c with firstMessageReceived := true } .firstMessageReceived else c) := by
    split
    · exact ⟨[.event .firstMessageReceived c.cbs.event], c.incoming, c.packetSeen, c.streamLeft, c.wolfError, true, rfl,
        by simp [TailEff]⟩
    · exact .refl c
  simp only
  generalize (if !c.firstMessageReceived then
      generateEvent { c with firstMessageReceived := true } .firstMessageReceived else c) = c1 at h0 ⊢
  have hc1 : c1.state = c.state ∧ c1.wolfSet = c.wolfSet := by
    obtain ⟨l, i, p, s, w, f, rfl, e⟩ := h0; exact ⟨rfl, rfl⟩
  rw [if_neg (by rw [hc1.1]; exact hs.2.1)]
  obtain ⟨d, hd, h⟩ := handleMessages_one env c1 r (by rw [hc1.2]; exact hs.1) hm hl
  exact ⟨d, h0.trans hd, h⟩

/-- One decrypted message through `he_conn_outside_data_received`. -/
theorem recv_one (env : Env) (c : Conn) (buf : Bytes) (r : ReadRes) (hs : Reading c)
    (hacc : Accepts (c.emit (.api .outsideData)) buf) (hm : r.plain ≠ []) (hl : r.plain.length ≤ 1500) :
    ∃ d, RFrame c d ∧ RecvPost (processMessage env (d.emit (.message r.plain)) r.plain)
      (step env c (.outsideData buf [r])) := by
  have h0 : RFrame c (c.emit (.api .outsideData)) := .emit c trivial
  have hs0 : Reading (c.emit (.api .outsideData)) := hs
  suffices ∀ c : Conn, Reading c → Accepts c buf → ∃ d, RFrame c d ∧
      RecvPost (processMessage env (d.emit (.message r.plain)) r.plain) (outsideData env c buf [r]) by
    obtain ⟨d, hd, h⟩ := this _ hs0 hacc
    refine ⟨d, h0.trans hd, ?_⟩
    show RecvPost _ ((outsideData env (c.emit (.api .outsideData)) buf [r]).1.emit _, _)
    exact ⟨h.1.trans (RFrame.emit _ (e := .ret _) trivial).tFrame, h.2⟩
  clear h0 hs0 hs hacc c
  intro c hs hacc
  obtain ⟨log, p, hin, hpl, hacc⟩ := hacc
  unfold outsideData
  rw [if_neg (by simp [hs.2.2.1, hs.2.2.2])]
  have h1 : RFrame c { c with log := log } := by
    obtain ⟨l, e, hl⟩ := ingress_cbExt c c.outsidePlugins buf buf.length
    rw [hin] at e
    exact ⟨l, c.incoming, c.packetSeen, c.streamLeft, c.wolfError, c.firstMessageReceived, by rw [← e], fun x hx => (hl x hx).tail⟩
  simp only [hin]
  rw [if_neg (by simp), if_neg (by simp), if_neg (by omega)]
  have f : ({ c with log := log } : Conn).connType = c.connType ∧ ({ c with log := log } : Conn).verMajor = c.verMajor ∧
    ({ c with log := log } : Conn).verMinor = c.verMinor ∧ ({ c with log := log } : Conn).streamLeft = c.streamLeft :=
    ⟨rfl, rfl, rfl, rfl⟩
  have hr : Reading { c with log := log } := hs
  generalize ({ c with log := log } : Conn) = c1 at f h1 hr ⊢
  rw [← f.1, ← f.2.1, ← f.2.2.1, ← f.2.2.2] at hacc
  rw [← f.1]
  clear hs f hin
  split
  · rename_i hct
    rw [hct] at hacc
    obtain ⟨a1, a2, a3, a4⟩ := hacc
    unfold outsidePacket
    rw [if_neg (by omega), rd_isSome (by omega), rd_isSome (by omega), rd_isSome (by omega), rd_isSome (by omega)]
    simp only
    rw [if_neg (by rw [List.drop_zero]; exact fun h => h a2), if_neg (fun h => h a3), if_neg (by exact a4)]
    generalize List.take _ (List.drop 16 p) = body
    generalize hsess : rdLe (List.take 8 (List.drop 8 p)) = sess
    have h2 : RFrame c { c1.emit (.input sess body) with incoming := some body, packetSeen := false } :=
      h1.trans ⟨[.input sess body], some body, false, c1.streamLeft, c1.wolfError, c1.firstMessageReceived, rfl, by simp [TailEff]⟩
    obtain ⟨d, hd, h⟩ := verifyConnection_one env { c1.emit (.input sess body) with incoming := some body, packetSeen := false } r hr hm hl
    refine ⟨d, h2.trans hd, ?_⟩
    generalize verifyConnection env { c1.emit (.input sess body) with incoming := some body, packetSeen := false } [r] = q at h ⊢
    obtain ⟨c2, rc⟩ := q
    split
    · exact h
    · rename_i hrc
      refine ⟨h.1.trans (updateSessionIncoming_t c2 _), fun hne => ?_⟩
      have := h.2 hne
      simp only [ne_eq, Decidable.not_not] at hrc
      simp only at this
      exact absurd (this.symm.trans hrc) hne
  · rename_i hct
    rw [hct] at hacc
    have e : setupStreamState c1 p = ({ c1.emit (.input 0 p) with incoming := some p, streamLeft := p }, .success) := by
      unfold setupStreamState
      rw [if_neg (by simp [show c1.streamLeft = [] from hacc])]
    unfold outsideStream
    rw [e]
    simp only [ne_eq, not_true_eq_false, if_false]
    have h2 : RFrame c { c1.emit (.input 0 p) with incoming := some p, streamLeft := p } :=
      h1.trans ⟨[.input 0 p], some p, c1.packetSeen, p, c1.wolfError, c1.firstMessageReceived, rfl, by simp [TailEff]⟩
    obtain ⟨d, hd, h⟩ := verifyConnection_one env { c1.emit (.input 0 p) with incoming := some p, streamLeft := p } r hr hm hl
    exact ⟨d, h2.trans hd, h⟩

end Lightway
