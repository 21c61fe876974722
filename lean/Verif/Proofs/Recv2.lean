import Verif.Proofs.Ids

/-!
# Receiving one message: what happens to the session id afterwards
-/

namespace Lightway
open Spec

/-- `RecvPost`, and the ids are those message processing left. -/
def RecvKeep (q s : Conn × RC) : Prop := RecvPost q s ∧ KeepIds q.1 s.1

theorem messageLoop_keep (env : Env) (c : Conn) (r : ReadRes) (hw : c.wolfSet = true)
    (hm : r.plain ≠ []) (hl : r.plain.length ≤ 1500) :
    ∃ d, RFrame c d ∧
      ((processMessage env (d.emit (.message r.plain)) r.plain).2 ≠ .success ∧
        messageLoop env c [r] = ((processMessage env (d.emit (.message r.plain)) r.plain).1,
          some (processMessage env (d.emit (.message r.plain)) r.plain).2) ∨
       (processMessage env (d.emit (.message r.plain)) r.plain).2 = .success ∧
        RFrame (processMessage env (d.emit (.message r.plain)) r.plain).1 (messageLoop env c [r]).1 ∧
        KeepIds (processMessage env (d.emit (.message r.plain)) r.plain).1 (messageLoop env c [r]).1) := by
  have htk : r.plain.take maxWireMtu = r.plain := List.take_of_length_le (by simpa [maxWireMtu] using hl)
  refine ⟨ioRun env (c.emit (.sslCall .read true)) r.io, (RFrame.emit c (e := .sslCall .read true) trivial).trans (ioRun_r env _ _), ?_⟩
  have hne : r.plain.isEmpty = false := by cases h : r.plain <;> simp_all
  unfold messageLoop
  rw [htk]
  simp only [hw, Bool.not_true, Bool.false_eq_true, if_false, hne, Bool.not_false]
  generalize processMessage env _ r.plain = q
  obtain ⟨c1, rc⟩ := q
  simp only
  by_cases h : rc = .success
  · right
    refine ⟨h, ?_⟩
    rw [if_neg (by simp [h])]
    unfold messageLoop
    split
    · exact ⟨.emit c1 trivial, .emit c1 trivial⟩
    · exact ⟨(RFrame.emit c1 (e := .sslCall .read false) trivial).trans
        ⟨[], _, _, _, _, _, rfl, by simp [TailEff]⟩, (KeepIds.emit c1 (e := .sslCall .read false) trivial).trans .upd⟩
  · left
    exact ⟨h, by rw [if_pos h]⟩

theorem handleMessages_keep (env : Env) (c : Conn) (r : ReadRes) (hw : c.wolfSet = true)
    (hm : r.plain ≠ []) (hl : r.plain.length ≤ 1500) :
    ∃ d, RFrame c d ∧ RecvKeep (processMessage env (d.emit (.message r.plain)) r.plain) (handleMessages env c [r]) := by
  obtain ⟨d, hd, h⟩ := messageLoop_keep env c r hw hm hl
  refine ⟨d, hd, ?_⟩
  unfold handleMessages
  generalize processMessage env (d.emit (.message r.plain)) r.plain = q at h ⊢
  rcases h with ⟨h1, h2⟩ | ⟨h1, h2, h4⟩
  · rw [h2]
    exact ⟨⟨.refl _, fun _ => rfl⟩, .refl _⟩
  · generalize messageLoop env c [r] = q2 at h2 h4
    obtain ⟨c2, o⟩ := q2
    cases o with
    | some rc => exact ⟨⟨h2.tFrame, fun h => absurd h1 h⟩, h4⟩
    | none =>
      simp only at h2 h4 ⊢
      split
      · have h3 := renegotiateSsl_t env c2
        have h5 := renegotiateSsl_kids env c2
        generalize renegotiateSsl env c2 = q3 at h3 h5 ⊢
        obtain ⟨c3, rc⟩ := q3
        simp only at h3 h5 ⊢
        split
        · exact ⟨⟨h2.tFrame.trans h3, fun h => absurd h1 h⟩, h4.trans h5⟩
        · exact ⟨⟨h2.tFrame.trans (h3.trans (renegTail_t env c3)), fun h => absurd h1 h⟩,
            h4.trans (h5.trans (renegTail_kids env c3))⟩
      · exact ⟨⟨h2.tFrame.trans (renegTail_t env c2), fun h => absurd h1 h⟩, h4.trans (renegTail_kids env c2)⟩

theorem verifyConnection_keep (env : Env) (c : Conn) (r : ReadRes) (hs : Reading c)
    (hm : r.plain ≠ []) (hl : r.plain.length ≤ 1500) :
    ∃ d, RFrame c d ∧ RecvKeep (processMessage env (d.emit (.message r.plain)) r.plain) (verifyConnection env c [r]) := by
  unfold verifyConnection
  have h0 : RFrame c (if !c.firstMessageReceived then
      generateEvent { c with firstMessageReceived := true } .firstMessageReceived else c) := by
    split
    · exact ⟨[.event .firstMessageReceived c.cbs.event], c.incoming, c.packetSeen, c.streamLeft, c.wolfError, true, rfl,
        by simp [TailEff]⟩
    · exact .refl c
  simp only
  generalize (if !c.firstMessageReceived then
      generateEvent { c with firstMessageReceived := true } .firstMessageReceived else c) = c1 at h0 ⊢
  have hc1 : c1.state = c.state ∧ c1.wolfSet = c.wolfSet := by
    obtain ⟨l, i, p, s, w, f, rfl, e⟩ := h0; exact ⟨rfl, rfl⟩
  rw [if_neg (by rw [hc1.1]; exact hs.2.1)]
  obtain ⟨d, hd, h⟩ := handleMessages_keep env c1 r (by rw [hc1.2]; exact hs.1) hm hl
  exact ⟨d, h0.trans hd, h⟩

/-- The session id after the call: what message processing left, or (client) the non-zero id of the datagram. -/
def SessAfter (c : Conn) (q s : Conn) : Prop :=
  s.sessionId = q.sessionId ∨ (s.sessionId ≠ 0 ∧ ∃ body l, s.log = l ++ c.log ∧ .input s.sessionId body ∈ l)

theorem updateSession_sess (c : Conn) (s : Nat) :
    (updateSessionIncoming c s).1.sessionId = c.sessionId ∨
    ((updateSessionIncoming c s).1.sessionId = s ∧ s ≠ 0) := by
  unfold updateSessionIncoming
  repeat' split
  all_goals first | exact .inl rfl | exact .inr ⟨rfl, by assumption⟩

/-- One decrypted message through `he_conn_outside_data_received`, with the session id. -/
theorem recv_one_sess (env : Env) (c : Conn) (buf : Bytes) (r : ReadRes) (hs : Reading c)
    (hacc : Accepts (c.emit (.api .outsideData)) buf) (hm : r.plain ≠ []) (hl : r.plain.length ≤ 1500) :
    ∃ d, RFrame c d ∧ RecvPost (processMessage env (d.emit (.message r.plain)) r.plain)
        (step env c (.outsideData buf [r])) ∧
      SessAfter c (processMessage env (d.emit (.message r.plain)) r.plain).1 (step env c (.outsideData buf [r])).1 := by
  have h0 : RFrame c (c.emit (.api .outsideData)) := .emit c trivial
  have hs0 : Reading (c.emit (.api .outsideData)) := hs
  suffices ∀ c : Conn, Reading c → Accepts c buf → ∃ d, RFrame c d ∧
      RecvPost (processMessage env (d.emit (.message r.plain)) r.plain) (outsideData env c buf [r]) ∧
      SessAfter c (processMessage env (d.emit (.message r.plain)) r.plain).1 (outsideData env c buf [r]).1 by
    obtain ⟨d, hd, h, h'⟩ := this _ hs0 hacc
    refine ⟨d, h0.trans hd, ?_, ?_⟩
    · show RecvPost _ ((outsideData env (c.emit (.api .outsideData)) buf [r]).1.emit _, _)
      exact ⟨h.1.trans (RFrame.emit _ (e := .ret _) trivial).tFrame, h.2⟩
    · rcases h' with h' | ⟨hnz, body, l, e, hin⟩
      · exact .inl h'
      · refine .inr ⟨hnz, body, .ret (outsideData env (c.emit (.api .outsideData)) buf [r]).2 :: (l ++ [.api .outsideData]), ?_, ?_⟩
        · show .ret (outsideData env (c.emit (.api .outsideData)) buf [r]).2 ::
            (outsideData env (c.emit (.api .outsideData)) buf [r]).1.log = _
          rw [e]
          show _ :: (l ++ (.api .outsideData :: c.log)) = _
          simp
        · exact List.mem_cons_of_mem _ (List.mem_append_left _ hin)
  clear h0 hs0 hs hacc c
  intro c hs hacc
  obtain ⟨log, p, hin, hpl, hacc⟩ := hacc
  unfold outsideData
  rw [if_neg (by simp [hs.2.2.1, hs.2.2.2])]
  have h1 : RFrame c { c with log := log } := by
    obtain ⟨l, e, hl⟩ := ingress_cbExt c c.outsidePlugins buf buf.length
    rw [hin] at e
    exact ⟨l, c.incoming, c.packetSeen, c.streamLeft, c.wolfError, c.firstMessageReceived, by rw [← e], fun x hx => (hl x hx).tail⟩
  simp only [hin]
  rw [if_neg (by simp), if_neg (by simp), if_neg (by omega)]
  have f : ({ c with log := log } : Conn).connType = c.connType ∧ ({ c with log := log } : Conn).verMajor = c.verMajor ∧
    ({ c with log := log } : Conn).verMinor = c.verMinor ∧ ({ c with log := log } : Conn).streamLeft = c.streamLeft :=
    ⟨rfl, rfl, rfl, rfl⟩
  have hr : Reading { c with log := log } := hs
  generalize ({ c with log := log } : Conn) = c1 at f h1 hr ⊢
  rw [← f.1, ← f.2.1, ← f.2.2.1, ← f.2.2.2] at hacc
  rw [← f.1]
  clear hs f hin
  split
  · rename_i hct
    rw [hct] at hacc
    obtain ⟨a1, a2, a3, a4⟩ := hacc
    unfold outsidePacket
    rw [if_neg (by omega), rd_isSome (by omega), rd_isSome (by omega), rd_isSome (by omega), rd_isSome (by omega)]
    simp only
    rw [if_neg (by rw [List.drop_zero]; exact fun h => h a2), if_neg (fun h => h a3), if_neg (by exact a4)]
    generalize List.take _ (List.drop 16 p) = body
    generalize hsess : rdLe (List.take 8 (List.drop 8 p)) = sess
    have h2 : RFrame c { c1.emit (.input sess body) with incoming := some body, packetSeen := false } :=
      h1.trans ⟨[.input sess body], some body, false, c1.streamLeft, c1.wolfError, c1.firstMessageReceived, rfl, by simp [TailEff]⟩
    obtain ⟨d, hd, h, hk⟩ := verifyConnection_keep env { c1.emit (.input sess body) with incoming := some body, packetSeen := false } r hr hm hl
    have hv := (verifyConnection_ids env { c1.emit (.input sess body) with incoming := some body, packetSeen := false } [r]).log
    refine ⟨d, h2.trans hd, ?_⟩
    generalize verifyConnection env { c1.emit (.input sess body) with incoming := some body, packetSeen := false } [r] = q at h hk hv ⊢
    obtain ⟨c2, rc⟩ := q
    split
    · exact ⟨h, .inl hk.sess⟩
    · rename_i hrc
      refine ⟨⟨h.1.trans (updateSessionIncoming_t c2 _), fun hne => ?_⟩, ?_⟩
      · have := h.2 hne
        simp only [ne_eq, Decidable.not_not] at hrc
        simp only at this
        exact absurd (this.symm.trans hrc) hne
      · rcases updateSession_sess c2 sess with e | ⟨e, hnz⟩
        · exact .inl (e.trans hk.sess)
        · right
          obtain ⟨l2, hl2, -⟩ := hv
          obtain ⟨l1, _, _, _, _, _, e1, -⟩ := h1
          have hlog : ∃ l, (updateSessionIncoming c2 sess).1.log = l ++ c2.log := by
            obtain ⟨l, _, _, _, _, _, _, _, _, _, _, _, e, -⟩ := updateSessionIncoming_t c2 sess
            exact ⟨l, by rw [e]⟩
          obtain ⟨l3, hl3⟩ := hlog
          refine ⟨by rw [e]; exact hnz, body, l3 ++ (l2 ++ .input sess body :: l1), ?_, ?_⟩
          · show (updateSessionIncoming c2 sess).1.log = _
            rw [hl3, hl2]
            show l3 ++ (l2 ++ (.input sess body :: c1.log)) = _
            rw [e1]; simp
          · rw [e]; simp
  · rename_i hct
    rw [hct] at hacc
    have e : setupStreamState c1 p = ({ c1.emit (.input 0 p) with incoming := some p, streamLeft := p }, .success) := by
      unfold setupStreamState
      rw [if_neg (by simp [show c1.streamLeft = [] from hacc])]
    unfold outsideStream
    rw [e]
    simp only [ne_eq, not_true_eq_false, if_false]
    have h2 : RFrame c { c1.emit (.input 0 p) with incoming := some p, streamLeft := p } :=
      h1.trans ⟨[.input 0 p], some p, c1.packetSeen, p, c1.wolfError, c1.firstMessageReceived, rfl, by simp [TailEff]⟩
    obtain ⟨d, hd, h, hk⟩ := verifyConnection_keep env { c1.emit (.input 0 p) with incoming := some p, streamLeft := p } r hr hm hl
    exact ⟨d, h2.trans hd, h, .inl hk.sess⟩

end Lightway
