import Verif.Props.Wire3

/-!
# The wire, receiving: what is accepted (C24, C26, C27, C59)
-/

namespace Lightway
open Spec

/-- The connection after a call that did nothing but be recorded. -/
def refused (c : Conn) (a : Api) (rc : RC) : Conn := { c with log := .ret rc :: .api a :: c.log }

theorem outsideData_refused (env : Env) (c : Conn) (buf : Bytes) (reads : List ReadRes)
    (hs : c.state ≠ .disconnecting ∧ c.state ≠ .disconnected) (ht : c.connType = .datagram)
    (hp : c.outsidePlugins.plugins = 0) {rc : RC} (h : refusal c.verMajor c.verMinor buf = some rc) :
    outsideData env c buf reads = (c, rc) := by
  unfold outsideData
  rw [if_neg (by exact not_or.mpr hs), ingress_noPlugins hp]
  simp only [reduceCtorEq, if_false, ne_eq, not_true_eq_false, gt_iff_lt, Nat.lt_irrefl]
  rw [show ({ c with log := c.log } : Conn) = c from rfl]
  split
  rotate_left
  · rename_i hct; rw [ht] at hct; cases hct
  unfold outsidePacket
  unfold refusal at h
  split at h
  · rename_i h1
    rw [if_pos h1]
    simp only [Option.some.injEq] at h; rw [h]
  · rename_i h1
    rw [if_neg h1, rd_isSome (by omega), rd_isSome (by omega), rd_isSome (by omega), rd_isSome (by omega)]
    simp only
    simp only [field, numLe_rdLe] at h
    split at h
    · rename_i h2
      rw [if_pos h2]
      simp only [Option.some.injEq] at h; rw [h]
    · rename_i h2
      rw [if_neg h2]
      split at h
      · rename_i h3
        rw [if_pos h3]
        simp only [Option.some.injEq] at h; rw [h]
      · rename_i h3
        rw [if_neg h3]
        split at h
        · rename_i h4
          rw [if_pos (show rdLe (List.take 8 (List.drop 8 buf)) = sessionReject from h4)]
          simp only [Option.some.injEq] at h; rw [h]
        · cases h

/-- **C24.** A datagram that fails the header check is refused with the documented code; the TLS library is not called, no callback
runs and the connection is unchanged. -/
theorem C24_unrecognised_dropped (env : Env) (c : Conn) (buf : Bytes) (reads : List ReadRes)
    (hs : c.state ≠ .disconnecting ∧ c.state ≠ .disconnected) (ht : c.connType = .datagram)
    (hp : c.outsidePlugins.plugins = 0) {rc : RC} (h : refusal c.verMajor c.verMinor buf = some rc) :
    step env c (.outsideData buf reads) = (refused c .outsideData rc, rc) := by
  have key := outsideData_refused env (c.emit (.api .outsideData)) buf reads hs ht hp h
  show ((outsideData env (c.emit (.api .outsideData)) buf reads).1.emit
    (.ret (outsideData env (c.emit (.api .outsideData)) buf reads).2),
    (outsideData env (c.emit (.api .outsideData)) buf reads).2) = _
  rw [key]
  rfl

/-- Not at the very beginning of a receive call, hence not accepting input. -/
theorem justCalled_ext {a : Api} {l x : Log} (hx : ∀ e ∈ x, NoMark e) (h : ¬JustCalled a l) : ¬JustCalled a (x ++ l) := by
  rintro ⟨y, old, e, hy⟩
  rcases List.append_eq_append_iff.mp e with ⟨z, h1, h2⟩ | ⟨z, h1, h2⟩
  · exact h ⟨z, old, h2, fun w hw => hy w (by rw [h1]; simp [hw])⟩
  · cases z with
    | nil => exact h ⟨[], old, h2.symm, by simp⟩
    | cons w z =>
      simp only [List.cons_append, List.cons.injEq] at h2
      have := hx w (by rw [h1]; simp)
      rw [← h2.1] at this
      exact this

theorem not_justCalled_input {a : Api} {l : Log} {s : Nat} {b : Bytes} : ¬JustCalled a (.input s b :: l) := by
  rintro ⟨y, old, e, hy⟩
  cases y with
  | nil => simp at e
  | cons w y =>
    simp only [List.cons_append, List.cons.injEq] at e
    obtain ⟨p, h⟩ := hy w (by simp)
    rw [← e.1] at h; cases h

theorem Fine.noInput {env : Env} {c c' : Conn} (h : Fine env c c') : ∃ x, c'.log = x ++ c.log ∧ ∀ e ∈ x, ¬IsInput e := by
  cases h with
  | io r =>
    cases r with
    | send rec =>
      obtain ⟨l, e, hl⟩ := send_log env c rec
      exact ⟨l, e, fun x hx => (hl x hx).2⟩
    | recv sz =>
      obtain ⟨r, e⟩ := recv_log env c sz
      exact ⟨[.sslIn sz r], e, by simp [IsInput]⟩
  | err | pm => exact ⟨[], rfl, by simp⟩
  | probe pm mtu ok => exact ⟨[_], rfl, by simp [IsInput]⟩
  | note e h hn => exact ⟨[e], rfl, by cases e <;> simp_all [PEff, IoEff, IsInput]⟩

theorem fine_noInput {env : Env} {c c' : Conn} (h : Star (Fine env) c c') :
    ∃ x, c'.log = x ++ c.log ∧ ∀ e ∈ x, ¬IsInput e := by
  induction h with
  | refl => exact ⟨[], rfl, by simp⟩
  | tail _ s ih =>
    obtain ⟨x, e, hx⟩ := ih
    obtain ⟨y, e2, hy⟩ := s.noInput
    refine ⟨y ++ x, by rw [e2, e]; simp, fun w hw => ?_⟩
    rcases List.mem_append.mp hw with h | h
    · exact hy w h
    · exact hx w h

/-- Once a call has begun to work, it accepts no input. -/
theorem Star.noInput {env : Env} {a : Api} {c c' : Conn} (h : M env a c c') (hp : ¬JustCalled a c.log) :
    ∃ x, c'.log = x ++ c.log ∧ ∀ e ∈ x, NoMark e ∧ ¬IsInput e := by
  have : (∃ x, c'.log = x ++ c.log ∧ ∀ e ∈ x, NoMark e ∧ ¬IsInput e) ∧ ¬JustCalled a c'.log := by
    induction h with
    | refl => exact ⟨⟨[], rfl, by simp⟩, hp⟩
    | @tail b d _ s ih =>
      obtain ⟨⟨x, e, hx⟩, hj⟩ := ih
      obtain ⟨y, e2, hy⟩ := s.logExt
      refine ⟨⟨y ++ x, by rw [e2, e]; simp, fun w hw => ?_⟩, by rw [e2]; exact justCalled_ext hy hj⟩
      rcases List.mem_append.mp hw with h | h
      · refine ⟨hy w h, ?_⟩
        rcases s.net with ⟨l, e3, _, hc⟩ | hf
        · have hl : l = y := List.append_cancel_right (e3.symm.trans e2)
          rcases hc with ⟨h1, _⟩ | ⟨_, h1, _⟩ | ⟨_, h1, _⟩
          · exact h1 w (hl ▸ h)
          · exact absurd h1 hj
          · exact absurd h1 hj
        · obtain ⟨l, e3, hl⟩ := fine_noInput hf
          have : l = y := List.append_cancel_right (e3.symm.trans e2)
          exact hl w (this ▸ h)
      · exact hx w h
  exact this.1

/-- What a receive call accepts, if anything, and from what. -/
theorem outsideData_shape (env : Env) (c : Conn) (buf : Bytes) (reads : List ReadRes)
    (hi : Inv env (some .outsideData) c) (hj : ∃ old, c.log = .api .outsideData :: old)
    (hp : c.outsidePlugins.plugins = 0) :
    (outsideData env c buf reads).1.log = c.log ∨
    ∃ y s b, (outsideData env c buf reads).1.log = y ++ .input s b :: c.log ∧ (∀ e ∈ y, NoMark e ∧ ¬IsInput e) ∧
      ((c.connType = .datagram ∧ refusal c.verMajor c.verMinor buf = none ∧ s = numLe (field buf 8 8) ∧ b = buf.drop 16) ∨
       (c.connType = .stream ∧ c.streamLeft = [] ∧ s = 0 ∧ b = buf)) := by
  unfold outsideData
  split
  · exact .inl rfl
  · rename_i hs
    have hs := not_or.mp hs
    rw [ingress_noPlugins hp]
    simp only [reduceCtorEq, if_false, ne_eq, not_true_eq_false, gt_iff_lt, Nat.lt_irrefl]
    rw [show ({ c with log := c.log } : Conn) = c from rfl]
    have hj : JustCalled .outsideData c.log := by obtain ⟨old, h⟩ := hj; exact ⟨[], old, h, by simp⟩
    split
    · rename_i hct
      unfold outsidePacket
      split
      · exact .inl rfl
      · rename_i hlen
        rw [rd_isSome (by omega), rd_isSome (by omega), rd_isSome (by omega), rd_isSome (by omega)]
        simp only
        split
        · exact .inl rfl
        · rename_i h1
          split
          · exact .inl rfl
          · rename_i h2
            split
            · exact .inl rfl
            · rename_i h3
              have hb : List.take (buf.length - 16) (List.drop 16 buf) = buf.drop 16 :=
                List.take_of_length_le (by simp)
              rw [hb]
              have href : refusal c.verMajor c.verMinor buf = none := by
                unfold refusal field
                rw [if_neg hlen, if_neg h1, if_neg h2, if_neg (by rw [numLe_rdLe]; exact h3)]
              have hsess : rdLe (List.take 8 (List.drop 8 buf)) = numLe (field buf 8 8) := (numLe_rdLe _).symm
              generalize buf.drop 16 = body at *
              generalize hse : rdLe (List.take 8 (List.drop 8 buf)) = sess at *
              have h1 : MO env c { c.emit (.input sess body) with incoming := some body, packetSeen := false } :=
                .one (.dgram c sess body rfl hj hct)
              have h2 := (verifyConnection_star env _ reads (h1.inv hi) hs)
              obtain ⟨x, hx, hnm⟩ := h2.noInput not_justCalled_input
              generalize verifyConnection env { c.emit (.input sess body) with incoming := some body, packetSeen := false } reads = q at hx ⊢
              obtain ⟨c2, rc⟩ := q
              simp only at hx ⊢
              right
              split
              · exact ⟨x, sess, body, hx, hnm, .inl ⟨hct, href, hsess, rfl⟩⟩
              · have h3 : ∃ z, (updateSessionIncoming c2 sess).1.log = z ++ c2.log ∧ ∀ e ∈ z, NoMark e ∧ ¬IsInput e := by
                  unfold updateSessionIncoming
                  split
                  · exact ⟨[], rfl, by simp⟩
                  · split
                    · split
                      · exact ⟨[], rfl, by simp⟩
                      · split
                        · exact ⟨[_], rfl, by simp [NoMark, IsInput]⟩
                        · exact ⟨[], rfl, by simp⟩
                    · exact ⟨[], rfl, by simp⟩
                obtain ⟨z, hz, hzn⟩ := h3
                refine ⟨z ++ x, sess, body, by rw [hz, hx]; simp [Conn.emit], ?_, .inl ⟨hct, href, hsess, rfl⟩⟩
                intro e he
                rcases List.mem_append.mp he with h | h
                · exact hzn e h
                · exact hnm e h
    · rename_i hct
      unfold outsideStream setupStreamState
      by_cases hl : c.streamLeft.length = 0
      · simp only [hl, ne_eq, not_true_eq_false, if_false]
        have h1 : MO env c { c.emit (.input 0 buf) with incoming := some buf, streamLeft := buf } :=
          .one (.stream c buf rfl hj (List.length_eq_zero_iff.mp hl) hct)
        obtain ⟨x, hx, hnm⟩ := (verifyConnection_star env _ reads (h1.inv hi) hs).noInput not_justCalled_input
        exact .inr ⟨x, 0, buf, hx, hnm, .inr ⟨hct, List.length_eq_zero_iff.mp hl, rfl, rfl⟩⟩
      · simp only [hl, ne_eq, not_false_eq_true, if_true, reduceCtorEq]
        exact .inl trivial

/-- **C26.** What a receive call without outside plugins accepts as input is the datagram's payload after the 16-byte header, with
the session id of the header, and only if the header check passes. -/
theorem C26_input_is_payload {env : Env} {c : Conn} (hg : Good env c) (buf : Bytes) (reads : List ReadRes)
    (hd : c.connType = .datagram) (hp : c.outsidePlugins.plugins = 0) {n o : Log} {s : Nat} {b : Bytes}
    (h : (step env c (.outsideData buf reads)).1.log = n ++ .input s b :: (o ++ c.log)) :
    refusal c.verMajor c.verMinor buf = none ∧ s = numLe (field buf 8 8) ∧ b = buf.drop 16 ∧ o = [.api .outsideData] := by
  obtain ⟨⟨ap, hi⟩, hs⟩ := hg
  have hl : (step env c (.outsideData buf reads)).1.log =
      .ret (step env c (.outsideData buf reads)).2 :: (outsideData env (c.emit (.api .outsideData)) buf reads).1.log := rfl
  rw [hl] at h
  cases n with
  | nil => simp at h
  | cons w n =>
    simp only [List.cons_append, List.cons.injEq] at h
    have h := h.2
    have hent : (c.emit (.api .outsideData)).log = .api .outsideData :: c.log := rfl
    rcases outsideData_shape env (c.emit (.api .outsideData)) buf reads (entry_inv hi (.outsideData buf reads)) ⟨_, rfl⟩ hp with
      e | ⟨y, s', b', e, hy, hc⟩
    · exfalso
      rw [e, hent] at h
      have := congrArg List.length h
      simp at this
      cases n with
      | nil => simp at h
      | cons v n =>
        simp at this
        omega
    · rw [e, hent] at h
      rcases split_ext h.symm with ⟨k, h1, _⟩ | ⟨k, h1, h2⟩
      · exact absurd trivial (hy (.input s b) (by rw [h1]; simp)).2
      · cases k with
        | nil =>
          simp only [List.nil_append, List.cons.injEq, Effect.input.injEq] at h2
          obtain ⟨⟨rfl, rfl⟩, h2⟩ := h2
          have ho : o = [.api .outsideData] := List.append_cancel_right (h2.symm.trans rfl)
          rcases hc with ⟨_, g1, g2, g3⟩ | ⟨g, _⟩
          · exact ⟨g1, g2, g3, ho⟩
          · exact absurd ((hd.symm.trans g)) (by simp)
        | cons v k =>
          simp only [List.cons_append, List.cons.injEq] at h2
          have := congrArg List.length h2.2
          cases k with
          | nil => simp at h2
          | cons v k => simp at this; omega

/-! ## Streams -/

/-- Nothing has been accepted from the network yet. -/
def NothingAccepted (l : Log) : Prop := ∀ e ∈ l, ¬IsInput e

/-- What has been read and what is left make up what was accepted. -/
structure Flowing (m : Conn) : Prop where
  sum : readBytes m.log ++ m.streamLeft = accepted m.log
  fresh : NothingAccepted m.log → m.incoming = none

theorem accepted_nothing {l : Log} (h : NothingAccepted l) : accepted l = [] := by
  induction l with
  | nil => rfl
  | cons e l ih =>
    have h1 := ih (fun x hx => h x (by simp [hx]))
    have h2 := h e (by simp)
    cases e <;> simp_all [accepted, IsInput]

theorem Flowing.skip {m d : Conn} (h : Flowing m) {l : Log} (e : d.log = l ++ m.log) (hl : ∀ x ∈ l, NoRead x)
    (h1 : d.incoming = m.incoming) (h2 : d.streamLeft = m.streamLeft) : Flowing d :=
  ⟨by rw [e, accepted_skip _ hl, readBytes_skip _ hl, h2, h.sum],
   fun hn => by rw [h1]; exact h.fresh (fun x hx => hn x (by rw [e]; simp [hx]))⟩

theorem Flowing.recv {env : Env} {m : Conn} (h : Flowing m) (ht : m.connType = .stream ∨ NothingAccepted m.log) (sz : Nat) :
    Flowing (ioStep env m (.recv sz)) := by
  have hsum := h.sum
  have hfresh : ∀ r, NothingAccepted (.sslIn sz r :: m.log) → m.incoming = none :=
    fun r hn => h.fresh (fun x hx => hn x (by simp [hx]))
  have hdg : NothingAccepted m.log → m.connType = .datagram → Flowing (ioStep env m (.recv sz)) := by
    intro hna hty
    simp only [ioStep, hty, dtlsRead, h.fresh hna]
    exact ⟨hsum, hfresh _⟩
  have hst : m.connType = .stream → Flowing (ioStep env m (.recv sz)) := by
    intro hty
    simp only [ioStep, hty, tlsRead]
    split
    · exact ⟨hsum, hfresh _⟩
    · refine ⟨?_, hfresh _⟩
      show (readBytes m.log ++ _) ++ _ = accepted m.log
      rw [← hsum, List.append_assoc]
      exact congrArg _ (List.take_append_drop _ _)
  rcases ht with ht | ht
  · exact hst ht
  · cases hty : m.connType with
    | datagram => exact hdg ht hty
    | stream => exact hst hty

/-- The connection is a stream connection, or has not accepted anything yet (it may not even be configured). -/
def StreamOnly (c : Conn) : Prop := c.connType = .stream ∨ NothingAccepted c.log

theorem step_flowing {env : Env} {c : Conn} (hg : Good env c) (op : Op) (ht : StreamOnly (step env c op).1)
    (h0 : Flowing c) : Flowing (step env c op).1 := by
  obtain ⟨⟨ap, hi⟩, hs⟩ := hg
  have hx := exec_star env ap c op hi
  rw [exec_to_step] at ht ⊢
  have ht : (exec env (c.emit (.api op.api)) op).1.connType = .stream ∨ NothingAccepted (exec env (c.emit (.api op.api)) op).1.log := by
    rcases ht with h | h
    · exact .inl h
    · exact .inr (fun x hx => h x (List.mem_cons_of_mem _ hx))
  have hent : Flowing (entry c op) := by
    refine h0.skip (l := [.api op.api]) (entry_log c op) (by simp [NoRead, IsInput]) ?_ ?_ <;> cases op <;> rfl
  -- the invariant also remembers that the history only grows
  have key := walk_call' (P := Flowing) hx hent
    (by
      rintro b d _ ⟨l, e, h, hcase⟩ hw hgrow hp
      rcases hcase with ⟨h1, h2, h3, h4⟩ | ⟨ha, hj, _, h1, s, body, rfl, h2, h3, h4⟩ | ⟨_, hj, _, h1, hl, buf, rfl, h2, h3, h4⟩
      · exact hp.skip e (fun x hx => noRead_of (h x hx) (h1 x hx)) h2 h4
      · exfalso
        rcases ht with ht | ht
        · have := (hw (by rw [e]; exact not_preparing (n := []) (by simp) (by simp [SetupEff]) trivial)).ty
          rw [h1, ht] at this
          cases this
        · obtain ⟨y, hy⟩ := hgrow
          exact ht (.input s body) (by rw [hy, e]; simp) trivial
      · refine ⟨?_, fun hn => absurd trivial (hn (.input 0 buf) (by rw [e]; simp))⟩
        have hsum := hp.sum
        rw [hl, List.append_nil] at hsum
        rw [e, h4]
        show readBytes b.log ++ buf = accepted b.log ++ buf
        rw [hsum])
    (by
      rintro b d _ ⟨l, e, h⟩ ⟨h2, _, h3⟩ hp
      refine hp.skip e (fun x hx => noRead_of (h x hx).2 ?_) h3 h2
      have := (h x hx).1
      cases x <;> simp_all [PEff, IoEff, IsInput])
    (by
      intro m r hw _ hgrow hp
      cases r with
      | recv sz =>
        refine hp.recv ?_ sz
        rcases ht with ht | ht
        · exact .inl (hw.ty.symm.trans ht)
        · obtain ⟨y, hy⟩ := hgrow
          exact .inr (fun x hx => ht x (by rw [hy]; simp [hx]))
      | send rec =>
        obtain ⟨l, e, hl⟩ := send_log env m rec
        have := send_keeps env m rec
        exact hp.skip e hl this.1 this.2.2)
  exact key.skip (l := [.ret (step env c op).2]) rfl (by simp [NoRead, IsInput]) rfl rfl

theorem run_flowing (env : Env) {c : Conn} (hg : Good env c) (h0 : Flowing c) (ops : List Op)
    (ht : Throughout env StreamOnly c ops) : Flowing (runFrom env c ops) := by
  induction ops generalizing c with
  | nil => exact h0
  | cons op ops ih => exact ih (hg.step op) (step_flowing hg op ht.1 h0) ht.2

/-- **C27.** On a connection that is used as a stream connection, what the TLS library has read is a prefix of what was accepted,
in order, after any calls. -/
theorem C27_read_prefix (env : Env) (ops : List Op) (ht : Throughout env StreamOnly Conn.create ops) :
    readBytes (run env ops).log <+: accepted (run env ops).log :=
  ⟨_, (run_flowing env (create_good env) ⟨rfl, fun _ => rfl⟩ ops ht).sum⟩

theorem outsideData_unread (env : Env) (c : Conn) (buf : Bytes) (reads : List ReadRes)
    (hs : c.state ≠ .disconnecting ∧ c.state ≠ .disconnected) (ht : c.connType = .stream)
    (hp : c.outsidePlugins.plugins = 0) (h : c.streamLeft.length ≠ 0) :
    outsideData env c buf reads = ({ c with wolfError := .none }, .sslError) := by
  unfold outsideData
  rw [if_neg (by exact not_or.mpr hs), ingress_noPlugins hp]
  simp only [reduceCtorEq, if_false, ne_eq, not_true_eq_false, gt_iff_lt, Nat.lt_irrefl]
  rw [show ({ c with log := c.log } : Conn) = c from rfl]
  split
  · rename_i hct; rw [ht] at hct; cases hct
  · unfold outsideStream setupStreamState
    rw [if_pos h]
    simp

/-- **C27.** If the TLS library has left bytes unread, the next data is refused with `HE_ERR_SSL_ERROR`: the TLS library is not
called, and nothing is added to what was accepted or read. -/
theorem C27_unread_refused (env : Env) (ops : List Op) (ht : Throughout env StreamOnly Conn.create ops)
    (hty : (run env ops).connType = .stream) (hp : (run env ops).outsidePlugins.plugins = 0)
    (hs : (run env ops).state ≠ .disconnecting ∧ (run env ops).state ≠ .disconnected)
    (h : readBytes (run env ops).log ≠ accepted (run env ops).log) (buf : Bytes) (reads : List ReadRes) :
    (step env (run env ops) (.outsideData buf reads)).2 = .sslError ∧
    (step env (run env ops) (.outsideData buf reads)).1.log = .ret .sslError :: .api .outsideData :: (run env ops).log := by
  have hf : Flowing (run env ops) := run_flowing env (create_good env) ⟨rfl, fun _ => rfl⟩ ops ht
  generalize run env ops = c at *
  have hl : c.streamLeft.length ≠ 0 := by
    intro h0
    refine h ?_
    rw [← hf.sum, List.length_eq_zero_iff.mp h0, List.append_nil]
  have key := outsideData_unread env (c.emit (.api .outsideData)) buf reads hs hty hp hl
  have e : step env c (.outsideData buf reads) = ((outsideData env (c.emit (.api .outsideData)) buf reads).1.emit
    (.ret (outsideData env (c.emit (.api .outsideData)) buf reads).2),
    (outsideData env (c.emit (.api .outsideData)) buf reads).2) := rfl
  rw [e, key]
  exact ⟨rfl, rfl⟩

/-! ## Roaming -/

/-- What a receiver of the same version says to a datagram with a well-formed header. -/
theorem refusal_decode {p rec : Bytes} {h : Header} (hd : decodeDatagram p = some (h, rec)) :
    refusal h.major h.minor p = if h.session = 2 ^ 64 - 1 then some .rejectedSession else none := by
  unfold decodeDatagram at hd
  split at hd
  · rename_i a b maj min agg _ _ _ rest
    split at hd
    · rename_i hh
      obtain ⟨rfl, rfl, hr⟩ := hh
      simp only [Option.some.injEq, Prod.mk.injEq] at hd
      obtain ⟨rfl, -⟩ := hd
      simp only [refusal, field, List.length_cons, List.drop_zero, List.take_succ_cons, List.take_zero, List.drop_succ_cons,
        ne_eq, not_true_eq_false, if_false]
      rw [if_neg (by omega)]
    · cases hd
  · cases hd

/-- **C59 (negation).** With roaming disabled every datagram sent is refused by any peer of the same version with
`HE_ERR_REJECTED_SESSION`: it carries the reject id. -/
theorem C59_disabled_roaming_rejected {env : Env} {c : Conn} (hg : Good env c) (op : Op) {n o : Log} {p : Bytes} {rc : RC}
    (hd : (step env c op).1.connType = .datagram) (hp : (step env c op).1.outsidePlugins.plugins = 0)
    (hr : (step env c op).1.disableRoaming = true)
    (h : (step env c op).1.log = n ++ .outsideWrite p rc :: (o ++ c.log))
    (env' : Env) (peer : Conn) (reads : List ReadRes)
    (hs : peer.state ≠ .disconnecting ∧ peer.state ≠ .disconnected) (ht : peer.connType = .datagram)
    (hpl : peer.outsidePlugins.plugins = 0)
    (hv : peer.verMajor = (step env c op).1.verMajor ∧ peer.verMinor = (step env c op).1.verMinor) :
    step env' peer (.outsideData p reads) = (refused peer .outsideData .rejectedSession, .rejectedSession) := by
  obtain ⟨rec, res, newer, copies, session, pending, _, _, hdec, _⟩ := C23_header_round_trip hg op hd hp h
  refine C24_unrecognised_dropped env' peer p reads hs ht hpl ?_
  rw [hv.1, hv.2]
  have := refusal_decode hdec
  simp only [advertised, hr, if_true] at this
  exact this

/-- **C59, the part that holds.** With roaming enabled and neither session id equal to the reserved value, what the calls that do
not change the session send passes the header check of a peer of the same version. -/
theorem C59_enabled_roaming_accepted_partial {env : Env} {c : Conn} (hg : Good env c) (op : Op) {n o : Log} {p : Bytes} {rc : RC}
    (hd : (step env c op).1.connType = .datagram) (hp : (step env c op).1.outsidePlugins.plugins = 0)
    (hr : (step env c op).1.disableRoaming = false)
    (ha : op.api ≠ .outsideData ∧ op.api ≠ .serverConnect ∧ op.api ≠ .rotateSession ∧ op.api ≠ .setter)
    (hs : c.sessionId ≠ 2 ^ 64 - 1 ∧ c.pendingSessionId ≠ 2 ^ 64 - 1)
    (h : (step env c op).1.log = n ++ .outsideWrite p rc :: (o ++ c.log)) :
    refusal (step env c op).1.verMajor (step env c op).1.verMinor p = none := by
  obtain ⟨rec, res, newer, copies, session, pending, _, _, hdec, hid, _⟩ := C23_header_round_trip hg op hd hp h
  obtain ⟨rfl, rfl⟩ := hid ha.1 ha.2.1 ha.2.2.1 ha.2.2.2
  have := refusal_decode hdec
  simp only at this
  rw [this, if_neg]
  rw [hr]
  unfold advertised
  simp only [Bool.false_eq_true, if_false]
  split
  · exact hs.2
  · exact hs.1

/-! ## Concrete cases -/

namespace Demo

/-- What a call added to the history. -/
def newPart (env : Env) (c : Conn) (op : Op) : Log :=
  (step env c op).1.log.take ((step env c op).1.log.length - c.log.length)

theorem newPart_split {env : Env} {c : Conn} (hg : Good env c) (op : Op) {P : Effect → Bool}
    (h : (newPart env c op).any P = true) :
    ∃ n e o, (step env c op).1.log = n ++ e :: (o ++ c.log) ∧ P e = true := by
  obtain ⟨⟨ap, hi⟩, hs⟩ := hg
  obtain ⟨x, hx⟩ : ∃ x, (step env c op).1.log = x ++ c.log := by
    obtain ⟨x, e, _⟩ := (exec_star env ap c op hi).logExt
    refine ⟨.ret (step env c op).2 :: (x ++ [.api op.api]), ?_⟩
    rw [exec_to_step]
    show Effect.ret _ :: (exec env (c.emit (.api op.api)) op).1.log = _
    rw [e, entry_log]
    simp
  have hn : newPart env c op = x := by
    unfold newPart
    rw [hx]
    simp
  rw [hn] at h
  obtain ⟨e, he, hp⟩ := List.any_eq_true.mp h
  obtain ⟨n, o, rfl⟩ := List.append_of_mem he
  exact ⟨n, e, o, by rw [hx]; simp, hp⟩

/-- Evaluate a condition after each call. -/
def always (env : Env) (P : Conn → Bool) : Conn → List Op → Bool
  | _, [] => true
  | c, op :: ops => P (step env c op).1 && always env P (step env c op).1 ops

theorem throughout_of {env : Env} {P : Conn → Bool} {Q : Conn → Prop} (hPQ : ∀ c, P c = true → Q c) :
    ∀ {ops : List Op} {c : Conn}, always env P c ops = true → Throughout env Q c ops
  | [], _, _ => trivial
  | op :: ops, c, h => by
    simp only [always, Bool.and_eq_true] at h
    exact ⟨hPQ _ h.1, throughout_of hPQ h.2⟩

def isWrite : Effect → Bool
  | .outsideWrite .. => true
  | _ => false

/-- An online client that does not advertise its session. -/
def roamless : List Op := clientOpsWith { ctx with disableRoaming := true }

def streamCtx : SslCtx := { ctx with connType := .stream }

/-- A TLS library that reads two bytes at a time during the handshake. -/
def streamEnv : Env := { env with ssl := fun l c => match c with
    | .negotiate => { ok := false, val := -1, err := .wantRead, io := [.send [22, 1], .recv 2] }
    | c => ssl l c }

def streamOps : List Op :=
  [ .setUsername [106, 111, 101], .setPassword [112, 119], .setOutsideMtu 1500, .clientConnect streamCtx [] [],
    .outsideData [1, 2, 3] [] ]

/-- C23, C25, C59: the online client sends a keepalive, as a datagram with its session id; a client without roaming does too. -/
example : (run env clientOps).connType = .datagram ∧ (run env clientOps).outsidePlugins.plugins = 0 ∧
    (step env (run env clientOps) .keepalive).1.disableRoaming = false ∧
    (run env clientOps).sessionId = 4242 ∧
    (newPart env (run env clientOps) .keepalive).any isWrite = true := by decide +kernel

example : (step env (run env roamless) .keepalive).1.connType = .datagram ∧
    (step env (run env roamless) .keepalive).1.outsidePlugins.plugins = 0 ∧
    (step env (run env roamless) .keepalive).1.disableRoaming = true ∧
    (newPart env (run env roamless) .keepalive).any isWrite = true := by decide +kernel

/-- C29: three copies before being online, one afterwards. -/
example : ((newPart env (run env (clientOps.take 3)) (.clientConnect ctx [] [])).filter isWrite).length = 3 ∧
    ((newPart env (run env clientOps) .keepalive).filter isWrite).length = 1 := by decide +kernel

/-- C24: a datagram of another version, and one with the reject id. -/
example : refusal 1 2 ([72, 101, 1, 1] ++ zeros 20) = some .incorrectProtocolVersion ∧
    refusal 1 2 ([72, 101, 1, 2] ++ zeros 4 ++ List.replicate 8 255) = some .rejectedSession ∧
    (run env clientOps).state ≠ .disconnecting ∧ (run env clientOps).state ≠ .disconnected ∧
    (run env clientOps).verMajor = 1 ∧ (run env clientOps).verMinor = 2 := by decide +kernel

/-- C26: the client's history contains two payloads taken by the TLS library. -/
example : Throughout env (fun c => c.connType = .datagram) Conn.create clientOps ∧
    readBytes (run env clientOps).log = [1, 2, 3, 9] :=
  ⟨throughout_of (P := fun c => c.connType = .datagram) (by simp) (by decide +kernel), by decide +kernel⟩

/-- C27, C28: a stream client whose TLS library has read two of three bytes; what it writes reaches the network. -/
example : Throughout streamEnv StreamOnly Conn.create streamOps ∧ (run streamEnv streamOps).connType = .stream ∧
    (run streamEnv streamOps).outsidePlugins.plugins = 0 ∧
    (run streamEnv streamOps).state = .connecting ∧
    readBytes (run streamEnv streamOps).log = [1, 2] ∧ accepted (run streamEnv streamOps).log = [1, 2, 3] ∧
    netBytes (run streamEnv streamOps).log ≠ [] := by
  refine ⟨throughout_of (P := fun c => c.connType = .stream || c.log.all (fun e => match e with | .input .. => false | _ => true))
    ?_ (by decide +kernel), by decide +kernel⟩
  intro c h
  simp only [Bool.or_eq_true, decide_eq_true_eq, List.all_eq_true] at h
  rcases h with h | h
  · exact .inl h
  · refine .inr (fun e he hi => ?_)
    have := h e he
    cases e <;> simp_all [IsInput]

end Demo

end Lightway
