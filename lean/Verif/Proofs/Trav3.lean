import Verif.Proofs.LogExt

/-!
# The API functions are sequences of micro steps (part 3: handlers, receive path)
-/

namespace Lightway
open Spec

/-- During a receive call. -/
abbrev MO (env : Env) : Conn → Conn → Prop := M env .outsideData

theorem handleDataFrag_star (env : Env) (c : Conn) (pkt : Bytes)
    (hi : Inv env (some .outsideData) c) (hm : ∃ rest, c.log = .message pkt :: rest)
    (hd : pkt.head? = some 15) :
    MO env c (handleDataFrag env c pkt).1 ∧ (handleDataFrag env c pkt).1.state = c.state := by
  unfold handleDataFrag
  split
  · exact ⟨.refl c, rfl⟩
  · rename_i hs
    split
    · exact ⟨.refl c, rfl⟩
    · rw [rd_isSome (by omega), rd_isSome (by omega), rd_isSome (by omega)]
      simp only
      split
      · exact ⟨.refl c, rfl⟩
      · rename_i hl
        split
        · exact ⟨.refl c, rfl⟩
        · rw [rd_isSome (by omega)]
          have e1 : num (field pkt 1 2) = rdBe16 (List.take 2 (List.drop 1 pkt)) :=
            num_rdBe16 (field_length (by omega))
          have e3 : num (field pkt 3 2) = rdBe16 (List.take 2 (List.drop 3 pkt)) :=
            num_rdBe16 (field_length (by omega))
          have e5 : num (field pkt 5 2) = rdBe16 (List.take 2 (List.drop 5 pkt)) :=
            num_rdBe16 (field_length (by omega))
          obtain ⟨rest, hm⟩ := hm
          have hc : carried pkt = some
              { id := rdBe16 (List.take 2 (List.drop 3 pkt)),
                off := rdBe16 (List.take 2 (List.drop 5 pkt)) % 8192 * 8,
                more := decide (rdBe16 (List.take 2 (List.drop 5 pkt)) / 8192 % 2 = 1),
                data := (pkt.drop 7).take (rdBe16 (List.take 2 (List.drop 1 pkt))) } := by
            unfold carried
            rw [e1, e3, e5, if_pos ⟨hd, by omega, by omega⟩]
            rfl
          have := fragReceive_star env c _ hi (by simpa using hs) ⟨pkt, rest, hm, hc⟩
          have hlast : (!decide (rdBe16 (List.take 2 (List.drop 5 pkt)) / 8192 % 2 = 1)) =
              decide (rdBe16 (List.take 2 (List.drop 5 pkt)) / 8192 % 2 = 0) := by
            generalize rdBe16 (List.take 2 (List.drop 5 pkt)) / 8192 = k
            rw [← decide_not, decide_eq_decide]; omega
          rw [hlast] at this
          exact this

theorem handlePing_star (env : Env) (c : Conn) (pkt : Bytes) (hm : ∃ rest, c.log = .message pkt :: rest)
    (hd : pkt.head? = some 2) :
    MO env c (handlePing env c pkt).1 ∧ (handlePing env c pkt).1.state = c.state := by
  unfold handlePing
  split
  · exact ⟨.refl c, rfl⟩
  · rename_i hs
    split
    · exact ⟨.refl c, rfl⟩
    · rename_i hl
      rw [rd_isSome (by omega)]
      refine ⟨sendMessage_star env _ c _ (fun hi => ?_) (by simp [msgPong]), (sendMessage_n env c _).state⟩
      obtain ⟨rest, hm⟩ := hm
      refine ⟨?_, ?_⟩
      · simp only [List.length_append, List.length_cons, List.length_nil, List.length_take, List.length_drop]; omega
      · exact ⟨by rw [hi.st]; simpa using hs, hi.api, pkt, rest, hm, hd, by omega, rfl⟩

theorem handlePong_star (env : Env) (c : Conn) (pkt : Bytes) (hs : MsgState c.state)
    (hm : ∃ rest, c.log = .message pkt :: rest) (hd : pkt.head? = some 3) :
    MO env c (handlePong env c pkt).1 ∧ (handlePong env c pkt).1.state = c.state := by
  unfold handlePong
  split
  · exact ⟨.refl c, rfl⟩
  · rename_i hl
    rw [rd_isSome (by omega)]
    simp only
    split
    · obtain ⟨rest, hm⟩ := hm
      exact ⟨.one (.pong c rfl ⟨pkt, rest, hm, hd, by omega,
        (num_rdBe16 (field_length (by omega))).trans (by assumption)⟩), rfl⟩
    · obtain ⟨rest, hm⟩ := hm
      exact ⟨.one (.probeAck c _ rfl hs ⟨pkt, rest, hm, hd, by omega,
        (num_rdBe16 (field_length (by omega))).symm⟩), (handleProbeAck_frame env c _).fields.1⟩

theorem handleServerConfig_star (env : Env) (c : Conn) (pkt : Bytes)
    (hm : ∃ rest, c.log = .message pkt :: rest) (hd : pkt.head? = some 14) :
    MO env c (handleServerConfig env c pkt).1 ∧ (handleServerConfig env c pkt).1.state = c.state := by
  unfold handleServerConfig
  split
  · exact ⟨.refl c, rfl⟩
  · rename_i hr
    split
    · exact ⟨.refl c, rfl⟩
    · rename_i hv
      split
      · exact ⟨.refl c, rfl⟩
      · rw [rd_isSome (by omega)]
        simp only
        split
        · exact ⟨.refl c, rfl⟩
        · rename_i hn
          split
          · exact ⟨.refl c, rfl⟩
          · rename_i hcb
            obtain ⟨rest, hm⟩ := hm
            rw [rd_isSome (by omega)]
            simp only
            split <;> exact ⟨.one (.srvCfg c _ _ rfl (by simpa using hr) (by simpa using hv)
              (by simpa using hcb) ⟨pkt, rest, hm, hd, by
                rw [num_rdBe16 (field_length (by omega))]; show 3 + rdBe16 (List.take 2 (List.drop 1 pkt)) ≤ _; omega,
                by rw [num_rdBe16 (field_length (by omega))]; rfl⟩), rfl⟩

theorem handleConfigIpv4_star (env : Env) (c : Conn) (pkt : Bytes)
    (hi : Inv env (some .outsideData) c) (hw : c.wolfSet = true)
    (hm : ∃ rest, c.log = .message pkt :: rest) (hd : pkt.head? = some 6) :
    MO env c (handleConfigIpv4 env c pkt).1 ∧
    ((handleConfigIpv4 env c pkt).2 = .success → MsgState c.state →
      MsgState (handleConfigIpv4 env c pkt).1.state) := by
  unfold handleConfigIpv4
  split
  · exact ⟨.refl c, fun _ h => h⟩
  · split
    · exact ⟨.refl c, fun _ h => h⟩
    · rename_i hs
      simp only [not_or, Bool.not_eq_true, Classical.not_not] at hs
      obtain ⟨hr, hst⟩ := hs
      split
      · exact ⟨.refl c, fun _ h => h⟩
      · rename_i hl
        rw [rd_isSome (by omega), rd_isSome (by omega), rd_isSome (by omega), rd_isSome (by omega),
          rd_isSome (by omega), wr_isSome (by simp; omega)]
        simp only
        generalize hcfg : NetCfg.mk (copyIpField (List.take 24 (List.drop 1 pkt)))
          (copyIpField (List.take 24 (List.drop 25 pkt))) (copyIpField (List.take 24 (List.drop 49 pkt)))
          (configMtu (setNul (List.take 24 (List.drop 73 pkt)) 23)) = cfg
        have hsane : SaneCfg cfg := by
          rw [← hcfg]
          exact ⟨copyIpField_term _, copyIpField_term _, copyIpField_term _, configMtu_range _⟩
        have hof : CfgOf pkt cfg := by rw [← hcfg]; exact cfgOf_msg pkt (by omega)
        have hmsg : IsConfigMsg pkt := ⟨hd, by omega⟩
        obtain ⟨rest, hm⟩ := hm
        clear hcfg
        have h1 : MO env c _ := .one (.sessCfg c (rdLe (List.take 8 (List.drop 97 pkt))) rfl hr hst
          ⟨pkt, rest, hm, hmsg, rfl⟩
          (by have := rdLe_lt (List.take 8 (List.drop 97 pkt)); simpa [show min 8 (pkt.length - 97) = 8 by omega] using this))
        generalize hc1 : ({ c with
          sessionId := rdLe (List.take 8 (List.drop 97 pkt)) } : Conn) = c1 at h1 ⊢
        have hlog1 : c1.log = .message pkt :: rest := by rw [← hc1]; exact hm
        have hst1 : c1.state = .authenticating := by rw [← hc1]; exact hst
        have hr1 : c1.isServer = false := by rw [← hc1]; exact hr
        have hw1 : c1.wolfSet = true := by rw [← hc1]; exact hw
        have hne : c1.state ≠ .configuring := by simp [hst1]
        have h2 := h1.tail (.state c1 .configuring hne ⟨hst1, hr1, rfl, pkt, rest, hlog1, hmsg⟩)
        have hlog2 : (setState c1 .configuring).log =
            .state .configuring c1.cbs.stateChange :: .message pkt :: rest := by
          unfold setState; rw [if_neg hne, hlog1]
        have hst2 := setState_state c1 .configuring
        have hf := setState_fields c1 .configuring
        generalize setState c1 .configuring = c2 at h2 hlog2 hst2 hf ⊢
        have hr2 : c2.isServer = false := by rw [hf.2.1]; exact hr1
        have hw2 : c2.wolfSet = true := by rw [hf.1]; exact hw1
        have hauth : stateAt rest = .authenticating := by
          have := hi.st; rw [hm, hst] at this; exact this
        split
        · rename_i hcb
          have h3 := h2.tail (.netCfg c2 cfg (env.netConfig c2.log cfg) rfl hr2 hst2 hsane hcb
            ⟨_, pkt, rest, hlog2, hauth, hmsg, hof⟩)
          split
          · exact ⟨h3, by simp⟩
          · rename_i hrc
            simp only [ne_eq, Classical.not_not] at hrc
            refine ⟨h3.trans (setState_star env _ _ _ (fun _ => ⟨rfl, hw2, .inl ⟨hr2, hst2, ?_⟩⟩)), ?_⟩
            · exact ⟨_, pkt, rest, hmsg, hauth, .inl ⟨hcb, cfg, by rw [hrc]; simp only [Conn.emit]; rw [hlog2]⟩⟩
            · intro _ _; rw [setState_state]; simp [MsgState]
        · rename_i hcb
          refine ⟨h2.trans (setState_star env _ _ _ (fun _ => ⟨rfl, hw2, .inl ⟨hr2, hst2, ?_⟩⟩)), ?_⟩
          · exact ⟨_, pkt, rest, hmsg, hauth, .inr ⟨by simpa using hcb, hlog2⟩⟩
          · intro _ _; rw [setState_state]; simp [MsgState]

/-- What the authentication switch leaves. -/
def AuthSpec (env : Env) (c : Conn) : AuthOut → Prop
  | .ret c' rc _ => MO env c c' ∧ c'.state = c.state ∧ rc ≠ .success
  | .verdict c' ok rc _ => MO env c c' ∧ c'.state = c.state ∧ c'.isServer = c.isServer ∧
      c'.wolfSet = c.wolfSet ∧ c'.cbs = c.cbs ∧ rc ≠ .success ∧
      (ok = true → ∃ e rest, c'.log = e :: rest ∧ AuthOk e) ∧
      (ok = false → c'.log = c.log ∨ ∃ e, c'.log = e :: c.log ∧ AuthNo e)

theorem authSwitch_spec (env : Env) (c : Conn) (pkt : Bytes) (ty : UInt8) (_h2 : 2 ≤ pkt.length)
    (hr : c.isServer = true) (hs : MsgState c.state) (hm : ∃ rest, c.log = .message pkt :: rest)
    (hd : pkt.head? = some 4) (hty : pkt[1]? = some ty) : AuthSpec env c (authSwitch env c pkt ty) := by
  obtain ⟨rest, hm⟩ := hm
  unfold authSwitch
  split
  · rename_i ht
    split
    · rename_i hcb
      split
      · exact ⟨.refl c, rfl, by simp⟩
      · rw [rd_isSome (by omega), rd_isSome (by omega), wr_isSome (by simp; omega)]
        simp only
        have hargs : AuthArgs pkt (.authUserPass ((pkt.drop 4).take 50) ((pkt.drop 54).take 50)
            (env.authUserPass c.log ((pkt.drop 4).take 50) ((pkt.drop 54).take 50))) :=
          ⟨hd, by rw [hty, ht]; rfl, by omega, rfl, rfl⟩
        refine ⟨.one (.auth c (.authUserPass _ _ _) (setNul (strncpy c.username _ 50) 50) (fun h => by rw [setNul_length]; rw [strncpy_length _ _ _ (by omega)]; exact h) trivial hcb rfl hr hs ⟨pkt, rest, hm, hargs⟩ rfl), rfl, rfl, rfl, rfl, by simp, ?_, fun h => .inr ⟨_, rfl, h⟩⟩
        intro hok; exact ⟨_, _, rfl, hok⟩
    · exact ⟨.refl c, rfl, rfl, rfl, rfl, by simp, by simp, fun _ => .inl rfl⟩
  · split
    · rename_i ht
      split
      · rename_i hcb
        split
        · exact ⟨.refl c, rfl, by simp⟩
        · rw [rd_isSome (by omega)]
          simp only
          split
          · exact ⟨.refl c, rfl, by simp⟩
          · rw [rd_isSome (by omega)]
            simp only
            have hargs : ∀ ok, AuthArgs pkt (.authToken ((pkt.drop 4).take
                (rdBe16 (List.take 2 (List.drop 2 pkt)))) ok) := fun ok =>
              ⟨hd, by rw [hty, ht]; rfl, by rw [num_rdBe16 (field_length (by omega))]; show 4 + rdBe16 (List.take 2 (List.drop 2 pkt)) ≤ _; omega,
                by rw [num_rdBe16 (field_length (by omega))]; rfl⟩
            refine ⟨.one (.auth c (.authToken _ _) c.username id trivial hcb rfl hr hs ⟨pkt, rest, hm, hargs _⟩ rfl), rfl, rfl, rfl, rfl, by simp, ?_, fun h => .inr ⟨_, rfl, h⟩⟩
            intro hok; exact ⟨_, _, rfl, hok⟩
      · exact ⟨.refl c, rfl, rfl, rfl, rfl, by simp, by simp, fun _ => .inl rfl⟩
    · split
      · rename_i ht
        split
        · rename_i hcb
          split
          · exact ⟨.refl c, rfl, by simp⟩
          · rw [rd_isSome (by omega)]
            simp only
            split
            · exact ⟨.refl c, rfl, by simp⟩
            · rw [rd_isSome (by omega)]
              simp only
              have hargs : ∀ ok, AuthArgs pkt (.authBuf ty ((pkt.drop 4).take
                  (rdBe16 (List.take 2 (List.drop 2 pkt)))) ok) := fun ok =>
                ⟨hd, by rw [hty, ht]; rfl, ht, by rw [num_rdBe16 (field_length (by omega))]; show 4 + rdBe16 (List.take 2 (List.drop 2 pkt)) ≤ _; omega,
                  by rw [num_rdBe16 (field_length (by omega))]; rfl⟩
              refine ⟨.one (.auth c (.authBuf _ _ _) c.username id trivial hcb rfl hr hs ⟨pkt, rest, hm, hargs _⟩ rfl), rfl, rfl, rfl, rfl, by simp, ?_, fun h => .inr ⟨_, rfl, h⟩⟩
              intro hok; exact ⟨_, _, rfl, hok⟩
        · exact ⟨.refl c, rfl, rfl, rfl, rfl, by simp, by simp, fun _ => .inl rfl⟩
      · exact ⟨.refl c, rfl, rfl, rfl, rfl, by simp, by simp, fun _ => .inl rfl⟩

theorem handleAuth_star (env : Env) (c : Conn) (pkt : Bytes) (hr : c.isServer = true)
    (hm : ∃ rest, c.log = .message pkt :: rest) (hd : pkt.head? = some 4)
    (hw : c.wolfSet = true) (hs : MsgState c.state) :
    MO env c (handleAuth env c pkt).1 ∧
    ((handleAuth env c pkt).2 = .success → MsgState (handleAuth env c pkt).1.state) := by
  unfold handleAuth handleAuthBuf
  split
  · exact ⟨.refl c, fun _ => hs⟩
  · split
    · exact ⟨.refl c, fun _ => hs⟩
    · rename_i hpop
      split
      · exact ⟨.refl c, fun _ => hs⟩
      · split
        · exact ⟨.refl c, fun _ => hs⟩
        · rename_i hl
          rw [rd_one (by omega)]
          simp only
          have hspec := authSwitch_spec env c pkt (pkt[1]'(by omega)) (by omega) hr hs hm hd
            (List.getElem?_eq_getElem (by omega))
          generalize authSwitch env c pkt (pkt[1]'(by omega)) = q at hspec ⊢
          cases q with
          | ret c1 rc p => exact ⟨hspec.1, fun h => absurd h hspec.2.2⟩
          | verdict c1 ok rc p =>
            obtain ⟨h1, s1, r1, w1, b1, hrc, hok, hno⟩ := hspec
            have hs1 : MsgState c1.state := by rw [s1]; exact hs
            simp only
            cases ok with
            | false =>
              simp only [Bool.not_false, if_true]
              refine ⟨?_, fun h => absurd h hrc⟩
              have n := sendMessage_n env c1 authDeniedMsg
              refine (h1.trans (sendMessage_star env _ c1 authDeniedMsg (fun hi => ⟨by simp [authDeniedMsg, zeros],
                by rw [hi.role, r1]; exact hr, hi.api, rfl, ?_⟩) (by simp [authDeniedMsg, msgAuthResponse]))).trans
                (setState_star env _ _ _ (fun _ => ⟨?_, .inr ⟨rfl, ?_, ?_, ?_⟩⟩))
              · obtain ⟨rest, hm⟩ := hm
                rcases hno rfl with h | ⟨e, h, hn⟩
                · exact ⟨_, rest, by rw [h, hm], .inr (.inr ⟨pkt, rfl, hd⟩)⟩
                · exact ⟨e, c.log, h, .inl hn⟩
              · rw [n.wolfSet, w1]; exact hw
              · rw [n.isServer, r1]; exact hr
              · rw [n.state]; exact hs1
              · obtain ⟨l, hl', hio⟩ := (sendMessage_frame env c1 authDeniedMsg).log
                obtain ⟨rest, hm⟩ := hm
                rcases hno rfl with h | ⟨e, h, hn⟩
                · exact ⟨l, [], pkt, rest, by rw [hl', h, hm]; simp, fun x hx => (hio x hx).isIo, .inl rfl, hd⟩
                · exact ⟨l, [e], pkt, rest, by rw [hl', h, hm]; simp, fun x hx => (hio x hx).isIo,
                    .inr ⟨e, rfl, hn⟩, hd⟩
            | true =>
              simp only [Bool.not_true, Bool.false_eq_true, if_false]
              obtain ⟨e, rest, hlog, hae⟩ := hok rfl
              have h2 := h1.tail (.populate c1 (env.populate c1.log).1 rfl (by rw [r1]; exact hr) hs1
                (by rw [b1]; simpa using hpop) ⟨e, rest, hlog, hae⟩)
              split
              · rename_i hne
                refine ⟨h2.trans (sendMessage_star env _ _ _ (fun hi => ⟨by simp [authDeniedMsg, zeros],
                  by rw [hi.role]; exact r1.trans hr, hi.api, rfl, _, _, rfl, .inr (.inl ⟨_, rfl, hne⟩)⟩)
                  (by simp [authDeniedMsg, msgAuthResponse])), ?_⟩
                intro hx; exact absurd hx hne
              · rename_i heq
                simp only [ne_eq, Classical.not_not] at heq
                refine ⟨?_, fun _ => by simp only [setState_state]; simp [MsgState]⟩
                have hshape := configIpv4Msg_shape c1.sessionId (env.populate c1.log).2
                have hse := configIpv4Msg_session c1.sessionId (env.populate c1.log).2
                generalize configIpv4Msg c1.sessionId (env.populate c1.log).2 = msg at hshape hse
                have fr := sendMessage_frame env (c1.emit (.populate (env.populate c1.log).1)) msg
                have n := fr.nFrame
                have hsent : Inv env (some .outsideData) (c1.emit (.populate (env.populate c1.log).1)) →
                    SentOk msg (c1.emit (.populate (env.populate c1.log).1)).log := by
                  intro hi
                  refine ⟨by rw [hshape.1]; omega, ?_⟩
                  rw [hshape.2]
                  exact ⟨by rw [hi.role]; exact r1.trans hr, hi.api, hshape.1, e, rest,
                    by rw [heq]; simp only [Conn.emit]; rw [hlog], hae⟩
                refine (h2.trans (sendMessage_star_config env _ _ msg hsent (by rw [hshape.2]; decide) hse)).trans
                  (setState_star env _ _ _ (fun _ => ⟨rfl, ?_, .inr ⟨?_, ?_, ?_⟩⟩))
                · rw [n.wolfSet]; exact w1.trans hw
                · rw [n.isServer]; exact r1.trans hr
                · rw [n.state]; exact hs1
                · obtain ⟨l, hl', hio⟩ := fr.log
                  refine ⟨l, e, rest, ?_, hae, fun x hx => (hio x hx).isIo⟩
                  rw [hl', heq]; simp only [Conn.emit]; rw [hlog]

theorem processMessage_star (env : Env) (c : Conn) (pkt : Bytes)
    (hi : Inv env (some .outsideData) c) (hw : c.wolfSet = true) (hs : MsgState c.state)
    (hm : ∃ rest, c.log = .message pkt :: rest) :
    MO env c (processMessage env c pkt).1 ∧
    ((processMessage env c pkt).2 = .success → MsgState (processMessage env c pkt).1.state) := by
  have keep : ∀ {r : Conn × RC}, MO env c r.1 ∧ r.1.state = c.state →
      MO env c r.1 ∧ (r.2 = .success → MsgState r.1.state) :=
    fun h => ⟨h.1, fun _ => by rw [h.2]; exact hs⟩
  have nop : ∀ rc : RC, MO env c (c, rc).1 ∧ ((c, rc).2 = .success → MsgState (c, rc).1.state) :=
    fun rc => ⟨.refl c, fun _ => hs⟩
  unfold processMessage
  split
  · exact ⟨.one (.err c _), by simp⟩
  · rename_i id tl
    have hd : (id :: tl).head? = some id := rfl
    generalize id :: tl = p at hm hd ⊢
    by_cases h : id = msgNoop
    · rw [if_pos h]
      exact nop _
    rw [if_neg h]; clear h
    by_cases h : id = msgPing
    · rw [if_pos h]
      exact keep (handlePing_star env c p hm (by rw [hd, h]; rfl))
    rw [if_neg h]; clear h
    by_cases h : id = msgPong
    · rw [if_pos h]
      exact keep (handlePong_star env c p hs hm (by rw [hd, h]; rfl))
    rw [if_neg h]; clear h
    by_cases h : id = msgAuth
    · rw [if_pos h]
      split
      · rename_i hr; exact handleAuth_star env c p hr hm (by rw [hd, h]; rfl) hw hs
      · exact nop _
    rw [if_neg h]; clear h
    by_cases h : id = msgData
    · rw [if_pos h]
      exact keep (handleData_star env _ c p rfl hm (by rw [hd, h]; rfl))
    rw [if_neg h]; clear h
    by_cases h : id = msgConfigIpv4
    · rw [if_pos h]
      split
      · have := handleConfigIpv4_star env c p hi hw hm (by rw [hd, h]; rfl)
        exact ⟨this.1, fun h => this.2 h hs⟩
      · exact nop _
    rw [if_neg h]; clear h
    by_cases h : id = msgAuthResponse
    · rw [if_pos h]
      split <;> exact nop _
    rw [if_neg h]; clear h
    by_cases h : id = msgAuthResponseWithConfig
    · rw [if_pos h]
      exact nop _
    rw [if_neg h]; clear h
    by_cases h : id = msgGoodbye
    · rw [if_pos h]
      exact nop _
    rw [if_neg h]; clear h
    by_cases h : id = msgExtension
    · rw [if_pos h]
      exact nop _
    rw [if_neg h]; clear h
    by_cases h : id = msgDeprecated13
    · rw [if_pos h]
      exact keep (handleDeprecated13_star env _ c p rfl hm (by rw [hd, h]; rfl))
    rw [if_neg h]; clear h
    by_cases h : id = msgServerConfig
    · rw [if_pos h]
      split
      · exact keep (handleServerConfig_star env c p hm (by rw [hd, h]; rfl))
      · exact nop _
    rw [if_neg h]; clear h
    by_cases h : id = msgDataWithFrag
    · rw [if_pos h]
      exact keep (handleDataFrag_star env c p hi hm (by rw [hd, h]; rfl))
    rw [if_neg h]
    exact nop _

/-- During a receive call role and TLS object stay. -/
theorem Micro.stable {env : Env} {a : Api} {c c' : Conn} (h : Micro env a c c') (ha : ¬IsConnect a) :
    c'.wolfSet = c.wolfSet ∧ c'.isServer = c.isServer ∧ c'.connType = c.connType := by
  cases h with
  | io r => have := (ioStep_frame env c r).fields; simp [this]
  | state s hne h => have := setState_fields c s; simp [this]
  | role b h => exact absurd h ha
  | configure ctx h => exact absurd h ha
  | plugins i o h => exact absurd h ha
  | wolfNew h => exact absurd h ha
  | probeAck id h hs hm => have := (handleProbeAck_frame env c id).fields; simp [this]
  | probeTimeout h => have := (handleProbeTimeout_frame env c).fields; simp [this]
  | startBase h hs hd => have := (startBaseProbing_frame env c).fields; simp [this]
  | _ => simp [Conn.emit, generateEvent, Conn.ub]

theorem Star.stable {env : Env} {a : Api} {c c' : Conn} (h : M env a c c') (ha : ¬IsConnect a) :
    c'.wolfSet = c.wolfSet ∧ c'.isServer = c.isServer ∧ c'.connType = c.connType := by
  induction h with
  | refl => simp
  | tail _ s ih =>
    have := s.stable ha
    rw [this.1, this.2.1, this.2.2]; exact ih

theorem notConnect_outsideData : ¬IsConnect .outsideData := by simp [IsConnect]

theorem messageLoop_star (env : Env) (c : Conn) (reads : List ReadRes)
    (hi : Inv env (some .outsideData) c) (hs : MsgState c.state) :
    MO env c (messageLoop env c reads).1 := by
  induction reads generalizing c with
  | nil =>
    unfold messageLoop
    have h1 : MO env c (c.emit (.sslCall .read false)) := .one (.quiet c _ trivial)
    split
    · exact h1
    · exact h1.tail (.err _ _)
  | cons r rest ih =>
    unfold messageLoop
    split
    · have h1 : MO env c (c.emit (.sslCall .read false)) := .one (.quiet c _ trivial)
      exact h1.tail (.err _ _)
    · rename_i hw
      simp only
      generalize r.plain.take maxWireMtu = plain
      have h1 : MO env c (ioRun env (c.emit (.sslCall .read (!plain.isEmpty))) r.io) :=
        (Star.one (.quiet c _ trivial)).trans (ioRun_star env _ _ _ id)
      have n1 : NFrame c (ioRun env (c.emit (.sslCall .read (!plain.isEmpty))) r.io) :=
        (NFrame.emit c (e := .sslCall .read (!plain.isEmpty)) trivial).trans (ioRun_frame env _ _).nFrame
      generalize ioRun env (c.emit (.sslCall .read (!plain.isEmpty))) r.io = c1 at h1 n1 ⊢
      have i1 := h1.inv hi
      have hs1 : MsgState c1.state := by rw [n1.state]; exact hs
      have hw1 : c1.wolfSet = true := by rw [n1.wolfSet]; simpa using hw
      split
      · split
        · exact h1
        · exact h1
        · exact h1
        · exact h1.trans (ih c1 i1 hs1)
        · split
          · exact h1
          · exact h1.tail (.err _ _)
      · have h1 := h1.tail (.message c1 plain rfl hs1)
        have h2 := processMessage_star env (c1.emit (.message plain)) plain (h1.inv hi) hw1 hs1 ⟨_, rfl⟩
        generalize processMessage env (c1.emit (.message plain)) plain = q at h2 ⊢
        obtain ⟨c2, rc⟩ := q
        simp only at h2 ⊢
        have h12 := h1.trans h2.1
        split
        · exact h12
        · rename_i hrc
          exact h12.trans (ih c2 (h12.inv hi) (h2.2 (by simpa using hrc)))

/-- `wolfSet` while renegotiating. -/
theorem Inv.wolf_reneg {env : Env} {o : Option Api} {c : Conn} (hi : Inv env o c)
    (h : c.renegInProgress = true) (he : EnvOk env) : c.wolfSet = true := by
  cases hw : c.wolfSet
  · have := (hi.wolf he hw).2; rw [h] at this; cases this
  · rfl

theorem Inv.wolf_state {env : Env} {o : Option Api} {c : Conn} (hi : Inv env o c)
    (h1 : c.state ≠ .none) (h2 : c.state ≠ .disconnected) (he : EnvOk env) : c.wolfSet = true := by
  cases hw : c.wolfSet
  · rcases (hi.wolf he hw).1 with h | h
    · exact absurd h h1
    · exact absurd h h2
  · rfl

theorem renegotiateSsl_star (env : Env) (c : Conn) (hi : Inv env (some .outsideData) c)
    (hq : renegRequested c.log = true) : MO env c (renegotiateSsl env c).1 := by
  unfold renegotiateSsl
  have h0 : MO env c { c with renegDue := false } := .one (.dueOff c)
  have i0 := h0.inv hi
  have hq0 : renegRequested ({ c with renegDue := false } : Conn).log = true := hq
  have hd0 : ({ c with renegDue := false } : Conn).renegDue = false := rfl
  generalize ({ c with renegDue := false } : Conn) = c0 at h0 i0 hq0 hd0 ⊢
  simp only
  split
  · exact h0
  · rename_i hc
    simp only [not_or, Bool.not_eq_true, ne_eq, Classical.not_not] at hc
    obtain ⟨hr, hst⟩ := hc
    have hw0 : EnvOk env → c0.wolfSet = true := i0.wolf_state (by simp [hst]) (by simp [hst])
    have h1 := h0.trans (sslVer_star env _ c0 hw0)
    have n1 := sslVer_n env c0
    generalize sslVer env c0 = q at h1 n1 ⊢
    obtain ⟨c1, v⟩ := q
    simp only at h1 n1 ⊢
    -- the common tail
    have go : ∀ (c2 : Conn) (r : SslRes), MO env c c2 → NFrame c0 c2 →
        MO env c (if r.ok = true then (generateEvent { c2 with renegInProgress := true } .renegStarted, RC.success)
          else match r.err with
          | .none | .wantRead | .wantWrite | .appDataReady =>
            (updateTimeout env (generateEvent { c2 with renegInProgress := true } .renegStarted), RC.success)
          | .secureReneg => (generateEvent { c2 with renegInProgress := true } .renegStarted, .secureRenegotiationError)
          | e => ({ generateEvent { c2 with renegInProgress := true } .renegStarted with wolfError := e }, .sslError)).1 := by
      intro c2 r h2 n2
      have h3 := h2.tail (.renegStart c2 rfl (by rw [n2.reneg]; exact hr) (by rw [n2.state]; exact hst)
        (by rw [n2.requested]; exact hq0) (by rw [n2.due]; exact hd0))
      have hw3 : EnvOk env → (generateEvent { c2 with renegInProgress := true } .renegStarted).wolfSet = true :=
        fun he => by rw [show _ = c2.wolfSet from rfl, n2.wolfSet]; exact hw0 he
      generalize generateEvent { c2 with renegInProgress := true } .renegStarted = c3 at h3 hw3 ⊢
      split
      · exact h3
      · have h4 := h3.trans (updateTimeout_star env _ c3 hw3).1
        split
        · exact h4
        · exact h4
        · exact h4
        · exact h4
        · exact h3
        · exact h3.tail (.err _ _)
    split
    · have h2 := h1.trans (sslDo_star env _ c1 .renegSupport)
      have n2 := n1.trans (sslDo_n env c1 .renegSupport)
      generalize sslDo env c1 .renegSupport = q2 at h2 n2 ⊢
      obtain ⟨c2, s⟩ := q2
      simp only at h2 n2 ⊢
      split
      · exact h2
      · exact go _ _ (h2.trans (sslDo_star env _ c2 .rehandshake)) (n2.trans (sslDo_n env c2 _))
    · exact go _ _ (h1.trans (sslDo_star env _ c1 .updateKeys)) (n1.trans (sslDo_n env c1 _))

theorem renegTail_star (env : Env) (c : Conn) (hi : Inv env (some .outsideData) c) :
    MO env c (renegTail env c).1 := by
  unfold renegTail
  split
  · exact .refl c
  · rename_i hr
    have hr : c.renegInProgress = true := by simpa using hr
    have hw : EnvOk env → c.wolfSet = true := hi.wolf_reneg hr
    have h1 := sslVer_star env .outsideData c hw
    have n1 := sslVer_n env c
    generalize sslVer env c = q at h1 n1 ⊢
    obtain ⟨c1, v⟩ := q
    simp only at h1 n1 ⊢
    have fin : ∀ (c2 : Conn) (pending : Bool), MO env c c2 → NFrame c c2 →
        MO env c (updateTimeout env { (if (!pending) = true then generateEvent c2 .renegCompleted else c2) with
          renegInProgress := pending }) := by
      intro c2 pending h2 n2
      have hr2 : c2.renegInProgress = true := by rw [n2.reneg]; exact hr
      have hw2 : EnvOk env → c2.wolfSet = true := fun he => by rw [n2.wolfSet]; exact hw he
      cases pending with
      | true =>
        simp only [Bool.not_true, Bool.false_eq_true, if_false]
        have : ({ c2 with renegInProgress := true } : Conn) = c2 := by cases c2; simp_all
        rw [this]
        exact h2.trans (updateTimeout_star env _ c2 hw2).1
      | false =>
        simp only [Bool.not_false, if_true]
        have h3 := h2.tail (.renegDone c2 rfl hr2)
        generalize hc3 : ({ generateEvent c2 .renegCompleted with renegInProgress := false } : Conn) = c3 at h3 ⊢
        have hw3 : EnvOk env → c3.wolfSet = true := by rw [← hc3]; exact hw2
        exact h3.trans (updateTimeout_star env _ c3 hw3).1
    split
    · exact fin _ _ (h1.trans (sslDo_star env _ c1 .renegPending)) (n1.trans (sslDo_n env c1 _))
    · have h2 := h1.trans (sslDo_star env _ c1 .keyUpdateResponse)
      have n2 := n1.trans (sslDo_n env c1 .keyUpdateResponse)
      generalize sslDo env c1 .keyUpdateResponse = q2 at h2 n2 ⊢
      obtain ⟨c2, s⟩ := q2
      simp only at h2 n2 ⊢
      split
      · exact h2.tail (.err _ _)
      · exact fin _ _ h2 n2

theorem handleMessages_star (env : Env) (c : Conn) (reads : List ReadRes)
    (hi : Inv env (some .outsideData) c) (hs : MsgState c.state) :
    MO env c (handleMessages env c reads).1 := by
  unfold handleMessages
  have h1 := messageLoop_star env c reads hi hs
  generalize messageLoop env c reads = q at h1 ⊢
  obtain ⟨c1, o⟩ := q
  simp only at h1 ⊢
  have i1 := h1.inv hi
  cases o with
  | some rc => exact h1
  | none =>
    simp only
    split
    · rename_i hd
      have h2 := h1.trans (renegotiateSsl_star env c1 i1 (i1.due hd))
      generalize renegotiateSsl env c1 = q at h2 ⊢
      obtain ⟨c2, rc⟩ := q
      simp only at h2 ⊢
      split
      · exact h2
      · exact h2.trans (renegTail_star env c2 (h2.inv hi))
    · exact h1.trans (renegTail_star env c1 i1)

theorem verifyConnection_star (env : Env) (c : Conn) (reads : List ReadRes)
    (hi : Inv env (some .outsideData) c) (hs : c.state ≠ .disconnecting ∧ c.state ≠ .disconnected) :
    MO env c (verifyConnection env c reads).1 := by
  unfold verifyConnection
  have key : ∃ c1, (if (!c.firstMessageReceived) = true then
      generateEvent { c with firstMessageReceived := true } .firstMessageReceived else c) = c1 ∧
      MO env c c1 ∧ c1.state = c.state := by
    split
    · rename_i hf
      exact ⟨_, rfl, .one (.first c rfl (by simpa using hf)), rfl⟩
    · exact ⟨_, rfl, .refl c, rfl⟩
  obtain ⟨c1, he, h1, s1⟩ := key
  rw [he]
  clear he
  have i1 := h1.inv hi
  simp only
  split
  · rename_i hc
    have h2 := h1.trans (sslDo_star env _ c1 .negotiate)
    have n2 := sslDo_n env c1 .negotiate
    have g2 := sslDo_negotiated env c1
    generalize sslDo env c1 .negotiate = q at h2 n2 g2 ⊢
    obtain ⟨c2, r⟩ := q
    simp only at h2 n2 g2 ⊢
    have i2 := h2.inv hi
    have hc2 : c2.state = .connecting := by rw [n2.state]; exact hc
    split
    · split
      · split
        · exact h2
        · split
          · exact h2
          · exact h2.tail (.err _ _)
      · split
        · exact h2.trans (updateTimeout_star env _ c2 (i2.wolf_state (by simp [hc2]) (by simp [hc2]))).1
        · exact h2
    · have h3 := changeState_linkUp_star env .outsideData c2 hc2 (.inr rfl) (g2 (by simpa using ‹¬(!r.ok) = true›))
      have h23 := h2.trans h3.1
      refine h23.trans (handleMessages_star env _ reads (h23.inv hi) ?_)
      rcases h3.2.2.2.2 with h | h <;> rw [h] <;> simp [MsgState]
  · rename_i hc
    refine h1.trans (handleMessages_star env _ reads i1 ⟨hc, ?_, ?_⟩)
    · rw [s1]; exact hs.1
    · rw [s1]; exact hs.2

theorem updateSessionIncoming_star (env : Env) (c : Conn) (s : Nat) (hlt : s < 2 ^ 64) (hin : InputSession s c.log) :
    MO env c (updateSessionIncoming c s).1 := by
  unfold updateSessionIncoming
  split
  · exact .refl c
  · rename_i hz
    split
    · rename_i hr
      split
      · exact .refl c
      · split
        · rename_i hp
          exact .one (.sessAck c s rfl hr hp hz hin)
        · exact .refl c
    · rename_i hr
      exact .one (.sessClient c s rfl (by simpa using hr) hz hlt hin)

theorem outsidePacket_star (env : Env) (c : Conn) (pkt : Bytes) (reads : List ReadRes)
    (hi : Inv env (some .outsideData) c) (hs : c.state ≠ .disconnecting ∧ c.state ≠ .disconnected)
    (hj : JustCalled .outsideData c.log) (hdg : c.connType = .datagram) :
    MO env c (outsidePacket env c pkt reads).1 := by
  unfold outsidePacket
  split
  · exact .refl c
  · rw [rd_isSome (by omega), rd_isSome (by omega), rd_isSome (by omega), rd_isSome (by omega)]
    simp only
    split
    · exact .refl c
    · split
      · exact .refl c
      · split
        · exact .refl c
        · generalize List.take _ (List.drop 16 pkt) = body
          generalize hsess : rdLe (List.take 8 (List.drop 8 pkt)) = sess
          have h1 : MO env c { c.emit (.input sess body) with incoming := some body, packetSeen := false } :=
            .one (.dgram c sess body rfl hj hdg)
          have h2 := (verifyConnection_star env _ reads (h1.inv hi) hs)
          obtain ⟨x, hx, hnm⟩ := h2.logExt
          have h2 := h1.trans h2
          generalize verifyConnection env { c.emit (.input sess body) with incoming := some body, packetSeen := false } reads = q at h2 hx ⊢
          obtain ⟨c2, rc⟩ := q
          simp only at h2 hx ⊢
          split
          · exact h2
          · refine h2.trans (updateSessionIncoming_star env c2 _ ?_ ⟨x, body, c.log, hx, hnm⟩)
            rw [← hsess]
            exact (by have := rdLe_lt (List.take 8 (List.drop 8 pkt)); simpa [show min 8 (pkt.length - 8) = 8 by omega] using this)

theorem outsideStream_star (env : Env) (c : Conn) (buf : Bytes) (reads : List ReadRes)
    (hi : Inv env (some .outsideData) c) (hs : c.state ≠ .disconnecting ∧ c.state ≠ .disconnected)
    (hj : JustCalled .outsideData c.log) (hst : c.connType = .stream) :
    MO env c (outsideStream env c buf reads).1 := by
  unfold outsideStream setupStreamState
  by_cases hl : c.streamLeft.length = 0
  · simp only [hl, ne_eq, not_true_eq_false, if_false]
    have h1 : MO env c { c.emit (.input 0 buf) with incoming := some buf, streamLeft := buf } :=
      .one (.stream c buf rfl hj (List.length_eq_zero_iff.mp hl) hst)
    exact h1.trans (verifyConnection_star env _ reads (h1.inv hi) hs)
  · simp only [hl, ne_eq, not_false_eq_true, if_true]
    simp only [reduceCtorEq, not_false_eq_true, if_true]
    exact .one (.err c _)

theorem outsideData_star (env : Env) (c : Conn) (buf : Bytes) (reads : List ReadRes)
    (hi : Inv env (some .outsideData) c) (hj : ∃ old, c.log = .api .outsideData :: old) :
    MO env c (outsideData env c buf reads).1 := by
  unfold outsideData
  split
  · exact .refl c
  · rename_i hs
    simp only [not_or] at hs
    simp only
    have h1 : MO env c { c with log := (c.outsidePlugins.ingress c.log buf buf.length).1 } := by
      obtain ⟨old, ho⟩ := hj
      exact ingress_star env _ c c.outsidePlugins buf buf.length ⟨[], old, ho, by simp⟩
    have hj1 : (c.outsidePlugins.ingress c.log buf buf.length).2.2 = .success →
        JustCalled .outsideData (c.outsidePlugins.ingress c.log buf buf.length).1 := by
      intro hok
      obtain ⟨l, e, hl⟩ := Chain.ingress_passed c.outsidePlugins c.log buf buf.length hok
      obtain ⟨old, ho⟩ := hj
      exact ⟨l, old, by rw [e, ho], hl⟩
    split
    · exact h1
    · split
      · exact h1
      · rename_i hok
        replace hj1 := hj1 (by simpa using hok)
        split
        · exact h1
        · split
          · rename_i hct
            exact h1.trans (outsidePacket_star env _ _ reads (h1.inv hi) hs hj1 hct)
          · rename_i hct
            exact h1.trans (outsideStream_star env _ _ reads (h1.inv hi) hs hj1 hct)

end Lightway
