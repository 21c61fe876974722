import Verif.Proofs.Trav3
import Verif.Proofs.Mss

/-!
# Traversal of the connection API: connect, disconnect, inside packets, timers, setters
-/

namespace Lightway
open Spec

/-- One more TLS call from a reachable point. -/
theorem sslDo_next {env : Env} {a : Api} {c0 c c1 : Conn} (h : M env a c0 c) (n : NFrame c1 c)
    (call : SslCall) (hq : NotWrite call := by trivial) : M env a c0 (sslDo env c call).1 ∧ NFrame c1 (sslDo env c call).1 :=
  ⟨h.trans (sslDo_star env a c call hq), n.trans (sslDo_n env c call)⟩

theorem setupType_star {env : Env} {a : Api} {c c0 c1 : Conn} (ctx : SslCtx) (h : M env a c c1)
    (n : NFrame c0 c1) :
    M env a c (setupType env c1 ctx).1 ∧ NFrame c0 (setupType env c1 ctx).1 := by
  unfold setupType
  split
  · have s0 := sslDo_next h n (.setMtu (c1.outsideMtu - packetOverhead + 37))
    generalize sslDo env c1 (.setMtu (c1.outsideMtu - packetOverhead + 37)) = q at s0 ⊢
    obtain ⟨c2, r⟩ := q
    simp only at s0 ⊢
    split
    · exact s0
    · split
      · have s1 := sslDo_next s0.1 s0.2 .allowChFrag
        generalize sslDo env c2 .allowChFrag = q at s1 ⊢
        obtain ⟨c3, r⟩ := q
        simp only at s1 ⊢
        split <;> exact s1
      · exact s0
  · split
    · have s0 := sslDo_next h n (.useSNI (cstr c1.sniHostname))
      generalize sslDo env c1 (.useSNI (cstr c1.sniHostname)) = q at s0 ⊢
      obtain ⟨c2, r⟩ := q
      simp only at s0 ⊢
      split <;> exact s0
    · exact ⟨h, n⟩

theorem setupDn_star {env : Env} {a : Api} {c c0 c1 : Conn} (ctx : SslCtx) (h : M env a c c1)
    (n : NFrame c0 c1) :
    M env a c (setupDn env c1 ctx).1 ∧ NFrame c0 (setupDn env c1 ctx).1 := by
  unfold setupDn
  split
  · have s0 := sslDo_next h n (.checkDomainName (cstr ctx.serverDn))
    generalize sslDo env c1 (.checkDomainName (cstr ctx.serverDn)) = q at s0 ⊢
    obtain ⟨c2, r⟩ := q
    simp only at s0 ⊢
    split <;> exact s0
  · exact ⟨h, n⟩

theorem setupPqc_star {env : Env} {a : Api} {c c0 c1 : Conn} (h : M env a c c1)
    (n : NFrame c0 c1) :
    M env a c (setupPqc env c1).1 ∧ NFrame c0 (setupPqc env c1).1 := by
  unfold setupPqc
  split
  · have s0 := sslDo_next h n .useKeyShare
    generalize sslDo env c1 .useKeyShare = q at s0 ⊢
    obtain ⟨c2, r⟩ := q
    simp only at s0 ⊢
    split <;> exact s0
  · exact ⟨h, n⟩

theorem setupSsl_star (env : Env) (a : Api) (c : Conn) (ctx : SslCtx) (ha : IsConnect a) (hmtu : c.outsideMtu ≠ 0)
    (hft : c.fragTable.isSome = true) :
    M env a c (setupSsl env c ctx).1 ∧
    (setupSsl env c ctx).1.wolfSet = (env.ssl c.log .new).ok ∧
    ((setupSsl env c ctx).2 = none → (setupSsl env c ctx).1.wolfSet = true) ∧
    (setupSsl env c ctx).1.state = c.state ∧ (setupSsl env c ctx).1.cbs = c.cbs ∧
    (setupSsl env c ctx).1.renegInProgress = c.renegInProgress := by
  have h0 : M env a c _ := .one (.wolfNew c ha hmtu hft)
  unfold setupSsl
  simp only
  generalize hn : (env.ssl c.log .new).ok = n at h0 ⊢
  generalize hc0 : ({ c.emit (.sslCall .new n) with wolfSet := n } : Conn) = c0 at h0 ⊢
  have f0 : c0.wolfSet = n ∧ c0.state = c.state ∧ c0.cbs = c.cbs ∧
      c0.renegInProgress = c.renegInProgress := by rw [← hc0]; simp [Conn.emit]
  clear hc0
  have fin : ∀ c1 (o : Option RC), M env a c c1 → NFrame c0 c1 → n = true →
      M env a c (c1, o).1 ∧ (c1, o).1.wolfSet = n ∧ ((c1, o).2 = none → (c1, o).1.wolfSet = true) ∧
      (c1, o).1.state = c.state ∧ (c1, o).1.cbs = c.cbs ∧
      (c1, o).1.renegInProgress = c.renegInProgress := by
    intro c1 o h1 n1 ht
    refine ⟨h1, ?_, ?_, ?_, ?_, ?_⟩
    · simp only; rw [n1.wolfSet]; exact f0.1
    · intro _; simp only; rw [n1.wolfSet, f0.1]; exact ht
    · simp only; rw [n1.state]; exact f0.2.1
    · simp only; rw [n1.cbs]; exact f0.2.2.1
    · simp only; rw [n1.reneg]; exact f0.2.2.2
  cases n with
  | false => simp only [Bool.not_false, if_true]; exact ⟨h0, f0.1, by simp, f0.2⟩
  | true =>
    simp only [Bool.not_true, Bool.false_eq_true, if_false]
    have key := setupType_star ctx h0 (NFrame.refl c0)
    generalize setupType env c0 ctx = pre at key ⊢
    obtain ⟨c1, o1⟩ := pre
    cases o1 with
    | some rc => exact fin c1 (some rc) key.1 key.2 rfl
    | none =>
      have key2 := setupDn_star ctx key.1 key.2
      simp only at key2 ⊢
      generalize setupDn env c1 ctx = dn at key2 ⊢
      obtain ⟨c2, o2⟩ := dn
      cases o2 with
      | some rc => exact fin c2 (some rc) key2.1 key2.2 rfl
      | none =>
        have key3 := setupPqc_star key2.1 key2.2
        simp only at key3 ⊢
        generalize setupPqc env c2 = q at key3 ⊢
        obtain ⟨c3, o3⟩ := q
        exact fin c3 o3 key3.1 key3.2 rfl

/-- What a connect call leaves behind. -/
structure ConnectPost (env : Env) (r : Conn × RC) : Prop where
  wolf : r.2 = .success → r.1.wolfSet = true
  st : r.2 = .success → r.1.state = .connecting ∨ r.1.state = .linkUp ∨ r.1.state = .authenticating
  armed : r.2 = .success → r.1.cbs.nudgeTime = true → r.1.nudgeTimerRunning = true

theorem configure_fields (env : Env) (c : Conn) (ctx : SslCtx) :
    (configure env c ctx).1.cbs = ctx.cbs ∧ (configure env c ctx).1.state = c.state ∧
    (configure env c ctx).1.isServer = c.isServer ∧
    (configure env c ctx).1.outsideMtu = c.outsideMtu := by
  obtain ⟨_, _, _, _, e, _⟩ := configure_shape env c ctx
  rw [e]; exact ⟨rfl, rfl, rfl, rfl⟩

theorem configure_table (env : Env) (c : Conn) (ctx : SslCtx) :
    (configure env c ctx).2 = .success → (configure env c ctx).1.fragTable.isSome = true := by
  unfold configure
  simp only
  generalize hq : env.alloc _ = q
  cases q
  · intro h; simp at h
  · intro _; rfl

theorem preparing_start {a : Api} {l : Log} (h : ∃ old, l = .api a :: old) : Preparing a l := by
  obtain ⟨old, rfl⟩ := h
  exact ⟨[], old, rfl, by simp⟩

theorem preparing_role {a : Api} {l : Log} (h : ∃ old, l = .api a :: old) (b : Bool) :
    Preparing a (.role b :: l) := by
  obtain ⟨old, rfl⟩ := h
  exact ⟨[.role b], old, rfl, by simp [SetupEff]⟩

theorem internalConnect_star (env : Env) (a : Api) (c : Conn) (ctx : SslCtx) (i o : Chain)
    (ha : IsConnect a) (hmtu : c.outsideMtu ≠ 0) (hq : Preparing a c.log) :
    M env a c (internalConnect env c ctx i o).1 ∧ ConnectPost env (internalConnect env c ctx i o) := by
  have h1 : M env a c (configure env c ctx).1 := .one (.configure c ctx ha hq)
  have hq1 : Preparing a (configure env c ctx).1.log := by
    obtain ⟨x, old, e, h⟩ := hq
    obtain ⟨_, _, ok, _, e2, _⟩ := configure_shape env c ctx
    refine ⟨.table ctx.maxFragEntries :: .alloc ok :: .callbacks ctx.cbs :: x, old, ?_, ?_⟩
    · rw [e2]; simp only [e]; rfl
    · intro y hy
      simp only [List.mem_cons] at hy
      rcases hy with rfl | rfl | rfl | hy
      · trivial
      · trivial
      · trivial
      · exact h y hy
  have hcf := configure_fields env c ctx
  have hct := configure_table env c ctx
  unfold internalConnect
  generalize configure env c ctx = q at h1 hq1 hcf hct ⊢
  obtain ⟨c1, rc1⟩ := q
  simp only at h1 hq1 hcf hct ⊢
  have h2 := h1.tail (.plugins c1 i o ha hq1)
  generalize hc2 : ({ c1.emit (.chains i.plugins o.plugins) with insidePlugins := i, outsidePlugins := o } : Conn) = c2 at h2 ⊢
  split
  · rename_i hne
    exact ⟨h2, ⟨fun h => absurd h hne, fun h => absurd h hne, fun h => absurd h hne⟩⟩
  · have s := setupSsl_star env a c2 ctx ha (by rw [← hc2]; show c1.outsideMtu ≠ 0; rw [hcf.2.2.2]; exact hmtu)
      (by rw [← hc2]; exact hct (by rename_i h; simpa using h))
    have hrc : ∀ rc c', (setupSsl env c2 ctx) = (c', some rc) → rc ≠ .success := by
      intro rc c' h
      unfold setupSsl at h
      simp only at h
      split at h
      · simp at h; rw [← h.2]; simp
      · split at h
        · rename_i e
          unfold setupType at e
          simp only at e
          repeat' split at e
          all_goals (first | (simp at e; simp at h; rw [← h.2, ← e.2]; first | simp | (split <;> simp)) | simp at e)
        · split at h
          · rename_i e
            unfold setupDn at e
            simp only at e
            repeat' split at e
            all_goals (first | (simp at e; simp at h; rw [← h.2, ← e.2]; simp) | simp at e)
          · unfold setupPqc at h
            simp only at h
            repeat' split at h
            all_goals (first | (simp at h; rw [← h.2]; simp) | simp at h)
    generalize setupSsl env c2 ctx = q2 at s hrc ⊢
    obtain ⟨c3, o3⟩ := q2
    simp only at s
    have h3 := h2.trans s.1
    cases o3 with
    | some rc =>
      have hne := hrc rc c3 rfl
      exact ⟨h3, ⟨fun h => absurd h hne, fun h => absurd h hne, fun h => absurd h hne⟩⟩
    | none =>
      have hw3 := s.2.2.1 rfl
      simp only
      rw [changeState_connecting]
      have h4 := h3.trans (setState_star env a c3 .connecting (fun _ => ⟨ha, hw3⟩))
      have hs4 := setState_state c3 .connecting
      have hf4 := setState_fields c3 .connecting
      generalize setState c3 .connecting = c4 at h4 hs4 hf4 ⊢
      have s5 := sslDo_next h4 (NFrame.refl c4) .negotiate
      have g5 := sslDo_negotiated env c4
      generalize sslDo env c4 .negotiate = q5 at s5 g5 ⊢
      obtain ⟨c5, r⟩ := q5
      simp only at s5 g5 ⊢
      obtain ⟨h5, n5⟩ := s5
      have hw5 : c5.wolfSet = true := by rw [n5.wolfSet, hf4.1]; exact hw3
      have hs5 : c5.state = .connecting := by rw [n5.state]; exact hs4
      split
      · have fin : M env a c (updateTimeout env (changeState env c5 .connecting)) ∧
            ConnectPost env (updateTimeout env (changeState env c5 .connecting), .success) := by
          rw [changeState_connecting]
          unfold setState
          rw [if_pos hs5]
          obtain ⟨t1, ts, tw, _, tc, _, ta⟩ := updateTimeout_star env a c5 (fun _ => hw5)
          refine ⟨h5.trans t1, ⟨fun _ => by simp only; rw [tw]; exact hw5, fun _ => ?_, fun _ hn => ?_⟩⟩
          · left; simp only; rw [ts]; exact hs5
          · exact ta (by simp [hs5]) (by rw [← tc]; exact hn)
        split
        · exact fin
        · exact fin
        · exact ⟨h5, ⟨by simp, by simp, by simp⟩⟩
      · obtain ⟨l1, lw, _, lc, ls⟩ := changeState_linkUp_star env a c5 hs5 (.inl ha) (g5 (by simpa using ‹¬(!r.ok) = true›))
        generalize changeState env c5 .linkUp = c6 at l1 lw lc ls ⊢
        have hw6 : c6.wolfSet = true := lw.trans hw5
        obtain ⟨t1, ts, tw, _, tc, _, ta⟩ := updateTimeout_star env a c6 (fun _ => hw6)
        refine ⟨(h5.trans l1).trans t1, ⟨fun _ => by simp only; rw [tw]; exact hw6, fun _ => ?_, fun _ hn => ?_⟩⟩
        · right; simp only; rw [ts]; exact ls
        · exact ta (by rcases ls with h | h <;> simp [h]) (by rw [← tc]; exact hn)

theorem validServer_mtu {ctx : SslCtx} {c : Conn} (h : isValidServer ctx c = .success) :
    c.outsideMtu ≠ 0 := by
  unfold isValidServer at h
  split at h
  · cases h
  · rename_i hm; simp [isOutsideMtuSet] at hm; omega

theorem validClient_mtu {ctx : SslCtx} {c : Conn} (h : isValidClient ctx c = .success) :
    c.outsideMtu ≠ 0 := by
  unfold isValidClient at h
  simp only at h
  intro hz
  have hm : isOutsideMtuSet c = false := by simp [isOutsideMtuSet, hz]
  generalize (if (!isAuthBufferSet c) = true then _ else _ : RC) = x at h
  rw [hm] at h
  by_cases hx : x = .success
  · rw [if_neg (by simpa using hx)] at h; simp at h
  · rw [if_pos hx] at h; exact hx h

theorem clientConnect_star (env : Env) (c : Conn) (ctx : SslCtx) (i o : Chain)
    (hj : ∃ old, c.log = .api .clientConnect :: old) :
    M env .clientConnect c (clientConnect env c ctx i o).1 ∧
    ConnectPost env (clientConnect env c ctx i o) := by
  unfold clientConnect
  simp only
  split
  · rename_i hne
    exact ⟨.refl c, ⟨fun h => absurd h hne, fun h => absurd h hne, fun h => absurd h hne⟩⟩
  · rename_i hval
    have hmtu : c.outsideMtu ≠ 0 := validClient_mtu (by simpa using hval)
    have h1 : M env .clientConnect c _ := .one (.role c false (.inl rfl) (preparing_start hj) (by simp))
    have hq1 : Preparing .clientConnect ({ c.emit (.role false) with isServer := false } : Conn).log := preparing_role hj false
    have hm : ({ c.emit (.role false) with isServer := false } : Conn).outsideMtu ≠ 0 := hmtu
    generalize ({ c.emit (.role false) with isServer := false } : Conn) = c1 at h1 hm hq1 ⊢
    have h2 := internalConnect_star env .clientConnect c1 ctx i o (.inl rfl) hm hq1
    exact ⟨h1.trans h2.1, h2.2⟩

theorem serverConnect_star (env : Env) (c : Conn) (ctx : SslCtx) (i o : Chain)
    (hj : ∃ old, c.log = .api .serverConnect :: old) :
    M env .serverConnect c (serverConnect env c ctx i o).1 ∧
    ConnectPost env (serverConnect env c ctx i o) := by
  unfold serverConnect
  simp only
  split
  · rename_i hne
    exact ⟨.refl c, ⟨fun h => absurd h hne, fun h => absurd h hne, fun h => absurd h hne⟩⟩
  · rename_i hval
    have hmtu : c.outsideMtu ≠ 0 := validServer_mtu (by simpa using hval)
    have h1 : M env .serverConnect c _ := .one (.role c true (.inr rfl) (preparing_start hj) (fun _ => rfl))
    have hq1 : Preparing .serverConnect ({ c.emit (.role true) with isServer := true } : Conn).log := preparing_role hj true
    have hm : ({ c.emit (.role true) with isServer := true } : Conn).outsideMtu ≠ 0 := hmtu
    generalize ({ c.emit (.role true) with isServer := true } : Conn) = c1 at h1 hm hq1 ⊢
    have h2 := internalConnect_star env .serverConnect c1 ctx i o (.inr rfl) hm hq1
    generalize internalConnect env c1 ctx i o = q at h2 ⊢
    obtain ⟨c2, rc⟩ := q
    simp only at h2 ⊢
    have h3 := h1.trans h2.1
    split
    · exact ⟨h3, h2.2⟩
    · rename_i hrc
      have hp := h2.2
      have hrc : rc = .success := by simpa using hrc
      unfold generateSessionId
      simp only
      have h4 := h3.tail (.quiet c2 (.rng ((env.rng c2.log).map (· % 2 ^ 64))) trivial)
      have hlt : ∀ s, (env.rng c2.log).map (· % 2 ^ 64) = some s → s < 2 ^ 64 := by
        intro s h; cases hx : env.rng c2.log <;> rw [hx] at h <;> simp at h; omega
      generalize (env.rng c2.log).map (· % 2 ^ 64) = v at h4 hlt ⊢
      cases v with
      | none => exact ⟨h4, ⟨by simp, by simp, by simp⟩⟩
      | some s =>
        exact ⟨h4.tail (.sessServer _ s rfl (hlt s rfl)), ⟨fun _ => hp.wolf hrc, fun _ => hp.st hrc, fun _ => hp.armed hrc⟩⟩

theorem disconnect_star (env : Env) (c : Conn) :
    M env .disconnect c (disconnect env c).1 ∧
    ((disconnect env c).2 = .success → (disconnect env c).1.state = .disconnected ∧
      (disconnect env c).1.cbs.insideWrite = false ∧ (disconnect env c).1.cbs.outsideWrite = false) := by
  unfold disconnect
  split
  · exact ⟨.refl c, by simp⟩
  · rename_i hw
    have hw : c.wolfSet = true := by simpa using hw
    split
    · exact ⟨.refl c, by simp⟩
    · rename_i hs
      simp only [not_or] at hs
      have h1 := setState_star env .disconnect c .disconnecting (fun _ => ⟨hw, .inl ⟨rfl, by
        cases h : c.state <;> simp_all⟩⟩)
      have s1 := setState_state c .disconnecting
      generalize setState c .disconnecting = c1 at h1 s1 ⊢
      simp only
      have h2 := h1.trans (sendMessage_star env .disconnect c1 [msgGoodbye]
        (fun hi => ⟨by simp, rfl, hi.api, by rw [hi.st, s1]⟩) (by simp [msgGoodbye]))
      have n2 := sendMessage_n env c1 [msgGoodbye]
      unfold sendGoodbye
      generalize (sendMessage env c1 [msgGoodbye]).1 = c2 at h2 n2 ⊢
      have h3 := sslDo_next h2 n2 .shutdown
      generalize (sslDo env c2 .shutdown).1 = c3 at h3 ⊢
      have h4 : M env .disconnect c (({ c3.emit (.timer 0) with
          cbs := { (c3.emit (.timer 0)).cbs with insideWrite := false, outsideWrite := false }, wolfTimeout := 0 } : Conn).emit
          (.callbacks { (c3.emit (.timer 0)).cbs with insideWrite := false, outsideWrite := false })) :=
        (h3.1.tail (.tmo c3 0 (.inl ⟨rfl, rfl⟩))).tail (.dropCbs _ rfl)
      have s3 : c3.state = .disconnecting := by rw [h3.2.state]; exact s1
      generalize hc4 : Conn.emit (Conn.mk ..) _ = c4
      have h4 : M env .disconnect c c4 := by rw [← hc4]; exact h4
      have s4 : c4.state = .disconnecting := by rw [← hc4]; exact s3
      have b4 : c4.cbs.insideWrite = false ∧ c4.cbs.outsideWrite = false := by rw [← hc4]; exact ⟨rfl, rfl⟩
      refine ⟨h4.trans (setState_star env _ _ _ (fun _ => .inl ⟨rfl, s4⟩)), fun _ => ?_⟩
      rw [(setState_fields c4 .disconnected).2.2.1]
      exact ⟨setState_state _ _, b4⟩

theorem keepalive_star (env : Env) (c : Conn) : M env .keepalive c (keepalive env c).1 := by
  unfold keepalive
  split
  · exact .refl c
  · rename_i hs
    simp only
    have h2 : M env .keepalive c (sendMessage env { c with pingNextId := (c.pingNextId + 1) % 65536 }
        (pingMsg c.pingNextId)).1 := by
      obtain ⟨e, h⟩ := sendMessage_eq env { c with pingNextId := (c.pingNextId + 1) % 65536 } (pingMsg c.pingNextId)
      rw [h]
      exact ((Star.one (.ping c _ rfl (by simpa using hs))).trans (ioRun_star env _ _ _ id)).tail (.err _ e)
    generalize sendMessage env _ (pingMsg c.pingNextId) = q at h2 ⊢
    obtain ⟨c2, rc⟩ := q
    simp only at h2 ⊢
    split
    · exact h2.tail (.pingPending c2 _ rfl)
    · exact h2

theorem sendServerConfig_star (env : Env) (c : Conn) (b : Bytes) :
    M env .sendServerConfig c (sendServerConfig env c b).1 := by
  unfold sendServerConfig
  split
  · exact .refl c
  · rename_i hr
    split
    · exact .refl c
    · rename_i hv
      split
      · exact .refl c
      · rename_i hl
        simp only [maxMtu] at hl
        have hsh := serverConfigMsg_shape (b := b) (by omega)
        refine sendMessage_star env _ c _ (fun hi => ?_) (by rw [hsh.2.1]; decide)
        refine ⟨hsh.1, ?_⟩
        rw [hsh.2.1]
        refine ⟨by rw [hi.role]; simpa using hr, hi.api, ?_, hsh.2.2⟩
        simp only [Bool.not_eq_true', Bool.not_eq_false, validStateForServerConfig, Bool.or_eq_true,
          decide_eq_true_eq] at hv
        rw [hi.st]
        rcases hv with ((hv | hv) | hv) | hv <;> simp [hv]

theorem rotateSession_star (env : Env) (c : Conn) :
    M env .rotateSession c (rotateSession env c).1 := by
  unfold rotateSession
  split
  · exact .refl c
  · rename_i h
    simp only [not_or, Bool.not_eq_true, Bool.not_eq_false', ne_eq, Classical.not_not] at h
    unfold generateSessionId
    simp only
    have h1 : M env .rotateSession c _ := .one (.quiet c (.rng ((env.rng c.log).map (· % 2 ^ 64))) trivial)
    have hlt : ∀ s, (env.rng c.log).map (· % 2 ^ 64) = some s → s < 2 ^ 64 := by
      intro s h; cases hx : env.rng c.log <;> rw [hx] at h <;> simp at h; omega
    generalize (env.rng c.log).map (· % 2 ^ 64) = v at h1 hlt ⊢
    cases v with
    | none => exact h1
    | some s => exact h1.tail (.rotate _ s rfl h.1 h.2 (hlt s rfl))

theorem startPmtud_star (env : Env) (c : Conn) : M env .startPmtud c (startPmtud env c).1 := by
  unfold startPmtud
  split
  · exact .refl c
  · rename_i hs
    split
    · exact .refl c
    · rename_i hcb
      split
      · exact .refl c
      · rename_i hd
        exact .one (.startBase c rfl (by simpa using hs) (by simpa using hd) (by simpa [not_or] using hcb))

theorem pmtudTimeout_star (env : Env) (c : Conn) : M env .pmtudTimeout c (pmtudTimeout env c).1 :=
  .one (.probeTimeout c rfl)

theorem setConfigString_length (f v : Bytes) (h : f.length = 51) : (setConfigString f v).1.length = 51 := by
  unfold setConfigString
  split
  · exact h
  · split
    · exact h
    · simp only [setNul_length]; rw [strncpy_length _ _ _ (by simp [textFieldLen]; omega)]; exact h

/-- The setters. -/
theorem setter_star (env : Env) (c : Conn) (op : Op) (hop : op.api = .setter)
    (hj : ∃ old, c.log = .api .setter :: old)
    (hb : c.authBuffer.length = 1350) : M env .setter c (exec env c op).1 := by
  cases op <;> simp only [Op.api, reduceCtorEq] at hop <;> simp only [exec]
  case setUsername s =>
    unfold setUsername
    exact .one (.creds c _ _ c.password c.sniHostname c.authBuffer c.authBufferLength rfl rfl (setConfigString_length _ _) id (.inl rfl))
  case setPassword s =>
    unfold setPassword
    exact .one (.creds c _ c.username _ c.sniHostname c.authBuffer c.authBufferLength rfl rfl id (setConfigString_length _ _) (.inl rfl))
  case setAuthToken t =>
    unfold setAuthToken
    split
    · exact .refl c
    · split
      · exact .refl c
      · rename_i h1 h2
        rw [wr_isSome (by simp [maxMtu] at h2; omega)]
        exact .one (.creds c _ c.username c.password c.sniHostname _ _ rfl (by simp [maxMtu] at h2; simp; omega) id id (.inr (by simp [maxMtu] at h2; omega)))
  case setAuthBuffer t =>
    unfold setAuthBuffer
    split
    · exact .refl c
    · split
      · exact .refl c
      · rename_i h1 h2
        rw [wr_isSome (by simp [maxMtu] at h2; omega)]
        exact .one (.creds c _ c.username c.password c.sniHostname _ _ rfl (by simp [maxMtu] at h2; simp; omega) id id (.inr (by simp [maxMtu] at h2; omega)))
  case setOutsideMtu m =>
    unfold setOutsideMtu
    split
    · exact .refl c
    · rename_i h
      exact .one (.mtu c _ rfl ⟨by simpa [packetOverhead] using h, m.toNat_lt⟩)
  case setProtocolVersion x y => exact .one (.version c x y rfl (preparing_start hj))
  case setSessionId s =>
    unfold setSessionId
    split
    · exact .refl c
    · rename_i h
      exact .one (.sessSet c _ rfl (by simpa using h) (by exact UInt64.toNat_lt s))
  case setSni s =>
    unfold setSni
    exact .one (.creds c c.authType c.username c.password _ c.authBuffer c.authBufferLength rfl rfl id id (.inl rfl))

end Lightway
