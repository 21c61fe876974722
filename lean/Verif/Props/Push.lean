import Verif.Proofs.Recv2
import Verif.Props.AuthP

/-!
# What the server pushes to the client
C51 (the network configuration), C55 (the server-config message).
-/

namespace Lightway
open Spec

namespace Spec

/-- The configurations handed to the network-config callback, latest first. -/
def netConfigs : Log → List NetCfg
  | [] => []
  | .netConfig cfg _ :: l => cfg :: netConfigs l
  | _ :: l => netConfigs l

/-- The buffers handed to the server-config callback, latest first. -/
def serverConfigs : Log → List Bytes
  | [] => []
  | .serverConfig b _ :: l => b :: serverConfigs l
  | _ :: l => serverConfigs l

/-- The last call of the populate callback: its result and the history before it. -/
def lastPopulate : Log → Option (RC × Log)
  | [] => none
  | .populate rc :: l => some (rc, l)
  | _ :: l => lastPopulate l

/-- A C string cut to the 23 characters a field of the configuration has room for. -/
def ipText (s : Bytes) : Bytes := (cstr s).take 23

/-- `m` is the CONFIG_IPV4 message for this configuration and session id (src/he/he_internal.h:
id, three 24-byte addresses, 24-byte MTU text, session id). -/
def ConfigCarries (cfg : NetCfg) (session : Nat) (m : Bytes) : Prop :=
  m.length = 105 ∧ m.head? = some 6 ∧ cstr (field m 1 24) = ipText cfg.localIp ∧ cstr (field m 25 24) = ipText cfg.peerIp ∧
  cstr (field m 49 24) = ipText cfg.dnsIp ∧ cstr (field m 73 24) = [49, 51, 53, 48] ∧ numLe (field m 97 8) = session

/-- States in which server configs may be sent and received. -/
def ServerConfigState (s : ConnState) : Prop := s = .linkUp ∨ s = .authenticating ∨ s = .configuring ∨ s = .online

end Spec

theorem validState_iff (c : Conn) : validStateForServerConfig c = true ↔ ServerConfigState c.state := by
  unfold validStateForServerConfig ServerConfigState
  simp only [Bool.or_eq_true, decide_eq_true_eq, or_assoc]

/-! ## C55 -/

/-- **C55** (who may send) he_conn_send_server_config is refused, with nothing handed to the TLS layer and no state
change, on a client, outside the four states, or for more than 1347 bytes. -/
theorem C55_refused (env : Env) (c : Conn) (buf : Bytes) :
    let s := step env c (.sendServerConfig buf)
    (c.isServer = false ∨ ¬ServerConfigState c.state → s.2 = .invalidConnState) ∧
    (c.isServer = true → ServerConfigState c.state → 1347 < buf.length → s.2 = .packetTooLarge) ∧
    (c.isServer = false ∨ ¬ServerConfigState c.state ∨ 1347 < buf.length → writes s.1.log = writes c.log ∧ s.1.state = c.state) := by
  intro s
  have hs : s = ((sendServerConfig env (c.emit (.api .sendServerConfig)) buf).1.emit
      (.ret (sendServerConfig env (c.emit (.api .sendServerConfig)) buf).2),
      (sendServerConfig env (c.emit (.api .sendServerConfig)) buf).2) := rfl
  have hv : validStateForServerConfig (c.emit (.api .sendServerConfig)) = true ↔ ServerConfigState c.state :=
    validState_iff (c.emit (.api .sendServerConfig))
  have e1 : c.isServer = false → sendServerConfig env (c.emit (.api .sendServerConfig)) buf =
      (c.emit (.api .sendServerConfig), .invalidConnState) := by
    intro h; unfold sendServerConfig
    rw [if_pos (by show (!c.isServer) = true; rw [h]; rfl)]
  have e2 : ¬ServerConfigState c.state → sendServerConfig env (c.emit (.api .sendServerConfig)) buf =
      (c.emit (.api .sendServerConfig), .invalidConnState) := by
    intro h; unfold sendServerConfig
    split
    · rfl
    · rw [if_pos (by rw [← hv] at h; simpa using h)]
  have e3 : c.isServer = true → ServerConfigState c.state → 1347 < buf.length →
      sendServerConfig env (c.emit (.api .sendServerConfig)) buf = (c.emit (.api .sendServerConfig), .packetTooLarge) := by
    intro h h' hl; unfold sendServerConfig
    rw [if_neg (by show ¬(!c.isServer) = true; rw [h]; decide), if_neg (by rw [hv.mpr h']; decide),
      if_pos (by show maxMtu - 3 < buf.length; exact hl)]
  rw [hs]
  refine ⟨?_, ?_, ?_⟩
  · rintro (h | h)
    · rw [e1 h]
    · rw [e2 h]
  · intro h h' hl; rw [e3 h h' hl]
  · intro h
    by_cases h1 : c.isServer = false
    · rw [e1 h1]; exact ⟨rfl, rfl⟩
    · by_cases h2 : ServerConfigState c.state
      · rcases h with h | h | h
        · exact absurd h h1
        · exact absurd h2 h
        · rw [e3 (by simpa using h1) h2 h]; exact ⟨rfl, rfl⟩
      · rw [e2 h2]; exact ⟨rfl, rfl⟩

theorem serverConfigs_tail {x : Log} (hx : ∀ e ∈ x, TailEff e) (l : Log) : serverConfigs (x ++ l) = serverConfigs l := by
  induction x with
  | nil => rfl
  | cons e x ih =>
    have h1 := hx e (by simp)
    have := ih (fun e he => hx e (by simp [he]))
    cases e <;> first | exact this | exact h1.elim

theorem netConfigs_tail {x : Log} (hx : ∀ e ∈ x, TailEff e) (l : Log) : netConfigs (x ++ l) = netConfigs l := by
  induction x with
  | nil => rfl
  | cons e x ih =>
    have h1 := hx e (by simp)
    have := ih (fun e he => hx e (by simp [he]))
    cases e <;> first | exact this | exact h1.elim

theorem TFrame.tailLog {c d : Conn} (h : TFrame c d) : ∃ x, d.log = x ++ c.log ∧ ∀ e ∈ x, TailEff e := by
  obtain ⟨l, _, _, _, _, _, _, _, _, _, _, _, rfl, e⟩ := h; exact ⟨l, rfl, e⟩

theorem RFrame.tailLog {c d : Conn} (h : RFrame c d) : ∃ x, d.log = x ++ c.log ∧ ∀ e ∈ x, TailEff e := h.tFrame.tailLog

/-- **C55** (round trip) When he_conn_send_server_config succeeds, exactly one message was handed to the TLS layer; a
client in one of the four states that receives it invokes its server-config callback exactly once, with the bytes the
server was given. -/
theorem C55_arrives (env env' : Env) (c : Conn) (ops' : List Op) (cfg : Bytes) :
    let d := run env' ops'
    (step env c (.sendServerConfig cfg)).2 = .success →
    c.isServer = true ∧ ServerConfigState c.state ∧ cfg.length ≤ 1347 ∧
    ∃ m, writes (step env c (.sendServerConfig cfg)).1.log = m :: writes c.log ∧
      ∀ buf r, r.plain = m → d.isServer = false → ServerConfigState d.state → d.wolfSet = true →
        Accepts (d.emit (.api .outsideData)) buf → d.cbs.serverConfig = true →
        serverConfigs (step env' d (.outsideData buf [r])).1.log = cfg :: serverConfigs d.log := by
  intro d hok
  have hr := C55_refused env c cfg
  have h1 : c.isServer = true := by
    cases h : c.isServer with
    | true => rfl
    | false => have := hr.1 (.inl h); rw [hok] at this; cases this
  have h2 : ServerConfigState c.state := by
    by_cases h : ServerConfigState c.state
    · exact h
    · have := hr.1 (.inr h); rw [hok] at this; cases this
  have h3 : cfg.length ≤ 1347 := by
    by_cases h : 1347 < cfg.length
    · have := hr.2.1 h1 h2 h; rw [hok] at this; cases this
    · omega
  refine ⟨h1, h2, h3, serverConfigMsg cfg, ?_, ?_⟩
  · have e : sendServerConfig env (c.emit (.api .sendServerConfig)) cfg =
        sendMessage env (c.emit (.api .sendServerConfig)) (serverConfigMsg cfg) := by
      unfold sendServerConfig
      rw [if_neg (by show ¬(!c.isServer) = true; rw [h1]; decide),
        if_neg (by rw [(validState_iff (c.emit (.api .sendServerConfig))).mpr h2]; decide),
        if_neg (by show ¬(maxMtu - 3 < cfg.length); simp only [maxMtu]; omega)]
    show writes (sendServerConfig env (c.emit (.api .sendServerConfig)) cfg).1.log = _
    rw [e, writes_sendMessage]; rfl
  · intro buf r hm hcl hst hw hacc hcb
    have hlen : (serverConfigMsg cfg).length = cfg.length + 3 := by simp [serverConfigMsg, be16]
    have hreading : Reading d := by
      refine ⟨hw, ?_⟩
      rcases hst with h | h | h | h <;> rw [h] <;> decide
    obtain ⟨e, he, hp, -⟩ := recv_one env' d buf r hreading hacc
      (by intro h; rw [hm] at h; have := congrArg List.length h; rw [hlen] at this; simp at this) (by rw [hm, hlen]; omega)
    obtain ⟨x, hx, hxt⟩ := hp.tailLog
    rw [hx, serverConfigs_tail hxt, hm]
    obtain ⟨y, hy, hyt⟩ := he.tailLog
    have hf := he.fields
    have q1 : (e.emit (.message (serverConfigMsg cfg))).isServer = false := by show e.isServer = _; rw [hf.2.1, hcl]
    have q2 : ServerConfigState (e.emit (.message (serverConfigMsg cfg))).state := by show ServerConfigState e.state; rw [hf.1]; exact hst
    have q3 : (e.emit (.message (serverConfigMsg cfg))).cbs.serverConfig = true := by show e.cbs.serverConfig = _; rw [hf.2.2.1, hcb]
    have q4 : serverConfigs (e.emit (.message (serverConfigMsg cfg))).log = serverConfigs d.log := by
      show serverConfigs e.log = _; rw [hy, serverConfigs_tail hyt]
    generalize e.emit (.message (serverConfigMsg cfg)) = q at q1 q2 q3 q4
    have hproc : processMessage env' q (serverConfigMsg cfg) = handleServerConfig env' q (serverConfigMsg cfg) := by
      show (if !q.isServer then _ else _) = _
      rw [if_pos (by rw [q1]; rfl)]
    have f1 : field (serverConfigMsg cfg) 1 2 = be16 cfg.length := rfl
    have f2 : rdBe16 (be16 cfg.length) = cfg.length := by
      rw [← num_rdBe16 (by rfl), ← f1, num_be16_mod (by omega) _ rfl]
    have f3 : field (serverConfigMsg cfg) 3 cfg.length = cfg := by simp [serverConfigMsg, be16, field]
    rw [hproc]
    unfold handleServerConfig
    rw [if_neg (by rw [q1]; decide), if_neg (by rw [(validState_iff q).mpr q2]; decide), if_neg (by omega),
      rd_field (by omega), f1]
    simp only [f2]
    rw [if_neg (by omega), if_neg (by rw [q3]; decide), rd_field (by omega), f3]
    simp only
    rw [← q4]
    split <;> rfl

/-! ## C51 -/

theorem lastPopulate_skip {x : Log} (hx : ∀ e ∈ x, ∀ rc, e ≠ .populate rc) (l : Log) : lastPopulate (x ++ l) = lastPopulate l := by
  induction x with
  | nil => rfl
  | cons e x ih =>
    have h1 := hx e (by simp)
    have := ih (fun e he => hx e (by simp [he]))
    cases e <;> first | exact this | exact absurd rfl (h1 _)

theorem lastPopulate_lt {l o : Log} {rc : RC} (h : lastPopulate l = some (rc, o)) : o.length < l.length := by
  induction l with
  | nil => cases h
  | cons e l ih =>
    cases e <;> first
      | (have := ih h; simp only [List.length_cons]; omega)
      | (injection h with h; injection h with _ h; subst h; simp)

theorem tail_not_populate {x : Log} (hx : ∀ e ∈ x, TailEff e) : ∀ e ∈ x, ∀ rc, e ≠ .populate rc := by
  intro e he rc h; subst h; exact hx _ he

theorem lastPopulate_sendMessage (env : Env) (c : Conn) (m : Bytes) : lastPopulate (sendMessage env c m).1.log = lastPopulate c.log := by
  obtain ⟨l, ok, e, hl⟩ := sendMessage_log env c m
  rw [e, lastPopulate_skip (fun x hx rc h => by subst h; exact hl _ hx)]
  rfl

theorem lastPopulate_setState (c : Conn) (s : ConnState) : lastPopulate (setState c s).log = lastPopulate c.log := by
  unfold setState; split <;> rfl

theorem writes_setState (c : Conn) (s : ConnState) : writes (setState c s).log = writes c.log := by
  unfold setState; split <;> rfl

/-- The outcome of the switch: nothing written, nothing populated. -/
def AuthQuiet (c : Conn) : AuthOut → Prop
  | .ret d _ _ => lastPopulate d.log = lastPopulate c.log
  | .verdict d _ _ _ => lastPopulate d.log = lastPopulate c.log ∧ writes d.log = writes c.log

theorem authSwitch_quiet (env : Env) (c : Conn) (m : Bytes) (ty : UInt8) : AuthQuiet c (authSwitch env c m ty) := by
  unfold authSwitch
  repeat' split
  all_goals first | rfl | exact ⟨rfl, rfl⟩

theorem configCarries (cfg : NetCfg) {s : Nat} (hs : s < 2 ^ 64) : ConfigCarries cfg s (configIpv4Msg s cfg) := by
  have l1 := copyIpField_length cfg.localIp
  have l2 := copyIpField_length cfg.peerIp
  have l3 := copyIpField_length cfg.dnsIp
  have c1 := cstr_copyIpField cfg.localIp
  have c2 := cstr_copyIpField cfg.peerIp
  have c3 := cstr_copyIpField cfg.dnsIp
  refine ⟨(configIpv4Msg_shape s cfg).1, (configIpv4Msg_shape s cfg).2, ?_⟩
  unfold configIpv4Msg
  generalize copyIpField cfg.localIp = a at l1 c1
  generalize copyIpField cfg.peerIp = b at l2 c2
  generalize copyIpField cfg.dnsIp = e at l3 c3
  have h : [msgConfigIpv4] ++ a ++ b ++ e ++ ([49, 51, 53, 48] ++ zeros 20) ++ le64 s =
      [msgConfigIpv4] ++ (a ++ (b ++ (e ++ (([49, 51, 53, 48] ++ zeros 20) ++ le64 s)))) := by simp
  rw [h]
  have cut : ∀ (p q r : Bytes) (i n : Nat), p.length = i → q.length = n → field (p ++ (q ++ r)) i n = q := by
    intro p q r i n hp hq; subst hp; subst hq; simp [field]
  refine ⟨?_, ?_, ?_, ?_, ?_⟩
  · rw [cut [msgConfigIpv4] a _ 1 24 rfl l1]; exact c1
  · rw [← List.append_assoc [msgConfigIpv4], cut ([msgConfigIpv4] ++ a) b _ 25 24 (by simp [l1]) l2]; exact c2
  · rw [← List.append_assoc [msgConfigIpv4], ← List.append_assoc ([msgConfigIpv4] ++ a),
      cut ([msgConfigIpv4] ++ a ++ b) e _ 49 24 (by simp [l1, l2]) l3]; exact c3
  · rw [← List.append_assoc [msgConfigIpv4], ← List.append_assoc ([msgConfigIpv4] ++ a),
      ← List.append_assoc ([msgConfigIpv4] ++ a ++ b),
      cut ([msgConfigIpv4] ++ a ++ b ++ e) _ _ 73 24 (by simp [l1, l2, l3]) (by simp [zeros])]
    decide
  · rw [← List.append_assoc [msgConfigIpv4], ← List.append_assoc ([msgConfigIpv4] ++ a),
      ← List.append_assoc ([msgConfigIpv4] ++ a ++ b), ← List.append_assoc ([msgConfigIpv4] ++ a ++ b ++ e)]
    have := cut ([msgConfigIpv4] ++ a ++ b ++ e ++ ([49, 51, 53, 48] ++ zeros 20)) (le64 s) [] 97 8
      (by simp [l1, l2, l3, zeros]) (by simp [le64])
    rw [List.append_nil] at this
    rw [this]
    exact numLe_leN 8 s hs

/-- **C51** (server) When receiving a message led to a successful call of the populate callback, the server hands exactly
one message to the TLS layer, the CONFIG_IPV4 message for what the callback supplied and the server's session id, and is
ONLINE. -/
theorem C51_config_sent (env : Env) (ops : List Op) (buf : Bytes) (r : ReadRes) :
    let c := run env ops
    let s := step env c (.outsideData buf [r])
    Reading c → c.isServer = true → Accepts (c.emit (.api .outsideData)) buf →
    r.plain.head? = some 4 → r.plain.length ≤ 1500 →
    ∀ older, lastPopulate s.1.log = some (.success, older) → c.log.length ≤ older.length →
    s.1.state = .online ∧ ∃ m, writes s.1.log = m :: writes c.log ∧ ConfigCarries (env.populate older).2 c.sessionId m := by
  intro c s hrd hsv hacc h4 hl2 older hpop holder
  have hg := run_good env ops
  obtain ⟨e, he, hp, hrc⟩ := recv_one env c buf r hrd hacc (by intro h; rw [h] at h4; cases h4) hl2
  have hf := he.fields
  have hp : TFrame (processMessage env (e.emit (.message r.plain)) r.plain).1 s.1 := hp
  obtain ⟨x, hx, hxt⟩ := hp.tailLog
  obtain ⟨y, hy, hyt⟩ := he.tailLog
  have q0 : (e.emit (.message r.plain)).isServer = true := by show e.isServer = _; rw [hf.2.1]; exact hsv
  have q1 : lastPopulate (e.emit (.message r.plain)).log = lastPopulate c.log := by
    show lastPopulate e.log = _; rw [hy, lastPopulate_skip (tail_not_populate hyt)]
  have q2 : writes (e.emit (.message r.plain)).log = writes c.log := by show writes e.log = _; exact he.writes
  have q3 : (e.emit (.message r.plain)).sessionId = c.sessionId := by
    show e.sessionId = _
    obtain ⟨_, _, _, _, _, _, h, -⟩ := he; rw [h]
  have hproc := processMessage_auth env (e.emit (.message r.plain)) r.plain h4 q0
  rw [hp.writes, hp.keeps.1]
  rw [hx, lastPopulate_skip (tail_not_populate hxt)] at hpop
  rw [hproc] at hpop ⊢
  generalize e.emit (.message r.plain) = q at q0 q1 q2 q3 hpop
  generalize r.plain = m at h4 hl2 hpop
  have hpop : lastPopulate (handleAuthBuf env q m).1.log = some (.success, older) := hpop
  show (handleAuthBuf env q m).1.state = _ ∧ ∃ m', writes (handleAuthBuf env q m).1.log = m' :: _ ∧ _
  have absurd' : lastPopulate q.log = some (.success, older) → False := by
    intro h; rw [q1] at h; have := lastPopulate_lt h; omega
  have hbuf : ∀ d : Conn × RC × Bytes, handleAuthBuf env q m = d → lastPopulate d.1.log = lastPopulate q.log → False := by
    intro d h h'; rw [h, h'] at hpop; exact absurd' hpop
  unfold handleAuthBuf at hpop hbuf ⊢
  by_cases h1 : !q.isServer ∧ (q.state ≠ .linkUp ∧ q.state ≠ .online)
  · rw [if_pos h1] at hpop; exact (absurd' hpop).elim
  rw [if_neg h1] at hpop ⊢
  by_cases h2 : (!q.cbs.populate) = true
  · rw [if_pos h2] at hpop; exact (absurd' hpop).elim
  rw [if_neg h2] at hpop ⊢
  by_cases h3 : !q.cbs.auth ∧ !q.cbs.authToken ∧ !q.cbs.authBuf
  · rw [if_pos h3] at hpop; exact (absurd' hpop).elim
  rw [if_neg h3] at hpop ⊢
  by_cases h5 : m.length < 2
  · rw [if_pos h5] at hpop; exact (absurd' hpop).elim
  rw [if_neg h5] at hpop ⊢
  cases hrd1 : rd m 1 1 with
  | none => rw [hrd1] at hpop; exact (absurd' hpop).elim
  | some l =>
    rw [hrd1] at hpop
    match l, hpop with
    | [], hpop => exact (absurd' hpop).elim
    | _ :: _ :: _, hpop => exact (absurd' hpop).elim
    | [ty], hpop =>
      have hq := authSwitch_quiet env q m ty
      have hk := authSwitch_kids env q m ty
      change lastPopulate (authFinish env (authSwitch env q m ty)).1.log = _ at hpop
      show (authFinish env (authSwitch env q m ty)).1.state = _ ∧ ∃ m', writes (authFinish env (authSwitch env q m ty)).1.log = m' :: _ ∧ _
      generalize authSwitch env q m ty = o at hq hk hpop
      cases o with
      | ret d rc p =>
        have hq : lastPopulate d.log = lastPopulate q.log := hq
        have hpop : lastPopulate d.log = _ := hpop
        rw [hq] at hpop; exact (absurd' hpop).elim
      | verdict d ok rc p =>
        obtain ⟨hq1, hq2⟩ := hq
        have hk : KeepIds q d := hk
        cases ok with
        | false =>
          have hpop : lastPopulate (setState (sendMessage env d authDeniedMsg).1 .disconnecting).log = _ := hpop
          rw [lastPopulate_setState, lastPopulate_sendMessage, hq1] at hpop
          exact (absurd' hpop).elim
        | true =>
          have hfin : authFinish env (.verdict d true rc p) =
              if (env.populate d.log).1 ≠ .success then
                (sendAuthDenied env (d.emit (.populate (env.populate d.log).1)), (env.populate d.log).1, p)
              else (setState (sendMessage env (d.emit (.populate (env.populate d.log).1))
                (configIpv4Msg d.sessionId (env.populate d.log).2)).1 .online, .success, p) := rfl
          rw [hfin] at hpop ⊢
          by_cases hs : (env.populate d.log).1 ≠ .success
          · rw [if_pos hs] at hpop
            have hpop : lastPopulate (sendMessage env (d.emit (.populate (env.populate d.log).1)) authDeniedMsg).1.log = _ := hpop
            rw [lastPopulate_sendMessage] at hpop
            have hpop : some ((env.populate d.log).1, d.log) = some (.success, older) := hpop
            injection hpop with hpop
            injection hpop with hpop _
            exact absurd hpop hs
          · rw [if_neg hs] at hpop ⊢
            rw [lastPopulate_setState, lastPopulate_sendMessage] at hpop
            have hpop : some ((env.populate d.log).1, d.log) = some (.success, older) := hpop
            injection hpop with hpop
            injection hpop with _ hpop
            subst hpop
            refine ⟨?_, configIpv4Msg d.sessionId (env.populate d.log).2, ?_, ?_⟩
            · show (setState _ .online).state = _
              unfold setState; split
              · assumption
              · rfl
            · rw [writes_setState, writes_sendMessage]
              show _ :: writes d.log = _
              rw [hq2, q2]
            · rw [hk.sess, q3]
              exact configCarries _ hg.sizes.sess

/-- **C51** (client) A client waiting for the answer to its credentials that receives such a message invokes its
network-config callback exactly once, with the three addresses (cut to 23 characters) and the MTU 1350.  If the callback
is content the client is ONLINE, and if the datagram carried no other session id, the client's session id is the one in
the message. -/
theorem C51_config_arrives (env : Env) (ops : List Op) (cfg : NetCfg) (session : Nat) (buf : Bytes) (r : ReadRes) :
    let d := run env ops
    let s := step env d (.outsideData buf [r])
    ConfigCarries cfg session r.plain →
    d.state = .authenticating → d.wolfSet = true → d.isServer = false → d.cbs.netConfig = true →
    Accepts (d.emit (.api .outsideData)) buf →
    ∃ got rc, netConfigs s.1.log = got :: netConfigs d.log ∧ .netConfig got rc ∈ s.1.log ∧ (∃ l, rc = env.netConfig l got) ∧
      cstr got.localIp = ipText cfg.localIp ∧ cstr got.peerIp = ipText cfg.peerIp ∧ cstr got.dnsIp = ipText cfg.dnsIp ∧
      got.mtu = 1350 ∧ (rc = .success → s.1.state = .online) ∧ (rc ≠ .success → s.1.state = .configuring ∧ s.2 = .callbackFailed) ∧
      ∀ x, s.1.log = x ++ d.log → (∀ sess body, .input sess body ∈ x → sess = 0 ∨ sess = session) →
        s.1.sessionId = session := by
  intro d s hm hst hw hcl hcb hacc
  obtain ⟨m1, m2, m3, m4, m5, m6, m7⟩ := hm
  have hreading : Reading d := ⟨hw, by rw [hst]; decide⟩
  obtain ⟨e, he, hp, hsess⟩ := recv_one_sess env d buf r hreading hacc (by intro h; rw [h] at m2; cases m2) (by omega)
  have hp : RecvPost (processMessage env (e.emit (.message r.plain)) r.plain) s := hp
  have hsess : SessAfter d (processMessage env (e.emit (.message r.plain)) r.plain).1 s.1 := hsess
  obtain ⟨hp, hrc⟩ := hp
  obtain ⟨x, hx, hxt⟩ := hp.tailLog
  obtain ⟨y, hy, hyt⟩ := he.tailLog
  have hf := he.fields
  have q0 : (e.emit (.message r.plain)).isServer = false := by show e.isServer = _; rw [hf.2.1]; exact hcl
  have q1 : (e.emit (.message r.plain)).state = .authenticating := by show e.state = _; rw [hf.1]; exact hst
  have q2 : (e.emit (.message r.plain)).cbs.netConfig = true := by show e.cbs.netConfig = _; rw [hf.2.2.1]; exact hcb
  have q3 : netConfigs (e.emit (.message r.plain)).log = netConfigs d.log := by
    show netConfigs e.log = _; rw [hy, netConfigs_tail hyt]
  generalize e.emit (.message r.plain) = q at *
  have hproc : processMessage env q r.plain = handleConfigIpv4 env q r.plain := by
    obtain ⟨t, ht⟩ := cons_of_head m2
    rw [ht]
    show (if !q.isServer then _ else _) = _
    rw [if_pos (by rw [q0]; rfl)]
  obtain ⟨w, hwr⟩ : ∃ w, wr r.plain 96 [0] = some w := ⟨_, wr_isSome (by simp; omega)⟩
  obtain ⟨q', hq'⟩ : ∃ q', q' = setState { q with sessionId := rdLe (field r.plain 97 8) } .configuring := ⟨_, rfl⟩
  obtain ⟨got, hgot⟩ : ∃ got : NetCfg, got = NetCfg.mk (copyIpField (field r.plain 1 24))
      (copyIpField (field r.plain 25 24)) (copyIpField (field r.plain 49 24)) (configMtu (setNul (field r.plain 73 24) 23)) := ⟨_, rfl⟩
  have hset : ∀ (c : Conn) (s : ConnState), (setState c s).cbs = c.cbs ∧ (setState c s).state = s ∧
      (setState c s).sessionId = c.sessionId ∧ netConfigs (setState c s).log = netConfigs c.log ∧
      ∀ e ∈ c.log, e ∈ (setState c s).log := by
    intro c s; unfold setState
    split
    · exact ⟨rfl, by assumption, rfl, rfl, fun e h => h⟩
    · exact ⟨rfl, rfl, rfl, rfl, fun e h => List.mem_cons_of_mem _ h⟩
  have hres : handleConfigIpv4 env q r.plain =
      if env.netConfig q'.log got ≠ .success then (q'.emit (.netConfig got (env.netConfig q'.log got)), .callbackFailed)
      else (setState (q'.emit (.netConfig got (env.netConfig q'.log got))) .online, .success) := by
    unfold handleConfigIpv4
    rw [if_neg (by rw [q1]; decide), if_neg (by rw [q0, q1]; decide), if_neg (by omega),
      rd_field (by omega), rd_field (by omega), rd_field (by omega), rd_field (by omega), rd_field (by omega), hwr]
    simp only [← hq', ← hgot]
    rw [if_pos (by rw [hq', (hset _ _).1]; exact q2)]
  have s1 : q'.state = .configuring := by rw [hq']; exact (hset _ _).2.1
  have s2 : q'.sessionId = session := by
    rw [hq', (hset _ _).2.2.1, ← m7]
    exact (numLe_rdLe _).symm
  have s3 : netConfigs q'.log = netConfigs d.log := by rw [hq', (hset _ _).2.2.2.1, ← q3]
  rw [hproc, hres] at hp hrc hsess hx
  have hmtu : configMtu (setNul (field r.plain 73 24) 23) = 1350 := by
    have e : [49, 51, 53, 48] = cstr (setNul (field r.plain 73 24) 23) := by
      rw [setNul, cstr_set _ _ (by rw [field_length (by omega)]; omega), m6]; rfl
    unfold configMtu scanU
    rw [← e]
    decide
  refine ⟨got, env.netConfig q'.log got, ?_, ?_, ⟨_, rfl⟩, ?_, ?_, ?_, ?_, ?_, ?_, ?_⟩
  · rw [hx, netConfigs_tail hxt]
    split
    · show got :: netConfigs q'.log = _; rw [s3]
    · rw [(hset _ _).2.2.2.1]; show got :: netConfigs q'.log = _; rw [s3]
  · rw [hx]
    refine List.mem_append_right _ ?_
    split
    · exact List.mem_cons_self
    · exact (hset _ _).2.2.2.2 _ List.mem_cons_self
  · rw [hgot, cstr_copyIpField, m3]; unfold ipText; rw [List.take_take]; rfl
  · rw [hgot, cstr_copyIpField, m4]; unfold ipText; rw [List.take_take]; rfl
  · rw [hgot, cstr_copyIpField, m5]; unfold ipText; rw [List.take_take]; rfl
  · rw [hgot]; exact hmtu
  · intro hok
    rw [hp.keeps.1, if_neg (by simp [hok])]
    exact (hset _ _).2.1
  · intro hno
    rw [if_pos hno] at hrc
    refine ⟨?_, hrc (by simp)⟩
    rw [hp.keeps.1, if_pos hno]
    exact s1
  · intro z hz hin
    rcases hsess with h | ⟨hnz, body, l, hl, hb⟩
    · rw [h]
      split
      · exact s2
      · rw [(hset _ _).2.2.1]; exact s2
    · have : l = z := by rw [hl] at hz; exact List.append_cancel_right hz
      subst this
      rcases hin _ _ hb with h | h
      · exact absurd h hnz
      · exact h

/-! ## Concrete cases -/

/-- The demo server populates when the credentials arrive: the hypotheses of `C51_config_sent` are met. -/
example : let c := run Demo.env Demo.serverWaiting
    let r := Demo.msg (authUserPassMsg { username := [106, 111, 101] ++ zeros 48, password := [112, 119] ++ zeros 49 })
    let s := step Demo.env c (.outsideData (Demo.dgram [9]) [r])
    (c.isServer = true ∧ c.wolfSet = true ∧ c.state = .linkUp) ∧ r.plain.head? = some 4 ∧ r.plain.length ≤ 1500 ∧
    (lastPopulate s.1.log).any (fun p => decide (p.1 = .success ∧ c.log.length ≤ p.2.length)) = true ∧ s.1.state = .online := by decide +kernel

/-- And those of `C51_config_arrives`: a client waiting for the answer, and a message with its session id. -/
example : let d := run Demo.env (Demo.clientOps.take 5)
    let s := step Demo.env d (.outsideData (Demo.dgram [9]) [Demo.msg (configIpv4Msg 4242 Demo.netCfg)])
    (d.isServer = false ∧ d.wolfSet = true ∧ d.state = .authenticating ∧ d.cbs.netConfig = true) ∧
    s.1.sessionId = 4242 ∧ s.1.state = .online ∧
    (netConfigs s.1.log).map (fun g => (cstr g.localIp, g.mtu)) = [([49, 48, 46, 49], 1350)] := by decide +kernel

example : Accepts ((run Demo.env (Demo.clientOps.take 5)).emit (.api .outsideData)) (Demo.dgram [9]) :=
  accepts_plain _ _ (by decide +kernel) (by decide +kernel) (by decide +kernel)

example : ConfigCarries Demo.netCfg 4242 (configIpv4Msg 4242 Demo.netCfg) := configCarries _ (by decide)

/-- A pushed server configuration: sent by the ONLINE server, received by the ONLINE client; too long a buffer and a
client's attempt are refused. -/
example : let c := run Demo.env Demo.serverOps
    let d := run Demo.env Demo.clientOps
    (step Demo.env c (.sendServerConfig [1, 2, 3])).2 = .success ∧
    writes (step Demo.env c (.sendServerConfig [1, 2, 3])).1.log = [14, 0, 3, 1, 2, 3] :: writes c.log ∧
    d.isServer = false ∧ d.wolfSet = true ∧ d.state = .online ∧ d.cbs.serverConfig = true ∧
    serverConfigs (step Demo.env d (.outsideData (Demo.dgram [9]) [Demo.msg [14, 0, 3, 1, 2, 3]])).1.log = [[1, 2, 3]] ∧
    (step Demo.env d (.sendServerConfig [1, 2, 3])).2 = .invalidConnState ∧
    (step Demo.env c (.sendServerConfig (zeros 1348))).2 = .packetTooLarge ∧
    (step Demo.env c (.sendServerConfig (zeros 1347))).2 = .success := by decide +kernel

end Lightway
