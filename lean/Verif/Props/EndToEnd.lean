import Verif.Props.Push
import Verif.Props.AuthP
import Verif.Props.Login

/-!
# C88: log-in, end to end
-/

namespace Lightway
open Spec

/-- The host's authentication callbacks accept these credentials. -/
structure Spec.Approves (env : Env) (f : Conf) : Prop where
  userPass : ∀ l u p, Presents f (.authUserPass u p true) → env.authUserPass l u p = true
  token : ∀ l t, Presents f (.authToken t true) → env.authToken l t = true
  buffer : ∀ l ty b, Presents f (.authBuf ty b true) → env.authBuf l ty b = true

/-- The switch on approved credentials. -/
theorem authSwitch_approved (env : Env) (c : Conn) {f : Conf} (hf : ConfOk f) {m : Bytes} (hm : Carries f m)
    (hh : Handles c.cbs f.method) (ha : Approves env f) :
    ∃ d rc pkt, authSwitch env c m f.method.code = .verdict d true rc pkt := by
  obtain ⟨h1, h2, h3, h4⟩ := hm
  unfold authSwitch
  cases hmeth : f.method with
  | none => rw [hmeth] at hh; exact hh.elim
  | userPass =>
    rw [hmeth] at h4 hh
    have hh : c.cbs.auth = true := hh
    obtain ⟨l1, l2, l3, l4, l5⟩ := h4
    rw [if_pos (by rfl), if_pos hh, if_neg (by omega), rd_field (by omega), rd_field (by omega), wr_isSome (by rw [zeros_length]; omega)]
    simp only
    rw [ha.userPass c.log _ _ ⟨hmeth, l2, l3⟩]
    exact ⟨_, _, _, rfl⟩
  | token =>
    rw [hmeth] at h4 hh
    have hh : c.cbs.authToken = true := hh
    have h4 : m.length = 4 + num (field m 2 2) ∧ field m 4 (num (field m 2 2)) = f.secret := h4
    have hn := num_rdBe16 (bs := field m 2 2) (field_length (by omega))
    have hs : num (field m 2 2) = f.secret.length := by rw [← h4.2, field_length (by omega)]
    have hne : f.secret.length ≠ 0 := by
      have := hf.some (.inl hmeth); intro h; exact this (List.length_eq_zero_iff.mp h)
    rw [if_neg (by decide), if_pos (by rfl), if_pos hh, if_neg (by omega), rd_field (by omega)]
    simp only
    rw [if_neg (by rw [← hn]; omega), rd_field (by rw [← hn]; omega), ← hn, h4.2]
    simp only
    rw [ha.token c.log _ ⟨hmeth, rfl⟩]
    exact ⟨_, _, _, rfl⟩
  | buffer =>
    rw [hmeth] at h4 hh
    have hh : c.cbs.authBuf = true := hh
    have h4 : m.length = 4 + num (field m 2 2) ∧ field m 4 (num (field m 2 2)) = f.secret := h4
    have hn := num_rdBe16 (bs := field m 2 2) (field_length (by omega))
    have hs : num (field m 2 2) = f.secret.length := by rw [← h4.2, field_length (by omega)]
    have hne : f.secret.length ≠ 0 := by
      have := hf.some (.inr hmeth); intro h; exact this (List.length_eq_zero_iff.mp h)
    rw [if_neg (by decide), if_neg (by decide), if_pos (by rfl), if_pos hh, if_neg (by omega), rd_field (by omega)]
    simp only
    rw [if_neg (by rw [← hn]; omega), rd_field (by rw [← hn]; omega), ← hn, h4.2]
    simp only
    rw [show env.authBuf c.log Method.buffer.code f.secret = true from ha.buffer c.log _ _ ⟨hmeth, rfl, rfl⟩]
    exact ⟨_, _, _, rfl⟩

/-- **C88** (server) Whatever call made a client hand an AUTH message to TLS: a server that has finished its handshake —
logged in before or not — whose host approves the client's credentials and supplies a configuration is ONLINE when that
message arrived, and has answered with exactly one message, that configuration and its session id. -/
theorem C88_server_admits (env env' : Env) (pre ops' : List Op) (op : Op)
    (hpre : ∀ o ∈ pre, o.api ≠ .serverConnect) (hop : op.api ≠ .setter) {x : Log}
    (hx : (step env (run env pre) op).1.log = x ++ (run env pre).log)
    {m : Bytes} {ok : Bool} (hm : .sslCall (.write m) ok ∈ x) (h4 : m.head? = some 4)
    (buf : Bytes) (r : ReadRes) (hr : r.plain = m) :
    let d := run env' ops'
    let s := step env' d (.outsideData buf [r])
    Reading d → CanAuth d → Handles d.cbs (confOf pre).method → Approves env' (confOf pre) →
    (∀ l, (env'.populate l).1 = .success) → Accepts (d.emit (.api .outsideData)) buf →
    s.1.state = .online ∧
      ∃ w cfg, (∃ older, cfg = (env'.populate older).2) ∧ writes s.1.log = w :: writes d.log ∧ ConfigCarries cfg d.sessionId w := by
  intro d s hrd hca hh hap hpop hacc
  have hg := run_good env' ops'
  obtain ⟨-, hc⟩ := client_auth_msg env pre op hpre hop hx hm h4
  obtain ⟨e, he, hp, -⟩ := recv_one env' d buf r hrd hacc (by rw [hr]; intro h; rw [h] at h4; cases h4)
    (by rw [hr]; exact hc.2.2.1)
  have hf := he.fields
  rw [hr] at hp
  have hp : TFrame (processMessage env' (e.emit (.message m)) m).1 s.1 := hp
  have hca' : CanAuth (e.emit (.message m)) := by
    show e.isServer = true ∧ e.cbs.populate = true ∧ (e.cbs.auth = true ∨ e.cbs.authToken = true ∨ e.cbs.authBuf = true)
    rw [hf.2.1, hf.2.2.1]; exact hca
  have hcb : (e.emit (.message m)).cbs = d.cbs := hf.2.2.1
  have q2 : writes (e.emit (.message m)).log = writes d.log := by show writes e.log = _; exact he.writes
  have q3 : (e.emit (.message m)).sessionId = d.sessionId := by
    show e.sessionId = _
    obtain ⟨_, _, _, _, _, _, h, -⟩ := he; rw [h]
  rw [hp.writes, hp.keeps.1, processMessage_auth _ _ _ h4 hca'.1]
  show (handleAuthBuf env' (e.emit (.message m)) m).1.state = _ ∧
    ∃ w cfg, _ ∧ writes (handleAuthBuf env' (e.emit (.message m)) m).1.log = _ ∧ _
  rw [handleAuthBuf_eq env' _ m hca' hc.2.1]
  obtain ⟨q, rc, pkt, hsw⟩ := authSwitch_approved env' (e.emit (.message m)) (confOf_ok pre) hc (by rw [hcb]; exact hh) hap
  have hq := authSwitch_quiet env' (e.emit (.message m)) m (confOf pre).method.code
  have hk := authSwitch_kids env' (e.emit (.message m)) m (confOf pre).method.code
  rw [hsw] at hq hk ⊢
  obtain ⟨hq1, hq2⟩ := hq
  have hk : KeepIds (e.emit (.message m)) q := hk
  have hfin : authFinish env' (.verdict q true rc pkt) =
      if (env'.populate q.log).1 ≠ .success then
        (sendAuthDenied env' (q.emit (.populate (env'.populate q.log).1)), (env'.populate q.log).1, pkt)
      else (setState (sendMessage env' (q.emit (.populate (env'.populate q.log).1))
        (configIpv4Msg q.sessionId (env'.populate q.log).2)).1 .online, .success, pkt) := rfl
  rw [hfin, if_neg (by rw [hpop]; simp)]
  refine ⟨?_, configIpv4Msg q.sessionId (env'.populate q.log).2, (env'.populate q.log).2, ⟨q.log, rfl⟩, ?_, ?_⟩
  · show (setState _ .online).state = _
    unfold setState; split
    · assumption
    · rfl
  · rw [writes_setState, writes_sendMessage]
    show _ :: writes q.log = _
    rw [hq2, q2]
  · rw [hk.sess, q3]
    exact configCarries _ hg.sizes.sess

/-- **C88** Log-in, end to end.  A client handed an AUTH message to TLS in any call, be it the first or a repetition by
a nudge after a loss; the message reaches any server that has finished its handshake and whose host approves.  When the
server's answer reaches the client while it is AUTHENTICATING and its host accepts the configuration, both are ONLINE,
and the client's host was told exactly the addresses the server's host supplied. -/
theorem C88_login (env env' : Env) (pre opsc ops' : List Op) (op : Op)
    (hpre : ∀ o ∈ pre, o.api ≠ .serverConnect) (hop : op.api ≠ .setter) {x : Log}
    (hx : (step env (run env pre) op).1.log = x ++ (run env pre).log)
    {m : Bytes} {ok : Bool} (hm : .sslCall (.write m) ok ∈ x) (h4 : m.head? = some 4)
    (buf buf' : Bytes) (r r' : ReadRes) (hr : r.plain = m) :
    let c := run env opsc
    let d := run env' ops'
    let s := step env' d (.outsideData buf [r])
    let t := step env c (.outsideData buf' [r'])
    Reading d → CanAuth d → Handles d.cbs (confOf pre).method → Approves env' (confOf pre) →
    (∀ l, (env'.populate l).1 = .success) → Accepts (d.emit (.api .outsideData)) buf →
    c.state = .authenticating → c.wolfSet = true → c.isServer = false → c.cbs.netConfig = true →
    (∀ l g, env.netConfig l g = .success) → Accepts (c.emit (.api .outsideData)) buf' →
    (writes s.1.log).head? = some r'.plain →
    s.1.state = .online ∧ t.1.state = .online ∧
    ∃ cfg got, (∃ older, cfg = (env'.populate older).2) ∧ netConfigs t.1.log = got :: netConfigs c.log ∧
      cstr got.localIp = ipText cfg.localIp ∧ cstr got.peerIp = ipText cfg.peerIp ∧ cstr got.dnsIp = ipText cfg.dnsIp ∧
      got.mtu = 1350 ∧
      ∀ y, t.1.log = y ++ c.log → (∀ sess body, .input sess body ∈ y → sess = 0 ∨ sess = d.sessionId) →
        t.1.sessionId = d.sessionId := by
  intro c d s t hrd hca hh hap hpop hacc hst hw hcl hcb hok hacc' hw'
  obtain ⟨h1, w, cfg, hcfg, h2, h3⟩ := C88_server_admits env env' pre ops' op hpre hop hx hm h4 buf r hr hrd hca hh hap hpop hacc
  have h2 : writes s.1.log = w :: writes d.log := h2
  rw [h2] at hw'
  have hw' : w = r'.plain := Option.some.inj hw'
  rw [hw'] at h3
  obtain ⟨got, rc, g1, g2, ⟨gl, g0⟩, g3, g4, g5, g6, g7, g8, g9⟩ := C51_config_arrives env opsc cfg d.sessionId buf' r' h3 hst hw hcl hcb hacc'
  have hrc : rc = .success := by
    rw [g0]; exact hok gl got
  exact ⟨h1, g7 hrc, cfg, got, hcfg, g1, g3, g4, g5, g6, g9⟩

/-! ## A concrete log-in, with a lost answer -/

namespace Demo

/-- The client has sent its credentials; the answer was lost. -/
def waiting : List Op := clientOps.take 5

/-- The AUTH message the next nudge hands to TLS. -/
def nudged : Bytes := ((writes (run env (waiting ++ [.nudge])).log).head?).getD []

/-- A host that compares C strings. -/
def byName : Env := { env with authUserPass := fun _ u p => cstr u == [106, 111, 101] && cstr p == [112, 119] }

theorem byName_approves : Approves byName (confOf waiting) := by
  refine ⟨fun l u p h => ?_, fun l t h => ?_, fun l ty b h => ?_⟩
  · obtain ⟨-, h1, h2⟩ := h
    show (cstr u == _ && cstr p == _) = true
    rw [h1, h2]
    decide +kernel
  · exact absurd h.1 (by decide +kernel)
  · exact absurd h.1 (by decide +kernel)

end Demo

example : (run Demo.env Demo.waiting).state = .authenticating ∧ Demo.nudged.head? = some 4 ∧
    Demo.sentP (fun m => m == Demo.nudged) ((run Demo.env (Demo.waiting ++ [.nudge])).log.take 10) = true ∧
    (let d := run Demo.byName Demo.serverOps
     d.state = .online ∧ Reading d ∧ CanAuth d ∧ Handles d.cbs (confOf Demo.waiting).method) ∧
    Approves Demo.byName (confOf Demo.waiting) ∧ (∀ l, (Demo.byName.populate l).1 = .success) ∧
    (∀ l g, Demo.env.netConfig l g = .success) := by
  refine ⟨by decide +kernel, by decide +kernel, by decide +kernel, ?_, Demo.byName_approves,
    fun _ => rfl, fun _ _ => rfl⟩
  refine ⟨by decide +kernel, ?_, ?_, ?_⟩
  · unfold Reading; decide +kernel
  · unfold CanAuth; decide +kernel
  · show (run Demo.byName Demo.serverOps).cbs.auth = true; decide +kernel

/-- The two calls themselves: the server, already ONLINE, answers again, and the client is ONLINE. -/
example :
    let s := step Demo.byName (run Demo.byName Demo.serverOps) (.outsideData (Demo.dgram [9]) [Demo.msg Demo.nudged])
    let t := step Demo.env (run Demo.env (Demo.waiting ++ [.nudge]))
      (.outsideData (Demo.dgram [9]) [Demo.msg ((writes s.1.log).head?.getD [])])
    s.1.state = .online ∧ (writes s.1.log).length = (writes (run Demo.byName Demo.serverOps).log).length + 1 ∧ t.1.state = .online := by
  decide +kernel

end Lightway
