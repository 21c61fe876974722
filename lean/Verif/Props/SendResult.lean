import Verif.Props.Receive2
import Verif.Props.PmtudP
import Verif.Props.Life

/-!
# C91: the result of a sending call says what became of the data
-/

namespace Lightway
open Spec

namespace Spec

/-- The answer of TLS to a call made after the history `l`; without a TLS object every call fails. -/
def tlsAnswer (env : Env) (l : Log) (call : SslCall) : SslRes :=
  if hasTls l then env.ssl l call else { ok := false, val := -1, err := .badFuncArg, io := [] }

/-- What became of the writes to TLS in the history `x` of a call (newest first); `base` is the history before it. -/
def sendCodes (env : Env) (base : Log) : Log → List RC
  | [] => []
  | .sslCall (.write m) _ :: l => writeCode (tlsAnswer env (l ++ base) (.write m)) :: sendCodes env base l
  | _ :: l => sendCodes env base l

/-- How `rc` comes about as the result of offering an inside packet that passes the checks; `x` is the history of
the call. -/
inductive InsideEnd (env : Env) (pkt : Bytes) (stream : Bool) (pmtu : Nat) (base x : Log) (rc : RC) : Prop
  /-- everything before the last write was taken by TLS, and the result is what became of the last write -/
  | sent (earlier : List RC) (h : sendCodes env base x = rc :: earlier) (ok : ∀ r ∈ earlier, r = .success)
  /-- a plugin refused the packet: a drop counts as success -/
  | vetoed (p : Bytes) (r : PluginRet) (h : .pluginIngress p r ∈ x) (hr : r ≠ .success)
      (none : sendCodes env base x = []) (e : rc = if r = .drop then .success else .failed)
  /-- the plugins made the packet too long -/
  | grown (p : Bytes) (h : .pluginIngress p .success ∈ x) (none : sendCodes env base x = []) (e : rc = .failed)
  /-- a stream connection has no room for more than 1497 bytes -/
  | long (s : stream = true) (h : 1497 < pkt.length) (none : sendCodes env base x = []) (e : rc = .failed)
  /-- the discovered path MTU is too small (see C39) -/
  | narrow (h : pmtu < 552) (none : sendCodes env base x = []) (e : rc = .failed)

end Spec

theorem sendCodes_append (env : Env) (base x y : Log) : sendCodes env base (x ++ y) = sendCodes env (y ++ base) x ++ sendCodes env base y := by
  induction x with
  | nil => rfl
  | cons e x ih =>
    show sendCodes env base (e :: (x ++ y)) = _
    cases e with
    | sslCall call ok =>
      cases call <;> first | exact ih | (simp only [sendCodes, List.append_assoc, List.cons_append, ih])
    | _ => exact ih

theorem sendCodes_quiet {env : Env} {base x : Log} (h : ∀ e ∈ x, ∀ m ok, e ≠ .sslCall (.write m) ok) : sendCodes env base x = [] := by
  induction x with
  | nil => rfl
  | cons e x ih =>
    have ih := ih fun y hy => h y (.tail _ hy)
    have := h e (.head _)
    cases e with
    | sslCall call ok => cases call <;> first | exact ih | exact absurd rfl (this _ _)
    | _ => exact ih

theorem tlsAnswer_eq {c : Conn} (h : Tls c) (env : Env) (call : SslCall) :
    tlsAnswer env c.log call = if c.wolfSet then env.ssl c.log call else nullSslRes := by
  unfold tlsAnswer nullSslRes
  rw [← show c.wolfSet = hasTls c.log from h]

/-- Sending one message: what happens, and the result. -/
theorem sendMessage_sent (env : Env) (c : Conn) (m : Bytes) (ht : Tls c) :
    ∃ x, (sendMessage env c m).1.log = x ++ c.log ∧ sendCodes env c.log x = [(sendMessage env c m).2] ∧ Tls (sendMessage env c m).1 := by
  obtain ⟨l, ok, hl, hio⟩ := sendMessage_log env c m
  have hw : (sendMessage env c m).1.wolfSet = c.wolfSet := (sendMessage_frame env c m).nFrame.wolfSet
  have hcode : (sendMessage env c m).2 = writeCode (tlsAnswer env c.log (.write m)) := by
    rw [tlsAnswer_eq ht]
    have h : (sslDo env c (.write m)).2 = if c.wolfSet then env.ssl c.log (.write m) else nullSslRes := rfl
    unfold sendMessage
    generalize sslDo env c (.write m) = q at h ⊢
    obtain ⟨c1, r⟩ := q
    simp only at h ⊢
    rw [← h]
    unfold writeCode
    by_cases hok : r.ok = true
    · rw [if_pos hok, if_pos (.inl hok)]
    · rw [if_neg hok]
      cases he : r.err <;> simp [hok] <;> split <;> rfl
  refine ⟨l ++ [.sslCall (.write m) ok], by rw [hl]; simp, ?_, ?_⟩
  · rw [sendCodes_append, sendCodes_quiet (x := l) (fun e he m ok hh => by have := hio e he; rw [hh] at this; exact this.elim), hcode]
    rfl
  · exact ht.skip (x := l ++ [.sslCall (.write m) ok]) (by rw [hl]; simp) (fun e he => by
      rcases List.mem_append.mp he with he | he
      · exact (hio e he).notNew
      · simp at he; subst he; trivial) hw

theorem fragLoop_sent (env : Env) (size id : Nat) (h0 : 0 < size) (h1 : size + 7 ≤ 1500) (c : Conn) (off : Nat)
    (pkt : Bytes) (ht : Tls c) (hp : pkt ≠ []) :
    ∃ x earlier, (fragLoop env c size id off pkt).1.log = x ++ c.log ∧
      sendCodes env c.log x = (fragLoop env c size id off pkt).2 :: earlier ∧ ∀ r ∈ earlier, r = .success := by
  fun_induction fragLoop env c size id off pkt with
  | case1 c off pkt hz => exact absurd (List.length_eq_zero_iff.mp hz) hp
  | case2 => omega
  | case3 c off pkt hz hs d hd =>
    have : d.length ≤ size := by simp [d]; omega
    simp only [maxWireMtu] at hd
    omega
  | case4 c off pkt hz hs d hd c' rc he hrc =>
    obtain ⟨x, hx, hc, _⟩ := sendMessage_sent env c (fragMsg id off (decide (pkt.length > size)) d) ht
    rw [he] at hx hc
    exact ⟨x, [], hx, hc, by simp⟩
  | case5 c off pkt hz hs d hd c' rc he hrc ih =>
    obtain ⟨x, hx, hc, ht'⟩ := sendMessage_sent env c (fragMsg id off (decide (pkt.length > size)) d) ht
    rw [he] at hx hc ht'
    simp only at hx hc ht'
    have hrc : rc = .success := by simpa using hrc
    by_cases hd : pkt.drop size = []
    · rw [hd]
      unfold fragLoop
      rw [dif_pos (show ([] : Bytes).length = 0 from rfl)]
      exact ⟨x, [], hx, by rw [hc, hrc], by simp⟩
    · obtain ⟨y, earlier, hy, hcy, hok⟩ := ih ht' hd
      refine ⟨y ++ x, earlier ++ [.success], by rw [hy, hx]; simp, ?_, ?_⟩
      · rw [sendCodes_append, ← hx, hcy, hc, hrc]; rfl
      · intro r hr
        rcases List.mem_append.mp hr with hr | hr
        · exact hok r hr
        · simpa using hr

/-- A chain that was not asked leaves the packet alone. -/
theorem Chain.ingress_idle (ch : Chain) (log : Log) (p : Bytes) (cap : Nat) (h : (Chain.ingress ch log p cap).1 = log) :
    (Chain.ingress ch log p cap).2 = (p, .success) := by
  have hne : ∀ (e : Effect) (l log : Log), l ++ e :: log ≠ log := by
    intro e l log hh
    have := congrArg List.length hh
    simp at this
    omega
  induction ch with
  | nil => rfl
  | cons n rest ih =>
    unfold Chain.ingress at h ⊢
    cases hn : n.bind (·.ingress) with
    | none => rw [hn] at h; exact ih h
    | some f =>
      rw [hn] at h
      simp only at h
      exfalso
      split at h
      · exact hne _ [] _ h
      · exact hne _ [] _ h
      · obtain ⟨l, hl, _⟩ := Chain.ingress_log rest (.pluginIngress p (f log p cap).1 :: log) (f log p cap).2 cap
        rename_i heq
        exact hne _ l _ (hl.symm.trans h)

theorem insidePacket_end (env : Env) (c : Conn) (pkt : Bytes) (ht : Tls c) (hpm : PmRange c.pmtud)
    (hon : c.state = .online) (h20 : 20 ≤ pkt.length) (hcap : pkt.length ≤ sizeSub c.outsideMtu packetOverhead)
    (hv : ipv4Valid pkt = true) :
    ∃ x, (insidePacket env c pkt).1.log = x ++ c.log ∧
      InsideEnd env pkt (decide (c.connType = .stream)) (effectivePmtu c) c.log x (insidePacket env c pkt).2 := by
  have hr := effectivePmtu_range hpm
  unfold insidePacket
  rw [if_neg (by simp [hon]), if_neg (by omega)]
  simp only
  rw [if_neg (Nat.not_lt.mpr hcap), if_neg (by simp [hv])]
  by_cases hp : effectivePmtu c < 552
  · rw [clampMss_small pkt h20 (by omega)]
    exact ⟨[], rfl, .narrow hp rfl rfl⟩
  obtain ⟨q, hq, hql⟩ := clampMss_ok (pkt := pkt) (mss := effectivePmtu c - 40) (by omega) (by omega) hv
  rw [hq]
  simp only [ne_eq, not_true_eq_false, if_false]
  obtain ⟨l, hl, hruns⟩ := Chain.ingress_runs c.insidePlugins c.log q (sizeSub c.outsideMtu packetOverhead)
  have hidle := Chain.ingress_idle c.insidePlugins c.log q (sizeSub c.outsideMtu packetOverhead)
  generalize sizeSub c.outsideMtu packetOverhead = cap at *
  generalize c.insidePlugins.ingress c.log q cap = r at *
  obtain ⟨lg, p, rc⟩ := r
  simp only at hl hruns hidle ⊢
  have hpl : ∀ e ∈ l, ∃ p r, e = .pluginIngress p r := by
    intro e he
    rcases hruns with ⟨h1, _⟩ | ⟨p1, r1, l1, h1, _, _, h4⟩
    · obtain ⟨p', h⟩ := h1 e he; exact ⟨_, _, h⟩
    · rw [h1] at he
      rcases List.mem_cons.mp he with rfl | he
      · exact ⟨_, _, rfl⟩
      · obtain ⟨p', h⟩ := h4 e he; exact ⟨_, _, h⟩
  have hno : ∀ base, sendCodes env base l = [] := fun base => sendCodes_quiet fun e he m ok hh => by
    obtain ⟨p, r, h⟩ := hpl e he; rw [h] at hh; cases hh
  rcases hruns with ⟨hall, hrc⟩ | ⟨p1, r1, l1, h1, h2, h3, h4⟩
  · subst hrc
    rw [if_neg (by simp)]
    rw [if_neg (by simp)]
    have htls : Tls { c with log := lg } := ht.skip (x := l) hl (fun e he => by
      obtain ⟨p, h⟩ := hall e he; rw [h]; trivial) rfl
    have grew : p ≠ q → ∃ p', .pluginIngress p' .success ∈ l := by
      intro hne
      cases l with
      | nil => exact absurd (by have := hidle hl; injection this) hne
      | cons e l => obtain ⟨p', h⟩ := hall e (.head _); exact ⟨p', by rw [h]; simp⟩
    have add : ∀ (d : Conn) (rc : RC), (∃ x earlier, d.log = x ++ lg ∧ sendCodes env lg x = rc :: earlier ∧ ∀ r ∈ earlier, r = .success) →
        ∃ x, d.log = x ++ c.log ∧ InsideEnd env pkt (decide (c.connType = .stream)) (effectivePmtu c) c.log x rc := by
      intro d rc ⟨x, earlier, hx, hc, ho⟩
      refine ⟨x ++ l, by rw [hx, hl]; simp, .sent earlier ?_ ho⟩
      rw [sendCodes_append, hno, ← hl, hc, List.append_nil]
    by_cases hpc : p.length > cap
    · rw [if_pos hpc]
      obtain ⟨p', hp'⟩ := grew (by intro hh; rw [hh] at hpc; omega)
      exact ⟨l, hl, .grown p' hp' (hno _) rfl⟩
    · rw [if_neg hpc]
      split
      · rename_i hsf
        split
        · rename_i hlen
          by_cases hpq : p = q
          · subst hpq
            refine ⟨l, hl, .long ?_ (by simp only [maxWireMtu] at hlen; omega) (hno _) rfl⟩
            simp only [shouldFragment, Bool.not_eq_true', Bool.and_eq_false_iff, decide_eq_false_iff_not] at hsf
            rcases hsf with h | h
            · cases hc : c.connType
              · simp [hc] at h
              · rfl
            · simp only [maxWireMtu] at hlen; omega
          · obtain ⟨p', hp'⟩ := grew hpq
            exact ⟨l, hl, .grown p' hp' (hno _) rfl⟩
        · obtain ⟨x, hx, hc, _⟩ := sendMessage_sent env { c with log := lg } (dataMsg { c with log := lg } p) htls
          exact add _ _ ⟨x, [], hx, hc, by simp⟩
      · rename_i hsf
        simp only [shouldFragment, Bool.not_eq_true', Bool.and_eq_false_iff, decide_eq_false_iff_not,
          not_or, Decidable.not_not] at hsf
        have hgt : effectivePmtu c < p.length := by have := hsf.2; omega
        unfold fragAndSend
        simp only
        rw [if_neg (by omega)]
        refine add _ _ (fragLoop_sent env _ _ (by omega) (by omega)
          { c with log := lg, fragNextId := (c.fragNextId + 1) % 65536 } 0 p htls ?_)
        intro hh; rw [hh] at hgt; simp at hgt
  · have hmem : .pluginIngress p1 r1 ∈ l := by rw [h1]; simp
    by_cases hd : r1 = .drop
    · rw [if_pos hd] at h3
      rw [h3, if_pos rfl]
      exact ⟨l, hl, .vetoed p1 r1 hmem h2 (hno _) (by rw [if_pos hd])⟩
    · rw [if_neg hd] at h3
      rw [h3, if_neg (by simp), if_pos (by simp)]
      exact ⟨l, hl, .vetoed p1 r1 hmem h2 (hno _) (by rw [if_neg hd])⟩

/-- **C91, inside packets.**  An inside packet that passes the checks of C07: the result is what became of the last
write to TLS, all the earlier ones (of a packet sent in fragments) having been taken, or nothing was written because
a plugin refused the packet or made it too long, because a stream has no room for it, or because the path MTU found is
too small. -/
theorem C91_inside_result (env : Env) (ops : List Op) (pkt : Bytes)
    (h : inside_refusal (run env ops).state (run env ops).outsideMtu pkt = none) {x : Log}
    (hx : (run env (ops ++ [.insidePacket pkt])).log = x ++ (run env ops).log) :
    InsideEnd env pkt (decide ((run env ops).connType = .stream)) (effectivePmtu (run env ops)) (run env ops).log x
      (step env (run env ops) (.insidePacket pkt)).2 := by
  have hg := run_good env ops
  have htls := run_tls env ops
  rw [run_snoc] at hx
  generalize run env ops = c at *
  obtain ⟨o, hi⟩ := hg.inv
  unfold inside_refusal at h
  split at h
  · cases h
  rename_i hs
  have hs : c.state = .online := by simpa using hs
  have hm : 114 < c.outsideMtu ∧ c.outsideMtu < 65536 := by
    rcases hg.sizes.mtu with h2 | h2
    · exact absurd h2 (hg.sizes.online hs)
    · exact h2
  split at h
  · cases h
  rename_i h1
  split at h
  · cases h
  rename_i h2
  unfold insideLimit at h2
  split at h
  · cases h
  rename_i h3
  have hv : ipv4Valid pkt = true := by
    cases pkt with
    | nil => simp at h1
    | cons b rest => simp [ipv4Valid] at h3 ⊢; simp at h1; exact ⟨by omega, h3⟩
  obtain ⟨y, hy, he⟩ := insidePacket_end env (c.emit (.api .insidePacket)) pkt (htls.trans rfl) hi.pm hs (by omega)
    (by show _ ≤ sizeSub c.outsideMtu packetOverhead; rw [capacity_eq (by omega) hm.2]; omega) hv
  have hlog : (step env c (.insidePacket pkt)).1.log = .ret (insidePacket env (c.emit (.api .insidePacket)) pkt).2 :: (insidePacket env (c.emit (.api .insidePacket)) pkt).1.log := rfl
  have hres : (step env c (.insidePacket pkt)).2 = (insidePacket env (c.emit (.api .insidePacket)) pkt).2 := rfl
  rw [hres]
  have hxe : x = .ret (insidePacket env (c.emit (.api .insidePacket)) pkt).2 :: y ++ [.api .insidePacket] := by
    refine List.append_cancel_right (bs := c.log) (hx.symm.trans ?_)
    rw [hlog, hy]; simp [Conn.emit]
  have hcodes : sendCodes env c.log x = sendCodes env (c.emit (.api .insidePacket)).log y := by
    rw [hxe, sendCodes_append]
    show sendCodes env ([.api .insidePacket] ++ c.log) y ++ [] = _
    rw [List.append_nil]; rfl
  have hsub : ∀ e ∈ y, e ∈ x := fun e he => by rw [hxe]; simp [he]
  cases he with
  | sent earlier h ok => exact .sent earlier (by rw [hcodes]; exact h) ok
  | vetoed p r h hr hn e => exact .vetoed p r (hsub _ h) hr (by rw [hcodes]; exact hn) e
  | grown p h hn e => exact .grown p (hsub _ h) (by rw [hcodes]; exact hn) e
  | long s h hn e => exact .long s h (by rw [hcodes]; exact hn) e
  | narrow h hn e => exact .narrow h (by rw [hcodes]; exact hn) e

/-- **C91, keepalives.**  Off line a keepalive is refused and nothing is written; on line exactly one message is
written, and the result is what became of it. -/
theorem C91_keepalive_result (env : Env) (ops : List Op) {x : Log}
    (hx : (run env (ops ++ [.keepalive])).log = x ++ (run env ops).log) :
    ((run env ops).state ≠ .online → (step env (run env ops) .keepalive).2 = .invalidConnState ∧
      sendCodes env (run env ops).log x = []) ∧
    ((run env ops).state = .online →
      sendCodes env (run env ops).log x = [(step env (run env ops) .keepalive).2]) := by
  have htls := run_tls env ops
  rw [run_snoc] at hx
  generalize run env ops = c at *
  have hlog : (step env c .keepalive).1.log = .ret (keepalive env (c.emit (.api .keepalive))).2 :: (keepalive env (c.emit (.api .keepalive))).1.log := rfl
  have hres : (step env c .keepalive).2 = (keepalive env (c.emit (.api .keepalive))).2 := rfl
  rw [hres]
  have hcodes : ∀ y, (keepalive env (c.emit (.api .keepalive))).1.log = y ++ (c.emit (.api .keepalive)).log →
      sendCodes env c.log x = sendCodes env (c.emit (.api .keepalive)).log y := by
    intro y hy
    have hxe : x = .ret (keepalive env (c.emit (.api .keepalive))).2 :: y ++ [.api .keepalive] := by
      refine List.append_cancel_right (bs := c.log) (hx.symm.trans ?_)
      rw [hlog, hy]; simp [Conn.emit]
    rw [hxe, sendCodes_append]
    show sendCodes env ([.api .keepalive] ++ c.log) y ++ [] = _
    rw [List.append_nil]; rfl
  constructor
  · intro h
    have he : keepalive env (c.emit (.api .keepalive)) = (c.emit (.api .keepalive), .invalidConnState) := by
      unfold keepalive; exact if_pos h
    rw [he] at hcodes ⊢
    exact ⟨rfl, hcodes [] rfl⟩
  · intro h
    obtain ⟨y, hy, hc, _⟩ := sendMessage_sent env
      { c.emit (.api .keepalive) with pingNextId := (c.pingNextId + 1) % 65536 } (pingMsg c.pingNextId) (htls.trans rfl)
    have h1 : (keepalive env (c.emit (.api .keepalive))).2 = (sendMessage env
        { c.emit (.api .keepalive) with pingNextId := (c.pingNextId + 1) % 65536 } (pingMsg c.pingNextId)).2 := by
      unfold keepalive
      rw [if_neg (show ¬ (c.emit (.api .keepalive)).state ≠ .online from fun hh => hh h)]
      simp only; split <;> rfl
    have h2 : (keepalive env (c.emit (.api .keepalive))).1.log = (sendMessage env
        { c.emit (.api .keepalive) with pingNextId := (c.pingNextId + 1) % 65536 } (pingMsg c.pingNextId)).1.log := by
      unfold keepalive
      rw [if_neg (show ¬ (c.emit (.api .keepalive)).state ≠ .online from fun hh => hh h)]
      simp only; split <;> rfl
    rw [hcodes y (h2.trans hy), h1]
    exact hc

/-- **C91, pushed configuration.**  A pushed configuration is refused, and nothing written, by a client, before the
link is up or after the disconnection, and when it is over 1347 bytes; otherwise exactly one message is written, and
the result is what became of it. -/
theorem C91_server_config_result (env : Env) (ops : List Op) (buf : Bytes) {x : Log}
    (hx : (run env (ops ++ [.sendServerConfig buf])).log = x ++ (run env ops).log) :
    sendCodes env (run env ops).log x =
        (if (run env ops).isServer = true ∧
            (run env ops).state ∈ [ConnState.linkUp, .authenticating, .configuring, .online] ∧ buf.length ≤ 1347
          then [(step env (run env ops) (.sendServerConfig buf)).2] else []) ∧
    ((run env ops).isServer = false → (step env (run env ops) (.sendServerConfig buf)).2 = .invalidConnState) ∧
    ((run env ops).state ∉ [ConnState.linkUp, .authenticating, .configuring, .online] →
      (step env (run env ops) (.sendServerConfig buf)).2 = .invalidConnState) ∧
    ((run env ops).isServer = true → (run env ops).state ∈ [ConnState.linkUp, .authenticating, .configuring, .online] →
      1347 < buf.length → (step env (run env ops) (.sendServerConfig buf)).2 = .packetTooLarge) := by
  have htls := run_tls env ops
  rw [run_snoc] at hx
  generalize run env ops = c at *
  have hlog : (step env c (.sendServerConfig buf)).1.log = .ret (sendServerConfig env (c.emit (.api .sendServerConfig)) buf).2 :: (sendServerConfig env (c.emit (.api .sendServerConfig)) buf).1.log := rfl
  have hres : (step env c (.sendServerConfig buf)).2 = (sendServerConfig env (c.emit (.api .sendServerConfig)) buf).2 := rfl
  rw [hres]
  have hcodes : ∀ y, (sendServerConfig env (c.emit (.api .sendServerConfig)) buf).1.log = y ++ (c.emit (.api .sendServerConfig)).log →
      sendCodes env c.log x = sendCodes env (c.emit (.api .sendServerConfig)).log y := by
    intro y hy
    have hxe : x = .ret (sendServerConfig env (c.emit (.api .sendServerConfig)) buf).2 :: y ++ [.api .sendServerConfig] := by
      refine List.append_cancel_right (bs := c.log) (hx.symm.trans ?_)
      rw [hlog, hy]; simp [Conn.emit]
    rw [hxe, sendCodes_append]
    show sendCodes env ([.api .sendServerConfig] ++ c.log) y ++ [] = _
    rw [List.append_nil]; rfl
  have hv : validStateForServerConfig c = true ↔ c.state ∈ [ConnState.linkUp, .authenticating, .configuring, .online] := by
    unfold validStateForServerConfig; simp [or_assoc]
  have hv' : validStateForServerConfig (c.emit (.api .sendServerConfig)) = validStateForServerConfig c := rfl
  have hsv : (c.emit (.api .sendServerConfig)).isServer = c.isServer := rfl
  by_cases h1 : c.isServer = true
  · by_cases h2 : validStateForServerConfig c = true
    · by_cases h3 : buf.length ≤ 1347
      · have he : sendServerConfig env (c.emit (.api .sendServerConfig)) buf =
            sendMessage env (c.emit (.api .sendServerConfig)) (serverConfigMsg buf) := by
          unfold sendServerConfig
          rw [hsv, hv', if_neg (by simp [h1]), if_neg (by simp [h2]), if_neg (by show ¬ buf.length > 1347; omega)]
        rw [he] at hcodes ⊢
        obtain ⟨y, hy, hc, _⟩ := sendMessage_sent env (c.emit (.api .sendServerConfig)) (serverConfigMsg buf) (htls.trans rfl)
        refine ⟨?_, by simp [h1], fun h => absurd (hv.mp h2) h, fun _ _ h => by omega⟩
        rw [hcodes y hy, if_pos ⟨h1, hv.mp h2, h3⟩]
        exact hc
      · have he : sendServerConfig env (c.emit (.api .sendServerConfig)) buf = (c.emit (.api .sendServerConfig), .packetTooLarge) := by
          unfold sendServerConfig
          rw [hsv, hv', if_neg (by simp [h1]), if_neg (by simp [h2]), if_pos (by show buf.length > 1347; omega)]
        rw [he] at hcodes ⊢
        refine ⟨?_, by simp [h1], fun h => absurd (hv.mp h2) h, fun _ _ h => rfl⟩
        rw [hcodes [] rfl, if_neg (fun h => h3 h.2.2)]
        rfl
    · have he : sendServerConfig env (c.emit (.api .sendServerConfig)) buf = (c.emit (.api .sendServerConfig), .invalidConnState) := by
        unfold sendServerConfig
        rw [hsv, hv', if_neg (by simp [h1]), if_pos (by simp [h2])]
      rw [he] at hcodes ⊢
      refine ⟨?_, by simp [h1], fun h => rfl, fun _ h _ => absurd (hv.mpr h) h2⟩
      rw [hcodes [] rfl, if_neg (fun h => h2 (hv.mpr h.2.1))]
      rfl
  · have he : sendServerConfig env (c.emit (.api .sendServerConfig)) buf = (c.emit (.api .sendServerConfig), .invalidConnState) := by
      unfold sendServerConfig
      rw [hsv, if_pos (by simp [h1])]
    rw [he] at hcodes ⊢
    refine ⟨?_, fun _ => rfl, fun h => rfl, fun h => absurd h h1⟩
    rw [hcodes [] rfl, if_neg (fun h => h1 h.1)]
    rfl

/-- As `Demo.env`, but TLS has no room for short fragments and for PINGs. -/
def Demo.stingy : Env := { Demo.env with
  ssl := fun l c => match c with
    | .write m => if (m.head? = some 15 ∧ m.length < 100) ∨ m.head? = some 2
        then { ok := false, val := -1, err := .wantWrite, io := [] } else Demo.env.ssl l (.write m)
    | c => Demo.env.ssl l c }

/-- What a call added to the history. -/
def Demo.added (env : Env) (ops : List Op) (o : Op) : Log :=
  (run env (ops ++ [o])).log.take ((run env (ops ++ [o])).log.length - (run env ops).log.length)

/-- A packet sent in two fragments, of which TLS takes only the first: the call passes the checks and reports it. -/
example :
    inside_refusal (run Demo.stingy Demo.clientOps).state (run Demo.stingy Demo.clientOps).outsideMtu bigPkt = none ∧
    (run Demo.stingy (Demo.clientOps ++ [.insidePacket bigPkt])).log =
      Demo.added Demo.stingy Demo.clientOps (.insidePacket bigPkt) ++ (run Demo.stingy Demo.clientOps).log ∧
    sendCodes Demo.stingy (run Demo.stingy Demo.clientOps).log (Demo.added Demo.stingy Demo.clientOps (.insidePacket bigPkt)) =
      [.wantWrite, .success] ∧
    (step Demo.stingy (run Demo.stingy Demo.clientOps) (.insidePacket bigPkt)).2 = .wantWrite := by
  decide +kernel

/-- A keepalive on line that TLS takes, one that it does not take, and one before the connection. -/
example :
    (run Demo.env Demo.clientOps).state = .online ∧
    (step Demo.env (run Demo.env Demo.clientOps) .keepalive).2 = .success ∧
    (run Demo.stingy Demo.clientOps).state = .online ∧
    (step Demo.stingy (run Demo.stingy Demo.clientOps) .keepalive).2 = .wantWrite ∧
    (step Demo.env (run Demo.env []) .keepalive).2 = .invalidConnState := by
  decide +kernel

/-- A server on line pushing a configuration that fits, and one that does not. -/
example :
    (run Demo.env Demo.serverOps).isServer = true ∧ (run Demo.env Demo.serverOps).state = .online ∧
    (step Demo.env (run Demo.env Demo.serverOps) (.sendServerConfig [1, 2, 3])).2 = .success ∧
    (step Demo.env (run Demo.env Demo.serverOps) (.sendServerConfig (zeros 1348))).2 = .packetTooLarge := by
  decide +kernel

end Lightway
