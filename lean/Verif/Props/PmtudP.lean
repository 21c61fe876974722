import Verif.Proofs.PmWeight
import Verif.Props.Data
import Verif.Props.MssP
import Verif.Props.RoundTrip
import Verif.Props.Demo

/-!
# Path-MTU discovery (C34–C39)
-/

namespace Lightway
open Spec

/-! ## C34 -/

/-- **C34** he_conn_get_effective_pmtu returns 1350 or a size between 512 and 1416: in every history in which no
connect call follows the start of discovery. -/
theorem C34_range (env : Env) {pre post : List Op} (h : ConnectedOnce pre post) :
    let p := effectivePmtu (run env (pre ++ post))
    p = 1350 ∨ 512 ≤ p ∧ p ≤ 1416 := by
  intro p
  show effectivePmtu _ = 1350 ∨ _
  have key := run_pmC env h
  generalize hp : p = q
  rw [show p = effectivePmtu (run env (pre ++ post)) from rfl] at hp
  rw [hp]
  unfold effectivePmtu at hp
  split at hp
  · exact .inl hp.symm
  · rename_i hn
    rcases key with h | h
    · exact absurd (.inl (by rw [h.pm])) hn
    · rcases h.ok.1.eff with h0 | h0
      · exact absurd (.inl h0.1) hn
      · rw [← hp]; exact .inr h0

/-- **C34** (any history, also with connect calls after discovery was started): between 506 and 1416. -/
theorem C34_range_any (env : Env) (ops : List Op) :
    506 ≤ effectivePmtu (run env ops) ∧ effectivePmtu (run env ops) ≤ 1416 := by
  obtain ⟨o, hi⟩ := (run_good env ops).inv
  exact effectivePmtu_range hi.pm

/-! ## C35: bursts -/

/-- **C35** (bursts) At every point of the history at most three probes of a size were sent since the last accepted
acknowledgement, announced discovery state or rest of a minute. -/
theorem C35_bursts (env : Env) {pre post : List Op} (h : ConnectedOnce pre post) :
    BurstsOk (pmEvents (run env (pre ++ post)).log) := by
  rcases run_pmC env h with h | h
  · exact h.ev.bursts
  · exact h.ok.1.bursts

/-! ## C36 -/

/-- **C36** (restricted) If no PONG with identifier 0 was ever received, then when discovery is complete the effective
PMTU was acknowledged — a probe of at least that size was sent and then answered by the peer — unless it is exactly
1250.  Missing: the value 1250 (not always acknowledged, see `C36_unacknowledged`) and PONGs with identifier 0 (see
`C36_forged`). -/
theorem C36_acknowledged_partial (env : Env) {pre post : List Op} (h : ConnectedOnce pre post)
    (hz : NoZeroPong (pmEvents (run env (pre ++ post)).log))
    (hc : pmAt (pmEvents (run env (pre ++ post)).log) = .searchComplete)
    (hb : effectivePmtu (run env (pre ++ post)) ≠ 1250) :
    Acked (pmEvents (run env (pre ++ post)).log) (effectivePmtu (run env (pre ++ post))) := by
  have key := run_pmC env h
  generalize run env (pre ++ post) = c at key hz hb hc ⊢
  have hst := key.state
  rw [hc] at hst
  rcases key with h | h
  · rw [h.pm] at hst; cases hst
  · have hk := h.ok.1.known hz
    rcases h.ok.1.eff with h0 | h0
    · exact absurd hst.symm h0.2
    · have h0 : 512 ≤ c.pmtud.effective ∧ _ := h0
      have e : effectivePmtu c = c.pmtud.effective := by
        unfold effectivePmtu
        rw [if_neg (by
          rintro (h | h)
          · omega
          · exact h hst.symm)]
      rw [e] at hb ⊢
      rcases hk with hk | hk | hk
      · exact absurd (show c.pmtud.effective = 0 from hk) (by omega)
      · exact absurd hk hb
      · exact hk

namespace Demo

/-- The peer's PONG with identifier `id`. -/
def pongOp (id : UInt8) : Op := .outsideData (dgram [1]) [msg [3, 0, id, 0, 0]]

def timeouts (n : Nat) : List Op := List.replicate n .pmtudTimeout

/-- No answered probe reached size `n`. -/
def unacked (ev : List PmEv) (n : Nat) : Bool :=
  ev.all (fun e => match e with | .probe id m => !(ev.contains (.pong id)) || decide (m < n) | _ => true)

theorem not_acked {ev : List PmEv} {n : Nat} (h : unacked ev n = true) : ¬Acked ev n := by
  rintro ⟨id, m, a, b, h1, h2, h3⟩
  have hm : PmEv.probe id m ∈ ev := by rw [h2]; exact List.mem_append_right _ (.tail _ h3)
  have hp : PmEv.pong id ∈ ev := by rw [h2]; exact List.mem_append_right _ (.head _)
  have := List.all_eq_true.mp h _ hm
  simp only [List.contains_iff_mem.mpr hp, Bool.not_true, Bool.false_or, decide_eq_true_eq] at this
  omega

/-- Probes of 1250 bytes are lost, a probe of 512 bytes is answered, then all larger ones are lost. -/
def lossy : List Op := [.startPmtud] ++ timeouts 3 ++ [pongOp 4] ++ timeouts 6

/-- The TLS layer cannot send messages of more than 1253 bytes. -/
def narrowEnv : Env :=
  { env with ssl := fun l c => match c with
      | .write m => if m.length ≤ 1253 then env.ssl l (.write m) else { ok := false, val := -1, err := .wantWrite, io := [] }
      | c => env.ssl l c }

/-- A keepalive, one honest PONG for the first probe, then six PONGs with identifier 0. -/
def forgery : List Op := [.keepalive, .startPmtud, pongOp 2] ++ List.replicate 6 (pongOp 0)

end Demo

/-- **C36 is false in general.** Only a probe of 512 bytes was ever answered, yet discovery completes with 1250. -/
theorem C36_unacknowledged : ∃ pre post, ConnectedOnce pre post ∧
    let c := run Demo.env (pre ++ post)
    c.state = .online ∧ NoZeroPong (pmEvents c.log) ∧ pmAt (pmEvents c.log) = .searchComplete ∧
    effectivePmtu c = 1250 ∧ Acked (pmEvents c.log) 512 ∧ ¬Acked (pmEvents c.log) 513 := by
  refine ⟨Demo.clientOps, Demo.lossy, ⟨?_, ?_⟩, ?_, ?_, ?_, ?_, ?_, Demo.not_acked (by decide +kernel)⟩
  · intro o ho; simp [Demo.clientOps, Demo.clientOpsWith] at ho; rcases ho with rfl | rfl | rfl | rfl | rfl | rfl <;> simp
  · intro o ho
    have : o = .startPmtud ∨ o = .pmtudTimeout ∨ o = Demo.pongOp 4 := by
      simp [Demo.lossy, Demo.timeouts] at ho
      rcases ho with h | h | h | h <;> simp [h]
    rcases this with rfl | rfl | rfl <;> simp [IsConnect, Op.api, Demo.pongOp]
  · decide +kernel
  · show PmEv.pong 0 ∉ _; decide +kernel
  · decide +kernel
  · decide +kernel
  · refine ⟨4, 512, (pmEvents (run Demo.env (Demo.clientOps ++ Demo.lossy)).log).takeWhile (· != .pong 4),
      ((pmEvents (run Demo.env (Demo.clientOps ++ Demo.lossy)).log).dropWhile (· != .pong 4)).tail, Nat.le_refl _, ?_, ?_⟩
    · decide +kernel
    · decide +kernel

/-- **C36 is false with forged PONGs.** A peer that answers PING number 0, which was never sent, raises the effective
PMTU to 1416 although no probe above 1250 bytes even left the host. -/
theorem C36_forged : ∃ pre post, ConnectedOnce pre post ∧
    let c := run Demo.narrowEnv (pre ++ post)
    c.state = .online ∧ pmAt (pmEvents c.log) = .searchComplete ∧ effectivePmtu c = 1416 ∧ ¬Acked (pmEvents c.log) 1251 := by
  refine ⟨Demo.clientOps, Demo.forgery, ⟨?_, ?_⟩, ?_, ?_, ?_, Demo.not_acked (by decide +kernel)⟩
  · intro o ho; simp [Demo.clientOps, Demo.clientOpsWith] at ho; rcases ho with rfl | rfl | rfl | rfl | rfl | rfl <;> simp
  · intro o ho
    have : o = .keepalive ∨ o = .startPmtud ∨ o = Demo.pongOp 2 ∨ o = Demo.pongOp 0 := by
      simp [Demo.forgery] at ho
      rcases ho with h | h | h | h <;> simp [h]
    rcases this with rfl | rfl | rfl | rfl <;> simp [IsConnect, Op.api, Demo.pongOp]
  · decide +kernel
  · decide +kernel
  · decide +kernel

/-- Non-vacuity of `C36_acknowledged_partial`: 1250, 1282 and 1314 answered, 1346 and 1322 lost: 1314. -/
example : let c := run Demo.env (Demo.clientOps ++ ([.startPmtud, Demo.pongOp 1, Demo.pongOp 2, Demo.pongOp 3] ++ Demo.timeouts 6))
    pmAt (pmEvents c.log) = .searchComplete ∧ effectivePmtu c = 1314 ∧ PmEv.pong 0 ∉ pmEvents c.log := by decide +kernel

/-! ## C37 -/

/-- Number of calls of he_conn_pmtud_probe_timeout. -/
def Spec.timeoutCalls (ops : List Op) : Nat := ops.countP (fun o => decide (o.api = .pmtudTimeout))

theorem runFrom_snoc (env : Env) (c : Conn) (ops : List Op) (op : Op) :
    runFrom env c (ops ++ [op]) = (step env (runFrom env c ops) op).1 := by
  simp [runFrom]

theorem search_budget {env : Env} {c : Conn} (hg : Good env c) (hc : PmC c) (mid : List Op) (hmid : ∀ o ∈ mid, ¬IsConnect o.api)
    (hall : ∀ a b, mid = a ++ b → (runFrom env c a).state = .online ∧ Probing (pmAt (pmEvents (runFrom env c a).log))) :
    weight (runFrom env c mid).pmtud + ackCount (pmEvents (runFrom env c mid).log) + timeoutCalls mid ≤
      weight c.pmtud + ackCount (pmEvents c.log) ∧ PmC (runFrom env c mid) := by
  induction h : mid.length generalizing c mid with
  | zero =>
    have : mid = [] := List.eq_nil_of_length_eq_zero h
    subst this
    exact ⟨Nat.le_refl _, hc⟩
  | succ n ih =>
    cases mid with
    | nil => cases h
    | cons op rest =>
      have hop : ¬IsConnect op.api := hmid op (.head _)
      have h0 := hall [] (op :: rest) rfl
      have h1 := hall [op] rest rfl
      have hc' : PmC (step env c op).1 := hc.step hg op hop
      have h0' : Probing c.pmtud.state := by rw [← hc.state]; exact h0.2
      have h1' : Probing (step env c op).1.pmtud.state := by rw [← hc'.state]; exact h1.2
      have hw := step_weight hg op hop hc h0.1 h0' h1'
      have hr := ih (hg.step op) hc' rest (fun o ho => hmid o (.tail _ ho))
        (fun a b e => hall (op :: a) b (by rw [e]; rfl)) (by simpa using h)
      refine ⟨?_, hr.2⟩
      have e : timeoutCalls (op :: rest) = timeoutCalls rest + if op.api = .pmtudTimeout then 1 else 0 := by
        show List.countP _ _ = List.countP _ _ + _
        rw [List.countP_cons]
        simp
      have e2 : runFrom env c (op :: rest) = runFrom env (step env c op).1 rest := rfl
      rw [e, e2]
      have := hr.1
      omega

/-- **C37** As long as the connection is ONLINE and discovery is in its BASE or SEARCHING phase, the host's timeouts and
the accepted acknowledgements number at most 579: afterwards the phase is left (for SEARCH_COMPLETE or ERROR). -/
theorem C37_search_ends (env : Env) {pre post mid : List Op} (h : ConnectedOnce pre (post ++ mid))
    (hall : ∀ a b, mid = a ++ b → (run env (pre ++ post ++ a)).state = .online ∧
      Probing (pmAt (pmEvents (run env (pre ++ post ++ a)).log))) :
    timeoutCalls mid + ackCount (pmEvents (run env (pre ++ post ++ mid)).log) ≤
      ackCount (pmEvents (run env (pre ++ post)).log) + 579 := by
  have hp : ConnectedOnce pre post := ⟨h.1, fun o ho => h.2 o (List.mem_append_left _ ho)⟩
  have hc := run_pmC env hp
  have hg := run_good env (pre ++ post)
  have e : ∀ a, run env (pre ++ post ++ a) = runFrom env (run env (pre ++ post)) a := by
    intro a; simp [run, runFrom]
  have key := search_budget hg hc mid (fun o ho => h.2 o (List.mem_append_right _ ho))
    (fun a b ha => by rw [← e a]; exact hall a b ha)
  have h0 := hall [] mid rfl
  rw [List.append_nil] at h0
  have hact := pmActive_of hc (by rw [← hc.state]; exact h0.2)
  have hok := hact.ok
  rw [show ((run env (pre ++ post)).state == ConnState.online) = true from by simp [h0.1]] at hok
  have hw : weight (run env (pre ++ post)).pmtud ≤ 579 := weight_le hok
  rw [e mid]
  have := key.1
  omega

/-- Non-vacuity: a search of one acknowledgement and five timeouts. -/
example : ∀ a ∈ (List.range 8).map (fun n => (([.startPmtud, Demo.pongOp 1] ++ Demo.timeouts 5).drop 1).take n),
    (run Demo.env (Demo.clientOps ++ [.startPmtud] ++ a)).state = .online ∧
    (pmAt (pmEvents (run Demo.env (Demo.clientOps ++ [.startPmtud] ++ a)).log) = .base ∨
     pmAt (pmEvents (run Demo.env (Demo.clientOps ++ [.startPmtud] ++ a)).log) = .searching) := by decide +kernel

/-! ## C38 -/

/-- **C38** While the connection is ONLINE and discovery is not disabled, the last request made to the host's timer is
for a non-zero delay, after every call. -/
theorem C38_never_stalls (env : Env) {pre post : List Op} (h : ConnectedOnce pre post)
    (hon : (run env (pre ++ post)).state = .online)
    (hd : pmAt (pmEvents (run env (pre ++ post)).log) ≠ .disabled) :
    ∃ ms, lastTimer (pmEvents (run env (pre ++ post)).log) = some ms ∧ ms ≠ 0 := by
  have key := run_pmC env h
  generalize run env (pre ++ post) = c at key hon hd ⊢
  rcases key with h | h
  · exact absurd h.ev.at_ hd
  · obtain ⟨-, h' | h'⟩ := h.ok
    · exact h'.tm
    · exact absurd h'.1 (by simp [hon])

example : let c := run Demo.env (Demo.clientOps ++ [.startPmtud, .pmtudTimeout, Demo.pongOp 2])
    c.state = .online ∧ pmAt (pmEvents c.log) = .searching ∧ lastTimer (pmEvents c.log) = some 5000 := by decide +kernel

/-- **C38 needs its hypothesis.** After a second connect an answer to an earlier probe arrives before the connection is
ONLINE: the timer is cancelled, discovery announces SEARCHING, no probe is sent; once ONLINE, nothing drives it on. -/
theorem C38_stalls_after_reconnect :
    let c := run Demo.env (Demo.clientOps ++ [.keepalive, .startPmtud, .clientConnect Demo.ctx [] [],
      .outsideData (Demo.dgram [1]) [Demo.msg [3, 0, 2, 0, 0], Demo.msg (configIpv4Msg 4242 Demo.netCfg)]])
    c.state = .online ∧ pmAt (pmEvents c.log) = .searching ∧ lastTimer (pmEvents c.log) = some 0 := by decide +kernel

/-! ## C34: the lower bound is reached -/

/-- While discovery is at rest the host connects again, the timer fires before the connection is ONLINE and the peer
answers with a PONG of identifier 0: the search resumes 32 bytes lower than before. -/
def Demo.resume : List Op :=
  [.clientConnect Demo.ctx [] [], .pmtudTimeout,
   .outsideData (Demo.dgram [1]) [Demo.msg [3, 0, 0, 0, 0], Demo.msg (configIpv4Msg 4242 Demo.netCfg)]]

/-- A search that completes with 1274, and the first such reconnect. -/
def Demo.sinking : List Op :=
  [.keepalive, .startPmtud, Demo.pongOp 2] ++ Demo.timeouts 3 ++ [Demo.pongOp 6, Demo.pongOp 7, Demo.pongOp 8] ++
    Demo.timeouts 6 ++ Demo.resume

/-- **C34** Both bounds of `C34_range_any` are reached: 506 by an ONLINE client that connected again twenty-four times
while discovery was on, without one acknowledgement of a probe of 506 bytes. -/
theorem C34_range_any_sharp :
    (∃ ops, (run Demo.env ops).state = .online ∧ effectivePmtu (run Demo.env ops) = 506) ∧
    (∃ env ops, (run env ops).state = .online ∧ effectivePmtu (run env ops) = 1416) := by
  refine ⟨⟨Demo.clientOps ++ Demo.sinking ++ (List.replicate 23 (Demo.timeouts 10 ++ Demo.resume)).flatten ++
    Demo.timeouts 7, ?_, ?_⟩, ⟨Demo.narrowEnv, Demo.clientOps ++ Demo.forgery, ?_, ?_⟩⟩ <;> decide +kernel

/-! ## C39 -/

theorem clampMss_small (pkt : Bytes) {mss : Nat} (h : 20 ≤ pkt.length) (hm : mss < 512) : clampMss pkt mss = some (pkt, .failed) := by
  unfold clampMss
  rw [if_neg (by omega), if_pos (.inl hm)]

/-- **C39 is false for small path MTUs.** With an effective PMTU below 552, every packet that is otherwise acceptable is
refused with HE_ERR_FAILED and nothing happens. -/
theorem C39_small_pmtu_blocks (env : Env) (ops : List Op) (pkt : Bytes) :
    let c := run env ops
    c.state = .online → effectivePmtu c < 552 → 20 ≤ pkt.length → pkt.length + 114 ≤ c.outsideMtu → ipv4Valid pkt = true →
    step env c (.insidePacket pkt) = ((c.emit (.api .insidePacket)).emit (.ret .failed), .failed) := by
  intro c hon hp h1 h2 hv
  have hg := (run_good env ops).sizes
  have hm : 114 < c.outsideMtu ∧ c.outsideMtu < 65536 := by
    rcases hg.mtu with h | h
    · exact absurd h (hg.online hon)
    · exact h
  have key : insidePacket env (c.emit (.api .insidePacket)) pkt = (c.emit (.api .insidePacket), .failed) := by
    unfold insidePacket
    rw [if_neg (show ¬(c.emit (.api .insidePacket)).state ≠ .online from fun h => h hon), if_neg (by omega)]
    simp only
    rw [if_neg (show ¬pkt.length > sizeSub (c.emit (.api .insidePacket)).outsideMtu packetOverhead from by
      rw [show (c.emit (.api .insidePacket)).outsideMtu = c.outsideMtu from rfl, capacity_eq (by omega) hm.2]; omega)]
    rw [if_neg (by simp [hv])]
    rw [show effectivePmtu (c.emit (.api .insidePacket)) = effectivePmtu c from rfl, clampMss_small pkt h1 (by omega)]
    rfl
  show ((insidePacket env (c.emit (.api .insidePacket)) pkt).1.emit (.ret (insidePacket env (c.emit (.api .insidePacket)) pkt).2),
    (insidePacket env (c.emit (.api .insidePacket)) pkt).2) = _
  rw [key]

/-- Discovery completes with 1250, four probes are lost, 512 is answered and everything larger lost: reached by a
client whose tunnel then accepts no packet at all. -/
def Demo.shrink : List Op :=
  [.startPmtud, Demo.pongOp 1] ++ Demo.timeouts 6 ++ Demo.timeouts 4 ++ [Demo.pongOp 11] ++ Demo.timeouts 6

theorem C39_small_pmtu_reachable :
    (run Demo.env (Demo.clientOps ++ Demo.shrink)).state = .online ∧
    effectivePmtu (run Demo.env (Demo.clientOps ++ Demo.shrink)) = 512 ∧
    (step Demo.env (run Demo.env (Demo.clientOps ++ Demo.shrink)) (.insidePacket Demo.ipPkt)).2 = .failed := by
  decide +kernel

/-! ### Above that bound -/

/-- The TLS layer takes every message. -/
def Spec.Accepting (env : Env) : Prop := ∀ l m, (env.ssl l (.write m)).ok = true

theorem sendMessage_ok {env : Env} (ha : Accepting env) {c : Conn} (hw : c.wolfSet = true) (m : Bytes) :
    (sendMessage env c m).2 = .success ∧ (sendMessage env c m).1.wolfSet = true := by
  constructor
  · unfold sendMessage sslDo
    simp only [hw, if_true]
    rw [if_pos (ha c.log m)]
  · obtain ⟨l, ps, sl, we, e, -⟩ := sendMessage_frame env c m
    rw [e]; exact hw

theorem fragLoop_ok {env : Env} (ha : Accepting env) (size id : Nat) (h0 : 0 < size) (h1 : size + 7 ≤ 1500) (c : Conn) (off : Nat)
    (pkt : Bytes) (hw : c.wolfSet = true) : (fragLoop env c size id off pkt).2 = .success := by
  fun_induction fragLoop env c size id off pkt with
  | case1 => rfl
  | case2 => omega
  | case3 c off pkt hz hs d hd =>
    have : d.length ≤ size := by simp [d]; omega
    simp only [maxWireMtu] at hd
    omega
  | case4 c off pkt hz hs d hd c' rc he hrc =>
    have := (sendMessage_ok ha hw (fragMsg id off (decide (pkt.length > size)) d)).1
    rw [he] at this
    exact absurd this hrc
  | case5 c off pkt hz hs d hd c' rc he hrc ih =>
    have := (sendMessage_ok ha hw (fragMsg id off (decide (pkt.length > size)) d)).2
    rw [he] at this
    exact ih this

theorem clampMss_ok {pkt : Bytes} {mss : Nat} (hm : 512 ≤ mss) (hm2 : mss ≤ 1500) (hv : ipv4Valid pkt = true) :
    ∃ q, clampMss pkt mss = some (q, .success) ∧ q.length = pkt.length := by
  rcases clampMss_spec pkt mss hm hm2 hv with ⟨-, h⟩ | ⟨i, hi, h⟩
  · exact ⟨_, h, rfl⟩
  · exact ⟨_, h, (clampedAt_facts hm2 hi).1⟩

/-- **C39** (effective PMTU of at least 552) On a datagram connection without inside plugins, over a TLS layer that takes
every message, every valid IPv4 packet of at most outside MTU - 114 bytes is accepted.  Missing: effective PMTUs below 552
(false there, `C39_small_pmtu_blocks`), and host plugins, which may refuse packets themselves. -/
theorem C39_usable_partial {env : Env} (he : EnvOk env) (ha : Accepting env) (ops : List Op) (pkt : Bytes) :
    let c := run env ops
    c.state = .online → c.connType = .datagram → c.insidePlugins.plugins = 0 → 552 ≤ effectivePmtu c →
    20 ≤ pkt.length → pkt.length + 114 ≤ c.outsideMtu → ipv4Valid pkt = true →
    (step env c (.insidePacket pkt)).2 = .success := by
  intro c hon hdg hpl hp h1 h2 hv
  have hgood := run_good env ops
  obtain ⟨o, hi⟩ := hgood.inv
  have hg := hgood.sizes
  have hm : 114 < c.outsideMtu ∧ c.outsideMtu < 65536 := by
    rcases hg.mtu with h | h
    · exact absurd h (hg.online hon)
    · exact h
  have hr := effectivePmtu_range hi.pm
  have hw : c.wolfSet = true := by
    cases hws : c.wolfSet with
    | true => rfl
    | false => rcases (hi.wolf he hws).1 with h | h <;> exact absurd (hon.symm.trans h) (by simp)
  show (insidePacket env (c.emit (.api .insidePacket)) pkt).2 = .success
  have hcap : sizeSub (c.emit (.api .insidePacket)).outsideMtu packetOverhead = c.outsideMtu - 114 := by
    show sizeSub c.outsideMtu _ = _
    rw [capacity_eq (by omega) hm.2]
  have hef : effectivePmtu (c.emit (.api .insidePacket)) = effectivePmtu c := rfl
  have k1 : (c.emit (.api .insidePacket)).state = .online := hon
  have k2 : (c.emit (.api .insidePacket)).connType = .datagram := hdg
  have k3 : (c.emit (.api .insidePacket)).insidePlugins.plugins = 0 := hpl
  have k4 : (c.emit (.api .insidePacket)).wolfSet = true := hw
  generalize c.emit (.api .insidePacket) = d at hcap hef k1 k2 k3 k4 ⊢
  replace hr : effectivePmtu c ≤ 1416 := hr.2
  generalize effectivePmtu c = pm at hef hp hr
  obtain ⟨q, hq, hql⟩ := clampMss_ok (pkt := pkt) (mss := pm - 40) (by omega) (by omega) hv
  unfold insidePacket
  rw [if_neg (fun h => h k1), if_neg (by omega)]
  simp only [hcap, hef, hq]
  rw [if_neg (by omega), if_neg (by simp [hv])]
  simp only [ne_eq, not_true_eq_false, if_false]
  rw [ingress_noPlugins k3]
  simp only [reduceCtorEq, if_false, not_true_eq_false]
  rw [if_neg (by omega)]
  split
  · rename_i hsf
    have hle : q.length ≤ pm := by
      simp [shouldFragment, k2] at hsf
      exact hsf
    rw [if_neg (by simp only [maxWireMtu]; omega)]
    exact (sendMessage_ok ha (c := { d with log := d.log }) k4 _).1
  · rename_i hsf
    have hle : pm < q.length := by
      simp [shouldFragment, k2] at hsf
      exact hsf
    unfold fragAndSend
    simp only
    rw [if_neg (by omega)]
    exact fragLoop_ok ha _ _ (by omega) (by omega) _ _ _ k4

/-- Non-vacuity: a client with effective PMTU 1314. -/
example : Accepting Demo.env ∧ EnvOk Demo.env ∧
    (let c := run Demo.env (Demo.clientOps ++ ([.startPmtud, Demo.pongOp 1, Demo.pongOp 2, Demo.pongOp 3] ++ Demo.timeouts 6))
    c.state = .online ∧ effectivePmtu c = 1314 ∧ c.connType = .datagram ∧ c.insidePlugins.plugins = 0 ∧
    Demo.ipPkt.length + 114 ≤ c.outsideMtu ∧ ipv4Valid Demo.ipPkt = true) :=
  ⟨fun _ _ => rfl, Demo.envOk, by decide +kernel⟩

end Lightway
