import Verif.Proofs.Creds
import Verif.Props.RoundTrip

/-!
# Keepalives
C40 (a PONG event answers the latest keepalive) and C41 (a keepalive's round trip).
-/

namespace Lightway
open Spec

namespace Spec

/-- Identifier of the PING sent last. -/
def lastPing : Log → Nat
  | [] => 0
  | .sslCall (.write m) _ :: l => if isPing m then num (field m 1 2) else lastPing l
  | _ :: l => lastPing l

/-- Identifier of the PING of the last he_conn_send_keepalive call that returned HE_SUCCESS (0: none yet). -/
def keptAlive : Log → Nat
  | [] => 0
  | .ret .success :: l => if lastApi l = some .keepalive then lastPing l else keptAlive l
  | _ :: l => keptAlive l

/-- A PONG event follows a pong message that carries that identifier. -/
def PongAt (e : Effect) (l : Log) : Prop :=
  match e with
  | .event .pong _ => ∃ pkt rest, l = .message pkt :: rest ∧ pkt.head? = some 3 ∧ 5 ≤ pkt.length ∧
      num (field pkt 1 2) = keptAlive l
  | _ => True

/-- Number of PONG events generated. -/
def pongs : Log → Nat
  | [] => 0
  | .event .pong _ :: l => pongs l + 1
  | _ :: l => pongs l

end Spec

/-- Neither a return marker nor a PONG event. -/
def NoPong : Effect → Prop
  | .ret _ | .event .pong _ => False
  | _ => True

theorem NoPong.pongAt {e : Effect} (h : NoPong e) (l : Log) : PongAt e l := by
  unfold PongAt; split
  · exact h.elim
  · trivial

theorem NoPong.kept {e : Effect} (h : NoPong e) (l : Log) : keptAlive (e :: l) = keptAlive l := by
  cases e with
  | ret rc => exact h.elim
  | _ => rfl

/-- What is maintained: past PONG events, and the identifier waited for. -/
structure KInv (c : Conn) : Prop where
  all : AllAt PongAt c.log
  pend : c.pingPendingId = keptAlive c.log

theorem KInv.extend {c c' : Conn} (h : KInv c) {x : Log} (he : c'.log = x ++ c.log) (hx : ∀ e ∈ x, NoPong e)
    (hn : c'.pingPendingId = c.pingPendingId) : KInv c' := by
  have key : ∀ x : Log, (∀ e ∈ x, NoPong e) → AllAt PongAt (x ++ c.log) ∧
      keptAlive (x ++ c.log) = keptAlive c.log := by
    intro x hx
    induction x with
    | nil => exact ⟨h.all, rfl⟩
    | cons e x ih =>
      obtain ⟨h1, h3⟩ := ih (fun e he => hx e (by simp [he]))
      have he := hx e (by simp)
      exact ⟨⟨he.pongAt _, h1⟩, (he.kept _).trans h3⟩
  obtain ⟨h1, h3⟩ := key x hx
  exact ⟨by rw [he]; exact h1, by rw [hn, he, h3]; exact h.pend⟩

theorem PFrame.kinv {c c' : Conn} (hf : PFrame c c') (h : KInv c) : KInv c' := by
  obtain ⟨l, ps, sl, we, pm, pn, rfl, hl⟩ := hf
  exact h.extend (x := l) rfl (fun x hx => by have := hl x hx; revert this; cases x <;> simp [PEff, IoEff, NoPong]) rfl

theorem Micro.kinv {env : Env} {a : Api} {c c' : Conn} (hm : Micro env a c c') (ha : a ≠ .keepalive) (h : KInv c) :
    KInv c' := by
  cases hm with
  | io r => exact (ioStep_frame env c r).pFrame.kinv h
  | state s hne _ =>
    exact h.extend (x := [.state s c.cbs.stateChange]) (by simp [setState, hne]) (by simp [NoPong])
      (by unfold setState; split <;> rfl)
  | configure ctx _ =>
    obtain ⟨x, y, ok, ft, e, _⟩ := configure_shape env c ctx
    rw [e]
    exact h.extend (x := [_, _, _]) rfl (by simp [NoPong]) rfl
  | quiet e he => exact h.extend (x := [e]) rfl (by cases e <;> simp_all [Quiet, NoPong]) rfl
  | auth e u _ he => exact h.extend (x := [e]) rfl (by cases e <;> simp_all [AuthEff, NoPong]) rfl
  | ping ok hk => exact absurd hk ha
  | pingPending n hk => exact absurd hk ha
  | pong _ hm =>
    obtain ⟨pkt, rest, e, h1, h2, h3⟩ := hm
    exact ⟨⟨⟨pkt, rest, e, h1, h2, h3.trans h.pend⟩, h.all⟩, h.pend⟩
  | probeAck id => exact (handleProbeAck_frame env c id).kinv h
  | probeTimeout => exact (handleProbeTimeout_frame env c).kinv h
  | startBase => exact (startBaseProbing_frame env c).kinv h
  | err | dueOff | sessCfg | sessClient | sessServer | rotate | sessSet | creds
  | mtu | version | fragNext | fragNew | fragPut | fragDel => exact ⟨h.all, h.pend⟩
  | _ => exact h.extend (x := [_]) rfl (by simp [NoPong]) rfl

theorem Star.kinv {env : Env} {a : Api} {c c' : Conn} (hm : M env a c c') (ha : a ≠ .keepalive) (h : KInv c) :
    KInv c' := by
  induction hm with
  | refl => exact h
  | tail _ s ih => exact s.kinv ha ih

/-- The two outcomes of he_conn_send_keepalive. -/
theorem keepalive_cases (env : Env) (c : Conn) :
    keepalive env c = (c, .invalidConnState) ∧ c.state ≠ .online ∨
    ∃ q : Conn × RC, q = sendMessage env { c with pingNextId := (c.pingNextId + 1) % 65536 } (pingMsg c.pingNextId) ∧
      c.state = .online ∧
      (q.2 = .success ∧ keepalive env c = ({ q.1 with pingPendingId := c.pingNextId }, .success) ∨
       q.2 ≠ .success ∧ keepalive env c = q) := by
  by_cases h : c.state = .online
  · refine .inr ⟨_, rfl, h, ?_⟩
    have key : keepalive env c =
        (let q := sendMessage env { c with pingNextId := (c.pingNextId + 1) % 65536 } (pingMsg c.pingNextId)
         if q.2 = .success then ({ q.1 with pingPendingId := c.pingNextId }, q.2) else (q.1, q.2)) := by
      unfold keepalive
      rw [if_neg (by simp [h])]
    rw [key]
    generalize sendMessage env { c with pingNextId := (c.pingNextId + 1) % 65536 } (pingMsg c.pingNextId) = q
    obtain ⟨d, rc⟩ := q
    by_cases hr : rc = .success
    · subst hr; exact .inl ⟨rfl, rfl⟩
    · exact .inr ⟨hr, if_neg hr⟩
  · unfold keepalive
    rw [if_pos h]; exact .inl ⟨rfl, h⟩

theorem lastPing_skip {x : Log} (hx : ∀ e ∈ x, CbIo e) (l : Log) : lastPing (x ++ l) = lastPing l := by
  induction x with
  | nil => rfl
  | cons e x ih =>
    have h1 := hx e (by simp)
    have := ih (fun e he => hx e (by simp [he]))
    cases e <;> simp_all [CbIo, lastPing]

theorem CbIo.neutral {e : Effect} (h : CbIo e) : Neutral e := by cases e <;> simp_all [CbIo, Neutral]

theorem NFrame.pending {c c' : Conn} (h : NFrame c c') : c'.pingPendingId = c.pingPendingId := by
  obtain ⟨l, ps, sl, we, wt, rfl, -⟩ := h
  rfl

theorem CbIo.noPong {e : Effect} (h : CbIo e) : NoPong e := by cases e <;> simp_all [CbIo, NoPong]

theorem step_kinv {env : Env} {c : Conn} (hg : Good env c) (op : Op) (h : KInv c) : KInv (step env c op).1 := by
  obtain ⟨o, hi⟩ := hg.inv
  have hret : ∀ (d : Conn) (rc : RC), KInv d → lastApi d.log ≠ some .keepalive → KInv (d.emit (.ret rc)) := by
    intro d rc hd hl
    refine ⟨⟨trivial, hd.all⟩, ?_⟩
    show d.pingPendingId = keptAlive (.ret rc :: d.log)
    rw [hd.pend]
    cases rc <;> first | rfl | (show _ = if _ then _ else _; rw [if_neg hl])
  by_cases ha : op.api = .keepalive
  · have hop : op = .keepalive := by cases op <;> simp_all [Op.api]
    subst hop
    have h0 : KInv (c.emit (.api .keepalive)) := h.extend (x := [.api .keepalive]) rfl (by simp [NoPong]) rfl
    have hst : (step env c .keepalive).1 = (keepalive env (c.emit (.api .keepalive))).1.emit
        (.ret (keepalive env (c.emit (.api .keepalive))).2) := rfl
    rw [hst]
    have hlt : c.pingNextId < 65536 := hg.sizes.pingNext
    have hfail : ∀ d rc, KInv d → rc ≠ RC.success → KInv (d.emit (.ret rc)) := by
      intro d rc hd hrc
      refine ⟨⟨trivial, hd.all⟩, ?_⟩
      show d.pingPendingId = keptAlive (.ret rc :: d.log)
      rw [hd.pend]
      cases rc <;> first | rfl | exact absurd rfl hrc
    rcases keepalive_cases env (c.emit (.api .keepalive)) with ⟨e, _⟩ | ⟨q, hq, _, h1⟩
    · rw [e]; exact hfail _ _ h0 (by simp)
    · obtain ⟨l, ok, hl, hcb⟩ := sendMessage_log env
        { c.emit (.api .keepalive) with pingNextId := (c.pingNextId + 1) % 65536 } (pingMsg c.pingNextId)
      have hq' : q = sendMessage env { c.emit (.api .keepalive) with pingNextId := (c.pingNextId + 1) % 65536 }
        (pingMsg c.pingNextId) := hq
      rw [← hq'] at hl
      have hpp : q.1.pingPendingId = c.pingPendingId := by
        have := (sendMessage_n env { c.emit (.api .keepalive) with pingNextId := (c.pingNextId + 1) % 65536 }
          (pingMsg c.pingNextId))
        rw [hq', this.pending]; rfl
      have hk : KInv q.1 := h0.extend (x := l ++ [.sslCall (.write (pingMsg c.pingNextId)) ok])
        (by rw [hl]; simp [Conn.emit]) (by
          intro e he
          rcases List.mem_append.mp he with he | he
          · exact (hcb e he).noPong
          · simp at he; subst he; trivial) hpp
      rcases h1 with ⟨hs, e⟩ | ⟨hs, e⟩
      · rw [e]
        refine ⟨⟨trivial, hk.all⟩, ?_⟩
        show c.pingNextId = if lastApi q.1.log = some .keepalive then lastPing q.1.log else _
        have hla : lastApi q.1.log = some .keepalive := by
          rw [hl]
          have hn : ∀ x ∈ l ++ [.sslCall (.write (pingMsg c.pingNextId)) ok], Neutral x := by
            intro e he
            rcases List.mem_append.mp he with he | he
            · exact CbIo.neutral (hcb e he)
            · simp at he; subst he; trivial
          have := lastApi_neutral (c.emit (.api .keepalive)).log hn
          rw [List.append_assoc] at this
          exact this.trans rfl
        rw [if_pos hla, hl, lastPing_skip hcb]
        show _ = if isPing (pingMsg c.pingNextId) then num (field (pingMsg c.pingNextId) 1 2) else _
        rw [if_pos (by simp [isPing, pingMsg, msgPing]), num_be16_mod hlt _ rfl]
      · rw [e]; exact hfail _ _ hk hs
  · have h0 : KInv (entry c op) := by cases op <;> exact h.extend (x := [.api _]) rfl (by simp [NoPong]) rfl
    have hx := exec_star env o c op hi
    exact hret _ _ (hx.kinv ha h0) (by rw [(hx.inv (entry_inv hi op)).api]; simpa using ha)

theorem run_kinv (env : Env) (ops : List Op) : KInv (run env ops) :=
  run_induct (Q := fun _ => True) ⟨trivial, rfl⟩ (fun _ op _ hg h => step_kinv hg op h) ops (by simp)

/-- **C40** A PONG event is generated only directly after a pong message whose identifier is that of the PING sent by
the most recent successful he_conn_send_keepalive call (0 before any). -/
theorem C40_pong_event (env : Env) (ops : List Op) {newer older : Log} {b : Bool}
    (h : (run env ops).log = newer ++ .event .pong b :: older) :
    ∃ pkt rest, older = .message pkt :: rest ∧ pkt.head? = some 3 ∧ 5 ≤ pkt.length ∧
      num (field pkt 1 2) = keptAlive older :=
  (run_kinv env ops).all.at h

/-! ## Round trip -/

theorem pongs_tail {x : Log} (hx : ∀ e ∈ x, TailEff e) (l : Log) : pongs (x ++ l) = pongs l := by
  induction x with
  | nil => rfl
  | cons e x ih =>
    have h1 := hx e (by simp)
    have := ih (fun e he => hx e (by simp [he]))
    cases e with
    | event ev b => cases ev <;> first | exact this | exact h1.elim
    | _ => exact this

theorem RFrame.pongs {c d : Conn} (h : RFrame c d) : Spec.pongs d.log = Spec.pongs c.log := by
  obtain ⟨l, _, _, _, _, _, rfl, e⟩ := h; exact pongs_tail e _

theorem TFrame.pongs {c d : Conn} (h : TFrame c d) : Spec.pongs d.log = Spec.pongs c.log := by
  obtain ⟨l, _, _, _, _, _, _, _, _, _, _, _, rfl, e⟩ := h; exact pongs_tail e _

theorem rd_field {pkt : Bytes} {i n : Nat} (h : i + n ≤ pkt.length) : rd pkt i n = some (field pkt i n) := rd_isSome h

theorem cons_of_head {pkt : Bytes} {b : UInt8} (h : pkt.head? = some b) : ∃ t, pkt = b :: t := by
  cases pkt with
  | nil => cases h
  | cons a t => exact ⟨t, by simp at h; rw [h]⟩

theorem processMessage_ping (env : Env) (c : Conn) (pkt : Bytes) (h : pkt.head? = some 2) :
    processMessage env c pkt = handlePing env c pkt := by
  obtain ⟨t, rfl⟩ := cons_of_head h
  rfl

theorem processMessage_pong (env : Env) (c : Conn) (pkt : Bytes) (h : pkt.head? = some 3) :
    processMessage env c pkt = handlePong env c pkt := by
  obtain ⟨t, rfl⟩ := cons_of_head h
  rfl

/-- **C41** (answer) Any ping an ONLINE connection receives is answered with exactly one message, which is determined
by the ping's identifier alone. -/
theorem C41_ping_answer (env : Env) (hok : EnvOk env) (ops : List Op) (buf : Bytes) (r : ReadRes)
    (ho : (run env ops).state = .online) (hacc : Accepts ((run env ops).emit (.api .outsideData)) buf)
    (h2 : r.plain.head? = some 2) (h5 : 5 ≤ r.plain.length) (hl : r.plain.length ≤ 1500) :
    writes (step env (run env ops) (.outsideData buf [r])).1.log =
      (3 :: field r.plain 1 2 ++ [0, 0]) :: writes (run env ops).log := by
  have hg := run_good env ops
  revert ho hacc hg
  generalize run env ops = c
  intro ho hacc hg
  obtain ⟨d, hd, hp, _⟩ := recv_one env c buf r (online_reading hok hg ho) hacc
    (by intro e; rw [e] at h5; simp at h5) hl
  rw [hp.writes, processMessage_ping _ _ _ h2]
  have hs : (d.emit (.message r.plain)).state = .online := by show d.state = _; rw [hd.fields.1, ho]
  unfold handlePing
  rw [if_neg (by simp [hs]), if_neg (by omega), rd_field (by omega)]
  show writes (sendMessage env _ _).1.log = _
  rw [writes_sendMessage]
  show _ :: writes (.message _ :: d.log) = _
  rw [writes, hd.writes]
  · rfl
  · simp

/-- A pong with the identifier waited for generates exactly one event. -/
theorem pong_event (env : Env) (c : Conn) (buf : Bytes) (r : ReadRes)
    (hr : Reading c) (hacc : Accepts (c.emit (.api .outsideData)) buf)
    (h3 : r.plain.head? = some 3) (h5 : 5 ≤ r.plain.length) (hl : r.plain.length ≤ 1500)
    (hid : num (field r.plain 1 2) = c.pingPendingId) :
    pongs (step env c (.outsideData buf [r])).1.log = pongs c.log + 1 := by
  obtain ⟨d, hd, hp, _⟩ := recv_one env c buf r hr hacc (by intro e; rw [e] at h5; simp at h5) hl
  rw [hp.pongs, processMessage_pong _ _ _ h3]
  have hs : (d.emit (.message r.plain)).pingPendingId = c.pingPendingId := by show d.pingPendingId = _; rw [hd.fields.2.2.2.2.2.2.2.2.1]
  unfold handlePong
  rw [if_neg (by omega), rd_field (by omega)]
  show Spec.pongs (if _ then _ else _ : Conn × RC).1.log = _
  rw [if_pos (by rw [hs, ← hid, num_rdBe16 (field_length (by omega))])]
  show Spec.pongs d.log + 1 = _
  rw [hd.pongs]

/-- Only he_conn_send_keepalive changes the identifier waited for. -/
theorem Micro.pending {env : Env} {a : Api} {c c' : Conn} (hm : Micro env a c c') (ha : a ≠ .keepalive) :
    c'.pingPendingId = c.pingPendingId := by
  cases hm with
  | io r => obtain ⟨l, ps, sl, we, e, -⟩ := ioStep_frame env c r; rw [e]
  | state s hne _ => unfold setState; split <;> rfl
  | configure ctx _ => obtain ⟨x, y, ok, ft, e, _⟩ := configure_shape env c ctx; rw [e]
  | ping ok hk => exact absurd hk ha
  | pingPending n hk => exact absurd hk ha
  | probeAck id => obtain ⟨l, ps, sl, we, pm, pn, e, -⟩ := handleProbeAck_frame env c id; rw [e]
  | probeTimeout => obtain ⟨l, ps, sl, we, pm, pn, e, -⟩ := handleProbeTimeout_frame env c; rw [e]
  | startBase => obtain ⟨l, ps, sl, we, pm, pn, e, -⟩ := startBaseProbing_frame env c; rw [e]
  | _ => rfl

theorem step_pingPending {env : Env} {c : Conn} (hg : Good env c) (op : Op) (ha : op.api ≠ .keepalive) :
    (step env c op).1.pingPendingId = c.pingPendingId := by
  obtain ⟨o, hi⟩ := hg.inv
  have h0 : (entry c op).pingPendingId = c.pingPendingId := by cases op <;> rfl
  rw [← h0]
  have hx := exec_star env o c op hi
  show (exec env (c.emit (.api op.api)) op).1.pingPendingId = _
  generalize (exec env (c.emit (.api op.api)) op).1 = q at hx
  induction hx with
  | refl => rfl
  | tail _ s ih => rw [s.pending ha, ih]

/-- The ping a successful keepalive call sends. -/
theorem keepalive_sends {env : Env} {c : Conn} (h : (step env c .keepalive).2 = .success) :
    c.state = .online ∧ (step env c .keepalive).1.pingPendingId = c.pingNextId ∧
    writes (step env c .keepalive).1.log = pingMsg c.pingNextId :: writes c.log := by
  have h1 : (keepalive env (c.emit (.api .keepalive))).2 = .success := h
  have e1 : (step env c .keepalive).1.pingPendingId = (keepalive env (c.emit (.api .keepalive))).1.pingPendingId := rfl
  have e2 : writes (step env c .keepalive).1.log = writes (keepalive env (c.emit (.api .keepalive))).1.log := rfl
  rw [e1, e2]
  rcases keepalive_cases env (c.emit (.api .keepalive)) with ⟨e, _⟩ | ⟨q, hq, ho, h2⟩
  · rw [e] at h1; cases h1
  · rcases h2 with ⟨hs, e⟩ | ⟨hs, e⟩
    · rw [e]
      refine ⟨ho, rfl, ?_⟩
      show writes q.1.log = _
      rw [hq, writes_sendMessage]
      rfl
    · rw [e] at h1; exact absurd h1 hs

/-- **C41** (round trip) A successful keepalive hands one ping to the TLS layer.  An ONLINE peer that receives it hands
back one pong; when that arrives at the sender — whatever it did in between except sending another keepalive, and as
long as it is still ONLINE — exactly one PONG event is generated. -/
theorem C41_round_trip (env env' : Env) (hok : EnvOk env) (hok' : EnvOk env') (ops ops' : List Op) :
    let c := run env ops
    let d := run env' ops'
    (step env c .keepalive).2 = .success →
    ∃ ping, writes (step env c .keepalive).1.log = ping :: writes c.log ∧
      ∀ buf r, r.plain = ping → d.state = .online → Accepts (d.emit (.api .outsideData)) buf →
      ∃ pong, writes (step env' d (.outsideData buf [r])).1.log = pong :: writes d.log ∧
        ∀ post buf' r', (∀ op ∈ post, op ≠ .keepalive) → r'.plain = pong →
        let c' := runFrom env (step env c .keepalive).1 post
        c'.state = .online → Accepts (c'.emit (.api .outsideData)) buf' →
        pongs (step env c' (.outsideData buf' [r'])).1.log = pongs c'.log + 1 := by
  intro c d hk
  have hg : Good env c := run_good env ops
  obtain ⟨ho, hp, hw⟩ := keepalive_sends hk
  refine ⟨_, hw, ?_⟩
  intro buf r hr hd hacc
  have hlen : (pingMsg c.pingNextId).length = 5 := rfl
  have ha := C41_ping_answer env' hok' ops' buf r hd hacc (by rw [hr]; rfl) (by rw [hr, hlen]; omega) (by rw [hr, hlen]; omega)
  refine ⟨_, ha, ?_⟩
  intro post buf' r' hpost hr' c' ho' hacc'
  have hg1 : Good env (step env c .keepalive).1 := hg.step .keepalive
  have hpend : c'.pingPendingId = c.pingNextId :=
    runFrom_induct (P := fun x => x.pingPendingId = c.pingNextId) (Q := fun op => op ≠ .keepalive) hg1 hp
      (fun x op hq hgx hx => by
        rw [step_pingPending hgx op (by cases op <;> simp_all [Op.api]), hx]) post hpost
  have hf : field r.plain 1 2 = be16 c.pingNextId := by rw [hr]; rfl
  refine pong_event env c' buf' r' (online_reading hok (hg1.runFrom post) ho') hacc' (by rw [hr']; rfl)
    (by rw [hr', hf]; simp [be16]) (by rw [hr', hf]; simp [be16]) ?_
  rw [hpend, hr', hf]
  exact num_be16_mod hg.sizes.pingNext _ rfl

/-- A client's keepalive, answered by a server: all hypotheses of C41 are met, and the event occurs. -/
example : let c := run Demo.env Demo.clientOps
    let d := run Demo.env Demo.serverOps
    (step Demo.env c .keepalive).2 = .success ∧ d.state = .online ∧
    Accepts (d.emit (.api .outsideData)) (Demo.dgram [1]) ∧
    writes (step Demo.env d (.outsideData (Demo.dgram [1]) [Demo.msg [2, 0, 1, 0, 0]])).1.log =
      [3, 0, 1, 0, 0] :: writes d.log ∧
    pongs (step Demo.env (step Demo.env c .keepalive).1
      (.outsideData (Demo.dgram [1]) [Demo.msg [3, 0, 1, 0, 0]])).1.log = 1 ∧
    pongs (step Demo.env (step Demo.env c .keepalive).1
      (.outsideData (Demo.dgram [1]) [Demo.msg [3, 0, 2, 0, 0]])).1.log = 0 := by
  refine ⟨by decide +kernel, by decide +kernel, ?_, by decide +kernel, by decide +kernel, by decide +kernel⟩
  exact accepts_plain _ _ (by decide +kernel) (by decide +kernel) (by decide +kernel)

end Lightway
