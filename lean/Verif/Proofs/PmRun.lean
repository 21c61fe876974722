import Verif.Proofs.PmInv
import Verif.Proofs.Tools

/-!
# Path-MTU discovery along every history
`PmC` is maintained by every API call that is not a connect.
-/

namespace Lightway
open Spec

/-- Steps that do not concern discovery. -/
structure PmKeep (c c' : Conn) : Prop where
  pm : c'.pmtud = c.pmtud
  ev : pmEvents c'.log = pmEvents c.log
  nid : c.pingNextId < 65536 → c'.pingNextId < 65536

theorem PmKeep.emit (c : Conn) {e : Effect} (h : pmEv e = none) : PmKeep c (c.emit e) :=
  ⟨rfl, by show pmEvents (e :: c.log) = _; rw [pmEvents_cons, h]; rfl, id⟩

/-- The discovery callbacks are unchanged. -/
def SamePmCbs (c c' : Conn) : Prop := c'.cbs.pmtudTime = c.cbs.pmtudTime ∧ c'.cbs.pmtudState = c.cbs.pmtudState

/-- Micro steps are irrelevant to discovery, or received messages, or discovery steps. -/
inductive PmKind (env : Env) (a : Api) (c : Conn) : Conn → Prop
  | keep {c' : Conn} (h : PmKeep c c') (hc : ¬IsConnect a → SamePmCbs c c') : PmKind env a c c'
  | message (p : Bytes) : PmKind env a c (c.emit (.message p))
  | ack (id : Nat) (hs : MsgState c.state) (hm : ∃ rest, pmEvents c.log = .pong id :: rest) (h : a = .outsideData) :
      PmKind env a c (handleProbeAck env c id).1
  | timeout (h : a = .pmtudTimeout) : PmKind env a c (handleProbeTimeout env c).1
  | start (h : a = .startPmtud) (hs : c.state = .online) (hd : c.pmtud.state = .disabled)
      (hc : c.cbs.pmtudState = true ∧ c.cbs.pmtudTime = true) : PmKind env a c (startBaseProbing env c).1

theorem Quiet.pmSilent {e : Effect} (h : Quiet e) : pmEv e = none := by
  cases e with
  | sslCall call ok => cases call <;> first | rfl | exact absurd h (by simp [Quiet])
  | message p => exact absurd h (by simp [Quiet])
  | pmtudState s => exact absurd h (by simp [Quiet])
  | pmtudTime a b => exact absurd h (by simp [Quiet])
  | _ => rfl

theorem AuthEff.pmSilent {e : Effect} (h : AuthEff e) : pmEv e = none := by
  cases e <;> simp [AuthEff] at h <;> rfl

theorem ioStep_pmKeep (env : Env) (c : Conn) (r : IoReq) : PmKeep c (ioStep env c r) ∧ SamePmCbs c (ioStep env c r) := by
  obtain ⟨l, e, hl⟩ := ioRun_cbExt env c [r]
  have e1 : ioRun env c [r] = ioStep env c r := rfl
  rw [e1] at e
  obtain ⟨l', ps, sl, we, e', -⟩ := ioStep_frame env c r
  refine ⟨⟨by rw [e'], ?_, by rw [e']; exact id⟩, by rw [e']; exact ⟨rfl, rfl⟩⟩
  rw [e, pmEvents_silent _ (fun x hx => (hl x hx).pmSilent)]

theorem Micro.pmKind {env : Env} {a : Api} {c c' : Conn} (h : Micro env a c c') : PmKind env a c c' := by
  have same : ∀ c' : Conn, c'.cbs = c.cbs → ¬IsConnect a → SamePmCbs c c' := fun c' h _ => by rw [SamePmCbs, h]; exact ⟨rfl, rfl⟩
  cases h with
  | io r => exact .keep (ioStep_pmKeep env c r).1 (fun _ => (ioStep_pmKeep env c r).2)
  | quiet e h => exact .keep (.emit c h.pmSilent) (same _ rfl)
  | message p => exact .message p
  | state s hne _ =>
    refine .keep ?_ ?_
    · unfold setState; rw [if_neg hne]; exact ⟨rfl, rfl, id⟩
    · unfold setState; rw [if_neg hne]; exact same _ rfl
  | configure ctx h _ =>
    obtain ⟨_, _, _, _, e, _⟩ := configure_shape env c ctx
    refine .keep ?_ (fun hn => absurd h hn)
    rw [e]
    exact ⟨rfl, rfl, fun _ => by simp⟩
  | auth e u hu he => exact .keep ⟨rfl, by show pmEvents (e :: c.log) = _; rw [pmEvents_cons, he.pmSilent]; rfl, id⟩ (same _ rfl)
  | probeAck id h hs hm =>
    refine .ack id hs ?_ h
    obtain ⟨pkt, rest, hl, h1, h2, h3⟩ := hm
    refine ⟨pmEvents rest, ?_⟩
    rw [hl, pmEvents_cons, show pmEv (.message pkt) = some (.pong id) from by
      show (if _ then _ else _) = _; rw [if_pos ⟨h1, h2⟩, h3]]
    rfl
  | probeTimeout h => exact .timeout h
  | startBase h hs hd hc => exact .start h hs hd hc
  | write m ok _ hp =>
    refine .keep (.emit c ?_) (same _ rfl)
    exact if_neg (fun h => hp h.1)
  | ping ok =>
    exact .keep ⟨rfl, rfl, fun _ => Nat.mod_lt _ (by omega)⟩ (same _ rfl)
  | dropCbs => exact .keep ⟨rfl, rfl, id⟩ (fun _ => ⟨rfl, rfl⟩)
  | role b _ _ _ => exact .keep ⟨rfl, rfl, id⟩ (same _ rfl)
  | plugins i o _ _ => exact .keep ⟨rfl, rfl, id⟩ (same _ rfl)
  | _ => exact .keep ⟨rfl, rfl, fun h => h⟩ (same _ rfl)

/-! ## Before discovery starts -/

/-- Only PONGs and cancelled timers. -/
def IdleEv (ev : List PmEv) : Prop := ∀ e ∈ ev, (∃ id, e = .pong id) ∨ e = .timer 0

structure PmIdle (c : Conn) : Prop where
  pm : c.pmtud = {}
  ev : IdleEv (pmEvents c.log)
  nid : c.pingNextId < 65536

theorem IdleEv.at_ {ev : List PmEv} (h : IdleEv ev) : pmAt ev = .disabled := by
  induction ev with
  | nil => rfl
  | cons e ev ih =>
    have := ih (fun x hx => h x (.tail _ hx))
    rcases h e (.head _) with ⟨id, rfl⟩ | rfl <;> exact this

theorem IdleEv.burst {ev : List PmEv} (h : IdleEv ev) (n : Nat) : Spec.burst n ev = 0 := by
  induction ev with
  | nil => rfl
  | cons e ev ih =>
    have := ih (fun x hx => h x (.tail _ hx))
    rcases h e (.head _) with ⟨id, rfl⟩ | rfl
    · exact this
    · rfl

theorem IdleEv.bursts {ev : List PmEv} (h : IdleEv ev) : BurstsOk ev := by
  intro newer older he n
  have : IdleEv older := fun x hx => h x (by rw [he]; exact List.mem_append_right _ hx)
  rw [this.burst n]; omega

theorem PmIdle.kept {c c' : Conn} (h : PmIdle c) (hk : PmKeep c c') : PmIdle c' :=
  ⟨by rw [hk.pm]; exact h.pm, by rw [hk.ev]; exact h.ev, hk.nid h.nid⟩

theorem pmEvents_message (p : Bytes) (l : Log) : pmEvents (.message p :: l) = pmEvents l ∨ ∃ id, pmEvents (.message p :: l) = .pong id :: pmEvents l := by
  rw [pmEvents_cons]
  by_cases h : p.head? = some 3 ∧ 5 ≤ p.length
  · rw [show pmEv (.message p) = some (.pong (num (field p 1 2))) from if_pos h]; exact .inr ⟨_, rfl⟩
  · rw [show pmEv (.message p) = none from if_neg h]; exact .inl rfl

theorem timeout_idle (env : Env) (c : Conn) (h : c.pmtud = {}) : (handleProbeTimeout env c).1 = c := by
  have e : handleProbeTimeout env c = sendProbe env c c.pmtud.probingSize := if_pos (by rw [h]; show (0 : Nat) < 3; omega)
  rw [e, h]
  unfold sendProbe
  split
  · rfl
  · rw [if_pos (.inl (by show (0 : Nat) < 512; omega))]

theorem ack_idle (env : Env) (c : Conn) (id : Nat) (h : c.pmtud = {}) :
    (handleProbeAck env c id).1 = c ∨ (handleProbeAck env c id).1 = (pmtudTimeCb env c 0).1 := by
  by_cases hid : c.pmtud.pendingId ≠ id
  · have e : handleProbeAck env c id = (c, .success) := if_pos hid
    rw [e]; exact .inl rfl
  · have e : handleProbeAck env c id =
        ackRest env { (if c.cbs.pmtudTime then (pmtudTimeCb env c 0).1 else c) with
          pmtud := { (if c.cbs.pmtudTime then (pmtudTimeCb env c 0).1 else c).pmtud with pendingId := 0, probeCount := 0 } } :=
      if_neg hid
    rw [e]
    have key : ∀ d : Conn, d.pmtud = {} → (ackRest env { d with pmtud := { d.pmtud with pendingId := 0, probeCount := 0 } }).1 = d := by
      intro d hd
      unfold ackRest
      rw [show ({ d with pmtud := { d.pmtud with pendingId := 0, probeCount := 0 } } : Conn).pmtud.state = .disabled from by
        show d.pmtud.state = _; rw [hd]]
      show { d with pmtud := { d.pmtud with pendingId := 0, probeCount := 0 } } = d
      rw [hd, show ({ ({} : Pmtud) with pendingId := 0, probeCount := 0 } : Pmtud) = {} from rfl, ← hd]
    by_cases hc : c.cbs.pmtudTime = true
    · rw [if_pos hc]; exact .inr (key _ h)
    · rw [if_neg hc]; exact .inl (key _ h)

theorem PmKind.idle {env : Env} {a : Api} {c c' : Conn} (h : PmKind env a c c') (hi : PmIdle c) :
    PmIdle c' ∨ (a = .startPmtud ∧ c' = (startBaseProbing env c).1 ∧ c.state = .online ∧ c.pmtud.state = .disabled ∧
      c.cbs.pmtudState = true ∧ c.cbs.pmtudTime = true) := by
  cases h with
  | keep h => exact .inl (hi.kept h)
  | message p =>
    refine .inl ⟨hi.pm, ?_, hi.nid⟩
    show IdleEv (pmEvents (.message p :: c.log))
    rcases pmEvents_message p c.log with e | ⟨id, e⟩ <;> rw [e]
    · exact hi.ev
    · intro x hx
      rcases List.mem_cons.mp hx with rfl | hx
      · exact .inl ⟨id, rfl⟩
      · exact hi.ev x hx
  | ack id hs hm h =>
    rcases ack_idle env c id hi.pm with e | e <;> rw [e]
    · exact .inl hi
    · refine .inl ⟨hi.pm, ?_, hi.nid⟩
      intro x hx
      rcases List.mem_cons.mp hx with rfl | hx
      · exact .inr rfl
      · exact hi.ev x hx
  | timeout h => rw [timeout_idle env c hi.pm]; exact .inl hi
  | start h hs hd hc => exact .inr ⟨h, rfl, hs, hd, hc⟩

/-! ## From the start of discovery, without another connect -/

/-- The connection states once discovery started. -/
def LateState (s : ConnState) : Prop := s = .online ∨ s = .disconnecting ∨ s = .disconnected

structure PmActive (c : Conn) : Prop where
  late : LateState c.state
  cbs : c.cbs.pmtudTime = true ∧ c.cbs.pmtudState = true
  ok : PmI (c.state == .online) c.ps

def PmC (c : Conn) : Prop := PmIdle c ∨ PmActive c

theorem PmI.kept {on : Bool} {c c' : Conn} (h : PmI on c.ps) (hk : PmKeep c c') : PmI on c'.ps := by
  obtain ⟨hb, hf⟩ := h
  have e : c'.ps = { c.ps with nid := c'.pingNextId } := by
    show PS.mk _ _ _ = PS.mk _ _ _
    rw [hk.pm, hk.ev]; rfl
  rw [e]
  refine ⟨⟨hb.act, hk.nid hb.nid, hb.at_, hb.eff, hb.bursts, hb.known, hb.cnt⟩, ?_⟩
  rcases hf with hf | hf
  · have hs := hf.sized
    exact .inl ⟨⟨hs.base, hs.be, hs.se, hs.lo, hs.hi, hs.bs, hs.bc, hs.pend, hs.prov⟩, hf.tm⟩
  · exact .inr hf

theorem PmI.any {on : Bool} {s : PS} (h : PmI true s) : PmI on s := by
  cases on
  · exact h.relax
  · exact h

theorem Micro.late {env : Env} {a : Api} {c c' : Conn} (h : Micro env a c c') (ha : ¬IsConnect a) (hl : LateState c.state) :
    LateState c'.state ∧ (c'.state = .online → c.state = .online) := by
  rcases h.state_cases with e | ⟨e, e2⟩
  · rw [e]; exact ⟨hl, id⟩
  · generalize hs : c'.state = s at e e2 ⊢
    cases s with
    | none => exact absurd e id
    | connecting => exact absurd e.1 ha
    | linkUp => rw [e.1] at hl; rcases hl with h | h | h <;> cases h
    | authenticating => rw [e.1] at hl; rcases hl with h | h | h <;> cases h
    | configuring => rw [e.1] at hl; rcases hl with h | h | h <;> cases h
    | online =>
      refine ⟨.inl rfl, fun _ => ?_⟩
      obtain ⟨-, -, e | e⟩ := e
      · rw [e.2.1] at hl; rcases hl with h | h | h <;> cases h
      · rcases hl with h | h | h
        · exact h
        · exact absurd h e.2.1.2.1
        · exact absurd h e.2.1.2.2
    | disconnecting => exact ⟨.inr (.inl rfl), fun h => by cases h⟩
    | disconnected => exact ⟨.inr (.inr rfl), fun h => by cases h⟩

theorem Micro.pmC {env : Env} {a : Api} {c c' : Conn} (hm : Micro env a c c') (ha : ¬IsConnect a) (hp : PmC c) : PmC c' := by
  rcases hp with hp | hp
  · rcases hm.pmKind.idle hp with h | ⟨-, rfl, hs, hd, hc1, hc2⟩
    · exact .inl h
    · refine .inr ?_
      obtain ⟨s1, s2⟩ := PmSame.of_frame (startBaseProbing_frame env c)
      refine ⟨.inl (by rw [s1]; exact hs), by rw [s2]; exact ⟨hc2, hc1⟩, ?_⟩
      obtain ⟨ok, e⟩ := start_sim env c hc2 hc1 hp.nid hd
      rw [e, s1, show (c.state == ConnState.online) = true from by simp [hs]]
      exact start_pmI hp.pm hp.nid hp.ev.bursts
  · refine .inr ?_
    obtain ⟨hl, hon⟩ := hm.late ha hp.late
    cases hm.pmKind with
    | keep hk hc =>
      obtain ⟨c1, c2⟩ := hc ha
      refine ⟨hl, by rw [c1, c2]; exact hp.cbs, ?_⟩
      have := hp.ok.kept hk
      by_cases h : c.state = .online
      · rw [show (c.state == ConnState.online) = true from by simp [h]] at this
        exact this.any
      · rw [show (c'.state == ConnState.online) = (c.state == ConnState.online) from by
          have hne : c'.state ≠ .online := fun h' => h (hon h')
          rw [beq_eq_false_iff_ne.mpr h, beq_eq_false_iff_ne.mpr hne]]
        exact this
    | message p =>
      refine ⟨hl, hp.cbs, ?_⟩
      show PmI (c.state == .online) { c.ps with ev := pmEvents (.message p :: c.log) }
      rcases pmEvents_message p c.log with e | ⟨id, e⟩ <;> rw [e]
      · exact hp.ok
      · exact pong_pmI id hp.ok
    | ack id hs hev h =>
      obtain ⟨rest, hev⟩ := hev
      have hon : c.state = .online := by
        rcases hp.late with h | h | h
        · exact h
        · exact absurd h hs.2.1
        · exact absurd h hs.2.2
      obtain ⟨s1, s2⟩ := PmSame.of_frame (handleProbeAck_frame env c id)
      refine ⟨hl, by rw [s2]; exact hp.cbs, ?_⟩
      obtain ⟨ok, e⟩ := ack_sim env c id hp.cbs.1 hp.cbs.2 hp.ok.1.nid
      have hpo := hp.ok
      rw [e, s1]
      rw [show (c.state == ConnState.online) = true from by simp [hon]] at hpo ⊢
      exact ack_pmI hev hpo
    | timeout h =>
      obtain ⟨s1, s2⟩ := PmSame.of_frame (handleProbeTimeout_frame env c)
      refine ⟨hl, by rw [s2]; exact hp.cbs, ?_⟩
      obtain ⟨ok, e⟩ := timeout_sim env c hp.cbs.1 hp.cbs.2 hp.ok.1.nid
      have hpo := hp.ok
      rw [e, s1]
      by_cases h : c.state = .online
      · rw [show (c.state == ConnState.online) = true from by simp [h]] at hpo ⊢
        exact timeout_pmI hpo
      · rw [show (c.state == ConnState.online) = false from by simp [h]] at hpo ⊢
        exact timeout_pmI_off hpo
    | start h hs hd => exact absurd hd hp.ok.1.act

theorem entry_pmKeep (c : Conn) (op : Op) : PmKeep c (entry c op) ∧ SamePmCbs c (entry c op) ∧ (entry c op).state = c.state := by
  cases op <;> exact ⟨⟨rfl, rfl, id⟩, ⟨rfl, rfl⟩, rfl⟩

theorem create_pmIdle : PmIdle Conn.create := ⟨rfl, (fun x hx => by cases hx), by decide⟩

theorem PmIdle.step {env : Env} {c : Conn} (hg : Good env c) (op : Op) (ha : op.api ≠ .startPmtud) (h : PmIdle c) :
    PmIdle (step env c op).1 := by
  obtain ⟨o, hi⟩ := hg.inv
  have h0 : PmIdle (entry c op) := h.kept (entry_pmKeep c op).1
  have hx := exec_star env o c op hi
  show PmIdle ((exec env (c.emit (.api op.api)) op).1.emit (.ret _))
  refine PmIdle.kept (c := (exec env (c.emit (.api op.api)) op).1) ?_ (.emit _ rfl)
  generalize (exec env (c.emit (.api op.api)) op).1 = q at hx
  induction hx with
  | refl => exact h0
  | tail _ s ih =>
    rcases s.pmKind.idle ih with h | h
    · exact h
    · exact absurd h.1 ha

theorem PmActive.emit {c : Conn} {e : Effect} (he : pmEv e = none) (h : PmActive c) : PmActive (c.emit e) :=
  ⟨h.late, h.cbs, h.ok.kept (.emit c he)⟩

theorem PmC.step {env : Env} {c : Conn} (hg : Good env c) (op : Op) (ha : ¬IsConnect op.api) (h : PmC c) :
    PmC (step env c op).1 := by
  obtain ⟨o, hi⟩ := hg.inv
  have h0 : PmC (entry c op) := by
    obtain ⟨h1, h2, h3⟩ := entry_pmKeep c op
    rcases h with h | h
    · exact .inl (h.kept h1)
    · refine .inr ⟨by rw [h3]; exact h.late, by rw [h2.1, h2.2]; exact h.cbs, ?_⟩
      rw [h3]; exact h.ok.kept h1
  have hx := exec_star env o c op hi
  show PmC ((exec env (c.emit (.api op.api)) op).1.emit (.ret _))
  have key : PmC (exec env (c.emit (.api op.api)) op).1 := by
    generalize (exec env (c.emit (.api op.api)) op).1 = q at hx
    induction hx with
    | refl => exact h0
    | tail _ s ih => exact s.pmC ha ih
  rcases key with h | h
  · exact .inl (h.kept (.emit _ rfl))
  · exact .inr (h.emit rfl)

/-- No connect call after discovery was started. -/
def Spec.ConnectedOnce (pre post : List Op) : Prop := (∀ o ∈ pre, o ≠ .startPmtud) ∧ ∀ o ∈ post, ¬IsConnect o.api

theorem Op.ne_startPmtud {o : Op} (h : o ≠ .startPmtud) : o.api ≠ .startPmtud := by
  cases o <;> simp [Op.api] at h ⊢

theorem run_pmC (env : Env) {pre post : List Op} (h : ConnectedOnce pre post) : PmC (run env (pre ++ post)) := by
  have h1 : PmIdle (run env pre) := run_induct (P := PmIdle) (Q := fun o => o ≠ .startPmtud) create_pmIdle
    (fun c op hq hg hp => hp.step hg op (Op.ne_startPmtud hq)) pre h.1
  have e : run env (pre ++ post) = runFrom env (run env pre) post := by simp [run, runFrom]
  rw [e]
  exact runFrom_induct (P := PmC) (Q := fun o => ¬IsConnect o.api) (run_good env pre) (.inl h1)
    (fun c op hq hg hp => hp.step hg op hq) post h.2

end Lightway
