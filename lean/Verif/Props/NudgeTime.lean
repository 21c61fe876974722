import Verif.Props.Timer

/-!
# C83: the nudge time
-/

namespace Lightway
open Spec

/-- When and as what the retransmission time is noted and passed to the nudge callback. -/
def TimerAt (env : Env) (e : Effect) (l : Log) : Prop :=
  match e with
  | .timer t => (t = reportedTimer env l ∧ ¬(stateAt l = .online ∧ renegOpen l = false)) ∨
      (t = 0 ∧ lastApi l = some .disconnect)
  | .nudgeTime t => ∃ rest, l = .timer t :: rest
  | _ => True

def NoTimer : Effect → Prop
  | .timer _ | .nudgeTime _ => False
  | _ => True

theorem NoTimer.timerAt {env : Env} {e : Effect} (h : NoTimer e) (l : Log) : TimerAt env e l := by
  unfold TimerAt; split
  · exact h.elim
  · exact h.elim
  · trivial

theorem NoTimer.noted {e : Effect} (h : NoTimer e) (l : Log) : notedTimer (e :: l) = notedTimer l := by
  cases e with
  | timer rc => exact h.elim
  | _ => rfl

structure NInv (env : Env) (c : Conn) : Prop where
  all : AllAt (TimerAt env) c.log
  val : c.wolfTimeout = notedTimer c.log

theorem NInv.extend {env : Env} {c c' : Conn} (h : NInv env c) {x : Log} (he : c'.log = x ++ c.log)
    (hx : ∀ e ∈ x, NoTimer e) (hn : c'.wolfTimeout = c.wolfTimeout) : NInv env c' := by
  have key : ∀ x : Log, (∀ e ∈ x, NoTimer e) → AllAt (TimerAt env) (x ++ c.log) ∧
      notedTimer (x ++ c.log) = notedTimer c.log := by
    intro x hx
    induction x with
    | nil => exact ⟨h.all, rfl⟩
    | cons e x ih =>
      obtain ⟨h1, h3⟩ := ih (fun e he => hx e (by simp [he]))
      have he := hx e (by simp)
      exact ⟨⟨he.timerAt _, h1⟩, (he.noted _).trans h3⟩
  obtain ⟨h1, h3⟩ := key x hx
  exact ⟨by rw [he]; exact h1, by rw [hn, he, h3]; exact h.val⟩

theorem PFrame.ninv {env : Env} {c c' : Conn} (hf : PFrame c c') (h : NInv env c) : NInv env c' := by
  obtain ⟨l, ps, sl, we, pm, pn, rfl, hl⟩ := hf
  exact h.extend (x := l) rfl (fun x hx => by have := hl x hx; revert this; cases x <;> simp [PEff, IoEff, NoTimer]) rfl

theorem Micro.ninv {env : Env} (hok : EnvOk env) {a : Api} {c c' : Conn} (hm : Micro env a c c')
    (hi : Inv env (some a) c) (h : NInv env c) : NInv env c' := by
  cases hm with
  | io r => exact (ioStep_frame env c r).pFrame.ninv h
  | state s hne _ =>
    exact h.extend (x := [.state s c.cbs.stateChange]) (by simp [setState, hne]) (by simp [NoTimer])
      (by unfold setState; split <;> rfl)
  | configure ctx _ =>
    obtain ⟨x, y, ok, ft, e, _⟩ := configure_shape env c ctx
    rw [e]
    exact h.extend (x := [_, _, _]) rfl (by simp [NoTimer]) rfl
  | quiet e he => exact h.extend (x := [e]) rfl (by cases e <;> simp_all [Quiet, NoTimer]) rfl
  | auth e u _ he => exact h.extend (x := [e]) rfl (by cases e <;> simp_all [AuthEff, NoTimer]) rfl
  | tmo t ht =>
    refine ⟨⟨?_, h.all⟩, rfl⟩
    rcases ht with ⟨ha, h0⟩ | ⟨h1, h2⟩
    · exact .inr ⟨h0, by rw [hi.api, ha]⟩
    · exact .inl ⟨h1 hok, by rw [hi.st, hi.reneg]; exact h2⟩
  | nudgeTime t hc hn hs ht => exact ⟨⟨ht, h.all⟩, h.val⟩
  | probeAck id => exact (handleProbeAck_frame env c id).ninv h
  | probeTimeout => exact (handleProbeTimeout_frame env c).ninv h
  | startBase => exact (startBaseProbing_frame env c).ninv h
  | err | dueOff | sessCfg | sessClient | sessServer | rotate | sessSet | creds
  | mtu | version | pingPending | fragNext | fragNew | fragPut | fragDel => exact ⟨h.all, h.val⟩
  | _ => exact h.extend (x := [_]) rfl (by simp [NoTimer]) rfl

theorem Star.ninv {env : Env} (hok : EnvOk env) {a : Api} {c c' : Conn} (hm : M env a c c')
    (hi : Inv env (some a) c) (h : NInv env c) : NInv env c' := by
  induction hm with
  | refl => exact h
  | tail h1 s ih => exact s.ninv hok (h1.inv hi) ih

theorem step_ninv {env : Env} (hok : EnvOk env) {c : Conn} (hg : Good env c) (op : Op) (h : NInv env c) :
    NInv env (step env c op).1 := by
  obtain ⟨o, hi⟩ := hg.inv
  have h0 : NInv env (entry c op) := by cases op <;> exact h.extend (x := [.api _]) rfl (by simp [NoTimer]) rfl
  have h1 := (exec_star env o c op hi).ninv hok (entry_inv hi op) h0
  exact h1.extend (x := [.ret _]) rfl (by simp [NoTimer]) rfl

/-- **C83**  he_conn_get_nudge_time is 0 while ONLINE with no renegotiation under way and otherwise the retransmission
time last noted; the nudge callback is always given the time that was noted just before; and a time is noted only outside
of that idle state, and is then the one TLS reports at that moment (100 ms per unit, a quarter if TLS wants to be quick), except
that disconnecting notes 0. -/
theorem C83_nudge_time {env : Env} (hok : EnvOk env) (ops : List Op) :
    let c := run env ops
    getNudgeTime c = (if stateAt c.log = .online ∧ renegOpen c.log = false then 0 else notedTimer c.log) ∧
    (∀ newer older t, c.log = newer ++ .nudgeTime t :: older → ∃ rest, older = .timer t :: rest) ∧
    (∀ newer older t, c.log = newer ++ .timer t :: older →
      (t = reportedTimer env older ∧ ¬(stateAt older = .online ∧ renegOpen older = false)) ∨
      (t = 0 ∧ lastApi older = some .disconnect)) := by
  have h : NInv env (run env ops) := run_induct (P := NInv env) (Q := fun _ => True) ⟨trivial, rfl⟩
    (fun c op _ hg hc => step_ninv hok hg op hc) ops (fun _ _ => trivial)
  obtain ⟨o, hi⟩ := (run_good env ops).inv
  intro c
  refine ⟨?_, fun newer older t e => ?_, fun newer older t e => ?_⟩
  · unfold getNudgeTime
    rw [hi.st, hi.reneg, h.val]
    show (if c.state = .online ∧ (!c.renegInProgress) = true then _ else _) = _
    show (if c.state = .online ∧ (!c.renegInProgress) = true then _ else _) = (if c.state = .online ∧ c.renegInProgress = false then _ else _)
    cases c.renegInProgress <;> simp <;> rfl
  · exact (show AllAt (TimerAt env) c.log from h.all).at e
  · exact (show AllAt (TimerAt env) c.log from h.all).at e

/-- A client over DTLS 1.3 that asks for quick timeouts and whose renegotiations stay pending: CONNECTING with a timer
of 25 ms, ONLINE without, and during a renegotiation with one again. -/
def nudgeEnv : Env := { Demo.env with
  sslVersion := fun _ => .other
  ssl := fun l call => match call with
    | .keyUpdateResponse => { ok := true, val := 1, err := .none, io := [] }
    | .updateKeys => { ok := false, val := -1, err := .wantRead, io := [] }
    | call => Demo.env.ssl l call }

example : EnvOk nudgeEnv := ⟨fun _ => rfl, fun _ => rfl⟩

example : let ops := Demo.clientOps ++ [.scheduleReneg, .outsideData (Demo.dgram [9]) []]
    getNudgeTime (run nudgeEnv (ops.take 4)) = 25 ∧ (run nudgeEnv (ops.take 4)).state = .connecting ∧
    getNudgeTime (run nudgeEnv (ops.take 7)) = 0 ∧ (run nudgeEnv (ops.take 7)).state = .online ∧
    getNudgeTime (run nudgeEnv ops) = 25 ∧ (run nudgeEnv ops).state = .online ∧
    getNudgeTime (run nudgeEnv (ops ++ [.disconnect])) = 0 := by decide +kernel

end Lightway
