import Verif.Proofs.Calm2
import Verif.Props.Trace2
import Verif.Props.Login
import Verif.Props.Life
import Verif.Model.Getters

/-!
# C99: a requested renegotiation takes place exactly when it can
-/

namespace Lightway
open Spec

/-- A call that is no receive keeps the renegotiation request; scheduling one makes it. -/
theorem step_due (env : Env) (c : Conn) (op : Op) (h : op.api ≠ .outsideData) :
    (step env c op).1.renegDue = (if op.api = .scheduleReneg then true else c.renegDue) := by
  show ((exec env (c.emit (.api op.api)) op).1.emit _).renegDue = _
  show (exec env (c.emit (.api op.api)) op).1.renegDue = _
  by_cases hs : op.api = .scheduleReneg
  · rw [if_pos hs]
    cases op <;> simp only [Op.api, reduceCtorEq] at hs
    rfl
  · rw [if_neg hs]
    exact (exec_unmoved env (c.emit (.api op.api)) op h hs).due

/-- The same, with the effects of the call. -/
theorem step_unmoved (env : Env) (c : Conn) (op : Op) (h : op.api ≠ .outsideData) :
    ∃ x, (step env c op).1.log = x ++ c.log ∧ ∀ e ∈ x, Silent e := by
  by_cases hs : op.api = .scheduleReneg
  · cases op <;> simp only [Op.api, reduceCtorEq] at hs
    exact ⟨[.ret .success, .api .scheduleReneg], rfl, by simp [Silent]⟩
  · obtain ⟨l, e, hl⟩ := (exec_unmoved env (c.emit (.api op.api)) op h hs).hush
    refine ⟨.ret (step env c op).2 :: (l ++ [.api op.api]), ?_, ?_⟩
    · show .ret _ :: (exec env (c.emit (.api op.api)) op).1.log = _
      rw [e]
      show _ :: (l ++ (.api op.api :: c.log)) = _
      simp
      rfl
    · intro x hx
      rcases List.mem_cons.mp hx with h | h
      · rw [h]; trivial
      rcases List.mem_append.mp h with h | h
      · exact hl x h
      · rw [List.mem_singleton] at h; rw [h]; trivial

theorem step_recv_ren (env : Env) (c : Conn) (buf : Bytes) (reads : List ReadRes) :
    RecvOut (c.emit (.api .outsideData)) (outsideData env (c.emit (.api .outsideData)) buf reads).1
      (step env c (.outsideData buf reads)).2 :=
  outsideData_ren env (c.emit (.api .outsideData)) buf reads

/-- A receive call without a request starts nothing. -/
theorem recv_undue (env : Env) (c : Conn) (buf : Bytes) (reads : List ReadRes) (hd : c.renegDue = false) :
    (step env c (.outsideData buf reads)).1.renegDue = false ∧
    ∃ x, (step env c (.outsideData buf reads)).1.log = x ++ c.log ∧ ∀ e ∈ x, Silent e := by
  have h := step_recv_ren env c buf reads
  have key : ∀ d : Conn, Hush (c.emit (.api .outsideData)) d → ∃ x, (d.emit (.ret (step env c (.outsideData buf reads)).2)).log = x ++ c.log ∧ ∀ e ∈ x, Silent e := by
    rintro d ⟨l, e, hl⟩
    refine ⟨.ret (step env c (.outsideData buf reads)).2 :: (l ++ [.api .outsideData]), ?_, ?_⟩
    · show .ret _ :: d.log = _
      rw [e]
      show _ :: (l ++ (.api .outsideData :: c.log)) = _
      simp
    · intro x hx
      rcases List.mem_cons.mp hx with h | h
      · rw [h]; trivial
      rcases List.mem_append.mp h with h | h
      · exact hl x h
      · rw [List.mem_singleton] at h; rw [h]; trivial
  cases h with
  | quiet h1 hp => exact ⟨h1.due.trans hd, key _ h1.hush⟩
  | undue m hm hd' ht hdue hst => exact ⟨hdue, key _ (hm.hush.trans ht)⟩
  | due m s rs hm hd' hs ht hdue hst =>
    have : m.renegDue = false := hm.due.trans hd
    rw [this] at hd'; cases hd'

theorem silent_started {x : Log} (h : ∀ e ∈ x, Silent e) : ¬started x ∧ ¬renewed x := by
  refine ⟨fun ⟨n, hn⟩ => h _ hn, ?_⟩
  rintro ⟨ok, h1 | h1⟩
  · exact h _ h1
  · exact h _ h1

/-- **C99**, the request is acted on: after the host scheduled a renegotiation, the next receive call that reads what
there is to read and returns success asks the TLS library to renew the keys, and tells the host so, exactly when the
connection is ONLINE after what was read, no renegotiation was open before the call, and the library did not say that
the peer does not support it.  Any calls but receive may come between. -/
theorem C99_next_receive {env : Env} {ops mid : List Op} {buf : Bytes} {reads : List ReadRes} {x : Log}
    (hmid : ∀ o ∈ mid, o.api ≠ .outsideData)
    (hlog : (run env (ops ++ .scheduleReneg :: mid ++ [.outsideData buf reads])).log =
      .ret .success :: x ++ .api .outsideData :: (run env (ops ++ .scheduleReneg :: mid)).log)
    (hread : polled x) :
    (started x ↔ stateAt (run env (ops ++ .scheduleReneg :: mid ++ [.outsideData buf reads])).log = .online ∧
      renegOpen (run env (ops ++ .scheduleReneg :: mid)).log = false ∧ ¬unsupported x) ∧
    (renewed x ↔ started x) := by
  obtain ⟨⟨ap, hi⟩, _⟩ := run_good env (ops ++ .scheduleReneg :: mid)
  have hdue : (run env (ops ++ .scheduleReneg :: mid)).renegDue = true := by
    have e : run env (ops ++ .scheduleReneg :: mid) = runFrom env (step env (run env ops) .scheduleReneg).1 mid := by
      simp [run, runFrom]
    rw [e]
    refine runFrom_induct (P := fun c => c.renegDue = true) (Q := fun o => o.api ≠ .outsideData)
      ((run_good env ops).step _) rfl ?_ mid hmid
    intro c op hq _ hc
    rw [step_due env c op hq, hc]
    split <;> rfl
  have hst := run_state env (ops ++ .scheduleReneg :: mid ++ [.outsideData buf reads])
  rw [← hst]
  have hro := hi.reneg
  rw [hro]
  rw [run_snoc] at hlog ⊢
  generalize run env (ops ++ .scheduleReneg :: mid) = c at hlog hdue hi ⊢
  clear hst hro hmid hi
  have hout := step_recv_ren env c buf reads
  have hl : (step env c (.outsideData buf reads)).1.log = .ret (step env c (.outsideData buf reads)).2 ::
    (outsideData env (c.emit (.api .outsideData)) buf reads).1.log := rfl
  have hs1 : (step env c (.outsideData buf reads)).1.state = (outsideData env (c.emit (.api .outsideData)) buf reads).1.state := rfl
  rw [hl, List.cons_append] at hlog
  injection hlog with h1 h2
  injection h1 with h1
  rw [hs1]
  rw [h1] at hout
  clear hl hs1 h1
  generalize (outsideData env (c.emit (.api .outsideData)) buf reads).1 = d at h2 hout ⊢
  have inj : ∀ y, d.log = y ++ .api .outsideData :: c.log → x = y := fun y hy => by
    rw [h2] at hy
    exact List.append_cancel_right hy
  cases hout with
  | quiet _ hp =>
    obtain ⟨l, e, hl⟩ := (hp rfl).log
    have := inj l e
    subst this
    obtain ⟨ok, hok⟩ := hread
    exact absurd (hl _ hok) (by simp [Idle])
  | undue m hm hd =>
    have : m.renegDue = c.renegDue := hm.due
    rw [hd, hdue] at this; cases this
  | due m s rs hm hd hs ht hdue' hst =>
    obtain ⟨l1, e1, hl1⟩ := hm.hush
    obtain ⟨l3, e3, hl3⟩ := ht
    have hp : m.renegInProgress = c.renegInProgress := hm.prog
    rw [hst, ← hp]
    cases hs with
    | none hn h hrc =>
      have := inj (l3 ++ l1) (by rw [e3, h, e1]; simp [Conn.emit])
      subst this
      have hs : ∀ e ∈ l3 ++ l1, Silent e := fun e he => (List.mem_append.mp he).elim (hl3 e) (hl1 e)
      obtain ⟨n1, n2⟩ := silent_started hs
      refine ⟨⟨fun h => absurd h n1, fun ⟨h1, h2, _⟩ => ?_⟩, ⟨fun h => absurd h n2, fun h => absurd h n1⟩⟩
      rcases hn with h | h
      · rw [h] at h2; cases h2
      · exact absurd h1 h
    | refused hp' ho l1' l2 h h1 h2' hrc =>
      have := inj (l3 ++ (l2 ++ .sslCall .renegSupport false :: (l1' ++ l1))) (by rw [e3, h, e1]; simp [Conn.emit])
      subst this
      have hs : ¬started (l3 ++ (l2 ++ .sslCall .renegSupport false :: (l1' ++ l1))) := by
        rintro ⟨n, hn⟩
        simp only [List.mem_append, List.mem_cons, reduceCtorEq, false_or] at hn
        rcases hn with h | h | h | h
        · exact hl3 _ h
        · exact h2' _ h
        · exact h1 _ h
        · exact hl1 _ h
      have hr : ¬renewed (l3 ++ (l2 ++ .sslCall .renegSupport false :: (l1' ++ l1))) := by
        rintro ⟨n, hn | hn⟩ <;>
        · simp only [List.mem_append, List.mem_cons, Effect.sslCall.injEq, reduceCtorEq, false_and, false_or] at hn
          rcases hn with h | h | h | h
          · exact hl3 _ h
          · exact h2' _ h
          · exact h1 _ h
          · exact hl1 _ h
      refine ⟨⟨fun h => absurd h hs, fun ⟨_, _, h3⟩ => ?_⟩, ⟨fun h => absurd h hr, fun h => absurd h hs⟩⟩
      exact absurd (show unsupported _ by simp [unsupported]) h3
    | start hp' ho call l0 l1' l2 n ok hc h h0 h1 h2' =>
      have := inj (l3 ++ (l2 ++ .event .renegStarted n :: (l1' ++ .sslCall call ok :: (l0 ++ l1)))) (by rw [e3, h, e1]; simp [Conn.emit])
      subst this
      have hs : started (l3 ++ (l2 ++ .event .renegStarted n :: (l1' ++ .sslCall call ok :: (l0 ++ l1)))) := ⟨n, by simp⟩
      have hr : renewed (l3 ++ (l2 ++ .event .renegStarted n :: (l1' ++ .sslCall call ok :: (l0 ++ l1)))) := by
        refine ⟨ok, ?_⟩
        rcases hc with rfl | rfl
        · left; simp
        · right; simp
      refine ⟨⟨fun _ => ⟨ho, hp', fun hu => ?_⟩, fun _ => hs⟩, ⟨fun _ => hs, fun _ => hr⟩⟩
      have hc' : call ≠ .renegSupport := by rcases hc with rfl | rfl <;> simp
      simp only [unsupported, List.mem_append, List.mem_cons, Effect.sslCall.injEq, reduceCtorEq, false_or] at hu
      rcases hu with h | h | h | h | h | h
      · exact hl3 _ h
      · exact h2' _ h
      · exact (h1 _ h).elim
      · exact hc' h.1.symm
      · rcases h0 _ h with h | h
        · exact h
        · cases h
      · exact hl1 _ h

/-- **C99**, the request is used up: after a receive call that read what there was to read and returned success, whether
it started a renegotiation or not, nothing starts one until the host schedules another.  In particular a request made
while a renegotiation is open, or before the connection is ONLINE, is lost. -/
theorem C99_used_up {env : Env} {ops rest : List Op} {buf : Bytes} {reads : List ReadRes} {x y : Log}
    (hlog : (run env (ops ++ [.outsideData buf reads])).log =
      .ret .success :: x ++ .api .outsideData :: (run env ops).log)
    (hread : polled x) (hrest : ∀ o ∈ rest, o.api ≠ .scheduleReneg)
    (hy : (run env (ops ++ [.outsideData buf reads] ++ rest)).log =
      y ++ (run env (ops ++ [.outsideData buf reads])).log) :
    ¬started y ∧ ¬renewed y := by
  have hg := run_good env (ops ++ [.outsideData buf reads])
  have hdue : (run env (ops ++ [.outsideData buf reads])).renegDue = false := by
    rw [run_snoc] at hlog ⊢
    generalize run env ops = c at hlog ⊢
    have hout := step_recv_ren env c buf reads
    have hl : (step env c (.outsideData buf reads)).1.log = .ret (step env c (.outsideData buf reads)).2 ::
      (outsideData env (c.emit (.api .outsideData)) buf reads).1.log := rfl
    rw [hl, List.cons_append] at hlog
    injection hlog with h1 h2
    injection h1 with h1
    show (outsideData env (c.emit (.api .outsideData)) buf reads).1.renegDue = false
    rw [h1] at hout
    cases hout with
    | quiet _ hp =>
      obtain ⟨l, e, hl⟩ := (hp rfl).log
      rw [h2] at e
      have : x = l := List.append_cancel_right (e : x ++ _ = l ++ (.api .outsideData :: c.log))
      subst this
      obtain ⟨ok, hok⟩ := hread
      exact absurd (hl _ hok) (by simp [Idle])
    | undue m hm hd ht hdue => exact hdue
    | due m s rs hm hd hs ht hdue => exact hdue
  have e : run env (ops ++ [.outsideData buf reads] ++ rest) =
      runFrom env (run env (ops ++ [.outsideData buf reads])) rest := by
    simp [run, runFrom]
  rw [e] at hy
  clear e hlog hread
  generalize run env (ops ++ [.outsideData buf reads]) = c at hy hdue hg
  have h := runFrom_induct (P := fun d => d.renegDue = false ∧ ∃ z, d.log = z ++ c.log ∧ ∀ e ∈ z, Silent e)
    (Q := fun o => o.api ≠ .scheduleReneg) hg ⟨hdue, [], rfl, by simp⟩ ?_ rest hrest
  · obtain ⟨_, z, hz, hs⟩ := h
    have : y = z := List.append_cancel_right (hy.symm.trans hz)
    rw [this]
    exact silent_started hs
  · rintro d op hq _ ⟨hd, z, hz, hs⟩
    have hstep : (step env d op).1.renegDue = false ∧ ∃ w, (step env d op).1.log = w ++ d.log ∧ ∀ e ∈ w, Silent e := by
      by_cases hr : op.api = .outsideData
      · cases op <;> simp only [Op.api, reduceCtorEq] at hr
        exact recv_undue env d _ _ hd
      · refine ⟨?_, step_unmoved env d op hr⟩
        rw [step_due env d op hr, if_neg hq, hd]
    obtain ⟨h1, w, hw, hs'⟩ := hstep
    exact ⟨h1, w ++ z, by rw [hw, hz]; simp, fun e he => (List.mem_append.mp he).elim (hs' e) (hs e)⟩

/-- The TLS library is asked to renew the keys only here. -/
def Spec.RenewOk (e : Effect) (l : Log) : Prop :=
  (∃ ok, e = .sslCall .rehandshake ok ∨ e = .sslCall .updateKeys ok) →
    stateAt l = .online ∧ renegOpen l = false ∧ renegRequested l = true ∧ lastApi l = some .outsideData

theorem silent_renewOk {x l : Log} (h : ∀ e ∈ x, Silent e) (hl : AllAt RenewOk l) : AllAt RenewOk (x ++ l) := by
  induction x with
  | nil => exact hl
  | cons e x ih =>
    refine ⟨?_, ih (fun a ha => h a (by simp [ha]))⟩
    rintro ⟨ok, rfl | rfl⟩
    · exact absurd (h (.sslCall .rehandshake ok) (by simp)) (by simp [Silent])
    · exact absurd (h (.sslCall .updateKeys ok) (by simp)) (by simp [Silent])

/-- **C99**, never unasked: whenever the TLS library is asked to renew the keys, this is within a receive call of an
ONLINE connection, no renegotiation is open, and the host scheduled one since the last that started. -/
theorem C99_only_when_asked {env : Env} {ops : List Op} {newer older : Log} {call : SslCall} {ok : Bool}
    (hc : call = .rehandshake ∨ call = .updateKeys)
    (h : (run env ops).log = newer ++ .sslCall call ok :: older) :
    stateAt older = .online ∧ renegOpen older = false ∧ renegRequested older = true ∧
    lastApi older = some .outsideData := by
  suffices ha : AllAt RenewOk (run env ops).log from
    ha.at h ⟨ok, by rcases hc with rfl | rfl <;> simp⟩
  clear h hc
  refine snoc_induct (P := fun ops => AllAt RenewOk (run env ops).log) trivial ?_ ops
  intro ops op ih
  by_cases hr : op.api = .outsideData
  · cases op <;> simp only [Op.api, reduceCtorEq] at hr
    rename_i buf reads
    have hperm := @permitted_at env (ops ++ [.outsideData buf reads])
    rw [run_snoc] at hperm ⊢
    generalize run env ops = c at ih hperm ⊢
    have hout := step_recv_ren env c buf reads
    have hl : (step env c (.outsideData buf reads)).1.log = .ret (step env c (.outsideData buf reads)).2 ::
      (outsideData env (c.emit (.api .outsideData)) buf reads).1.log := rfl
    rw [hl] at hperm ⊢
    have ih0 : AllAt RenewOk (c.emit (.api .outsideData)).log := ⟨(by rintro ⟨ok, h | h⟩ <;> cases h), ih⟩
    generalize (outsideData env (c.emit (.api .outsideData)) buf reads).1 = d at hout hperm ⊢
    refine ⟨(by rintro ⟨ok, h | h⟩ <;> cases h), ?_⟩
    cases hout with
    | quiet h1 =>
      obtain ⟨l, e, hl⟩ := h1.hush
      rw [e]; exact silent_renewOk hl ih0
    | undue m hm hd ht =>
      obtain ⟨l, e, hl⟩ := hm.hush.trans ht
      rw [e]; exact silent_renewOk hl ih0
    | due m s rs hm hd hs ht =>
      obtain ⟨l1, e1, hl1⟩ := hm.hush
      obtain ⟨l3, e3, hl3⟩ := ht
      have im : AllAt RenewOk m.log := by rw [e1]; exact silent_renewOk hl1 ih0
      rw [e3] at hperm ⊢
      refine silent_renewOk hl3 ?_
      cases hs with
      | none hn h hrc => rw [h]; exact im
      | refused hp' ho l1' l2 h h1 h2' hrc =>
        rw [h]
        refine silent_renewOk h2' ⟨(by rintro ⟨ok, h | h⟩ <;> cases h), silent_renewOk h1 im⟩
      | start hp' ho call l0 l1' l2 n ok hc h h0 h1 h2' =>
        have hp := @hperm (.ret (step env c (.outsideData buf reads)).2 :: (l3 ++ l2)) (.event .renegStarted n)
          (l1' ++ .sslCall call ok :: (l0 ++ m.log)) (by rw [h]; simp)
        rw [h]
        have hneu : ∀ x ∈ l1' ++ [.sslCall call ok], Neutral x := by
          intro x hx
          rcases List.mem_append.mp hx with h | h
          · have := h1 x h
            cases x <;> simp_all [NetIo, Neutral]
          · rw [List.mem_singleton] at h; rw [h]; trivial
        have ea : l1' ++ .sslCall call ok :: (l0 ++ m.log) = (l1' ++ [.sslCall call ok]) ++ (l0 ++ m.log) := by simp
        have q := hp.2
        rw [ea, renegOpen_neutral _ hneu, stateAt_neutral _ hneu, renegRequested_neutral _ hneu, lastApi_neutral _ hneu] at q
        have i0 : AllAt RenewOk (l0 ++ m.log) := by
          clear hp q ea h
          induction l0 with
          | nil => exact im
          | cons e l ihl =>
            refine ⟨?_, ihl (fun x hx => h0 x (by simp [hx]))⟩
            rintro ⟨ok, rfl | rfl⟩
            · exact absurd (h0 (.sslCall .rehandshake ok) (by simp)) (by simp [Silent])
            · exact absurd (h0 (.sslCall .updateKeys ok) (by simp)) (by simp [Silent])
        refine silent_renewOk h2' ⟨(by rintro ⟨ok, h | h⟩ <;> cases h), ?_⟩
        refine silent_renewOk (fun x hx => Spec.NetIo.silent (h1 x hx)) ⟨fun _ => ⟨q.2.1, q.1, q.2.2.1, q.2.2.2⟩, i0⟩
  · rw [run_snoc]
    obtain ⟨x, e, hx⟩ := step_unmoved env (run env ops) op hr
    rw [e]
    exact silent_renewOk hx ih

/-- **C99**, asking beforehand: `he_conn_supports_renegotiation` has a defined answer exactly when the connection was
given a TLS object (it does not check for that), and then the answer is no only when the library says so for a DTLS 1.2
session. -/
theorem C99_supports (env : Env) (ops : List Op) :
    (supportsRenegotiation env (some (run env ops)) = none ↔ hasTls (run env ops).log = false) ∧
    (supportsRenegotiation env (some (run env ops)) = some false ↔ hasTls (run env ops).log = true ∧
      env.sslVersion (run env ops).log = .dtls12 ∧ (env.ssl (run env ops).log .renegSupport).ok = false) := by
  rw [← run_tls]
  simp only [supportsRenegotiation]
  by_cases h : (run env ops).wolfSet = true <;> by_cases h2 : env.sslVersion (run env ops).log = .dtls12 <;> simp [h, h2]

/-- Never connected: asking is not defined. -/
example : supportsRenegotiation Demo.env (some (run Demo.env [])) = none ∧
    supportsRenegotiation Demo.env (some (run Demo.env Demo.clientOps)) = some true := by decide +kernel

/-! Examples -/

namespace Demo

/-- What a call addedBy, between its markers. -/
def addedBy (before after : Log) : Log := (after.drop 1).take (after.length - before.length - 2)

/-- ONLINE, a renegotiation scheduled, another call, a datagram. -/
def renegOps : List Op := clientOps ++ .scheduleReneg :: [.keepalive]

def renegRecv : Op := .outsideData (dgram [9]) []

/-- The peer does not support renegotiation. -/
def envNo : Env := { env with ssl := fun l c => if c = .renegSupport then { (env.ssl l c) with ok := false } else env.ssl l c }

/-- Scheduled while the client waits for the reply to its credentials; the reply comes with the next datagram, and one
more datagram after that. -/
def renegEarly : List Op := clientOps.take 4 ++ .scheduleReneg :: [.keepalive]

end Demo

/-- The hypotheses of `C99_next_receive` hold and a renegotiation starts. -/
example :
    let b := (run Demo.env Demo.renegOps).log
    let a := (run Demo.env (Demo.renegOps ++ [Demo.renegRecv])).log
    let x := Demo.addedBy b a
    a = .ret .success :: x ++ .api .outsideData :: b ∧ .sslCall .read false ∈ x ∧
    .event .renegStarted true ∈ x ∧ .sslCall .rehandshake true ∈ x ∧ renegOpen b = false := by decide +kernel

/-- The same with a peer that does not support it: nothing starts. -/
example :
    let b := (run Demo.envNo Demo.renegOps).log
    let a := (run Demo.envNo (Demo.renegOps ++ [Demo.renegRecv])).log
    let x := Demo.addedBy b a
    a = .ret .success :: x ++ .api .outsideData :: b ∧ .sslCall .read false ∈ x ∧
    .sslCall .renegSupport false ∈ x ∧ .event .renegStarted true ∉ x := by decide +kernel

/-- A request made before the connection is ONLINE is lost: the first receive call uses it up, and although the
connection gets ONLINE with the next one, nothing starts. -/
example :
    let b := (run Demo.env Demo.renegEarly).log
    let a := (run Demo.env (Demo.renegEarly ++ [.outsideData (Demo.dgram [1, 2, 3]) []])).log
    let x := Demo.addedBy b a
    let e := run Demo.env (Demo.renegEarly ++ [.outsideData (Demo.dgram [1, 2, 3]) []] ++ [Demo.clientOps[5], Demo.renegRecv])
    a = .ret .success :: x ++ .api .outsideData :: b ∧ .sslCall .read false ∈ x ∧
    e.state = .online ∧ (∀ f ∈ e.log, ∀ n, f ≠ .event .renegStarted n) := by decide +kernel

end Lightway
