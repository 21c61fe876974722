import Verif.Props.Control

/-!
# The handshake timer
C46: from a successful connect call until the connection is ONLINE or shut down, a nudge timer is outstanding.
-/

namespace Lightway
open Spec

/-- The handshake is under way. -/
def Spec.Shaking (s : ConnState) : Prop := s = .connecting ∨ s = .linkUp ∨ s = .authenticating ∨ s = .configuring

/-- Without a connect call, the handshake phase is not entered. -/
theorem Micro.shaking {env : Env} {a : Api} {c c' : Conn} (h : Micro env a c c') (ha : ¬IsConnect a)
    (hs : Shaking c'.state) : Shaking c.state := by
  rcases h.state_cases with e | ⟨e, _⟩
  · rw [← e]; exact hs
  · rcases hs with h | h | h | h <;> rw [h] at e
    · exact absurd e.1 ha
    · exact .inl e.1
    · exact .inr (.inl e.1)
    · exact .inr (.inr (.inl e.1))

/-- Only he_conn_nudge clears the timer; only connect calls change whether the callback is set. -/
theorem Micro.timer {env : Env} {a : Api} {c c' : Conn} (h : Micro env a c c') (ha : ¬IsConnect a) :
    c'.cbs.nudgeTime = c.cbs.nudgeTime ∧ (c.nudgeTimerRunning = true → c'.nudgeTimerRunning = true) := by
  cases h with
  | io r => obtain ⟨l, ps, sl, we, e, -⟩ := ioStep_frame env c r; rw [e]; exact ⟨rfl, id⟩
  | state s hne _ => unfold setState; split <;> exact ⟨rfl, id⟩
  | configure ctx h => exact absurd h ha
  | nudgeTime => exact ⟨rfl, fun _ => rfl⟩
  | probeAck id => obtain ⟨l, ps, sl, we, pm, pn, e, -⟩ := handleProbeAck_frame env c id; rw [e]; exact ⟨rfl, fun h => h⟩
  | probeTimeout => obtain ⟨l, ps, sl, we, pm, pn, e, -⟩ := handleProbeTimeout_frame env c; rw [e]; exact ⟨rfl, id⟩
  | startBase => obtain ⟨l, ps, sl, we, pm, pn, e, -⟩ := startBaseProbing_frame env c; rw [e]; exact ⟨rfl, id⟩
  | _ => exact ⟨rfl, fun h => h⟩

/-- What is maintained after a successful connect call. -/
def TimerOk (c : Conn) : Prop := Shaking c.state → c.cbs.nudgeTime = true → c.nudgeTimerRunning = true

theorem sslDo_cbs (env : Env) (c : Conn) (call : SslCall) : (sslDo env c call).1.cbs = c.cbs ∧ (sslDo env c call).1.state = c.state := by
  obtain ⟨l, ps, sl, we, e, -⟩ := sslDo_frame env c call
  rw [e]; exact ⟨rfl, rfl⟩

theorem sslVer_cbs (env : Env) (c : Conn) : (sslVer env c).1.cbs = c.cbs ∧ (sslVer env c).1.state = c.state := by
  unfold sslVer; split <;> exact ⟨rfl, rfl⟩

theorem updateTimeout_armed (env : Env) (c : Conn) (hs : c.state ≠ .online) (hc : c.cbs.nudgeTime = true) :
    (updateTimeout env c).nudgeTimerRunning = true := by
  unfold updateTimeout
  rw [if_neg (fun h => hs h.1)]
  simp only
  have h1 := (sslDo_cbs env c .currentTimeout).1
  generalize sslDo env c .currentTimeout = q at h1 ⊢
  obtain ⟨c1, r⟩ := q
  simp only at h1 ⊢
  have h2 := (sslVer_cbs env c1).1
  generalize sslVer env c1 = q at h2 ⊢
  obtain ⟨c2, v⟩ := q
  simp only at h2 ⊢
  have h3 : (if v ≠ .dtls12 then
        let q := sslDo env c2 .quickTimeout
        (q.1, if q.2.ok then (r.val * 100).tdiv 4 else r.val * 100)
      else (c2, r.val * 100)).1.cbs = c.cbs := by
    split
    · exact (sslDo_cbs env c2 .quickTimeout).1.trans (h2.trans h1)
    · exact h2.trans h1
  generalize (if v ≠ .dtls12 then
        let q := sslDo env c2 .quickTimeout
        (q.1, if q.2.ok then (r.val * 100).tdiv 4 else r.val * 100)
      else (c2, r.val * 100)) = q at h3 ⊢
  obtain ⟨c3, t⟩ := q
  simp only at h3 ⊢
  split
  · rfl
  · rename_i h
    show c3.nudgeTimerRunning = true
    cases hr : c3.nudgeTimerRunning with
    | true => rfl
    | false =>
      refine absurd (⟨?_, ?_⟩ : _ ∧ _) h
      · show c3.cbs.nudgeTime = true; rw [h3, hc]
      · show (!c3.nudgeTimerRunning) = true; rw [hr]; rfl

theorem updateTimeout_keeps (env : Env) (c : Conn) : (updateTimeout env c).state = c.state ∧ (updateTimeout env c).cbs = c.cbs := by
  obtain ⟨l, _, _, _, _, _, _, _, _, _, _, _, h, -⟩ := updateTimeout_t env c
  rw [h]; exact ⟨rfl, rfl⟩

theorem updateTimeout_ok (env : Env) (c : Conn) : TimerOk (updateTimeout env c) := by
  intro hs hc
  rw [(updateTimeout_keeps env c).1] at hs
  rw [(updateTimeout_keeps env c).2] at hc
  exact updateTimeout_armed env c (by rintro h; rw [h] at hs; rcases hs with h | h | h | h <;> cases h) hc

theorem nudge_timer (env : Env) (c : Conn) : TimerOk (nudge env c).1 := by
  unfold nudge
  generalize ({ c with nudgeTimerRunning := false } : Conn) = c1
  simp only
  split
  · exact updateTimeout_ok env _
  · generalize sslDo env c1 .gotTimeout = q
    obtain ⟨c2, r⟩ := q
    simp only
    split
    · split
      · exact updateTimeout_ok env _
      · exact updateTimeout_ok env _
      · intro hs
        rw [setState_state] at hs
        rcases hs with h | h | h | h <;> cases h
    · exact updateTimeout_ok env _

theorem step_timer {env : Env} {c : Conn} (hg : Good env c) (op : Op) (ha : ¬IsConnect op.api) (h : TimerOk c) :
    TimerOk (step env c op).1 := by
  obtain ⟨o, hi⟩ := hg.inv
  by_cases hn : op = .nudge
  · subst hn
    exact nudge_timer env (c.emit (.api .nudge))
  · have h0 : TimerOk (entry c op) := by cases op <;> first | exact h | exact absurd rfl hn
    have hx := exec_star env o c op hi
    show TimerOk (exec env (c.emit (.api op.api)) op).1
    generalize (exec env (c.emit (.api op.api)) op).1 = q at hx
    induction hx with
    | refl => exact h0
    | tail _ s ih =>
      intro hs hc
      obtain ⟨t1, t2⟩ := s.timer ha
      exact t2 (ih (s.shaking ha hs) (t1 ▸ hc))

theorem connect_timer (env : Env) (c : Conn) (op : Op) (ha : IsConnect op.api) (hs : (step env c op).2 = .success) :
    TimerOk (step env c op).1 := by
  intro _ hc
  cases op with
  | clientConnect ctx i o =>
    exact (clientConnect_star env (c.emit (.api .clientConnect)) ctx i o ⟨c.log, rfl⟩).2.armed hs hc
  | serverConnect ctx i o =>
    exact (serverConnect_star env (c.emit (.api .serverConnect)) ctx i o ⟨c.log, rfl⟩).2.armed hs hc
  | _ => rcases ha with ha | ha <;> cases ha

/-- **C46** After a connect call that returned HE_SUCCESS, whatever calls follow (other than another connect) and whatever
they return: as long as the handshake is under way — CONNECTING, LINK_UP, AUTHENTICATING or CONFIGURING — and the host has a nudge
callback, a timer is outstanding: the host was asked for one and has not called he_conn_nudge since. -/
theorem C46_timer_outstanding (env : Env) (pre post : List Op) (op : Op) (hop : IsConnect op.api)
    (hs : (step env (run env pre) op).2 = .success) (hpost : ∀ o ∈ post, ¬IsConnect o.api) :
    let c := run env (pre ++ op :: post)
    Shaking c.state → c.cbs.nudgeTime = true → nudgeArmed c.log = true := by
  intro c hst hcb
  have hg := run_good env pre
  have hrun : c = runFrom env (step env (run env pre) op).1 post := by
    show run env (pre ++ op :: post) = _
    unfold run runFrom
    rw [List.foldl_append]; rfl
  have hg' : Good env c := run_good env _
  obtain ⟨o, hi⟩ := hg'.inv
  rw [hi.nudge]
  have : TimerOk c := by
    rw [hrun]
    exact runFrom_induct (P := TimerOk) (Q := fun o => ¬IsConnect o.api) (hg.step op) (connect_timer env _ op hop hs)
      (fun x o hq hgx hx => step_timer hgx o hq hx) post hpost
  exact this hst hcb

/-- The hypotheses are met: a client CONNECTING after a successful connect and two nudges, and the same client
AUTHENTICATING later.  After a failed connect there may be no timer: here wolfSSL refuses the handshake. -/
example : let pre := Demo.clientOps.take 3
    let op := Op.clientConnect Demo.ctx [] []
    let post := [.nudge, .nudge, .outsideData (Demo.dgram [1, 2, 3]) []]
    let c := run Demo.env (pre ++ op :: post.take 2)
    let d := run Demo.env (pre ++ op :: post)
    (step Demo.env (run Demo.env pre) op).2 = .success ∧ c.state = .connecting ∧ c.cbs.nudgeTime = true ∧
    d.state = .authenticating ∧ nudgeArmed c.log = true ∧
    nudgeArmed (.api .nudge :: c.log) = false := by decide +kernel

example : let env := { Demo.env with ssl := fun l call => match call with
        | .negotiate => { ok := false, val := -1, err := .other 5, io := [] } | _ => Demo.ssl l call }
    let s := step env (run env (Demo.clientOps.take 3)) (.clientConnect Demo.ctx [] [])
    s.2 ≠ .success ∧ s.1.state = .connecting ∧ nudgeArmed s.1.log = false := by decide +kernel

end Lightway
