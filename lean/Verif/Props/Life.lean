import Verif.Props.Veto

/-!
# C72: the disconnect sequence
-/

namespace Lightway
open Spec

/-- Does not create a TLS object. -/
def NotNew : Effect → Prop
  | .sslCall .new _ => False
  | _ => True

theorem hasTls_skip {x l : Log} (h : ∀ e ∈ x, NotNew e) : hasTls (x ++ l) = hasTls l := by
  induction x with
  | nil => rfl
  | cons e x ih =>
    have he := h e (by simp)
    have ih := ih (fun y hy => h y (by simp [hy]))
    cases e with
    | sslCall call ok => cases call <;> first | exact ih | exact he.elim
    | _ => exact ih

/-- The history says whether there is a TLS object. -/
def Tls (c : Conn) : Prop := c.wolfSet = hasTls c.log

theorem Tls.skip {c c' : Conn} (h : Tls c) {x : Log} (e : c'.log = x ++ c.log) (hx : ∀ e ∈ x, NotNew e)
    (hw : c'.wolfSet = c.wolfSet) : Tls c' := by
  unfold Tls; rw [e, hasTls_skip hx, hw]; exact h

theorem CbIo.notNew {e : Effect} (h : CbIo e) : NotNew e := by cases e <;> simp_all [CbIo, NotNew]

theorem Fine.tls {env : Env} {c c' : Conn} (h : Fine env c c') (ht : Tls c) : Tls c' := by
  cases h with
  | io r =>
    obtain ⟨l, e, hl⟩ := ioStep_cbExt env c r
    have hf := ioStep_frame env c r
    obtain ⟨l', ps, sl, we, e', _⟩ := hf
    exact ht.skip e (fun x hx => (hl x hx).notNew) (by rw [e'])
  | err | pm => exact ht
  | probe pm mtu ok => exact ht.skip (x := [_]) rfl (by simp [NotNew]) rfl
  | note e h hn hw => exact ht.skip (x := [e]) rfl (by cases e <;> simp_all [NotNew]) rfl

theorem fine_tls {env : Env} {c c' : Conn} (h : Star (Fine env) c c') (ht : Tls c) : Tls c' := by
  induction h with
  | refl => exact ht
  | tail _ s ih => exact s.tls ih

theorem Micro.tls {env : Env} {a : Api} {c c' : Conn} (h : Micro env a c c') (ht : Tls c) : Tls c' := by
  cases h with
  | io r hnv => exact Fine.tls (.io c r hnv) ht
  | quiet e h =>
    refine ht.skip (x := [e]) rfl ?_ rfl
    cases e with
    | sslCall call ok => cases call <;> simp_all [Quiet, NotNew]
    | _ => simp [NotNew]
  | state s hne h => exact ht.skip (x := [.state s c.cbs.stateChange]) (by simp [setState, hne]) (by simp [NotNew]) (by unfold setState; split <;> rfl)
  | configure ctx h =>
    obtain ⟨x, y, ok, ft, e, _⟩ := configure_shape env c ctx
    rw [e]
    exact ht.skip (x := [.table ctx.maxFragEntries, .alloc ok, .callbacks ctx.cbs]) rfl (by simp [NotNew]) rfl
  | wolfNew h hm hf => exact rfl
  | probeAck id h hs hm => exact fine_tls (handleProbeAck_fine env c id) ht
  | probeTimeout h => exact fine_tls (handleProbeTimeout_fine env c) ht
  | startBase h hs hd => exact fine_tls (startBaseProbing_fine env c) ht
  | auth e u _ he hc h hr hs hm => exact ht.skip (x := [e]) rfl (by cases e <;> simp_all [AuthEff, NotNew]) rfl
  | err | dueOff | sessCfg | sessClient | sessServer | rotate | sessSet | creds
  | mtu | version | pingPending | fragNext | fragNew | fragPut | fragDel => exact ht
  | _ => exact ht.skip (x := [_]) rfl (by simp [NotNew]) rfl

theorem run_tls (env : Env) (ops : List Op) : (run env ops).wolfSet = hasTls (run env ops).log := by
  refine run_induct (P := Tls) (Q := fun _ => True) rfl ?_ ops (fun _ _ => trivial)
  intro c op _ hg hc
  obtain ⟨⟨ap, hi⟩, _⟩ := hg
  have h := exec_star env ap c op hi
  have h0 : Tls (entry c op) := by
    refine hc.skip (x := [.api op.api]) (entry_log c op) (by simp [NotNew]) ?_
    cases op <;> rfl
  generalize hx : (exec env (c.emit (.api op.api)) op).1 = d at h
  have hd : Tls d := by
    clear hx
    induction h with
    | refl => exact h0
    | tail _ s ih => exact s.tls ih
  have e : (step env c op).1 = d.emit (.ret (step env c op).2) := by rw [← hx]; rfl
  rw [e]
  exact hd.skip (x := [_]) rfl (by simp [NotNew]) rfl

theorem run_state (env : Env) (ops : List Op) : (run env ops).state = stateAt (run env ops).log := by
  obtain ⟨⟨ap, hi⟩, _⟩ := run_good env ops
  exact hi.st.symm

theorem run_cbs (env : Env) (ops : List Op) : (run env ops).cbs = registered (run env ops).log := by
  obtain ⟨⟨ap, hi⟩, _⟩ := run_good env ops
  exact hi.reg.symm

/-- What disconnecting returns. -/
def Spec.disconnectResult (l : Log) : RC :=
  if hasTls l = false then .neverConnected
  else if stateAt l = .linkUp ∨ stateAt l = .authenticating ∨ stateAt l = .configuring ∨ stateAt l = .online
    then .success else .invalidConnState

theorem sslDo_shape (env : Env) (c : Conn) (call : SslCall) : ∃ l ok we ps sl,
    (sslDo env c call).1 = { c with log := l ++ .sslCall call ok :: c.log, wolfError := we, packetSeen := ps, streamLeft := sl } ∧
    ∀ x ∈ l, NetIo x := by
  unfold sslDo
  generalize (if c.wolfSet = true then env.ssl c.log call else nullSslRes) = r
  obtain ⟨l, e, hl⟩ := ioRun_cbExt env (c.emit (.sslCall call r.ok)) r.io
  obtain ⟨l', ps, sl, we, e', hl'⟩ := ioRun_frame env (c.emit (.sslCall call r.ok)) r.io
  have : l = l' := by
    rw [e'] at e; exact (List.append_cancel_right e).symm
  subst this
  refine ⟨l, r.ok, we, ps, sl, by dsimp only; rw [e']; rfl, fun x hx => ?_⟩
  have h1 := hl x hx
  have h2 := hl' x hx
  cases x <;> simp_all [CbIo, IoEff, NetIo]

theorem disconnect_ok (env : Env) (c : Conn) (h1 : c.wolfSet = true)
    (h2 : ¬(c.state = .disconnecting ∨ c.state = .none ∨ c.state = .connecting ∨ c.state = .disconnected)) :
    (disconnect env c).2 = .success ∧ ∃ io1 io2 ok1 ok2, (∀ e ∈ io1 ++ io2, NetIo e) ∧
      (disconnect env c).1.log = [.state .disconnected c.cbs.stateChange,
          .callbacks { c.cbs with insideWrite := false, outsideWrite := false }, .timer 0] ++
        io2 ++ [.sslCall .shutdown ok2] ++ io1 ++
        [.sslCall (.write [12]) ok1, .state .disconnecting c.cbs.stateChange] ++ c.log := by
  have e : disconnect env c = (setState ({ (sslDo env (sendGoodbye env (setState c .disconnecting)) .shutdown).1.emit (.timer 0) with
        cbs := { (sslDo env (sendGoodbye env (setState c .disconnecting)) .shutdown).1.cbs with insideWrite := false, outsideWrite := false },
        wolfTimeout := 0 }.emit (.callbacks { (sslDo env (sendGoodbye env (setState c .disconnecting)) .shutdown).1.cbs with insideWrite := false, outsideWrite := false })) .disconnected, .success) := by
    unfold disconnect
    rw [if_neg (by simp [h1]), if_neg h2]
  rw [e]
  refine ⟨rfl, ?_⟩
  have e1 : setState c .disconnecting = { c with state := .disconnecting, log := .state .disconnecting c.cbs.stateChange :: c.log } := by
    unfold setState; rw [if_neg (fun h => h2 (.inl h))]
  rw [e1]
  generalize hc1 : ({ c with state := .disconnecting, log := .state .disconnecting c.cbs.stateChange :: c.log } : Conn) = c1
  have l1 : c1.log = .state .disconnecting c.cbs.stateChange :: c.log := by rw [← hc1]
  have b1 : c1.cbs = c.cbs := by rw [← hc1]
  have s1 : c1.state = .disconnecting := by rw [← hc1]
  obtain ⟨we, hg⟩ := sendMessage_eq env c1 [msgGoodbye]
  obtain ⟨io1, ok1, we1, ps1, sl1, e2, hio1⟩ := sslDo_shape env c1 (.write [12])
  have e3 : sendGoodbye env c1 = { c1 with log := io1 ++ .sslCall (.write [12]) ok1 :: c1.log, wolfError := we, packetSeen := ps1, streamLeft := sl1 } := by
    show (sendMessage env c1 [msgGoodbye]).1 = _
    rw [hg]
    show ({ (sslDo env c1 (.write [12])).1 with wolfError := we } : Conn) = _
    rw [e2]
  generalize hc2 : sendGoodbye env c1 = c2 at *
  have l2 : c2.log = io1 ++ .sslCall (.write [12]) ok1 :: c1.log := by rw [e3]
  have b2 : c2.cbs = c.cbs := by rw [e3]; exact b1
  have s2 : c2.state = .disconnecting := by rw [e3]; exact s1
  obtain ⟨io2, ok2, we2, ps2, sl2, e4, hio2⟩ := sslDo_shape env c2 .shutdown
  generalize hc3 : (sslDo env c2 .shutdown).1 = c3 at *
  have l3 : c3.log = io2 ++ .sslCall .shutdown ok2 :: c2.log := by rw [e4]
  have b3 : c3.cbs = c.cbs := by rw [e4]; exact b2
  have s3 : c3.state = .disconnecting := by rw [e4]; exact s2
  refine ⟨io1, io2, ok1, ok2, ?_, ?_⟩
  · intro x hx
    rcases List.mem_append.mp hx with h | h
    · exact hio1 x h
    · exact hio2 x h
  · unfold setState Conn.emit
    rw [if_neg (by show c3.state ≠ _; rw [s3]; simp)]
    show Effect.state _ _ :: .callbacks _ :: .timer 0 :: c3.log = _
    rw [l3, l2, l1, b3]
    simp

/-- **C72.**  Disconnecting succeeds exactly on a connection that has a TLS object and is between
LINK_UP and ONLINE; otherwise it changes nothing and says why.  On success the whole call is: announce
DISCONNECTING, hand a GOODBYE to the TLS library, shut TLS down, drop the inside and outside write
callbacks (and no other), announce DISCONNECTED. -/
theorem C72_disconnect (env : Env) (ops : List Op) :
    let c := run env ops
    let r := step env c .disconnect
    r.2 = disconnectResult c.log ∧
    (r.2 ≠ .success → r.1 = { c with log := .ret r.2 :: .api .disconnect :: c.log }) ∧
    (r.2 = .success → ∃ io1 io2 ok1 ok2, (∀ e ∈ io1 ++ io2, NetIo e) ∧
      r.1.log = [.ret .success, .state .disconnected (registered c.log).stateChange,
          .callbacks { registered c.log with insideWrite := false, outsideWrite := false }, .timer 0] ++
        io2 ++ [.sslCall .shutdown ok2] ++ io1 ++
        [.sslCall (.write [12]) ok1, .state .disconnecting (registered c.log).stateChange, .api .disconnect] ++ c.log) := by
  have ht := run_tls env ops
  have hs := run_state env ops
  have hcb := run_cbs env ops
  show _ ∧ _ ∧ _
  generalize run env ops = c at *
  have hr : step env c .disconnect = ((disconnect env (c.emit (.api .disconnect))).1.emit (.ret (disconnect env (c.emit (.api .disconnect))).2),
    (disconnect env (c.emit (.api .disconnect))).2) := rfl
  rw [hr]
  unfold disconnectResult
  rw [← ht, ← hs, ← hcb]
  have hcase : c.wolfSet = false ∨ c.wolfSet = true := by cases c.wolfSet <;> simp
  rcases hcase with h1 | h1
  · have e : disconnect env (c.emit (.api .disconnect)) = (c.emit (.api .disconnect), .neverConnected) := by
      unfold disconnect
      rw [if_pos (by show (!c.wolfSet) = true; rw [h1]; rfl)]
    rw [e]
    exact ⟨by rw [h1]; rfl, fun _ => rfl, fun h => by cases h⟩
  · by_cases h2 : c.state = .disconnecting ∨ c.state = .none ∨ c.state = .connecting ∨ c.state = .disconnected
    · have e : disconnect env (c.emit (.api .disconnect)) = (c.emit (.api .disconnect), .invalidConnState) := by
        unfold disconnect
        rw [if_neg (by show ¬(!c.wolfSet) = true; rw [h1]; simp)]
        exact if_pos h2
      rw [e]
      refine ⟨?_, fun _ => rfl, fun h => by cases h⟩
      rcases h2 with h | h | h | h <;> rw [h, h1] <;> simp
    · obtain ⟨hrc, io1, io2, ok1, ok2, hio, hl⟩ := disconnect_ok env (c.emit (.api .disconnect)) h1 h2
      refine ⟨?_, fun h => absurd hrc h, fun _ => ⟨io1, io2, ok1, ok2, hio, ?_⟩⟩
      · show (disconnect env (c.emit (.api .disconnect))).2 = _
        rw [hrc]
        cases h : c.state <;> simp_all
      · show Effect.ret (disconnect env (c.emit (.api .disconnect))).2 :: (disconnect env (c.emit (.api .disconnect))).1.log = _
        rw [hrc, hl]
        simp [Conn.emit]

/-- Not vacuous: the demo client is online and disconnects. -/
example : disconnectResult (run Demo.env Demo.clientOps).log = .success ∧
    (step Demo.env (run Demo.env Demo.clientOps) .disconnect).2 = .success ∧
    disconnectResult (run Demo.env (Demo.clientOps ++ [.disconnect])).log = .invalidConnState ∧
    disconnectResult (run Demo.env []).log = .neverConnected := by decide +kernel

end Lightway
