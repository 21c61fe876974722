import Verif.Spec.Reneg
import Verif.Proofs.Recv
import Verif.Proofs.Tools
import Verif.Proofs.Send

/-!
# Nothing but the renegotiation step starts a renegotiation
-/

namespace Lightway
open Spec

/-- Neither the event that a renegotiation started, nor a TLS call that is part of starting one. -/
def Silent : Effect → Prop
  | .event .renegStarted _ => False
  | .sslCall .rehandshake _ => False
  | .sslCall .updateKeys _ => False
  | .sslCall .renegSupport _ => False
  | _ => True

/-- `c'` extends the history of `c` by silent effects. -/
def Hush (c c' : Conn) : Prop := ∃ l, c'.log = l ++ c.log ∧ ∀ x ∈ l, Silent x

/-- `c'` extends the history of `c` by silent effects and keeps the renegotiation flags. -/
structure Unmoved (c c' : Conn) : Prop where
  hush : Hush c c'
  due : c'.renegDue = c.renegDue
  prog : c'.renegInProgress = c.renegInProgress

theorem Hush.refl (c : Conn) : Hush c c := ⟨[], rfl, by simp⟩

theorem Hush.of_log {c c' : Conn} (h : c'.log = c.log) : Hush c c' := ⟨[], h, by simp⟩

theorem Hush.trans {a b c : Conn} (h1 : Hush a b) (h2 : Hush b c) : Hush a c := by
  obtain ⟨l1, e1, s1⟩ := h1
  obtain ⟨l2, e2, s2⟩ := h2
  refine ⟨l2 ++ l1, by rw [e2, e1]; simp, ?_⟩
  intro x hx
  rcases List.mem_append.mp hx with h | h
  · exact s2 x h
  · exact s1 x h

theorem Hush.emit {c c' : Conn} (h : Hush c c') {e : Effect} (he : Silent e) : Hush c (c'.emit e) :=
  h.trans ⟨[e], rfl, by simpa using he⟩

theorem Unmoved.refl (c : Conn) : Unmoved c c := ⟨.refl c, rfl, rfl⟩

theorem Unmoved.of_log {c c' : Conn} (h : c'.log = c.log) (h1 : c'.renegDue = c.renegDue := by rfl)
    (h2 : c'.renegInProgress = c.renegInProgress := by rfl) : Unmoved c c' := ⟨.of_log h, h1, h2⟩

theorem Unmoved.trans {a b c : Conn} (h1 : Unmoved a b) (h2 : Unmoved b c) : Unmoved a c :=
  ⟨h1.hush.trans h2.hush, h2.due.trans h1.due, h2.prog.trans h1.prog⟩

theorem Unmoved.emit {c c' : Conn} (h : Unmoved c c') {e : Effect} (he : Silent e) : Unmoved c (c'.emit e) :=
  h.trans ⟨⟨[e], rfl, by simpa using he⟩, rfl, rfl⟩

theorem CbIo.silent {e : Effect} (h : CbIo e) : Silent e := by cases e <;> simp_all [CbIo, Silent]

theorem Spec.NetIo.silent {e : Effect} (h : Spec.NetIo e) : Silent e := by cases e <;> simp_all [NetIo, Silent]

theorem ioRun_unmoved (env : Env) (c : Conn) (io : List IoReq) : Unmoved c (ioRun env c io) := by
  obtain ⟨l, e, hl⟩ := ioRun_netIo env c io
  obtain ⟨l', ps, sl, we, e', hl'⟩ := ioRun_frame env c io
  exact ⟨⟨l, e, fun x hx => Spec.NetIo.silent (hl x hx)⟩, by rw [e'], by rw [e']⟩

theorem sslDo_unmoved (env : Env) (c : Conn) (call : SslCall) (hs : ∀ ok, Silent (.sslCall call ok)) :
    Unmoved c (sslDo env c call).1 := by
  obtain ⟨l, e, hl⟩ := sslDo_says env c call
  obtain ⟨l', ps, sl, we, e', hl'⟩ := sslDo_frame env c call
  refine ⟨⟨l ++ [.sslCall call (sslDo env c call).2.ok], by rw [e]; simp, ?_⟩, by rw [e'], by rw [e']⟩
  intro x hx
  rcases List.mem_append.mp hx with h | h
  · exact Spec.NetIo.silent (hl x h)
  · rw [List.mem_singleton] at h; rw [h]; exact hs _

theorem sendMessage_unmoved (env : Env) (c : Conn) (m : Bytes) : Unmoved c (sendMessage env c m).1 := by
  obtain ⟨l, ok, e, hl⟩ := sendMessage_log env c m
  obtain ⟨l', ps, sl, we, e', hl'⟩ := sendMessage_frame env c m
  refine ⟨⟨l ++ [.sslCall (.write m) ok], by rw [e]; simp, ?_⟩, by rw [e'], by rw [e']⟩
  intro x hx
  rcases List.mem_append.mp hx with h | h
  · exact (hl x h).silent
  · rw [List.mem_singleton] at h; rw [h]; trivial

theorem sslVer_unmoved (env : Env) (c : Conn) : Unmoved c (sslVer env c).1 := by
  unfold sslVer
  split
  · exact .refl c
  · exact .emit (.refl c) trivial

theorem pmtudChangeState_unmoved (c : Conn) (s : PmtudState) : Unmoved c (pmtudChangeState c s) := by
  unfold pmtudChangeState
  dsimp only
  split
  · exact ⟨⟨[.pmtudState s], rfl, by simp [Silent]⟩, rfl, rfl⟩
  · exact .of_log rfl

theorem pmtudTimeCb_unmoved (env : Env) (c : Conn) (ms : Nat) : Unmoved c (pmtudTimeCb env c ms).1 :=
  .emit (.refl c) trivial

theorem Unmoved.upd (c : Conn) (pm : Pmtud) (pn : Nat) : Unmoved c { c with pmtud := pm, pingNextId := pn } := .of_log rfl

theorem Unmoved.updP (c : Conn) (pm : Pmtud) : Unmoved c { c with pmtud := pm } := .of_log rfl

theorem sendProbe_unmoved (env : Env) (c : Conn) (mtu : Nat) : Unmoved c (sendProbe env c mtu).1 := by
  unfold sendProbe
  split
  · exact .refl c
  · split
    · exact .refl c
    · simp only
      have h0 := Unmoved.upd c { c.pmtud with probeCount := (c.pmtud.probeCount + 1) % 256, probingSize := mtu } ((c.pingNextId + 1) % 65536)
      have h1 := h0.trans (sendMessage_unmoved env _ (probeMsg c.pingNextId mtu))
      generalize sendMessage env _ (probeMsg c.pingNextId mtu) = q at h1 ⊢
      obtain ⟨c1, rc⟩ := q
      simp only at h1 ⊢
      by_cases hrc : rc = .success
      · simp only [hrc, ne_eq, not_true_eq_false, if_false]
        have h2 := h1.trans (.updP c1 { c1.pmtud with pendingId := c.pingNextId })
        split
        · exact h2.trans (pmtudTimeCb_unmoved env _ _)
        · exact h2
      · simp only [hrc, ne_eq, not_false_eq_true, if_true]
        split
        · exact h1.trans (pmtudTimeCb_unmoved env _ _)
        · exact h1

theorem retryProbe_unmoved (env : Env) (c : Conn) (ms : Nat) : Unmoved c (retryProbe env c ms).1 := by
  unfold retryProbe
  by_cases h : c.cbs.pmtudTime = true
  · rw [if_pos h]
    exact (pmtudTimeCb_unmoved env c ms).trans (.updP _ _)
  · rw [if_neg h]
    exact .updP _ _

theorem startBaseProbing_unmoved (env : Env) (c : Conn) : Unmoved c (startBaseProbing env c).1 := by
  unfold startBaseProbing
  split
  · exact .refl c
  · exact .refl c
  · dsimp only
    exact ((pmtudChangeState_unmoved c .base).trans (.updP _ _)).trans (sendProbe_unmoved env _ _)

theorem baseConfirmed_unmoved (env : Env) (c : Conn) : Unmoved c (baseConfirmed env c).1 := by
  unfold baseConfirmed
  split
  · dsimp only
    exact ((pmtudChangeState_unmoved c .searching).trans (.updP _ _)).trans (sendProbe_unmoved env _ _)
  · exact .refl c

theorem searchCompleted_unmoved (env : Env) (c : Conn) : Unmoved c (searchCompleted env c).1 := by
  unfold searchCompleted
  split
  · exact ((Unmoved.updP c _).trans (pmtudChangeState_unmoved _ _)).trans (retryProbe_unmoved env _ _)
  · exact .refl c

theorem handleProbeAck_unmoved (env : Env) (c : Conn) (id : Nat) : Unmoved c (handleProbeAck env c id).1 := by
  unfold handleProbeAck
  split
  · exact .refl c
  simp only
  have h1 : Unmoved c (if c.cbs.pmtudTime = true then (pmtudTimeCb env c 0).1 else c) := by
    split
    · exact pmtudTimeCb_unmoved env c 0
    · exact .refl c
  generalize (if c.cbs.pmtudTime = true then (pmtudTimeCb env c 0).1 else c) = d at h1 ⊢
  have h2 := h1.trans (.updP d { d.pmtud with pendingId := 0, probeCount := 0 })
  split
  · exact h2.trans (baseConfirmed_unmoved env _)
  · split
    · exact h2.trans (searchCompleted_unmoved env _)
    · exact h2.trans (sendProbe_unmoved env _ _)
  · exact h2.trans (baseConfirmed_unmoved env _)
  · exact h2.trans (retryProbe_unmoved env _ _)
  · exact h2

theorem setState_unmoved (c : Conn) (s : ConnState) : Unmoved c (setState c s) := by
  unfold setState
  split
  · exact .refl c
  · exact ⟨⟨[.state s c.cbs.stateChange], rfl, by simp [Silent]⟩, rfl, rfl⟩

theorem handlePing_unmoved (env : Env) (c : Conn) (m : Bytes) : Unmoved c (handlePing env c m).1 := by
  unfold handlePing
  repeat' split
  all_goals first | exact .refl c | exact .emit (.refl c) trivial | exact sendMessage_unmoved env c _

theorem handlePong_unmoved (env : Env) (c : Conn) (m : Bytes) : Unmoved c (handlePong env c m).1 := by
  unfold handlePong
  repeat' split
  all_goals first | exact .refl c | exact .emit (.refl c) trivial | exact handleProbeAck_unmoved env c _

theorem handleServerConfig_unmoved (env : Env) (c : Conn) (m : Bytes) : Unmoved c (handleServerConfig env c m).1 := by
  unfold handleServerConfig
  simp only
  repeat' split
  all_goals first | exact .refl c | exact .emit (.refl c) trivial

theorem handleConfigIpv4_unmoved (env : Env) (c : Conn) (m : Bytes) : Unmoved c (handleConfigIpv4 env c m).1 := by
  unfold handleConfigIpv4
  split
  · exact .refl c
  split
  · exact .refl c
  split
  · exact .refl c
  split
  · rename_i l p d mm s q _ _ _ _ _ _
    have h1 : Unmoved c (setState { c with sessionId := rdLe s } .configuring) :=
      (Unmoved.of_log rfl : Unmoved c { c with sessionId := rdLe s }).trans (setState_unmoved _ _)
    simp only
    generalize setState { c with sessionId := rdLe s } .configuring = c1 at h1 ⊢
    split
    · split
      · exact h1.emit (by trivial)
      · exact (h1.emit (by trivial)).trans (setState_unmoved _ _)
    · exact h1.trans (setState_unmoved _ _)
  · exact .emit (.refl c) trivial

theorem authSwitch_unmoved (env : Env) (c : Conn) (m : Bytes) (ty : UInt8) :
    match authSwitch env c m ty with
    | .ret c' _ _ => Unmoved c c'
    | .verdict c' _ _ _ => Unmoved c c' := by
  unfold authSwitch
  simp only
  repeat' split
  all_goals (rename_i h)
  all_goals (repeat' split at h)
  all_goals first
    | (injection h with h1; subst h1; first | exact .refl _ | exact .emit (.refl _) trivial | exact (Unmoved.refl c).emit (by trivial) | exact ⟨⟨[_], rfl, by simp [Silent]⟩, rfl, rfl⟩)
    | cases h

theorem handleAuth_unmoved (env : Env) (c : Conn) (m : Bytes) : Unmoved c (handleAuth env c m).1 := by
  unfold handleAuth
  show Unmoved c (handleAuthBuf env c m).1
  unfold handleAuthBuf
  split
  · exact .refl c
  split
  · exact .refl c
  split
  · exact .refl c
  split
  · exact .refl c
  split
  · rename_i ty _
    have h := authSwitch_unmoved env c m ty
    generalize authSwitch env c m ty = o at h ⊢
    cases o with
    | ret c' rc p => exact h
    | verdict c' ok rc p =>
      simp only at h ⊢
      have hd : ∀ c2 : Conn, Unmoved c2 (sendAuthDenied env c2) := fun c2 => sendMessage_unmoved env c2 _
      split
      · exact (h.trans (hd c')).trans (setState_unmoved _ _)
      · split
        · exact (h.emit (by trivial)).trans (hd _)
        · exact ((h.emit (by trivial)).trans (sendMessage_unmoved env _ _)).trans (setState_unmoved _ _)
  · exact .emit (.refl c) trivial

theorem egress_unmoved (c : Conn) (p : Bytes) (cap : Nat) :
    Unmoved c { c with log := (c.insidePlugins.egress c.log p cap).1 } := by
  obtain ⟨l, h1, h2⟩ := Chain.egress_log c.insidePlugins c.log p cap
  refine ⟨⟨l, h1, fun x hx => ?_⟩, rfl, rfl⟩
  obtain ⟨p, r, rfl⟩ := h2 x hx
  trivial

theorem internalHandleData_unmoved (c : Conn) (p : Bytes) : Unmoved c (internalHandleData c p).1 := by
  unfold internalHandleData
  simp only
  have h := egress_unmoved c p p.length
  generalize c.insidePlugins.egress c.log p p.length = r at h ⊢
  repeat' split
  all_goals first | exact h | exact h.emit trivial

theorem handleData_unmoved (c : Conn) (m : Bytes) : Unmoved c (handleData c m).1 := by
  unfold handleData
  simp only
  repeat' split
  all_goals first | exact .refl c | exact .emit (.refl c) trivial | exact internalHandleData_unmoved c _

theorem handleDeprecated13_unmoved (c : Conn) (m : Bytes) : Unmoved c (handleDeprecated13 c m).1 := by
  unfold handleDeprecated13
  repeat' split
  all_goals first | exact .refl c | exact .emit (.refl c) trivial | exact internalHandleData_unmoved c _

theorem fragApply_unmoved (env : Env) (c : Conn) (t : FragTable) (en : FragEntry) (id off : Nat) (last : Bool) (d : Bytes) :
    Unmoved c (fragApply env c t en id off last d).1 := by
  unfold fragApply
  simp only
  have h1 : Unmoved c (c.emit (.clock (env.now c.log))) := .emit (.refl c) trivial
  generalize c.emit (.clock (env.now c.log)) = c1 at h1 ⊢
  split
  · exact h1.emit trivial
  · rename_i en' rc asm _
    have h2 : Unmoved c { c1 with fragTable := some (t.set id en') } := h1.trans (.of_log rfl)
    generalize ({ c1 with fragTable := some (t.set id en') } : Conn) = c2 at h2 ⊢
    split
    · exact h2
    · split
      · split
        · exact h2.emit trivial
        · split
          · exact h2.emit trivial
          · rename_i p _
            exact (h2.trans (internalHandleData_unmoved c2 p)).trans (.of_log rfl)
      · exact h2

theorem fragReceive_unmoved (env : Env) (c : Conn) (id off : Nat) (last : Bool) (d : Bytes) :
    Unmoved c (fragReceive env c id off last d).1 := by
  unfold fragReceive
  split
  · exact .refl c
  rename_i t _
  simp only
  have h1 : Unmoved c (if (t.slot (id % t.num)).isNone then c.emit (.alloc (env.alloc c.log)) else c) := by
    split
    · exact .emit (.refl c) trivial
    · exact .refl c
  generalize (if (t.slot (id % t.num)).isNone then c.emit (.alloc (env.alloc c.log)) else c) = c1 at h1 ⊢
  have h2 : Unmoved c (if ((t.slot (id % t.num)).isNone && env.alloc c.log) = true then c1.emit (.clock (env.now c1.log)) else c1) := by
    split
    · exact h1.emit trivial
    · exact h1
  generalize (if ((t.slot (id % t.num)).isNone && env.alloc c.log) = true then c1.emit (.clock (env.now c1.log)) else c1) = c2 at h2 ⊢
  split
  · exact h2.trans (.of_log rfl)
  · rename_i t' en _
    have h3 : Unmoved c2 { c2 with fragTable := some t' } := .of_log rfl
    exact (h2.trans h3).trans (fragApply_unmoved env { c2 with fragTable := some t' } t' en id off last d)

theorem handleDataFrag_unmoved (env : Env) (c : Conn) (m : Bytes) : Unmoved c (handleDataFrag env c m).1 := by
  unfold handleDataFrag
  simp only
  repeat' split
  all_goals first | exact .refl c | exact .emit (.refl c) trivial | exact fragReceive_unmoved env c _ _ _ _

theorem ite_unmoved {c : Conn} {p : Prop} [Decidable p] {a b : Conn × RC} (ha : Unmoved c a.1) (hb : Unmoved c b.1) :
    Unmoved c (if p then a else b).1 := by
  split
  · exact ha
  · exact hb

theorem processMessage_unmoved (env : Env) (c : Conn) (m : Bytes) : Unmoved c (processMessage env c m).1 := by
  unfold processMessage
  cases m with
  | nil => exact .of_log rfl
  | cons id t =>
  simp only
  by_cases h : id = msgNoop
  · rw [if_pos h]; exact .refl c
  rw [if_neg h]; clear h
  by_cases h : id = msgPing
  · rw [if_pos h]; exact handlePing_unmoved env c _
  rw [if_neg h]; clear h
  by_cases h : id = msgPong
  · rw [if_pos h]; exact handlePong_unmoved env c _
  rw [if_neg h]; clear h
  by_cases h : id = msgAuth
  · rw [if_pos h]; exact (ite_unmoved (handleAuth_unmoved env c _) (.refl c))
  rw [if_neg h]; clear h
  by_cases h : id = msgData
  · rw [if_pos h]; exact handleData_unmoved c _
  rw [if_neg h]; clear h
  by_cases h : id = msgConfigIpv4
  · rw [if_pos h]; exact (ite_unmoved (handleConfigIpv4_unmoved env c _) (.refl c))
  rw [if_neg h]; clear h
  by_cases h : id = msgAuthResponse
  · rw [if_pos h]; exact (ite_unmoved (.refl c) (.refl c))
  rw [if_neg h]; clear h
  by_cases h : id = msgAuthResponseWithConfig
  · rw [if_pos h]; exact .refl c
  rw [if_neg h]; clear h
  by_cases h : id = msgGoodbye
  · rw [if_pos h]; exact .refl c
  rw [if_neg h]; clear h
  by_cases h : id = msgExtension
  · rw [if_pos h]; exact .refl c
  rw [if_neg h]; clear h
  by_cases h : id = msgDeprecated13
  · rw [if_pos h]; exact handleDeprecated13_unmoved c _
  rw [if_neg h]; clear h
  by_cases h : id = msgServerConfig
  · rw [if_pos h]; exact (ite_unmoved (handleServerConfig_unmoved env c _) (.refl c))
  rw [if_neg h]; clear h
  by_cases h : id = msgDataWithFrag
  · rw [if_pos h]; exact handleDataFrag_unmoved env c _
  rw [if_neg h]; clear h
  exact .refl c

theorem sendAuth_unmoved (env : Env) (c : Conn) : Unmoved c (sendAuth env c).1 := by
  unfold sendAuth
  split
  · exact .refl c
  simp only
  have h := setState_unmoved c .authenticating
  generalize setState c .authenticating = c1 at h ⊢
  repeat' split
  all_goals first | exact h | exact h.trans (sendMessage_unmoved env c1 _)

theorem changeState_unmoved (env : Env) (c : Conn) (s : ConnState) : Unmoved c (changeState env c s) := by
  unfold changeState
  split
  · exact .refl c
  · simp only
    split
    · exact (setState_unmoved c s).trans (sendAuth_unmoved env _)
    · exact setState_unmoved c s

/-! ## Without reading -/

/-- Silent, and not a read. -/
def Idle : Effect → Prop
  | .event .renegStarted _ => False
  | .sslCall .rehandshake _ => False
  | .sslCall .updateKeys _ => False
  | .sslCall .renegSupport _ => False
  | .sslCall .read _ => False
  | _ => True

theorem Idle.silent {e : Effect} (h : Idle e) : Silent e := by unfold Idle at h; unfold Silent; split at h <;> simp_all

/-- `c'` extends the history of `c` by effects that are neither part of a renegotiation nor a read, and keeps the
renegotiation flags. -/
structure Rest (c c' : Conn) : Prop where
  log : ∃ l, c'.log = l ++ c.log ∧ ∀ x ∈ l, Idle x
  due : c'.renegDue = c.renegDue
  prog : c'.renegInProgress = c.renegInProgress

theorem Rest.refl (c : Conn) : Rest c c := ⟨⟨[], rfl, by simp⟩, rfl, rfl⟩

theorem Rest.unmoved {c c' : Conn} (h : Rest c c') : Unmoved c c' := by
  obtain ⟨l, e, hl⟩ := h.log
  exact ⟨⟨l, e, fun x hx => (hl x hx).silent⟩, h.due, h.prog⟩

theorem Rest.trans {a b c : Conn} (h1 : Rest a b) (h2 : Rest b c) : Rest a c := by
  refine ⟨?_, h2.due.trans h1.due, h2.prog.trans h1.prog⟩
  obtain ⟨l1, e1, s1⟩ := h1.log
  obtain ⟨l2, e2, s2⟩ := h2.log
  refine ⟨l2 ++ l1, by rw [e2, e1]; simp, ?_⟩
  intro x hx
  rcases List.mem_append.mp hx with h | h
  · exact s2 x h
  · exact s1 x h

theorem Rest.of_log {c c' : Conn} (h : c'.log = c.log) (h1 : c'.renegDue = c.renegDue := by rfl)
    (h2 : c'.renegInProgress = c.renegInProgress := by rfl) : Rest c c' := ⟨⟨[], h, by simp⟩, h1, h2⟩

theorem Rest.emit {c c' : Conn} (h : Rest c c') {e : Effect} (he : Idle e) : Rest c (c'.emit e) :=
  h.trans ⟨⟨[e], rfl, by simpa using he⟩, rfl, rfl⟩

theorem Spec.NetIo.idle {e : Effect} (h : Spec.NetIo e) : Idle e := by cases e <;> simp_all [NetIo, Idle]

theorem sslDo_rest (env : Env) (c : Conn) (call : SslCall) (hs : ∀ ok, Idle (.sslCall call ok)) :
    Rest c (sslDo env c call).1 := by
  obtain ⟨l, e, hl⟩ := sslDo_says env c call
  obtain ⟨l', ps, sl, we, e', hl'⟩ := sslDo_frame env c call
  refine ⟨⟨l ++ [.sslCall call (sslDo env c call).2.ok], by rw [e]; simp, ?_⟩, by rw [e'], by rw [e']⟩
  intro x hx
  rcases List.mem_append.mp hx with h | h
  · exact Spec.NetIo.idle (hl x h)
  · rw [List.mem_singleton] at h; rw [h]; exact hs _

theorem sslVer_rest (env : Env) (c : Conn) : Rest c (sslVer env c).1 := by
  unfold sslVer
  split
  · exact .refl c
  · exact .emit (.refl c) trivial

theorem updateTimeout_rest (env : Env) (c : Conn) : Rest c (updateTimeout env c) := by
  unfold updateTimeout
  split
  · exact .refl c
  simp only
  have h1 := sslDo_rest env c .currentTimeout (fun _ => trivial)
  generalize sslDo env c .currentTimeout = q at h1 ⊢
  obtain ⟨c1, r⟩ := q
  simp only at h1 ⊢
  have h2 := h1.trans (sslVer_rest env c1)
  generalize sslVer env c1 = q at h2 ⊢
  obtain ⟨c2, v⟩ := q
  simp only at h2 ⊢
  have h3 : Rest c (if v ≠ .dtls12 then
        let q := sslDo env c2 .quickTimeout
        (q.1, if q.2.ok then (r.val * 100).tdiv 4 else r.val * 100)
      else (c2, r.val * 100)).1 := by
    split
    · exact h2.trans (sslDo_rest env c2 .quickTimeout (fun _ => trivial))
    · exact h2
  generalize (if v ≠ .dtls12 then
        let q := sslDo env c2 .quickTimeout
        (q.1, if q.2.ok then (r.val * 100).tdiv 4 else r.val * 100)
      else (c2, r.val * 100)) = q at h3 ⊢
  obtain ⟨c3, t⟩ := q
  simp only at h3 ⊢
  split
  · exact h3.trans ⟨⟨[.nudgeTime t, .timer t], rfl, by simp [Idle]⟩, rfl, rfl⟩
  · exact h3.trans ⟨⟨[.timer t], rfl, by simp [Idle]⟩, rfl, rfl⟩

theorem updateSessionIncoming_rest (c : Conn) (s : Nat) : Rest c (updateSessionIncoming c s).1 := by
  unfold updateSessionIncoming
  split
  · exact .refl c
  · split
    · split
      · exact .refl c
      · split
        · exact ⟨⟨[.event .pendingSessionAcknowledged c.cbs.event], rfl, by simp [Idle]⟩, rfl, rfl⟩
        · exact .refl c
    · exact .of_log rfl

/-! ## The two halves of the receive call -/

theorem renegFin_hush (env : Env) (c : Conn) (pending : Bool) :
    Hush c (updateTimeout env { (if !pending then generateEvent c .renegCompleted else c) with
      renegInProgress := pending }) ∧
    (updateTimeout env { (if !pending then generateEvent c .renegCompleted else c) with
      renegInProgress := pending }).renegDue = c.renegDue := by
  have h1 : Hush c ({ (if !pending then generateEvent c .renegCompleted else c) with renegInProgress := pending }) ∧
      ({ (if !pending then generateEvent c .renegCompleted else c) with renegInProgress := pending } : Conn).renegDue = c.renegDue := by
    cases pending
    · exact ⟨⟨[.event .renegCompleted c.cbs.event], rfl, by simp [Silent]⟩, rfl⟩
    · exact ⟨.of_log rfl, rfl⟩
  have h2 := (updateTimeout_rest env { (if !pending then generateEvent c .renegCompleted else c) with renegInProgress := pending }).unmoved
  exact ⟨h1.1.trans h2.hush, h2.due.trans h1.2⟩

theorem renegTail_hush (env : Env) (c : Conn) : Hush c (renegTail env c).1 ∧ (renegTail env c).1.renegDue = c.renegDue := by
  unfold renegTail
  split
  · exact ⟨.refl c, rfl⟩
  · simp only
    have h1 := sslVer_unmoved env c
    generalize sslVer env c = q at h1 ⊢
    obtain ⟨c1, v⟩ := q
    simp only at h1 ⊢
    split
    · have h2 := h1.trans (sslDo_unmoved env c1 .renegPending (fun _ => trivial))
      generalize sslDo env c1 .renegPending = q at h2 ⊢
      obtain ⟨c2, r⟩ := q
      have h3 := renegFin_hush env c2 (decide (r.val ≠ 0))
      exact ⟨h2.hush.trans h3.1, h3.2.trans h2.due⟩
    · have h2 := h1.trans (sslDo_unmoved env c1 .keyUpdateResponse (fun _ => trivial))
      generalize sslDo env c1 .keyUpdateResponse = q at h2 ⊢
      obtain ⟨c2, r⟩ := q
      simp only at h2 ⊢
      split
      · exact ⟨h2.hush.trans (.of_log rfl), h2.due⟩
      · have h3 := renegFin_hush env c2 (decide (r.val ≠ 0))
        exact ⟨h2.hush.trans h3.1, h3.2.trans h2.due⟩

/-- What the renegotiation step adds to the history: nothing, a refusal of the library, or a start. -/
inductive StepOut (c d : Conn) (rc : RC) : Prop
  | none (hn : c.renegInProgress = true ∨ c.state ≠ .online) (h : d.log = c.log) (hrc : rc = .success)
  | refused (hp : c.renegInProgress = false) (ho : c.state = .online) (l1 l2 : Log)
      (h : d.log = l2 ++ .sslCall .renegSupport false :: (l1 ++ c.log)) (h1 : ∀ x ∈ l1, Silent x) (h2 : ∀ x ∈ l2, Silent x)
      (hrc : rc = .success)
  | start (hp : c.renegInProgress = false) (ho : c.state = .online) (call : SslCall) (l0 l1 l2 : Log) (n ok : Bool)
      (hc : call = .rehandshake ∨ call = .updateKeys)
      (h : d.log = l2 ++ .event .renegStarted n :: (l1 ++ .sslCall call ok :: (l0 ++ c.log)))
      (h0 : ∀ x ∈ l0, Silent x ∨ x = .sslCall .renegSupport true) (h1 : ∀ x ∈ l1, NetIo x) (h2 : ∀ x ∈ l2, Silent x)

theorem renegGo_ren (env : Env) (c : Conn) (r : SslRes) :
    Hush (generateEvent { c with renegInProgress := true } .renegStarted) (if r.ok then
        (generateEvent { c with renegInProgress := true } .renegStarted, RC.success)
      else
        match r.err with
        | .none | .wantRead | .wantWrite | .appDataReady =>
          (updateTimeout env (generateEvent { c with renegInProgress := true } .renegStarted), .success)
        | .secureReneg => (generateEvent { c with renegInProgress := true } .renegStarted, .secureRenegotiationError)
        | e => ({ generateEvent { c with renegInProgress := true } .renegStarted with wolfError := e }, .sslError)).1 ∧
    (if r.ok then
        (generateEvent { c with renegInProgress := true } .renegStarted, RC.success)
      else
        match r.err with
        | .none | .wantRead | .wantWrite | .appDataReady =>
          (updateTimeout env (generateEvent { c with renegInProgress := true } .renegStarted), .success)
        | .secureReneg => (generateEvent { c with renegInProgress := true } .renegStarted, .secureRenegotiationError)
        | e => ({ generateEvent { c with renegInProgress := true } .renegStarted with wolfError := e }, .sslError)).1.renegDue =
      c.renegDue := by
  have hd : (generateEvent { c with renegInProgress := true } .renegStarted).renegDue = c.renegDue := rfl
  generalize generateEvent { c with renegInProgress := true } .renegStarted = c1 at hd ⊢
  have hu := (updateTimeout_rest env c1).unmoved
  split
  · exact ⟨.refl _, hd⟩
  · split
    · exact ⟨hu.hush, hu.due.trans hd⟩
    · exact ⟨hu.hush, hu.due.trans hd⟩
    · exact ⟨hu.hush, hu.due.trans hd⟩
    · exact ⟨hu.hush, hu.due.trans hd⟩
    · exact ⟨.refl _, hd⟩
    · exact ⟨.of_log rfl, hd⟩

theorem renegotiateSsl_ren (env : Env) (c : Conn) :
    StepOut c (renegotiateSsl env c).1 (renegotiateSsl env c).2 ∧ (renegotiateSsl env c).1.renegDue = false := by
  unfold renegotiateSsl
  simp only
  have e1 : ({ c with renegDue := false } : Conn).log = c.log := rfl
  have e2 : ({ c with renegDue := false } : Conn).renegDue = false := rfl
  split
  · rename_i h
    exact ⟨.none h rfl rfl, rfl⟩
  · rename_i h
    simp only [not_or, Bool.not_eq_true, ne_eq, Classical.not_not] at h
    obtain ⟨hp, ho⟩ := h
    generalize ({ c with renegDue := false } : Conn) = c0 at e1 e2 ⊢
    have h1 := sslVer_unmoved env c0
    generalize sslVer env c0 = q at h1 ⊢
    obtain ⟨c1, v⟩ := q
    simp only at h1 ⊢
    obtain ⟨l1, ll1, hl1⟩ := h1.hush
    rw [e1] at ll1
    have d1 : c1.renegDue = false := h1.due.trans e2
    split
    · obtain ⟨l, e, hl⟩ := sslDo_says env c1 .renegSupport
      obtain ⟨l', ps, sl, we, e', hl'⟩ := sslDo_frame env c1 .renegSupport
      have d2 : (sslDo env c1 .renegSupport).1.renegDue = false := by rw [e']; exact d1
      clear e' hl'
      generalize sslDo env c1 .renegSupport = q at e d2 ⊢
      obtain ⟨c2, s⟩ := q
      simp only at e d2 ⊢
      split
      · rename_i hs
        have hs' : s.ok = false := by simpa using hs
        rw [hs', ll1] at e
        exact ⟨.refused hp ho l1 l e hl1 (fun x hx => Spec.NetIo.silent (hl x hx)) rfl, d2⟩
      · rename_i hs
        have hs' : s.ok = true := by simpa using hs
        rw [hs', ll1] at e
        obtain ⟨m, e3, hm⟩ := sslDo_says env c2 .rehandshake
        obtain ⟨l', ps, sl, we, e', hl'⟩ := sslDo_frame env c2 .rehandshake
        have d3 : (sslDo env c2 .rehandshake).1.renegDue = false := by rw [e']; exact d2
        clear e' hl'
        generalize sslDo env c2 .rehandshake = q at e3 d3 ⊢
        obtain ⟨c3, r⟩ := q
        simp only at e3 d3
        have hg := renegGo_ren env c3 r
        refine ⟨?_, hg.2.trans d3⟩
        obtain ⟨k, ek, hk⟩ := hg.1
        refine .start hp ho .rehandshake (l ++ .sslCall .renegSupport true :: l1) m k c3.cbs.event r.ok (.inl rfl) ?_ ?_
          hm hk
        · refine Eq.trans ek ?_
          show k ++ (.event .renegStarted c3.cbs.event :: c3.log) = _
          rw [e3, e]; simp
        · intro x hx
          rcases List.mem_append.mp hx with h | h
          · exact .inl (Spec.NetIo.silent (hl x h))
          · rcases List.mem_cons.mp h with h | h
            · exact .inr h
            · exact .inl (hl1 x h)
    · obtain ⟨m, e3, hm⟩ := sslDo_says env c1 .updateKeys
      obtain ⟨l', ps, sl, we, e', hl'⟩ := sslDo_frame env c1 .updateKeys
      have d3 : (sslDo env c1 .updateKeys).1.renegDue = false := by rw [e']; exact d1
      clear e' hl'
      generalize sslDo env c1 .updateKeys = q at e3 d3 ⊢
      obtain ⟨c3, r⟩ := q
      simp only at e3 d3
      have hg := renegGo_ren env c3 r
      refine ⟨?_, hg.2.trans d3⟩
      obtain ⟨k, ek, hk⟩ := hg.1
      refine .start hp ho .updateKeys l1 m k c3.cbs.event r.ok (.inr rfl) ?_ (fun x hx => .inl (hl1 x hx))
        hm hk
      refine Eq.trans ek ?_
      show k ++ (.event .renegStarted c3.cbs.event :: c3.log) = _
      rw [e3, ll1]

theorem messageLoop_unmoved (env : Env) (reads : List ReadRes) : ∀ c : Conn, Unmoved c (messageLoop env c reads).1 ∧
    ∀ rc, (messageLoop env c reads).2 = some rc → rc ≠ .success := by
  induction reads with
  | nil =>
    intro c
    unfold messageLoop
    split
    · exact ⟨.emit (.refl c) trivial, by simp⟩
    · refine ⟨(Unmoved.emit (.refl c) (e := .sslCall .read false) trivial).trans (.of_log rfl), ?_⟩
      intro rc h
      simp only [Option.some.injEq] at h
      rw [← h]; split <;> simp
  | cons r rest ih =>
    intro c
    unfold messageLoop
    split
    · refine ⟨(Unmoved.emit (.refl c) (e := .sslCall .read false) trivial).trans (.of_log rfl), ?_⟩
      intro rc h
      simp only [Option.some.injEq] at h
      rw [← h]; split <;> simp
    · simp only
      have h1 := (Unmoved.emit (.refl c) (e := .sslCall .read (!(r.plain.take maxWireMtu).isEmpty)) trivial).trans (ioRun_unmoved env _ r.io)
      generalize ioRun env (c.emit (.sslCall .read (!(r.plain.take maxWireMtu).isEmpty))) r.io = d at h1 ⊢
      split
      · split
        · exact ⟨h1, by simp⟩
        · exact ⟨h1, by simp⟩
        · exact ⟨h1, by simp⟩
        · exact ⟨h1.trans (ih d).1, (ih d).2⟩
        · split
          · exact ⟨h1, by intro rc h; simp only [Option.some.injEq] at h; rw [← h]; simp⟩
          · refine ⟨h1.trans (.of_log rfl), ?_⟩
            intro rc h
            simp only [Option.some.injEq] at h
            rw [← h]; split <;> simp
      · have h2 := (h1.emit (e := .message (r.plain.take maxWireMtu)) trivial).trans
          (processMessage_unmoved env _ (r.plain.take maxWireMtu))
        generalize processMessage env (d.emit (.message (r.plain.take maxWireMtu))) (r.plain.take maxWireMtu) = q at h2 ⊢
        obtain ⟨c1, rc⟩ := q
        simp only at h2 ⊢
        split
        · rename_i hrc
          refine ⟨h2, ?_⟩
          intro rc' h
          simp only [Option.some.injEq] at h
          rw [← h]; exact hrc
        · exact ⟨h2.trans (ih c1).1, (ih c1).2⟩

end Lightway
