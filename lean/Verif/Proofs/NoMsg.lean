import Verif.Spec.Screen
import Verif.Proofs.Recv
import Verif.Proofs.Tools

/-!
# Processing one message does not make another one appear
-/

namespace Lightway
open Spec

/-- Not the arrival of a message. -/
def Still : Effect → Prop
  | .message _ => False
  | _ => True

/-- `c'` extends the history of `c` without receiving a message. -/
def NoMsg (c c' : Conn) : Prop := ∃ l, c'.log = l ++ c.log ∧ ∀ x ∈ l, Still x

theorem NoMsg.refl (c : Conn) : NoMsg c c := ⟨[], rfl, by simp⟩

theorem NoMsg.of_log {c c' : Conn} (h : c'.log = c.log) : NoMsg c c' := ⟨[], h, by simp⟩

theorem NoMsg.trans {a b c : Conn} (h1 : NoMsg a b) (h2 : NoMsg b c) : NoMsg a c := by
  obtain ⟨l1, e1, s1⟩ := h1
  obtain ⟨l2, e2, s2⟩ := h2
  refine ⟨l2 ++ l1, by rw [e2, e1]; simp, ?_⟩
  intro x hx
  rcases List.mem_append.mp hx with h | h
  · exact s2 x h
  · exact s1 x h

theorem NoMsg.emit {c c' : Conn} (h : NoMsg c c') {e : Effect} (he : Still e) : NoMsg c (c'.emit e) :=
  h.trans ⟨[e], rfl, by simpa using he⟩

theorem PFrame.noMsg {c c' : Conn} (h : PFrame c c') : NoMsg c c' := by
  obtain ⟨l, ps, sl, we, pm, pn, rfl, h⟩ := h
  exact ⟨l, rfl, fun x hx => by have := h x hx; cases x <;> simp_all [PEff, IoEff, Still]⟩

theorem TFrame.noMsg {c c' : Conn} (h : TFrame c c') : NoMsg c c' := by
  obtain ⟨l, inc, ps, sl, we, fm, wt, nt, rip, rd, sid, psid, rfl, h⟩ := h
  exact ⟨l, rfl, fun x hx => by have := h x hx; cases x <;> simp_all [TailEff, Still]⟩

theorem ioRun_noMsg (env : Env) (c : Conn) (io : List IoReq) : NoMsg c (ioRun env c io) := (ioRun_frame env c io).pFrame.noMsg

theorem sslDo_noMsg (env : Env) (c : Conn) (call : SslCall) : NoMsg c (sslDo env c call).1 := (sslDo_frame env c call).pFrame.noMsg

theorem sendMessage_noMsg (env : Env) (c : Conn) (m : Bytes) : NoMsg c (sendMessage env c m).1 :=
  (sendMessage_frame env c m).pFrame.noMsg

theorem setState_noMsg (c : Conn) (s : ConnState) : NoMsg c (setState c s) := by
  unfold setState
  split
  · exact .refl c
  · exact ⟨[.state s c.cbs.stateChange], rfl, by simp [Still]⟩

theorem handlePing_noMsg (env : Env) (c : Conn) (m : Bytes) : NoMsg c (handlePing env c m).1 := by
  unfold handlePing
  repeat' split
  all_goals first | exact .refl c | exact .emit (.refl c) trivial | exact sendMessage_noMsg env c _

theorem handlePong_noMsg (env : Env) (c : Conn) (m : Bytes) : NoMsg c (handlePong env c m).1 := by
  unfold handlePong
  repeat' split
  all_goals first | exact .refl c | exact .emit (.refl c) trivial | exact (handleProbeAck_frame env c _).noMsg

theorem handleServerConfig_noMsg (env : Env) (c : Conn) (m : Bytes) : NoMsg c (handleServerConfig env c m).1 := by
  unfold handleServerConfig
  simp only
  repeat' split
  all_goals first | exact .refl c | exact .emit (.refl c) trivial

theorem handleConfigIpv4_noMsg (env : Env) (c : Conn) (m : Bytes) : NoMsg c (handleConfigIpv4 env c m).1 := by
  unfold handleConfigIpv4
  split
  · exact .refl c
  split
  · exact .refl c
  split
  · exact .refl c
  split
  · rename_i l p d mm s q _ _ _ _ _ _
    have h1 : NoMsg c (setState { c with sessionId := rdLe s } .configuring) :=
      (NoMsg.of_log rfl : NoMsg c { c with sessionId := rdLe s }).trans (setState_noMsg _ _)
    simp only
    generalize setState { c with sessionId := rdLe s } .configuring = c1 at h1 ⊢
    split
    · split
      · exact h1.emit (by trivial)
      · exact (h1.emit (by trivial)).trans (setState_noMsg _ _)
    · exact h1.trans (setState_noMsg _ _)
  · exact .emit (.refl c) trivial

theorem authSwitch_noMsg (env : Env) (c : Conn) (m : Bytes) (ty : UInt8) :
    match authSwitch env c m ty with
    | .ret c' _ _ => NoMsg c c'
    | .verdict c' _ _ _ => NoMsg c c' := by
  unfold authSwitch
  simp only
  repeat' split
  all_goals (rename_i h)
  all_goals (repeat' split at h)
  all_goals first
    | (injection h with h1; subst h1; first | exact .refl _ | exact .emit (.refl _) trivial | exact (NoMsg.refl c).emit (by trivial))
    | cases h

theorem handleAuth_noMsg (env : Env) (c : Conn) (m : Bytes) : NoMsg c (handleAuth env c m).1 := by
  unfold handleAuth
  show NoMsg c (handleAuthBuf env c m).1
  unfold handleAuthBuf
  split
  · exact .refl c
  split
  · exact .refl c
  split
  · exact .refl c
  split
  · exact .refl c
  split
  · rename_i ty _
    have h := authSwitch_noMsg env c m ty
    generalize authSwitch env c m ty = o at h ⊢
    cases o with
    | ret c' rc p => exact h
    | verdict c' ok rc p =>
      simp only at h ⊢
      have hd : ∀ c2 : Conn, NoMsg c2 (sendAuthDenied env c2) := fun c2 => sendMessage_noMsg env c2 _
      split
      · exact (h.trans (hd c')).trans (setState_noMsg _ _)
      · split
        · exact (h.emit (by trivial)).trans (hd _)
        · exact ((h.emit (by trivial)).trans (sendMessage_noMsg env _ _)).trans (setState_noMsg _ _)
  · exact .emit (.refl c) trivial

theorem egress_noMsg (c : Conn) (p : Bytes) (cap : Nat) :
    NoMsg c { c with log := (c.insidePlugins.egress c.log p cap).1 } := by
  obtain ⟨l, h1, h2⟩ := Chain.egress_log c.insidePlugins c.log p cap
  refine ⟨l, h1, fun x hx => ?_⟩
  obtain ⟨p, r, rfl⟩ := h2 x hx
  trivial

theorem internalHandleData_noMsg (c : Conn) (p : Bytes) : NoMsg c (internalHandleData c p).1 := by
  unfold internalHandleData
  simp only
  have h := egress_noMsg c p p.length
  generalize c.insidePlugins.egress c.log p p.length = r at h ⊢
  repeat' split
  all_goals first | exact h | exact h.emit trivial

theorem handleData_noMsg (c : Conn) (m : Bytes) : NoMsg c (handleData c m).1 := by
  unfold handleData
  simp only
  repeat' split
  all_goals first | exact .refl c | exact .emit (.refl c) trivial | exact internalHandleData_noMsg c _

theorem handleDeprecated13_noMsg (c : Conn) (m : Bytes) : NoMsg c (handleDeprecated13 c m).1 := by
  unfold handleDeprecated13
  repeat' split
  all_goals first | exact .refl c | exact .emit (.refl c) trivial | exact internalHandleData_noMsg c _

theorem fragApply_noMsg (env : Env) (c : Conn) (t : FragTable) (en : FragEntry) (id off : Nat) (last : Bool) (d : Bytes) :
    NoMsg c (fragApply env c t en id off last d).1 := by
  unfold fragApply
  simp only
  have h1 : NoMsg c (c.emit (.clock (env.now c.log))) := .emit (.refl c) trivial
  generalize c.emit (.clock (env.now c.log)) = c1 at h1 ⊢
  split
  · exact h1.emit trivial
  · rename_i en' rc asm _
    have h2 : NoMsg c { c1 with fragTable := some (t.set id en') } := h1.trans (.of_log rfl)
    generalize ({ c1 with fragTable := some (t.set id en') } : Conn) = c2 at h2 ⊢
    split
    · exact h2
    · split
      · split
        · exact h2.emit trivial
        · split
          · exact h2.emit trivial
          · rename_i p _
            exact (h2.trans (internalHandleData_noMsg c2 p)).trans (.of_log rfl)
      · exact h2

theorem fragReceive_noMsg (env : Env) (c : Conn) (id off : Nat) (last : Bool) (d : Bytes) :
    NoMsg c (fragReceive env c id off last d).1 := by
  unfold fragReceive
  split
  · exact .refl c
  rename_i t _
  simp only
  have h1 : NoMsg c (if (t.slot (id % t.num)).isNone then c.emit (.alloc (env.alloc c.log)) else c) := by
    split
    · exact .emit (.refl c) trivial
    · exact .refl c
  generalize (if (t.slot (id % t.num)).isNone then c.emit (.alloc (env.alloc c.log)) else c) = c1 at h1 ⊢
  have h2 : NoMsg c (if ((t.slot (id % t.num)).isNone && env.alloc c.log) = true then c1.emit (.clock (env.now c1.log)) else c1) := by
    split
    · exact h1.emit trivial
    · exact h1
  generalize (if ((t.slot (id % t.num)).isNone && env.alloc c.log) = true then c1.emit (.clock (env.now c1.log)) else c1) = c2 at h2 ⊢
  split
  · exact h2.trans (.of_log rfl)
  · rename_i t' en _
    exact (h2.trans (.of_log rfl)).trans (fragApply_noMsg env { c2 with fragTable := some t' } t' en id off last d)

theorem handleDataFrag_noMsg (env : Env) (c : Conn) (m : Bytes) : NoMsg c (handleDataFrag env c m).1 := by
  unfold handleDataFrag
  simp only
  repeat' split
  all_goals first | exact .refl c | exact .emit (.refl c) trivial | exact fragReceive_noMsg env c _ _ _ _

theorem ite_noMsg {c : Conn} {p : Prop} [Decidable p] {a b : Conn × RC} (ha : NoMsg c a.1) (hb : NoMsg c b.1) :
    NoMsg c (if p then a else b).1 := by
  split
  · exact ha
  · exact hb

theorem processMessage_noMsg (env : Env) (c : Conn) (m : Bytes) : NoMsg c (processMessage env c m).1 := by
  unfold processMessage
  cases m with
  | nil => exact .of_log rfl
  | cons id t =>
  simp only
  by_cases h : id = msgNoop
  · rw [if_pos h]; exact .refl c
  rw [if_neg h]; clear h
  by_cases h : id = msgPing
  · rw [if_pos h]; exact handlePing_noMsg env c _
  rw [if_neg h]; clear h
  by_cases h : id = msgPong
  · rw [if_pos h]; exact handlePong_noMsg env c _
  rw [if_neg h]; clear h
  by_cases h : id = msgAuth
  · rw [if_pos h]; exact (ite_noMsg (handleAuth_noMsg env c _) (.refl c))
  rw [if_neg h]; clear h
  by_cases h : id = msgData
  · rw [if_pos h]; exact handleData_noMsg c _
  rw [if_neg h]; clear h
  by_cases h : id = msgConfigIpv4
  · rw [if_pos h]; exact (ite_noMsg (handleConfigIpv4_noMsg env c _) (.refl c))
  rw [if_neg h]; clear h
  by_cases h : id = msgAuthResponse
  · rw [if_pos h]; exact (ite_noMsg (.refl c) (.refl c))
  rw [if_neg h]; clear h
  by_cases h : id = msgAuthResponseWithConfig
  · rw [if_pos h]; exact .refl c
  rw [if_neg h]; clear h
  by_cases h : id = msgGoodbye
  · rw [if_pos h]; exact .refl c
  rw [if_neg h]; clear h
  by_cases h : id = msgExtension
  · rw [if_pos h]; exact .refl c
  rw [if_neg h]; clear h
  by_cases h : id = msgDeprecated13
  · rw [if_pos h]; exact handleDeprecated13_noMsg c _
  rw [if_neg h]; clear h
  by_cases h : id = msgServerConfig
  · rw [if_pos h]; exact (ite_noMsg (handleServerConfig_noMsg env c _) (.refl c))
  rw [if_neg h]; clear h
  by_cases h : id = msgDataWithFrag
  · rw [if_pos h]; exact handleDataFrag_noMsg env c _
  rw [if_neg h]; clear h
  exact .refl c

theorem sendAuth_noMsg (env : Env) (c : Conn) : NoMsg c (sendAuth env c).1 := by
  unfold sendAuth
  split
  · exact .refl c
  simp only
  have h := setState_noMsg c .authenticating
  generalize setState c .authenticating = c1 at h ⊢
  repeat' split
  all_goals first | exact h | exact h.trans (sendMessage_noMsg env c1 _)

theorem changeState_noMsg (env : Env) (c : Conn) (s : ConnState) : NoMsg c (changeState env c s) := by
  unfold changeState
  split
  · exact .refl c
  · simp only
    split
    · exact (setState_noMsg c s).trans (sendAuth_noMsg env _)
    · exact setState_noMsg c s

end Lightway
