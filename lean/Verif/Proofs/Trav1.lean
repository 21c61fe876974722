import Verif.Proofs.Micro
import Verif.Proofs.Mss
import Verif.Proofs.SentMsg
import Verif.Proofs.CbIo

/-!
# The API functions are sequences of micro steps (part 1: building blocks)
-/

namespace Lightway
open Spec

/-- Sequence of micro steps. -/
abbrev M (env : Env) (a : Api) : Conn → Conn → Prop := Star (Micro env a)

/-- `c'` differs from `c` in neutral history entries and scratch fields only. -/
def NFrame (c c' : Conn) : Prop :=
  ∃ l ps sl we wt, c' = { c with log := l ++ c.log, packetSeen := ps, streamLeft := sl,
                                 wolfError := we, wolfTimeout := wt } ∧ ∀ x ∈ l, Neutral x

theorem NFrame.refl (c : Conn) : NFrame c c :=
  ⟨[], c.packetSeen, c.streamLeft, c.wolfError, c.wolfTimeout, rfl, by simp⟩

theorem NFrame.trans {a b c : Conn} (h1 : NFrame a b) (h2 : NFrame b c) : NFrame a c := by
  obtain ⟨l1, p1, s1, w1, t1, rfl, e1⟩ := h1
  obtain ⟨l2, p2, s2, w2, t2, rfl, e2⟩ := h2
  refine ⟨l2 ++ l1, p2, s2, w2, t2, by simp, ?_⟩
  intro x hx
  rcases List.mem_append.mp hx with h | h
  · exact e2 x h
  · exact e1 x h

theorem IoFrame.nFrame {c c' : Conn} (h : IoFrame c c') : NFrame c c' := by
  obtain ⟨l, ps, sl, we, rfl, h⟩ := h
  exact ⟨l, ps, sl, we, c.wolfTimeout, rfl, fun x hx => (h x hx).pEff.neutral⟩

theorem NFrame.emit (c : Conn) {e : Effect} (h : Neutral e) : NFrame c (c.emit e) :=
  ⟨[e], c.packetSeen, c.streamLeft, c.wolfError, c.wolfTimeout, rfl, by simpa using h⟩

theorem NFrame.err (c : Conn) (e : SslErr) : NFrame c { c with wolfError := e } :=
  ⟨[], c.packetSeen, c.streamLeft, e, c.wolfTimeout, rfl, by simp⟩

theorem NFrame.tmo (c : Conn) (t : Int) : NFrame c { c.emit (.timer t) with wolfTimeout := t } :=
  ⟨[.timer t], c.packetSeen, c.streamLeft, c.wolfError, t, rfl, by simp [Neutral]⟩

section
variable {c c' : Conn} (h : NFrame c c')
include h
theorem NFrame.state : c'.state = c.state := by obtain ⟨l, ps, sl, we, wt, rfl, -⟩ := h; rfl
theorem NFrame.isServer : c'.isServer = c.isServer := by obtain ⟨l, ps, sl, we, wt, rfl, -⟩ := h; rfl
theorem NFrame.cbs : c'.cbs = c.cbs := by obtain ⟨l, ps, sl, we, wt, rfl, -⟩ := h; rfl
theorem NFrame.wolfSet : c'.wolfSet = c.wolfSet := by obtain ⟨l, ps, sl, we, wt, rfl, -⟩ := h; rfl
theorem NFrame.reneg : c'.renegInProgress = c.renegInProgress := by
  obtain ⟨l, ps, sl, we, wt, rfl, -⟩ := h; rfl
theorem NFrame.running : c'.nudgeTimerRunning = c.nudgeTimerRunning := by
  obtain ⟨l, ps, sl, we, wt, rfl, -⟩ := h; rfl
theorem NFrame.due : c'.renegDue = c.renegDue := by obtain ⟨l, ps, sl, we, wt, rfl, -⟩ := h; rfl
theorem NFrame.connType : c'.connType = c.connType := by obtain ⟨l, ps, sl, we, wt, rfl, -⟩ := h; rfl
theorem NFrame.pmtud : c'.pmtud = c.pmtud := by obtain ⟨l, ps, sl, we, wt, rfl, -⟩ := h; rfl
theorem NFrame.requested : renegRequested c'.log = renegRequested c.log := by
  obtain ⟨l, ps, sl, we, wt, rfl, hn⟩ := h; exact renegRequested_neutral _ hn
end

/-! ### TLS calls -/

theorem ioRun_star (env : Env) (a : Api) (c : Conn) (io : List IoReq) (hnv : ¬Vetoed c.log) : M env a c (ioRun env c io) := by
  unfold ioRun
  induction io generalizing c with
  | nil => exact .refl c
  | cons r rest ih => exact (Star.one (.io c r hnv)).trans (ih _ (by cases r <;> exact id))

/-- Not a call that encrypts a message or creates the TLS object. -/
def NotWrite : SslCall → Prop
  | .write _ | .new => False
  | _ => True

theorem NotWrite.quiet {call : SslCall} (h : NotWrite call) (ok : Bool) : Quiet (.sslCall call ok) := by
  cases call <;> first | trivial | exact h.elim

theorem sslDo_star (env : Env) (a : Api) (c : Conn) (call : SslCall) (h : NotWrite call := by trivial) :
    M env a c (sslDo env c call).1 :=
  (Star.one (.quiet c (.sslCall call _) (h.quiet _))).trans (ioRun_star env a _ _ id)

theorem sslDo_n (env : Env) (c : Conn) (call : SslCall) : NFrame c (sslDo env c call).1 :=
  (sslDo_frame env c call).nFrame

theorem sendMessage_star (env : Env) (a : Api) (c : Conn) (msg : Bytes)
    (hs : Inv env (some a) c → SentOk msg c.log) (hp : msg.head? ≠ some 2 ∧ msg.head? ≠ some 4 ∧ msg.head? ≠ some 6) :
    M env a c (sendMessage env c msg).1 := by
  obtain ⟨e, h⟩ := sendMessage_eq env c msg
  rw [h]
  exact ((Star.one (.write c msg _ hs hp.1 (fun h => absurd h hp.2.1) (fun h => absurd h hp.2.2))).trans (ioRun_star env a _ _ id)).tail (.err _ e)

theorem sendMessage_star_auth (env : Env) (a : Api) (c : Conn) (msg : Bytes)
    (hs : Inv env (some a) c → SentOk msg c.log) (hp : msg.head? ≠ some 2 ∧ msg.head? ≠ some 6) (ha : msg = authMsg c) :
    M env a c (sendMessage env c msg).1 := by
  obtain ⟨e, h⟩ := sendMessage_eq env c msg
  rw [h]
  exact ((Star.one (.write c msg _ hs hp.1 (fun _ => ha) (fun h => absurd h hp.2))).trans (ioRun_star env a _ _ id)).tail (.err _ e)

theorem sendMessage_star_config (env : Env) (a : Api) (c : Conn) (msg : Bytes)
    (hs : Inv env (some a) c → SentOk msg c.log) (hp : msg.head? ≠ some 2 ∧ msg.head? ≠ some 4)
    (hc : field msg 97 8 = le64 c.sessionId) : M env a c (sendMessage env c msg).1 := by
  obtain ⟨e, h⟩ := sendMessage_eq env c msg
  rw [h]
  exact ((Star.one (.write c msg _ hs hp.1 (fun h => absurd h hp.2) (fun _ => hc))).trans (ioRun_star env a _ _ id)).tail (.err _ e)

theorem sendMessage_n (env : Env) (c : Conn) (msg : Bytes) : NFrame c (sendMessage env c msg).1 :=
  (sendMessage_frame env c msg).nFrame

theorem sslVer_star (env : Env) (a : Api) (c : Conn) (hw : EnvOk env → c.wolfSet = true) :
    M env a c (sslVer env c).1 := by
  unfold sslVer
  split
  · exact .refl c
  · rename_i h
    exact .one (.ub c _ (fun he => h (hw he)))

theorem sslVer_n (env : Env) (c : Conn) : NFrame c (sslVer env c).1 := by
  unfold sslVer
  split
  · exact .refl c
  · exact .emit c trivial

/-! ### The timeout -/

/-- Everything in `updateTimeout` before the nudge callback. -/
theorem reportedTimer_netIo (env : Env) (l x : Log) (h : ∀ e ∈ l, NetIo e) :
    reportedTimer env (l ++ x) = reportedTimer env x := by
  induction l with
  | nil => rfl
  | cons e l ih =>
    have h0 := h e (by simp)
    have h1 := ih (fun y hy => h y (by simp [hy]))
    cases e <;> first | exact h0.elim | exact h1

/-- After TLS was asked for its timeout. -/
theorem sslDo_current_timer (env : Env) (c : Conn) (hw : EnvOk env → c.wolfSet = true) (he : EnvOk env) :
    reportedTimer env (sslDo env c .currentTimeout).1.log = (sslDo env c .currentTimeout).2.val * 100 := by
  obtain ⟨l, e, hl⟩ := sslDo_says env c .currentTimeout
  rw [e, reportedTimer_netIo env l _ hl, reportedTimer]
  unfold sslDo
  simp only [hw he, if_true]

/-- After TLS was asked whether it wants a quick timeout. -/
theorem sslDo_quick_timer (env : Env) (c : Conn) :
    reportedTimer env (sslDo env c .quickTimeout).1.log =
      if (sslDo env c .quickTimeout).2.ok = true then (reportedTimer env c.log).tdiv 4 else reportedTimer env c.log := by
  obtain ⟨l, e, hl⟩ := sslDo_says env c .quickTimeout
  rw [e, reportedTimer_netIo env l _ hl]
  cases (sslDo env c .quickTimeout).2.ok <;> rfl

theorem sslVer_timer (env : Env) (c : Conn) : reportedTimer env (sslVer env c).1.log = reportedTimer env c.log := by
  unfold sslVer; split <;> rfl

theorem updateTimeout_star (env : Env) (a : Api) (c : Conn) (hw : EnvOk env → c.wolfSet = true) :
    M env a c (updateTimeout env c) ∧
    ((updateTimeout env c).state = c.state ∧ (updateTimeout env c).wolfSet = c.wolfSet ∧
     (updateTimeout env c).isServer = c.isServer ∧ (updateTimeout env c).cbs = c.cbs ∧
     (updateTimeout env c).connType = c.connType ∧
     (¬(c.state = .online ∧ c.renegInProgress = false) → c.cbs.nudgeTime = true →
        (updateTimeout env c).nudgeTimerRunning = true)) := by
  unfold updateTimeout
  split
  · rename_i h
    refine ⟨.refl c, rfl, rfl, rfl, rfl, rfl, ?_⟩
    intro hn; exact absurd ⟨h.1, by simpa using h.2⟩ hn
  · rename_i hon
    have hon' : ¬(c.state = .online ∧ c.renegInProgress = false) := by
      intro h; exact hon ⟨h.1, by simp [h.2]⟩
    have h1 := sslDo_star env a c .currentTimeout
    have n1 := sslDo_n env c .currentTimeout
    have t1 := sslDo_current_timer env c hw
    generalize sslDo env c .currentTimeout = q1 at h1 n1 t1 ⊢
    obtain ⟨c1, r1⟩ := q1
    simp only at h1 n1 t1 ⊢
    have h2 := h1.trans (sslVer_star env a c1 (fun he => by rw [n1.wolfSet]; exact hw he))
    have n2 := n1.trans (sslVer_n env c1)
    have t2 := fun he => (sslVer_timer env c1).trans (t1 he)
    generalize sslVer env c1 = q2 at h2 n2 t2 ⊢
    obtain ⟨c2, v⟩ := q2
    simp only at h2 n2 t2 ⊢
    have key : ∃ c3 t, (if v ≠ .dtls12 then ((sslDo env c2 .quickTimeout).1,
        if (sslDo env c2 .quickTimeout).2.ok then (r1.val * 100).tdiv 4 else r1.val * 100)
        else (c2, r1.val * 100)) = (c3, t) ∧ M env a c c3 ∧ NFrame c c3 ∧ (EnvOk env → t = reportedTimer env c3.log) := by
      split
      · refine ⟨_, _, rfl, h2.trans (sslDo_star env a c2 _), n2.trans (sslDo_n env c2 _), fun he => ?_⟩
        rw [sslDo_quick_timer, t2 he]
      · exact ⟨_, _, rfl, h2, n2, fun he => (t2 he).symm⟩
    obtain ⟨c3, t, he, h3, n3, t3⟩ := key
    rw [he]
    simp only
    have h4 := h3.tail (.tmo c3 t (.inr ⟨t3, by rw [n3.state, n3.reneg]; exact hon'⟩))
    have n4 := n3.trans (.tmo c3 t)
    split
    · rename_i hc
      refine ⟨h4.tail (.nudgeTime _ t hc.1 (by simpa using hc.2) ?_ ⟨_, rfl⟩), ?_⟩
      · rw [n4.state, n4.reneg]; exact hon'
      · exact ⟨n4.state, n4.wolfSet, n4.isServer, n4.cbs, n4.connType, fun _ _ => rfl⟩
    · rename_i hc
      refine ⟨h4, n4.state, n4.wolfSet, n4.isServer, n4.cbs, n4.connType, fun _ hcb => ?_⟩
      have hcb' : c3.cbs.nudgeTime = true := by rw [n3.cbs]; exact hcb
      show c3.nudgeTimerRunning = true
      cases hr : c3.nudgeTimerRunning with
      | true => rfl
      | false => exact absurd ⟨hcb', by show (!c3.nudgeTimerRunning) = true; rw [hr]; rfl⟩ hc

/-! ### State changes -/

theorem setState_state (c : Conn) (s : ConnState) : (setState c s).state = s := by
  unfold setState; split
  · assumption
  · rfl

/-- Fields a state change leaves alone. -/
theorem setState_fields (c : Conn) (s : ConnState) :
    (setState c s).wolfSet = c.wolfSet ∧ (setState c s).isServer = c.isServer ∧
    (setState c s).cbs = c.cbs ∧ (setState c s).renegInProgress = c.renegInProgress ∧
    (setState c s).connType = c.connType ∧
    (setState c s).nudgeTimerRunning = c.nudgeTimerRunning := by
  unfold setState; split <;> simp

theorem setState_star (env : Env) (a : Api) (c : Conn) (s : ConnState)
    (h : c.state ≠ s → Edge a c s) : M env a c (setState c s) := by
  by_cases hs : c.state = s
  · unfold setState; rw [if_pos hs]; exact .refl c
  · exact .one (.state c s hs (h hs))

theorem sendAuth_star (env : Env) (a : Api) (c : Conn) (ha : IsConnect a ∨ a = .outsideData ∨ a = .nudge)
    (h : c.state = .linkUp → c.isServer = false ∧ (IsConnect a ∨ a = .outsideData) ∧ ∃ n rest, c.log = .state .linkUp n :: rest) :
    M env a c (sendAuth env c).1 ∧ (sendAuth env c).1.wolfSet = c.wolfSet ∧
    (sendAuth env c).1.isServer = c.isServer ∧ (sendAuth env c).1.cbs = c.cbs ∧
    (sendAuth env c).1.connType = c.connType ∧
    (sendAuth env c).1.nudgeTimerRunning = c.nudgeTimerRunning ∧
    ((sendAuth env c).1.state = c.state ∨ (c.state = .linkUp ∧ (sendAuth env c).1.state = .authenticating)) := by
  unfold sendAuth
  split
  · exact ⟨.refl c, rfl, rfl, rfl, rfl, rfl, .inl rfl⟩
  · rename_i hs
    have hst : c.state = .linkUp ∨ c.state = .authenticating := by
      by_cases h1 : c.state = .linkUp
      · exact .inl h1
      · by_cases h2 : c.state = .authenticating
        · exact .inr h2
        · exact absurd ⟨h1, h2⟩ hs
    have hm : M env a c (setState c .authenticating) := by
      apply setState_star
      intro hne
      have hl : c.state = .linkUp := hst.resolve_right hne
      exact ⟨hl, h hl⟩
    have hsx : (setState c .authenticating).state = c.state ∨
        (c.state = .linkUp ∧ (setState c .authenticating).state = .authenticating) := by
      rw [setState_state]
      rcases hst with h | h
      · exact .inr ⟨h, rfl⟩
      · exact .inl h.symm
    have hf := setState_fields c .authenticating
    have hst1 := setState_state c .authenticating
    generalize setState c .authenticating = c1 at hm hsx hf hst1 ⊢
    have sok : ∀ msg : Bytes, msg.head? = some 4 → (Inv env (some a) c1 → msg.length ≤ 1500 ∧
        ((msg[1]? = some 1 ∧ msg.length = 104) ∨
         ((msg[1]? = some 2 ∨ msg[1]? = some 23) ∧ 4 ≤ msg.length ∧ msg.length = 4 + num (field msg 2 2)))) →
        Inv env (some a) c1 → SentOk msg c1.log := by
      intro msg hh hx hi
      obtain ⟨h1, h2⟩ := hx hi
      refine ⟨h1, ?_⟩
      rw [hh]
      refine ⟨by rw [hi.st, hst1], ?_, h2⟩
      rw [hi.api]
      rcases ha with (h | h) | h | h <;> simp [h]
    have tok : ∀ ty : UInt8, ty = 2 ∨ ty = 23 → Inv env (some a) c1 →
        (authBufMsg ty (c1.authBuffer.take c1.authBufferLength)).length ≤ 1500 ∧
        (((authBufMsg ty (c1.authBuffer.take c1.authBufferLength))[1]? = some 1 ∧
          (authBufMsg ty (c1.authBuffer.take c1.authBufferLength)).length = 104) ∨
         (((authBufMsg ty (c1.authBuffer.take c1.authBufferLength))[1]? = some 2 ∨
          (authBufMsg ty (c1.authBuffer.take c1.authBufferLength))[1]? = some 23) ∧
          4 ≤ (authBufMsg ty (c1.authBuffer.take c1.authBufferLength)).length ∧
          (authBufMsg ty (c1.authBuffer.take c1.authBufferLength)).length = 4 +
            num (field (authBufMsg ty (c1.authBuffer.take c1.authBufferLength)) 2 2))) := by
      intro ty hty hi
      have hl : (c1.authBuffer.take c1.authBufferLength).length ≤ 1350 := by
        rw [List.length_take, hi.buf]; omega
      generalize c1.authBuffer.take c1.authBufferLength = buf at hl ⊢
      obtain ⟨s1, s2, s3, s4⟩ := authBufMsg_shape ty (buf := buf) (by omega)
      rw [s1, s3, s4]
      refine ⟨by omega, .inr ⟨?_, by omega, rfl⟩⟩
      rcases hty with rfl | rfl <;> simp
    have fin : ∀ msg, msg = authMsg c1 → msg.head? = some 4 → (Inv env (some a) c1 → SentOk msg c1.log) → M env a c (sendMessage env c1 msg).1 ∧
        (sendMessage env c1 msg).1.wolfSet = c.wolfSet ∧
        (sendMessage env c1 msg).1.isServer = c.isServer ∧
        (sendMessage env c1 msg).1.cbs = c.cbs ∧
        (sendMessage env c1 msg).1.connType = c.connType ∧
        (sendMessage env c1 msg).1.nudgeTimerRunning = c.nudgeTimerRunning ∧
        ((sendMessage env c1 msg).1.state = c.state ∨ (c.state = .linkUp ∧
          (sendMessage env c1 msg).1.state = .authenticating)) := by
      intro msg hau hh hx
      have n := sendMessage_n env c1 msg
      refine ⟨hm.trans (sendMessage_star_auth env a c1 msg hx (by rw [hh]; decide) hau), ?_⟩
      rw [n.wolfSet, n.isServer, n.cbs, n.connType, n.running, n.state]
      exact ⟨hf.1, hf.2.1, hf.2.2.1, hf.2.2.2.2.1, hf.2.2.2.2.2, hsx⟩
    have fin0 : M env a c c1 ∧ c1.wolfSet = c.wolfSet ∧ c1.isServer = c.isServer ∧ c1.cbs = c.cbs ∧
        c1.connType = c.connType ∧ c1.nudgeTimerRunning = c.nudgeTimerRunning ∧
        (c1.state = c.state ∨ (c.state = .linkUp ∧ c1.state = .authenticating)) :=
      ⟨hm, hf.1, hf.2.1, hf.2.2.1, hf.2.2.2.2.1, hf.2.2.2.2.2, hsx⟩
    simp only
    split
    · rename_i hty
      have hu := authUserPassMsg_shape c1
      refine fin _ (by unfold authMsg; rw [if_pos hty]) rfl (sok _ rfl (fun _ => ⟨by rw [hu.1]; omega, .inl ⟨hu.2.2, hu.1⟩⟩))
    · rename_i hty
      split
      · rename_i hty2
        split
        · exact fin0
        · exact fin _ (by unfold authMsg; rw [if_neg hty, hty2]) rfl (sok _ rfl (tok _ (.inl rfl)))
      · split
        · rename_i hty3
          split
          · exact fin0
          · exact fin _ (by unfold authMsg; rw [if_neg hty, hty3]) rfl (sok _ rfl (tok _ (.inr rfl)))
        · exact fin0

theorem changeState_linkUp_star (env : Env) (a : Api) (c : Conn) (hs : c.state = .connecting)
    (ha : IsConnect a ∨ a = .outsideData) (hng : Negotiated c.log) :
    M env a c (changeState env c .linkUp) ∧
    (changeState env c .linkUp).wolfSet = c.wolfSet ∧
    (changeState env c .linkUp).isServer = c.isServer ∧
    (changeState env c .linkUp).cbs = c.cbs ∧
    ((changeState env c .linkUp).state = .linkUp ∨ (changeState env c .linkUp).state = .authenticating) := by
  unfold changeState
  rw [if_neg (by simp [hs])]
  have h1 : M env a c (setState c .linkUp) := setState_star env a c .linkUp (fun _ => ⟨hs, ha, hng⟩)
  have hf := setState_fields c .linkUp
  have hst := setState_state c .linkUp
  have hlg : (setState c .linkUp).log = .state .linkUp c.cbs.stateChange :: c.log := by
    unfold setState
    rw [if_neg (by simp [hs])]
  generalize setState c .linkUp = c1 at h1 hf hst hlg ⊢
  simp only
  split
  · rename_i hc
    obtain ⟨h2, w, r, b, _, _, s⟩ := sendAuth_star env a c1 (ha.elim .inl (fun h => .inr (.inl h))) (fun _ => ⟨by simpa using hc.2, ha, _, _, hlg⟩)
    refine ⟨h1.trans h2, by rw [w, hf.1], by rw [r, hf.2.1], by rw [b, hf.2.2.1], ?_⟩
    rcases s with s | s
    · left; rw [s, hst]
    · right; exact s.2
  · exact ⟨h1, hf.1, hf.2.1, hf.2.2.1, .inl hst⟩

theorem changeState_connecting (env : Env) (c : Conn) : changeState env c .connecting = setState c .connecting := by
  unfold changeState setState
  split
  · rfl
  · simp

end Lightway
