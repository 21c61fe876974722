import Verif.Proofs.NoMsg
import Verif.Props.Demo
import Verif.Props.Life

/-!
# Which messages are acted upon, and in which order (C73, C74)
-/

namespace Lightway
open Spec

theorem num16_rd {m : Bytes} {off : Nat} {x : Bytes} (h : rd m off 2 = some x) : rdBe16 x = num16 m off := by
  obtain ⟨h1, h2⟩ := rd_some_iff.mp h
  rw [rd_two (by omega)] at h
  injection h with h
  have h3 : field m off 2 = x := h2.symm
  unfold num16
  rw [h3, ← h]
  simp [num, rdBe16]

theorem num16le_rd {m : Bytes} {off : Nat} {x : Bytes} (h : rd m off 2 = some x) : rdLe16 x = num16le m off := by
  obtain ⟨h1, h2⟩ := rd_some_iff.mp h
  rw [rd_two (by omega)] at h
  injection h with h
  have h3 : field m off 2 = x := h2.symm
  unfold num16le
  rw [h3, ← h]
  simp [num, rdLe16, Nat.add_comm]

/-- The result of processing a message turned away. -/
def Spec.Verdict.code : Verdict → RC
  | .ignored => .success
  | .refused rc => rc

theorem whenOnline_some {st : ConnState} {k : Option Verdict} {v : Verdict} (h : whenOnline st k = some v) :
    (st ≠ .online ∧ v = .refused .invalidConnState) ∨ (st = .online ∧ k = some v) := by
  unfold whenOnline at h
  split at h
  · exact .inr ⟨‹_›, h⟩
  · exact .inl ⟨‹_›, by injection h with h; exact h.symm⟩

theorem whenLong_some {m : Bytes} {n : Nat} {k : Option Verdict} {v : Verdict} (h : whenLong m n k = some v) :
    (m.length < n ∧ v = .refused .packetTooSmall) ∨ (n ≤ m.length ∧ k = some v) := by
  unfold whenLong at h
  split at h
  · exact .inl ⟨‹_›, by injection h with h; exact h.symm⟩
  · exact .inr ⟨by omega, h⟩

theorem whenHolds_some {m : Bytes} {a b : Nat} {k : Option Verdict} {v : Verdict} (h : whenHolds m a b k = some v) :
    (a + b > m.length ∧ v = .refused .pointerWouldOverflow) ∨ (a + b ≤ m.length ∧ k = some v) := by
  unfold whenHolds at h
  split at h
  · exact .inl ⟨‹_›, by injection h with h; exact h.symm⟩
  · exact .inr ⟨by omega, h⟩

theorem handlePing_screen (env : Env) (c : Conn) (m : Bytes) (v : Verdict)
    (h : whenOnline c.state (whenLong m 5 none) = some v) : handlePing env c m = (c, v.code) := by
  unfold handlePing
  rcases whenOnline_some h with ⟨h1, rfl⟩ | ⟨h1, h⟩
  · rw [if_pos h1]; rfl
  rw [if_neg (by simp [h1])]
  rcases whenLong_some h with ⟨h2, rfl⟩ | ⟨h2, h⟩
  · rw [if_pos h2]; rfl
  · cases h

theorem handleData_screen (c : Conn) (m : Bytes) (v : Verdict)
    (h : whenOnline c.state (whenLong m 3 (whenHolds m 3 (min (num16 m 1) (num16le m 1)) none)) = some v) :
    handleData c m = (c, v.code) := by
  unfold handleData
  rcases whenOnline_some h with ⟨h1, rfl⟩ | ⟨h1, h⟩
  · rw [if_pos h1]; rfl
  rw [if_neg (by simp [h1])]
  rcases whenLong_some h with ⟨h2, rfl⟩ | ⟨h2, h⟩
  · rw [if_pos h2]; rfl
  rw [if_neg (by omega)]
  rcases whenHolds_some h with ⟨h3, rfl⟩ | ⟨h3, h⟩
  · have hr := rd_isSome (bs := m) (off := 1) (len := 2) (by omega)
    rw [hr]
    simp only
    rw [num16_rd hr, num16le_rd hr]
    rw [if_pos (by split <;> omega)]; rfl
  · cases h

theorem handleDeprecated13_screen (c : Conn) (m : Bytes) (v : Verdict)
    (h : whenOnline c.state (whenLong m 5 (whenHolds m 5 (num16 m 1) none)) = some v) :
    handleDeprecated13 c m = (c, v.code) := by
  unfold handleDeprecated13
  rcases whenOnline_some h with ⟨h1, rfl⟩ | ⟨h1, h⟩
  · rw [if_pos h1]; rfl
  rw [if_neg (by simp [h1])]
  rcases whenLong_some h with ⟨h2, rfl⟩ | ⟨h2, h⟩
  · rw [if_pos h2]; rfl
  rw [if_neg (by omega)]
  rcases whenHolds_some h with ⟨h3, rfl⟩ | ⟨h3, h⟩
  · have hr := rd_isSome (bs := m) (off := 1) (len := 2) (by omega)
    rw [hr]
    simp only
    rw [num16_rd hr]
    rw [if_pos (by omega)]; rfl
  · cases h

theorem handleDataFrag_screen (env : Env) (c : Conn) (m : Bytes) (v : Verdict)
    (h : (whenOnline c.state <| whenLong m 7 <| whenHolds m 7 (num16 m 1) <|
      if num16 m 5 % 8192 * 8 + num16 m 1 > 1500 then some (.refused .pointerWouldOverflow) else none) = some v) :
    handleDataFrag env c m = (c, v.code) := by
  unfold handleDataFrag
  rcases whenOnline_some h with ⟨h1, rfl⟩ | ⟨h1, h⟩
  · rw [if_pos h1]; rfl
  rw [if_neg (by simp [h1])]
  rcases whenLong_some h with ⟨h2, rfl⟩ | ⟨h2, h⟩
  · rw [if_pos h2]; rfl
  rw [if_neg (by omega)]
  have hr1 := rd_isSome (bs := m) (off := 1) (len := 2) (by omega)
  have hr3 := rd_isSome (bs := m) (off := 3) (len := 2) (by omega)
  have hr5 := rd_isSome (bs := m) (off := 5) (len := 2) (by omega)
  rw [hr1, hr3, hr5]
  simp only
  rw [num16_rd hr1, num16_rd hr5]
  rcases whenHolds_some h with ⟨h3, rfl⟩ | ⟨h3, h⟩
  · rw [if_pos (by omega)]; rfl
  rw [if_neg (by omega)]
  by_cases h4 : num16 m 5 % 8192 * 8 + num16 m 1 > 1500
  · rw [if_pos h4] at h
    injection h with h
    rw [if_pos (by simpa [maxWireMtu] using h4), ← h]; rfl
  · rw [if_neg h4] at h
    cases h

theorem handleConfig_screen (env : Env) (c : Conn) (m : Bytes) (v : Verdict) (hsv : c.isServer = false)
    (h : (if c.isServer = true ∨ c.state = .online then some .ignored
      else if c.state = .authenticating then whenLong m 105 none
      else some (.refused .invalidConnState)) = some v) :
    handleConfigIpv4 env c m = (c, v.code) := by
  unfold handleConfigIpv4
  by_cases h1 : c.state = .online
  · rw [if_pos (.inr h1)] at h
    injection h with h
    rw [if_pos h1, ← h]; rfl
  · rw [if_neg (by simp [hsv, h1])] at h
    rw [if_neg h1]
    by_cases h2 : c.state = .authenticating
    · rw [if_pos h2] at h
      rw [if_neg (by simp [hsv, h2])]
      rcases whenLong_some h with ⟨h3, rfl⟩ | ⟨h3, h⟩
      · rw [if_pos h3]; rfl
      · cases h
    · rw [if_neg h2] at h
      injection h with h
      rw [if_pos (.inr h2), ← h]; rfl

theorem handleServerConfig_screen (env : Env) (c : Conn) (m : Bytes) (v : Verdict) (hsv : c.isServer = false)
    (h : (if c.state = .linkUp ∨ c.state = .authenticating ∨ c.state = .configuring ∨ c.state = .online then
      whenLong m 3 (whenHolds m 3 (num16 m 1) (if c.cbs.serverConfig = true then none else some .ignored))
    else some (.refused .invalidConnState)) = some v) :
    handleServerConfig env c m = (c, v.code) := by
  unfold handleServerConfig
  rw [if_neg (by simp [hsv])]
  by_cases h1 : c.state = .linkUp ∨ c.state = .authenticating ∨ c.state = .configuring ∨ c.state = .online
  · rw [if_pos h1] at h
    rw [if_neg (by rcases h1 with h1 | h1 | h1 | h1 <;> simp [validStateForServerConfig, h1])]
    rcases whenLong_some h with ⟨h3, rfl⟩ | ⟨h3, h⟩
    · rw [if_pos h3]; rfl
    rw [if_neg (by omega)]
    have hr1 := rd_isSome (bs := m) (off := 1) (len := 2) (by omega)
    rw [hr1]
    simp only
    rw [num16_rd hr1]
    rcases whenHolds_some h with ⟨h4, rfl⟩ | ⟨h4, h⟩
    · rw [if_pos (by omega)]; rfl
    rw [if_neg (by omega)]
    by_cases h5 : c.cbs.serverConfig = true
    · rw [if_pos h5] at h; cases h
    · rw [if_neg h5] at h
      injection h with h
      rw [if_pos (by simpa using h5), ← h]; rfl
  · rw [if_neg h1] at h
    injection h with h
    rw [if_pos (by simpa [validStateForServerConfig, and_assoc] using h1), ← h]; rfl

theorem authSwitch_screen (env : Env) (c : Conn) (m : Bytes) (v : Verdict) (ty : UInt8) (hty : m[1]? = some ty)
    (h : (if m[1]? = some 1 ∧ c.cbs.auth = true then whenLong m 104 none
  else if (m[1]? = some 2 ∧ c.cbs.authToken = true) ∨ (m[1]? = some 23 ∧ c.cbs.authBuf = true) then
    whenLong m 5 (whenLong m (4 + num16 m 2) none)
  else none) = some v) : authSwitch env c m ty = .ret c v.code m := by
  unfold authSwitch
  rw [hty] at h
  have hr : 5 ≤ m.length → rd m 2 2 = some ((m.drop 2).take 2) := fun h => rd_isSome (by omega)
  by_cases h1 : ty = 1
  · subst h1
    rw [if_pos (show (1 : UInt8) = authUserPassTy from rfl)]
    by_cases h2 : c.cbs.auth = true
    · rw [if_pos ⟨rfl, h2⟩] at h
      rcases whenLong_some h with ⟨h3, rfl⟩ | ⟨h3, h⟩
      · rw [if_pos h2, if_pos h3]; rfl
      · cases h
    · rw [if_neg (by simp [h2])] at h
      simp at h
  · rw [if_neg (by simp [h1])] at h
    rw [if_neg (show ¬ty = authUserPassTy from h1)]
    by_cases h2 : ty = 2
    · subst h2
      rw [if_pos (show (2 : UInt8) = authTokenTy from rfl)]
      by_cases h3 : c.cbs.authToken = true
      · rw [if_pos (.inl ⟨rfl, h3⟩)] at h
        rw [if_pos h3]
        rcases whenLong_some h with ⟨h4, rfl⟩ | ⟨h4, h⟩
        · rw [if_pos (by omega)]; rfl
        rw [if_neg (by omega), hr h4]
        simp only
        rw [num16_rd (hr h4)]
        rcases whenLong_some h with ⟨h5, rfl⟩ | ⟨h5, h⟩
        · rw [if_pos (by omega)]; rfl
        · cases h
      · rw [if_neg (by simp [h3])] at h
        cases h
    · rw [if_neg (show ¬ty = authTokenTy from h2)]
      by_cases h3 : ty = 23 ∧ c.cbs.authBuf = true
      · obtain ⟨rfl, h3⟩ := h3
        rw [if_pos (.inr ⟨rfl, h3⟩)] at h
        rw [if_pos (show (23 : UInt8) = authCbTy from rfl), if_pos h3]
        rcases whenLong_some h with ⟨h4, rfl⟩ | ⟨h4, h⟩
        · rw [if_pos (by omega)]; rfl
        rw [if_neg (by omega), hr h4]
        simp only
        rw [num16_rd (hr h4)]
        rcases whenLong_some h with ⟨h5, rfl⟩ | ⟨h5, h⟩
        · rw [if_pos (by omega)]; rfl
        · cases h
      · rw [if_neg (by simp only [Option.some.injEq]; exact fun hh => hh.elim (fun x => h2 x.1) h3)] at h
        cases h

theorem handleAuth_screen (env : Env) (c : Conn) (m : Bytes) (v : Verdict) (hsv : c.isServer = true)
    (h : (if c.cbs.populate = true ∧ (c.cbs.auth = true ∨ c.cbs.authToken = true ∨ c.cbs.authBuf = true) then screenAuth c.cbs m
      else some (.refused .invalidConnState)) = some v) :
    handleAuth env c m = (c, v.code) := by
  have key : handleAuthBuf env c m = (c, v.code, m) := by
    unfold handleAuthBuf
    rw [if_neg (by simp [hsv])]
    by_cases h1 : c.cbs.populate = true
    · rw [if_neg (by simp [h1])]
      by_cases h2 : c.cbs.auth = true ∨ c.cbs.authToken = true ∨ c.cbs.authBuf = true
      · rw [if_pos ⟨h1, h2⟩] at h
        rw [if_neg (by rintro ⟨a, b, d⟩; simp_all)]
        unfold screenAuth at h
        rcases whenLong_some h with ⟨h4, rfl⟩ | ⟨h4, h⟩
        · rw [if_pos h4]; rfl
        rw [if_neg (by omega), rd_one (by omega)]
        simp only
        rw [authSwitch_screen env c m v _ (List.getElem?_eq_getElem (by omega)) h]
      · rw [if_neg (fun hh => h2 hh.2)] at h
        injection h with h
        rw [if_pos (by simpa using h2), ← h]; rfl
    · rw [if_neg (fun hh => h1 hh.1)] at h
      injection h with h
      rw [if_pos (by simpa using h1), ← h]; rfl
  unfold handleAuth
  rw [key]

/-- A message turned away leaves the connection as it is. -/
theorem processMessage_screen (env : Env) (c : Conn) (m : Bytes) (v : Verdict) (hne : m ≠ [])
    (h : screen c.isServer c.state c.cbs m = some v) : processMessage env c m = (c, v.code) := by
  cases m with
  | nil => exact absurd rfl hne
  | cons id t =>
  unfold processMessage
  simp only
  unfold screen at h
  simp only [List.head?_cons] at h
  by_cases h1 : id = msgNoop
  · rw [if_pos h1]; subst h1; simp only [msgNoop] at h; injection h with h; rw [← h]; rfl
  rw [if_neg h1]
  by_cases h2 : id = msgPing
  · rw [if_pos h2]; subst h2; exact handlePing_screen env c _ v h
  rw [if_neg h2]
  by_cases h3 : id = msgPong
  · rw [if_pos h3]; subst h3; simp only [msgPong] at h
    unfold handlePong
    split at h
    · rename_i hl
      injection h with h
      rw [if_pos (show (msgPong :: t).length < 5 from hl), ← h]; rfl
    · cases h
  rw [if_neg h3]
  by_cases h4 : id = msgAuth
  · rw [if_pos h4]; subst h4; simp only [msgAuth] at h
    by_cases hs : c.isServer = true
    · rw [if_pos hs] at h ⊢
      exact handleAuth_screen env c _ v hs h
    · rw [if_neg hs] at h ⊢
      injection h with h; rw [← h]; rfl
  rw [if_neg h4]
  by_cases h5 : id = msgData
  · rw [if_pos h5]; subst h5; exact handleData_screen c _ v h
  rw [if_neg h5]
  by_cases h6 : id = msgConfigIpv4
  · rw [if_pos h6]; subst h6; simp only [msgConfigIpv4] at h
    by_cases hs : c.isServer = true
    · rw [if_neg (by simp [hs])]
      rw [if_pos (.inl hs)] at h
      injection h with h; rw [← h]; rfl
    · rw [if_pos (by simpa using hs)]
      exact handleConfig_screen env c _ v (by simpa using hs) h
  rw [if_neg h6]
  by_cases h7 : id = msgAuthResponse
  · rw [if_pos h7]; subst h7; simp only [msgAuthResponse] at h
    injection h with h
    by_cases hs : c.isServer = true
    · rw [if_neg (by simp [hs])]
      rw [if_pos hs] at h; rw [← h]; rfl
    · rw [if_pos (by simpa using hs)]
      rw [if_neg hs] at h; rw [← h]; rfl
  rw [if_neg h7]
  by_cases h8 : id = msgAuthResponseWithConfig
  · rw [if_pos h8]; subst h8; simp only [msgAuthResponseWithConfig] at h; injection h with h; rw [← h]; rfl
  rw [if_neg h8]
  by_cases h9 : id = msgGoodbye
  · rw [if_pos h9]; subst h9; simp only [msgGoodbye] at h; injection h with h; rw [← h]; rfl
  rw [if_neg h9]
  by_cases h10 : id = msgExtension
  · rw [if_pos h10]; subst h10; simp only [msgExtension] at h; injection h with h; rw [← h]; rfl
  rw [if_neg h10]
  by_cases h11 : id = msgDeprecated13
  · rw [if_pos h11]; subst h11; exact handleDeprecated13_screen c _ v h
  rw [if_neg h11]
  by_cases h12 : id = msgServerConfig
  · rw [if_pos h12]; subst h12; simp only [msgServerConfig] at h
    by_cases hs : c.isServer = true
    · rw [if_neg (by simp [hs])]
      rw [if_pos hs] at h
      injection h with h; rw [← h]; rfl
    · rw [if_pos (by simpa using hs)]
      rw [if_neg hs] at h
      exact handleServerConfig_screen env c _ v (by simpa using hs) h
  rw [if_neg h12]
  by_cases h13 : id = msgDataWithFrag
  · rw [if_pos h13]; subst h13; exact handleDataFrag_screen env c _ v h
  rw [if_neg h13]
  have : v = .ignored := by
    clear hne
    split at h
    all_goals first
      | (rename_i he; injection he with he; exfalso; simp_all [msgNoop, msgPing, msgPong, msgAuth, msgData, msgConfigIpv4, msgAuthResponse, msgGoodbye, msgDeprecated13, msgServerConfig, msgDataWithFrag]; done)
      | (injection h with h; exact h.symm)
  rw [this]; rfl

/-! ## The history of a call that reads messages -/

/-- Demand on an effect directly following a history. -/
def Next (e : Effect) (l : Log) : Prop :=
  match l with
  | .message m :: older => Screened m older e
  | _ => True

/-- The history is in order, and its last effect is not a message that was turned away. -/
def Fit (l : Log) : Prop :=
  AllAt Next l ∧ ∀ m older, l = .message m :: older → screen (serverAt older) (stateAt older) (registered older) m = none

/-- The history is in order; if its last effect is a message turned away, the verdict is `v`. -/
def FitUpTo (v : Verdict) (l : Log) : Prop :=
  AllAt Next l ∧ ∀ m older, l = .message m :: older →
    screen (serverAt older) (stateAt older) (registered older) m = none ∨
    screen (serverAt older) (stateAt older) (registered older) m = some v

theorem Fit.upTo {l : Log} (h : Fit l) (v : Verdict) : FitUpTo v l := ⟨h.1, fun m o e => .inl (h.2 m o e)⟩

theorem Fit.next {l : Log} (h : Fit l) (e : Effect) : Next e l := by
  unfold Next
  split
  · rename_i m older
    unfold Screened
    rw [h.2 m older rfl]
    trivial
  · trivial

theorem Fit.cons {l : Log} (h : Fit l) {e : Effect} (he : Still e) : Fit (e :: l) :=
  ⟨⟨h.next e, h.1⟩, fun m older heq => by injection heq with h1; subst h1; exact he.elim⟩

theorem Fit.noMsg {c c' : Conn} (h : Fit c.log) (hn : NoMsg c c') : Fit c'.log := by
  obtain ⟨l, e, hl⟩ := hn
  rw [e]
  clear e
  induction l with
  | nil => exact h
  | cons x xs ih => exact Fit.cons (ih fun y hy => hl y (.tail _ hy)) (hl x (.head _))

theorem FitUpTo.read {l : Log} (h : FitUpTo .ignored l) (ok : Bool) : Fit (.sslCall .read ok :: l) := by
  refine ⟨⟨?_, h.1⟩, fun m older heq => by injection heq with h1; cases h1⟩
  unfold Next
  split
  · rename_i m older
    unfold Screened
    rcases h.2 m older rfl with h | h <;> rw [h]
    · trivial
    · exact ⟨ok, rfl⟩
  · trivial

theorem FitUpTo.ret {rc : RC} {l : Log} (h : FitUpTo (.refused rc) l) : AllAt Next (.ret rc :: l) := by
  refine ⟨?_, h.1⟩
  unfold Next
  split
  · rename_i m older
    unfold Screened
    rcases h.2 m older rfl with h | h <;> rw [h]
    trivial
  · trivial

theorem Inv.screen {env : Env} {o : Option Api} {c : Conn} (hi : Inv env o c) (m : Bytes) :
    Spec.screen (serverAt c.log) (stateAt c.log) (registered c.log) m = Spec.screen c.isServer c.state c.cbs m := by
  rw [← hi.st, ← hi.role, ← hi.reg]

/-- After the loop: what is left to check is the result of the call. -/
def LoopFit (q : Conn × Option RC) : Prop :=
  match q.2 with
  | none => Fit q.1.log
  | some rc => FitUpTo (.refused rc) q.1.log

theorem whenLong_refused {m : Bytes} {n : Nat} {k : Option Verdict} (hk : k ≠ some (.refused .success)) :
    whenLong m n k ≠ some (.refused .success) := by
  unfold whenLong; split
  · simp
  · exact hk

theorem whenOnline_refused {st : ConnState} {k : Option Verdict} (hk : k ≠ some (.refused .success)) :
    whenOnline st k ≠ some (.refused .success) := by
  unfold whenOnline; split
  · exact hk
  · simp

theorem whenHolds_refused {m : Bytes} {a b : Nat} {k : Option Verdict} (hk : k ≠ some (.refused .success)) :
    whenHolds m a b k ≠ some (.refused .success) := by
  unfold whenHolds; split
  · simp
  · exact hk

theorem ite_refused {p : Prop} [Decidable p] {k k' : Option Verdict} (hk : k ≠ some (.refused .success))
    (hk' : k' ≠ some (.refused .success)) : (if p then k else k') ≠ some (.refused .success) := by
  split
  · exact hk
  · exact hk'

theorem screen_refused (b : Bool) (st : ConnState) (cbs : Callbacks) (m : Bytes) :
    Spec.screen b st cbs m ≠ some (.refused .success) := by
  unfold Spec.screen screenAuth
  split
  all_goals (repeat' first
    | apply whenLong_refused | apply whenOnline_refused | apply whenHolds_refused | apply ite_refused
    | exact (fun h => by cases h)
    | (cases b <;> exact (fun h => by cases h)))

theorem messageLoop_fit (env : Env) (c : Conn) (reads : List ReadRes)
    (hi : Inv env (some .outsideData) c) (hs : MsgState c.state) (hf : FitUpTo .ignored c.log) :
    LoopFit (messageLoop env c reads) := by
  induction reads generalizing c with
  | nil =>
    unfold messageLoop
    split
    · exact hf.read false
    · exact (hf.read false).upTo _
  | cons r rest ih =>
    unfold messageLoop
    split
    · exact (hf.read false).upTo _
    · rename_i hw
      simp only
      have hne : r.plain.take maxWireMtu = [] ∨ (r.plain.take maxWireMtu) ≠ [] := Classical.em _
      generalize r.plain.take maxWireMtu = plain at hne ⊢
      have h1 : MO env c (ioRun env (c.emit (.sslCall .read (!plain.isEmpty))) r.io) :=
        (Star.one (.quiet c _ trivial)).trans (ioRun_star env _ _ _ id)
      have n1 : NFrame c (ioRun env (c.emit (.sslCall .read (!plain.isEmpty))) r.io) :=
        (NFrame.emit c (e := .sslCall .read (!plain.isEmpty)) trivial).trans (ioRun_frame env _ _).nFrame
      have f1 : Fit (ioRun env (c.emit (.sslCall .read (!plain.isEmpty))) r.io).log :=
        Fit.noMsg (c := c.emit (.sslCall .read (!plain.isEmpty))) (hf.read _) (ioRun_noMsg env _ _)
      generalize ioRun env (c.emit (.sslCall .read (!plain.isEmpty))) r.io = c1 at h1 n1 f1 ⊢
      have i1 := h1.inv hi
      have hs1 : MsgState c1.state := by rw [n1.state]; exact hs
      have hw1 : c1.wolfSet = true := by rw [n1.wolfSet]; simpa using hw
      split
      · split
        · exact f1
        · exact f1
        · exact f1
        · exact ih c1 i1 hs1 (f1.upTo _)
        · split
          · exact f1.upTo _
          · exact f1.upTo _
      · rename_i hp
        have hp : plain ≠ [] := by intro hh; rw [hh] at hp; exact hp rfl
        have h1 := h1.tail (.message c1 plain rfl hs1)
        have h2 := processMessage_star env (c1.emit (.message plain)) plain (h1.inv hi) hw1 hs1 ⟨_, rfl⟩
        have hn := processMessage_noMsg env (c1.emit (.message plain)) plain
        have hsc := processMessage_screen env (c1.emit (.message plain)) plain
        have hv := i1.screen plain
        have hcase : Spec.screen c1.isServer c1.state c1.cbs plain = none ∨
            ∃ v, Spec.screen c1.isServer c1.state c1.cbs plain = some v := by
          cases Spec.screen c1.isServer c1.state c1.cbs plain with
          | none => exact .inl rfl
          | some v => exact .inr ⟨v, rfl⟩
        generalize processMessage env (c1.emit (.message plain)) plain = q at h2 hn hsc ⊢
        obtain ⟨c2, rc⟩ := q
        simp only at h2 hn hsc ⊢
        have h12 := h1.trans h2.1
        rcases hcase with hcase | ⟨v, hcase⟩
        · have f2 : Fit (c1.emit (.message plain)).log := by
            refine ⟨⟨f1.next _, f1.1⟩, ?_⟩
            intro m older he
            injection he with a b
            injection a with a
            subst a; subst b
            rw [hv, hcase]
          have f3 := f2.noMsg hn
          split
          · exact f3.upTo _
          · rename_i hrc
            exact ih c2 (h12.inv hi) (h2.2 (by simpa using hrc)) (f3.upTo _)
        · have he := hsc v hp hcase
          injection he with he1 he2
          subst he1
          have f2 : FitUpTo v (c1.emit (.message plain)).log := by
            refine ⟨⟨f1.next _, f1.1⟩, ?_⟩
            intro m older he
            injection he with a b
            injection a with a
            subst a; subst b
            rw [hv, hcase]
            exact .inr rfl
          split
          · rename_i hrc
            cases v with
            | ignored => exact absurd he2 hrc
            | refused rc' => have : rc = rc' := he2; subst this; exact f2
          · rename_i hrc
            have hrc : rc = .success := by simpa using hrc
            cases v with
            | ignored => exact ih _ (h12.inv hi) (h2.2 hrc) f2
            | refused rc' =>
              exact absurd hcase (by rw [show rc' = RC.success from he2.symm.trans hrc]; exact screen_refused _ _ _ _)

theorem messageLoop_rc (env : Env) (c : Conn) (reads : List ReadRes) : (messageLoop env c reads).2 ≠ some .success := by
  induction reads generalizing c with
  | nil =>
    unfold messageLoop
    split
    · simp
    · simp only; split <;> simp
  | cons r rest ih =>
    unfold messageLoop
    split
    · simp only; split <;> simp
    · simp only
      generalize ioRun env _ r.io = c1
      split
      · split
        · simp
        · simp
        · simp
        · exact ih c1
        · split
          · simp
          · simp only; split <;> simp
      · generalize processMessage env _ _ = q
        obtain ⟨c2, rc⟩ := q
        simp only
        split
        · rename_i h; simpa using h
        · exact ih c2

/-- The part of a receive call around the reading loop: `q` is the state and outcome of the loop, `r` the
result of the call. -/
def AfterLoop (q : Conn × Option RC) (r : Conn × RC) : Prop :=
  (∀ rc, q.2 = some rc → r = (q.1, rc)) ∧ (q.2 = none → NoMsg q.1 r.1)

theorem handleMessages_after (env : Env) (c : Conn) (reads : List ReadRes) :
    AfterLoop (messageLoop env c reads) (handleMessages env c reads) := by
  unfold handleMessages
  generalize messageLoop env c reads = q
  obtain ⟨c1, o⟩ := q
  cases o with
  | some rc => exact ⟨fun rc' h => by injection h with h; rw [h], fun h => by cases h⟩
  | none =>
    refine ⟨fun rc h => (by cases h), fun _ => ?_⟩
    simp only
    split
    · have h3 := renegotiateSsl_t env c1
      generalize renegotiateSsl env c1 = q3 at h3 ⊢
      obtain ⟨c3, rc⟩ := q3
      simp only at h3 ⊢
      split
      · exact h3.noMsg
      · exact (h3.trans (renegTail_t env c3)).noMsg
    · exact (renegTail_t env c1).noMsg

/-- Why a successful receive call need not read: a plugin dropped the data, or the handshake is not over. -/
def Spec.Excuse (e : Effect) : Prop := (∃ p, e = .pluginIngress p .drop) ∨ e = .sslCall .negotiate false

/-- No message was received, and if the result is success there is a reason for it. -/
def NoLoop (c : Conn) (r : Conn × RC) : Prop :=
  NoMsg c r.1 ∧ (r.2 = .success → ∃ x e, r.1.log = x ++ c.log ∧ e ∈ x ∧ Excuse e)

/-- A receive call either never reads, or reads once, in a loop, and does nothing with messages elsewhere. -/
def Loops (env : Env) (reads : List ReadRes) (c : Conn) (r : Conn × RC) : Prop :=
  NoLoop c r ∨ ∃ c1, NoMsg c c1 ∧ Inv env (some .outsideData) c1 ∧ MsgState c1.state ∧
    AfterLoop (messageLoop env c1 reads) r

theorem NoLoop.err {c : Conn} {r : Conn × RC} (h : NoMsg c r.1) (hr : r.2 ≠ .success) : NoLoop c r := ⟨h, fun h => absurd h hr⟩

theorem NoLoop.before {a c : Conn} {r : Conn × RC} (h : NoMsg a c) (hl : NoLoop c r) : NoLoop a r := by
  refine ⟨h.trans hl.1, fun hs => ?_⟩
  obtain ⟨x, e, h1, h2, h3⟩ := hl.2 hs
  obtain ⟨y, h4, _⟩ := h
  exact ⟨x ++ y, e, by rw [h1, h4]; simp, List.mem_append_left _ h2, h3⟩

theorem NoLoop.after {c d : Conn} {rc rc' : RC} {d' : Conn} (hl : NoLoop c (d, rc)) (hrc : rc = .success) (h : NoMsg d d') :
    NoLoop c (d', rc') := by
  refine ⟨hl.1.trans h, fun _ => ?_⟩
  obtain ⟨x, e, h1, h2, h3⟩ := hl.2 hrc
  obtain ⟨y, h4, _⟩ := h
  exact ⟨y ++ x, e, by rw [h4]; show y ++ d.log = _; rw [h1]; simp, List.mem_append_right _ h2, h3⟩

theorem Loops.before {env : Env} {reads : List ReadRes} {a c : Conn} {r : Conn × RC} (h : NoMsg a c)
    (hl : Loops env reads c r) : Loops env reads a r := by
  rcases hl with hl | ⟨c1, h1, h2⟩
  · exact .inl (hl.before h)
  · exact .inr ⟨c1, h.trans h1, h2⟩

theorem verifyConnection_loops (env : Env) (c : Conn) (reads : List ReadRes)
    (hi : Inv env (some .outsideData) c) (hs : c.state ≠ .disconnecting ∧ c.state ≠ .disconnected) :
    Loops env reads c (verifyConnection env c reads) := by
  unfold verifyConnection
  have key : ∃ c1, (if (!c.firstMessageReceived) = true then
      generateEvent { c with firstMessageReceived := true } .firstMessageReceived else c) = c1 ∧
      MO env c c1 ∧ c1.state = c.state ∧ NoMsg c c1 := by
    split
    · rename_i hf
      exact ⟨_, rfl, .one (.first c rfl (by simpa using hf)), rfl, [_], rfl, by simp [Still]⟩
    · exact ⟨_, rfl, .refl c, rfl, .refl c⟩
  obtain ⟨c1, he, h1, s1, m1⟩ := key
  rw [he]
  clear he
  have i1 := h1.inv hi
  simp only
  refine Loops.before m1 ?_
  split
  · rename_i hc
    have h2 := h1.trans (sslDo_star env _ c1 .negotiate)
    have n2 := sslDo_n env c1 .negotiate
    have m2 := sslDo_noMsg env c1 .negotiate
    obtain ⟨ln, hn, hnio⟩ := sslDo_says env c1 .negotiate
    generalize sslDo env c1 .negotiate = q at h2 n2 m2 hn ⊢
    obtain ⟨c2, r⟩ := q
    simp only at h2 n2 m2 hn ⊢
    have i2 := h2.inv hi
    have hc2 : c2.state = .connecting := by rw [n2.state]; exact hc
    split
    · rename_i hok
      have hok : r.ok = false := by simpa using hok
      split
      · split
        · exact .inl (.err m2 (by simp))
        · split
          · exact .inl (.err m2 (by simp))
          · exact .inl (.err (m2.trans (.of_log rfl)) (by simp))
      · have hx : NoLoop c1 (c2, .success) :=
          ⟨m2, fun _ => ⟨ln ++ [.sslCall .negotiate r.ok], _, by rw [hn]; simp, by simp; exact .inr rfl, .inr (by rw [hok])⟩⟩
        split
        · exact .inl (hx.after rfl (updateTimeout_t env c2).noMsg)
        · exact .inl hx
    · have h3 := changeState_linkUp_star env .outsideData c2 hc2 (.inr rfl) ⟨ln, c1.log, by rw [hn, show r.ok = true by simpa using ‹¬(!r.ok) = true›], hnio⟩
      have h23 := h2.trans h3.1
      refine .inr ⟨_, m2.trans (changeState_noMsg env c2 .linkUp), h23.inv hi, ?_, handleMessages_after env _ reads⟩
      rcases h3.2.2.2.2 with h | h <;> rw [h] <;> simp [MsgState]
  · rename_i hc
    refine .inr ⟨c1, .refl _, i1, ⟨hc, ?_, ?_⟩, handleMessages_after env _ reads⟩
    · rw [s1]; exact hs.1
    · rw [s1]; exact hs.2

theorem outsidePacket_loops (env : Env) (c : Conn) (pkt : Bytes) (reads : List ReadRes)
    (hi : Inv env (some .outsideData) c) (hs : c.state ≠ .disconnecting ∧ c.state ≠ .disconnected)
    (hj : JustCalled .outsideData c.log) (hdg : c.connType = .datagram) :
    Loops env reads c (outsidePacket env c pkt reads) := by
  unfold outsidePacket
  split
  · exact .inl (.err (.refl c) (by simp))
  · rw [rd_isSome (by omega), rd_isSome (by omega), rd_isSome (by omega), rd_isSome (by omega)]
    simp only
    split
    · exact .inl (.err (.refl c) (by simp))
    · split
      · exact .inl (.err (.refl c) (by simp))
      · split
        · exact .inl (.err (.refl c) (by simp))
        · generalize List.take _ (List.drop 16 pkt) = body
          generalize rdLe (List.take 8 (List.drop 8 pkt)) = sess
          have h1 : MO env c { c.emit (.input sess body) with incoming := some body, packetSeen := false } :=
            .one (.dgram c sess body rfl hj hdg)
          have m1 : NoMsg c { c.emit (.input sess body) with incoming := some body, packetSeen := false } :=
            ⟨[.input sess body], rfl, by simp [Still]⟩
          refine Loops.before m1 ?_
          have i1 := h1.inv hi
          have s1 : ({ c.emit (.input sess body) with incoming := some body, packetSeen := false } : Conn).state = c.state := rfl
          generalize ({ c.emit (.input sess body) with incoming := some body, packetSeen := false } : Conn) = c1 at i1 s1 ⊢
          have h2 := verifyConnection_loops env c1 reads i1 (by rw [s1]; exact hs)
          generalize verifyConnection env c1 reads = q at h2 ⊢
          obtain ⟨c2, rc⟩ := q
          simp only at h2 ⊢
          split
          · exact h2
          · rename_i hrc
            have hrc : rc = .success := by simpa using hrc
            have m2 := (updateSessionIncoming_t c2 sess).noMsg
            rcases h2 with h2 | ⟨d, a, b, e, f⟩
            · exact .inl (h2.after hrc m2)
            · refine .inr ⟨d, a, b, e, fun rc' h => ?_, fun h => (f.2 h).trans m2⟩
              have := f.1 rc' h
              injection this with _ h'
              rw [← h', hrc] at h
              exact absurd h (messageLoop_rc env d reads)

theorem outsideStream_loops (env : Env) (c : Conn) (buf : Bytes) (reads : List ReadRes)
    (hi : Inv env (some .outsideData) c) (hs : c.state ≠ .disconnecting ∧ c.state ≠ .disconnected)
    (hj : JustCalled .outsideData c.log) (hst : c.connType = .stream) :
    Loops env reads c (outsideStream env c buf reads) := by
  unfold outsideStream setupStreamState
  by_cases hl : c.streamLeft.length = 0
  · simp only [hl, ne_eq, not_true_eq_false, if_false]
    have h1 : MO env c { c.emit (.input 0 buf) with incoming := some buf, streamLeft := buf } :=
      .one (.stream c buf rfl hj (List.length_eq_zero_iff.mp hl) hst)
    exact Loops.before (c := { c.emit (.input 0 buf) with incoming := some buf, streamLeft := buf })
      ⟨[.input 0 buf], rfl, by simp [Still]⟩ (verifyConnection_loops env _ reads (h1.inv hi) hs)
  · simp only [hl, ne_eq, not_false_eq_true, if_true]
    simp only [reduceCtorEq, not_false_eq_true, if_true]
    exact .inl (.err (.refl c) (by simp))

theorem outsideData_loops (env : Env) (c : Conn) (buf : Bytes) (reads : List ReadRes)
    (hi : Inv env (some .outsideData) c) (hj : ∃ old, c.log = .api .outsideData :: old) :
    Loops env reads c (outsideData env c buf reads) := by
  unfold outsideData
  split
  · exact .inl (.err (.refl c) (by simp))
  · rename_i hs
    simp only [not_or] at hs
    simp only
    have h1 : MO env c { c with log := (c.outsidePlugins.ingress c.log buf buf.length).1 } := by
      obtain ⟨old, ho⟩ := hj
      exact ingress_star env _ c c.outsidePlugins buf buf.length ⟨[], old, ho, by simp⟩
    have m1 : NoMsg c { c with log := (c.outsidePlugins.ingress c.log buf buf.length).1 } := by
      obtain ⟨l, e, h⟩ := Chain.ingress_log c.outsidePlugins c.log buf buf.length
      refine ⟨l, e, fun x hx => ?_⟩
      obtain ⟨p, r, rfl⟩ := h x hx
      trivial
    have hj1 : (c.outsidePlugins.ingress c.log buf buf.length).2.2 = .success →
        JustCalled .outsideData (c.outsidePlugins.ingress c.log buf buf.length).1 := by
      intro hok
      obtain ⟨l, e, hl⟩ := Chain.ingress_passed c.outsidePlugins c.log buf buf.length hok
      obtain ⟨old, ho⟩ := hj
      exact ⟨l, old, by rw [e, ho], hl⟩
    obtain ⟨l, hl, hruns⟩ := Chain.ingress_runs c.outsidePlugins c.log buf buf.length
    split
    · rename_i hd
      refine .inl ⟨m1, fun _ => ?_⟩
      rcases hruns with ⟨_, h⟩ | ⟨p, r, l', h1, h2, h3, _⟩
      · rw [h] at hd; cases hd
      · rw [hd] at h3
        refine ⟨l, _, hl, by rw [h1]; exact .head _, .inl ⟨p, ?_⟩⟩
        by_cases hr : r = .drop
        · rw [hr]
        · rw [if_neg hr] at h3; cases h3
    · refine Loops.before m1 ?_
      split
      · rename_i hok
        exact .inl (.err (.refl _) hok)
      · rename_i hok
        replace hj1 := hj1 (by simpa using hok)
        split
        · exact .inl (.err (.refl _) (by simp))
        · split
          · rename_i hct
            exact outsidePacket_loops env _ _ reads (h1.inv hi) hs hj1 hct
          · rename_i hct
            exact outsideStream_loops env _ _ reads (h1.inv hi) hs hj1 hct

/-- Only receive calls deliver messages. -/
theorem Micro.noMsg {env : Env} {a : Api} {c c' : Conn} (h : Micro env a c c') (ha : a ≠ .outsideData) : NoMsg c c' := by
  cases h with
  | io r => exact (ioStep_frame env c r).pFrame.noMsg
  | state s hne h => exact setState_noMsg c s
  | configure ctx h =>
    obtain ⟨x, y, ok, ft, e, _⟩ := configure_shape env c ctx
    exact ⟨[.table ctx.maxFragEntries, .alloc ok, .callbacks ctx.cbs], by rw [e]; rfl, by simp [Still]⟩
  | probeAck id h hs hm => exact (handleProbeAck_frame env c id).noMsg
  | probeTimeout h => exact (handleProbeTimeout_frame env c).noMsg
  | startBase h hs hd => exact (startBaseProbing_frame env c).noMsg
  | quiet e h => exact ⟨[e], rfl, by cases e <;> simp_all [Quiet, Still]⟩
  | auth e u _ he hc h hr hs hm => exact absurd (by assumption) ha
  | message p h => exact absurd h ha
  | err | dueOff | sessCfg | sessClient | sessServer | rotate | sessSet | creds
  | mtu | version | pingPending | fragNext | fragNew | fragPut | fragDel => exact ⟨[], rfl, by simp⟩
  | _ => exact ⟨[_], rfl, by simp [Still]⟩

theorem Star.noMsg {env : Env} {a : Api} {c c' : Conn} (h : M env a c c') (ha : a ≠ .outsideData) : NoMsg c c' := by
  induction h with
  | refl => exact .refl _
  | tail _ s ih => exact ih.trans (s.noMsg ha)

/-! ## The properties -/

theorem run_fit (env : Env) (ops : List Op) : Fit (run env ops).log := by
  refine run_induct (P := fun c => Fit c.log) (Q := fun _ => True)
    ⟨trivial, fun m o h => by cases h⟩ ?_ ops (fun _ _ => trivial)
  intro c op _ hg hf
  obtain ⟨⟨ap, hi⟩, _⟩ := hg
  have h0 : Fit (c.emit (.api op.api)).log := hf.cons trivial
  have key : AllAt Next (.ret (exec env (c.emit (.api op.api)) op).2 :: (exec env (c.emit (.api op.api)) op).1.log) := by
    by_cases ha : op.api = .outsideData
    · cases op <;> try cases ha
      rename_i buf reads
      have hi' := entry_inv hi (.outsideData buf reads)
      rcases outsideData_loops env (c.emit (.api .outsideData)) buf reads hi' ⟨c.log, rfl⟩ with hl | ⟨c1, m1, i1, s1, hl⟩
      · exact ((Fit.noMsg h0 hl.1).cons (e := .ret _) trivial).1
      · have f1 := messageLoop_fit env c1 reads i1 s1 ((Fit.noMsg h0 m1).upTo _)
        generalize messageLoop env c1 reads = q at hl f1
        obtain ⟨c2, o⟩ := q
        cases o with
        | none => exact ((Fit.noMsg f1 (hl.2 rfl)).cons (e := .ret _) trivial).1
        | some rc =>
          have hr := hl.1 rc rfl
          show AllAt Next (.ret (outsideData env (c.emit (.api .outsideData)) buf reads).2 ::
            (outsideData env (c.emit (.api .outsideData)) buf reads).1.log)
          rw [hr]
          exact FitUpTo.ret f1
    · have hn := (exec_star env ap c op hi).noMsg ha
      have h1 : Fit (entry c op).log := by rw [entry_log]; exact h0
      exact ((h1.noMsg hn).cons (e := .ret _) trivial).1
  exact ⟨key, fun m o h => by injection h with h; cases h⟩

/-- **C73.**  A message that the protocol table turns away in the receiver's role, state and callbacks has no
effect: if it is to be ignored, the very next thing is that the next message is read; if it is to be refused,
the call ends at once with the prescribed result. -/
theorem C73_turned_away (env : Env) (ops : List Op) {newer older : Log} {e : Effect} {m : Bytes}
    (h : (run env ops).log = newer ++ e :: .message m :: older) : Screened m older e :=
  (run_fit env ops).1.at h

theorem messages_append (a b : Log) : messages (a ++ b) = messages b ++ messages a := by
  induction a with
  | nil => simp [messages]
  | cons x xs ih => cases x <;> simp [messages, ih]

theorem messages_still {l : Log} (h : ∀ x ∈ l, Still x) : messages l = [] := by
  induction l with
  | nil => rfl
  | cons x xs ih =>
    have := h x (.head _)
    cases x <;> first | exact this.elim | exact ih fun y hy => h y (.tail _ hy)

/-- The call added the messages `ms`. -/
def Got (c c' : Conn) (ms : List Bytes) : Prop := ∃ x, c'.log = x ++ c.log ∧ messages x = ms

theorem NoMsg.got {c c' : Conn} (h : NoMsg c c') : Got c c' [] := by
  obtain ⟨l, e, hl⟩ := h
  exact ⟨l, e, messages_still hl⟩

theorem Got.trans {a b c : Conn} {m1 m2 : List Bytes} (h1 : Got a b m1) (h2 : Got b c m2) : Got a c (m1 ++ m2) := by
  obtain ⟨x, e, rfl⟩ := h1
  obtain ⟨y, e', rfl⟩ := h2
  exact ⟨y ++ x, by rw [e', e]; simp, messages_append y x⟩

theorem messageLoop_msgs (env : Env) (c : Conn) (reads : List ReadRes) :
    ∃ ms, Got c (messageLoop env c reads).1 ms ∧ ms <+: onOffer reads ∧
      ((messageLoop env c reads).2 = none → ms = onOffer reads) := by
  have hnil : ∀ (c' : Conn) (ok : Bool), c'.log = .sslCall .read ok :: c.log → Got c c' [] :=
    fun c' ok h => ⟨[_], h, rfl⟩
  induction reads generalizing c with
  | nil =>
    refine ⟨[], ?_, List.nil_prefix, fun _ => rfl⟩
    unfold messageLoop
    split
    · exact hnil _ false rfl
    · exact hnil _ false rfl
  | cons r rest ih =>
    unfold messageLoop
    split
    · exact ⟨[], hnil _ false rfl, List.nil_prefix, fun h => by cases h⟩
    · simp only
      have hiff : r.plain.take maxWireMtu = [] ↔ r.plain = [] := by simp [maxWireMtu]
      have ho : onOffer (r :: rest) = if r.plain ≠ [] then r.plain.take maxWireMtu :: onOffer rest
        else if r.err = .appDataReady then onOffer rest else [] := rfl
      rw [ho]
      generalize r.plain.take maxWireMtu = plain at hiff ⊢
      have g1 : Got c (ioRun env (c.emit (.sslCall .read (!plain.isEmpty))) r.io) [] :=
        Got.trans (hnil (c.emit (.sslCall .read (!plain.isEmpty))) _ rfl) (ioRun_noMsg env _ r.io).got
      generalize ioRun env (c.emit (.sslCall .read (!plain.isEmpty))) r.io = c1 at g1 ⊢
      split
      · rename_i hp
        have hp : r.plain = [] := hiff.mp (by simpa using hp)
        rw [if_neg (by simp [hp])]
        split
        · rename_i he; rw [if_neg (by rw [he]; simp)]; exact ⟨[], g1, List.nil_prefix, fun _ => rfl⟩
        · rename_i he; rw [if_neg (by rw [he]; simp)]; exact ⟨[], g1, List.nil_prefix, fun _ => rfl⟩
        · rename_i he; rw [if_neg (by rw [he]; simp)]; exact ⟨[], g1, List.nil_prefix, fun _ => rfl⟩
        · rename_i he
          rw [if_pos he]
          obtain ⟨ms, h1, h2, h3⟩ := ih c1 (fun c' ok h => ⟨[_], h, rfl⟩)
          exact ⟨ms, g1.trans h1, h2, h3⟩
        · split
          · exact ⟨[], g1, List.nil_prefix, fun h => by cases h⟩
          · exact ⟨[], g1, List.nil_prefix, fun h => by cases h⟩
      · rename_i hp
        have hp : r.plain ≠ [] := fun h => hp (by rw [hiff.mpr h]; rfl)
        rw [if_pos hp]
        have g2 : Got c (c1.emit (.message plain)) [plain] := g1.trans (m2 := [plain]) ⟨[.message plain], rfl, rfl⟩
        have hn := processMessage_noMsg env (c1.emit (.message plain)) plain
        have g3 : Got c (processMessage env (c1.emit (.message plain)) plain).1 [plain] := g2.trans hn.got
        generalize processMessage env (c1.emit (.message plain)) plain = q at g3 ⊢
        obtain ⟨c2, rc⟩ := q
        simp only at g3 ⊢
        split
        · exact ⟨[plain], g3, ⟨onOffer rest, rfl⟩, fun h => by cases h⟩
        · obtain ⟨ms, h1, h2, h3⟩ := ih c2 (fun c' ok h => ⟨[_], h, rfl⟩)
          refine ⟨plain :: ms, g3.trans h1, ?_, fun h => by rw [h3 h]⟩
          obtain ⟨t, ht⟩ := h2
          exact ⟨t, by rw [← ht]; rfl⟩

/-- **C74.**  A call that gives the connection data from the network processes the messages TLS has to offer
one at a time, in order, none twice and none skipped: those processed are a prefix of those on offer.  If the
call succeeds it has processed all of them, unless it did not read at all. -/
theorem C74_in_order (env : Env) (ops : List Op) (buf : Bytes) (reads : List ReadRes) {x : Log}
    (hx : (run env (ops ++ [.outsideData buf reads])).log = x ++ (run env ops).log) :
    messages x <+: onOffer reads ∧
    ((step env (run env ops) (.outsideData buf reads)).2 = .success →
      messages x = onOffer reads ∨ (messages x = [] ∧ ∃ e ∈ x, Excuse e)) := by
  rw [run_snoc] at hx
  obtain ⟨⟨ap, hi⟩, _⟩ := run_good env ops
  generalize run env ops = c at *
  have hi' := entry_inv hi (.outsideData buf reads)
  have hlog : (step env c (.outsideData buf reads)).1.log =
      .ret (outsideData env (c.emit (.api .outsideData)) buf reads).2 :: (outsideData env (c.emit (.api .outsideData)) buf reads).1.log := rfl
  have hres : (step env c (.outsideData buf reads)).2 = (outsideData env (c.emit (.api .outsideData)) buf reads).2 := rfl
  rw [hlog] at hx
  rw [hres]
  have hl := outsideData_loops env (c.emit (.api .outsideData)) buf reads hi' ⟨c.log, rfl⟩
  generalize outsideData env (c.emit (.api .outsideData)) buf reads = r at hx hl ⊢
  have fin : ∀ ms, Got (c.emit (.api .outsideData)) r.1 ms → messages x = ms := by
    intro ms ⟨y, hy, hm⟩
    have : x = .ret r.2 :: y ++ [.api .outsideData] := by
      rw [hy] at hx
      refine (List.append_cancel_right (bs := c.log) ?_).symm
      rw [← hx]; simp [Conn.emit]
    rw [this, List.cons_append]
    show messages (y ++ [.api .outsideData]) = ms
    rw [messages_append, hm]; rfl
  rcases hl with ⟨hn, hr⟩ | ⟨c1, m1, _, _, hl⟩
  · have hm := fin [] hn.got
    refine ⟨by rw [hm]; exact List.nil_prefix, fun hs => .inr ⟨hm, ?_⟩⟩
    obtain ⟨y, e, h1, h2, h3⟩ := hr hs
    refine ⟨e, ?_, h3⟩
    have : x = .ret r.2 :: y ++ [.api .outsideData] := by
      rw [h1] at hx
      refine (List.append_cancel_right (bs := c.log) ?_).symm
      rw [← hx]; simp [Conn.emit]
    rw [this]
    simp [h2]
  · obtain ⟨ms, g1, g2, g3⟩ := messageLoop_msgs env c1 reads
    have hne := messageLoop_rc env c1 reads
    generalize messageLoop env c1 reads = q at hl g1 g3 hne
    obtain ⟨c2, o⟩ := q
    cases o with
    | none =>
      have hm := fin _ ((m1.got.trans g1).trans (hl.2 rfl).got)
      simp only [List.nil_append, List.append_nil] at hm
      rw [hm]
      exact ⟨g2, fun _ => .inl (g3 rfl)⟩
    | some rc =>
      have hr := hl.1 rc rfl
      have hm := fin ms (by rw [hr]; exact m1.got.trans g1)
      rw [hm]
      refine ⟨g2, fun hs => ?_⟩
      rw [hr] at hs
      exact absurd (by show some rc = _; rw [show rc = .success from hs]) hne

namespace Demo

/-- An ignored message (unknown type), a short PONG, a DATA message announcing more than it holds, and a
message after it. -/
def mixed : List ReadRes := [msg [99, 1], msg [3, 0], msg ([5, 255, 255] ++ ipPkt), msg [12]]

end Demo

/-- Not vacuous: the online demo client ignores two messages, then refuses one, and never sees the fourth. -/
example : ∃ rest, (run Demo.env (Demo.clientOps ++ [.outsideData (Demo.dgram [1]) Demo.mixed])).log =
    [.ret .pointerWouldOverflow, .message ([5, 255, 255] ++ Demo.ipPkt), .sslIn 2000 .wantRead, .sslCall .read true,
     .message [3, 0], .sslIn 2000 .wantRead, .sslCall .read true,
     .message [99, 1], .sslIn 2000 (.bytes [1]), .sslCall .read true] ++ rest ∧
    stateAt rest = .online ∧ onOffer Demo.mixed = [[99, 1], [3, 0], [5, 255, 255] ++ Demo.ipPkt, [12]] := by
  refine ⟨(run Demo.env (Demo.clientOps ++ [.outsideData (Demo.dgram [1]) Demo.mixed])).log.drop 10, ?_⟩
  decide +kernel

end Lightway
