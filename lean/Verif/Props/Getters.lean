import Verif.Model.Getters
import Verif.Props.Settings
import Verif.Props.Session

/-!
# C90: what the getters of a connection report
-/

namespace Lightway
open Spec

namespace Spec

/-- The user name most recently shown to the host's credentials callback (events newest first). -/
def presented : Log → Option Bytes
  | [] => none
  | .authUserPass u _ _ :: _ => some u
  | _ :: l => presented l

/-- The call is a connect that passes the checks made before anything else. -/
def Validated (c : Conn) : Op → Option SslCtx
  | .clientConnect ctx _ _ => if isValidClient ctx c = .success then some ctx else none
  | .serverConnect ctx _ _ => if isValidServer ctx c = .success then some ctx else none
  | _ => none

/-- How a call `op`, during which `x` happened, changes what the getters report, from those of `c` to those of `d`. -/
def Reports (c0 d0 : Conn) (op : Op) (x : Log) : Prop :=
    let c := some c0
    let d := some d0
    getUsername d = (match op with
      | .setUsername s => if textOk s then some ((cstr s).take 49) else getUsername c
      | _ => match presented x with
        | some u => some (cstr u)
        | none => getUsername c) ∧
    (usernameSet d = true ↔ getUsername d ≠ some []) ∧
    passwordSet d = (match op with
      | .setPassword s => textOk s || passwordSet c
      | _ => passwordSet c) ∧
    authTokenSet d = (match op with
      | .setAuthToken t => (decide (1 ≤ t.length) && decide (t.length < 1350)) || authTokenSet c
      | .setAuthBuffer b => !(decide (1 ≤ b.length) && decide (b.length ≤ 1346)) && authTokenSet c
      | .setUsername _ | .setPassword _ => false
      | _ => authTokenSet c) ∧
    authBufferSet d = (match op with
      | .setAuthToken t => (decide (1 ≤ t.length) && decide (t.length < 1350)) || authBufferSet c
      | .setAuthBuffer b => (decide (1 ≤ b.length) && decide (b.length ≤ 1346)) || authBufferSet c
      | _ => authBufferSet c) ∧
    getOutsideMtu d = (match op with
      | .setOutsideMtu m => if 114 < m.toNat then m.toNat else getOutsideMtu c
      | _ => getOutsideMtu c) ∧
    (outsideMtuSet d = true ↔ getOutsideMtu d ≠ 0) ∧
    getProtocolVersion d = (match op with
      | .setProtocolVersion a b => some (a, b)
      | op => match Validated c0 op with
        | some ctx => if c0.verMajor = 0 then some (ctx.maxMajor, ctx.maxMinor) else getProtocolVersion c
        | none => getProtocolVersion c) ∧
    getState d = stateAt d0.log

end Spec

theorem presented_append (x y : Log) : presented (x ++ y) = (presented x).or (presented y) := by
  induction x with
  | nil => rfl
  | cons e x ih => cases e <;> first | rfl | exact ih

/-- The stored name against the history. -/
structure NameIs (c0 c : Conn) : Prop where
  len : c.username.length = 51
  name : ∃ x, c.log = x ++ c0.log ∧ cstr c.username = ((presented x).map cstr).getD (cstr c0.username)

theorem NameIs.upd {c0 c c' : Conn} (h : NameIs c0 c) (hu : c'.username = c.username) (y : Log) (he : c'.log = y ++ c.log)
    (hy : presented y = none) : NameIs c0 c' := by
  obtain ⟨h1, x, hx, h2⟩ := h
  refine ⟨by rw [hu]; exact h1, y ++ x, by rw [he, hx]; simp, ?_⟩
  rw [hu, h2, presented_append, hy]; rfl

theorem presented_none {y : Log} (h : ∀ e ∈ y, ∀ u p ok, e ≠ .authUserPass u p ok) : presented y = none := by
  induction y with
  | nil => rfl
  | cons e y ih =>
    have := ih fun e he => h e (by simp [he])
    cases e <;> first | exact this | exact absurd rfl (h _ List.mem_cons_self _ _ _)

theorem Micro.nameIs {env : Env} {a : Api} {c0 c c' : Conn} (hm : Micro env a c c') (ha : a ≠ .setter) (h : NameIs c0 c) :
    NameIs c0 c' := by
  have pf : ∀ {d : Conn}, PFrame c d → NameIs c0 d := by
    intro d hf
    obtain ⟨l, ps, sl, we, pm, pn, e, hl⟩ := hf
    refine h.upd (by rw [e]) l (by rw [e]) (presented_none fun x hx u p ok hxe => ?_)
    have := hl x hx
    rw [hxe] at this
    exact this
  cases hm with
  | io r => exact pf (ioStep_frame env c r).pFrame
  | probeAck id => exact pf (handleProbeAck_frame env c id)
  | probeTimeout _ => exact pf (handleProbeTimeout_frame env c)
  | startBase _ => exact pf (startBaseProbing_frame env c)
  | state s hne _ =>
    refine h.upd (c' := setState c s) ?_ [.state s c.cbs.stateChange] (by simp [setState, hne]) rfl
    unfold setState; split <;> rfl
  | configure ctx _ =>
    obtain ⟨x, y, ok, ft, e, _⟩ := configure_shape env c ctx
    rw [e]
    exact h.upd rfl [_, _, _] rfl rfl
  | quiet e he =>
    refine h.upd rfl [e] rfl ?_
    cases e <;> first | rfl | exact he.elim
  | auth e u hu he hc hd hr hs hmm hn =>
    obtain ⟨h1, x, hx, h2⟩ := h
    refine ⟨hu h1, e :: x, by show e :: c.log = _; rw [hx]; rfl, ?_⟩
    show cstr u = _
    rw [hn]
    cases e with
    | authUserPass n p ok =>
      obtain ⟨pkt, rest, -, harg⟩ := hmm
      show cstr (setNul (strncpy c.username n 50) 50) = cstr n
      have hn50 : n.length ≤ 50 := by
        rw [harg.2.2.2.1]; unfold field; rw [List.length_take]; omega
      rw [cstr_strncpy_set _ _ _ _ (by omega) (by omega), List.take_of_length_le]
      have h1 : (cstr n).length ≤ n.length := by
        unfold cstr; exact List.Sublist.length_le (List.takeWhile_sublist _)
      omega
    | authToken => exact h2
    | authBuf => exact h2
    | _ => exact he.elim
  | creds _ _ _ _ _ _ hs => exact absurd hs ha
  | err | dueOff | sessCfg | sessClient | sessServer | rotate | sessSet
  | version | pingPending | fragNext | fragNew | fragPut | fragDel | mtu =>
    exact h.upd rfl [] rfl rfl
  | _ => exact h.upd rfl [_] rfl rfl

theorem step_name {env : Env} {c : Conn} (hg : Good env c) (op : Op) (ha : op.api ≠ .setter) : NameIs c (step env c op).1 := by
  obtain ⟨o, hi⟩ := hg.inv
  have h0 : NameIs c (entry c op) := by
    cases op <;> exact ⟨hg.sizes.user, [.api _], rfl, rfl⟩
  have h1 : NameIs c (exec env (c.emit (.api op.api)) op).1 := by
    have hs := exec_star env o c op hi
    generalize entry c op = e at h0 hs
    generalize (exec env (c.emit (.api op.api)) op).1 = e' at hs ⊢
    induction hs with
    | refl => exact h0
    | tail _ s ih => exact s.nameIs ha ih
  exact h1.upd rfl [_] rfl rfl

/-- The checks made before anything else fail: nothing but the history changes. -/
theorem unvalidated_settings {env : Env} {c : Conn} {op : Op} (h : Validated c op = none) (hc : IsConnect op.api) :
    settings (step env c op).1 = settings c := by
  cases op with
  | clientConnect ctx i o =>
    have hv : ¬isValidClient ctx c = .success := by
      intro hv; simp [Validated, hv] at h
    show settings (clientConnect env (c.emit (.api .clientConnect)) ctx i o).1 = _
    unfold clientConnect
    simp only
    rw [if_pos (show isValidClient ctx (c.emit (.api .clientConnect)) ≠ .success from hv)]
    rfl
  | serverConnect ctx i o =>
    have hv : ¬isValidServer ctx c = .success := by
      intro hv; simp [Validated, hv] at h
    show settings (serverConnect env (c.emit (.api .serverConnect)) ctx i o).1 = _
    unfold serverConnect
    simp only
    rw [if_pos (show isValidServer ctx (c.emit (.api .serverConnect)) ≠ .success from hv)]
    rfl
  | _ => cases hc <;> rename_i h <;> cases h

theorem setAuthToken_eq (c : Conn) (h : c.authBuffer.length = 1350) (t : Bytes) :
    ∃ rc, setAuthToken c t = if 1 ≤ t.length ∧ t.length < 1350 then
      ({ c with authType := authTokenTy, authBuffer := t ++ c.authBuffer.drop t.length, authBufferLength := t.length }, .success)
      else (c, rc) := by
  unfold setAuthToken
  by_cases h0 : t.length = 0
  · exact ⟨.emptyString, by rw [if_pos h0, if_neg (by omega)]⟩
  · rw [if_neg h0]
    by_cases h1 : t.length ≥ maxMtu
    · exact ⟨.stringTooLong, by rw [if_pos h1, if_neg (by simp [maxMtu] at h1; omega)]⟩
    · have : t.length < 1350 := by simp [maxMtu] at h1; omega
      rw [if_neg h1, wr_zero (by omega)]
      exact ⟨.success, by rw [if_pos (by omega)]⟩

theorem setAuthBuffer_eq (c : Conn) (h : c.authBuffer.length = 1350) (t : Bytes) :
    ∃ rc, setAuthBuffer c t = if 1 ≤ t.length ∧ t.length ≤ 1346 then
      ({ c with authType := authCbTy, authBuffer := t ++ c.authBuffer.drop t.length, authBufferLength := t.length }, .success)
      else (c, rc) := by
  unfold setAuthBuffer
  by_cases h0 : t.length = 0
  · exact ⟨.emptyString, by rw [if_pos h0, if_neg (by omega)]⟩
  · rw [if_neg h0]
    by_cases h1 : t.length > maxMtu - 4
    · exact ⟨.stringTooLong, by rw [if_pos h1, if_neg (by simp [maxMtu] at h1; omega)]⟩
    · have : t.length ≤ 1346 := by simp [maxMtu] at h1; omega
      rw [if_neg h1, wr_zero (by omega)]
      exact ⟨.success, by rw [if_pos (by omega)]⟩

theorem version_after (env : Env) (ops : List Op) (op : Op) (ha : op.api ≠ .setter) :
    getProtocolVersion (some (run env (ops ++ [op]))) = (match Validated (run env ops) op with
      | some ctx => if (run env ops).verMajor = 0 then some (ctx.maxMajor, ctx.maxMinor) else getProtocolVersion (some (run env ops))
      | none => getProtocolVersion (some (run env ops))) := by
      have hg : Good env (run env ops) := run_good env ops
      have hver : ∀ s : Settings, settings (run env (ops ++ [op])) = s → getProtocolVersion (some (run env (ops ++ [op]))) = some s.version := by
        intro s hs; rw [← hs]; rfl
      have hkeep : settings (run env (ops ++ [op])) = settings (run env ops) → getProtocolVersion (some (run env (ops ++ [op]))) = getProtocolVersion (some (run env ops)) :=
        fun h => hver _ h
      cases hvd : Validated (run env ops) op with
      | none =>
        refine hkeep ?_
        rw [run_snoc]
        by_cases hcn : IsConnect op.api
        · exact unvalidated_settings hvd hcn
        · refine step_settings hg op ?_
          cases op <;> first | (exact fun h => h) | exact absurd rfl ha | (exact absurd (.inl rfl) hcn) | (exact absurd (.inr rfl) hcn)
      | some ctx =>
        have fin : ∀ (server : Bool) (i o : Chain), op = connectOp server ctx i o →
            (if server = true then isValidServer ctx (run env ops) = .success else isValidClient ctx (run env ops) = .success) →
            getProtocolVersion (some (run env (ops ++ [op]))) = if (run env ops).verMajor = 0 then some (ctx.maxMajor, ctx.maxMinor) else getProtocolVersion (some (run env ops)) := by
          intro server i o ho hv
          have := C78_settings env ops [] server ctx i o hv (by simp)
          rw [← ho] at this
          rw [hver _ this]
          show some (if (run env ops).verMajor = 0 then _ else _) = _
          split <;> rfl
        cases op with
        | clientConnect ctx' i o =>
          simp only [Validated] at hvd
          split at hvd
          · rename_i h; cases hvd; exact fin false i o rfl h
          · cases hvd
        | serverConnect ctx' i o =>
          simp only [Validated] at hvd
          split at hvd
          · rename_i h; cases hvd; exact fin true i o rfl h
          · cases hvd
        | _ => cases hvd

/-- **C90.**  What the getters of a connection (`some c`; NULL is `none`) report, whatever its role and history: a new
connection reports nothing, and every call changes the reports exactly as follows.  The user name is the one last set
and accepted (cut to 49 characters) or, on a server, the one last shown to the host's credentials callback. -/
theorem C90_reports (env : Env) (ops : List Op) (op : Op) {x : Log}
    (hx : (run env (ops ++ [op])).log = x ++ (run env ops).log) :
    Reports (run env ops) (run env (ops ++ [op])) op x := by
  have hg : Good env (run env ops) := run_good env ops
  have hg' : Good env (run env (ops ++ [op])) := run_good env _
  have hst := run_state env (ops ++ [op])
  have hrun := run_snoc env ops op
  have hk0 := fun ha => step_kept hg op ha
  have hn0 := fun ha => step_name hg op ha
  have hk8 := version_after env ops op
  rw [← hrun] at hk0 hn0
  generalize run env (ops ++ [op]) = d0 at *
  generalize run env ops = c0 at *
  unfold Reports
  intro c d
  have tail1 : (usernameSet d = true ↔ getUsername d ≠ some []) := by
    show (!configIsEmptyString d0.username) = true ↔ some (cstr d0.username) ≠ some []
    simp [configIsEmptyString]
  have tail2 : (outsideMtuSet d = true ↔ getOutsideMtu d ≠ 0) := by
    show decide (d0.outsideMtu > 0) = true ↔ d0.outsideMtu ≠ 0
    simp; omega
  by_cases ha : op.api = .setter
  · obtain ⟨oa, hi⟩ := hg.inv
    have hbuf : (c0.emit (.api .setter)).authBuffer.length = 1350 := hi.buf
    have hu := hg.sizes.user
    have hp := hg.sizes.pass
    have log2 : ∀ rc, d0.log = .ret rc :: .api .setter :: c0.log → presented x = none := by
      intro rc h
      have : x = [.ret rc, .api .setter] := List.append_cancel_right (hx.symm.trans h)
      rw [this]; rfl
    cases op <;> simp only [Op.api, reduceCtorEq] at ha
    case setUsername s =>
      have h2 := (setConfigString_spec c0.username s hu).2.1
      refine ⟨?_, tail1, ?_, ?_, ?_, ?_, tail2, ?_, hst⟩ <;> subst hrun
      · show some (cstr (setConfigString c0.username s).1) = _
        rw [h2]
        simp only
        split <;> rfl
      · rfl
      · show ((authUserPassTy == authTokenTy) && c0.authBufferLength != 0) = false; rfl
      · rfl
      · rfl
      · rfl
    case setPassword s =>
      have h2 := (setConfigString_spec c0.password s hp).2.1
      have hl := log2 (step env c0 (.setPassword s)).2 (by rw [hrun]; rfl)
      refine ⟨?_, tail1, ?_, ?_, ?_, ?_, tail2, ?_, hst⟩ <;> subst hrun
      · simp only [hl]; rfl
      · show (!configIsEmptyString (setConfigString c0.password s).1) = (textOk s || !configIsEmptyString c0.password)
        unfold configIsEmptyString
        rw [h2]
        by_cases ht : textOk s = true
        · rw [if_pos ht, ht]
          simp only [textOk, Bool.and_eq_true, decide_eq_true_eq] at ht
          cases hcs : cstr s with
          | nil => rw [hcs] at ht; simp at ht
          | cons b t => simp
        · rw [if_neg ht]
          simp only [Bool.not_eq_true] at ht
          rw [ht]; simp
      · show ((authUserPassTy == authTokenTy) && c0.authBufferLength != 0) = false; rfl
      · rfl
      · rfl
      · rfl
    case setAuthToken t =>
      obtain ⟨rc, e⟩ := setAuthToken_eq (c0.emit (.api .setter)) hbuf t
      have e : exec env (c0.emit (.api .setter)) (.setAuthToken t) = _ := e
      by_cases hok : 1 ≤ t.length ∧ t.length < 1350
      · rw [if_pos hok] at e
        have hd : d0 = _ := hrun.trans (congrArg (fun r : Conn × RC => r.1.emit (.ret r.2)) e)
        have hl := log2 .success (by rw [hd]; rfl)
        have hne : (t.length != 0) = true := by rw [bne_iff_ne]; omega
        refine ⟨?_, tail1, ?_, ?_, ?_, ?_, tail2, ?_, hst⟩ <;> subst hd
        · simp only [hl]; rfl
        · rfl
        · simp only [hok.1, hok.2, decide_true, Bool.and_self, Bool.true_or]
          show ((authTokenTy == authTokenTy) && t.length != 0) = true
          rw [hne]; rfl
        · simp only [hok.1, hok.2, decide_true, Bool.and_self, Bool.true_or]
          show decide (t.length ≠ 0) = true
          exact decide_eq_true (by omega)
        · rfl
        · rfl
      · rw [if_neg hok] at e
        have hd : d0 = _ := hrun.trans (congrArg (fun r : Conn × RC => r.1.emit (.ret r.2)) e)
        have hl := log2 rc (by rw [hd]; rfl)
        have hf : (decide (1 ≤ t.length) && decide (t.length < 1350)) = false := by simp; omega
        refine ⟨?_, tail1, ?_, ?_, ?_, ?_, tail2, ?_, hst⟩ <;> subst hd
        · simp only [hl]; rfl
        · rfl
        · simp only [hf, Bool.false_or]; rfl
        · simp only [hf, Bool.false_or]; rfl
        · rfl
        · rfl
    case setAuthBuffer t =>
      obtain ⟨rc, e⟩ := setAuthBuffer_eq (c0.emit (.api .setter)) hbuf t
      have e : exec env (c0.emit (.api .setter)) (.setAuthBuffer t) = _ := e
      by_cases hok : 1 ≤ t.length ∧ t.length ≤ 1346
      · rw [if_pos hok] at e
        have hd : d0 = _ := hrun.trans (congrArg (fun r : Conn × RC => r.1.emit (.ret r.2)) e)
        have hl := log2 .success (by rw [hd]; rfl)
        refine ⟨?_, tail1, ?_, ?_, ?_, ?_, tail2, ?_, hst⟩ <;> subst hd
        · simp only [hl]; rfl
        · rfl
        · simp only [hok.1, hok.2, decide_true, Bool.and_self, Bool.not_true, Bool.false_and]
          show ((authCbTy == authTokenTy) && t.length != 0) = false
          rfl
        · simp only [hok.1, hok.2, decide_true, Bool.and_self, Bool.true_or]
          show decide (t.length ≠ 0) = true
          exact decide_eq_true (by omega)
        · rfl
        · rfl
      · rw [if_neg hok] at e
        have hd : d0 = _ := hrun.trans (congrArg (fun r : Conn × RC => r.1.emit (.ret r.2)) e)
        have hl := log2 rc (by rw [hd]; rfl)
        have hf : (decide (1 ≤ t.length) && decide (t.length ≤ 1346)) = false := by simp; omega
        refine ⟨?_, tail1, ?_, ?_, ?_, ?_, tail2, ?_, hst⟩ <;> subst hd
        · simp only [hl]; rfl
        · rfl
        · simp only [hf, Bool.not_false, Bool.true_and]; rfl
        · simp only [hf, Bool.false_or]; rfl
        · rfl
        · rfl
    case setOutsideMtu m =>
      have e : exec env (c0.emit (.api .setter)) (.setOutsideMtu m) =
          if 114 < m.toNat then ({ c0.emit (.api .setter) with outsideMtu := m.toNat }, .success)
          else (c0.emit (.api .setter), .invalidMtuSize) := by
        show setOutsideMtu _ _ = _
        unfold setOutsideMtu
        by_cases h : m.toNat ≤ packetOverhead
        · rw [if_pos h, if_neg (by simp [packetOverhead] at h; omega)]
        · rw [if_neg h, if_pos (by simp [packetOverhead] at h; omega)]
      by_cases hm : 114 < m.toNat
      · rw [if_pos hm] at e
        have hd : d0 = _ := hrun.trans (congrArg (fun r : Conn × RC => r.1.emit (.ret r.2)) e)
        have hl := log2 .success (by rw [hd]; rfl)
        refine ⟨?_, tail1, ?_, ?_, ?_, ?_, tail2, ?_, hst⟩ <;> subst hd
        · simp only [hl]; rfl
        · rfl
        · rfl
        · rfl
        · simp only [if_pos hm]; rfl
        · rfl
      · rw [if_neg hm] at e
        have hd : d0 = _ := hrun.trans (congrArg (fun r : Conn × RC => r.1.emit (.ret r.2)) e)
        have hl := log2 .invalidMtuSize (by rw [hd]; rfl)
        refine ⟨?_, tail1, ?_, ?_, ?_, ?_, tail2, ?_, hst⟩ <;> subst hd
        · simp only [hl]; rfl
        · rfl
        · rfl
        · rfl
        · simp only [if_neg hm]; rfl
        · rfl
    case setProtocolVersion a b =>
      have hl := log2 .success (by rw [hrun]; rfl)
      refine ⟨?_, tail1, ?_, ?_, ?_, ?_, tail2, ?_, hst⟩ <;> subst hrun
      · simp only [hl]; rfl
      all_goals rfl
    case setSessionId s =>
      have hl := log2 (step env c0 (.setSessionId s)).2 (by
        rw [hrun]
        simp only [step, exec, setSessionId]
        split <;> rfl)
      refine ⟨?_, tail1, ?_, ?_, ?_, ?_, tail2, ?_, hst⟩ <;> subst hrun
      · simp only [hl]
        simp only [d, c, step, exec, setSessionId]
        split <;> rfl
      all_goals
        simp only [d, c, step, exec, setSessionId]
        split <;> rfl
    case setSni s =>
      have hl := log2 .success (by rw [hrun]; rfl)
      refine ⟨?_, tail1, ?_, ?_, ?_, ?_, tail2, ?_, hst⟩ <;> subst hrun
      · simp only [hl]; rfl
      all_goals rfl
  · have hk := (hk0 ha).conf
    have hn := (hn0 ha).name
    have k1 : getUsername d = (match presented x with | some u => some (cstr u) | none => getUsername c) := by
      obtain ⟨y, hy, hn⟩ := hn
      have : y = x := List.append_cancel_right (hy.symm.trans hx)
      subst this
      show some (cstr d0.username) = _
      rw [hn]
      cases presented y <;> rfl
    have k3 : passwordSet d = passwordSet c := by
      show (!configIsEmptyString _) = (!configIsEmptyString _); rw [hk.pass]
    have k4 : authTokenSet d = authTokenSet c := by
      show (_ == _ && _ != _) = (_ == _ && _ != _); rw [hk.ty, hk.blen]
    have k5 : authBufferSet d = authBufferSet c := by
      show decide _ = decide _; rw [hk.blen]
    have k6 : getOutsideMtu d = getOutsideMtu c := hk.mtu
    have k8 := hk8 ha
    cases op <;> first | exact absurd rfl ha | exact ⟨k1, tail1, k3, k4, k5, k6, tail2, k8, hst⟩

/-- **C90.**  A NULL connection and a new one report nothing at all. -/
theorem C90_initial (env : Env) (c : Option Conn) (h : c = none ∨ c = some (run env [])) :
    getState c = .none ∧ (getUsername c = none ∨ getUsername c = some []) ∧ usernameSet c = false ∧ passwordSet c = false ∧
    authTokenSet c = false ∧ authBufferSet c = false ∧ getOutsideMtu c = 0 ∧ outsideMtuSet c = false ∧
    (getProtocolVersion c = none ∨ getProtocolVersion c = some (0, 0)) ∧ getSessionId c = 0 ∧ getPendingSessionId c = 0 := by
  rcases h with rfl | rfl
  · exact ⟨rfl, .inl rfl, rfl, rfl, rfl, rfl, rfl, rfl, .inl rfl, rfl, rfl⟩
  · exact ⟨rfl, .inr rfl, rfl, rfl, rfl, rfl, rfl, rfl, .inr rfl, rfl, rfl⟩

/-- How a call `op` on a connection, with result `rc` and during which `x` happened, changes the two session ids that
the getters report, from those of `c` to those of `d`. -/
def Spec.IdReports (c d : Option Conn) (server : Bool) (op : Op) (rc : RC) (x : Log) : Prop :=
  match op with
  -- refused once the id is known
  | .setSessionId s => getPendingSessionId d = getPendingSessionId c ∧
      (if getSessionId c = 0 then rc = .success ∧ getSessionId d = s.toNat
       else rc ≠ .success ∧ getSessionId d = getSessionId c)
  -- a rotation makes the number drawn the pending id; while one is pending, or on a client, it is refused
  | .rotateSession => getSessionId d = getSessionId c ∧
      (rc = .success ↔ ∃ v, .rng (some v) ∈ x) ∧
      ((server = false ∨ getPendingSessionId c ≠ 0) → rc = .invalidConnState) ∧
      (if rc = .success then .rng (some (getPendingSessionId d)) ∈ x else getPendingSessionId d = getPendingSessionId c)
  -- receiving may make the pending id the id of the session; a client may learn one
  | .outsideData _ _ =>
      (getSessionId d = getSessionId c ∧ getPendingSessionId d = getPendingSessionId c) ∨
      (server = true ∧ rc = .success ∧ (∃ b, .input (getPendingSessionId c) b ∈ x) ∧ getPendingSessionId c ≠ 0 ∧
        getSessionId d = getPendingSessionId c ∧ getPendingSessionId d = 0) ∨
      (server = false ∧ getPendingSessionId d = getPendingSessionId c ∧
        ((∃ b, .input (getSessionId d) b ∈ x) ∨ ∃ p, .message p ∈ x ∧ p.head? = some 6 ∧ getSessionId d = numLe (field p 97 8)))
  -- connecting is not covered here
  | .clientConnect .. | .serverConnect .. => True
  | _ => getSessionId d = getSessionId c ∧ getPendingSessionId d = getPendingSessionId c

/-- **C90.**  The session id and the pending session id the getters report, for every connection, history and call. -/
theorem C90_session_ids (env : Env) (ops : List Op) (op : Op) {x : Log}
    (hx : (run env (ops ++ [op])).log = x ++ (run env ops).log) :
    IdReports (some (run env ops)) (some (run env (ops ++ [op]))) (run env ops).isServer op (step env (run env ops) op).2 x := by
  have hg : Good env (run env ops) := run_good env ops
  rw [run_snoc] at hx ⊢
  generalize run env ops = c at *
  have ord : ∀ op, Ordinary op → op.api ≠ .outsideData → op ≠ .rotateSession →
      (step env c op).1.sessionId = c.sessionId ∧ (step env c op).1.pendingSessionId = c.pendingSessionId := fun op h1 h2 h3 =>
    have h := step_ids hg op h1 h2
    ⟨h.2.1, h.2.2.1 h3⟩
  cases op with
  | clientConnect => trivial
  | serverConnect => trivial
  | setSessionId s =>
    have e : step env c (.setSessionId s) = ((setSessionId (c.emit (.api .setter)) s).1.emit
      (.ret (setSessionId (c.emit (.api .setter)) s).2), (setSessionId (c.emit (.api .setter)) s).2) := rfl
    rw [e]
    unfold setSessionId
    by_cases h0 : c.sessionId = 0
    · rw [if_neg (by simpa [Conn.emit] using h0)]
      refine ⟨rfl, ?_⟩
      rw [if_pos (show getSessionId (some c) = 0 from h0)]
      exact ⟨rfl, rfl⟩
    · rw [if_pos (by simpa [Conn.emit] using h0)]
      refine ⟨rfl, ?_⟩
      rw [if_neg (show ¬getSessionId (some c) = 0 from h0)]
      exact ⟨by simp, rfl⟩
  | rotateSession =>
    have hs : (step env c .rotateSession).1.sessionId = c.sessionId :=
      (step_ids hg .rotateSession ⟨by simp [Op.api], by simp [Op.api], by simp⟩ (by simp [Op.api])).2.1
    refine ⟨hs, ?_⟩
    rcases step_rotate env c with ⟨h, e⟩ | ⟨h1, h2, ⟨_, e1, e2, e3⟩ | ⟨v, _, e1, e2, e3⟩⟩
    · rw [e] at hx ⊢
      have : x = [.ret .invalidConnState, .api .rotateSession] := List.append_cancel_right (hx.symm.trans rfl)
      subst this
      refine ⟨by simp, fun _ => rfl, ?_⟩
      rw [if_neg (by simp)]
      rfl
    · have : x = [.ret .rngFailure, .rng none, .api .rotateSession] := List.append_cancel_right (hx.symm.trans e3)
      subst this
      refine ⟨by simp [e1], fun h => ?_, ?_⟩
      · rcases h with h | h
        · rw [h1] at h; cases h
        · exact absurd h2 h
      · rw [if_neg (by simp [e1])]
        exact e2.trans h2.symm
    · have : x = [.ret .success, .rng (some (v % 2 ^ 64)), .api .rotateSession] := List.append_cancel_right (hx.symm.trans e3)
      subst this
      refine ⟨by simp only [e1, true_iff]; exact ⟨v % 2 ^ 64, by simp⟩, fun h => ?_, ?_⟩
      · rcases h with h | h
        · rw [h1] at h; cases h
        · exact absurd h2 h
      · rw [if_pos e1]
        show Effect.rng (some (step env c .rotateSession).1.pendingSessionId) ∈ _
        rw [e2]; simp
  | outsideData buf reads =>
    cases hr : c.isServer with
    | true =>
      obtain ⟨_, y, hy, h⟩ := C30_server_session_changes hg (.outsideData buf reads) ⟨by simp [Op.api], by simp [Op.api], by simp⟩ hr
      have : y = x := List.append_cancel_right (hy.symm.trans hx)
      subst this
      rcases h with ⟨h1, h2, _⟩ | ⟨_, _, b, _, h1, _, h2, h3, _, h4, h5, _⟩
      · exact .inl ⟨h1, h2 (by simp)⟩
      · exact .inr (.inl ⟨rfl, h1, ⟨b, h2⟩, h3, h4, h5⟩)
    | false =>
      have hp : (step env c (.outsideData buf reads)).1.pendingSessionId = c.pendingSessionId := by
        rw [step_recv]
        rcases outsideData_ids env (c.emit (.api .outsideData)) buf reads with h | ⟨s, body, d, l, _, h, _, _, e⟩
        · exact h.pend
        · rw [e]
          have hd : d.isServer = false := h.role.trans hr
          have : (updateSessionIncoming d s).1.pendingSessionId = d.pendingSessionId := by
            unfold updateSessionIncoming
            by_cases h0 : s = 0
            · rw [if_pos h0]
            · rw [if_neg h0, if_neg (by simp [hd])]
          exact this.trans h.pend
      rcases C31_client_session_changes hg (.outsideData buf reads) hr (by simp [Op.api]) with h | ⟨_, h, _⟩ | ⟨b, r, y, _, hy, h⟩
      · exact .inl ⟨h, hp⟩
      · cases h
      · have : y = x := List.append_cancel_right (hy.symm.trans hx)
        subst this
        rcases h with ⟨p, h1, h2, _, h3⟩ | ⟨_, _, _, b, h1⟩
        · exact .inr (.inr ⟨rfl, hp, .inr ⟨p, h1, h2, h3⟩⟩)
        · exact .inr (.inr ⟨rfl, hp, .inl ⟨b, h1⟩⟩)
  | _ => exact ord _ ⟨by simp [Op.api], by simp [Op.api], by simp⟩ (by simp [Op.api]) (by simp)

-- An online server with id 7 rotates to a pending one, and adopts it when a datagram carries it.
example : getSessionId (some (run Demo.env Demo.rotated)) ≠ getPendingSessionId (some (run Demo.env Demo.rotated)) ∧
    getPendingSessionId (some (run Demo.env Demo.serverOps)) = 0 ∧ getPendingSessionId (some (run Demo.env Demo.rotated)) ≠ 0 ∧
    getSessionId (some (run Demo.env Demo.rotated)) = getSessionId (some (run Demo.env Demo.serverOps)) ∧
    (let d := run Demo.env (Demo.rotated ++ [.outsideData (Demo.dgramWith (getPendingSessionId (some (run Demo.env Demo.rotated))) [1]) []])
     getSessionId (some d) = getPendingSessionId (some (run Demo.env Demo.rotated)) ∧ getPendingSessionId (some d) = 0) := by
  decide +kernel

-- A server reports the name its client logged in with; a client the name it set, and both report the version settled.
example : getUsername (some (run Demo.env Demo.serverOps)) = some [106, 111, 101] ∧
    getUsername (some (run Demo.env (Demo.serverOps.take 3))) = some [] ∧
    getUsername (some (run Demo.env Demo.clientOps)) = some [106, 111, 101] ∧
    getProtocolVersion (some (run Demo.env Demo.clientOps)) = some (Demo.ctx.maxMajor, Demo.ctx.maxMinor) ∧
    getOutsideMtu (some (run Demo.env Demo.clientOps)) = 1500 ∧
    passwordSet (some (run Demo.env Demo.clientOps)) = true ∧
    authTokenSet (some (run Demo.env (Demo.clientOps ++ [.setAuthToken [1, 2]]))) = true ∧
    authTokenSet (some (run Demo.env (Demo.clientOps ++ [.setAuthToken [1, 2], .setAuthBuffer [3]]))) = false := by
  decide +kernel

end Lightway
