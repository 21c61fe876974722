import Verif.Props.Control
import Verif.Props.ConfigP

/-!
# Authentication end to end: C42, C47, C62, C63, C67
-/

namespace Lightway
open Spec

namespace Spec

/-- Authentication callbacks invoked, newest first. -/
def authCalls : Log → List Effect
  | [] => []
  | .authUserPass u p ok :: l => .authUserPass u p ok :: authCalls l
  | .authToken t ok :: l => .authToken t ok :: authCalls l
  | .authBuf ty b ok :: l => .authBuf ty b ok :: authCalls l
  | _ :: l => authCalls l

/-- A callback invocation that presents exactly the configured credentials. -/
def Presents (f : Conf) : Effect → Prop
  | .authUserPass u p _ => f.method = .userPass ∧ cstr u = f.user ∧ cstr p = f.pass
  | .authToken t _ => f.method = .token ∧ t = f.secret
  | .authBuf ty b _ => f.method = .buffer ∧ ty = 23 ∧ b = f.secret
  | _ => False

/-- The callback for a method is registered. -/
def Handles (cbs : Callbacks) : Method → Prop
  | .userPass => cbs.auth = true
  | .token => cbs.authToken = true
  | .buffer => cbs.authBuf = true
  | .none => False

end Spec

/-! ## What the client sends -/

/-- The AUTH message for a configuration, field by field. -/
def Carries (f : Conf) (m : Bytes) : Prop :=
  m.head? = some 4 ∧ m[1]? = some f.method.code ∧ m.length ≤ 1500 ∧
  match f.method with
  | .userPass => m.length = 104 ∧ cstr (field m 4 50) = f.user ∧ cstr (field m 54 50) = f.pass ∧
      0 ∈ field m 4 50 ∧ 0 ∈ field m 54 50
  | _ => m.length = 4 + num (field m 2 2) ∧ field m 4 (num (field m 2 2)) = f.secret

/-- What the setters guarantee about a configuration. -/
structure ConfOk (f : Conf) : Prop where
  user : f.user.length ≤ 49
  pass : f.pass.length ≤ 49
  secret : f.secret.length < 1350
  some : f.method = .token ∨ f.method = .buffer → f.secret ≠ []

theorem ConfOk.set {f : Conf} (h : ConfOk f) (op : Op) : ConfOk (f.set op) := by
  obtain ⟨h1, h2, h3, h4⟩ := h
  cases op <;> unfold Conf.set
  case setUsername s =>
    exact ⟨by show (if _ then _ else _ : Bytes).length ≤ _; split <;> simp_all <;> omega, h2, h3, by simp⟩
  case setPassword s =>
    exact ⟨h1, by show (if _ then _ else _ : Bytes).length ≤ _; split <;> simp_all <;> omega, h3, by simp⟩
  case setAuthToken t =>
    simp only
    split
    · rename_i h; exact ⟨h1, h2, h.2, fun _ e => by simp only at e; rw [e] at h; simp at h⟩
    · exact ⟨h1, h2, h3, h4⟩
  case setAuthBuffer t =>
    simp only
    split
    · rename_i h; exact ⟨h1, h2, Nat.lt_of_le_of_lt h.2 (by omega), fun _ e => by simp only at e; rw [e] at h; simp at h⟩
    · exact ⟨h1, h2, h3, h4⟩
  case setOutsideMtu m =>
    simp only
    split <;> exact ⟨h1, h2, h3, h4⟩
  all_goals exact ⟨h1, h2, h3, h4⟩

theorem confOf_ok (ops : List Op) : ConfOk (confOf ops) := by
  suffices ∀ f, ConfOk f → ConfOk (ops.foldl Conf.set f) from this {} ⟨by simp, by simp, by simp, by simp⟩
  induction ops with
  | nil => intro f h; exact h
  | cons op rest ih => intro f h; exact ih _ (h.set op)

theorem padded_field (pre post s : Bytes) (n : Nat) (hl : (cstr s).length < 50) :
    let k := strnlen s 50
    pre.length = n →
    field (pre ++ (s.take k ++ zeros (50 - k)) ++ post) n 50 = cstr s ++ zeros (50 - (cstr s).length) := by
  intro k hn
  have hk : s.take k = cstr s ∧ k = (cstr s).length := by
    have e : k = (cstr s).length := by
      show (cstr (s.take 50)).length = _
      rw [cstr_take, List.length_take]; omega
    have h2 : s.take (cstr s).length = cstr s := by
      unfold cstr
      exact List.prefix_iff_eq_take.mp (List.takeWhile_prefix _) |>.symm
    exact ⟨by rw [e]; exact h2, e⟩
  rw [hk.1, hk.2]
  unfold field
  rw [List.append_assoc, List.drop_append_of_le_length (by omega), List.drop_of_length_le (by omega), List.nil_append]
  rw [List.take_append_of_le_length (by simp [zeros]; omega), List.take_of_length_le (by simp [zeros]; omega)]

/-- The AUTH message a client would send carries the configuration. -/
theorem carries {f : Conf} {c : Conn} (h : Agrees f c) (hf : ConfOk f)
    (h4 : (authMsg c).head? = some 4) (hm : f.method ≠ .none) : Carries f (authMsg c) := by
  have hu : (cstr c.username).length < 50 := by rw [h.user]; have := hf.user; omega
  have hp : (cstr c.password).length < 50 := by rw [h.pass]; have := hf.pass; omega
  refine ⟨h4, ?_, ?_, ?_⟩
  · unfold authMsg
    rw [← h.ty]
    split
    · rename_i e; rw [e]; rfl
    · rfl
  · unfold authMsg
    split
    · rw [(authUserPassMsg_shape c).1]; omega
    · rw [(authBufMsg_shape _ (by rw [h.secret]; have := hf.secret; omega)).1, h.secret]; have := hf.secret; omega
  · cases hmeth : f.method with
    | none => exact absurd hmeth hm
    | userPass =>
      have e : authMsg c = authUserPassMsg c := by
        unfold authMsg; rw [if_pos (by rw [h.ty, hmeth]; rfl)]
      have hz : ∀ k : Nat, k < 50 → (0 : UInt8) ∈ zeros (50 - k) := by
        intro k hk; simp [zeros]; omega
      have f1 : field (authUserPassMsg c) 4 50 = cstr c.username ++ zeros (50 - (cstr c.username).length) := by
        unfold authUserPassMsg
        exact padded_field _ _ _ 4 hu rfl
      have f2 : field (authUserPassMsg c) 54 50 = cstr c.password ++ zeros (50 - (cstr c.password).length) := by
        unfold authUserPassMsg
        have := padded_field ([msgAuth, authUserPassTy, UInt8.ofNat (strnlen c.username 50), UInt8.ofNat (strnlen c.password 50)] ++
          (c.username.take (strnlen c.username 50) ++ zeros (50 - strnlen c.username 50))) [] c.password 54 hp
        simp only [List.append_nil] at this
        refine this ?_
        have := strnlen_le c.username 50
        simp [zeros]; omega
      show _ ∧ _
      rw [e]
      refine ⟨(authUserPassMsg_shape c).1, ?_, ?_, ?_, ?_⟩
      · rw [f1, cstr_append_zeros, cstr_cstr, h.user]
      · rw [f2, cstr_append_zeros, cstr_cstr, h.pass]
      · rw [f1]; exact List.mem_append_right _ (hz _ hu)
      · rw [f2]; exact List.mem_append_right _ (hz _ hp)
    | token | buffer =>
      have e : authMsg c = authBufMsg c.authType f.secret := by
        unfold authMsg; rw [if_neg (by rw [h.ty, hmeth]; decide), h.secret]
      have hl : f.secret.length < 65536 := by have := hf.secret; omega
      obtain ⟨s1, s2, s3, s4⟩ := authBufMsg_shape c.authType hl
      show _ ∧ _
      rw [e, s4]
      refine ⟨s1, ?_⟩
      show ((([msgAuth, c.authType] ++ be16 f.secret.length ++ f.secret).drop 4).take f.secret.length) = _
      simp [be16]

/-- Every AUTH message a client hands to the TLS layer carries what the host had configured before the call. -/
theorem client_auth_msg (env : Env) (pre : List Op) (op : Op) (hpre : ∀ o ∈ pre, o.api ≠ .serverConnect)
    (hop : op.api ≠ .setter) {x : Log} (hx : (step env (run env pre) op).1.log = x ++ (run env pre).log)
    {m : Bytes} {ok : Bool} (hm : .sslCall (.write m) ok ∈ x) (h4 : m.head? = some 4) :
    m = authMsg (run env pre) ∧ Carries (confOf pre) m := by
  have hg := run_good env pre
  have ha := run_agrees env pre hpre
  obtain ⟨y, hy, hw⟩ := (step_kept hg op hop).log
  have hxy : x = y := by rw [hx] at hy; exact List.append_cancel_right hy
  have hmm : m = authMsg (run env pre) := by
    rcases hw m ok (hxy ▸ hm) h4 with h | ⟨-, h⟩
    · exact h
    · rw [ha.role] at h; cases h
  refine ⟨hmm, ?_⟩
  have hne : (confOf pre).method ≠ .none := by
    intro hn
    obtain ⟨n, o, hno⟩ := List.append_of_mem hm
    have hs := (run_sinv env (pre ++ [op])).sent.at (newer := n) (e := .sslCall (.write m) ok) (older := o ++ (run env pre).log) (by
      rw [run_snoc, hx, hno]; simp)
    have := hs.2
    rw [h4] at this
    obtain ⟨-, -, h⟩ := this
    have hty : m[1]? = some 0 := by
      rw [hmm]; unfold authMsg
      rw [if_neg (by rw [ha.ty, hn]; decide), ha.ty, hn]; rfl
    rw [hty] at h
    revert h; simp
  rw [hmm]
  exact carries ha (confOf_ok pre) (by rw [← hmm]; exact h4) hne

/-! ## What the server does with it -/

theorem authCalls_skip {x : Log} (hx : ∀ e ∈ x, ¬AuthEff e) (l : Log) : authCalls (x ++ l) = authCalls l := by
  induction x with
  | nil => rfl
  | cons e x ih =>
    have h1 := hx e (by simp)
    have := ih (fun e he => hx e (by simp [he]))
    cases e <;> first | exact this | exact absurd trivial h1

theorem RFrame.authCalls {c d : Conn} (h : RFrame c d) : Spec.authCalls d.log = Spec.authCalls c.log := by
  obtain ⟨l, _, _, _, _, _, rfl, e⟩ := h
  exact authCalls_skip (fun x hx => by have := e x hx; revert this; cases x <;> simp [TailEff, AuthEff]) _

theorem TFrame.authCalls {c d : Conn} (h : TFrame c d) : Spec.authCalls d.log = Spec.authCalls c.log := by
  obtain ⟨l, _, _, _, _, _, _, _, _, _, _, _, rfl, e⟩ := h
  exact authCalls_skip (fun x hx => by have := e x hx; revert this; cases x <;> simp [TailEff, AuthEff]) _

theorem TFrame.keeps {c d : Conn} (h : TFrame c d) : d.state = c.state ∧ d.username = c.username ∧
    d.isServer = c.isServer ∧ d.cbs = c.cbs := by
  obtain ⟨l, _, _, _, _, _, _, _, _, _, _, _, rfl, -⟩ := h
  exact ⟨rfl, rfl, rfl, rfl⟩

theorem authCalls_sendMessage (env : Env) (c : Conn) (m : Bytes) :
    authCalls (sendMessage env c m).1.log = authCalls c.log := by
  obtain ⟨l, ok, e, hl⟩ := sendMessage_log env c m
  rw [e, authCalls_skip (fun x hx => by have := hl x hx; revert this; cases x <;> simp [CbIo, AuthEff])]
  rfl

theorem authCalls_setState (c : Conn) (s : ConnState) : authCalls (setState c s).log = authCalls c.log := by
  unfold setState; split <;> rfl

/-- After the authentication switch. -/
def authFinish (env : Env) : AuthOut → Conn × RC × Bytes
  | .ret c rc pkt => (c, rc, pkt)
  | .verdict c ok rc pkt =>
    if !ok then
      let c := sendAuthDenied env c
      (setState c .disconnecting, rc, pkt)
    else
      let r := env.populate c.log
      let session := c.sessionId
      let c := c.emit (.populate r.1)
      if r.1 ≠ .success then (sendAuthDenied env c, r.1, pkt)
      else
        let c := (sendMessage env c (configIpv4Msg session r.2)).1
        (setState c .online, .success, pkt)

/-- A server with the callbacks it needs. -/
def CanAuth (c : Conn) : Prop :=
  c.isServer = true ∧ c.cbs.populate = true ∧ (c.cbs.auth = true ∨ c.cbs.authToken = true ∨ c.cbs.authBuf = true)

theorem handleAuthBuf_eq (env : Env) (c : Conn) (pkt : Bytes) (hc : CanAuth c) {ty : UInt8} (ht : pkt[1]? = some ty) :
    handleAuthBuf env c pkt = authFinish env (authSwitch env c pkt ty) := by
  obtain ⟨h1, h2, h3⟩ := hc
  have hl : 2 ≤ pkt.length := by
    obtain ⟨h, -⟩ := List.getElem?_eq_some_iff.mp ht; omega
  have hrd : rd pkt 1 1 = some [ty] := by
    rw [rd_field (by omega)]
    obtain ⟨h, e⟩ := List.getElem?_eq_some_iff.mp ht
    unfold field
    rw [List.drop_eq_getElem_cons (by omega)]
    simp [e]
  unfold handleAuthBuf
  rw [if_neg (by simp [h1]), if_neg (by simp [h2]), if_neg (by rcases h3 with h | h | h <;> simp [h]), if_neg (by omega), hrd]
  rfl

theorem authFinish_calls (env : Env) (o : AuthOut) :
    authCalls (authFinish env o).1.log = (match o with | .ret c _ _ => authCalls c.log | .verdict c _ _ _ => authCalls c.log) := by
  cases o with
  | ret c rc pkt => rfl
  | verdict c ok rc pkt =>
    unfold authFinish
    cases ok with
    | false =>
      show authCalls (setState (sendAuthDenied env c) .disconnecting).log = _
      rw [authCalls_setState]
      exact authCalls_sendMessage env c _
    | true =>
      show authCalls (if (env.populate c.log).1 ≠ .success then (_, _, _) else (_, _, _) : Conn × RC × Bytes).1.log = _
      split
      · show authCalls (sendAuthDenied env _).log = _
        exact authCalls_sendMessage env _ _
      · show authCalls (setState _ .online).log = _
        rw [authCalls_setState]
        exact authCalls_sendMessage env _ _

/-- The switch on a message that carries a configuration for which a callback is registered. -/
theorem authSwitch_carries (env : Env) (c : Conn) {f : Conf} (hf : ConfOk f) {m : Bytes} (hm : Carries f m)
    (hh : Handles c.cbs f.method) :
    ∃ e d ok rc pkt, authSwitch env c m f.method.code = .verdict d ok rc pkt ∧ authCalls d.log = e :: authCalls c.log ∧
      Presents f e ∧ ∀ u p ok, e = .authUserPass u p ok → 0 ∈ u ∧ 0 ∈ p := by
  obtain ⟨h1, h2, h3, h4⟩ := hm
  unfold authSwitch
  cases hmeth : f.method with
  | none => rw [hmeth] at hh; exact hh.elim
  | userPass =>
    rw [hmeth] at h4 hh
    have hh : c.cbs.auth = true := hh
    obtain ⟨l1, l2, l3, l4, l5⟩ := h4
    rw [if_pos (by rfl), if_pos hh, if_neg (by omega), rd_field (by omega), rd_field (by omega), wr_isSome (by rw [zeros_length]; omega)]
    exact ⟨.authUserPass (field m 4 50) (field m 54 50) (env.authUserPass c.log (field m 4 50) (field m 54 50)),
      _, _, _, _, rfl, rfl, ⟨hmeth, l2, l3⟩, fun u p ok he => by injection he with e1 e2; subst e1; subst e2; exact ⟨l4, l5⟩⟩
  | token =>
    rw [hmeth] at h4 hh
    have hh : c.cbs.authToken = true := hh
    have h4 : m.length = 4 + num (field m 2 2) ∧ field m 4 (num (field m 2 2)) = f.secret := h4
    have hn := num_rdBe16 (bs := field m 2 2) (field_length (by omega))
    have hs : num (field m 2 2) = f.secret.length := by rw [← h4.2, field_length (by omega)]
    have hne : f.secret.length ≠ 0 := by
      have := hf.some (.inl hmeth); intro h; exact this (List.length_eq_zero_iff.mp h)
    rw [if_neg (by decide), if_pos (by rfl), if_pos hh, if_neg (by omega), rd_field (by omega)]
    simp only
    rw [if_neg (by rw [← hn]; omega), rd_field (by rw [← hn]; omega), ← hn, h4.2]
    exact ⟨.authToken f.secret (env.authToken c.log f.secret), _, _, _, _, rfl, rfl, ⟨hmeth, rfl⟩, fun _ _ _ he => by cases he⟩
  | buffer =>
    rw [hmeth] at h4 hh
    have hh : c.cbs.authBuf = true := hh
    have h4 : m.length = 4 + num (field m 2 2) ∧ field m 4 (num (field m 2 2)) = f.secret := h4
    have hn := num_rdBe16 (bs := field m 2 2) (field_length (by omega))
    have hs : num (field m 2 2) = f.secret.length := by rw [← h4.2, field_length (by omega)]
    have hne : f.secret.length ≠ 0 := by
      have := hf.some (.inr hmeth); intro h; exact this (List.length_eq_zero_iff.mp h)
    rw [if_neg (by decide), if_neg (by decide), if_pos (by rfl), if_pos hh, if_neg (by omega), rd_field (by omega)]
    simp only
    rw [if_neg (by rw [← hn]; omega), rd_field (by rw [← hn]; omega), ← hn, h4.2]
    exact ⟨.authBuf 23 f.secret (env.authBuf c.log 23 f.secret), _, _, _, _, rfl, rfl, ⟨hmeth, rfl, rfl⟩, fun _ _ _ he => by cases he⟩

/-- The switch when the callback for the method is missing: no other callback is invoked. -/
theorem authSwitch_unhandled (env : Env) (c : Conn) (m : Bytes) (f : Method) (hh : ¬Handles c.cbs f) :
    ∃ rc, authSwitch env c m f.code = .verdict c false rc m := by
  unfold authSwitch
  cases f with
  | none => exact ⟨_, by rw [if_neg (by decide), if_neg (by decide), if_neg (by decide)]⟩
  | userPass => exact ⟨_, by rw [if_pos (by rfl), if_neg (show ¬c.cbs.auth = true from hh)]⟩
  | token => exact ⟨_, by rw [if_neg (by decide), if_pos (by rfl), if_neg (show ¬c.cbs.authToken = true from hh)]⟩
  | buffer => exact ⟨_, by rw [if_neg (by decide), if_neg (by decide), if_pos (by rfl), if_neg (show ¬c.cbs.authBuf = true from hh)]⟩

theorem processMessage_auth (env : Env) (c : Conn) (pkt : Bytes) (h : pkt.head? = some 4) (hs : c.isServer = true) :
    processMessage env c pkt = handleAuth env c pkt := by
  obtain ⟨t, rfl⟩ := cons_of_head h
  show (if c.isServer then _ else _) = _
  rw [if_pos hs]

theorem auth_arrives (env env' : Env) (pre ops' : List Op) (op : Op)
    (hpre : ∀ o ∈ pre, o.api ≠ .serverConnect) (hop : op.api ≠ .setter) {x : Log}
    (hx : (step env (run env pre) op).1.log = x ++ (run env pre).log)
    {m : Bytes} {ok : Bool} (hm : .sslCall (.write m) ok ∈ x) (h4 : m.head? = some 4)
    (buf : Bytes) (r : ReadRes) (hr : r.plain = m) :
    let d := run env' ops'
    Reading d → CanAuth d → Accepts (d.emit (.api .outsideData)) buf →
    (Handles d.cbs (confOf pre).method →
      ∃ e, authCalls (step env' d (.outsideData buf [r])).1.log = e :: authCalls d.log ∧ Presents (confOf pre) e ∧
        ∀ u p ok, e = .authUserPass u p ok → 0 ∈ u ∧ 0 ∈ p) ∧
    (¬Handles d.cbs (confOf pre).method →
      authCalls (step env' d (.outsideData buf [r])).1.log = authCalls d.log) := by
  intro d hrd hca hacc
  obtain ⟨-, hc⟩ := client_auth_msg env pre op hpre hop hx hm h4
  obtain ⟨e, he, hp, -⟩ := recv_one env' d buf r hrd hacc (by rw [hr]; intro h; rw [h] at h4; cases h4)
    (by rw [hr]; exact hc.2.2.1)
  have hf := he.fields
  rw [hr] at hp
  have hca' : CanAuth (e.emit (.message m)) := by
    show e.isServer = true ∧ e.cbs.populate = true ∧ (e.cbs.auth = true ∨ e.cbs.authToken = true ∨ e.cbs.authBuf = true)
    rw [hf.2.1, hf.2.2.1]; exact hca
  have hcb : (e.emit (.message m)).cbs = d.cbs := hf.2.2.1
  rw [hp.authCalls, processMessage_auth _ _ _ h4 hca'.1]
  show (_ → ∃ y, authCalls (handleAuthBuf env' _ m).1.log = _ ∧ _) ∧ (_ → authCalls (handleAuthBuf env' _ m).1.log = _)
  rw [handleAuthBuf_eq env' _ m hca' hc.2.1, authFinish_calls]
  have hac : authCalls (e.emit (.message m)).log = authCalls d.log := by
    show authCalls e.log = _; exact he.authCalls
  constructor
  · intro hh
    obtain ⟨y, q, ok, rc, pkt, h1, h2, h3⟩ := authSwitch_carries env' (e.emit (.message m)) (confOf_ok pre) hc (by rw [hcb]; exact hh)
    rw [h1]
    exact ⟨y, by rw [← hac]; exact h2, h3⟩
  · intro hh
    obtain ⟨rc, h1⟩ := authSwitch_unhandled env' (e.emit (.message m)) m (confOf pre).method (by rw [hcb]; exact hh)
    rw [h1]
    exact hac

/-- **C42** Whatever call makes a client hand an AUTH message to the TLS layer: when a server that can authenticate
receives that message, it invokes exactly one authentication callback — the one for the method the client's host chose
— with exactly the credentials that host configured; and if that callback is not registered, none. -/
theorem C42_credentials_arrive (env env' : Env) (pre ops' : List Op) (op : Op)
    (hpre : ∀ o ∈ pre, o.api ≠ .serverConnect) (hop : op.api ≠ .setter) {x : Log}
    (hx : (step env (run env pre) op).1.log = x ++ (run env pre).log)
    {m : Bytes} {ok : Bool} (hm : .sslCall (.write m) ok ∈ x) (h4 : m.head? = some 4)
    (buf : Bytes) (r : ReadRes) (hr : r.plain = m) :
    let d := run env' ops'
    Reading d → CanAuth d → Accepts (d.emit (.api .outsideData)) buf →
    (Handles d.cbs (confOf pre).method →
      ∃ e, authCalls (step env' d (.outsideData buf [r])).1.log = e :: authCalls d.log ∧ Presents (confOf pre) e) ∧
    (¬Handles d.cbs (confOf pre).method →
      authCalls (step env' d (.outsideData buf [r])).1.log = authCalls d.log) := by
  intro d hrd hca hacc
  obtain ⟨h1, h2⟩ := auth_arrives env env' pre ops' op hpre hop hx hm h4 buf r hr hrd hca hacc
  exact ⟨fun h => let ⟨e, g1, g2, _⟩ := h1 h; ⟨e, g1, g2⟩, h2⟩

/-- **C62** (partial: a peer that is not this library's client may send unterminated fields, see
`C62_unterminated_possible`.)  The user name and password a server's callback receives from a client of this library
both contain their terminating NUL within the 50 bytes of the received message. -/
theorem C62_terminated_partial (env env' : Env) (pre ops' : List Op) (op : Op)
    (hpre : ∀ o ∈ pre, o.api ≠ .serverConnect) (hop : op.api ≠ .setter) {x : Log}
    (hx : (step env (run env pre) op).1.log = x ++ (run env pre).log)
    {m : Bytes} {ok : Bool} (hm : .sslCall (.write m) ok ∈ x) (h4 : m.head? = some 4)
    (buf : Bytes) (r : ReadRes) (hr : r.plain = m) :
    let d := run env' ops'
    Reading d → CanAuth d → Accepts (d.emit (.api .outsideData)) buf →
    ∀ e new, authCalls (step env' d (.outsideData buf [r])).1.log = new ++ authCalls d.log → e ∈ new →
      ∀ u p ok, e = .authUserPass u p ok → 0 ∈ u ∧ 0 ∈ p := by
  intro d hrd hca hacc e new hnew he
  obtain ⟨h1, h2⟩ := auth_arrives env env' pre ops' op hpre hop hx hm h4 buf r hr hrd hca hacc
  by_cases hh : Handles d.cbs (confOf pre).method
  · obtain ⟨e', g1, -, g3⟩ := h1 hh
    rw [g1] at hnew
    have : new = [e'] := List.append_cancel_right hnew.symm
    rw [this] at he
    simp at he
    rw [he]; exact g3
  · have := h2 hh
    rw [this] at hnew
    have : new = [] := by
      have := congrArg List.length hnew
      rw [List.length_append] at this
      exact List.length_eq_zero_iff.mp (Nat.add_right_cancel (m := (authCalls d.log).length) (by rw [Nat.zero_add]; exact this.symm))
    rw [this] at he
    cases he

/-- **C47** While the host changes nothing, every AUTH message a client sends is the same byte string: the one it
sends during any of the calls `mid` equals the one it sends during a later call. -/
theorem C47_same_credentials (env : Env) (pre mid : List Op) (op1 op2 : Op)
    (hpre : ∀ o ∈ pre ++ op1 :: mid, o.api ≠ .serverConnect)
    (hop : ∀ o ∈ op1 :: (mid ++ [op2]), o.api ≠ .setter) {x1 x2 : Log} {m1 m2 : Bytes} {ok1 ok2 : Bool}
    (hx1 : (step env (run env pre) op1).1.log = x1 ++ (run env pre).log)
    (hx2 : (step env (run env (pre ++ op1 :: mid)) op2).1.log = x2 ++ (run env (pre ++ op1 :: mid)).log)
    (hm1 : .sslCall (.write m1) ok1 ∈ x1) (h1 : m1.head? = some 4)
    (hm2 : .sslCall (.write m2) ok2 ∈ x2) (h2 : m2.head? = some 4) : m1 = m2 := by
  have hp : ∀ o ∈ pre, o.api ≠ .serverConnect := fun o ho => hpre o (by simp [ho])
  obtain ⟨e1, -⟩ := client_auth_msg env pre op1 hp (hop op1 (by simp)) hx1 hm1 h1
  obtain ⟨e2, -⟩ := client_auth_msg env (pre ++ op1 :: mid) op2 hpre (hop op2 (by simp)) hx2 hm2 h2
  rw [e1, e2]
  have key : SameConf (run env pre) (run env (pre ++ op1 :: mid)) ∧
      (run env (pre ++ op1 :: mid)).username = (run env pre).username ∧ (run env (pre ++ op1 :: mid)).isServer = false := by
    rw [run_append]
    refine runFrom_induct (P := fun d => SameConf (run env pre) d ∧ d.username = (run env pre).username ∧ d.isServer = false)
      (Q := fun o => o.api ≠ .setter ∧ o.api ≠ .serverConnect) (run_good env pre) ⟨.refl _, rfl, (run_agrees env pre hp).role⟩ ?_ _ ?_
    · intro c o hq hg h
      have hk := step_kept hg o hq.1
      refine ⟨h.1.trans hk.conf, ?_, hk.client hq.2 h.2.2⟩
      rcases hk.user with hu | ⟨-, hu⟩
      · rw [hu, h.2.1]
      · rw [h.2.2] at hu; cases hu
    · intro o ho
      exact ⟨hop o (by simp at ho ⊢; rcases ho with ho | ho <;> simp [ho]), hpre o (by simp at ho ⊢; rcases ho with ho | ho <;> simp [ho])⟩
  exact (authMsg_congr key.1 key.2.1).symm

/-! ## The server's side of user name and password -/

/-- A user/password message at a server with the callback. -/
theorem authSwitch_userPass (env : Env) (c : Conn) (m : Bytes) (hl : 104 ≤ m.length) (hc : c.cbs.auth = true) :
    authSwitch env c m 1 = .verdict
      { c.emit (.authUserPass (field m 4 50) (field m 54 50) (env.authUserPass c.log (field m 4 50) (field m 54 50))) with
        username := setNul (strncpy c.username (field m 4 50) 50) 50 }
      (env.authUserPass c.log (field m 4 50) (field m 54 50)) .accessDenied (m.take 54 ++ zeros 50 ++ m.drop 104) := by
  unfold authSwitch
  rw [if_pos (by rfl), if_pos hc, if_neg (by omega), rd_field (by omega), rd_field (by omega),
    wr_isSome (by rw [zeros_length]; omega)]
  rfl

theorem authFinish_user (env : Env) (o : AuthOut) :
    (authFinish env o).1.username = (match o with | .ret c _ _ => c.username | .verdict c _ _ _ => c.username) ∧
    (authFinish env o).2.2 = (match o with | .ret _ _ p => p | .verdict _ _ _ p => p) := by
  have hsend : ∀ c m, (sendMessage env c m).1.username = c.username := by
    intro c m
    obtain ⟨l, ps, sl, we, wt, e, -⟩ := sendMessage_n env c m
    rw [e]
  have hst : ∀ (c : Conn) s, (setState c s).username = c.username := by
    intro c s; unfold setState; split <;> rfl
  cases o with
  | ret c rc pkt => exact ⟨rfl, rfl⟩
  | verdict c ok rc pkt =>
    unfold authFinish
    cases ok with
    | false => exact ⟨(hst _ _).trans (hsend _ _), rfl⟩
    | true =>
      show (if (env.populate c.log).1 ≠ .success then (_, _, _) else (_, _, _) : Conn × RC × Bytes).1.username = _ ∧
        (if (env.populate c.log).1 ≠ .success then (_, _, _) else (_, _, _) : Conn × RC × Bytes).2.2 = _
      split
      · exact ⟨hsend _ _, rfl⟩
      · exact ⟨(hst _ _).trans (hsend _ _), rfl⟩

/-- **C63** (message buffer) When the handler of a user/password message that reached the host's callback returns, the
50 password bytes of the message buffer are zero and the other bytes are as received. -/
theorem C63_password_wiped (env : Env) (c : Conn) (m : Bytes) (hc : CanAuth c) (ha : c.cbs.auth = true)
    (h1 : m[1]? = some 1) (hl : 104 ≤ m.length) :
    let b := (handleAuthBuf env c m).2.2
    b.length = m.length ∧ field b 54 50 = List.replicate 50 0 ∧ b.take 54 = m.take 54 ∧ b.drop 104 = m.drop 104 := by
  intro b
  have hb : b = m.take 54 ++ zeros 50 ++ m.drop 104 := by
    show (handleAuthBuf env c m).2.2 = _
    rw [handleAuthBuf_eq env c m hc h1, (authFinish_user env _).2, authSwitch_userPass env c m hl ha]
  have h54 : (m.take 54).length = 54 := by rw [List.length_take]; omega
  rw [hb]
  refine ⟨by simp [zeros]; omega, ?_, ?_, ?_⟩
  · unfold field
    rw [List.append_assoc, List.drop_append_of_le_length (by omega), List.drop_of_length_le (by omega), List.nil_append,
      List.take_append_of_le_length (by simp [zeros]), List.take_of_length_le (by simp [zeros])]
    rfl
  · rw [List.append_assoc, List.take_append_of_le_length (by omega), List.take_of_length_le (by omega)]
  · rw [List.drop_append_of_le_length (by simp [zeros]; omega), List.drop_of_length_le (by simp [zeros]; omega)]
    rfl

/-- **C63** (connection) After a server received a user/password message, the connection holds the user name that was
sent, NUL-terminated, and no trace of the password: the stored password is what it was. -/
theorem C63_username_stored (env : Env) (ops : List Op) (buf : Bytes) (r : ReadRes) :
    let d := run env ops
    let m := r.plain
    let d' := (step env d (.outsideData buf [r])).1
    Reading d → CanAuth d → d.cbs.auth = true → Accepts (d.emit (.api .outsideData)) buf →
    m.head? = some 4 → m[1]? = some 1 → 104 ≤ m.length → m.length ≤ 1500 →
    cstr d'.username = cstr (field m 4 50) ∧ d'.username.length = 51 ∧ d'.username[50]? = some 0 ∧
    d'.password = d.password := by
  intro d m d' hrd hca ha hacc h4 h1 hl hl2
  have hg : Good env d := run_good env ops
  obtain ⟨e, he, hp, -⟩ := recv_one env d buf r hrd hacc (by intro h; have h4 : r.plain.head? = some 4 := h4; rw [h] at h4; cases h4) hl2
  have hf := he.fields
  have hca' : CanAuth (e.emit (.message m)) := by
    show e.isServer = true ∧ e.cbs.populate = true ∧ (e.cbs.auth = true ∨ e.cbs.authToken = true ∨ e.cbs.authBuf = true)
    rw [hf.2.1, hf.2.2.1]; exact hca
  have hcb : (e.emit (.message m)).cbs = d.cbs := hf.2.2.1
  have hun : (e.emit (.message m)).username = d.username := hf.2.2.2.2.2.2.2.2.2.2.2.2.2.1
  have hu : d'.username = setNul (strncpy d.username (field m 4 50) 50) 50 := by
    have e1 : d'.username = (processMessage env (e.emit (.message m)) m).1.username := hp.keeps.2.1
    rw [e1, processMessage_auth _ _ _ h4 hca'.1]
    show (handleAuthBuf env _ m).1.username = _
    rw [handleAuthBuf_eq env _ m hca' h1, (authFinish_user env _).1, authSwitch_userPass env _ m hl (by rw [hcb]; exact ha)]
    show setNul (strncpy (e.emit (.message m)).username _ 50) 50 = _
    rw [hun]
  have hlen : d.username.length = 51 := hg.sizes.user
  have hsl : (strncpy d.username (field m 4 50) 50).length = 51 := by rw [strncpy_length _ _ _ (by omega), hlen]
  refine ⟨?_, ?_, ?_, (step_kept hg _ (by simp [Op.api])).conf.pass⟩
  · rw [hu, cstr_strncpy_set _ _ _ _ (by omega) (by omega), List.take_of_length_le]
    have h1 : (cstr (field m 4 50)).length ≤ (field m 4 50).length := by
      unfold cstr; exact List.Sublist.length_le (List.takeWhile_sublist _)
    rw [field_length (by omega)] at h1
    exact h1
  · rw [hu]; simp [setNul, hsl]
  · rw [hu]; simp [setNul, hsl]

/-! ## Denial -/

/-- The switch invokes at most one callback, and its verdict is the callback's. -/
theorem authSwitch_cases (env : Env) (c : Conn) (m : Bytes) (ty : UInt8) :
    (∃ d rc p, authSwitch env c m ty = .ret d rc p ∧ authCalls d.log = authCalls c.log) ∨
    (∃ rc p, authSwitch env c m ty = .verdict c false rc p) ∨
    ∃ e d ok p, authSwitch env c m ty = .verdict d ok .accessDenied p ∧ authCalls d.log = e :: authCalls c.log ∧
      (AuthNo e ↔ ok = false) ∧ d.state = c.state ∧ writes d.log = writes c.log ∧ d.wolfSet = c.wolfSet := by
  unfold authSwitch
  split
  · split
    · split
      · exact .inl ⟨_, _, _, rfl, rfl⟩
      · split
        · exact .inr (.inr ⟨.authUserPass _ _ _, _, _, _, rfl, rfl, Iff.rfl, rfl, rfl, rfl⟩)
        · exact .inl ⟨_, _, _, rfl, rfl⟩
    · exact .inr (.inl ⟨_, _, rfl⟩)
  · split
    · split
      · split
        · exact .inl ⟨_, _, _, rfl, rfl⟩
        · split
          · exact .inl ⟨_, _, _, rfl, rfl⟩
          · split
            · exact .inl ⟨_, _, _, rfl, rfl⟩
            · split
              · exact .inl ⟨_, _, _, rfl, rfl⟩
              · exact .inr (.inr ⟨.authToken _ _, _, _, _, rfl, rfl, Iff.rfl, rfl, rfl, rfl⟩)
      · exact .inr (.inl ⟨_, _, rfl⟩)
    · split
      · split
        · split
          · exact .inl ⟨_, _, _, rfl, rfl⟩
          · split
            · exact .inl ⟨_, _, _, rfl, rfl⟩
            · split
              · exact .inl ⟨_, _, _, rfl, rfl⟩
              · split
                · exact .inl ⟨_, _, _, rfl, rfl⟩
                · exact .inr (.inr ⟨.authBuf _ _ _, _, _, _, rfl, rfl, Iff.rfl, rfl, rfl, rfl⟩)
        · exact .inr (.inl ⟨_, _, rfl⟩)
      · exact .inr (.inl ⟨_, _, rfl⟩)

/-- **C67** (server) If the host's callback refuses the credentials in a received AUTH message, the server hands exactly
one message to the TLS layer, an AUTH_RESPONSE of 53 bytes — with status byte 0, the code of *success* —, turns
DISCONNECTING and the call returns HE_ERR_ACCESS_DENIED. -/
theorem C67_denied_server (env : Env) (ops : List Op) (buf : Bytes) (r : ReadRes) :
    let d := run env ops
    let m := r.plain
    let s := step env d (.outsideData buf [r])
    Reading d → CanAuth d → Accepts (d.emit (.api .outsideData)) buf →
    m.head? = some 4 → m.length ≤ 1500 →
    (∃ e, AuthNo e ∧ authCalls s.1.log = e :: authCalls d.log) →
    writes s.1.log = (7 :: 0 :: List.replicate 51 0) :: writes d.log ∧ s.1.state = .disconnecting ∧ s.2 = .accessDenied := by
  intro d m s hrd hca hacc h4 hl2 hno
  obtain ⟨a, hano, hcalls⟩ := hno
  obtain ⟨e, he, hp, hrc⟩ := recv_one env d buf r hrd hacc (by intro h; have h4 : r.plain.head? = some 4 := h4; rw [h] at h4; cases h4) hl2
  have hf := he.fields
  have hca' : CanAuth (e.emit (.message m)) := by
    show e.isServer = true ∧ e.cbs.populate = true ∧ (e.cbs.auth = true ∨ e.cbs.authToken = true ∨ e.cbs.authBuf = true)
    rw [hf.2.1, hf.2.2.1]; exact hca
  have hac : authCalls (e.emit (.message m)).log = authCalls d.log := by
    show authCalls e.log = _; exact he.authCalls
  have hwr : writes (e.emit (.message m)).log = writes d.log := by
    show writes e.log = _; exact he.writes
  have hes : (e.emit (.message m)).state = d.state := hf.1
  have hproc : processMessage env (e.emit (.message m)) m = handleAuth env (e.emit (.message m)) m :=
    processMessage_auth _ _ _ h4 hca'.1
  have hp : TFrame (processMessage env (e.emit (.message m)) m).1 s.1 := hp
  have hrc : (processMessage env (e.emit (.message m)) m).2 ≠ .success → s.2 = (processMessage env (e.emit (.message m)) m).2 := hrc
  rw [hproc] at hp hrc
  rw [hp.authCalls] at hcalls
  have hstate : s.1.state = (handleAuth env (e.emit (.message m)) m).1.state := hp.keeps.1
  rw [hp.writes, hstate]
  clear hp hproc hstate
  generalize e.emit (.message m) = q at *
  have hcalls : authCalls (handleAuthBuf env q m).1.log = a :: authCalls d.log := hcalls
  have hrc : (handleAuthBuf env q m).2.1 ≠ .success → s.2 = (handleAuthBuf env q m).2.1 := hrc
  show writes (handleAuthBuf env q m).1.log = _ ∧ (handleAuthBuf env q m).1.state = _ ∧ _
  by_cases hlen : m.length < 2
  · exfalso
    have : (handleAuthBuf env q m).1 = q := by
      obtain ⟨h1, h2, h3⟩ := hca'
      unfold handleAuthBuf
      rw [if_neg (by simp [h1]), if_neg (by simp [h2]), if_neg (by rcases h3 with h | h | h <;> simp [h]), if_pos hlen]
    rw [this, hac] at hcalls
    have := congrArg List.length hcalls
    simp at this
  · obtain ⟨ty, hty⟩ : ∃ ty, m[1]? = some ty := ⟨m[1], List.getElem?_eq_getElem (by omega)⟩
    rw [handleAuthBuf_eq env q m hca' hty] at hcalls hrc ⊢
    rw [authFinish_calls] at hcalls
    rcases authSwitch_cases env q m ty with ⟨c, rc, p, h1, h2⟩ | ⟨rc, p, h1⟩ | ⟨x, c, ok, p, h1, h2, h3, h5, h6, h7⟩
    · exfalso
      rw [h1] at hcalls
      have hcalls : authCalls c.log = _ := hcalls
      rw [h2, hac] at hcalls
      have := congrArg List.length hcalls
      simp at this
    · exfalso
      rw [h1] at hcalls
      have hcalls : authCalls q.log = _ := hcalls
      rw [hac] at hcalls
      have := congrArg List.length hcalls
      simp at this
    · rw [h1] at hcalls hrc ⊢
      have hcalls : authCalls c.log = _ := hcalls
      rw [h2, hac] at hcalls
      have hx : x = a := (List.cons.inj hcalls).1
      have hok : ok = false := h3.mp (hx ▸ hano)
      subst hok
      have hrc : (RC.accessDenied ≠ .success → s.2 = .accessDenied) := hrc
      refine ⟨?_, ?_, hrc (by decide)⟩
      · show writes (setState (sendMessage env c authDeniedMsg).1 .disconnecting).log = _
        have : ∀ c : Conn, writes (setState c .disconnecting).log = writes c.log := by
          intro c; unfold setState; split <;> rfl
        rw [this, writes_sendMessage, h6, hwr]
        rfl
      · show (setState _ .disconnecting).state = _
        unfold setState; split
        · assumption
        · rfl

/-- **C67** (client) A client that receives an AUTH_RESPONSE, whatever its contents, reports HE_ERR_ACCESS_DENIED and
stays in its state. -/
theorem C67_denied_client (env : Env) (ops : List Op) (buf : Bytes) (r : ReadRes) :
    let d := run env ops
    let s := step env d (.outsideData buf [r])
    Reading d → d.isServer = false → Accepts (d.emit (.api .outsideData)) buf →
    r.plain.head? = some 7 → r.plain.length ≤ 1500 →
    s.2 = .accessDenied ∧ s.1.state = d.state ∧ writes s.1.log = writes d.log := by
  intro d s hrd hcl hacc h7 hl
  obtain ⟨e, he, hp, hrc⟩ := recv_one env d buf r hrd hacc (by intro h; rw [h] at h7; cases h7) hl
  have hf := he.fields
  have hproc : processMessage env (e.emit (.message r.plain)) r.plain = (e.emit (.message r.plain), .accessDenied) := by
    obtain ⟨t, ht⟩ := cons_of_head h7
    rw [ht]
    show (if !(e.emit (.message (7 :: t))).isServer then _ else _) = _
    rw [if_pos (by show (!e.isServer) = true; rw [hf.2.1, hcl]; rfl)]
  rw [hproc] at hp hrc
  refine ⟨hrc (by simp), ?_, ?_⟩
  · exact hp.keeps.1.trans hf.1
  · exact hp.writes.trans he.writes

/-! ## Concrete cases -/

namespace Demo

/-- A server that has completed its handshake and waits for credentials. -/
def serverWaiting : List Op := serverOps.take 3

/-- AUTH messages among the effects. -/
def authIn (l : Log) : Bool := sentP (fun m => m.head? == some 4) l

/-- A user/password message of a hostile peer: no NUL anywhere. -/
def hostile : Bytes := [4, 1, 50, 50] ++ List.replicate 100 65

end Demo

/-- **C62** is false of arbitrary peers: this message makes the server's callback receive a user name and a password
without any NUL byte. -/
theorem C62_unterminated_possible : ∃ u p ok,
    authCalls (run Demo.env (Demo.serverWaiting ++ [.outsideData (Demo.dgram [9]) [Demo.msg Demo.hostile]])).log =
      [.authUserPass u p ok] ∧ u.length = 50 ∧ p.length = 50 ∧ 0 ∉ u ∧ 0 ∉ p :=
  ⟨List.replicate 50 65, List.replicate 50 65, false, by decide +kernel, by decide, by decide, by decide, by decide⟩

/-- The hypotheses of C42, C47, C62, C63 and C67 are met: the fifth call of the demo client sends AUTH, a nudge sends it again, the
waiting server can authenticate and accepts the datagram, and refuses the hostile message. -/
example :
    let pre := Demo.clientOps.take 4
    let op := Op.outsideData (Demo.dgram [1, 2, 3]) []
    let d := run Demo.env Demo.serverWaiting
    (∀ o ∈ pre, o.api ≠ .serverConnect) ∧ op.api ≠ .setter ∧
    Demo.authIn (Demo.newPart Demo.env (run Demo.env pre) op) = true ∧
    Demo.authIn (Demo.newPart Demo.env (run Demo.env (pre ++ [op])) .nudge) = true ∧
    (d.isServer = true ∧ d.wolfSet = true ∧ d.state = .linkUp) ∧
    (d.cbs.populate = true ∧ d.cbs.auth = true) ∧ (confOf pre).method = .userPass ∧
    (step Demo.env d (.outsideData (Demo.dgram [9]) [Demo.msg Demo.hostile])).2 = .accessDenied := by
  decide +kernel

example : Accepts ((run Demo.env Demo.serverWaiting).emit (.api .outsideData)) (Demo.dgram [9]) :=
  accepts_plain _ _ (by decide +kernel) (by decide +kernel) (by decide +kernel)

example : let d := run Demo.env (Demo.clientOps.take 5)
    (d.isServer = false ∧ d.wolfSet = true ∧ d.state = .authenticating) ∧
    (step Demo.env d (.outsideData (Demo.dgram [9]) [Demo.msg [7, 1]])).2 = .accessDenied := by decide +kernel

end Lightway
