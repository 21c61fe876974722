import Verif.Proofs.Creds
import Verif.Model.Client

/-!
# Configuration: C43, C44, C52, C60, C61, C68
-/

namespace Lightway
open Spec

namespace Spec

/-- How a client will authenticate. -/
inductive Method | none | userPass | token | buffer
  deriving DecidableEq, Repr

/-- What a host has configured on a connection. -/
structure Conf where
  method : Method := .none
  user : Bytes := []
  pass : Bytes := []
  secret : Bytes := []
  mtu : Nat := 0
  sni : Bytes := []
  deriving DecidableEq, Repr

/-- A string (up to its NUL) the text setters accept: one to fifty characters. -/
def textOk (s : Bytes) : Bool := 1 ≤ (cstr s).length && (cstr s).length ≤ 50

/-- What each setter leaves configured.  Text is cut to 49 characters, host names to 255; naming a user or a password,
accepted or not, selects that method. -/
def Conf.set (f : Conf) : Op → Conf
  | .setUsername s => { f with method := .userPass, user := if textOk s then (cstr s).take 49 else f.user }
  | .setPassword s => { f with method := .userPass, pass := if textOk s then (cstr s).take 49 else f.pass }
  | .setAuthToken t => if 1 ≤ t.length ∧ t.length < 1350 then { f with method := .token, secret := t } else f
  | .setAuthBuffer b => if 1 ≤ b.length ∧ b.length ≤ 1346 then { f with method := .buffer, secret := b } else f
  | .setOutsideMtu m => if 114 < m.toNat then { f with mtu := m.toNat } else f
  | .setSni s => { f with sni := (cstr s).take 255 }
  | _ => f

/-- What a history of calls leaves configured. -/
def confOf (ops : List Op) : Conf := ops.foldl Conf.set {}

/-- The code of a method in the model of the connection (include/he.h: he_auth_type). -/
def Method.code : Method → UInt8
  | .none => 0
  | .userPass => 1
  | .token => 2
  | .buffer => 23

end Spec

/-! ## Strings -/

theorem cstr_strncpy_set (dst s : Bytes) (n k : Nat) (hk : k ≤ n) (hn : n < dst.length) :
    cstr (setNul (strncpy dst s n) k) = (cstr s).take k := by
  have hl : (strncpy dst s n).length = dst.length := strncpy_length _ _ _ (by omega)
  rw [setNul, cstr_set _ _ (by omega), ← cstr_take]
  have : (strncpy dst s n).take k = ((cstr s).take n ++ zeros (n - ((cstr s).take n).length)).take k := by
    unfold strncpy
    rw [List.take_append_of_le_length]
    rw [List.length_append, zeros_length]
    have : ((cstr s).take n).length ≤ n := by rw [List.length_take]; omega
    omega
  rw [this, cstr_take, cstr_append_zeros, cstr_take, cstr_cstr, List.take_take, Nat.min_eq_left hk]

/-- The text setters: accepted exactly with one to fifty characters; then the string is stored cut to 49 characters,
otherwise nothing is. -/
theorem setConfigString_spec (old s : Bytes) (h : old.length = 51) :
    ((setConfigString old s).2 = .success ↔ textOk s = true) ∧
    cstr (setConfigString old s).1 = (if textOk s then (cstr s).take 49 else cstr old) ∧
    (cstr s = [] → (setConfigString old s).2 = .emptyString) ∧
    (50 < (cstr s).length → (setConfigString old s).2 = .stringTooLong) := by
  unfold setConfigString configIsEmptyString configStringLengthOkay textOk textFieldLen
  by_cases h0 : cstr s = []
  · simp [h0]
  · have h1 : 1 ≤ (cstr s).length := by
      cases hc : cstr s with
      | nil => exact absurd hc h0
      | cons a l => simp
    have he : (cstr s).isEmpty = false := by
      cases hc : cstr s with
      | nil => exact absurd hc h0
      | cons a l => rfl
    rw [he]
    by_cases h2 : 50 < (cstr s).length
    · have : min (cstr s).length (50 + 1) > 50 := by omega
      simp [this, h2]
      exact ⟨fun _ h => absurd h (by omega), h0⟩
    · have : ¬min (cstr s).length (50 + 1) > 50 := by omega
      have h3 := cstr_strncpy_set old s 50 49 (by omega) (by omega)
      simp only [Bool.false_eq_true, if_false, this, decide_false, Bool.not_false, Bool.not_true]
      refine ⟨by simp; omega, ?_, fun h => absurd h h0, fun h => absurd h h2⟩
      rw [if_pos (by simp; omega)]
      exact h3

/-- **C43** (partial: a string of exactly fifty characters is accepted and stored without its last one, see
`C43_fifty_characters`.)  The user-name and password setters accept exactly strings of one to fifty characters; an
accepted string of any other length is what the getter returns afterwards; a refused one leaves the stored string
alone. -/
theorem C43_text_setters_partial (env : Env) {c : Conn} (hg : Good env c) (s : Bytes) :
    (((step env c (.setUsername s)).2 = .success ↔ 1 ≤ (cstr s).length ∧ (cstr s).length ≤ 50) ∧
     ((step env c (.setUsername s)).2 = .success → (cstr s).length ≠ 50 →
        cstr (step env c (.setUsername s)).1.username = cstr s) ∧
     ((step env c (.setUsername s)).2 ≠ .success → cstr (step env c (.setUsername s)).1.username = cstr c.username)) ∧
    (((step env c (.setPassword s)).2 = .success ↔ 1 ≤ (cstr s).length ∧ (cstr s).length ≤ 50) ∧
     ((step env c (.setPassword s)).2 = .success → (cstr s).length ≠ 50 →
        cstr (step env c (.setPassword s)).1.password = cstr s) ∧
     ((step env c (.setPassword s)).2 ≠ .success → cstr (step env c (.setPassword s)).1.password = cstr c.password)) := by
  have key : ∀ old : Bytes, old.length = 51 →
      ((setConfigString old s).2 = .success ↔ 1 ≤ (cstr s).length ∧ (cstr s).length ≤ 50) ∧
      ((setConfigString old s).2 = .success → (cstr s).length ≠ 50 → cstr (setConfigString old s).1 = cstr s) ∧
      ((setConfigString old s).2 ≠ .success → cstr (setConfigString old s).1 = cstr old) := by
    intro old ho
    obtain ⟨h1, h2, -, -⟩ := setConfigString_spec old s ho
    have ht : textOk s = true ↔ 1 ≤ (cstr s).length ∧ (cstr s).length ≤ 50 := by simp [textOk]
    refine ⟨h1.trans ht, fun hs hne => ?_, fun hs => ?_⟩
    · rw [h2, if_pos (h1.mp hs), List.take_of_length_le]
      have := ht.mp (h1.mp hs); omega
    · rw [h2, if_neg (fun h => hs (h1.mpr h))]
  exact ⟨key c.username hg.sizes.user, key c.password hg.sizes.pass⟩

/-- **C43** fails at fifty characters: the call succeeds and the stored string is one character short. -/
theorem C43_fifty_characters (env : Env) {c : Conn} (hg : Good env c) (s : Bytes) (hl : (cstr s).length = 50) :
    (step env c (.setUsername s)).2 = .success ∧
    cstr (step env c (.setUsername s)).1.username = (cstr s).take 49 ∧
    cstr (step env c (.setUsername s)).1.username ≠ cstr s := by
  obtain ⟨h1, h2, -, -⟩ := setConfigString_spec c.username s hg.sizes.user
  have ht : textOk s = true := by simp [textOk, hl]
  rw [if_pos ht] at h2
  refine ⟨h1.mpr ht, h2, ?_⟩
  show cstr (setConfigString c.username s).1 ≠ cstr s
  rw [h2]
  intro h
  have := congrArg List.length h
  rw [List.length_take, hl] at this
  omega

/-- **C43** The server name (a context setting) behaves in the same way. -/
theorem C43_server_dn_partial (ctx : SslCtx) (h : ctx.serverDn.length = 51) (s : Bytes) :
    ((setServerDn ctx s).2 = .success ↔ 1 ≤ (cstr s).length ∧ (cstr s).length ≤ 50) ∧
    ((setServerDn ctx s).2 = .success → (cstr s).length ≠ 50 → cstr (setServerDn ctx s).1.serverDn = cstr s) ∧
    ((setServerDn ctx s).2 ≠ .success → (setServerDn ctx s).1 = ctx) ∧
    (setServerDn ctx s).1.serverDn.length = 51 := by
  obtain ⟨h1, h2, -, -⟩ := setConfigString_spec ctx.serverDn s h
  have ht : textOk s = true ↔ 1 ≤ (cstr s).length ∧ (cstr s).length ≤ 50 := by simp [textOk]
  refine ⟨h1.trans ht, fun hs hne => ?_, fun hs => ?_, ?_⟩
  · show cstr (setConfigString ctx.serverDn s).1 = _
    rw [h2, if_pos (h1.mp hs), List.take_of_length_le]
    have := ht.mp (h1.mp hs); omega
  · have hs : (setConfigString ctx.serverDn s).2 ≠ .success := hs
    have : (setConfigString ctx.serverDn s).1 = ctx.serverDn := by
      revert hs
      unfold setConfigString
      split
      · intro _; rfl
      · split
        · intro _; rfl
        · intro h; exact absurd rfl h
    show { ctx with serverDn := (setConfigString ctx.serverDn s).1 } = ctx
    rw [this]
  · exact setConfigString_length _ _ h

/-- What the connection holds agrees with what was configured. -/
structure Agrees (f : Conf) (c : Conn) : Prop where
  role : c.isServer = false
  ty : c.authType = f.method.code
  user : cstr c.username = f.user
  pass : cstr c.password = f.pass
  secret : c.authBuffer.take c.authBufferLength = f.secret
  blen : c.authBufferLength = f.secret.length
  mtu : c.outsideMtu = f.mtu
  sni : cstr c.sniHostname = f.sni
  sniLen : c.sniHostname.length = 256 ∧ c.sniHostname.drop 255 = [0]

theorem wr_zero {b src : Bytes} (h : src.length ≤ b.length) : wr b 0 src = some (src ++ b.drop src.length) := by
  unfold wr
  rw [if_pos (by omega)]
  simp

theorem step_agrees {env : Env} {c : Conn} {f : Conf} (hg : Good env c) (op : Op) (hop : op.api ≠ .serverConnect)
    (h : Agrees f c) : Agrees (f.set op) (step env c op).1 := by
  obtain ⟨o, hi⟩ := hg.inv
  have hbuf := hi.buf
  by_cases hs : op.api = .setter
  · cases op with
    | setUsername s =>
      obtain ⟨-, h2, -, -⟩ := setConfigString_spec c.username s hg.sizes.user
      exact ⟨h.role, rfl, by show cstr (setConfigString c.username s).1 = _; rw [h2, h.user]; rfl, h.pass, h.secret,
        h.blen, h.mtu, h.sni, h.sniLen⟩
    | setPassword s =>
      obtain ⟨-, h2, -, -⟩ := setConfigString_spec c.password s hg.sizes.pass
      exact ⟨h.role, rfl, h.user, by show cstr (setConfigString c.password s).1 = _; rw [h2, h.pass]; rfl, h.secret,
        h.blen, h.mtu, h.sni, h.sniLen⟩
    | setAuthToken t =>
      show Agrees (if 1 ≤ t.length ∧ t.length < 1350 then { f with method := .token, secret := t } else f)
        ((setAuthToken (c.emit (.api .setter)) t).1.emit (.ret (setAuthToken (c.emit (.api .setter)) t).2))
      unfold setAuthToken
      by_cases h0 : t.length = 0
      · rw [if_pos h0, if_neg (by omega)]
        exact ⟨h.role, h.ty, h.user, h.pass, h.secret, h.blen, h.mtu, h.sni, h.sniLen⟩
      · rw [if_neg h0]
        by_cases h1 : t.length ≥ maxMtu
        · have h1' : t.length ≥ 1350 := h1
          rw [if_pos h1, if_neg (by omega)]
          exact ⟨h.role, h.ty, h.user, h.pass, h.secret, h.blen, h.mtu, h.sni, h.sniLen⟩
        · have h1' : ¬t.length ≥ 1350 := h1
          rw [if_neg h1, if_pos (by omega)]
          rw [show (c.emit (.api .setter)).authBuffer = c.authBuffer from rfl, wr_zero (by omega)]
          exact ⟨h.role, rfl, h.user, h.pass, by show List.take t.length (t ++ _) = _; simp, rfl, h.mtu, h.sni, h.sniLen⟩
    | setAuthBuffer t =>
      show Agrees (if 1 ≤ t.length ∧ t.length ≤ 1346 then { f with method := .buffer, secret := t } else f)
        ((setAuthBuffer (c.emit (.api .setter)) t).1.emit (.ret (setAuthBuffer (c.emit (.api .setter)) t).2))
      unfold setAuthBuffer
      by_cases h0 : t.length = 0
      · rw [if_pos h0, if_neg (by omega)]
        exact ⟨h.role, h.ty, h.user, h.pass, h.secret, h.blen, h.mtu, h.sni, h.sniLen⟩
      · rw [if_neg h0]
        by_cases h1 : t.length > maxMtu - 4
        · have h1' : t.length > 1350 - 4 := h1
          rw [if_pos h1, if_neg (by omega)]
          exact ⟨h.role, h.ty, h.user, h.pass, h.secret, h.blen, h.mtu, h.sni, h.sniLen⟩
        · have h1' : ¬t.length > 1350 - 4 := h1
          rw [if_neg h1, if_pos (by omega)]
          rw [show (c.emit (.api .setter)).authBuffer = c.authBuffer from rfl, wr_zero (by omega)]
          exact ⟨h.role, rfl, h.user, h.pass, by show List.take t.length (t ++ _) = _; simp, rfl, h.mtu, h.sni, h.sniLen⟩
    | setOutsideMtu m =>
      show Agrees (if 114 < m.toNat then { f with mtu := m.toNat } else f)
        ((setOutsideMtu (c.emit (.api .setter)) m).1.emit (.ret (setOutsideMtu (c.emit (.api .setter)) m).2))
      unfold setOutsideMtu
      by_cases h0 : m.toNat ≤ packetOverhead
      · have h0' : m.toNat ≤ 114 := h0
        rw [if_pos h0, if_neg (by omega)]
        exact ⟨h.role, h.ty, h.user, h.pass, h.secret, h.blen, h.mtu, h.sni, h.sniLen⟩
      · have h0' : ¬m.toNat ≤ 114 := h0
        rw [if_neg h0, if_pos (by omega)]
        exact ⟨h.role, h.ty, h.user, h.pass, h.secret, h.blen, rfl, h.sni, h.sniLen⟩
    | setSni s =>
      have hlen : (strncpy c.sniHostname s 255).length = 256 := by
        rw [strncpy_length _ _ _ (by rw [h.sniLen.1]; omega), h.sniLen.1]
      have hd : (strncpy c.sniHostname s 255).drop 255 = [0] := by
        unfold strncpy
        have hl : ((cstr s).take 255 ++ zeros (255 - ((cstr s).take 255).length)).length = 255 := by
          rw [List.length_append, zeros_length, List.length_take]; omega
        rw [List.drop_append_of_le_length (by omega), List.drop_of_length_le (by omega), h.sniLen.2]
        rfl
      refine ⟨h.role, h.ty, h.user, h.pass, h.secret, h.blen, h.mtu, ?_, hlen, hd⟩
      show cstr (strncpy c.sniHostname s 255) = (cstr s).take 255
      have hset : setNul (strncpy c.sniHostname s 255) 255 = strncpy c.sniHostname s 255 := by
        unfold setNul
        apply List.ext_getElem (by simp)
        intro n h1 h2
        rw [List.getElem_set]
        split
        · rename_i hn
          have := congrArg (fun l => l[0]?) hd
          simp only [List.getElem?_drop] at this
          rw [List.getElem?_eq_getElem (by omega)] at this
          simp only [List.getElem?_cons_zero, Option.some.injEq] at this
          simp only [← hn]
          exact this.symm
        · rfl
      rw [← hset]
      exact cstr_strncpy_set _ _ _ _ (by omega) (by rw [h.sniLen.1]; omega)
    | setProtocolVersion a b => exact ⟨h.role, h.ty, h.user, h.pass, h.secret, h.blen, h.mtu, h.sni, h.sniLen⟩
    | setSessionId s =>
      have e : step env c (.setSessionId s) =
          ((setSessionId (c.emit (.api .setter)) s).1.emit (.ret (setSessionId (c.emit (.api .setter)) s).2), _) := rfl
      rw [e]
      unfold setSessionId
      split <;> exact ⟨h.role, h.ty, h.user, h.pass, h.secret, h.blen, h.mtu, h.sni, h.sniLen⟩
    | _ => cases hs
  · have hk := step_kept hg op hs
    have hset : f.set op = f := by
      cases op <;> first | rfl | exact absurd rfl hs
    rw [hset]
    have hu : (step env c op).1.username = c.username := by
      rcases hk.user with h1 | ⟨-, h1⟩
      · exact h1
      · rw [h.role] at h1; cases h1
    exact ⟨hk.client hop h.role, by rw [hk.conf.ty]; exact h.ty, by rw [hu]; exact h.user,
      by rw [hk.conf.pass]; exact h.pass, by rw [hk.conf.buf, hk.conf.blen]; exact h.secret,
      by rw [hk.conf.blen]; exact h.blen, by rw [hk.conf.mtu]; exact h.mtu, by rw [hk.conf.sni]; exact h.sni,
      by rw [hk.conf.sni]; exact h.sniLen⟩

theorem foldl_agrees {env : Env} {c : Conn} {f : Conf} (hg : Good env c) (h : Agrees f c) (ops : List Op)
    (hop : ∀ op ∈ ops, op.api ≠ .serverConnect) : Agrees (ops.foldl Conf.set f) (runFrom env c ops) := by
  induction ops generalizing c f with
  | nil => exact h
  | cons op rest ih =>
    exact ih (hg.step op) (step_agrees hg op (hop op (by simp)) h) (fun o ho => hop o (by simp [ho]))

theorem run_agrees (env : Env) (ops : List Op) (hop : ∀ op ∈ ops, op.api ≠ .serverConnect) :
    Agrees (confOf ops) (run env ops) :=
  foldl_agrees (create_good env) ⟨rfl, rfl, rfl, rfl, rfl, rfl, rfl, by decide +kernel, by decide +kernel⟩ ops hop

/-- **C43** After any calls on a connection that never acts as a server, the connection holds exactly what the host
configured: user name, password, token or buffer, MTU, host name and authentication method.  Nothing but a setter
ever changes them. -/
theorem C43_configured_values_partial (env : Env) (ops : List Op) (hop : ∀ op ∈ ops, op.api ≠ .serverConnect) :
    let c := run env ops
    let f := confOf ops
    cstr c.username = f.user ∧ cstr c.password = f.pass ∧ c.authBuffer.take c.authBufferLength = f.secret ∧
    c.outsideMtu = f.mtu ∧ cstr c.sniHostname = f.sni ∧ c.authType = f.method.code := by
  have h := run_agrees env ops hop
  exact ⟨h.user, h.pass, h.secret, h.mtu, h.sni, h.ty⟩

/-- Non-vacuity. -/
example : confOf Demo.clientOps = { method := .userPass, user := [106, 111, 101], pass := [112, 119], mtu := 1500 } ∧
    (∀ op ∈ Demo.clientOps, op.api ≠ .serverConnect) ∧
    (confOf (Demo.clientOps ++ [.setAuthToken [1, 2], .setUsername (List.replicate 60 97)])).method = .userPass := by
  decide +kernel

/-! ## Validity of a configuration -/

namespace Spec

/-- A client needs either a user name and a password, or a token or buffer and no user name; an MTU; and, if a
protocol version was chosen, the newest. -/
def ClientReady (f : Conf) (chosen : UInt8 × UInt8) (newest : UInt8 × UInt8) : Prop :=
  ((f.secret = [] ∧ f.user ≠ [] ∧ f.pass ≠ []) ∨ (f.secret ≠ [] ∧ f.user = [])) ∧ 0 < f.mtu ∧
  (chosen.1 = 0 ∨ chosen = newest)

/-- One version is at most another. -/
def verLe (v w : UInt8 × UInt8) : Prop := v.1.toNat * 256 + v.2.toNat ≤ w.1.toNat * 256 + w.2.toNat

/-- A server needs an MTU and, if a protocol version was chosen, one within the bounds of the context. -/
def ServerReady (f : Conf) (chosen lo hi : UInt8 × UInt8) : Prop :=
  0 < f.mtu ∧ (chosen.1 = 0 ∨ (verLe lo chosen ∧ verLe chosen hi))

end Spec

theorem u8lt {a b : UInt8} : a < b ↔ a.toNat < b.toNat := UInt8.lt_iff_toNat_lt
theorem u8eq {a b : UInt8} : a = b ↔ a.toNat = b.toNat := UInt8.toNat_inj.symm

/-- **C52** A version is supported exactly if it lies between the bounds in lexicographic order. -/
theorem C52_supported_interval (ctx : SslCtx) (maj min : UInt8) :
    isSupportedVersion ctx maj min = true ↔
      verLe (ctx.minMajor, ctx.minMinor) (maj, min) ∧ verLe (maj, min) (ctx.maxMajor, ctx.maxMinor) := by
  unfold isSupportedVersion verLe
  have b1 := min.toNat_lt; have b2 := ctx.minMinor.toNat_lt; have b3 := ctx.maxMinor.toNat_lt
  simp only [u8lt, u8eq, GT.gt]
  generalize maj.toNat = a at *
  generalize min.toNat = b at *
  generalize ctx.minMajor.toNat = c at *
  generalize ctx.minMinor.toNat = d at *
  generalize ctx.maxMajor.toNat = e at *
  generalize ctx.maxMinor.toNat = f at *
  by_cases h1 : a < c ∨ e < a
  · rw [if_pos h1]
    simp only [Bool.false_eq_true, false_iff]
    omega
  · rw [if_neg h1]
    by_cases h2 : a = c ∧ b < d
    · rw [if_pos h2]
      simp only [Bool.false_eq_true, false_iff]
      omega
    · rw [if_neg h2]
      by_cases h3 : a = e ∧ f < b
      · rw [if_pos h3]
        simp only [Bool.false_eq_true, false_iff]
        omega
      · rw [if_neg h3]
        simp only [true_iff]
        omega

theorem validWire_iff (maj min : UInt8) : validWireVersion maj min = true ↔ maj = 1 ∧ min.toNat ≤ 2 := by
  unfold validWireVersion wireMinMajor wireMinMinor wireMaxMajor wireMaxMinor
  have b1 := min.toNat_lt
  simp only [Bool.not_eq_true', Bool.or_eq_false_iff, Bool.and_eq_false_iff, decide_eq_false_iff_not, u8lt, u8eq, GT.gt,
    UInt8.toNat_ofNat, Nat.reducePow, Nat.reduceMod, Nat.not_lt]
  omega

/-- **C52** The setters accept exactly the versions 1.0 to 1.2, and 0.0 as the name of the default; the other bound is
not touched, and nothing is when they refuse. -/
theorem C52_setters (ctx : SslCtx) (maj min : UInt8) :
    ((setMinVersion ctx maj min).2 = .success ↔ (maj = 0 ∧ min = 0) ∨ (maj = 1 ∧ min.toNat ≤ 2)) ∧
    ((setMaxVersion ctx maj min).2 = .success ↔ (maj = 0 ∧ min = 0) ∨ (maj = 1 ∧ min.toNat ≤ 2)) ∧
    (maj = 0 ∧ min = 0 → setMinVersion ctx maj min = ({ ctx with minMajor := 1, minMinor := 0 }, .success) ∧
      setMaxVersion ctx maj min = ({ ctx with maxMajor := 1, maxMinor := 2 }, .success)) ∧
    (maj = 1 ∧ min.toNat ≤ 2 → setMinVersion ctx maj min = ({ ctx with minMajor := maj, minMinor := min }, .success) ∧
      setMaxVersion ctx maj min = ({ ctx with maxMajor := maj, maxMinor := min }, .success)) ∧
    ((setMinVersion ctx maj min).2 ≠ .success → (setMinVersion ctx maj min).1 = ctx) ∧
    ((setMaxVersion ctx maj min).2 ≠ .success → (setMaxVersion ctx maj min).1 = ctx) := by
  have hv := validWire_iff maj min
  unfold setMinVersion setMaxVersion
  by_cases h0 : maj = 0 ∧ min = 0
  · simp only [if_pos h0]
    have v1 : validWireVersion wireMinMajor wireMinMinor = true := by decide
    have v2 : validWireVersion wireMaxMajor wireMaxMinor = true := by decide
    simp only [v1, v2, Bool.not_true, Bool.false_eq_true, if_false]
    refine ⟨⟨fun _ => .inl h0, fun _ => trivial⟩, ⟨fun _ => .inl h0, fun _ => trivial⟩, fun _ => ⟨rfl, rfl⟩, ?_, fun h => absurd rfl h,
      fun h => absurd rfl h⟩
    intro h
    rw [h0.1] at h
    exact absurd h.1 (by decide)
  · simp only [if_neg h0]
    by_cases h1 : maj = 1 ∧ min.toNat ≤ 2
    · have hv := hv.mpr h1
      simp only [hv, Bool.not_true, Bool.false_eq_true, if_false]
      exact ⟨⟨fun _ => .inr h1, fun _ => trivial⟩, ⟨fun _ => .inr h1, fun _ => trivial⟩, fun h => absurd h h0, fun _ => ⟨trivial, trivial⟩,
        fun h => absurd rfl h, fun h => absurd rfl h⟩
    · have hv : validWireVersion maj min = false := by
        rw [← Bool.not_eq_true]; exact fun h => h1 (hv.mp h)
      simp only [hv, Bool.not_false, if_true]
      refine ⟨⟨fun h => (by cases h), fun h => absurd h (by rintro (h | h); exact h0 h; exact h1 h)⟩,
        ⟨fun h => (by cases h), fun h => absurd h (by rintro (h | h); exact h0 h; exact h1 h)⟩,
        fun h => absurd h h0, fun h => absurd h h1, fun _ => trivial, fun _ => trivial⟩

theorem isEmpty_iff {s : Bytes} : configIsEmptyString s = true ↔ cstr s = [] := by
  unfold configIsEmptyString
  exact List.isEmpty_iff

/-- **C44** Whether a client may connect depends exactly on what was configured. -/
theorem C44_client_validity (env : Env) (ops : List Op) (hop : ∀ op ∈ ops, op.api ≠ .serverConnect) (ctx : SslCtx) :
    isValidClient ctx (run env ops) = .success ↔
      ClientReady (confOf ops) ((run env ops).verMajor, (run env ops).verMinor) (ctx.maxMajor, ctx.maxMinor) := by
  have h := run_agrees env ops hop
  generalize run env ops = c at h
  generalize confOf ops = f at h
  have hu : isUsernameSet c = true ↔ f.user ≠ [] := by
    unfold isUsernameSet; rw [← h.user, ne_eq, ← isEmpty_iff]; simp
  have hp : isPasswordSet c = true ↔ f.pass ≠ [] := by
    unfold isPasswordSet; rw [← h.pass, ne_eq, ← isEmpty_iff]; simp
  have hb : isAuthBufferSet c = true ↔ f.secret ≠ [] := by
    unfold isAuthBufferSet
    rw [decide_eq_true_eq, h.blen, ne_eq, List.length_eq_zero_iff]
  have hm : isOutsideMtuSet c = true ↔ 0 < f.mtu := by
    unfold isOutsideMtuSet; rw [decide_eq_true_eq, h.mtu]
  have hl : isLatestVersion ctx c.verMajor c.verMinor = true ↔ (c.verMajor, c.verMinor) = (ctx.maxMajor, ctx.maxMinor) := by
    unfold isLatestVersion; simp
  unfold isValidClient ClientReady
  rw [← hl]
  have e0 : f.secret = [] ↔ isAuthBufferSet c = false := by
    rw [← Bool.not_eq_true, hb, ne_eq, Decidable.not_not]
  have e1 : f.user = [] ↔ isUsernameSet c = false := by
    rw [← Bool.not_eq_true, hu, ne_eq, Decidable.not_not]
  rw [← hu, ← hp, ← hb, ← hm, e0, e1]
  simp only
  cases isAuthBufferSet c <;> cases isUsernameSet c <;> cases isPasswordSet c <;> cases isOutsideMtuSet c <;>
    cases isLatestVersion ctx c.verMajor c.verMinor <;> by_cases hv : c.verMajor = 0 <;> simp [hv]

/-- **C44** Whether a server may connect. -/
theorem C44_server_validity (ctx : SslCtx) (c : Conn) :
    isValidServer ctx c = .success ↔ 0 < c.outsideMtu ∧ (c.verMajor = 0 ∨
      (verLe (ctx.minMajor, ctx.minMinor) (c.verMajor, c.verMinor) ∧
       verLe (c.verMajor, c.verMinor) (ctx.maxMajor, ctx.maxMinor))) := by
  rw [← C52_supported_interval]
  unfold isValidServer isOutsideMtuSet
  by_cases h1 : 0 < c.outsideMtu <;> cases isSupportedVersion ctx c.verMajor c.verMinor <;>
    by_cases hv : c.verMajor = 0 <;> simp [h1, hv]

/-- **C44** Contexts: a client's needs a network callback and a CA; a server's a network callback, a certificate with
its key, and an authentication callback (the token callback alone does not count). -/
theorem C44_context_validity (ctx : SslCtx) :
    (ctxValidClient ctx = .success ↔ ctx.cbs.outsideWrite = true ∧ ctx.caSet = true) ∧
    (ctxValidServer ctx = .success ↔ ctx.cbs.outsideWrite = true ∧ (ctx.certSet = true ∧ ctx.keySet = true) ∧
      (ctx.cbs.auth = true ∨ ctx.cbs.authBuf = true)) := by
  unfold ctxValidClient ctxValidServer isAuthCbSet
  cases ctx.cbs.outsideWrite <;> cases ctx.caSet <;> cases ctx.certSet <;> cases ctx.keySet <;> cases ctx.cbs.auth <;>
    cases ctx.cbs.authBuf <;> simp

/-- **C44** A connect call with an invalid configuration reports what is missing and does nothing else. -/
theorem C44_invalid_refused (env : Env) (c : Conn) (ctx : SslCtx) (i o : Chain) :
    (isValidClient ctx c ≠ .success → step env c (.clientConnect ctx i o) =
      (refused c .clientConnect (isValidClient ctx c), isValidClient ctx c)) ∧
    (isValidServer ctx c ≠ .success → step env c (.serverConnect ctx i o) =
      (refused c .serverConnect (isValidServer ctx c), isValidServer ctx c)) := by
  refine ⟨fun h => ?_, fun h => ?_⟩
  · have h' : isValidClient ctx (c.emit (.api .clientConnect)) ≠ .success := h
    show ((clientConnect env (c.emit (.api .clientConnect)) ctx i o).1.emit
      (.ret (clientConnect env (c.emit (.api .clientConnect)) ctx i o).2),
      (clientConnect env (c.emit (.api .clientConnect)) ctx i o).2) = _
    unfold clientConnect
    simp only [if_pos h']
    rfl
  · have h' : isValidServer ctx (c.emit (.api .serverConnect)) ≠ .success := h
    show ((serverConnect env (c.emit (.api .serverConnect)) ctx i o).1.emit
      (.ret (serverConnect env (c.emit (.api .serverConnect)) ctx i o).2),
      (serverConnect env (c.emit (.api .serverConnect)) ctx i o).2) = _
    unfold serverConnect
    simp only [if_pos h']
    rfl

/-- Non-vacuity: a valid and an invalid configuration. -/
example : isValidClient Demo.ctx (run Demo.env (Demo.clientOps.take 3)) = .success ∧
    isValidClient Demo.ctx (run Demo.env [.setUsername [97]]) = .confPasswordNotSet ∧
    isSupportedVersion Demo.ctx 1 1 = true ∧ isSupportedVersion Demo.ctx 1 3 = false := by decide +kernel

/-! ## Connecting again -/

theorem validClient_code (ctx : SslCtx) (c : Conn) : isValidClient ctx c ≠ .invalidConnState := by
  unfold isValidClient
  cases isAuthBufferSet c <;> cases isUsernameSet c <;> cases isPasswordSet c <;> cases isOutsideMtuSet c <;>
    cases isLatestVersion ctx c.verMajor c.verMinor <;> by_cases hv : c.verMajor = 0 <;> simp [hv]

theorem setupType_code (env : Env) (c : Conn) (ctx : SslCtx) : (setupType env c ctx).2 ≠ some .invalidConnState := by
  unfold setupType
  split
  · generalize sslDo env c _ = q
    obtain ⟨c1, r⟩ := q
    simp only
    split
    · simp
    · split
      · generalize sslDo env c1 _ = q2
        obtain ⟨c2, r2⟩ := q2
        simp only
        split <;> simp
      · simp
  · split
    · generalize sslDo env c _ = q
      obtain ⟨c1, r⟩ := q
      simp only
      split
      · split <;> simp
      · simp
    · simp

theorem setupSsl_code (env : Env) (c : Conn) (ctx : SslCtx) : (setupSsl env c ctx).2 ≠ some .invalidConnState := by
  unfold setupSsl
  simp only
  split
  · simp
  · generalize ({ c.emit _ with wolfSet := _ } : Conn) = c1
    have h1 := setupType_code env c1 ctx
    generalize setupType env c1 ctx = q at h1 ⊢
    obtain ⟨c2, o2⟩ := q
    cases o2 with
    | some rc => exact h1
    | none =>
      simp only
      have h2 : (setupDn env c2 ctx).2 ≠ some .invalidConnState := by
        unfold setupDn
        split
        · generalize sslDo env c2 _ = q; obtain ⟨c3, r⟩ := q; simp only; split <;> simp
        · simp
      generalize setupDn env c2 ctx = q at h2 ⊢
      obtain ⟨c3, o3⟩ := q
      cases o3 with
      | some rc => exact h2
      | none =>
        simp only
        unfold setupPqc
        split
        · generalize sslDo env c3 _ = q; obtain ⟨c4, r⟩ := q; simp only; split <;> simp
        · simp

theorem internalConnect_code (env : Env) (c : Conn) (ctx : SslCtx) (i o : Chain) :
    (internalConnect env c ctx i o).2 ≠ .invalidConnState := by
  unfold internalConnect
  have h0 : (configure env c ctx).2 ≠ .invalidConnState := by
    unfold configure
    simp only
    generalize env.alloc _ = q
    cases q <;> simp
  generalize configure env c ctx = q at h0 ⊢
  obtain ⟨c1, rc⟩ := q
  simp only
  split
  · exact h0
  · generalize ({ c1.emit _ with insidePlugins := i, outsidePlugins := o } : Conn) = c2
    have h1 := setupSsl_code env c2 ctx
    generalize setupSsl env c2 ctx = q at h1 ⊢
    obtain ⟨c3, o3⟩ := q
    cases o3 with
    | some rc => simp only; intro h; rw [h] at h1; exact h1 rfl
    | none =>
      simp only
      generalize sslDo env (changeState env c3 .connecting) .negotiate = q
      obtain ⟨c4, r⟩ := q
      simp only
      split
      · split <;> simp
      · simp

/-- **C60** Contrary to its documentation a connect call is never refused because the connection is already connected:
in whatever state it is made it never returns HE_ERR_INVALID_CONN_STATE, and when it succeeds the connection has left
ONLINE and is connecting again. -/
theorem C60_connect_restarts (env : Env) (c : Conn) (ctx : SslCtx) (i o : Chain) :
    (step env c (.clientConnect ctx i o)).2 ≠ .invalidConnState ∧
    ((step env c (.clientConnect ctx i o)).2 = .success →
      (step env c (.clientConnect ctx i o)).1.state = .connecting ∨
      (step env c (.clientConnect ctx i o)).1.state = .linkUp ∨
      (step env c (.clientConnect ctx i o)).1.state = .authenticating) := by
  refine ⟨?_, (clientConnect_star env (c.emit (.api .clientConnect)) ctx i o ⟨_, rfl⟩).2.st⟩
  show (clientConnect env (c.emit (.api .clientConnect)) ctx i o).2 ≠ _
  unfold clientConnect
  simp only
  split
  · exact validClient_code _ _
  · exact internalConnect_code env _ ctx i o

/-- **C60** Witness: an ONLINE client connects again; the call succeeds and the session is gone. -/
theorem C60_witness :
    let c := run Demo.env Demo.clientOps
    c.state = .online ∧ (step Demo.env c (.clientConnect Demo.ctx [] [])).2 = .success ∧
    (step Demo.env c (.clientConnect Demo.ctx [] [])).1.state ≠ .online := by decide +kernel

/-! ## Starting a context -/

/-- **C61** Contrary to what their order suggests, version bounds set before the context is started are not in force
afterwards: a successful start sets 1.0 and 1.2 whatever was configured.  The other settings are kept. -/
theorem C61_start_resets_bounds (ctx : SslCtx) (r : StartRes) (hl : r.load ≠ some .success) :
    ((ctxStart ctx r).2 = .success → (ctxStart ctx r).1 =
      { ctx with minMajor := 1, minMinor := 0, maxMajor := 1, maxMinor := 2 }) ∧
    ((ctxStartServer ctx r).2 = .success → (ctxStartServer ctx r).1 =
      { ctx with minMajor := 1, minMinor := 0, maxMajor := 1, maxMinor := 2 }) := by
  have hc : (ctxStartCommon ctx r.reneg).1 = { ctx with minMajor := 1, minMinor := 0, maxMajor := 1, maxMinor := 2 } := by
    unfold ctxStartCommon
    simp only
    split <;> rfl
  unfold ctxStart ctxStartServer
  refine ⟨?_, ?_⟩
  · by_cases h1 : ctxValidClient ctx ≠ .success
    · rw [if_pos h1]; exact fun h => absurd h h1
    · rw [if_neg h1]
      cases r.newCtx
      · intro h; cases h
      · cases hld : r.load with
        | some rc =>
          intro h
          have h : rc = .success := h
          rw [hld, h] at hl; exact absurd rfl hl
        | none =>
          cases r.ciphers
          · intro h; cases h
          · intro _; exact hc
  · by_cases h1 : ctxValidServer ctx ≠ .success
    · rw [if_pos h1]; exact fun h => absurd h h1
    · rw [if_neg h1]
      cases r.newCtx
      · intro h; cases h
      · cases hld : r.load with
        | some rc => intro h; cases h
        | none =>
          cases r.ciphers
          · intro h; cases h
          · intro _; exact hc

/-- **C61** Bounds set after the start persist: calls on connections never change a context (they take it by value in
this model), and the setters store what they accept. -/
theorem C61_set_after_start (ctx : SslCtx) (r : StartRes) (maj min : UInt8) (h : maj = 1 ∧ min.toNat ≤ 2) :
    (setMinVersion (ctxStart ctx r).1 maj min).1.minMajor = maj ∧
    (setMinVersion (ctxStart ctx r).1 maj min).1.minMinor = min := by
  rw [((C52_setters (ctxStart ctx r).1 maj min).2.2.2.1 h).1]
  exact ⟨rfl, rfl⟩

/-- Non-vacuity: a context whose minimum was set to 1.2 is started; it accepts 1.0 afterwards. -/
example :
    let r : StartRes := { newCtx := true, load := none, ciphers := true, reneg := true }
    let ctx := (setMinVersion Demo.ctx 1 2).1
    (setMinVersion Demo.ctx 1 2).2 = .success ∧ isSupportedVersion ctx 1 0 = false ∧
    (ctxStart ctx r).2 = .success ∧ isSupportedVersion (ctxStart ctx r).1 1 0 = true := by decide +kernel

/-! ## The client object -/

/-- **C68** A client's connect starts its context first: if that fails its code is returned and the connection is not
touched; otherwise the result is that of connecting the connection with the started context. -/
theorem C68_connect_order (env : Env) (cl : Client) (r : StartRes) :
    ((ctxStart cl.ctx r).2 ≠ .success →
      (cl.connect env r).2 = (ctxStart cl.ctx r).2 ∧ (cl.connect env r).1.conn = cl.conn) ∧
    ((ctxStart cl.ctx r).2 = .success →
      (cl.connect env r).2 = (step env cl.conn (.clientConnect (ctxStart cl.ctx r).1 cl.inside cl.outside)).2 ∧
      (cl.connect env r).1.conn = (step env cl.conn (.clientConnect (ctxStart cl.ctx r).1 cl.inside cl.outside)).1) ∧
    (ctxValidClient cl.ctx ≠ .success →
      (cl.connect env r).2 = ctxValidClient cl.ctx ∧ (cl.connect env r).1.conn = cl.conn) := by
  have e : ∀ h : (ctxStart cl.ctx r).2 ≠ .success,
      (cl.connect env r).2 = (ctxStart cl.ctx r).2 ∧ (cl.connect env r).1.conn = cl.conn := by
    intro h
    unfold Client.connect
    simp only [if_pos h]
    exact ⟨trivial, trivial⟩
  refine ⟨e, fun h => ?_, fun h => ?_⟩
  · unfold Client.connect
    generalize ctxStart cl.ctx r = q at h
    obtain ⟨ctx, rc⟩ := q
    simp only at h
    subst h
    exact ⟨rfl, rfl⟩
  · have hs : ctxStart cl.ctx r = (cl.ctx, ctxValidClient cl.ctx) := by unfold ctxStart; rw [if_pos h]
    have := e (by rw [hs]; exact h)
    rw [hs] at this
    exact this

theorem validClient_started (ctx ctx' : SslCtx) (c : Conn)
    (h : c.verMajor = 0 ∨ (ctx'.maxMajor = ctx.maxMajor ∧ ctx'.maxMinor = ctx.maxMinor)) :
    isValidClient ctx' c = isValidClient ctx c := by
  have : (c.verMajor ≠ 0 ∧ (!isLatestVersion ctx' c.verMajor c.verMinor) = true) ↔
      (c.verMajor ≠ 0 ∧ (!isLatestVersion ctx c.verMajor c.verMinor) = true) := by
    rcases h with h | h
    · simp [h]
    · unfold isLatestVersion; rw [h.1, h.2]
  unfold isValidClient
  simp only [this]

/-- **C68** (partial: unless a protocol version was chosen and the maximum is not 1.2, see `C68_check_too_strict`)  The
configuration check succeeds exactly if connect's own checks do. -/
theorem C68_config_check_partial (cl : Client)
    (h : cl.conn.verMajor = 0 ∨ (cl.ctx.maxMajor = 1 ∧ cl.ctx.maxMinor = 2)) :
    cl.isConfigValid = .success ↔
      ctxValidClient cl.ctx = .success ∧
      isValidClient { cl.ctx with minMajor := 1, minMinor := 0, maxMajor := 1, maxMinor := 2 } cl.conn = .success := by
  rw [validClient_started cl.ctx { cl.ctx with minMajor := 1, minMinor := 0, maxMajor := 1, maxMinor := 2 } cl.conn
    (h.imp id (fun h => ⟨h.1.symm, h.2.symm⟩))]
  unfold Client.isConfigValid
  by_cases h1 : ctxValidClient cl.ctx ≠ .success
  · rw [if_pos h1]; exact ⟨fun h => absurd h h1, fun h => absurd h.1 h1⟩
  · rw [if_neg h1]; exact ⟨fun h => ⟨Decidable.not_not.mp h1, h⟩, fun h => h.2⟩

/-- **C68** fails if a protocol version was chosen before the first start: the check compares it with the maximum not
yet set and refuses a configuration connect accepts. -/
theorem C68_check_too_strict :
    let ctx := { Demo.ctx with minMajor := 0, minMinor := 0, maxMajor := 0, maxMinor := 0 }
    let conn := run Demo.env [.setUsername [97], .setPassword [98], .setOutsideMtu 1500, .setProtocolVersion 1 2]
    let cl : Client := ⟨ctx, conn, [], []⟩
    cl.isConfigValid = .incorrectProtocolVersion ∧
    (cl.connect Demo.env { newCtx := true, load := none, ciphers := true, reneg := true }).2 = .success := by
  decide +kernel

/-- **C68** Creation is all or nothing. -/
theorem C68_create (alloc : Nat → Bool) :
    (Client.tryCreate alloc).isSome = true ↔ ∀ k < 5, alloc k = true := by
  unfold Client.tryCreate
  constructor
  · intro h k hk
    cases h0 : alloc 0 with
    | false => simp [h0] at h
    | true =>
      simp only [h0, Bool.not_true, Bool.false_eq_true, if_false] at h
      split at h
      · rename_i h1
        simp only [Bool.and_eq_true] at h1
        match k, hk with
        | 0, _ => exact h0
        | 1, _ => exact h1.1.1.1
        | 2, _ => exact h1.1.1.2
        | 3, _ => exact h1.1.2
        | 4, _ => exact h1.2
      · cases h
  · intro h
    simp [h 0 (by omega), h 1 (by omega), h 2 (by omega), h 3 (by omega), h 4 (by omega)]

end Lightway
