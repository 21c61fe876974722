import Verif.Spec.Receive
import Verif.Props.Handshake
import Verif.Props.Settings
import Verif.Proofs.Reasm

/-!
# What the result of a receive call means (C86)
-/

namespace Lightway
open Spec

theorem Micro.wolfSame {env : Env} {a : Api} {c c' : Conn} (h : Micro env a c c') (ha : ¬IsConnect a) :
    c'.wolfSet = c.wolfSet := by
  cases h with
  | io r => obtain ⟨l, ps, sl, we, pm, pn, e, -⟩ := (ioStep_frame env c r).pFrame; rw [e]
  | state s hne h => unfold setState; split <;> rfl
  | probeAck id h hs hm => obtain ⟨l, ps, sl, we, pm, pn, e, -⟩ := handleProbeAck_frame env c id; rw [e]
  | probeTimeout h => obtain ⟨l, ps, sl, we, pm, pn, e, -⟩ := handleProbeTimeout_frame env c; rw [e]
  | startBase h hs hd => obtain ⟨l, ps, sl, we, pm, pn, e, -⟩ := startBaseProbing_frame env c; rw [e]
  | _ => first | rfl | (exact absurd (by assumption) ha)

theorem Star.wolfSame {env : Env} {a : Api} {c c' : Conn} (h : M env a c c') (ha : ¬IsConnect a) : c'.wolfSet = c.wolfSet := by
  induction h with
  | refl => rfl
  | tail _ s ih => exact (s.wolfSame ha).trans ih

theorem MO.keeps {env : Env} {c c' : Conn} (h : MO env c c') : c'.wolfSet = c.wolfSet ∧ c'.connType = c.connType := by
  have ha : ¬IsConnect .outsideData := by intro h; cases h <;> simp_all
  exact ⟨Star.wolfSame h ha, congrArg (·.transport) (Star.settings h ha (by simp))⟩

/-! ## One handler at a time -/

/-- What the call's history and result are after a handler. -/
def Out (c : Conn) (r : Conn × RC) (P : Log → RC → Prop) : Prop :=
  ∃ tail, r.1.log = tail ++ c.log ∧ (r.2 ≠ .success → P tail r.2)

theorem Out.ok {c c' : Conn} {P : Log → RC → Prop} (h : NoMsg c c') : Out c (c', .success) P := by
  obtain ⟨l, e, _⟩ := h
  exact ⟨l, e, fun h => absurd rfl h⟩

theorem Out.of {c c' : Conn} {rc : RC} {P : Log → RC → Prop} (h : NoMsg c c') (hp : ∀ t, P t rc) : Out c (c', rc) P := by
  obtain ⟨l, e, _⟩ := h
  exact ⟨l, e, fun _ => hp l⟩

theorem Out.mono {c : Conn} {r : Conn × RC} {P Q : Log → RC → Prop} (h : Out c r P) (hpq : ∀ t rc, P t rc → Q t rc) : Out c r Q := by
  obtain ⟨l, e, hl⟩ := h
  exact ⟨l, e, fun h => hpq _ _ (hl h)⟩

/-- More effects before the handler. -/
theorem Out.before {a c : Conn} {r : Conn × RC} {P : Log → RC → Prop} (h : Out c r P) (hac : NoMsg a c)
    (hp : ∀ t t' rc, P t rc → P (t ++ t') rc) : Out a r P := by
  obtain ⟨l, e, hl⟩ := h
  obtain ⟨l', e', _⟩ := hac
  exact ⟨l ++ l', by rw [e, e']; simp, fun h => hp _ _ _ (hl h)⟩

theorem Spec.DataEnd.more {t : Log} {rc : RC} (h : DataEnd t rc) (t' : Log) : DataEnd (t ++ t') rc := by
  rcases h with ⟨h, p, r, hm⟩ | h
  · exact .inl ⟨h, p, r, List.mem_append_left _ hm⟩
  · exact .inr h

theorem sendMessage_out (env : Env) (c : Conn) (m : Bytes) : Out c (sendMessage env c m) (fun tail rc =>
    (∃ w, Effect.sslCall (.write w) false ∈ tail) ∧
      (rc = .wantRead ∨ rc = .wantWrite ∨ rc = .connectionWasClosed ∨ rc = .sslError)) := by
  unfold sendMessage
  obtain ⟨l, hl, _⟩ := sslDo_says env c (.write m)
  generalize sslDo env c (.write m) = q at hl ⊢
  obtain ⟨c1, r⟩ := q
  simp only at hl ⊢
  by_cases hok : r.ok = true
  · rw [if_pos hok]
    exact ⟨_, by rw [show c1.log = (l ++ [.sslCall (.write m) r.ok]) ++ c.log by rw [hl]; simp], fun h => absurd rfl h⟩
  · rw [if_neg hok]
    have hf : r.ok = false := by simpa using hok
    rw [hf] at hl
    have fin : ∀ (d : Conn) (rc : RC), d.log = c1.log → (rc ≠ .success → rc = .wantRead ∨ rc = .wantWrite ∨ rc = .connectionWasClosed ∨ rc = .sslError) →
        Out c (d, rc) (fun tail rc => (∃ w, Effect.sslCall (.write w) false ∈ tail) ∧
          (rc = .wantRead ∨ rc = .wantWrite ∨ rc = .connectionWasClosed ∨ rc = .sslError)) :=
      fun d rc hd hrc => ⟨l ++ [.sslCall (.write m) false], by rw [hd, hl]; simp, fun h => ⟨⟨m, by simp⟩, hrc h⟩⟩
    split
    · exact fin _ _ rfl (by simp)
    · exact fin _ _ rfl (by simp)
    · exact fin _ _ rfl (by simp)
    · split
      · exact fin _ _ rfl (by simp)
      · exact fin _ _ rfl (by simp)

theorem internalHandleData_out (c : Conn) (p : Bytes) : Out c (internalHandleData c p) DataEnd := by
  unfold internalHandleData
  simp only
  obtain ⟨l, hl, hr⟩ := Chain.egress_runs c.insidePlugins c.log p p.length
  have hne : l = [] → (c.insidePlugins.egress c.log p p.length).2 = (p, .success) := by
    intro h
    subst h
    have key : ∀ (ch : Chain), (Chain.egress ch c.log p p.length).1 = c.log → (Chain.egress ch c.log p p.length).2 = (p, .success) := by
      intro ch
      induction ch with
      | nil => intro _; rfl
      | cons n rest ih =>
        intro h
        obtain ⟨l1, e1, h1⟩ := Chain.egress_runs rest c.log p p.length
        unfold Chain.egress at h ⊢
        dsimp only at h ⊢
        by_cases hr : (Chain.egress rest c.log p p.length).2.2 ≠ .success
        · rw [if_pos hr] at h
          exact absurd (by rw [ih h]) hr
        · rw [if_neg hr] at h ⊢
          split at h
          · exact ih h
          · exfalso
            have h2 : ∀ (e : Effect) (l : Log), e :: (l ++ c.log) ≠ c.log := by
              intro e l hh
              have := congrArg List.length hh
              simp at this
              omega
            split at h <;> (simp only at h; rw [e1] at h; exact h2 _ _ h)
    exact key _ hl
  have hmem : l ≠ [] → ∃ p r, Effect.pluginEgress p r ∈ l := by
    intro hn
    rcases hr with ⟨h, _⟩ | ⟨p', r, l', h, _⟩
    · cases l with
      | nil => exact absurd rfl hn
      | cons x xs =>
        obtain ⟨q, rfl⟩ := h x (.head _)
        exact ⟨q, .success, by simp⟩
    · exact ⟨p', r, by rw [h]; simp⟩
  generalize c.insidePlugins.egress c.log p p.length = q at hl hne ⊢
  obtain ⟨lg, pk, rc⟩ := q
  simp only at hl hne ⊢
  have hfail : (pk, rc) ≠ (p, RC.success) → DataEnd l .failed := fun h => .inl ⟨rfl, hmem fun h' => h (hne h')⟩
  split
  · exact ⟨l, hl, fun h => absurd rfl h⟩
  · split
    · rename_i hrc
      exact ⟨l, hl, fun _ => hfail fun h => hrc (by injection h)⟩
    · split
      · rename_i hlen
        exact ⟨l, hl, fun _ => hfail fun h => by injection h with h1 h2; rw [h1] at hlen; omega⟩
      · split
        · exact ⟨l, hl, fun _ => .inr rfl⟩
        · split
          · exact ⟨.insideWrite pk :: l, by show _ :: lg = _; rw [hl]; rfl, fun h => absurd rfl h⟩
          · exact ⟨l, hl, fun h => absurd rfl h⟩

theorem screen_none_online {st : ConnState} {k : Option Verdict} (h : whenOnline st k = none) : st = .online ∧ k = none := by
  unfold whenOnline at h
  split at h
  · exact ⟨‹_›, h⟩
  · cases h

theorem screen_none_long {m : Bytes} {n : Nat} {k : Option Verdict} (h : whenLong m n k = none) : n ≤ m.length ∧ k = none := by
  unfold whenLong at h
  split at h
  · cases h
  · exact ⟨by omega, h⟩

theorem screen_none_holds {m : Bytes} {a b : Nat} {k : Option Verdict} (h : whenHolds m a b k = none) :
    a + b ≤ m.length ∧ k = none := by
  unfold whenHolds at h
  split at h
  · cases h
  · exact ⟨by omega, h⟩

theorem handlePing_out (env : Env) (c : Conn) (m : Bytes) (h : whenOnline c.state (whenLong m 5 none) = none) :
    Out c (handlePing env c m) (fun tail rc =>
    (∃ w, Effect.sslCall (.write w) false ∈ tail) ∧
      (rc = .wantRead ∨ rc = .wantWrite ∨ rc = .connectionWasClosed ∨ rc = .sslError)) := by
  obtain ⟨h1, h⟩ := screen_none_online h
  obtain ⟨h2, -⟩ := screen_none_long h
  unfold handlePing
  rw [if_neg (by simp [h1]), if_neg (by omega), rd_isSome (by omega)]
  exact sendMessage_out env c _

theorem handleDeprecated13_out (c : Conn) (m : Bytes)
    (h : whenOnline c.state (whenLong m 5 (whenHolds m 5 (num16 m 1) none)) = none) :
    Out c (handleDeprecated13 c m) DataEnd := by
  obtain ⟨h1, h⟩ := screen_none_online h
  obtain ⟨h2, h⟩ := screen_none_long h
  obtain ⟨h3, -⟩ := screen_none_holds h
  unfold handleDeprecated13
  have hr := rd_isSome (bs := m) (off := 1) (len := 2) (by omega)
  rw [if_neg (by simp [h1]), if_neg (by omega), hr]
  simp only
  rw [num16_rd hr, if_neg (by omega), rd_isSome (by omega)]
  exact internalHandleData_out c _

theorem handleData_out (c : Conn) (m : Bytes)
    (h : whenOnline c.state (whenLong m 3 (whenHolds m 3 (min (num16 m 1) (num16le m 1)) none)) = none) :
    Out c (handleData c m) (fun tail rc =>
      DataEnd tail rc ∨ (rc = .pointerWouldOverflow ∧ m.length < 3 + max (num16 m 1) (num16le m 1))) := by
  obtain ⟨h1, h⟩ := screen_none_online h
  obtain ⟨h2, h⟩ := screen_none_long h
  unfold handleData
  have hr := rd_isSome (bs := m) (off := 1) (len := 2) (by omega)
  rw [if_neg (by simp [h1]), if_neg (by omega), hr]
  simp only
  rw [num16_rd hr, num16le_rd hr]
  have hm : (if c.verMajor = 1 ∧ c.verMinor = 0 then num16le m 1 else num16 m 1) ≤ max (num16 m 1) (num16le m 1) := by
    split <;> omega
  generalize (if c.verMajor = 1 ∧ c.verMinor = 0 then num16le m 1 else num16 m 1) = len at hm ⊢
  by_cases hl : len > m.length - 3
  · rw [if_pos hl]
    exact .of (.refl c) fun _ => .inr ⟨rfl, by omega⟩
  · rw [if_neg hl, rd_isSome (by omega)]
    exact (internalHandleData_out c _).mono fun _ _ h => .inl h

/-- How a fragment can end the call. -/
def FragEnd (tail : Log) (rc : RC) : Prop :=
  DataEnd tail rc ∨ rc = .noMemory ∨ rc = .badFragment ∨ (rc = .failed ∧ ∃ s, Effect.ub s ∈ tail)

theorem FragEnd.more (t t' : Log) (rc : RC) (h : FragEnd t rc) : FragEnd (t ++ t') rc := by
  rcases h with h | h | h | ⟨hf, s, h⟩
  · exact .inl (DataEnd.more h t')
  · exact .inr (.inl h)
  · exact .inr (.inr (.inl h))
  · exact .inr (.inr (.inr ⟨hf, s, List.mem_append_left _ h⟩))

theorem Out.ub (c : Conn) (s : String) : Out c (c.ub s, .failed) FragEnd :=
  ⟨[.ub s], rfl, fun _ => .inr (.inr (.inr ⟨rfl, s, .head _⟩))⟩

theorem fragApply_out (env : Env) (c : Conn) (t : FragTable) (en : FragEntry) (id off : Nat) (last : Bool) (d : Bytes)
    (hd : off + d.length ≤ maxWireMtu) : Out c (fragApply env c t en id off last d) FragEnd := by
  unfold fragApply
  simp only
  have n1 : NoMsg c (c.emit (.clock (env.now c.log))) := .emit (.refl c) trivial
  generalize c.emit (.clock (env.now c.log)) = c1 at n1 ⊢
  generalize (if env.now c.log - en.timestamp > 64 then ({ en.reset with timestamp := env.now c.log } : FragEntry) else en) = en1
  refine Out.before ?_ n1 FragEnd.more
  split
  · exact .ub c1 _
  · rename_i en2 rc asm hu
    have hrc : rc = .success ∨ rc = .badFragment := by
      rcases update_cases hu with ⟨h, _⟩ | ⟨_, _, _, _, _, h, _⟩ | ⟨_, _, _, _, h, _⟩ | ⟨_, _, _, _, _, _, _, h, _⟩
      · omega
      · exact .inl h
      · exact .inr h
      · exact .inl h
    split
    · rename_i h
      exact .of (.of_log rfl) fun _ => .inr (.inr (.inl (hrc.resolve_left h)))
    · split
      · split
        · exact ⟨[.ub "frag"], rfl, fun _ => .inr (.inr (.inr ⟨rfl, _, .head _⟩))⟩
        · split
          · exact ⟨[.ub "frag"], rfl, fun _ => .inr (.inr (.inr ⟨rfl, _, .head _⟩))⟩
          · rename_i p hp
            obtain ⟨l, hl, ho⟩ := internalHandleData_out { c1 with fragTable := some (t.set id en2) } p
            exact ⟨l, hl, fun h => .inl (ho h)⟩
      · exact .ok (.of_log rfl)

theorem fragReceive_out (env : Env) (c : Conn) (id off : Nat) (last : Bool) (d : Bytes)
    (hd : off + d.length ≤ maxWireMtu) : Out c (fragReceive env c id off last d) FragEnd := by
  unfold fragReceive
  split
  · exact .of (.refl c) fun _ => .inr (.inl rfl)
  · rename_i t ht
    simp only
    have k1 : ∀ (b : Bool) (e : Effect) (c : Conn), Still e → NoMsg c (if b = true then c.emit e else c) := by
      intro b e c he; cases b
      · exact .refl c
      · exact .emit (.refl c) he
    have n1 := k1 (t.slot (id % t.num)).isNone (.alloc (env.alloc c.log)) c trivial
    generalize (if (t.slot (id % t.num)).isNone = true then c.emit (.alloc (env.alloc c.log)) else c) = c1 at n1 ⊢
    have n2 := k1 ((t.slot (id % t.num)).isNone && env.alloc c.log) (.clock (env.now c1.log)) c1 trivial
    generalize (if ((t.slot (id % t.num)).isNone && env.alloc c.log) = true then c1.emit (.clock (env.now c1.log)) else c1) = c2 at n2 ⊢
    refine Out.before ?_ (n1.trans n2) FragEnd.more
    split
    · exact .of (.of_log rfl) fun _ => .inr (.inl rfl)
    · rename_i t' en _
      obtain ⟨l, hl, ho⟩ := fragApply_out env { c2 with fragTable := some t' } t' en id off last d hd
      exact ⟨l, hl, ho⟩

theorem handleDataFrag_out (env : Env) (c : Conn) (m : Bytes)
    (h : (whenOnline c.state <| whenLong m 7 <| whenHolds m 7 (num16 m 1) <|
      if num16 m 5 % 8192 * 8 + num16 m 1 > 1500 then some (.refused .pointerWouldOverflow) else none) = none) :
    Out c (handleDataFrag env c m) FragEnd := by
  obtain ⟨h1, h⟩ := screen_none_online h
  obtain ⟨h2, h⟩ := screen_none_long h
  obtain ⟨h3, h⟩ := screen_none_holds h
  have h4 : ¬num16 m 5 % 8192 * 8 + num16 m 1 > 1500 := fun h4 => by rw [if_pos h4] at h; cases h
  unfold handleDataFrag
  have hr1 := rd_isSome (bs := m) (off := 1) (len := 2) (by omega)
  have hr3 := rd_isSome (bs := m) (off := 3) (len := 2) (by omega)
  have hr5 := rd_isSome (bs := m) (off := 5) (len := 2) (by omega)
  rw [if_neg (by simp [h1]), if_neg (by omega), hr1, hr3, hr5]
  simp only
  rw [num16_rd hr1, num16_rd hr5, if_neg (by omega), if_neg (by simpa [maxWireMtu] using h4), rd_isSome (by omega)]
  refine fragReceive_out env c _ _ _ _ ?_
  simp only [List.length_take, List.length_drop, maxWireMtu]
  omega

theorem handleConfig_out (env : Env) (c : Conn) (m : Bytes) (hsv : c.isServer = false)
    (h : (if c.isServer = true ∨ c.state = .online then some .ignored
      else if c.state = .authenticating then whenLong m 105 none
      else some (.refused .invalidConnState)) = none) :
    Out c (handleConfigIpv4 env c m) (fun tail rc => rc = .callbackFailed ∧ ∃ cfg r, Effect.netConfig cfg r ∈ tail ∧ r ≠ .success) := by
  have h1 : ¬(c.isServer = true ∨ c.state = .online) := fun h1 => by rw [if_pos h1] at h; cases h
  rw [if_neg h1] at h
  by_cases h2 : c.state = .authenticating
  · rw [if_pos h2] at h
    obtain ⟨h3, -⟩ := screen_none_long h
    unfold handleConfigIpv4
    rw [if_neg (fun h => h1 (.inr h)), if_neg (by simp [hsv, h2]), if_neg (by omega),
      rd_isSome (by omega), rd_isSome (by omega), rd_isSome (by omega), rd_isSome (by omega), rd_isSome (by omega)]
    have hw : (wr m 96 [0]).isSome := by simp [wr]; omega
    obtain ⟨w, hw⟩ := Option.isSome_iff_exists.mp hw
    rw [hw]
    simp only
    have n1 := setState_noMsg { c with sessionId := rdLe ((m.drop 97).take 8) } .configuring
    have n1 : NoMsg c (setState { c with sessionId := rdLe ((m.drop 97).take 8) } .configuring) := n1
    generalize setState { c with sessionId := rdLe ((m.drop 97).take 8) } .configuring = c1 at n1 ⊢
    split
    · split
      · rename_i hrc
        obtain ⟨l, hl, _⟩ := n1
        exact ⟨_ :: l, by show _ :: c1.log = _; rw [hl]; rfl, fun _ => ⟨rfl, _, _, .head _, hrc⟩⟩
      · exact .ok ((NoMsg.emit n1 (e := .netConfig _ _) trivial).trans (setState_noMsg _ _))
    · exact .ok (n1.trans (setState_noMsg _ _))
  · rw [if_neg h2] at h; cases h

theorem handleServerConfig_out (env : Env) (c : Conn) (m : Bytes) (hsv : c.isServer = false)
    (h : (if c.state = .linkUp ∨ c.state = .authenticating ∨ c.state = .configuring ∨ c.state = .online then
      whenLong m 3 (whenHolds m 3 (num16 m 1) (if c.cbs.serverConfig = true then none else some .ignored))
    else some (.refused .invalidConnState)) = none) :
    Out c (handleServerConfig env c m) (fun tail rc => rc = .callbackFailed ∧ ∃ b r, Effect.serverConfig b r ∈ tail ∧ r ≠ .success) := by
  by_cases h1 : c.state = .linkUp ∨ c.state = .authenticating ∨ c.state = .configuring ∨ c.state = .online
  · rw [if_pos h1] at h
    obtain ⟨h2, h⟩ := screen_none_long h
    obtain ⟨h3, h⟩ := screen_none_holds h
    have h4 : c.cbs.serverConfig = true := Classical.byContradiction fun h4 => by rw [if_neg h4] at h; cases h
    have hr1 := rd_isSome (bs := m) (off := 1) (len := 2) (by omega)
    unfold handleServerConfig
    rw [if_neg (by simp [hsv]), if_neg (by rcases h1 with h1 | h1 | h1 | h1 <;> simp [validStateForServerConfig, h1]),
      if_neg (by omega), hr1]
    simp only
    rw [num16_rd hr1, if_neg (by omega), if_neg (by simp [h4]), rd_isSome (by omega)]
    simp only
    split
    · rename_i hrc
      exact ⟨[_], rfl, fun _ => ⟨rfl, _, _, .head _, hrc⟩⟩
    · exact .ok (.emit (.refl c) trivial)
  · rw [if_neg h1] at h; cases h

/-- How an AUTH message that was not turned away can end the call. -/
def AuthEnd (cbs : Callbacks) (m : Bytes) (tail : Log) (rc : RC) : Prop :=
  (rc = denial cbs m ∧ ∃ n, Effect.state .disconnecting n ∈ tail) ∨ .populate rc ∈ tail

theorem authSwitch_out (env : Env) (c : Conn) (m : Bytes) (ty : UInt8) (hty : m[1]? = some ty)
    (h : (if m[1]? = some 1 ∧ c.cbs.auth = true then whenLong m 104 none
  else if (m[1]? = some 2 ∧ c.cbs.authToken = true) ∨ (m[1]? = some 23 ∧ c.cbs.authBuf = true) then
    whenLong m 5 (whenLong m (4 + num16 m 2) none)
  else none) = none) :
    ∃ c' ok m', authSwitch env c m ty = .verdict c' ok (denial c.cbs m) m' ∧ NoMsg c c' ∧ c'.state = c.state := by
  have dn : ∀ rc, (if ty = 1 ∧ c.cbs.auth = false then RC.accessDeniedNoAuthUserpassHandler
      else if ty = 2 ∧ c.cbs.authToken = false then .accessDeniedNoAuthTokenHandler
      else if ty = 23 ∧ c.cbs.authBuf = false then .accessDeniedNoAuthBufHandler
      else .accessDenied) = rc → denial c.cbs m = rc := by
    intro rc h; rw [← h]; unfold denial; rw [hty]; simp only [Option.some.injEq]
  unfold authSwitch
  rw [hty] at h
  by_cases h1 : ty = 1
  · subst h1
    rw [if_pos (show (1 : UInt8) = authUserPassTy from rfl)]
    by_cases h2 : c.cbs.auth = true
    · rw [if_pos ⟨rfl, h2⟩] at h
      obtain ⟨h3, -⟩ := screen_none_long h
      have hw : (wr m 54 (zeros 50)).isSome := by simp [wr, zeros]; omega
      obtain ⟨w, hw⟩ := Option.isSome_iff_exists.mp hw
      rw [dn .accessDenied (by simp [h2]), if_pos h2, if_neg (by omega), rd_isSome (by omega), rd_isSome (by omega), hw]
      exact ⟨_, _, _, rfl, ⟨[_], rfl, by simp [Still]⟩, rfl⟩
    · rw [dn .accessDeniedNoAuthUserpassHandler (by simp [h2]), if_neg h2]
      exact ⟨_, _, _, rfl, .refl c, rfl⟩
  · rw [if_neg (by simp [h1])] at h
    rw [if_neg (show ¬ty = authUserPassTy from h1)]
    by_cases h2 : ty = 2
    · subst h2
      rw [if_pos (show (2 : UInt8) = authTokenTy from rfl)]
      by_cases h3 : c.cbs.authToken = true
      · rw [if_pos (.inl ⟨rfl, h3⟩)] at h
        obtain ⟨h4, h⟩ := screen_none_long h
        obtain ⟨h5, -⟩ := screen_none_long h
        have hr := rd_isSome (bs := m) (off := 2) (len := 2) (by omega)
        rw [dn .accessDenied (by simp [h3]), if_pos h3, if_neg (by omega), hr]
        simp only
        rw [num16_rd hr, if_neg (by omega), rd_isSome (by omega)]
        exact ⟨_, _, _, rfl, ⟨[_], rfl, by simp [Still]⟩, rfl⟩
      · rw [dn .accessDeniedNoAuthTokenHandler (by simp [h3]), if_neg h3]
        exact ⟨_, _, _, rfl, .refl c, rfl⟩
    · rw [if_neg (show ¬ty = authTokenTy from h2)]
      by_cases h3 : ty = 23
      · subst h3
        rw [if_pos (show (23 : UInt8) = authCbTy from rfl)]
        by_cases h3 : c.cbs.authBuf = true
        · rw [if_pos (.inr ⟨rfl, h3⟩)] at h
          obtain ⟨h4, h⟩ := screen_none_long h
          obtain ⟨h5, -⟩ := screen_none_long h
          have hr := rd_isSome (bs := m) (off := 2) (len := 2) (by omega)
          rw [dn .accessDenied (by simp [h3]), if_pos h3, if_neg (by omega), hr]
          simp only
          rw [num16_rd hr, if_neg (by omega), rd_isSome (by omega)]
          exact ⟨_, _, _, rfl, ⟨[_], rfl, by simp [Still]⟩, rfl⟩
        · rw [dn .accessDeniedNoAuthBufHandler (by simp [h3]), if_neg h3]
          exact ⟨_, _, _, rfl, .refl c, rfl⟩
      · rw [dn .accessDenied (by simp [h1, h2, h3]), if_neg (show ¬ty = authCbTy from h3)]
        exact ⟨_, _, _, rfl, .refl c, rfl⟩

theorem handleAuth_out (env : Env) (c : Conn) (m : Bytes) (hsv : c.isServer = true) (hst : c.state ≠ .disconnecting)
    (h : (if c.cbs.populate = true ∧ (c.cbs.auth = true ∨ c.cbs.authToken = true ∨ c.cbs.authBuf = true) then screenAuth c.cbs m
      else some (.refused .invalidConnState)) = none) :
    Out c (handleAuth env c m) (AuthEnd c.cbs m) := by
  by_cases h1 : c.cbs.populate = true ∧ (c.cbs.auth = true ∨ c.cbs.authToken = true ∨ c.cbs.authBuf = true)
  · rw [if_pos h1] at h
    unfold screenAuth at h
    obtain ⟨h2, h⟩ := screen_none_long h
    obtain ⟨c1, ok, m', he, ⟨l, hl, _⟩, hs⟩ := authSwitch_out env c m m[1] (List.getElem?_eq_getElem (by omega)) h
    unfold handleAuth handleAuthBuf
    rw [if_neg (by simp [hsv]), if_neg (by simp [h1.1]), if_neg (by rintro ⟨a, b, d⟩; simp_all), if_neg (by omega), rd_one (by omega)]
    simp only
    rw [he]
    simp only
    split
    · obtain ⟨l2, hl2, _⟩ := sendMessage_noMsg env c1 authDeniedMsg
      have hs2 : (sendAuthDenied env c1).state ≠ .disconnecting := by
        rw [show (sendAuthDenied env c1).state = c1.state from (sendMessage_frame env c1 authDeniedMsg).nFrame.state, hs]
        exact hst
      have hl2 : (sendAuthDenied env c1).log = l2 ++ c1.log := hl2
      refine ⟨.state .disconnecting (sendAuthDenied env c1).cbs.stateChange :: (l2 ++ l), ?_, fun _ => .inl ⟨rfl, _, .head _⟩⟩
      unfold setState
      rw [if_neg hs2]
      show _ :: (sendAuthDenied env c1).log = _
      rw [hl2, hl]; simp
    · split
      · obtain ⟨l2, hl2, _⟩ := sendMessage_noMsg env (c1.emit (.populate (env.populate c1.log).1)) authDeniedMsg
        refine ⟨l2 ++ (.populate (env.populate c1.log).1 :: l), ?_, fun _ => .inr (by simp)⟩
        show (sendMessage env (c1.emit (.populate (env.populate c1.log).1)) authDeniedMsg).1.log = _
        rw [hl2]; show _ ++ (_ :: c1.log) = _; rw [hl]; simp
      · refine .ok ((NoMsg.trans ?_ (sendMessage_noMsg env _ _)).trans (setState_noMsg _ _))
        exact ⟨.populate (env.populate c1.log).1 :: l, by show _ :: c1.log = _; rw [hl]; rfl, by
          intro x hx
          rcases List.mem_cons.mp hx with rfl | hx
          · trivial
          · rename_i hst _ _ _; exact hst x hx⟩
  · rw [if_neg h1] at h; cases h

theorem processMessage_out (env : Env) (c : Conn) (m : Bytes) (hne : m ≠ []) (hst : c.state ≠ .disconnecting)
    (h : screen c.isServer c.state c.cbs m = none) : Out c (processMessage env c m) (ActedEnd c.cbs m) := by
  cases m with
  | nil => exact absurd rfl hne
  | cons id t =>
  unfold processMessage
  simp only
  unfold screen at h
  unfold ActedEnd
  simp only [List.head?_cons] at h ⊢
  by_cases h1 : id = msgNoop
  · rw [if_pos h1]; exact .ok (.refl c)
  rw [if_neg h1]
  by_cases h2 : id = msgPing
  · rw [if_pos h2]; subst h2; exact handlePing_out env c _ h
  rw [if_neg h2]
  by_cases h3 : id = msgPong
  · rw [if_pos h3]
    have hn := handlePong_noMsg env c (id :: t)
    have hr : (handlePong env c (id :: t)).2 = .success := by
      subst h3
      simp only [msgPong] at h
      by_cases hl : ((3 : UInt8) :: t).length < 5
      · rw [if_pos hl] at h; cases h
      · unfold handlePong
        rw [if_neg (show ¬(msgPong :: t).length < 5 from hl), rd_isSome (by simp only [List.length_cons, msgPong] at hl ⊢; omega)]
        simp only
        split <;> rfl
    generalize handlePong env c (id :: t) = q at hn hr ⊢
    obtain ⟨c1, rc⟩ := q
    simp only at hr hn
    subst hr
    exact .ok hn
  rw [if_neg h3]
  by_cases h4 : id = msgAuth
  · rw [if_pos h4]; subst h4; simp only [msgAuth] at h
    by_cases hs : c.isServer = true
    · rw [if_pos hs] at h ⊢
      exact handleAuth_out env c _ hs hst h
    · rw [if_neg hs]; exact .ok (.refl c)
  rw [if_neg h4]
  by_cases h5 : id = msgData
  · rw [if_pos h5]; subst h5; exact handleData_out c _ h
  rw [if_neg h5]
  by_cases h6 : id = msgConfigIpv4
  · rw [if_pos h6]; subst h6; simp only [msgConfigIpv4] at h
    by_cases hs : c.isServer = true
    · rw [if_neg (by simp [hs])]; exact .ok (.refl c)
    · rw [if_pos (by simpa using hs)]
      exact handleConfig_out env c _ (by simpa using hs) h
  rw [if_neg h6]
  by_cases h7 : id = msgAuthResponse
  · subst h7; simp only [msgAuthResponse] at h; cases h
  rw [if_neg h7]
  by_cases h8 : id = msgAuthResponseWithConfig
  · rw [if_pos h8]; exact .ok (.refl c)
  rw [if_neg h8]
  by_cases h9 : id = msgGoodbye
  · subst h9; simp only [msgGoodbye] at h; cases h
  rw [if_neg h9]
  by_cases h10 : id = msgExtension
  · rw [if_pos h10]; exact .ok (.refl c)
  rw [if_neg h10]
  by_cases h11 : id = msgDeprecated13
  · rw [if_pos h11]; subst h11; exact handleDeprecated13_out c _ h
  rw [if_neg h11]
  by_cases h12 : id = msgServerConfig
  · rw [if_pos h12]; subst h12; simp only [msgServerConfig] at h
    by_cases hs : c.isServer = true
    · rw [if_neg (by simp [hs])]; exact .ok (.refl c)
    · rw [if_pos (by simpa using hs)]
      rw [if_neg hs] at h
      exact handleServerConfig_out env c _ (by simpa using hs) h
  rw [if_neg h12]
  by_cases h13 : id = msgDataWithFrag
  · rw [if_pos h13]; subst h13; exact handleDataFrag_out env c _ h
  rw [if_neg h13]
  exact .ok (.refl c)

/-! ## Renegotiation -/

/-- No step of a renegotiation between `c` and `c'` went wrong. -/
def RFine (env : Env) (c c' : Conn) : Prop :=
  ∃ t, c'.log = t ++ c.log ∧ ∀ a call ok b, t = a ++ .sslCall call ok :: b → renegCode call (env.ssl (b ++ c.log) call) = .success

theorem RFine.refl (env : Env) (c : Conn) : RFine env c c := ⟨[], rfl, fun a call ok b h => by simp at h⟩

theorem RFine.of_log {env : Env} {c c' : Conn} (h : c'.log = c.log) : RFine env c c' := ⟨[], h, fun a call ok b h => by simp at h⟩

theorem split_append {α : Type} {s t a b : List α} {e : α} (h : s ++ t = a ++ e :: b) :
    (∃ b', s = a ++ e :: b' ∧ b = b' ++ t) ∨ ∃ a', a = s ++ a' ∧ t = a' ++ e :: b := by
  rcases List.append_eq_append_iff.mp h with ⟨a', h1, h2⟩ | ⟨a', h1, h2⟩
  · exact .inr ⟨a', h1, h2⟩
  · cases a' with
    | nil => exact .inr ⟨[], by simpa using h1.symm, by simpa using h2.symm⟩
    | cons x xs =>
      simp only [List.cons_append, List.cons.injEq] at h2
      obtain ⟨rfl, rfl⟩ := h2
      exact .inl ⟨xs, h1, rfl⟩

theorem RFine.trans {env : Env} {a b c : Conn} (h1 : RFine env a b) (h2 : RFine env b c) : RFine env a c := by
  obtain ⟨t1, e1, f1⟩ := h1
  obtain ⟨t2, e2, f2⟩ := h2
  refine ⟨t2 ++ t1, by rw [e2, e1]; simp, fun x call ok y h => ?_⟩
  rcases split_append h with ⟨b', h3, rfl⟩ | ⟨a', _, h3⟩
  · have := f2 _ _ _ _ h3
    rwa [e1, ← List.append_assoc] at this
  · exact f1 _ _ _ _ h3

theorem RFine.still {env : Env} {c c' : Conn} {t : Log} (h : c'.log = t ++ c.log) (hn : ∀ call ok, Effect.sslCall call ok ∉ t) : RFine env c c' :=
  ⟨t, h, fun a call ok b e => absurd (by rw [e]; simp) (hn call ok)⟩

theorem RFine.emit (env : Env) (c : Conn) {e : Effect} (h : ∀ call ok, e ≠ .sslCall call ok) : RFine env c (c.emit e) :=
  RFine.still (t := [e]) rfl fun call ok hm => by simp at hm; exact h _ _ hm.symm

theorem says_split {l a b : Log} {e e' : Effect} (h : l ++ [e] = a ++ e' :: b) (hl : ∀ x ∈ l, x ≠ e') : b = [] ∧ e' = e := by
  rcases split_append h with ⟨b', h1, _⟩ | ⟨a', _, h2⟩
  · exact absurd rfl (hl e' (by rw [h1]; simp))
  · cases a' with
    | nil => simp at h2; exact ⟨h2.2, h2.1.symm⟩
    | cons x xs => simp at h2

theorem sslDo_rfine (env : Env) (c : Conn) (call : SslCall) (h : ∀ r, renegCode call r = .success) : RFine env c (sslDo env c call).1 := by
  obtain ⟨l, hl, hio⟩ := sslDo_says env c call
  refine ⟨l ++ [.sslCall call (sslDo env c call).2.ok], by rw [hl]; simp, fun a call' ok b e => ?_⟩
  obtain ⟨rfl, he⟩ := says_split e (fun x hx hh => by have := hio x hx; rw [hh] at this; exact this.elim)
  injection he with he1 he2
  rw [he1]; exact h _

theorem sslVer_rfine (env : Env) (c : Conn) : RFine env c (sslVer env c).1 := by
  unfold sslVer
  split
  · exact .refl env c
  · exact .emit env c (by simp)

theorem updateTimeout_rfine (env : Env) (c : Conn) : RFine env c (updateTimeout env c) := by
  unfold updateTimeout
  split
  · exact .refl env c
  simp only
  have h1 := sslDo_rfine env c .currentTimeout (fun _ => rfl)
  generalize sslDo env c .currentTimeout = q at h1 ⊢
  obtain ⟨c1, r⟩ := q
  simp only at h1 ⊢
  have h2 := h1.trans (sslVer_rfine env c1)
  generalize sslVer env c1 = q at h2 ⊢
  obtain ⟨c2, v⟩ := q
  simp only at h2 ⊢
  have fin : ∀ (d : Conn) (t : Int), RFine env c d → RFine env c
      (if ({ d.emit (.timer t) with wolfTimeout := t } : Conn).cbs.nudgeTime = true ∧ (!({ d.emit (.timer t) with wolfTimeout := t } : Conn).nudgeTimerRunning) = true then
        { ({ d.emit (.timer t) with wolfTimeout := t } : Conn).emit (.nudgeTime t) with nudgeTimerRunning := true }
      else { d.emit (.timer t) with wolfTimeout := t }) := by
    intro d t hd
    split
    · exact hd.trans (.still (t := [.nudgeTime t, .timer t]) rfl (by simp))
    · exact hd.trans (.still (t := [.timer t]) rfl (by simp))
  by_cases hv : v = .dtls12
  · subst hv
    exact fin c2 _ h2
  · rw [if_pos hv]
    have h3 := h2.trans (sslDo_rfine env c2 .quickTimeout (fun _ => rfl))
    generalize sslDo env c2 .quickTimeout = q at h3 ⊢
    obtain ⟨c3, r3⟩ := q
    exact fin c3 _ h3

/-- The outcome of the renegotiation. -/
def RenegOut (env : Env) (c : Conn) (r : Conn × RC) : Prop :=
  (r.2 = .success ∧ RFine env c r.1) ∨
  (r.2 ≠ .success ∧ ∃ t a call ok b, r.1.log = t ++ c.log ∧ t = a ++ .sslCall call ok :: b ∧ renegCode call (env.ssl (b ++ c.log) call) = r.2)

theorem RenegOut.before {env : Env} {a c : Conn} {r : Conn × RC} (h : RenegOut env c r) (hf : RFine env a c) : RenegOut env a r := by
  rcases h with ⟨h1, h2⟩ | ⟨h1, t, x, call, ok, b, h2, h3, h4⟩
  · exact .inl ⟨h1, hf.trans h2⟩
  · obtain ⟨t1, e1, _⟩ := hf
    exact .inr ⟨h1, t ++ t1, x, call, ok, b ++ t1, by rw [h2, e1]; simp, by rw [h3]; simp, by rw [List.append_assoc, ← e1]; exact h4⟩

theorem sslVer_set (env : Env) (c : Conn) (hw : c.wolfSet = true) : (sslVer env c).1 = c := by
  unfold sslVer; rw [if_pos hw]

theorem sslDo_answer (env : Env) (c : Conn) (call : SslCall) (hw : c.wolfSet = true) : (sslDo env c call).2 = env.ssl c.log call := by
  unfold sslDo; rw [if_pos hw]

theorem renegGo_out (env : Env) (c : Conn) (call : SslCall) (hc : call = .rehandshake ∨ call = .updateKeys) (hw : c.wolfSet = true) :
    RenegOut env c (let q := sslDo env c call
      let c2 := generateEvent { q.1 with renegInProgress := true } .renegStarted
      if q.2.ok then (c2, .success)
      else
        match q.2.err with
        | .none | .wantRead | .wantWrite | .appDataReady => (updateTimeout env c2, .success)
        | .secureReneg => (c2, .secureRenegotiationError)
        | e => ({ c2 with wolfError := e }, .sslError)) := by
  obtain ⟨l, hl, hio⟩ := sslDo_says env c call
  have ha := sslDo_answer env c call hw
  generalize sslDo env c call = q at hl ha ⊢
  obtain ⟨c1, r⟩ := q
  simp only at hl ha ⊢
  have hl2 : (generateEvent { c1 with renegInProgress := true } .renegStarted).log =
      (.event .renegStarted c1.cbs.event :: (l ++ [.sslCall call r.ok])) ++ c.log := by
    show _ :: c1.log = _; rw [hl]; simp
  generalize generateEvent { c1 with renegInProgress := true } .renegStarted = c2 at hl2 ⊢
  have good : renegCode call r = .success → RFine env c c2 := by
    intro hr
    refine ⟨_, hl2, fun a call' ok b e => ?_⟩
    rw [← List.cons_append] at e
    obtain ⟨rfl, he⟩ := says_split (l := .event .renegStarted c1.cbs.event :: l) e (fun x hx hh => by
      rcases List.mem_cons.mp hx with rfl | hx
      · cases hh
      · have := hio x hx; rw [hh] at this; exact this.elim)
    injection he with he1 he2
    rw [he1, List.nil_append, ← ha]; exact hr
  have bad : ∀ (d : Conn) (rc : RC), d.log = c2.log → rc ≠ .success → renegCode call r = rc → RenegOut env c (d, rc) :=
    fun d rc hd h1 h2 => .inr ⟨h1, _, .event .renegStarted c1.cbs.event :: l, call, r.ok, [], hd.trans hl2, rfl, by
      rw [List.nil_append, ← ha]; exact h2⟩
  have code : renegCode call r = if r.ok = true ∨ r.err = .none ∨ r.err = .wantRead ∨ r.err = .wantWrite ∨ r.err = .appDataReady then .success
    else if r.err = .secureReneg then .secureRenegotiationError
    else .sslError := by rcases hc with rfl | rfl <;> rfl
  by_cases hok : r.ok = true
  · rw [if_pos hok]; exact .inl ⟨rfl, good (by rw [code, if_pos (.inl hok)])⟩
  · rw [if_neg hok]
    split
    · rename_i he; exact .inl ⟨rfl, (good (by rw [code, if_pos (by simp [he])])).trans (updateTimeout_rfine env c2)⟩
    · rename_i he; exact .inl ⟨rfl, (good (by rw [code, if_pos (by simp [he])])).trans (updateTimeout_rfine env c2)⟩
    · rename_i he; exact .inl ⟨rfl, (good (by rw [code, if_pos (by simp [he])])).trans (updateTimeout_rfine env c2)⟩
    · rename_i he; exact .inl ⟨rfl, (good (by rw [code, if_pos (by simp [he])])).trans (updateTimeout_rfine env c2)⟩
    · rename_i he; exact bad _ _ rfl (by simp) (by rw [code, if_neg (by simp [he, hok]), if_pos he])
    · rename_i a1 a2 a3 a4 a5
      exact bad _ _ rfl (by simp) (by rw [code, if_neg (by simp; exact ⟨by simpa using hok, a1, a2, a3, a4⟩), if_neg a5])

theorem renegotiateSsl_out (env : Env) (c : Conn) (hw : c.wolfSet = true) : RenegOut env c (renegotiateSsl env c) := by
  unfold renegotiateSsl
  simp only
  have h0 : RFine env c { c with renegDue := false } := .of_log rfl
  split
  · exact .inl ⟨rfl, h0⟩
  · have hw0 : ({ c with renegDue := false } : Conn).wolfSet = true := hw
    generalize ({ c with renegDue := false } : Conn) = c0 at h0 hw0 ⊢
    have e1 := sslVer_set env c0 hw0
    generalize sslVer env c0 = q at e1 ⊢
    obtain ⟨c1, v⟩ := q
    simp only at e1 ⊢
    subst e1
    split
    · have h2 := h0.trans (sslDo_rfine env c1 .renegSupport (fun _ => rfl))
      have n2 := sslDo_n env c1 .renegSupport
      generalize sslDo env c1 .renegSupport = q at h2 n2 ⊢
      obtain ⟨c2, s⟩ := q
      simp only at h2 n2 ⊢
      split
      · exact .inl ⟨rfl, h2⟩
      · exact (renegGo_out env c2 .rehandshake (.inl rfl) (by rw [n2.wolfSet]; exact hw0)).before h2
    · exact (renegGo_out env c1 .updateKeys (.inr rfl) hw0).before h0

theorem renegFin_rfine (env : Env) (c : Conn) (p : Bool) :
    RFine env c (updateTimeout env { (if (!p) = true then generateEvent c .renegCompleted else c) with renegInProgress := p }) := by
  refine RFine.trans ?_ (updateTimeout_rfine env _)
  cases p
  · exact .still (t := [.event .renegCompleted c.cbs.event]) rfl (by simp)
  · exact .of_log rfl

theorem renegTail_out (env : Env) (c : Conn) (hw : c.wolfSet = true) : RenegOut env c (renegTail env c) := by
  unfold renegTail
  split
  · exact .inl ⟨rfl, .refl env c⟩
  · simp only
    have e1 := sslVer_set env c hw
    generalize sslVer env c = q at e1 ⊢
    obtain ⟨c1, v⟩ := q
    simp only at e1 ⊢
    subst e1
    split
    · have h2 := sslDo_rfine env c1 .renegPending (fun _ => rfl)
      generalize sslDo env c1 .renegPending = q at h2 ⊢
      obtain ⟨c2, r⟩ := q
      exact .inl ⟨rfl, h2.trans (renegFin_rfine env c2 _)⟩
    · obtain ⟨l, hl, hio⟩ := sslDo_says env c1 .keyUpdateResponse
      have ha := sslDo_answer env c1 .keyUpdateResponse hw
      generalize sslDo env c1 .keyUpdateResponse = q at hl ha ⊢
      obtain ⟨c2, r⟩ := q
      simp only at hl ha ⊢
      split
      · rename_i hr
        exact .inr ⟨by simp, l ++ [.sslCall .keyUpdateResponse r.ok], l, _, _, [], by show c2.log = _; rw [hl]; simp, rfl, by
          rw [List.nil_append, ← ha]
          show (if r.ok = true then _ else _) = _
          rw [if_neg (by simpa using hr)]⟩
      · rename_i hr
        refine .inl ⟨rfl, RFine.trans ⟨l ++ [.sslCall .keyUpdateResponse r.ok], by rw [hl]; simp, fun a call' ok b e => ?_⟩ (renegFin_rfine env c2 _)⟩
        obtain ⟨rfl, he⟩ := says_split e (fun x hx hh => by have := hio x hx; rw [hh] at this; exact this.elim)
        injection he with he1 he2
        rw [he1, List.nil_append, ← ha]
        show (if r.ok = true then _ else _) = _
        rw [if_pos (by simpa using hr)]

/-- The outcome of the reading loop. -/
def LoopEnd (stream : Bool) (reads : List ReadRes) (base x : Log) : Option RC → Prop
  | none => messages x = onOffer reads ∧ offerEnd reads = .quiet
  | some rc => (messages x = onOffer reads ∧ offerEnd reads = .closed ∧ rc = .connectionWasClosed) ∨
      (messages x = onOffer reads ∧ offerEnd reads = .failed ∧ rc = if stream then .sslError else .sslErrorNonfatal) ∨
      ∃ tail older m, x = tail ++ .message m :: older ∧ messages tail = [] ∧ messages older ++ [m] <+: onOffer reads ∧
        EndedBy (older ++ base) m tail rc

/-- The loop goes on after more history without end. -/
theorem LoopEnd.after {stream : Bool} {reads reads' : List ReadRes} {base y x : Log} {o : Option RC}
    (h : LoopEnd stream reads (y ++ base) x o) (ho : onOffer reads' = messages y ++ onOffer reads)
    (he : offerEnd reads' = offerEnd reads) : LoopEnd stream reads' base (x ++ y) o := by
  cases o with
  | none => exact ⟨by rw [messages_append, ho, h.1], he.trans h.2⟩
  | some rc =>
    rcases h with ⟨h1, h2, h3⟩ | ⟨h1, h2, h3⟩ | ⟨tail, older, m, h1, h2, h3, h4⟩
    · exact .inl ⟨by rw [messages_append, ho, h1], he.trans h2, h3⟩
    · exact .inr (.inl ⟨by rw [messages_append, ho, h1], he.trans h2, h3⟩)
    · refine .inr (.inr ⟨tail, older ++ y, m, by rw [h1]; simp, h2, ?_, by rw [List.append_assoc]; exact h4⟩)
      rw [messages_append, ho, List.append_assoc]
      exact (List.prefix_append_right_inj _).mpr h3

theorem messageLoop_end (env : Env) (c : Conn) (reads : List ReadRes)
    (hi : Inv env (some .outsideData) c) (hs : MsgState c.state) (hw : c.wolfSet = true) :
    ∃ x, (messageLoop env c reads).1.log = x ++ c.log ∧
      LoopEnd (decide (c.connType = .stream)) reads c.log x (messageLoop env c reads).2 := by
  induction reads generalizing c with
  | nil =>
    unfold messageLoop
    rw [if_pos hw]
    exact ⟨[_], rfl, rfl, rfl⟩
  | cons r rest ih =>
    unfold messageLoop
    rw [if_neg (by simp [hw])]
    simp only
    have hiff : r.plain.take maxWireMtu = [] ↔ r.plain = [] := by simp [maxWireMtu]
    have ho : onOffer (r :: rest) = if r.plain ≠ [] then r.plain.take maxWireMtu :: onOffer rest
      else if r.err = .appDataReady then onOffer rest else [] := rfl
    have hoe : offerEnd (r :: rest) = if r.plain ≠ [] then offerEnd rest
      else if r.err = .appDataReady then offerEnd rest
      else if r.err = .none ∨ r.err = .wantRead ∨ r.err = .wantWrite then .quiet
      else if r.retZero = true then .closed else .failed := rfl
    generalize r.plain.take maxWireMtu = plain at hiff ho ⊢
    have h1 : MO env c (ioRun env (c.emit (.sslCall .read (!plain.isEmpty))) r.io) :=
      (Star.one (.quiet c _ trivial)).trans (ioRun_star env _ _ _ id)
    have n1 : NFrame c (ioRun env (c.emit (.sslCall .read (!plain.isEmpty))) r.io) :=
      (NFrame.emit c (e := .sslCall .read (!plain.isEmpty)) trivial).trans (ioRun_frame env _ _).nFrame
    have m1 : NoMsg c (ioRun env (c.emit (.sslCall .read (!plain.isEmpty))) r.io) :=
      (NoMsg.emit (.refl c) (e := .sslCall .read (!plain.isEmpty)) trivial).trans (ioRun_noMsg env _ _)
    generalize ioRun env (c.emit (.sslCall .read (!plain.isEmpty))) r.io = c1 at h1 n1 m1 ⊢
    have i1 := h1.inv hi
    have hs1 : MsgState c1.state := by rw [n1.state]; exact hs
    have hk := MO.keeps h1
    have hw1 : c1.wolfSet = true := by rw [hk.1]; exact hw
    obtain ⟨l1, e1, st1⟩ := m1
    have ms1 := messages_still st1
    by_cases hp : plain.isEmpty = true
    · rw [if_pos hp]
      have hp : r.plain = [] := hiff.mp (by simpa using hp)
      rw [if_neg (by simp [hp])] at ho hoe
      split
      · rename_i he
        rw [he] at ho hoe
        exact ⟨l1, e1, by rw [ms1, ho]; rfl, by rw [hoe]; rfl⟩
      · rename_i he
        rw [he] at ho hoe
        exact ⟨l1, e1, by rw [ms1, ho]; rfl, by rw [hoe]; rfl⟩
      · rename_i he
        rw [he] at ho hoe
        exact ⟨l1, e1, by rw [ms1, ho]; rfl, by rw [hoe]; rfl⟩
      · rename_i he
        rw [he] at ho hoe
        rw [if_pos rfl] at ho hoe
        obtain ⟨x, hx, hl⟩ := ih c1 i1 hs1 hw1
        rw [hk.2] at hl
        rw [e1] at hx hl
        exact ⟨x ++ l1, by rw [hx]; simp, hl.after (by rw [ho, ms1]; rfl) hoe⟩
      · rename_i a1 a2 a3 a4
        rw [if_neg a4] at ho hoe
        rw [if_neg (by simp; exact ⟨a1, a2, a3⟩)] at hoe
        split
        · rename_i hz
          rw [if_pos hz] at hoe
          exact ⟨l1, e1, .inl ⟨by rw [ms1, ho], hoe, rfl⟩⟩
        · rename_i hz
          rw [if_neg hz] at hoe
          refine ⟨l1, e1, .inr (.inl ⟨by rw [ms1, ho], hoe, ?_⟩)⟩
          simp only [hk.2, decide_eq_true_eq]
    · rw [if_neg hp]
      have hpl : plain ≠ [] := by intro hh; rw [hh] at hp; exact hp rfl
      have hp : r.plain ≠ [] := fun h => hpl (hiff.mpr h)
      rw [if_pos hp] at ho hoe
      have h1 := h1.tail (.message c1 plain rfl hs1)
      have h2 := processMessage_star env (c1.emit (.message plain)) plain (h1.inv hi) hw1 hs1 ⟨_, rfl⟩
      have hn := processMessage_noMsg env (c1.emit (.message plain)) plain
      have hsc := processMessage_screen env (c1.emit (.message plain)) plain
      have hout := processMessage_out env (c1.emit (.message plain)) plain hpl hs1.2.1
      have hv := i1.screen plain
      have hcase : Spec.screen c1.isServer c1.state c1.cbs plain = none ∨
          ∃ v, Spec.screen c1.isServer c1.state c1.cbs plain = some v := by
        cases Spec.screen c1.isServer c1.state c1.cbs plain with
        | none => exact .inl rfl
        | some v => exact .inr ⟨v, rfl⟩
      generalize processMessage env (c1.emit (.message plain)) plain = q at h2 hn hsc hout ⊢
      obtain ⟨c2, rc⟩ := q
      simp only at h2 hn hsc hout ⊢
      have h12 := h1.trans h2.1
      have hk2 := MO.keeps h12
      obtain ⟨l2, e2, st2⟩ := hn
      have ms2 := messages_still st2
      have e2' : c2.log = (l2 ++ .message plain :: l1) ++ c.log := by
        rw [e2]; show l2 ++ .message plain :: c1.log = _; rw [e1]; simp
      have msy : messages (l2 ++ .message plain :: l1) = [plain] := by
        rw [messages_append, ms2]; show messages l1 ++ [plain] ++ [] = _; rw [ms1]; rfl
      by_cases hrc : rc = .success
      · rw [if_neg (by simp [hrc])]
        obtain ⟨x, hx, hl⟩ := ih c2 (h12.inv hi) (h2.2 hrc) (hk2.1.trans hw)
        rw [hk2.2] at hl
        rw [e2'] at hx hl
        exact ⟨x ++ (l2 ++ .message plain :: l1), by rw [hx]; simp, hl.after (by rw [ho, msy]; rfl) hoe⟩
      · rw [if_pos hrc]
        refine ⟨l2 ++ .message plain :: l1, e2', .inr (.inr ⟨l2, l1, plain, rfl, ms2, ?_, ?_⟩)⟩
        · rw [ms1, ho]
          exact ⟨onOffer rest, rfl⟩
        · unfold EndedBy
          rw [← e1, hv]
          rcases hcase with hcase | ⟨v, hcase⟩
          · rw [hcase]
            simp only
            obtain ⟨l', e', ho'⟩ := hout hcase
            have : l' = l2 := List.append_cancel_right (e'.symm.trans e2)
            rw [← this, i1.reg]
            exact ⟨hrc, ho' hrc⟩
          · rw [hcase]
            simp only
            have he := hsc v hpl hcase
            injection he with he1 he2
            refine ⟨?_, ?_⟩
            · cases v with
              | ignored => exact absurd he2 hrc
              | refused rc' => rw [show rc = rc' from he2]
            · rw [he1] at e2
              exact List.self_eq_append_left.mp e2

/-! ## The whole call -/

theorem Spec.ReceiveEnd.before {env : Env} {stream : Bool} {reads : List ReadRes} {base y x : Log} {rc : RC}
    (h : ReceiveEnd env stream reads (y ++ base) x rc) (hy : messages y = []) : ReceiveEnd env stream reads base (x ++ y) rc := by
  have hm : messages (x ++ y) = messages x := by rw [messages_append, hy]; rfl
  cases h with
  | done h e g f r =>
    obtain ⟨o, g⟩ := g
    refine .done (hm.trans h) e ⟨o, List.mem_append_left _ g⟩ (fun newer call ok older hx hr => ?_) r
    rcases split_append hx with ⟨b', h1, rfl⟩ | ⟨a', h1, _⟩
    · rw [List.append_assoc]; exact f _ _ _ _ h1 hr
    · exact absurd (by rw [h1]; exact List.mem_append_left _ g) (hr o)
  | renegotiation h e f r =>
    obtain ⟨newer, call, ok, older, h1, h2⟩ := f
    exact .renegotiation (hm.trans h) e ⟨newer, call, ok, older ++ y, by rw [h1]; simp, by rw [List.append_assoc]; exact h2⟩ r
  | closed h e r => exact .closed (hm.trans h) e r
  | failed h e r => exact .failed (hm.trans h) e r
  | message tail older m h t p e =>
    refine .message tail (older ++ y) m (by rw [h]; simp) t ?_ (by rw [List.append_assoc]; exact e)
    rw [messages_append, hy]; exact p

theorem Spec.ReceiveEnd.session {env : Env} {stream : Bool} {reads : List ReadRes} {base x y : Log} {rc : RC}
    (h : ReceiveEnd env stream reads base (.ret .success :: x) .success) (hy : messages y = []) (hn : ∀ call ok, Effect.sslCall call ok ∉ y)
    (hrc : rc = .success ∨ rc = .unknownSession) : ReceiveEnd env stream reads base (.ret rc :: (y ++ x)) rc := by
  cases h with
  | done h e g f r =>
    obtain ⟨o, g⟩ := g
    refine .done ?_ e ⟨o, ?_⟩ (fun newer call ok older hx hr => ?_) hrc
    · show messages (y ++ x) = _
      rw [messages_append, hy, List.append_nil]; exact h
    · simp at g; simp [g]
    · rw [← List.cons_append] at hx
      rcases split_append hx with ⟨b', h1, rfl⟩ | ⟨a', h1, h2⟩
      · exfalso
        have : Effect.sslCall call ok ∈ Effect.ret rc :: y := by rw [h1]; simp
        simp at this
        exact hn _ _ this
      · refine f (.ret .success :: a') call ok older (by rw [h2]; rfl) (fun o' hm => hr o' ?_)
        simp at hm
        rw [h1]; simp [hm]
  | renegotiation h e f r => exact absurd rfl r
  | closed h e r => cases r
  | failed h e r => exfalso; cases stream <;> cases r
  | message tail older m h t p e =>
    exfalso
    unfold EndedBy at e
    split at e
    · rename_i v hv
      rw [e.1] at hv
      exact screen_refused _ _ _ _ hv
    · exact e.1 rfl

/-- A loop that ends quietly ends with a read. -/
theorem messageLoop_last (env : Env) (c : Conn) (reads : List ReadRes)
    (hi : Inv env (some .outsideData) c) (hs : MsgState c.state) (hw : c.wolfSet = true) :
    (messageLoop env c reads).2 = none → ∃ io o b, (messageLoop env c reads).1.log = (io ++ .sslCall .read o :: b) ++ c.log ∧
      ∀ e ∈ io, NetIo e := by
  induction reads generalizing c with
  | nil =>
    unfold messageLoop
    rw [if_pos hw]
    exact fun _ => ⟨[], false, [], rfl, by simp⟩
  | cons r rest ih =>
    unfold messageLoop
    rw [if_neg (by simp [hw])]
    simp only
    generalize r.plain.take maxWireMtu = plain
    have h1 : MO env c (ioRun env (c.emit (.sslCall .read (!plain.isEmpty))) r.io) :=
      (Star.one (.quiet c _ trivial)).trans (ioRun_star env _ _ _ id)
    have n1 : NFrame c (ioRun env (c.emit (.sslCall .read (!plain.isEmpty))) r.io) :=
      (NFrame.emit c (e := .sslCall .read (!plain.isEmpty)) trivial).trans (ioRun_frame env _ _).nFrame
    obtain ⟨l1, e1, s1⟩ := ioRun_netIo env (c.emit (.sslCall .read (!plain.isEmpty))) r.io
    generalize ioRun env (c.emit (.sslCall .read (!plain.isEmpty))) r.io = c1 at h1 n1 e1 ⊢
    have here : ∃ io o b, c1.log = (io ++ .sslCall .read o :: b) ++ c.log ∧ ∀ e ∈ io, NetIo e :=
      ⟨l1, !plain.isEmpty, [], by rw [e1]; simp [Conn.emit], s1⟩
    have i1 := h1.inv hi
    have hs1 : MsgState c1.state := by rw [n1.state]; exact hs
    have hk := MO.keeps h1
    have hw1 : c1.wolfSet = true := by rw [hk.1]; exact hw
    have later : ∀ (d : Conn) (t : Log), d.log = t ++ c.log → (∃ io o b, (messageLoop env d rest).1.log = (io ++ .sslCall .read o :: b) ++ d.log ∧ ∀ e ∈ io, NetIo e) →
        ∃ io o b, (messageLoop env d rest).1.log = (io ++ .sslCall .read o :: b) ++ c.log ∧ ∀ e ∈ io, NetIo e := by
      intro d t ht ⟨io, o, b, h, hio⟩
      exact ⟨io, o, b ++ t, by rw [h, ht]; simp, hio⟩
    by_cases hp : plain.isEmpty = true
    · rw [if_pos hp]
      split
      · exact fun _ => here
      · exact fun _ => here
      · exact fun _ => here
      · exact fun h => later c1 (l1 ++ [.sslCall .read (!plain.isEmpty)]) (by rw [e1]; simp [Conn.emit]) (ih c1 i1 hs1 hw1 h)
      · split <;> (intro h; cases h)
    · rw [if_neg hp]
      have h1 := h1.tail (.message c1 plain rfl hs1)
      have h2 := processMessage_star env (c1.emit (.message plain)) plain (h1.inv hi) hw1 hs1 ⟨_, rfl⟩
      have hn := processMessage_noMsg env (c1.emit (.message plain)) plain
      generalize processMessage env (c1.emit (.message plain)) plain = q at h2 hn ⊢
      obtain ⟨c2, rc⟩ := q
      simp only at h2 hn ⊢
      have h12 := h1.trans h2.1
      have hk2 := MO.keeps h12
      obtain ⟨l2, e2, _⟩ := hn
      by_cases hrc : rc = .success
      · rw [if_neg (by simp [hrc])]
        exact fun h => later c2 (l2 ++ .message plain :: (l1 ++ [.sslCall .read (!plain.isEmpty)])) (by
          rw [e2]; show l2 ++ _ :: c1.log = _; rw [e1]; simp [Conn.emit]) (ih c2 (h12.inv hi) (h2.2 hrc) (hk2.1.trans hw) h)
      · rw [if_pos hrc]; intro h; cases h

theorem handleMessages_end (env : Env) (c : Conn) (reads : List ReadRes)
    (hi : Inv env (some .outsideData) c) (hs : MsgState c.state) (hw : c.wolfSet = true) :
    ∃ x, (handleMessages env c reads).1.log = x ++ c.log ∧
      ReceiveEnd env (decide (c.connType = .stream)) reads c.log (.ret (handleMessages env c reads).2 :: x) (handleMessages env c reads).2 := by
  obtain ⟨x, hx, hl⟩ := messageLoop_end env c reads hi hs hw
  have hlast := messageLoop_last env c reads hi hs hw
  have hmo := messageLoop_star env c reads hi hs
  unfold handleMessages
  generalize messageLoop env c reads = q at hx hl hlast hmo ⊢
  obtain ⟨c1, o⟩ := q
  cases o with
  | some rc =>
    simp only at hx hl ⊢
    refine ⟨x, hx, ?_⟩
    rcases hl with ⟨h1, h2, h3⟩ | ⟨h1, h2, h3⟩ | ⟨tail, older, m, h1, h2, h3, h4⟩
    · exact .closed h1 h2 h3
    · exact .failed h1 h2 h3
    · exact .message tail older m (by rw [h1]) h2 h3 h4
  | none =>
    simp only at hx hl ⊢
    have hk : c1.wolfSet = true := by rw [(MO.keeps hmo).1]; exact hw
    obtain ⟨io, o, b0, hb, hio⟩ := hlast rfl
    have hb : x = io ++ .sslCall .read o :: b0 := List.append_cancel_right (hx.symm.trans hb)
    have fin : ∀ r : Conn × RC, RenegOut env c1 r → NoMsg c1 r.1 → ∃ x, r.1.log = x ++ c.log ∧
        ReceiveEnd env (decide (c.connType = .stream)) reads c.log (.ret r.2 :: x) r.2 := by
      intro r hr ⟨t, ht, hst⟩
      have hm : messages (t ++ x) = onOffer reads := by
        rw [messages_append, messages_still (l := t) hst, List.append_nil]; exact hl.1
      refine ⟨t ++ x, by rw [ht]; show t ++ c1.log = _; rw [show c1.log = x ++ c.log from hx]; simp, ?_⟩
      rcases hr with ⟨hok, t', ht', hf⟩ | ⟨hbad, t', a, call, ok, b, ht', hs', hcode⟩
      · have : t' = t := List.append_cancel_right (ht'.symm.trans ht)
        subst this
        refine .done hm hl.2 ⟨o, by rw [hb]; simp⟩ (fun newer call ok older hy hr => ?_) (.inl hok)
        rw [← List.cons_append] at hy
        rcases split_append hy with ⟨b', h1, rfl⟩ | ⟨a', h1, h2⟩
        · cases newer with
          | nil => simp at h1
          | cons n0 newer =>
            simp only [List.cons_append, List.cons.injEq] at h1
            have := hf _ _ _ _ h1.2
            rwa [show c1.log = x ++ c.log from hx, ← List.append_assoc] at this
        · rw [hb] at h2
          rcases split_append h2 with ⟨b', h3, _⟩ | ⟨a'', h3, h4⟩
          · exact (hio (.sslCall call ok) (by rw [h3]; simp)).elim
          · cases a'' with
            | nil =>
              simp at h4
              rw [← h4.1.1]; rfl
            | cons y ys =>
              simp only [List.cons_append, List.cons.injEq] at h4
              exact absurd (by rw [h1, h3, ← h4.1]; simp) (hr o)
      · have : t' = t := List.append_cancel_right (ht'.symm.trans ht)
        subst this
        exact .renegotiation hm hl.2 ⟨.ret r.2 :: a, call, ok, b ++ x, by rw [hs']; simp, by
          rw [List.append_assoc, ← show c1.log = x ++ c.log from hx]; exact hcode⟩ hbad
    split
    · have h3 := renegotiateSsl_out env c1 hk
      have f3 := renegotiateSsl_t env c1
      generalize renegotiateSsl env c1 = q3 at h3 f3 ⊢
      obtain ⟨c3, rc⟩ := q3
      simp only at f3 ⊢
      have hw3 : c3.wolfSet = true := by
        obtain ⟨l, inc, ps, sl, we, fm, wt, nt, rip, rd, sid, psid, rfl, _⟩ := f3; exact hk
      split
      · exact fin _ h3 f3.noMsg
      · rename_i hrc
        rcases h3 with ⟨_, h3⟩ | ⟨h3, _⟩
        · exact fin _ ((renegTail_out env c3 hw3).before h3) (f3.noMsg.trans (renegTail_t env c3).noMsg)
        · exact absurd h3 (by simpa using hrc)
    · exact fin _ (renegTail_out env c1 hk) (renegTail_t env c1).noMsg

/-- The result of the part of the call that talks to TLS. -/
def VRes (env : Env) (reads : List ReadRes) (c : Conn) (r : Conn × RC) : Prop :=
  ∃ x, r.1.log = x ++ c.log ∧ (Effect.sslCall .negotiate false ∈ x ∨
    ReceiveEnd env (decide (c.connType = .stream)) reads c.log (.ret r.2 :: x) r.2)

theorem VRes.before {env : Env} {reads : List ReadRes} {a c : Conn} {r : Conn × RC} (hl : VRes env reads c r) (h : NoMsg a c)
    (hk : c.connType = a.connType) : VRes env reads a r := by
  obtain ⟨x, hx, hv⟩ := hl
  obtain ⟨y, hy, hst⟩ := h
  refine ⟨x ++ y, by rw [hx, hy]; simp, ?_⟩
  rcases hv with hv | hv
  · exact .inl (List.mem_append_left _ hv)
  · rw [hk, hy] at hv
    exact .inr (hv.before (messages_still hst))

theorem VRes.of_end {env : Env} {reads : List ReadRes} {c : Conn} (hi : Inv env (some .outsideData) c) (hs : MsgState c.state)
    (hw : c.wolfSet = true) : VRes env reads c (handleMessages env c reads) := by
  obtain ⟨x, hx, h⟩ := handleMessages_end env c reads hi hs hw
  exact ⟨x, hx, .inr h⟩

theorem verifyConnection_res (env : Env) (c : Conn) (reads : List ReadRes)
    (hi : Inv env (some .outsideData) c) (hs : c.state ≠ .disconnecting ∧ c.state ≠ .disconnected) (hw : c.wolfSet = true) :
    VRes env reads c (verifyConnection env c reads) := by
  unfold verifyConnection
  have key : ∃ c1, (if (!c.firstMessageReceived) = true then
      generateEvent { c with firstMessageReceived := true } .firstMessageReceived else c) = c1 ∧
      MO env c c1 ∧ c1.state = c.state ∧ NoMsg c c1 := by
    split
    · rename_i hf
      exact ⟨_, rfl, .one (.first c rfl (by simpa using hf)), rfl, [_], rfl, by simp [Still]⟩
    · exact ⟨_, rfl, .refl c, rfl, .refl c⟩
  obtain ⟨c1, he, h1, s1, m1⟩ := key
  rw [he]
  clear he
  have i1 := h1.inv hi
  have k1 := MO.keeps h1
  simp only
  refine VRes.before ?_ m1 k1.2
  split
  · rename_i hc
    have h2 : MO env c1 (sslDo env c1 .negotiate).1 := sslDo_star env _ c1 .negotiate
    have m2 := sslDo_noMsg env c1 .negotiate
    have n2 := sslDo_n env c1 .negotiate
    obtain ⟨ln, hn, hnio⟩ := sslDo_says env c1 .negotiate
    generalize sslDo env c1 .negotiate = q at h2 n2 m2 hn ⊢
    obtain ⟨c2, r⟩ := q
    simp only at h2 n2 m2 hn ⊢
    have hc2 : c2.state = .connecting := by rw [n2.state]; exact hc
    split
    · rename_i hok
      have hok : r.ok = false := by simpa using hok
      rw [hok] at hn
      have bad : ∀ (d : Conn) (rc : RC), NoMsg c2 d → VRes env reads c1 (d, rc) := by
        rintro d rc ⟨l, hl, _⟩
        exact ⟨l ++ (ln ++ [.sslCall .negotiate false]), by show d.log = _; rw [hl, hn]; simp, .inl (by simp)⟩
      split
      · split
        · exact bad _ _ (.refl _)
        · split
          · exact bad _ _ (.refl _)
          · exact bad _ _ (.of_log rfl)
      · split
        · exact bad _ _ (updateTimeout_t env c2).noMsg
        · exact bad _ _ (.refl _)
    · have h3 := changeState_linkUp_star env .outsideData c2 hc2 (.inr rfl) ⟨ln, c1.log, by rw [hn, show r.ok = true by simpa using ‹¬(!r.ok) = true›], hnio⟩
      have h23 := h2.trans h3.1
      have k3 := MO.keeps h23
      refine VRes.before (VRes.of_end (h23.inv i1) ?_ (k3.1.trans (k1.1.trans hw))) (m2.trans (changeState_noMsg env c2 .linkUp)) k3.2
      rcases h3.2.2.2.2 with h | h <;> rw [h] <;> simp [MsgState]
  · rename_i hc
    refine VRes.of_end i1 ⟨hc, ?_, ?_⟩ (k1.1.trans hw)
    · rw [s1]; exact hs.1
    · rw [s1]; exact hs.2

theorem VRes.session {env : Env} {reads : List ReadRes} {c d : Conn} {rc : RC} (hv : VRes env reads c (d, rc)) (hrc : rc = .success) (s : Nat) :
    VRes env reads c (updateSessionIncoming d s) := by
  obtain ⟨x, hx, hv⟩ := hv
  obtain ⟨y, hy, hst⟩ := (updateSessionIncoming_t d s).noMsg
  have hno : ∀ call ok, Effect.sslCall call ok ∉ y := by
    intro call ok
    have : (updateSessionIncoming d s).1.log = d.log ∨ ∃ e n, (updateSessionIncoming d s).1.log = .event e n :: d.log := by
      unfold updateSessionIncoming
      repeat' split
      all_goals first | exact .inl rfl | exact .inr ⟨_, _, rfl⟩
    rcases this with h | ⟨e, n, h⟩
    · have : y = [] := List.self_eq_append_left.mp (h.symm.trans hy)
      simp [this]
    · have : y = [.event e n] := List.append_cancel_right (hy.symm.trans h)
      simp [this]
  refine ⟨y ++ x, by rw [hy]; show y ++ d.log = _; rw [show d.log = x ++ c.log from hx]; simp, ?_⟩
  subst hrc
  rcases hv with hv | hv
  · exact .inl (List.mem_append_right _ hv)
  · exact .inr (hv.session (messages_still hst) hno (updateSessionIncoming_rc d s))

/-- A receive call: nothing got through to TLS, the handshake is not over, or the result tells. -/
def CallRes (env : Env) (reads : List ReadRes) (c : Conn) (r : Conn × RC) : Prop :=
  (∃ x, r.1.log = x ++ c.log ∧ ∀ s b, Effect.input s b ∉ x) ∨ VRes env reads c r

theorem outsideData_res (env : Env) (c : Conn) (buf : Bytes) (reads : List ReadRes)
    (hi : Inv env (some .outsideData) c) (hj : ∃ old, c.log = .api .outsideData :: old) (hw : c.wolfSet = true) :
    CallRes env reads c (outsideData env c buf reads) := by
  unfold outsideData
  have early : ∀ (d : Conn) (rc : RC) (l : Log), d.log = l ++ c.log → (∀ x ∈ l, ∃ p r, x = .pluginIngress p r) → CallRes env reads c (d, rc) := by
    intro d rc l hl hp
    refine .inl ⟨l, hl, fun s b hm => ?_⟩
    obtain ⟨p, r, h⟩ := hp _ hm
    cases h
  split
  · exact early _ _ [] rfl (by simp)
  · rename_i hs
    simp only [not_or] at hs
    simp only
    have h1 : MO env c { c with log := (c.outsidePlugins.ingress c.log buf buf.length).1 } := by
      obtain ⟨old, ho⟩ := hj
      exact ingress_star env _ c c.outsidePlugins buf buf.length ⟨[], old, ho, by simp⟩
    obtain ⟨l, hl, hp⟩ := Chain.ingress_log c.outsidePlugins c.log buf buf.length
    have hj1 : (c.outsidePlugins.ingress c.log buf buf.length).2.2 = .success →
        JustCalled .outsideData (c.outsidePlugins.ingress c.log buf buf.length).1 := by
      intro hok
      obtain ⟨l, e, hl⟩ := Chain.ingress_passed c.outsidePlugins c.log buf buf.length hok
      obtain ⟨old, ho⟩ := hj
      exact ⟨l, old, by rw [e, ho], hl⟩
    have m1 : NoMsg c { c with log := (c.outsidePlugins.ingress c.log buf buf.length).1 } := by
      refine ⟨l, hl, fun x hx => ?_⟩
      obtain ⟨p, r, rfl⟩ := hp x hx
      trivial
    generalize c.outsidePlugins.ingress c.log buf buf.length = g at h1 hl hj1 m1 ⊢
    obtain ⟨lg, pk, prc⟩ := g
    simp only at h1 hl hj1 m1 ⊢
    split
    · exact early _ _ l hl hp
    split
    · exact early _ _ l hl hp
    rename_i hok
    replace hj1 := hj1 (by simpa using hok)
    split
    · exact early _ _ l hl hp
    have i1 := h1.inv hi
    split
    · rename_i hct
      unfold outsidePacket
      split
      · exact early _ _ l hl hp
      · rw [rd_isSome (by omega), rd_isSome (by omega), rd_isSome (by omega), rd_isSome (by omega)]
        simp only
        split
        · exact early _ _ l hl hp
        · split
          · exact early _ _ l hl hp
          · split
            · exact early _ _ l hl hp
            · right
              generalize List.take _ (List.drop 16 pk) = body
              generalize rdLe (List.take 8 (List.drop 8 pk)) = sess
              have h2 : MO env { c with log := lg } { ({ c with log := lg } : Conn).emit (.input sess body) with incoming := some body, packetSeen := false } :=
                .one (.dgram { c with log := lg } sess body rfl hj1 hct)
              have m2 : NoMsg { c with log := lg } { ({ c with log := lg } : Conn).emit (.input sess body) with incoming := some body, packetSeen := false } :=
                ⟨[.input sess body], rfl, by simp [Still]⟩
              have k2 : ({ ({ c with log := lg } : Conn).emit (.input sess body) with incoming := some body, packetSeen := false } : Conn).connType = c.connType := rfl
              have w2 : ({ ({ c with log := lg } : Conn).emit (.input sess body) with incoming := some body, packetSeen := false } : Conn).wolfSet = c.wolfSet := rfl
              have s2 : ({ ({ c with log := lg } : Conn).emit (.input sess body) with incoming := some body, packetSeen := false } : Conn).state = c.state := rfl
              refine VRes.before ?_ (m1.trans m2) k2
              have i2 := h2.inv i1
              generalize ({ ({ c with log := lg } : Conn).emit (.input sess body) with incoming := some body, packetSeen := false } : Conn) = d at i2 k2 w2 s2 ⊢
              have hv := verifyConnection_res env d reads i2 (by rw [s2]; exact hs) (w2.trans hw)
              generalize verifyConnection env d reads = q at hv ⊢
              obtain ⟨e, rc⟩ := q
              simp only
              split
              · exact hv
              · rename_i hrc
                exact hv.session (by simpa using hrc) sess
    · rename_i hct
      unfold outsideStream setupStreamState
      by_cases hsl : c.streamLeft.length = 0
      · simp only [hsl, ne_eq, not_true_eq_false, if_false]
        have h2 : MO env { c with log := lg } { ({ c with log := lg } : Conn).emit (.input 0 pk) with incoming := some pk, streamLeft := pk } :=
          .one (.stream { c with log := lg } pk rfl hj1 (List.length_eq_zero_iff.mp hsl) hct)
        right
        refine VRes.before (c := { ({ c with log := lg } : Conn).emit (.input 0 pk) with incoming := some pk, streamLeft := pk }) ?_ (m1.trans ⟨[.input 0 pk], rfl, by simp [Still]⟩) rfl
        exact verifyConnection_res env _ reads (h2.inv i1) hs hw
      · simp only [hsl, ne_eq, not_false_eq_true, if_true]
        simp only [reduceCtorEq, not_false_eq_true, if_true]
        exact early _ _ l hl hp

/-- **C86.**  The result of a receive call says what became of the data.  Unless nothing got through to TLS (the
history of the call shows no accepted input) or the handshake is not over, the call processed the messages TLS had to
offer, in order, and ended for one of the reasons listed in `ReceiveEnd`: all of them were processed and there was
nothing more (success, or an unknown session), the following renegotiation failed, the peer had closed, reading
failed; or the last message processed ended the call, with the code that message and its consequences call for. -/
theorem C86_receive_result (env : Env) (ops : List Op) (buf : Bytes) (reads : List ReadRes)
    (ht : hasTls (run env ops).log = true) {x : Log}
    (hx : (run env (ops ++ [.outsideData buf reads])).log = x ++ (run env ops).log) :
    let rc := (step env (run env ops) (.outsideData buf reads)).2
    (∀ s b, .input s b ∉ x) ∨ .sslCall .negotiate false ∈ x ∨
      ReceiveEnd env (decide ((settings (run env ops)).transport = .stream)) reads (run env ops).log x rc := by
  have hg := run_good env ops
  have htls := run_tls env ops
  rw [run_snoc] at hx
  generalize run env ops = c at *
  obtain ⟨⟨ap, hi⟩, _⟩ := hg
  have hi0 : Inv env (some .outsideData) (c.emit (.api .outsideData)) := entry_inv hi (.outsideData buf reads)
  have hlog : (step env c (.outsideData buf reads)).1.log =
      .ret (outsideData env (c.emit (.api .outsideData)) buf reads).2 :: (outsideData env (c.emit (.api .outsideData)) buf reads).1.log := rfl
  have hres : (step env c (.outsideData buf reads)).2 = (outsideData env (c.emit (.api .outsideData)) buf reads).2 := rfl
  rw [hlog] at hx
  rw [hres]
  have fin : ∀ y, (outsideData env (c.emit (.api .outsideData)) buf reads).1.log = y ++ (c.emit (.api .outsideData)).log →
      x = .ret (outsideData env (c.emit (.api .outsideData)) buf reads).2 :: y ++ [.api .outsideData] := by
    intro y hy
    rw [hy] at hx
    refine (List.append_cancel_right (bs := c.log) ?_).symm
    rw [← hx]; simp [Conn.emit]
  have hm := outsideData_res env (c.emit (.api .outsideData)) buf reads hi0 ⟨c.log, rfl⟩ (htls.trans ht)
  rcases hm with ⟨y, hy, hno⟩ | ⟨y, hy, h | h⟩
  · refine .inl fun s b hmem => ?_
    rw [fin y hy] at hmem
    simp at hmem
    exact hno s b hmem
  · exact .inr (.inl (by rw [fin y hy]; simp [h]))
  · right; right
    have h' : ReceiveEnd env (decide (c.connType = .stream)) reads ([.api .outsideData] ++ c.log)
      (.ret (outsideData env (c.emit (.api .outsideData)) buf reads).2 :: y) (outsideData env (c.emit (.api .outsideData)) buf reads).2 := h
    rw [fin y hy]
    exact h'.before rfl

/-- Not vacuous: on the demo client, two packets of which the second ends the call (GOODBYE), a session closed by the
peer, a read that failed, and a quiet end, with the results the reasons call for. -/
example : hasTls (run Demo.env Demo.clientOps).log = true ∧
    (step Demo.env (run Demo.env Demo.clientOps) (.outsideData (Demo.dgram [9]) [Demo.msg [1], Demo.msg [12], Demo.msg [1]])).2 = .serverGoodbye ∧
    (step Demo.env (run Demo.env Demo.clientOps) (.outsideData (Demo.dgram [9])
      [Demo.msg [1], { plain := [], retZero := true, err := .other (-308), io := [] }])).2 = .connectionWasClosed ∧
    (step Demo.env (run Demo.env Demo.clientOps) (.outsideData (Demo.dgram [9])
      [Demo.msg [1], { plain := [], retZero := false, err := .other (-308), io := [] }])).2 = .sslErrorNonfatal ∧
    (step Demo.env (run Demo.env Demo.clientOps) (.outsideData (Demo.dgram [9]) [Demo.msg [1]])).2 = .success := by
  decide +kernel

end Lightway
