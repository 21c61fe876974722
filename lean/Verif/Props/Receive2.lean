import Verif.Props.Receive

/-!
# A refusal of the host ends the receive call (C86)
-/

namespace Lightway
open Spec

/-- What must hold when `e` follows the history `l`: no further message is processed when an end is due, and the
result is the one due. -/
def Demand (env : Env) (e : Effect) (l : Log) : Prop :=
  match e with
  | .message _ => due env l = none
  | .ret rc => ∀ q, due env l = some q → rc = q
  | _ => True

/-- In order, nothing due, no message in hand. -/
structure Calm (env : Env) (l : Log) : Prop where
  all : AllAt (Demand env) l
  due : due env l = none
  free : handling l = none

theorem Calm.cons {env : Env} {l : Log} (h : Calm env l) {e : Effect} (he : Still e) : Calm env (e :: l) := by
  refine ⟨⟨?_, h.all⟩, ?_, ?_⟩
  · have := h.due
    cases e <;> simp_all [Demand]
  · have h1 := h.due
    have h2 := h.free
    unfold Spec.due
    split
    · rfl
    · rfl
    · rename_i heq
      cases heq
      rw [h1, h2]
  · have h2 := h.free
    cases e <;> first | exact he.elim | rfl | exact h2

theorem Calm.noMsg {env : Env} {c c' : Conn} (h : Calm env c.log) (hn : NoMsg c c') : Calm env c'.log := by
  obtain ⟨l, e, hl⟩ := hn
  rw [e]
  clear e
  induction l with
  | nil => exact h
  | cons x xs ih => exact (ih fun y hy => hl y (.tail _ hy)).cons (hl x (.head _))

/-- After a read, nothing is in hand. -/
theorem Calm.read {env : Env} {l : Log} (h : AllAt (Demand env) l) (hd : Spec.due env l = none) (ok : Bool) : Calm env (.sslCall .read ok :: l) := by
  refine ⟨⟨trivial, h⟩, ?_, rfl⟩
  show (match Spec.due env l with
    | some q => some q
    | none => match handling l with
      | some m => fatalAt env l m (.sslCall .read ok)
      | none => none) = none
  rw [hd]
  cases handling l with
  | none => rfl
  | some m =>
    show fatalAt env l m _ = none
    unfold fatalAt fatal
    repeat' split
    all_goals simp_all

/-- Something fatal happened since the message was taken in hand, if an end is due. -/
theorem due_some {env : Env} {m : Bytes} {t l : Log} {q : RC} (hs : ∀ e ∈ t, Still e) (hd : due env l = none) (hh : handling l = some m)
    (h : due env (t ++ l) = some q) : ∃ a e b, t = a ++ e :: b ∧ fatalAt env (b ++ l) m e = some q := by
  have key : (handling (t ++ l) = some m ∨ handling (t ++ l) = none) ∧
      (∀ q, due env (t ++ l) = some q → ∃ a e b, t = a ++ e :: b ∧ fatalAt env (b ++ l) m e = some q) := by
    clear h
    induction t with
    | nil => exact ⟨.inl hh, fun q h => by rw [List.nil_append, hd] at h; cases h⟩
    | cons e t ih =>
      obtain ⟨h1, h2⟩ := ih fun x hx => hs x (.tail _ hx)
      refine ⟨?_, ?_⟩
      · have := hs e (.head _)
        cases e <;> first | exact this.elim | exact .inr rfl | exact h1
      · intro q h
        rw [List.cons_append] at h
        unfold Spec.due at h
        split at h
        · cases h
        · cases h
        · rename_i heq
          cases heq
          split at h
          · rename_i q' hq'
            obtain ⟨a, x, b, hx, hf⟩ := h2 _ hq'
            exact ⟨e :: a, x, b, by rw [hx]; rfl, by rw [hf]; exact h⟩
          · rcases h1 with h1 | h1
            · rw [h1] at h; exact ⟨[], e, t, rfl, h⟩
            · rw [h1] at h; cases h
  exact key.2 q h

/-- A handler reports everything fatal that happened. -/
def Fat (m : Bytes) (c : Conn) (r : Conn × RC) : Prop :=
  ∃ t, r.1.log = t ++ c.log ∧ ∀ e ∈ t, ∀ q, fatal m e = some q → r.2 = q

theorem Fat.same {m : Bytes} {c c' : Conn} {rc : RC} (h : c'.log = c.log) : Fat m c (c', rc) := ⟨[], h, by simp⟩

/-- Nothing that happens while this message is handled is fatal. -/
theorem Fat.harmless {m : Bytes} {c : Conn} {r : Conn × RC} (hn : NoMsg c r.1) (hm : ∀ e, fatal m e = none) : Fat m c r := by
  obtain ⟨l, e, _⟩ := hn
  exact ⟨l, e, fun x _ q h => by rw [hm x] at h; cases h⟩

theorem fatal_data {m : Bytes} (h : m.head? = some 5 ∨ m.head? = some 13 ∨ m.head? = some 15) (e : Effect) {q : RC}
    (hf : fatal m e = some q) : (∃ p, e = .pluginEgress p .fail) ∧ q = .failed := by
  unfold fatal at hf
  rcases h with h | h | h <;> rw [h] at hf <;> simp only at hf <;>
    (split at hf
     · injection hf with hf; exact ⟨⟨_, rfl⟩, hf.symm⟩
     · cases hf)

theorem internalHandleData_fat (m : Bytes) (h : m.head? = some 5 ∨ m.head? = some 13 ∨ m.head? = some 15) (c : Conn) (p : Bytes) :
    Fat m c (internalHandleData c p) := by
  unfold internalHandleData
  simp only
  obtain ⟨l, hl, hr⟩ := Chain.egress_runs c.insidePlugins c.log p p.length
  have key : ∀ e ∈ l, ∀ q, fatal m e = some q → (c.insidePlugins.egress c.log p p.length).2.2 = .failed ∧ q = .failed := by
    intro e he q hf
    obtain ⟨⟨p', hp⟩, hq⟩ := fatal_data h e hf
    refine ⟨?_, hq⟩
    rcases hr with ⟨h1, _⟩ | ⟨p1, r1, l', h1, h2, h3, h4⟩
    · obtain ⟨p2, e2⟩ := h1 e he
      rw [hp] at e2; cases e2
    · rw [h1] at he
      rcases List.mem_cons.mp he with he | he
      · rw [hp] at he; injection he with _ he
        rw [h3, ← he]; rfl
      · obtain ⟨p2, e2⟩ := h4 e he
        rw [hp] at e2; cases e2
  generalize c.insidePlugins.egress c.log p p.length = g at hl key ⊢
  obtain ⟨lg, pk, rc⟩ := g
  simp only at hl key ⊢
  split
  · rename_i hrc
    exact ⟨l, hl, fun e he q hf => by rw [(key e he q hf).1] at hrc; cases hrc⟩
  · split
    · exact ⟨l, hl, fun e he q hf => (key e he q hf).2.symm⟩
    · rename_i hrc
      have hno : ∀ e ∈ l, ∀ q, fatal m e ≠ some q := fun e he q hf => hrc (by rw [(key e he q hf).1]; simp)
      split
      · exact ⟨l, hl, fun e he q hf => absurd hf (hno e he q)⟩
      · split
        · exact ⟨l, hl, fun e he q hf => absurd hf (hno e he q)⟩
        · split
          · refine ⟨.insideWrite pk :: l, by show _ :: lg = _; rw [hl]; rfl, fun e he q hf => ?_⟩
            rcases List.mem_cons.mp he with rfl | he
            · obtain ⟨⟨_, h⟩, _⟩ := fatal_data h _ hf; cases h
            · exact absurd hf (hno e he q)
          · exact ⟨l, hl, fun e he q hf => absurd hf (hno e he q)⟩

theorem Fat.before {m : Bytes} {a c : Conn} {r : Conn × RC} (h : Fat m c r) {l : Log} (hl : c.log = l ++ a.log)
    (hs : ∀ e ∈ l, fatal m e = none) : Fat m a r := by
  obtain ⟨t, e, hf⟩ := h
  refine ⟨t ++ l, by rw [e, hl]; simp, fun x hx q hq => ?_⟩
  rcases List.mem_append.mp hx with hx | hx
  · exact hf x hx q hq
  · rw [hs x hx] at hq; cases hq

theorem handleData_fat (c : Conn) (m : Bytes) (h : m.head? = some 5) : Fat m c (handleData c m) := by
  unfold handleData
  simp only
  repeat' split
  all_goals first
    | exact .same rfl
    | exact ⟨[.ub "data"], rfl, fun e he q hf => by obtain ⟨⟨_, h⟩, _⟩ := fatal_data (.inl h) _ hf; simp_all⟩
    | exact internalHandleData_fat m (.inl h) c _

theorem handleDeprecated13_fat (c : Conn) (m : Bytes) (h : m.head? = some 13) : Fat m c (handleDeprecated13 c m) := by
  unfold handleDeprecated13
  repeat' split
  all_goals first
    | exact .same rfl
    | exact ⟨[.ub "deprecated_13"], rfl, fun e he q hf => by obtain ⟨⟨_, h⟩, _⟩ := fatal_data (.inr (.inl h)) _ hf; simp_all⟩
    | exact internalHandleData_fat m (.inr (.inl h)) c _

theorem fragApply_fat (env : Env) (c : Conn) (m : Bytes) (h : m.head? = some 15) (t : FragTable) (en : FragEntry) (id off : Nat) (last : Bool) (d : Bytes) :
    Fat m c (fragApply env c t en id off last d) := by
  have hno : ∀ e, (∀ p, e ≠ .pluginEgress p .fail) → fatal m e = none := by
    intro e he
    cases hf : fatal m e with
    | none => rfl
    | some q => obtain ⟨⟨p, h⟩, _⟩ := fatal_data (.inr (.inr h)) _ hf; exact absurd h (he p)
  have hub : ∀ (c : Conn) (s : String) (rc : RC), Fat m c (c.ub s, rc) := fun c s rc =>
    ⟨[.ub s], rfl, fun e he q hf => by
      rw [hno e (by intro p; simp at he; rw [he]; simp)] at hf; cases hf⟩
  unfold fragApply
  simp only
  refine Fat.before (c := c.emit (.clock (env.now c.log))) (l := [.clock (env.now c.log)]) ?_ rfl
    (fun e he => hno e (by intro p; simp at he; rw [he]; simp))
  generalize c.emit (.clock (env.now c.log)) = c1
  generalize (if env.now c.log - en.timestamp > 64 then ({ en.reset with timestamp := env.now c.log } : FragEntry) else en) = en1
  split
  · exact hub c1 _ _
  · rename_i en2 _ _ _
    split
    · exact .same rfl
    · split
      · split
        · exact Fat.before (c := { c1 with fragTable := _ }) (hub _ _ _) (l := []) rfl (by simp)
        · split
          · exact Fat.before (c := { c1 with fragTable := _ }) (hub _ _ _) (l := []) rfl (by simp)
          · rename_i p _
            obtain ⟨l, hl, ho⟩ := internalHandleData_fat m (.inr (.inr h)) { c1 with fragTable := some (t.set id en2) } p
            exact ⟨l, hl, ho⟩
      · exact .same rfl

theorem fragReceive_fat (env : Env) (c : Conn) (m : Bytes) (h : m.head? = some 15) (id off : Nat) (last : Bool) (d : Bytes) :
    Fat m c (fragReceive env c id off last d) := by
  have hno : ∀ e, (∀ p, e ≠ .pluginEgress p .fail) → fatal m e = none := by
    intro e he
    cases hf : fatal m e with
    | none => rfl
    | some q => obtain ⟨⟨p, h⟩, _⟩ := fatal_data (.inr (.inr h)) _ hf; exact absurd h (he p)
  unfold fragReceive
  split
  · exact .same rfl
  · rename_i t ht
    simp only
    have k1 : ∀ (b : Bool) (e : Effect) (c : Conn), ∃ l, (if b = true then c.emit e else c).log = l ++ c.log ∧ ∀ x ∈ l, x = e := by
      intro b e c; cases b
      · exact ⟨[], rfl, by simp⟩
      · exact ⟨[e], rfl, by simp⟩
    obtain ⟨l1, e1, s1⟩ := k1 (t.slot (id % t.num)).isNone (.alloc (env.alloc c.log)) c
    generalize (if (t.slot (id % t.num)).isNone = true then c.emit (.alloc (env.alloc c.log)) else c) = c1 at e1 ⊢
    obtain ⟨l2, e2, s2⟩ := k1 ((t.slot (id % t.num)).isNone && env.alloc c.log) (.clock (env.now c1.log)) c1
    generalize (if ((t.slot (id % t.num)).isNone && env.alloc c.log) = true then c1.emit (.clock (env.now c1.log)) else c1) = c2 at e2 ⊢
    refine Fat.before (c := c2) (l := l2 ++ l1) ?_ (by rw [e2, e1]; simp) ?_
    · split
      · exact .same rfl
      · rename_i t' en _
        obtain ⟨l, hl, ho⟩ := fragApply_fat env { c2 with fragTable := some t' } m h t' en id off last d
        exact ⟨l, hl, ho⟩
    · intro e he
      rcases List.mem_append.mp he with he | he
      · exact hno e (by intro p; rw [s2 e he]; simp)
      · exact hno e (by intro p; rw [s1 e he]; simp)

theorem handleDataFrag_fat (env : Env) (c : Conn) (m : Bytes) (h : m.head? = some 15) : Fat m c (handleDataFrag env c m) := by
  unfold handleDataFrag
  simp only
  repeat' split
  all_goals first
    | exact .same rfl
    | exact ⟨[.ub "data_frag"], rfl, fun e he q hf => by obtain ⟨⟨_, h⟩, _⟩ := fatal_data (.inr (.inr h)) _ hf; simp_all⟩
    | exact fragReceive_fat env c m h _ _ _ _

theorem handleConfig_fat (env : Env) (c : Conn) (m : Bytes) (h : m.head? = some 6) : Fat m c (handleConfigIpv4 env c m) := by
  have hno : ∀ e, (∀ cfg r, e ≠ .netConfig cfg r) → fatal m e = none := by
    intro e he
    unfold fatal
    rw [h]
    cases e <;> first | rfl | exact absurd rfl (he _ _)
  have hst : ∀ (d : Conn) (s : ConnState), ∃ l, (setState d s).log = l ++ d.log ∧ ∀ e ∈ l, fatal m e = none := by
    intro d s
    unfold setState
    split
    · exact ⟨[], rfl, by simp⟩
    · exact ⟨[_], rfl, fun e he => hno e (by intro _ _; simp at he; rw [he]; simp)⟩
  have hok : ∀ (d : Conn) (l : Log) (s : ConnState), d.log = l ++ c.log → (∀ e ∈ l, fatal m e = none) → Fat m c (setState d s, .success) := by
    intro d l s hl hf
    obtain ⟨l2, e2, h2⟩ := hst d s
    refine ⟨l2 ++ l, by show (setState d s).log = _; rw [e2, hl]; simp, fun e he q hq => ?_⟩
    rcases List.mem_append.mp he with he | he
    · rw [h2 e he] at hq; cases hq
    · rw [hf e he] at hq; cases hq
  unfold handleConfigIpv4
  split
  · exact .same rfl
  · split
    · exact .same rfl
    · split
      · exact .same rfl
      · split
        · rename_i s _ _ _ _ _ _ _
          simp only
          obtain ⟨l, hl, hf⟩ := hst { c with sessionId := rdLe s } .configuring
          have hl : (setState { c with sessionId := rdLe s } .configuring).log = l ++ c.log := hl
          generalize setState { c with sessionId := rdLe s } .configuring = c1 at hl ⊢
          generalize ({ localIp := _, peerIp := _, dnsIp := _, mtu := _ } : NetCfg) = cfg
          split
          · split
            · rename_i hrc
              refine ⟨.netConfig cfg (env.netConfig c1.log cfg) :: l, by show _ :: c1.log = _; rw [hl]; rfl, fun e he q hq => ?_⟩
              rcases List.mem_cons.mp he with rfl | he
              · unfold fatal at hq
                rw [h] at hq
                simp only at hq
                rw [if_neg hrc] at hq
                injection hq
              · rw [hf e he] at hq; cases hq
            · rename_i hrc
              refine hok _ (.netConfig cfg (env.netConfig c1.log cfg) :: l) _ (by show _ :: c1.log = _; rw [hl]; rfl) fun e he => ?_
              rcases List.mem_cons.mp he with rfl | he
              · unfold fatal
                rw [h]
                simp only
                rw [if_pos (by simpa using hrc)]
              · exact hf e he
          · exact hok _ l _ hl hf
        · exact ⟨[.ub "config_ipv4"], rfl, fun e he q hq => by
            rw [hno e (by intro _ _; simp at he; rw [he]; simp)] at hq; cases hq⟩

theorem handleServerConfig_fat (env : Env) (c : Conn) (m : Bytes) (h : m.head? = some 14) : Fat m c (handleServerConfig env c m) := by
  have hno : ∀ e, (∀ b r, e ≠ .serverConfig b r) → fatal m e = none := by
    intro e he
    unfold fatal
    rw [h]
    cases e <;> first | rfl | exact absurd rfl (he _ _)
  have hub : Fat m c (c.ub "server_config", .failed) := ⟨[.ub "server_config"], rfl, fun e he q hq => by
    rw [hno e (by intro _ _; simp at he; rw [he]; simp)] at hq; cases hq⟩
  unfold handleServerConfig
  simp only
  split
  · exact .same rfl
  split
  · exact .same rfl
  split
  · exact .same rfl
  split
  · exact hub
  split
  · exact .same rfl
  split
  · exact .same rfl
  split
  · exact hub
  · rename_i buf _
    split
    · rename_i hrc
      refine ⟨[_], rfl, fun e he q hq => ?_⟩
      simp at he
      subst he
      unfold fatal at hq
      rw [h] at hq
      simp only at hq
      rw [if_neg hrc] at hq
      injection hq
    · rename_i hrc
      refine ⟨[_], rfl, fun e he q hq => ?_⟩
      simp at he
      subst he
      unfold fatal at hq
      rw [h] at hq
      simp only at hq
      rw [if_pos (by simpa using hrc)] at hq
      cases hq

/-- Effects that are not answers to credentials. -/
theorem fatal_auth_other {m : Bytes} (h : m.head? = some 4) {e : Effect}
    (he : (∀ u p ok, e ≠ .authUserPass u p ok) ∧ (∀ t ok, e ≠ .authToken t ok) ∧ (∀ t b ok, e ≠ .authBuf t b ok) ∧ ∀ r, e ≠ .populate r) :
    fatal m e = none := by
  unfold fatal
  rw [h]
  simp only
  split
  · exact absurd rfl (he.1 _ _ _)
  · exact absurd rfl (he.2.1 _ _)
  · exact absurd rfl (he.2.2.1 _ _ _)
  · exact absurd rfl (he.2.2.2 _)
  · rfl

theorem sendMessage_calm {m : Bytes} (h : m.head? = some 4) (env : Env) (c : Conn) (w : Bytes) :
    ∃ l, (sendMessage env c w).1.log = l ++ c.log ∧ ∀ e ∈ l, fatal m e = none := by
  obtain ⟨l, ok, hl, hio⟩ := sendMessage_log env c w
  refine ⟨l ++ [.sslCall (.write w) ok], by rw [hl]; simp, fun e he => fatal_auth_other h ?_⟩
  rcases List.mem_append.mp he with he | he
  · have := hio e he
    cases e <;> simp_all [CbIo]
  · simp at he; subst he; simp

/-- What the switch of the authentication handler leaves behind. -/
def AuthFat (m : Bytes) (c : Conn) : AuthOut → Prop
  | .ret c' _ _ => ∃ l, c'.log = l ++ c.log ∧ ∀ e ∈ l, fatal m e = none
  | .verdict c' ok rc _ => ∃ l, c'.log = l ++ c.log ∧ ∀ e ∈ l, ∀ q, fatal m e = some q → ok = false ∧ rc = q

theorem fatal_verdict {m : Bytes} (h : m.head? = some 4) {e : Effect} {ok : Bool} {q : RC}
    (he : (∃ u p, e = .authUserPass u p ok) ∨ (∃ t, e = .authToken t ok) ∨ ∃ t b, e = .authBuf t b ok)
    (hq : fatal m e = some q) : ok = false ∧ RC.accessDenied = q := by
  unfold fatal at hq
  rw [h] at hq
  rcases he with ⟨u, p, rfl⟩ | ⟨t, rfl⟩ | ⟨t, b, rfl⟩ <;> cases ok <;> first | (cases hq; done) | (injection hq with hq; exact ⟨rfl, hq⟩)

theorem authSwitch_fat {m : Bytes} (h : m.head? = some 4) (env : Env) (c : Conn) (ty : UInt8) : AuthFat m c (authSwitch env c m ty) := by
  have hub : ∀ s, AuthFat m c (.ret (c.ub s) .failed m) := fun s =>
    ⟨[.ub s], rfl, fun e he => fatal_auth_other h (by simp at he; subst he; simp)⟩
  have hsame : ∀ rc, AuthFat m c (.ret c rc m) := fun rc => ⟨[], rfl, by simp⟩
  have hv : ∀ rc, AuthFat m c (.verdict c false rc m) := fun rc => ⟨[], rfl, by simp⟩
  unfold authSwitch
  simp only
  split
  · split
    · split
      · exact hsame _
      · split
        · refine ⟨[_], rfl, fun e he q hq => ?_⟩
          simp at he
          subst he
          exact fatal_verdict h (by simp) hq
        · exact hub _
    · exact hv _
  · split
    · split
      · split
        · exact hsame _
        · split
          · exact hub _
          · split
            · exact hsame _
            · split
              · exact hub _
              · refine ⟨[_], rfl, fun e he q hq => ?_⟩
                simp at he
                subst he
                exact fatal_verdict h (by simp) hq
      · exact hv _
    · split
      · split
        · split
          · exact hsame _
          · split
            · exact hub _
            · split
              · exact hsame _
              · split
                · exact hub _
                · refine ⟨[_], rfl, fun e he q hq => ?_⟩
                  simp at he
                  subst he
                  exact fatal_verdict h (by simp) hq
        · exact hv _
      · exact hv _

theorem handleAuth_fat (env : Env) (c : Conn) (m : Bytes) (h : m.head? = some 4) : Fat m c (handleAuth env c m) := by
  have hub : Fat m c (c.ub "auth", .failed) :=
    ⟨[.ub "auth"], rfl, fun e he q hq => by rw [fatal_auth_other h (by simp at he; subst he; simp)] at hq; cases hq⟩
  have hst : ∀ (d : Conn) (s : ConnState), ∃ l, (setState d s).log = l ++ d.log ∧ ∀ e ∈ l, fatal m e = none := by
    intro d s
    unfold setState
    split
    · exact ⟨[], rfl, by simp⟩
    · exact ⟨[_], rfl, fun e he => fatal_auth_other h (by simp at he; subst he; simp)⟩
  unfold handleAuth handleAuthBuf
  split
  · exact .same rfl
  split
  · exact .same rfl
  split
  · exact .same rfl
  split
  · exact .same rfl
  split
  · rename_i ty hty
    have hsw := authSwitch_fat h env c ty
    generalize authSwitch env c m ty = o at hsw ⊢
    cases o with
    | ret c1 rc m' =>
      obtain ⟨l, hl, hf⟩ := hsw
      exact ⟨l, hl, fun e he q hq => by rw [hf e he] at hq; cases hq⟩
    | verdict c1 ok rc m' =>
      obtain ⟨l, hl, hf⟩ := hsw
      simp only
      by_cases hok : ok = true
      · rw [if_neg (by simp [hok])]
        by_cases hr : (env.populate c1.log).1 = .success
        · rw [if_neg (by simp [hr])]
          obtain ⟨l2, hl2, hf2⟩ := sendMessage_calm h env (c1.emit (.populate (env.populate c1.log).1)) (configIpv4Msg c1.sessionId (env.populate c1.log).2)
          obtain ⟨l3, hl3, hf3⟩ := hst (sendMessage env (c1.emit (.populate (env.populate c1.log).1)) (configIpv4Msg c1.sessionId (env.populate c1.log).2)).1 .online
          refine ⟨l3 ++ (l2 ++ (.populate (env.populate c1.log).1 :: l)), ?_, fun e he q hq => ?_⟩
          · show (setState _ _).log = _
            rw [hl3, hl2]
            show _ ++ (_ ++ (_ :: c1.log)) = _
            rw [hl]; simp
          · simp only [List.mem_append, List.mem_cons] at he
            rcases he with he | he | rfl | he
            · rw [hf3 e he] at hq; cases hq
            · rw [hf2 e he] at hq; cases hq
            · unfold fatal at hq
              rw [h] at hq
              simp only at hq
              rw [if_pos hr] at hq
              cases hq
            · have := (hf e he q hq).1
              rw [hok] at this; cases this
        · rw [if_pos hr]
          obtain ⟨l2, hl2, hf2⟩ := sendMessage_calm h env (c1.emit (.populate (env.populate c1.log).1)) authDeniedMsg
          refine ⟨l2 ++ (.populate (env.populate c1.log).1 :: l), ?_, fun e he q hq => ?_⟩
          · show (sendMessage env (c1.emit (.populate (env.populate c1.log).1)) authDeniedMsg).1.log = _
            rw [hl2]; show _ ++ (_ :: c1.log) = _; rw [hl]; simp
          · simp only [List.mem_append, List.mem_cons] at he
            rcases he with he | rfl | he
            · rw [hf2 e he] at hq; cases hq
            · unfold fatal at hq
              rw [h] at hq
              simp only at hq
              rw [if_neg hr] at hq
              injection hq
            · have := (hf e he q hq).1
              rw [hok] at this; cases this
      · rw [if_pos (by simpa using hok)]
        obtain ⟨l2, hl2, hf2⟩ := sendMessage_calm h env c1 authDeniedMsg
        obtain ⟨l3, hl3, hf3⟩ := hst (sendAuthDenied env c1) .disconnecting
        refine ⟨l3 ++ (l2 ++ l), ?_, fun e he q hq => ?_⟩
        · show (setState (sendAuthDenied env c1) _).log = _
          rw [hl3]
          show _ ++ (sendMessage env c1 authDeniedMsg).1.log = _
          rw [hl2, hl]; simp
        · simp only [List.mem_append] at he
          rcases he with he | he | he
          · rw [hf3 e he] at hq; cases hq
          · rw [hf2 e he] at hq; cases hq
          · exact (hf e he q hq).2
  · exact hub

theorem processMessage_fat (env : Env) (c : Conn) (m : Bytes) : Fat m c (processMessage env c m) := by
  have hn := processMessage_noMsg env c m
  cases m with
  | nil => exact .same rfl
  | cons id t =>
  by_cases h4 : id = 4
  · subst h4
    show Fat _ c (if c.isServer then handleAuth env c _ else (c, .success))
    split
    · exact handleAuth_fat env c _ rfl
    · exact .same rfl
  by_cases h5 : id = 5
  · subst h5
    exact handleData_fat c _ rfl
  by_cases h6 : id = 6
  · subst h6
    show Fat _ c (if !c.isServer then handleConfigIpv4 env c _ else (c, .success))
    split
    · exact handleConfig_fat env c _ rfl
    · exact .same rfl
  by_cases h13 : id = 13
  · subst h13
    exact handleDeprecated13_fat c _ rfl
  by_cases h14 : id = 14
  · subst h14
    show Fat _ c (if !c.isServer then handleServerConfig env c _ else (c, .success))
    split
    · exact handleServerConfig_fat env c _ rfl
    · exact .same rfl
  by_cases h15 : id = 15
  · subst h15
    exact handleDataFrag_fat env c _ rfl
  refine .harmless hn fun e => ?_
  unfold fatal
  simp only [List.head?_cons]
  split <;> first | (rename_i he; injection he with he; contradiction) | rfl

/-- The answer of TLS to a write decides the result of sending. -/
theorem sendMessage_code (env : Env) (c : Conn) (m : Bytes) (hw : c.wolfSet = true) :
    (sendMessage env c m).2 = writeCode (env.ssl c.log (.write m)) := by
  have h : (sslDo env c (.write m)).2 = env.ssl c.log (.write m) := by
    unfold sslDo; rw [if_pos hw]
  unfold sendMessage
  generalize sslDo env c (.write m) = q at h ⊢
  obtain ⟨c1, r⟩ := q
  simp only at h ⊢
  rw [← h]
  unfold writeCode
  by_cases hok : r.ok = true
  · rw [if_pos hok, if_pos (.inl hok)]
  · rw [if_neg hok]
    cases he : r.err <;> simp [hok] <;> split <;> rfl

/-- `Fat`, with the answers of TLS. -/
def FatAt (env : Env) (m : Bytes) (c : Conn) (r : Conn × RC) : Prop :=
  ∃ t, r.1.log = t ++ c.log ∧ ∀ a e b, t = a ++ e :: b → ∀ q, fatalAt env (b ++ c.log) m e = some q → r.2 = q

theorem processMessage_fatAt (env : Env) (c : Conn) (m : Bytes) (hw : c.wolfSet = true) : FatAt env m c (processMessage env c m) := by
  by_cases hm : m.head? = some 2
  · cases m with
    | nil => cases hm
    | cons id t =>
    simp only [List.head?_cons, Option.some.injEq] at hm
    subst hm
    have hno : ∀ (c' : Conn) (rc : RC) (t' : Log), c'.log = t' ++ c.log → (∀ e ∈ t', ∀ w ok, e ≠ .sslCall (.write w) ok) →
        FatAt env (2 :: t) c (c', rc) := by
      intro c' rc t' he hn
      refine ⟨t', he, fun a e b ht q hq => ?_⟩
      have := hn e (by rw [ht]; simp)
      unfold fatalAt at hq
      rw [if_pos (show (2 :: t).head? = some 2 from rfl)] at hq
      split at hq
      · exact absurd rfl (this _ _)
      · cases hq
    show FatAt env _ c (handlePing env c (2 :: t))
    unfold handlePing
    split
    · exact hno c _ [] rfl (by simp)
    · split
      · exact hno c _ [] rfl (by simp)
      · split
        · exact hno _ _ [.ub "ping"] rfl (by simp)
        · rename_i id _
          generalize [msgPong] ++ id ++ [0, 0] = w
          have hc := sendMessage_code env c w hw
          obtain ⟨l, ok, hl, hio⟩ := sendMessage_log env c w
          refine ⟨l ++ [.sslCall (.write w) ok], by rw [hl]; simp, fun a e b ht q hq => ?_⟩
          unfold fatalAt at hq
          rw [if_pos (show (2 :: t).head? = some 2 from rfl)] at hq
          split at hq
          · rename_i w' ok'
            have hb : b = [] ∧ w' = w := by
              rcases List.append_eq_append_iff.mp ht with ⟨a', h1, h2⟩ | ⟨a', h1, h2⟩
              · cases a' with
                | nil => simp at h2; exact ⟨h2.2, h2.1.1.symm⟩
                | cons x xs => simp at h2
              · cases a' with
                | nil => simp at h2; exact ⟨h2.2, h2.1.1⟩
                | cons x xs =>
                  simp at h2
                  exact (hio (.sslCall (.write w') ok') (by rw [h1, ← h2.1]; simp)).elim
            obtain ⟨rfl, rfl⟩ := hb
            rw [List.nil_append] at hq
            split at hq
            · cases hq
            · injection hq with hq; rw [hc, hq]
          · cases hq
  · obtain ⟨t, ht, h⟩ := processMessage_fat env c m
    refine ⟨t, ht, fun a e b he q hq => h e (by rw [he]; simp) q ?_⟩
    unfold fatalAt at hq
    rwa [if_neg hm] at hq

theorem fatal_ne (m : Bytes) (e : Effect) : fatal m e ≠ some .success := by
  unfold fatal
  repeat' split
  all_goals simp_all

theorem fatalAt_ne (env : Env) (l : Log) (m : Bytes) (e : Effect) : fatalAt env l m e ≠ some .success := by
  unfold fatalAt
  split
  · split
    · split
      · simp
      · rename_i h; simpa using h
    · simp
  · exact fatal_ne m e

theorem due_ne (env : Env) (l : Log) : due env l ≠ some .success := by
  induction l with
  | nil => simp [due]
  | cons e l ih =>
    intro h
    unfold due at h
    split at h
    · cases h
    · cases h
    · rename_i heq
      cases heq
      split at h
      · rename_i q hq; rw [hq] at ih; exact ih h
      · split at h
        · exact fatalAt_ne _ _ _ _ h
        · cases h

theorem Demand.mono {env : Env} {t l : Log} (h : AllAt (Demand env) l) (hs : ∀ e ∈ t, Still e ∧ NoMark e) : AllAt (Demand env) (t ++ l) := by
  induction t with
  | nil => exact h
  | cons e t ih =>
    refine ⟨?_, ih fun x hx => hs x (.tail _ hx)⟩
    have := hs e (.head _)
    cases e <;> simp_all [Demand, Still, NoMark]

/-- After the loop. -/
def LoopDue (env : Env) (q : Conn × Option RC) : Prop :=
  match q.2 with
  | none => Calm env q.1.log
  | some rc => AllAt (Demand env) (.ret rc :: q.1.log)

theorem Calm.ret {env : Env} {l : Log} (h : Calm env l) (rc : RC) : AllAt (Demand env) (.ret rc :: l) := (h.cons (e := .ret rc) trivial).all

theorem messageLoop_due (env : Env) (c : Conn) (reads : List ReadRes)
    (hi : Inv env (some .outsideData) c) (hs : MsgState c.state) (ha : AllAt (Demand env) c.log) (hd : due env c.log = none) :
    LoopDue env (messageLoop env c reads) := by
  induction reads generalizing c with
  | nil =>
    unfold messageLoop
    split
    · exact Calm.read ha hd false
    · exact (Calm.read ha hd false).ret _
  | cons r rest ih =>
    unfold messageLoop
    split
    · exact (Calm.read ha hd false).ret _
    · rename_i hw
      simp only
      have hne : r.plain.take maxWireMtu = [] ∨ (r.plain.take maxWireMtu) ≠ [] := Classical.em _
      generalize r.plain.take maxWireMtu = plain at hne ⊢
      have h1 : MO env c (ioRun env (c.emit (.sslCall .read (!plain.isEmpty))) r.io) :=
        (Star.one (.quiet c _ trivial)).trans (ioRun_star env _ _ _ id)
      have n1 : NFrame c (ioRun env (c.emit (.sslCall .read (!plain.isEmpty))) r.io) :=
        (NFrame.emit c (e := .sslCall .read (!plain.isEmpty)) trivial).trans (ioRun_frame env _ _).nFrame
      have f1 : Calm env (ioRun env (c.emit (.sslCall .read (!plain.isEmpty))) r.io).log :=
        Calm.noMsg (c := c.emit (.sslCall .read (!plain.isEmpty))) (Calm.read ha hd _) (ioRun_noMsg env _ _)
      generalize ioRun env (c.emit (.sslCall .read (!plain.isEmpty))) r.io = c1 at h1 n1 f1 ⊢
      have i1 := h1.inv hi
      have hs1 : MsgState c1.state := by rw [n1.state]; exact hs
      have hw1 : c1.wolfSet = true := by rw [n1.wolfSet]; simpa using hw
      split
      · split
        · exact f1
        · exact f1
        · exact f1
        · exact ih c1 i1 hs1 f1.all f1.due
        · split
          · exact f1.ret _
          · exact f1.ret _
      · rename_i hp
        have h1 := h1.tail (.message c1 plain rfl hs1)
        have h2 := processMessage_star env (c1.emit (.message plain)) plain (h1.inv hi) hw1 hs1 ⟨_, rfl⟩
        have hn := processMessage_noMsg env (c1.emit (.message plain)) plain
        have hf := processMessage_fatAt env (c1.emit (.message plain)) plain hw1
        have ha2 : AllAt (Demand env) (c1.emit (.message plain)).log := ⟨f1.due, f1.all⟩
        have hd2 : due env (c1.emit (.message plain)).log = none := by
          show (match due env c1.log with
            | some q => some q
            | none => match handling c1.log with
              | some m => fatalAt env c1.log m (.message plain)
              | none => none) = none
          rw [f1.due, f1.free]
        have hh2 : handling (c1.emit (.message plain)).log = some plain := rfl
        generalize processMessage env (c1.emit (.message plain)) plain = q at h2 hn hf ⊢
        obtain ⟨c2, rc⟩ := q
        simp only at h2 hn ⊢
        have h12 := h1.trans h2.1
        obtain ⟨l, hl, hst⟩ := hn
        obtain ⟨l', hl', hmk⟩ := Star.logExt h2.1
        have e1 : l' = l := List.append_cancel_right (hl'.symm.trans hl)
        subst e1
        obtain ⟨l'', hl'', hf⟩ := hf
        have e2 : l'' = l' := List.append_cancel_right (hl''.symm.trans hl)
        subst e2
        have ha3 : AllAt (Demand env) c2.log := by rw [hl]; exact Demand.mono ha2 fun e he => ⟨hst e he, hmk e he⟩
        have hd3 : ∀ q, due env c2.log = some q → rc = q := by
          intro q hq
          rw [hl] at hq
          obtain ⟨a, e, b, he, hfe⟩ := due_some hst hd2 hh2 hq
          exact hf a e b he q hfe
        split
        · exact ⟨hd3, ha3⟩
        · rename_i hrc
          have hrc : rc = .success := by simpa using hrc
          refine ih c2 (h12.inv hi) (h2.2 hrc) ha3 ?_
          cases hq : due env c2.log with
          | none => rfl
          | some q => exact absurd (by rw [hq, ← hd3 q hq, hrc]) (due_ne env c2.log)

theorem run_demand (env : Env) (ops : List Op) : AllAt (Demand env) (run env ops).log := by
  refine run_induct (P := fun c => AllAt (Demand env) c.log) (Q := fun _ => True) trivial ?_ ops (fun _ _ => trivial)
  intro c op _ hg hf
  obtain ⟨⟨ap, hi⟩, _⟩ := hg
  have h0 : Calm env (c.emit (.api op.api)).log := ⟨⟨trivial, hf⟩, rfl, rfl⟩
  show AllAt (Demand env) (.ret (exec env (c.emit (.api op.api)) op).2 :: (exec env (c.emit (.api op.api)) op).1.log)
  by_cases ha : op.api = .outsideData
  · cases op <;> try cases ha
    rename_i buf reads
    have hi' := entry_inv hi (.outsideData buf reads)
    rcases outsideData_loops env (c.emit (.api .outsideData)) buf reads hi' ⟨c.log, rfl⟩ with hl | ⟨c1, m1, i1, s1, hl⟩
    · exact (h0.noMsg hl.1).ret _
    · have h1 := h0.noMsg m1
      have f1 := messageLoop_due env c1 reads i1 s1 h1.all h1.due
      generalize messageLoop env c1 reads = q at hl f1
      obtain ⟨c2, o⟩ := q
      cases o with
      | none => exact (Calm.noMsg f1 (hl.2 rfl)).ret _
      | some rc =>
        have hr := hl.1 rc rfl
        show AllAt (Demand env) (.ret (outsideData env (c.emit (.api .outsideData)) buf reads).2 ::
          (outsideData env (c.emit (.api .outsideData)) buf reads).1.log)
        rw [hr]
        exact f1
  · have hn := (exec_star env ap c op hi).noMsg ha
    have h1 : Calm env (entry c op).log := by rw [entry_log]; exact h0
    exact (h1.noMsg hn).ret _

/-- **C86.**  When the host refuses credentials, a configuration or fails to provide one, or a plugin fails on a
packet, while a message is handled, the call ends with the code for it ... -/
theorem C86_refusal_reported (env : Env) (ops : List Op) {newer older : Log} {rc q : RC}
    (h : (run env ops).log = newer ++ .ret rc :: older) (hq : due env older = some q) : rc = q :=
  (run_demand env ops).at h q hq

/-- ... and no further message is processed in that call. -/
theorem C86_refusal_ends (env : Env) (ops : List Op) {newer older : Log} {m : Bytes}
    (h : (run env ops).log = newer ++ .message m :: older) : due env older = none :=
  (run_demand env ops).at h

/-- A host that refuses every network configuration. -/
def Demo.choosy : Env := { Demo.env with netConfig := fun _ _ => .failed }

/-- Not vacuous: the configuration is refused, an end with CALLBACK_FAILED is due, the next message is not processed. -/
example :
    let reads := [Demo.msg (configIpv4Msg 4242 Demo.netCfg), Demo.msg [1]]
    (step Demo.choosy (run Demo.choosy (Demo.clientOps.take 5)) (.outsideData (Demo.dgram [9]) reads)).2 = .callbackFailed ∧
    due Demo.choosy ((step Demo.choosy (run Demo.choosy (Demo.clientOps.take 5)) (.outsideData (Demo.dgram [9]) reads)).1.log.drop 1) = some .callbackFailed := by
  decide +kernel

/-- As `Demo.env`, but TLS has no room for PONGs. -/
def Demo.mute : Env := { Demo.env with
  ssl := fun l c => match c with
    | .write m => if m.head? = some 3 then { ok := false, val := -1, err := .wantWrite, io := [] } else Demo.env.ssl l (.write m)
    | c => Demo.env.ssl l c }

/-- A PING whose answer TLS does not take: the call reports it and leaves the message after it unread. -/
example :
    let reads := [Demo.msg [2, 0, 0, 0, 0], Demo.msg [1]]
    (step Demo.mute (run Demo.mute Demo.clientOps) (.outsideData (Demo.dgram [9]) reads)).2 = .wantWrite ∧
    due Demo.mute ((step Demo.mute (run Demo.mute Demo.clientOps) (.outsideData (Demo.dgram [9]) reads)).1.log.drop 1) = some .wantWrite := by
  decide +kernel

end Lightway
