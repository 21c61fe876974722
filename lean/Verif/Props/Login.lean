import Verif.Props.Connect

/-!
# C76: a client logs in as soon as the link is up, and again on every nudge until it is answered
-/

namespace Lightway
open Spec

/-- Every LINK_UP of the piece of history `x` is followed at once by AUTHENTICATING and an AUTH message. -/
def Logged (x : Log) : Prop := ∀ newer n older, x = newer ++ .state .linkUp n :: older →
  ∃ newer' m ok n', newer = newer' ++ [.sslCall (.write m) ok, .state .authenticating n'] ∧ m.head? = some 4

/-- No LINK_UP is announced. -/
def NoLink (x : Log) : Prop := ∀ n, .state .linkUp n ∉ x

theorem NoLink.logged {x : Log} (h : NoLink x) : Logged x := by
  intro newer n older e
  exact absurd (by rw [e]; simp) (h n)

theorem Spec.NoState.noLink {x : Log} (h : NoState x) : NoLink x := fun n => h _ n

theorem NoLink.append {a b : Log} (h1 : NoLink a) (h2 : NoLink b) : NoLink (a ++ b) :=
  fun n h => (List.mem_append.mp h).elim (h1 n) (h2 n)

theorem Logged.append {a b : Log} (h1 : Logged a) (h2 : Logged b) : Logged (a ++ b) := by
  intro newer n older e
  rcases List.append_eq_append_iff.mp e with ⟨t, e1, e2⟩ | ⟨t, e1, e2⟩
  · obtain ⟨n', m, ok, s, e3, h⟩ := h2 t n older e2
    exact ⟨a ++ n', m, ok, s, by rw [e1, e3]; simp, h⟩
  · cases t with
    | nil =>
      obtain ⟨n', m, ok, s, e3, h⟩ := h2 [] n older e2.symm
      exact absurd (congrArg List.length e3) (by simp)
    | cons y t =>
      simp only [List.cons_append, List.cons.injEq] at e2
      obtain ⟨rfl, rfl⟩ := e2
      exact h1 newer n t e1

/-- From some point of a receive call on, no LINK_UP is announced. -/
theorem no_link {x l : Log} (hall : AllAt Permitted (x ++ l)) (ha : lastApi l = some .outsideData)
    (hx : ∀ e ∈ x, NoMark e) (hs : stateAt l ≠ .connecting) :
    stateAt (x ++ l) ≠ .connecting ∧ lastApi (x ++ l) = some .outsideData ∧ NoLink x := by
  induction x with
  | nil => exact ⟨hs, ha, fun n h => by cases h⟩
  | cons e x ih =>
    obtain ⟨h1, h2, h3⟩ := ih hall.2 (fun y hy => hx y (.tail _ hy))
    have he := hx e (.head _)
    have hp : Permitted e (x ++ l) := hall.1
    cases e with
    | state s n =>
      have hp : EdgeOk (x ++ l) s := hp.2
      refine ⟨?_, h2, ?_⟩
      · show s ≠ .connecting
        rintro rfl
        have : lastApi (x ++ l) = some .clientConnect ∨ lastApi (x ++ l) = some .serverConnect := hp.2
        rw [h2] at this; simp at this
      · intro m hm
        rcases List.mem_cons.mp hm with hm | hm
        · cases hm
          exact h1 hp.2.1
        · exact h3 m hm
    | api | ret => exact he.elim
    | _ =>
      exact ⟨h1, h2, fun m hm => (List.mem_cons.mp hm).elim (fun h => by cases h) (h3 m)⟩

theorem AllAt.suffix {P : Effect → Log → Prop} {x l : Log} (h : AllAt P (x ++ l)) : AllAt P l := by
  induction x with
  | nil => exact h
  | cons e x ih => exact ih h.2

/-- The connection can log in: a method was chosen and its data fits a message. -/
structure CanLogin (c : Conn) : Prop where
  ty : c.authType = authUserPassTy ∨ c.authType = authTokenTy ∨ c.authType = authCbTy
  len : c.authBufferLength < 1350
  cb : c.authType = authCbTy → c.authBufferLength ≤ 1346

theorem sendAuth_log (env : Env) (c : Conn) (hs : c.state = .linkUp ∨ c.state = .authenticating) (hc : CanLogin c) :
    ∃ x m ok t, (sendAuth env c).1.log = x ++ .sslCall (.write m) ok :: (t ++ c.log) ∧ (∀ e ∈ x, CbIo e) ∧ m.head? = some 4 ∧
      (c.state = .authenticating → t = []) ∧ (c.state = .linkUp → ∃ n, t = [.state .authenticating n]) := by
  unfold sendAuth
  rw [if_neg (by rintro ⟨h1, h2⟩; exact hs.elim h1 h2)]
  have ht : ∃ t, (setState c .authenticating).log = t ++ c.log ∧ (c.state = .authenticating → t = []) ∧
      (c.state = .linkUp → ∃ n, t = [.state .authenticating n]) := by
    unfold setState
    split
    · rename_i h; exact ⟨[], rfl, fun _ => rfl, fun h' => by rw [h] at h'; cases h'⟩
    · rename_i h; exact ⟨[.state .authenticating c.cbs.stateChange], rfl, fun h' => absurd h' h, fun _ => ⟨_, rfl⟩⟩
  have hty : (setState c .authenticating).authType = c.authType ∧ (setState c .authenticating).authBufferLength = c.authBufferLength := by
    unfold setState; split <;> exact ⟨rfl, rfl⟩
  obtain ⟨t, h1, h2, h3⟩ := ht
  simp only
  generalize setState c .authenticating = d at h1 hty ⊢
  have fin : ∀ m : Bytes, m.head? = some 4 → ∃ x m' ok t, (sendMessage env d m).1.log = x ++ .sslCall (.write m') ok :: (t ++ c.log) ∧ (∀ e ∈ x, CbIo e) ∧ m'.head? = some 4 ∧
      (c.state = .authenticating → t = []) ∧ (c.state = .linkUp → ∃ n, t = [.state .authenticating n]) := by
    intro m hm
    obtain ⟨l, ok, hl, hcb⟩ := sendMessage_log env d m
    exact ⟨l, m, ok, t, by rw [hl, h1], hcb, hm, h2, h3⟩
  have hl := hc.len
  rw [← hty.2] at hl
  rcases hc.ty with h | h | h <;> rw [← hty.1] at h <;> rw [h]
  · rw [if_pos rfl]; exact fin _ rfl
  · rw [if_neg (by decide), if_pos rfl, if_neg (show ¬(4 + d.authBufferLength > maxWireMtu) by unfold maxWireMtu; omega)]
    exact fin _ rfl
  · rw [if_neg (by decide), if_neg (by decide), if_pos rfl]
    rw [if_neg (show ¬(4 + d.authBufferLength > maxMtu) by have := hc.cb (hty.1 ▸ h); rw [← hty.2] at this; unfold maxMtu; omega)]
    exact fin _ rfl

theorem CanLogin.of_fields {c c' : Conn} (h : CanLogin c) (h1 : c'.authType = c.authType)
    (h2 : c'.authBufferLength = c.authBufferLength) : CanLogin c' :=
  ⟨by rw [h1]; exact h.ty, by rw [h2]; exact h.len, by rw [h1, h2]; exact h.cb⟩

theorem IoFrame.login {c c' : Conn} (h : IoFrame c c') : c'.authType = c.authType ∧ c'.authBufferLength = c.authBufferLength := by
  obtain ⟨_, _, _, _, rfl, _⟩ := h; exact ⟨rfl, rfl⟩

theorem setState_login (c : Conn) (s : ConnState) : (setState c s).authType = c.authType ∧ (setState c s).authBufferLength = c.authBufferLength := by
  unfold setState; split <;> exact ⟨rfl, rfl⟩

/-- A client's link comes up: the login follows at once. -/
theorem changeState_logged (env : Env) (c : Conn) (hs : c.state = .connecting) (hr : c.isServer = false) (hc : CanLogin c) :
    ∃ x, (changeState env c .linkUp).log = x ++ c.log ∧ Logged x ∧ stateAt (changeState env c .linkUp).log = .authenticating := by
  unfold changeState
  rw [if_neg (by simp [hs])]
  have hl : (setState c .linkUp).log = .state .linkUp c.cbs.stateChange :: c.log := by
    unfold setState; rw [if_neg (by simp [hs])]
  have hst := setState_state c .linkUp
  have hrl : (setState c .linkUp).isServer = false := (setState_fields c .linkUp).2.1.trans hr
  have hcl : CanLogin (setState c .linkUp) := hc.of_fields (setState_login c _).1 (setState_login c _).2
  simp only
  generalize setState c .linkUp = d at hl hst hrl hcl ⊢
  rw [if_pos (by rw [hrl]; exact ⟨trivial, rfl⟩)]
  obtain ⟨x, m, ok, t, h1, h2, h3, -, h4⟩ := sendAuth_log env d (.inl hst) hcl
  obtain ⟨n, rfl⟩ := h4 hst
  refine ⟨x ++ [.sslCall (.write m) ok, .state .authenticating n, .state .linkUp c.cbs.stateChange], by rw [h1, hl]; simp, ?_, ?_⟩
  · refine Logged.append (NoLink.logged fun n h => (h2 _ h : False)) ?_
    intro newer n' older e
    match newer, e with
    | [], e => simp at e
    | [_], e => simp at e
    | [a, b], e =>
      simp only [List.cons_append, List.nil_append, List.cons.injEq] at e
      exact ⟨[], m, ok, n, by rw [← e.1, ← e.2.1]; rfl, h3⟩
    | a :: b :: d :: r, e =>
      have := congrArg List.length e
      simp at this
  · rw [h1]
    clear h1
    induction x with
    | nil => rfl
    | cons e x ih =>
      have := h2 e (.head _)
      have ih := ih fun y hy => h2 y (.tail _ hy)
      cases e <;> first | exact this.elim | exact ih

/-! ### The configuration -/

/-- What the setters guarantee. -/
structure ConfFit (f : Conf) : Prop where
  unset : f.method = .none → f.user = [] ∧ f.secret = []
  len : f.secret.length < 1350
  buf : f.method = .buffer → f.secret.length ≤ 1346

theorem ConfFit.set {f : Conf} (h : ConfFit f) (op : Op) : ConfFit (f.set op) := by
  cases op <;> unfold Conf.set
  case setUsername s => exact ⟨by simp, h.len, by simp⟩
  case setPassword s => exact ⟨by simp, h.len, by simp⟩
  case setAuthToken t =>
    simp only
    split
    · rename_i ht; exact ⟨by simp, ht.2, by simp⟩
    · exact h
  case setAuthBuffer t =>
    simp only
    split
    · rename_i ht; exact ⟨by simp, Nat.lt_of_le_of_lt ht.2 (by omega), fun _ => ht.2⟩
    · exact h
  case setOutsideMtu m =>
    simp only
    split
    · exact ⟨h.unset, h.len, h.buf⟩
    · exact h
  case setSni s => exact ⟨h.unset, h.len, h.buf⟩
  all_goals exact h

theorem confOf_fit (ops : List Op) : ConfFit (confOf ops) := by
  have : ∀ (l : List Op) (f : Conf), ConfFit f → ConfFit (l.foldl Conf.set f) := by
    intro l
    induction l with
    | nil => exact fun f h => h
    | cons a l ih => exact fun f h => ih _ (h.set a)
  exact this ops {} ⟨fun _ => ⟨rfl, rfl⟩, by decide, by simp⟩

theorem Agrees.canLogin {f : Conf} {c : Conn} (h : Agrees f c) (hf : ConfFit f) (hm : f.method ≠ .none) : CanLogin c := by
  refine ⟨?_, by rw [h.blen]; exact hf.len, fun hc => ?_⟩
  · rw [h.ty]
    revert hm
    cases f.method <;> intro hm
    · exact absurd rfl hm
    · exact .inl rfl
    · exact .inr (.inl rfl)
    · exact .inr (.inr rfl)
  · rw [h.blen]
    apply hf.buf
    rw [h.ty] at hc
    revert hc
    cases f.method <;> intro hc
    · exact absurd hc (by decide)
    · exact absurd hc (by decide)
    · exact absurd hc (by decide)
    · rfl

theorem method_stays {f : Conf} (h : f.method ≠ .none) (op : Op) : (f.set op).method ≠ .none := by
  cases op <;> unfold Conf.set <;> try simp only
  all_goals first | (intro h'; cases h'; done) | exact h | (split <;> first | (intro h'; cases h'; done) | exact h)

theorem snoc_induct {α : Type} {P : List α → Prop} (h0 : P []) (h1 : ∀ l a, P l → P (l ++ [a])) : ∀ l, P l := by
  intro l
  have : ∀ (r : List α), P r.reverse := by
    intro r
    induction r with
    | nil => exact h0
    | cons a r ih => rw [List.reverse_cons]; exact h1 _ _ ih
  have := this l.reverse
  rwa [List.reverse_reverse] at this

/-- A client that is CONNECTING has chosen how to log in. -/
theorem connecting_method (env : Env) (ops : List Op) (hns : ∀ op ∈ ops, op.api ≠ .serverConnect)
    (hs : (run env ops).state = .connecting) : (confOf ops).method ≠ .none := by
  revert hns hs
  refine snoc_induct (P := fun ops => (∀ op ∈ ops, op.api ≠ .serverConnect) → (run env ops).state = .connecting →
    (confOf ops).method ≠ .none) ?_ ?_ ops
  · intro _ hs; cases hs
  · intro ops op ih hns hs
    have hns' : ∀ o ∈ ops, o.api ≠ .serverConnect := fun o h => hns o (by simp [h])
    have ih := ih hns'
    have hco : confOf (ops ++ [op]) = (confOf ops).set op := by simp [confOf]
    rw [hco]
    rw [run_snoc] at hs
    obtain ⟨⟨ap, hi⟩, _⟩ := run_good env ops
    by_cases hop : op.api = .clientConnect
    · cases op <;> simp only [Op.api, reduceCtorEq] at hop
      rename_i ctx i o
      by_cases hv : isValidClient ctx (run env ops) = .success
      · have hr := (C44_client_validity env ops hns' ctx).mp hv
        intro hm
        have := (confOf_fit ops).unset hm
        rcases hr.1 with h | h
        · exact h.2.1 this.1
        · exact h.1 this.2
      · rw [(C44_invalid_refused env (run env ops) ctx i o).1 hv] at hs
        exact ih hs
    · refine method_stays (ih ?_) op
      refine Classical.byContradiction fun hne => ?_
      refine step_state env op hi (fun s => s ≠ .connecting) ?_ hne hs
      intro c s _ he hsc
      subst hsc
      have := he.1
      rcases this with h | h
      · exact hop h
      · exact hns op (by simp) h

/-! ### One call -/

theorem negotiateFirst_logged (env : Env) (c : Conn) (hs : c.state = .connecting) (hr : c.isServer = false) (hc : CanLogin c) :
    ∃ x, (negotiateFirst env c).1.log = x ++ c.log ∧ Logged x := by
  unfold negotiateFirst
  obtain ⟨io, hl, hio⟩ := sslDo_says env c .negotiate
  have hf := sslDo_frame env c .negotiate
  simp only
  generalize (sslDo env c .negotiate).2 = a at hl ⊢
  generalize (sslDo env c .negotiate).1 = d at hl hf ⊢
  have hio' : NoLink (io ++ [.sslCall .negotiate a.ok]) := by
    intro n h
    simp only [List.mem_append, List.mem_singleton, reduceCtorEq, or_false] at h
    exact hio _ h
  have hl' : d.log = (io ++ [.sslCall .negotiate a.ok]) ++ c.log := by rw [hl]; simp
  split
  · obtain ⟨x, h1, h2, -⟩ := changeState_logged env d (hf.fields.1.trans hs) (hf.fields.2.1.trans hr) (hc.of_fields hf.login.1 hf.login.2)
    obtain ⟨x2, _, _, _, _, _, _, _, _, _, _, _, hx2, ht⟩ := updateTimeout_t env (changeState env d .linkUp)
    refine ⟨x2 ++ (x ++ (io ++ [.sslCall .negotiate a.ok])), ?_, (tail_noState ht).noLink.logged.append (h2.append hio'.logged)⟩
    rw [hx2]; simp only; rw [h1, hl']; simp
  · split
    · obtain ⟨x2, _, _, _, _, _, _, _, _, _, _, _, hx2, ht⟩ := updateTimeout_t env d
      refine ⟨x2 ++ (io ++ [.sslCall .negotiate a.ok]), ?_, ((tail_noState ht).noLink.append hio').logged⟩
      rw [hx2]; simp only; rw [hl']; simp
    · exact ⟨_, hl', hio'.logged⟩

theorem internalConnect_logged (env : Env) (c : Conn) (ctx : SslCtx) (i o : Chain) (hr : c.isServer = false) (hc : CanLogin c) :
    ∃ x, (internalConnect env c ctx i o).1.log = x ++ c.log ∧ Logged x := by
  obtain ⟨hl, hs, hr', -, -, hp, ha, -, hb⟩ := configured_fields env c ctx i o
  have hcl : CanLogin (configured env c ctx i o) := hc.of_fields ha hb
  have hrl : (configured env c ctx i o).isServer = false := hr'.trans hr
  generalize hd : configured env c ctx i o = d at *
  have hl' : d.log = [.chains i.plugins o.plugins, .table ctx.maxFragEntries,
      .alloc (env.alloc (.callbacks ctx.cbs :: c.log)), .callbacks ctx.cbs] ++ c.log := hl
  have hpre : NoLink [Effect.chains i.plugins o.plugins, .table ctx.maxFragEntries,
      .alloc (env.alloc (.callbacks ctx.cbs :: c.log)), .callbacks ctx.cbs] := by intro n h; simp at h
  generalize [Effect.chains i.plugins o.plugins, .table ctx.maxFragEntries,
      .alloc (env.alloc (.callbacks ctx.cbs :: c.log)), .callbacks ctx.cbs] = pre at hl' hpre
  have hsh := internalConnect_shape env c ctx i o
  simp only [hd] at hsh
  rcases hsh with ⟨-, e⟩ | ⟨-, h⟩
  · rw [e]; exact ⟨pre, hl', hpre.logged⟩
  · obtain ⟨hf, x, hx, hxi, -, -⟩ := setupSsl_setup env d ctx hp
    have hn := (setupIo_noState hxi).noLink
    rcases h with ⟨rc, -, e⟩ | ⟨-, e⟩
    · rw [e]
      exact ⟨x ++ pre, by rw [hx, hl']; simp, (hn.append hpre).logged⟩
    · rw [e]
      have hr2 : (setupSsl env d ctx).1.isServer = false := hf.fields.2.1.trans hrl
      have hc2 : CanLogin (setupSsl env d ctx).1 := hcl.of_fields hf.login.1 hf.login.2
      generalize (setupSsl env d ctx).1 = d2 at hx hr2 hc2 ⊢
      obtain ⟨t, ht, hts⟩ := setState_log d2 .connecting
      obtain ⟨y, hy, hyl⟩ := negotiateFirst_logged env (setState d2 .connecting) (setState_state _ _)
        ((setState_fields d2 .connecting).2.1.trans hr2) (hc2.of_fields (setState_login _ _).1 (setState_login _ _).2)
      refine ⟨y ++ (t ++ (x ++ pre)), by rw [hy, ht, hx, hl']; simp, hyl.append (Logged.append ?_ (hn.append hpre).logged)⟩
      refine NoLink.logged fun n h => ?_
      rcases hts with rfl | ⟨n', rfl⟩ <;> simp at h

theorem outsideData_logged (env : Env) (c : Conn) (buf : Bytes) (reads : List ReadRes)
    (hr : c.isServer = false) (hc : c.state = .connecting → CanLogin c) (hst : c.state = stateAt c.log)
    (ha : lastApi c.log = some .outsideData) (hall : AllAt Permitted (outsideData env c buf reads).1.log)
    (hm : ∃ x, (outsideData env c buf reads).1.log = x ++ c.log ∧ ∀ e ∈ x, NoMark e) :
    ∃ x, (outsideData env c buf reads).1.log = x ++ c.log ∧ Logged x := by
  obtain ⟨xm, hxm, hmark⟩ := hm
  by_cases hs : c.state = .connecting
  · rcases outsideData_reach env c buf reads with ⟨l, h1, h2, -⟩ | ⟨c1, s, b, l, hre, hcase⟩
    · refine ⟨l, h1, NoLink.logged fun n h => ?_⟩
      obtain ⟨p, q, e⟩ := h2 _ h; cases e
    · have hpre : NoLink (.input s b :: l) := by
        intro n h
        rcases List.mem_cons.mp h with h | h
        · cases h
        · obtain ⟨p, e⟩ := hre.plugins _ h; cases e
      -- what verification adds
      have hv : ∀ y, (outsideData env c buf reads).1.log = y ++ (verifyConnection env c1 reads).1.log → NoLink y →
          ∃ x, (outsideData env c buf reads).1.log = x ++ c.log ∧ Logged x := by
        intro y hy hyn
        obtain ⟨c2, f, e1, e2, e3, -, e5, e6, e7, e8⟩ := verifyConnection_connecting env c1 reads (hre.state.trans hs)
        have hfn : NoLink f := fun n h => by obtain ⟨n', e⟩ := e2 _ h; cases e
        obtain ⟨io, hl, hio⟩ := sslDo_says env c2 .negotiate
        have hf := sslDo_frame env c2 .negotiate
        simp only at e8
        generalize (sslDo env c2 .negotiate).2 = a at hl e8
        generalize (sslDo env c2 .negotiate).1 = d at hl hf e8
        have hl' : d.log = (io ++ [.sslCall .negotiate a.ok] ++ f ++ .input s b :: l) ++ c.log := by
          rw [hl, e1, hre.log]; simp
        have hbase : NoLink (io ++ [.sslCall .negotiate a.ok] ++ f ++ .input s b :: l) := by
          refine ((NoLink.append (fun n h => hio _ h) ?_).append hfn).append hpre
          intro n h; simp at h
        generalize (io ++ [.sslCall .negotiate a.ok] ++ f ++ .input s b :: l) = base at hl' hbase
        have fin : ∀ z, (verifyConnection env c1 reads).1.log = z ++ d.log → Logged z →
            ∃ x, (outsideData env c buf reads).1.log = x ++ c.log ∧ Logged x := by
          intro z hz hzl
          exact ⟨y ++ (z ++ base), by rw [hy, hz, hl']; simp, hyn.logged.append (hzl.append hbase.logged)⟩
        by_cases hok : a.ok = false
        · rw [if_pos hok] at e8
          by_cases hwt : a.err ≠ .wantRead ∧ a.err ≠ .wantWrite
          · rw [if_pos hwt] at e8
            refine fin [] ?_ (by intro _ _ _ e; simp at e)
            rw [e8]
            split
            · rfl
            · split <;> rfl
          · rw [if_neg hwt] at e8
            by_cases hd : d.connType = .datagram
            · rw [if_pos hd] at e8
              obtain ⟨x2, _, _, _, _, _, _, _, _, _, _, _, hx2, ht⟩ := updateTimeout_t env d
              exact fin x2 (by rw [e8, hx2]) (tail_noState ht).noLink.logged
            · rw [if_neg hd] at e8
              exact fin [] (by rw [e8]; rfl) (by intro _ _ _ e; simp at e)
        · rw [if_neg hok] at e8
          have hcl : CanLogin d := (hc hs).of_fields (hf.login.1.trans (e6.trans hre.auth.1)) (hf.login.2.trans (e7.trans hre.auth.2))
          obtain ⟨x1, g1, g2, g3⟩ := changeState_logged env d (hf.fields.1.trans e3) (hf.fields.2.1.trans (e5.trans (hre.role.trans hr))) hcl
          obtain ⟨x2, hx2⟩ := handleMessages_ext env (changeState env d .linkUp) reads
          have hlg : (outsideData env c buf reads).1.log = (y ++ x2) ++ (changeState env d .linkUp).log := by
            rw [hy, e8, hx2]; simp
          have hcut : y ++ x2 ++ (x1 ++ base) = xm := by
            refine List.append_cancel_right (bs := c.log) ?_
            rw [← hxm, hlg, g1, hl']; simp
          have hla : lastApi (changeState env d .linkUp).log = some .outsideData := by
            rw [g1, hl', ← ha, ← List.append_assoc]
            have hmk : ∀ e ∈ x1 ++ base, NoMark e := fun e he => hmark e (by rw [← hcut]; exact List.mem_append_right _ he)
            generalize x1 ++ base = w at hmk
            clear hcut
            induction w with
            | nil => rfl
            | cons e w ih =>
              have := hmk e (.head _)
              have ih := ih fun y hy => hmk y (.tail _ hy)
              cases e <;> first | exact this.elim | exact ih
          have hno := no_link (x := y ++ x2) (l := (changeState env d .linkUp).log) (by rw [← hlg]; exact hall) hla
            (fun e he => hmark e (by rw [← hcut]; exact List.mem_append_left _ he)) (by rw [g3]; simp)
          exact ⟨(y ++ x2) ++ (x1 ++ base), by rw [hcut, hxm], hno.2.2.logged.append (g2.append hbase.logged)⟩
      rcases hcase with e | ⟨-, e⟩
      · exact hv [] (by rw [e]; rfl) (fun n h => by cases h)
      · obtain ⟨x2, _, _, _, _, _, _, _, _, _, _, _, hx2, ht⟩ := updateSessionIncoming_t (verifyConnection env c1 reads).1 s
        exact hv x2 (by rw [e, hx2]) (tail_noState ht).noLink
  · have := no_link (x := xm) (l := c.log) (by rw [← hxm]; exact hall) ha hmark (by rw [← hst]; exact hs)
    exact ⟨xm, hxm, this.2.2.logged⟩

theorem run_logged (env : Env) (ops : List Op) : (∀ op ∈ ops, op.api ≠ .serverConnect) → Logged (run env ops).log := by
  refine snoc_induct (P := fun ops => (∀ op ∈ ops, op.api ≠ .serverConnect) → Logged (run env ops).log) ?_ ?_ ops
  · intro _ newer n older e
    have : ([] : Log) = newer ++ .state .linkUp n :: older := e
    simp at this
  · intro ops op ih hns
    have hns' : ∀ o ∈ ops, o.api ≠ .serverConnect := fun o h => hns o (by simp [h])
    have ih := ih hns'
    have hag := run_agrees env ops hns'
    have hfit := confOf_fit ops
    have hcm := connecting_method env ops hns'
    obtain ⟨_, hinv⟩ := run_inv env (ops ++ [op])
    have hall := hinv.all
    clear hinv
    have hval : ∀ ctx, isValidClient ctx (run env ops) = .success → (confOf ops).method ≠ .none := by
      intro ctx hv hm
      have := hfit.unset hm
      rcases ((C44_client_validity env ops hns' ctx).mp hv).1 with h | h
      · exact h.2.1 this.1
      · exact h.1 this.2
    obtain ⟨⟨ap, hi⟩, _⟩ := run_good env ops
    rw [run_snoc] at hall ⊢
    generalize run env ops = c at *
    obtain ⟨l, hl, hmark⟩ := step_log env op hi
    have hcl : (confOf ops).method ≠ .none → CanLogin c := hag.canLogin hfit
    have hsfin : ∀ x, (step env c op).1.log = .ret (step env c op).2 :: (x ++ .api op.api :: c.log) → Logged x → Logged (step env c op).1.log := by
      intro x hx hxl
      have : (step env c op).1.log = [.ret (step env c op).2] ++ (x ++ ([.api op.api] ++ c.log)) := hx
      rw [this]
      refine Logged.append ?_ (hxl.append (Logged.append ?_ ih))
      · exact NoLink.logged fun n h => by simp at h
      · exact NoLink.logged fun n h => by simp at h
    by_cases h1 : op.api = .clientConnect
    · cases op <;> simp only [Op.api, reduceCtorEq] at h1
      rename_i ctx i o
      by_cases hv : isValidClient ctx c = .success
      · obtain ⟨x, hx, hxl⟩ := internalConnect_logged env { (c.emit (.api .clientConnect)).emit (.role false) with isServer := false } ctx i o rfl
          ((hcl (hval ctx hv)).of_fields rfl rfl)
        refine hsfin (x ++ [.role false]) ?_ (hxl.append (NoLink.logged fun n h => by simp at h))
        have hbody : clientConnect env (c.emit (.api .clientConnect)) ctx i o =
            internalConnect env { (c.emit (.api .clientConnect)).emit (.role false) with isServer := false } ctx i o := by
          unfold clientConnect
          simp only
          rw [if_neg (show ¬isValidClient ctx (c.emit (.api .clientConnect)) ≠ .success from fun h => h hv)]
        have hst : (step env c (.clientConnect ctx i o)).1.log = .ret (step env c (.clientConnect ctx i o)).2 ::
          (clientConnect env (c.emit (.api .clientConnect)) ctx i o).1.log := rfl
        rw [hst, hbody, hx]
        show _ = _ :: (x ++ [.role false] ++ _)
        rw [List.append_assoc]; rfl
      · rw [(C44_invalid_refused env c ctx i o).1 hv]
        exact Logged.append (a := [_, _]) (NoLink.logged fun n h => by simp at h) ih
    · by_cases h2 : op.api = .outsideData
      · cases op <;> simp only [Op.api, reduceCtorEq] at h2
        rename_i buf reads
        have hlog : (step env c (.outsideData buf reads)).1.log = .ret (step env c (.outsideData buf reads)).2 ::
          (outsideData env (c.emit (.api .outsideData)) buf reads).1.log := rfl
        obtain ⟨x, hx, hxl⟩ := outsideData_logged env (c.emit (.api .outsideData)) buf reads hag.role (fun h => (hcl (hcm h)).of_fields rfl rfl)
          hi.st.symm rfl (by rw [hlog] at hall; exact hall.2) ⟨l, by rw [hlog] at hl; simpa [Conn.emit, Op.api] using hl, hmark⟩
        exact hsfin x (by rw [hlog, hx]; rfl) hxl
      · refine hsfin l (by rw [hl]; simp) (NoLink.logged fun n h => ?_)
        obtain ⟨a, b, hab⟩ := List.append_of_mem h
        rw [hl, hab] at hall
        have hp : Permitted (.state .linkUp n) (b ++ .api op.api :: c.log) :=
          AllAt.at hall (newer := .ret (step env c op).2 :: a) (by simp)
        have hla : lastApi (b ++ .api op.api :: c.log) = some op.api := by
          have hmk : ∀ e ∈ b, NoMark e := fun e he => hmark e (by rw [hab]; simp [he])
          clear hp hall hab
          induction b with
          | nil => rfl
          | cons e w ih =>
            have := hmk e (.head _)
            have ih := ih fun y hy => hmk y (.tail _ hy)
            cases e <;> first | exact this.elim | exact ih
        have he : EdgeOk (b ++ .api op.api :: c.log) .linkUp := hp.2
        rcases he.2.2.2 with h | h | h <;> rw [hla] at h
        · exact h1 (by simpa using h)
        · exact hns op (by simp) (by simpa using h)
        · exact h2 (by simpa using h)

/-- **C76.**  A client logs in as soon as its link is up: every LINK_UP it announces is followed, before anything
else, by AUTHENTICATING and an AUTH message handed to TLS (C42 says what is in it). -/
theorem C76_logs_in (env : Env) (ops : List Op) (hns : ∀ op ∈ ops, op.api ≠ .serverConnect) {newer older : Log} {n : Bool}
    (h : (run env ops).log = newer ++ .state .linkUp n :: older) :
    ∃ newer' m ok n', newer = newer' ++ [.sslCall (.write m) ok, .state .authenticating n'] ∧ m.head? = some 4 :=
  run_logged env ops hns newer n older h

/-- What TLS answers to the host's time-out after history `l`; an error if there is no TLS object. -/
def Spec.timeoutAnswer (env : Env) (l : Log) : SslRes :=
  if hasTls l then env.ssl (.api .nudge :: l) .gotTimeout else { ok := false, val := -1, err := .badFuncArg, io := [] }

/-- Everything but state changes. -/
theorem stateAt_skip {x l : Log} (h : NoState x) : stateAt (x ++ l) = stateAt l := by
  induction x with
  | nil => rfl
  | cons e x ih =>
    have hz' : NoState x := fun s n he => h s n (.tail _ he)
    cases e <;> first | exact ih hz' | exact absurd (List.Mem.head _) (h _ _)

theorem cbIo_noState {l : Log} (h : ∀ e ∈ l, CbIo e) : NoState l := fun _ _ he => (h _ he : False)

/-- **C76.**  What a nudge does.  While AUTHENTICATING a client sends its credentials again, and the call succeeds
without a state change.  Otherwise TLS is told that its timer fired; if TLS gives up, the connection is
DISCONNECTED and the call reports the time-out, else the call succeeds without a state change. -/
theorem C76_nudge (env : Env) (ops : List Op) {x : Log}
    (hx : (run env (ops ++ [.nudge])).log = x ++ (run env ops).log) :
    let l := (run env ops).log
    let rc := (step env (run env ops) .nudge).2
    let t := timeoutAnswer env l
    (stateAt l = .authenticating → rc = .success ∧ NoState x ∧
      ((∀ op ∈ ops, op.api ≠ .serverConnect) → (confOf ops).method ≠ .none →
        ∃ y m ok, x = y ++ [.sslCall (.write m) ok, .api .nudge] ∧ m.head? = some 4)) ∧
    (stateAt l ≠ .authenticating →
      ((t.ok = true ∨ Wants t.err) → rc = .success ∧ NoState x) ∧
      (¬(t.ok = true ∨ Wants t.err) → rc = .connectionTimedOut ∧ stateAt (x ++ l) = .disconnected) ∧
      ∃ y, x = y ++ [.sslCall .gotTimeout t.ok, .api .nudge]) := by
  have hst := run_state env ops
  have htl := run_tls env ops
  have hag : (∀ op ∈ ops, op.api ≠ .serverConnect) → (confOf ops).method ≠ .none → CanLogin (run env ops) :=
    fun h hm => (run_agrees env ops h).canLogin (confOf_fit ops) hm
  rw [run_snoc] at hx
  generalize run env ops = c at *
  simp only
  have hlog : (step env c .nudge).1.log = .ret (nudge env (c.emit (.api .nudge))).2 :: (nudge env (c.emit (.api .nudge))).1.log := rfl
  have hres : (step env c .nudge).2 = (nudge env (c.emit (.api .nudge))).2 := rfl
  rw [hlog] at hx
  rw [hres]
  clear hlog hres
  have fin : ∀ z : Log, (nudge env (c.emit (.api .nudge))).1.log = z ++ (.api .nudge :: c.log) →
      x = [.ret (nudge env (c.emit (.api .nudge))).2] ++ z ++ [.api .nudge] := by
    intro z hz
    rw [hz] at hx
    refine (List.append_cancel_right (bs := c.log) ?_).symm
    rw [← hx]; simp
  unfold nudge at *
  simp only at fin hx ⊢
  refine ⟨fun hs => ?_, fun hs => ?_⟩
  · rw [← hst] at hs
    rw [if_pos (show ({ c.emit (.api .nudge) with nudgeTimerRunning := false } : Conn).state = .authenticating from hs)] at fin hx ⊢
    obtain ⟨x2, _, _, _, _, _, _, _, _, _, _, _, hx2, ht⟩ := updateTimeout_t env (sendAuth env { c.emit (.api .nudge) with nudgeTimerRunning := false }).1
    obtain ⟨xs, hxs, hxn⟩ := sendAuth_noMsg env { c.emit (.api .nudge) with nudgeTimerRunning := false }
    have hns : NoState xs := by
      have : ∃ l, (sendAuth env { c.emit (.api .nudge) with nudgeTimerRunning := false }).1.log = l ++ .api .nudge :: c.log ∧ NoState l := by
        unfold sendAuth
        rw [if_neg (by intro h; exact h.2 hs)]
        have hse : setState ({ c.emit (.api .nudge) with nudgeTimerRunning := false } : Conn) .authenticating = { c.emit (.api .nudge) with nudgeTimerRunning := false } := by
          unfold setState; exact if_pos hs
        rw [hse]
        simp only
        have hm : ∀ m, ∃ l, (sendMessage env { c.emit (.api .nudge) with nudgeTimerRunning := false } m).1.log = l ++ .api .nudge :: c.log ∧ NoState l := by
          intro m
          obtain ⟨l, ok, hl, hcb⟩ := sendMessage_log env { c.emit (.api .nudge) with nudgeTimerRunning := false } m
          refine ⟨l ++ [.sslCall (.write m) ok], by rw [hl]; simp [Conn.emit], noState_append (cbIo_noState hcb) (by intro s n h; simp at h)⟩
        have hid : ∃ l, ({ c.emit (.api .nudge) with nudgeTimerRunning := false } : Conn).log = l ++ .api .nudge :: c.log ∧ NoState l := ⟨[], rfl, by intro s n h; cases h⟩
        split
        · exact hm _
        · split
          · split
            · exact hid
            · exact hm _
          · split
            · split
              · exact hid
              · exact hm _
            · exact hid
      obtain ⟨l, hl, hn⟩ := this
      rw [hl] at hxs
      have : l = xs := List.append_cancel_right (bs := .api .nudge :: c.log) hxs
      rw [← this]; exact hn
    have hz : (updateTimeout env (sendAuth env { c.emit (.api .nudge) with nudgeTimerRunning := false }).1).log = (x2 ++ xs) ++ (.api .nudge :: c.log) := by
      rw [hx2]; simp only; rw [hxs]; simp [Conn.emit]
    refine ⟨rfl, ?_, fun h1 h2 => ?_⟩
    · rw [fin _ hz]
      exact noState_append (noState_append (by intro s n h; simp at h) (noState_append (tail_noState ht) hns)) (by intro s n h; simp at h)
    · obtain ⟨w, m, ok, t, g1, -, g3, g4, -⟩ := sendAuth_log env { c.emit (.api .nudge) with nudgeTimerRunning := false } (.inr hs) ((hag h1 h2).of_fields rfl rfl)
      rw [g4 hs] at g1
      have : xs = w ++ [.sslCall (.write m) ok] := by
        rw [g1] at hxs
        refine (List.append_cancel_right (bs := .api .nudge :: c.log) ?_).symm
        have hxs : w ++ .sslCall (.write m) ok :: (.api .nudge :: c.log) = xs ++ (.api .nudge :: c.log) := hxs
        rw [← hxs]; simp
      refine ⟨[.ret .success] ++ x2 ++ w, m, ok, ?_, g3⟩
      rw [fin _ hz, this]; simp
  · rw [← hst] at hs
    rw [if_neg (show ¬({ c.emit (.api .nudge) with nudgeTimerRunning := false } : Conn).state = .authenticating from hs)] at fin hx ⊢
    have hr : (sslDo env { c.emit (.api .nudge) with nudgeTimerRunning := false } .gotTimeout).2 = timeoutAnswer env c.log := by
      unfold sslDo timeoutAnswer
      rw [← htl]; rfl
    obtain ⟨io, hl, hio⟩ := sslDo_says env { c.emit (.api .nudge) with nudgeTimerRunning := false } .gotTimeout
    have hsd := (sslDo_n env { c.emit (.api .nudge) with nudgeTimerRunning := false } .gotTimeout).state
    rw [hr] at hl
    have hl : _ = io ++ .sslCall .gotTimeout (timeoutAnswer env c.log).ok :: (.api .nudge :: c.log) := hl
    generalize hq : sslDo env { c.emit (.api .nudge) with nudgeTimerRunning := false } .gotTimeout = q at fin hx hr hl hsd ⊢
    clear hq
    obtain ⟨d, a⟩ := q
    simp only at fin hx hr hl hsd ⊢
    rw [← hr] at hl ⊢
    have hion : NoState io := fun s n h => hio _ h
    obtain ⟨x2, _, _, _, _, _, _, _, _, _, _, _, hx2, ht⟩ := updateTimeout_t env d
    have good : (updateTimeout env d).log = (x2 ++ (io ++ [.sslCall .gotTimeout a.ok])) ++ (.api .nudge :: c.log) := by
      rw [hx2]; simp only; rw [hl]; simp
    have gns : NoState ([.ret .success] ++ (x2 ++ (io ++ [.sslCall .gotTimeout a.ok])) ++ [.api .nudge]) :=
      noState_append (noState_append (by intro s n h; simp at h) (noState_append (tail_noState ht) (noState_append hion (by intro s n h; simp at h)))) (by intro s n h; simp at h)
    by_cases hok : a.ok = true
    · rw [if_neg (by simp [hok])] at fin hx ⊢
      have := fin _ good
      refine ⟨fun _ => ⟨rfl, by rw [this]; exact gns⟩, fun h => absurd (.inl hok) h, _, by rw [this, List.append_assoc, List.append_assoc, List.append_assoc, ← List.append_assoc, ← List.append_assoc]; rfl⟩
    · rw [if_pos (by simpa using hok)] at fin hx ⊢
      by_cases hw : Wants a.err
      · obtain ⟨hw1, this⟩ : (match a.err with
            | .wantRead => (updateTimeout env d, RC.success)
            | .wantWrite => (updateTimeout env d, .success)
            | _ => (setState d .disconnected, .connectionTimedOut)) = (updateTimeout env d, .success) ∧
            x = [.ret .success] ++ (x2 ++ (io ++ [.sslCall .gotTimeout a.ok])) ++ [.api .nudge] := by
          rcases hw with h | h <;> (rw [h] at fin ⊢; exact ⟨rfl, fin _ good⟩)
        refine ⟨fun _ => ⟨congrArg Prod.snd hw1, by rw [this]; exact gns⟩, fun h => absurd (.inr hw) h, _, by rw [this, List.append_assoc, List.append_assoc, List.append_assoc, ← List.append_assoc, ← List.append_assoc]; rfl⟩
      · obtain ⟨t, ht2, hts⟩ := setState_log d .disconnected
        have hz : (setState d .disconnected).log = (t ++ (io ++ [.sslCall .gotTimeout a.ok])) ++ (.api .nudge :: c.log) := by
          rw [ht2, hl]; simp
        obtain ⟨hw1, hxx⟩ : (match a.err with
            | .wantRead => (updateTimeout env d, RC.success)
            | .wantWrite => (updateTimeout env d, .success)
            | _ => (setState d .disconnected, .connectionTimedOut)) = (setState d .disconnected, .connectionTimedOut) ∧
            x = [.ret .connectionTimedOut] ++ (t ++ (io ++ [.sslCall .gotTimeout a.ok])) ++ [.api .nudge] := by
          cases he : a.err <;> first | exact absurd (.inl he : Wants a.err) hw | exact absurd (.inr he : Wants a.err) hw | (rw [he] at fin; exact ⟨rfl, fin _ hz⟩)
        refine ⟨fun h => absurd h (fun h => h.elim hok hw), fun _ => ⟨congrArg Prod.snd hw1, ?_⟩, _, by rw [hxx, List.append_assoc, List.append_assoc, List.append_assoc, ← List.append_assoc, ← List.append_assoc]; rfl⟩
        rw [hxx]
        rcases hts with rfl | ⟨n, rfl⟩
        · have hdd : d.state = .disconnected := by
            have : (setState d .disconnected).log = d.log := ht2
            unfold setState at this
            split at this
            · assumption
            · have := congrArg List.length this; simp at this
          rw [stateAt_skip]
          · rw [← hst, ← hdd, hsd]; rfl
          · exact noState_append (noState_append (by intro s n h; simp at h) (noState_append (by intro s n h; cases h) (noState_append hion (by intro s n h; simp at h)))) (by intro s n h; simp at h)
        · rfl

/-- Not vacuous: the demo client announces LINK_UP; it is AUTHENTICATING afterwards, with a method chosen. -/
example : Demo.occurs (fun e _ => Demo.toState .linkUp e) (run Demo.env Demo.clientOps).log = true ∧
    (∀ op ∈ Demo.clientOps, op.api ≠ .serverConnect) ∧
    stateAt (run Demo.env (Demo.clientOps.take 5)).log = .authenticating ∧ (confOf (Demo.clientOps.take 5)).method ≠ .none := by
  decide +kernel

/-- The TLS library gives up when its timer fires. -/
def Demo.gaveUp : Env := { Demo.env with ssl := fun l call => match call with
  | .gotTimeout => { ok := false, val := -1, err := .other 1, io := [] }
  | _ => Demo.ssl2 l call }

/-- Not vacuous: a nudge while CONNECTING that gives up, and one that goes on. -/
example : stateAt (run Demo.gaveUp (Demo.clientOps.take 4)).log = .connecting ∧
    (step Demo.gaveUp (run Demo.gaveUp (Demo.clientOps.take 4)) .nudge).2 = .connectionTimedOut ∧
    (step Demo.env (run Demo.env (Demo.clientOps.take 4)) .nudge).2 = .success := by decide +kernel

end Lightway
