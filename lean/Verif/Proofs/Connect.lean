import Verif.Spec.Connect
import Verif.Proofs.NoMsg

/-!
# The course of a connect call
-/

namespace Lightway
open Spec

theorem tlsCalls_append (a b : Log) : tlsCalls (a ++ b) = tlsCalls b ++ tlsCalls a := by
  induction a with
  | nil => simp [tlsCalls]
  | cons x xs ih => cases x <;> simp [tlsCalls, ih]

theorem tlsCalls_netIo {l : Log} (h : ∀ e ∈ l, NetIo e) : tlsCalls l = [] := by
  induction l with
  | nil => rfl
  | cons x xs ih =>
    have := h x (.head _)
    cases x <;> first | exact this.elim | exact ih fun y hy => h y (.tail _ hy)

/-- Effects of preparing a TLS object. -/
def SetupIo (e : Effect) : Prop := NetIo e ∨ ∃ k ok, e = .sslCall k ok

/-- How a preparation that asks for the calls `ks` ends. -/
def Outcome (env : Env) (l : Log) (ks : List SslCall) (x : Log) : Option RC → Prop
  | none => tlsCalls x = ks.map (·, true)
  | some rc => ∃ pre k post io y, ks = pre ++ k :: post ∧ x = io ++ .sslCall k false :: y ∧ (∀ e ∈ io, NetIo e) ∧
      tlsCalls y = pre.map (·, true) ∧ rc = setupFailure k (env.ssl (y ++ l) k).err

/-- The preparation `r` of `c` asks for the calls `ks`. -/
structure Setup (env : Env) (c : Conn) (ks : List SslCall) (r : Conn × Option RC) : Prop where
  frame : IoFrame c r.1
  log : ∃ x, r.1.log = x ++ c.log ∧ (∀ e ∈ x, SetupIo e) ∧ Outcome env c.log ks x r.2

theorem Setup.nil (env : Env) (c : Conn) : Setup env c [] (c, none) :=
  ⟨.refl c, [], rfl, by simp, rfl⟩

theorem Setup.one (env : Env) (c : Conn) (k : SslCall) (hw : c.wolfSet = true) {o : Option RC}
    (ho : o = if (sslDo env c k).2.ok then none else some (setupFailure k (sslDo env c k).2.err)) :
    Setup env c [k] ((sslDo env c k).1, o) := by
  have hr : (sslDo env c k).2 = env.ssl c.log k := by unfold sslDo; simp [hw]
  obtain ⟨l, hl, hio⟩ := sslDo_says env c k
  refine ⟨sslDo_frame env c k, l ++ [.sslCall k (sslDo env c k).2.ok], by rw [hl]; simp, ?_, ?_⟩
  · intro e he
    simp only [List.mem_append, List.mem_singleton] at he
    rcases he with he | he
    · exact .inl (hio e he)
    · exact .inr ⟨_, _, he⟩
  · rw [ho]
    cases hok : (sslDo env c k).2.ok with
    | true =>
      show tlsCalls _ = _
      rw [tlsCalls_append, tlsCalls_netIo hio]; rfl
    | false =>
      exact ⟨[], k, [], l, [], rfl, rfl, hio, rfl, by rw [hr]; rfl⟩

theorem Setup.bind {env : Env} {c c1 : Conn} {ks1 ks2 : List SslCall} {r : Conn × Option RC}
    (h1 : Setup env c ks1 (c1, none)) (h2 : Setup env c1 ks2 r) : Setup env c (ks1 ++ ks2) r := by
  obtain ⟨f1, x, hx, hxi, ho1⟩ := h1
  obtain ⟨f2, y, hy, hyi, ho2⟩ := h2
  simp only at f1 hx
  have ho1 : tlsCalls x = ks1.map (·, true) := ho1
  refine ⟨f1.trans f2, y ++ x, by rw [hy, hx]; simp, ?_, ?_⟩
  · intro e he
    exact (List.mem_append.mp he).elim (hyi e) (hxi e)
  · generalize r.2 = o at ho2
    cases o with
    | none =>
      show tlsCalls _ = _
      have ho2 : tlsCalls y = ks2.map (·, true) := ho2
      rw [tlsCalls_append, ho1, ho2]; simp
    | some rc =>
      obtain ⟨pre, k, post, io, z, e1, e2, e3, e4, e5⟩ := ho2
      refine ⟨ks1 ++ pre, k, post, io, z ++ x, by rw [e1]; simp, by rw [e2]; simp, e3, ?_, ?_⟩
      · rw [tlsCalls_append, ho1, e4]; simp
      · rw [e5, hx]; simp

theorem Setup.fail {env : Env} {c c1 : Conn} {ks1 : List SslCall} {rc : RC} (ks2 : List SslCall)
    (h1 : Setup env c ks1 (c1, some rc)) : Setup env c (ks1 ++ ks2) (c1, some rc) := by
  obtain ⟨f1, x, hx, hxi, pre, k, post, io, z, e1, e2⟩ := h1
  exact ⟨f1, x, hx, hxi, pre, k, post ++ ks2, io, z, by rw [e1]; simp, e2⟩

/-- The calls that depend on the connection type. -/
def typeCalls (server : Bool) (ctx : SslCtx) (mtu : Nat) (sni : Bytes) : List SslCall :=
  match ctx.connType with
  | .datagram => [.setMtu (mtu - 114 + 37)] ++ if server then [.allowChFrag] else []
  | .stream => if !server && sni ≠ [] then [.useSNI sni] else []

theorem setupType_setup (env : Env) (c : Conn) (ctx : SslCtx) (hw : c.wolfSet = true) :
    Setup env c (typeCalls c.isServer ctx c.outsideMtu (cstr c.sniHostname)) (setupType env c ctx) := by
  unfold setupType typeCalls
  generalize ctx.connType = ty
  cases ty with
  | datagram =>
    simp only
    have h1 := Setup.one env c (.setMtu (c.outsideMtu - packetOverhead + 37)) hw rfl
    have hf := sslDo_frame env c (.setMtu (c.outsideMtu - packetOverhead + 37))
    generalize sslDo env c (.setMtu (c.outsideMtu - packetOverhead + 37)) = q at h1 hf ⊢
    obtain ⟨c1, r⟩ := q
    simp only at h1 hf ⊢
    have hk : (SslCall.setMtu (c.outsideMtu - packetOverhead + 37)) = .setMtu (c.outsideMtu - 114 + 37) := rfl
    rw [hk] at h1
    cases hok : r.ok with
    | false => rw [hok] at h1; exact h1.fail _
    | true =>
      rw [hok] at h1
      simp only [Bool.not_true, Bool.false_eq_true, if_false, if_true] at h1 ⊢
      rw [hf.fields.2.1]
      have hw1 : c1.wolfSet = true := hf.fields.2.2.2.1.trans hw
      rcases (by cases c.isServer <;> simp : c.isServer = true ∨ c.isServer = false) with hs | hs
      · rw [hs]
        simp only [if_true]
        refine h1.bind ?_
        have h2 := Setup.one env c1 .allowChFrag hw1 rfl
        generalize sslDo env c1 .allowChFrag = q2 at h2 ⊢
        obtain ⟨c2, r2⟩ := q2
        simp only at h2 ⊢
        cases hok2 : r2.ok with
        | false => rw [hok2] at h2; exact h2
        | true => rw [hok2] at h2; exact h2
      · rw [hs]
        simp only [Bool.false_eq_true, if_false, List.append_nil]
        exact h1
  | stream =>
    simp only
    rcases (by cases c.isServer <;> simp : c.isServer = true ∨ c.isServer = false) with hs | hs
    · rw [hs]; simp; exact .nil env c
    · rw [hs]
      by_cases hn : cstr c.sniHostname = []
      · simp [hn]; exact .nil env c
      · have h1 := Setup.one env c (.useSNI (cstr c.sniHostname)) hw rfl
        generalize sslDo env c (.useSNI (cstr c.sniHostname)) = q at h1 ⊢
        obtain ⟨c1, r⟩ := q
        simp only [hn, not_false_eq_true, ne_eq, and_true, Bool.not_false, if_true, decide_true, Bool.true_and] at h1 ⊢
        cases hok : r.ok with
        | true => rw [hok] at h1; exact h1
        | false =>
          rw [hok] at h1
          have : setupFailure (.useSNI (cstr c.sniHostname)) r.err = (match r.err with
            | .memory => .sslOutOfMemory
            | .badFuncArg => .sslError
            | _ => .failed) := by cases r.err <;> rfl
          simp only [Bool.false_eq_true, if_false] at h1
          rw [this] at h1
          exact h1

theorem setupDn_setup (env : Env) (c : Conn) (ctx : SslCtx) (hw : c.wolfSet = true) :
    Setup env c (if cstr ctx.serverDn ≠ [] then [.checkDomainName (cstr ctx.serverDn)] else []) (setupDn env c ctx) := by
  unfold setupDn
  have hd : isServerDnSet ctx = decide (cstr ctx.serverDn ≠ []) := by
    unfold isServerDnSet configIsEmptyString
    cases cstr ctx.serverDn <;> rfl
  by_cases h : cstr ctx.serverDn = []
  · rw [hd]; simp [h]; exact .nil env c
  · rw [hd]
    simp only [ne_eq, h, not_false_eq_true, decide_true, if_true]
    have h1 := Setup.one env c (.checkDomainName (cstr ctx.serverDn)) hw rfl
    generalize sslDo env c (.checkDomainName (cstr ctx.serverDn)) = q at h1 ⊢
    obtain ⟨c1, r⟩ := q
    simp only at h1 ⊢
    cases hok : r.ok with
    | true => rw [hok] at h1; exact h1
    | false => rw [hok] at h1; exact h1

theorem setupPqc_setup (env : Env) (c : Conn) (hw : c.wolfSet = true) :
    Setup env c (if !c.isServer && c.usePqc then [.useKeyShare] else []) (setupPqc env c) := by
  unfold setupPqc
  by_cases h : (!c.isServer) = true ∧ c.usePqc = true
  · rw [if_pos h, if_pos (by simp [h.1, h.2])]
    have h1 := Setup.one env c .useKeyShare hw rfl
    generalize sslDo env c .useKeyShare = q at h1 ⊢
    obtain ⟨c1, r⟩ := q
    simp only at h1 ⊢
    cases hok : r.ok with
    | true => rw [hok] at h1; exact h1
    | false => rw [hok] at h1; exact h1
  · rw [if_neg h, if_neg (by simpa using h)]
    exact .nil env c

theorem setupSsl_setup (env : Env) (c : Conn) (ctx : SslCtx) (hp : c.usePqc = ctx.usePqc) :
    let n := (env.ssl c.log .new).ok
    let c0 : Conn := { c.emit (.sslCall .new n) with wolfSet := n }
    IoFrame c0 (setupSsl env c ctx).1 ∧
    ∃ x, (setupSsl env c ctx).1.log = x ++ c.log ∧ (∀ e ∈ x, SetupIo e) ∧
      Outcome env c.log (setupCalls c.isServer ctx c.outsideMtu (cstr c.sniHostname)) x (setupSsl env c ctx).2 ∧
      ((setupSsl env c ctx).2 = none → (setupSsl env c ctx).1.wolfSet = true) := by
  intro n c0
  unfold setupSsl
  simp only
  have hc0 : ({ c.emit (.sslCall .new (env.ssl c.log .new).ok) with wolfSet := (env.ssl c.log .new).ok } : Conn) = c0 := rfl
  rw [hc0]
  have hn : (env.ssl c.log .new).ok = n := rfl
  rw [hn]
  have hl0 : c0.log = .sslCall .new n :: c.log := rfl
  have hw0 : c0.wolfSet = n := rfl
  have hr0 : c0.isServer = c.isServer := rfl
  have hm0 : c0.outsideMtu = c.outsideMtu := rfl
  have hh0 : c0.sniHostname = c.sniHostname := rfl
  have hq0 : c0.usePqc = ctx.usePqc := hp
  clear_value c0 n
  clear hc0
  cases n with
  | false =>
    simp only [Bool.not_false, if_true]
    refine ⟨.refl c0, [.sslCall .new false], by rw [hl0]; rfl, ?_, ?_, by simp⟩
    · intro e he; simp only [List.mem_singleton] at he; exact .inr ⟨_, _, he⟩
    · exact ⟨[], .new, _, [], [], rfl, rfl, by simp, rfl, rfl⟩
  | true =>
    simp only [Bool.not_true, Bool.false_eq_true, if_false]
    have key : ∀ r, Setup env c0 (typeCalls c.isServer ctx c.outsideMtu (cstr c.sniHostname) ++
        ((if cstr ctx.serverDn ≠ [] then [.checkDomainName (cstr ctx.serverDn)] else []) ++
        (if !c.isServer && ctx.usePqc then [.useKeyShare] else []))) r →
        IoFrame c0 r.1 ∧ ∃ x, r.1.log = x ++ c.log ∧ (∀ e ∈ x, SetupIo e) ∧
          Outcome env c.log (setupCalls c.isServer ctx c.outsideMtu (cstr c.sniHostname)) x r.2 ∧
          (r.2 = none → r.1.wolfSet = true) := by
      intro r hs
      obtain ⟨hf, x, hx, hxi, ho⟩ := hs
      refine ⟨hf, x ++ [.sslCall .new true], by rw [hx, hl0]; simp, ?_, ?_, fun _ => by rw [hf.fields.2.2.2.1, hw0]⟩
      · intro e he
        simp only [List.mem_append, List.mem_singleton] at he
        rcases he with he | he
        · exact hxi e he
        · exact .inr ⟨_, _, he⟩
      · have hset : setupCalls c.isServer ctx c.outsideMtu (cstr c.sniHostname) = SslCall.new :: (typeCalls c.isServer ctx c.outsideMtu (cstr c.sniHostname) ++
          ((if cstr ctx.serverDn ≠ [] then [.checkDomainName (cstr ctx.serverDn)] else []) ++
          (if !c.isServer && ctx.usePqc then [.useKeyShare] else []))) := by
          unfold setupCalls; rw [List.append_assoc, List.append_assoc]; rfl
        rw [hset]
        generalize r.2 = o at ho ⊢
        cases o with
        | none =>
          show tlsCalls _ = _
          have ho : tlsCalls x = _ := ho
          rw [tlsCalls_append, ho]; rfl
        | some rc =>
          obtain ⟨pre, k, post, io, y, e1, e2, e3, e4, e5⟩ := ho
          refine ⟨.new :: pre, k, post, io, y ++ [.sslCall .new true], by rw [e1]; rfl, by rw [e2]; simp, e3, ?_, ?_⟩
          · rw [tlsCalls_append, e4]; rfl
          · rw [e5, hl0]; simp
    have h1 := setupType_setup env c0 ctx hw0
    rw [hr0, hm0, hh0] at h1
    generalize setupType env c0 ctx = q1 at h1 ⊢
    obtain ⟨c1, o1⟩ := q1
    cases o1 with
    | some rc => exact key _ (h1.fail _)
    | none =>
      have hw1 : c1.wolfSet = true := h1.frame.fields.2.2.2.1.trans hw0
      have h2 := setupDn_setup env c1 ctx hw1
      simp only
      have f1 := h1.frame
      generalize setupDn env c1 ctx = q2 at h2 ⊢
      obtain ⟨c2, o2⟩ := q2
      cases o2 with
      | some rc => exact key _ (h1.bind (h2.fail _))
      | none =>
        have hw2 : c2.wolfSet = true := h2.frame.fields.2.2.2.1.trans hw1
        have h3 := setupPqc_setup env c2 hw2
        have f2 := f1.trans h2.frame
        have hrole : c2.isServer = c.isServer := f2.fields.2.1.trans hr0
        have hpq : c2.usePqc = ctx.usePqc := by
          rw [← hq0]; obtain ⟨_, _, _, _, e, _⟩ := f2; simp only at e; rw [e]
        rw [hrole, hpq] at h3
        exact key _ (h1.bind (h2.bind h3))

/-- The end of a connect call, from the first negotiation on. -/
def negotiateFirst (env : Env) (c : Conn) : Conn × RC :=
  let q := sslDo env c .negotiate
  if q.2.ok = true then (updateTimeout env (changeState env q.1 .linkUp), .success)
  else if q.2.err = .wantRead ∨ q.2.err = .wantWrite then (updateTimeout env q.1, .success)
  else (q.1, .connectFailed)

/-- The connection when the preparation begins. -/
def configured (env : Env) (c : Conn) (ctx : SslCtx) (i o : Chain) : Conn :=
  { (configure env c ctx).1.emit (.chains i.plugins o.plugins) with insidePlugins := i, outsidePlugins := o }

theorem internalConnect_shape (env : Env) (c : Conn) (ctx : SslCtx) (i o : Chain) :
    let c1 := configured env c ctx i o
    (env.alloc (.callbacks ctx.cbs :: c.log) = false ∧ internalConnect env c ctx i o = (c1, .noMemory)) ∨
    (env.alloc (.callbacks ctx.cbs :: c.log) = true ∧ ((∃ rc, (setupSsl env c1 ctx).2 = some rc ∧
      internalConnect env c ctx i o = ((setupSsl env c1 ctx).1, rc)) ∨
     ((setupSsl env c1 ctx).2 = none ∧
      internalConnect env c ctx i o = negotiateFirst env (setState (setupSsl env c1 ctx).1 .connecting)))) := by
  intro c1
  unfold internalConnect
  have hrc : (configure env c ctx).2 = if env.alloc (.callbacks ctx.cbs :: c.log) then .success else .noMemory := by
    rcases (by cases env.alloc (.callbacks ctx.cbs :: c.log) <;> simp :
      env.alloc (.callbacks ctx.cbs :: c.log) = true ∨ env.alloc (.callbacks ctx.cbs :: c.log) = false) with h | h
    · rw [h]; simp [configure, Conn.emit, h]
    · rw [h]; simp [configure, Conn.emit, h]
  have hc1 : ({ (configure env c ctx).1.emit (.chains i.plugins o.plugins) with insidePlugins := i, outsidePlugins := o } : Conn) = c1 := rfl
  generalize configure env c ctx = q at hrc hc1 ⊢
  obtain ⟨d, rc⟩ := q
  simp only at hrc hc1 ⊢
  rw [hc1]
  clear_value c1
  cases ha : env.alloc (.callbacks ctx.cbs :: c.log) with
  | false =>
    rw [ha] at hrc
    left
    rw [hrc]
    exact ⟨rfl, rfl⟩
  | true =>
    rw [ha] at hrc
    right
    rw [hrc]
    refine ⟨rfl, ?_⟩
    simp only [ne_eq, if_true, not_true_eq_false, if_false]
    generalize setupSsl env c1 ctx = s
    obtain ⟨c2, o2⟩ := s
    cases o2 with
    | some rc => exact .inl ⟨rc, rfl, rfl⟩
    | none =>
      right
      refine ⟨rfl, ?_⟩
      simp only
      rw [changeState_connecting]
      have hs := setState_state c2 .connecting
      generalize setState c2 .connecting = c3 at hs ⊢
      unfold negotiateFirst
      have hn := (sslDo_n env c3 .negotiate).state
      generalize sslDo env c3 .negotiate = q at hn ⊢
      obtain ⟨c4, r⟩ := q
      simp only at hn ⊢
      have h4 : changeState env c4 .connecting = c4 := by
        unfold changeState; rw [if_pos (by rw [hn, hs])]
      cases hok : r.ok with
      | true => simp
      | false =>
        simp only [Bool.not_false, if_true, Bool.false_eq_true, if_false]
        split
        · rename_i h; rw [if_pos (.inl h), h4]
        · rename_i h; rw [if_pos (.inr h), h4]
        · rename_i h1 h2; rw [if_neg (by rintro (h | h); exact h1 h; exact h2 h)]

end Lightway
