import Verif.Proofs.Connect
import Verif.Props.Handshake
import Verif.Props.AuthP

/-!
# C76, C77, C78: connecting, logging in, and the settings a connection works with
-/

namespace Lightway
open Spec

/-- The connect call of a role. -/
def connectOp (server : Bool) (ctx : SslCtx) (i o : Chain) : Op :=
  if server then .serverConnect ctx i o else .clientConnect ctx i o

/-- No state is announced. -/
def Spec.NoState (x : Log) : Prop := ∀ s n, .state s n ∉ x

/-- The course `x` of a connect call after history `l`, with result `rc`, when the calls `ks` prepare the TLS
object; `sid` is the session identifier afterwards. -/
def Spec.ConnectCourse (env : Env) (server : Bool) (ks : List SslCall) (l x : Log) (rc : RC) (sid : Nat) : Prop :=
  /- no memory for the fragment table: nothing else happens -/
  (.alloc false ∈ x ∧ rc = .noMemory ∧ tlsCalls x = [] ∧ NoState x) ∨
  /- a call of the preparation fails: no later one is made and the result names it -/
  (∃ pre k post y z, ks = pre ++ k :: post ∧ x = y ++ .sslCall k false :: z ∧ tlsCalls y = [] ∧
    tlsCalls z = pre.map (·, true) ∧ rc = setupFailure k (env.ssl (z ++ l) k).err ∧ NoState x) ∨
  /- all succeed: CONNECTING is announced, then the handshake starts -/
  (∃ y z, x = y ++ .sslCall .negotiate (env.ssl (z ++ l) .negotiate).ok :: z ∧ tlsCalls z = ks.map (·, true) ∧
    stateAt (z ++ l) = .connecting ∧ (∀ s n, .state s n ∈ z → s = .connecting) ∧
    ((env.ssl (z ++ l) .negotiate).ok = true → ∃ n y' io, y = y' ++ .state .linkUp n :: io ∧ ∀ e ∈ io, NetIo e) ∧
    ((env.ssl (z ++ l) .negotiate).ok = false → NoState y) ∧
    if (env.ssl (z ++ l) .negotiate).ok = true ∨ Wants (env.ssl (z ++ l) .negotiate).err then
      /- a server then draws its session identifier -/
      if server = true then
        (.rng none ∈ y ∧ rc = .rngFailure) ∨ (.rng (some sid) ∈ y ∧ rc = .success)
      else rc = .success
    else rc = .connectFailed)

theorem setupIo_noState {x : Log} (h : ∀ e ∈ x, SetupIo e) : NoState x := by
  intro s n he
  rcases h _ he with h | ⟨k, ok, h⟩
  · exact h
  · cases h

theorem setupCall_ne_success (k : SslCall) (e : SslErr) : setupFailure k e ≠ .success := by
  cases k <;> cases e <;> simp [setupFailure]

theorem tail_noState {l : Log} (h : ∀ e ∈ l, TailEff e) : NoState l := fun _ _ he => (h _ he : False)

/-- The first negotiation of a connect call. -/
theorem negotiateFirst_log (env : Env) (c : Conn) (hs : c.state = .connecting) (hw : c.wolfSet = true) :
    ∃ y, (negotiateFirst env c).1.log = y ++ .sslCall .negotiate (env.ssl c.log .negotiate).ok :: c.log ∧
      ((env.ssl c.log .negotiate).ok = true → ∃ n y' io, y = y' ++ .state .linkUp n :: io ∧ ∀ e ∈ io, NetIo e) ∧
      ((env.ssl c.log .negotiate).ok = false → NoState y) ∧
      (negotiateFirst env c).2 = if (env.ssl c.log .negotiate).ok = true ∨ Wants (env.ssl c.log .negotiate).err then .success
        else .connectFailed := by
  unfold negotiateFirst
  have hr : (sslDo env c .negotiate).2 = env.ssl c.log .negotiate := by unfold sslDo; simp [hw]
  obtain ⟨io, hl, hio⟩ := sslDo_says env c .negotiate
  have hn := (sslDo_n env c .negotiate).state
  simp only
  rw [hr] at hl ⊢
  generalize env.ssl c.log .negotiate = a at hl ⊢
  generalize (sslDo env c .negotiate).1 = d at hl hn ⊢
  by_cases hok : a.ok = true
  · rw [if_pos hok, if_pos (.inl hok)]
    obtain ⟨x1, n, hx1⟩ := changeState_linkUp_log env d (hn.trans hs)
    obtain ⟨x2, _, _, _, _, _, _, _, _, _, _, _, hx2, _⟩ := updateTimeout_t env (changeState env d .linkUp)
    refine ⟨x2 ++ (x1 ++ .state .linkUp n :: io), ?_, fun _ => ⟨n, x2 ++ x1, io, by simp, hio⟩, fun h => (by simp [hok] at h), rfl⟩
    rw [hx2]; simp only; rw [hx1, hl]; simp
  · rw [if_neg hok]
    have hns : NoState io := fun s n he => hio _ he
    by_cases hwt : a.err = .wantRead ∨ a.err = .wantWrite
    · rw [if_pos hwt, if_pos (Or.inr hwt : a.ok = true ∨ Wants a.err)]
      obtain ⟨x2, _, _, _, _, _, _, _, _, _, _, _, hx2, ht⟩ := updateTimeout_t env d
      refine ⟨x2 ++ io, ?_, fun h => absurd h hok, fun _ s n he => ?_, rfl⟩
      · rw [hx2]; simp only; rw [hl]; simp
      · rcases List.mem_append.mp he with h | h
        · exact tail_noState ht s n h
        · exact hns s n h
    · rw [if_neg hwt, if_neg (show ¬(a.ok = true ∨ Wants a.err) from fun h => h.elim hok hwt)]
      exact ⟨io, by rw [hl], fun h => absurd h hok, fun _ => hns, rfl⟩

theorem configured_fields (env : Env) (c : Conn) (ctx : SslCtx) (i o : Chain) :
    (configured env c ctx i o).log = .chains i.plugins o.plugins :: .table ctx.maxFragEntries ::
      .alloc (env.alloc (.callbacks ctx.cbs :: c.log)) :: .callbacks ctx.cbs :: c.log ∧
    (configured env c ctx i o).state = c.state ∧ (configured env c ctx i o).isServer = c.isServer ∧
    (configured env c ctx i o).outsideMtu = c.outsideMtu ∧ (configured env c ctx i o).sniHostname = c.sniHostname ∧
    (configured env c ctx i o).usePqc = ctx.usePqc ∧ (configured env c ctx i o).authType = c.authType ∧
    (configured env c ctx i o).authBuffer = c.authBuffer ∧ (configured env c ctx i o).authBufferLength = c.authBufferLength := by
  unfold configured
  have hl : (configure env c ctx).1.log = .table ctx.maxFragEntries ::
      .alloc (env.alloc (.callbacks ctx.cbs :: c.log)) :: .callbacks ctx.cbs :: c.log := by
    rcases (by cases env.alloc (.callbacks ctx.cbs :: c.log) <;> simp :
      env.alloc (.callbacks ctx.cbs :: c.log) = true ∨ env.alloc (.callbacks ctx.cbs :: c.log) = false) with h | h
    · simp [configure, Conn.emit, h]
    · simp [configure, Conn.emit, h]
  obtain ⟨_, _, _, _, e, _⟩ := configure_shape env c ctx
  generalize (configure env c ctx).1 = d at e hl
  refine ⟨by show Effect.chains _ _ :: d.log = _; rw [hl], ?_⟩
  subst e
  exact ⟨rfl, rfl, rfl, rfl, rfl, rfl, rfl, rfl⟩

/-- What a state change leaves in the history. -/
theorem setState_log (c : Conn) (s : ConnState) :
    ∃ t, (setState c s).log = t ++ c.log ∧ (t = [] ∨ ∃ n, t = [.state s n]) := by
  unfold setState
  split
  · exact ⟨[], rfl, .inl rfl⟩
  · exact ⟨[.state s c.cbs.stateChange], rfl, .inr ⟨_, rfl⟩⟩

theorem internalConnect_course (env : Env) (c : Conn) (ctx : SslCtx) (i o : Chain) (hst : c.state = stateAt c.log) :
    ∃ x, (internalConnect env c ctx i o).1.log = x ++ c.log ∧
      ConnectCourse env false (setupCalls c.isServer ctx c.outsideMtu (cstr c.sniHostname)) c.log x (internalConnect env c ctx i o).2 0 := by
  obtain ⟨hl, hs, hr, hm, hh, hp, -⟩ := configured_fields env c ctx i o
  generalize hpre : [Effect.chains i.plugins o.plugins, .table ctx.maxFragEntries,
      .alloc (env.alloc (.callbacks ctx.cbs :: c.log)), .callbacks ctx.cbs] = pre
  have hl' : (configured env c ctx i o).log = pre ++ c.log := by rw [hl, ← hpre]; rfl
  have hpn : NoState pre := by intro s n h; rw [← hpre] at h; simp at h
  have hpt : tlsCalls pre = [] := by rw [← hpre]; rfl
  have hps : ∀ l, stateAt (pre ++ l) = stateAt l := by intro l; rw [← hpre]; rfl
  rcases internalConnect_shape env c ctx i o with ⟨ha, e⟩ | ⟨ha, h⟩
  · rw [e]
    exact ⟨pre, hl', .inl ⟨by rw [← hpre, ha]; simp, rfl, hpt, hpn⟩⟩
  · obtain ⟨hf, x, hx, hxi, ho, hws⟩ := setupSsl_setup env (configured env c ctx i o) ctx hp
    rw [hr, hm, hh] at ho
    rcases h with ⟨rc, h2, e⟩ | ⟨h2, e⟩
    · rw [e]
      rw [h2] at ho
      obtain ⟨p, k, post, io, y, e1, e2, e3, e4, e5⟩ := ho
      refine ⟨x ++ pre, by rw [hx, hl']; simp, .inr (.inl ⟨p, k, post, io, y ++ pre, e1, by rw [e2]; simp, tlsCalls_netIo e3, ?_, ?_, ?_⟩)⟩
      · rw [tlsCalls_append, hpt, e4]; rfl
      · rw [e5, hl', List.append_assoc]
      · intro s n h
        rcases List.mem_append.mp h with h | h
        · exact setupIo_noState hxi s n h
        · exact hpn s n h
    · rw [e]
      rw [h2] at ho
      have ho : tlsCalls x = _ := ho
      have hw := hws h2
      have hs2 : (setupSsl env (configured env c ctx i o) ctx).1.state = c.state := hf.fields.1.trans hs
      generalize (setupSsl env (configured env c ctx i o) ctx).1 = d at hx hw hs2 ⊢
      obtain ⟨t, ht, hts⟩ := setState_log d .connecting
      have hw' : (setState d .connecting).wolfSet = true := (setState_fields d .connecting).1.trans hw
      have hs' := setState_state d .connecting
      obtain ⟨y, hy, h1, h3, h4⟩ := negotiateFirst_log env (setState d .connecting) hs' hw'
      have hlog : (setState d .connecting).log = (t ++ (x ++ pre)) ++ c.log := by rw [ht, hx, hl']; simp
      have hsd : stateAt (setState d .connecting).log = .connecting := by
        rw [ht]
        rcases hts with rfl | ⟨n, rfl⟩
        · have : d.state = .connecting := by
            have : (setState d .connecting).log = d.log := ht
            unfold setState at this
            split at this
            · assumption
            · have := congrArg List.length this; simp at this
          rw [hs2] at this
          show stateAt d.log = _
          rw [hx, hl']
          have hsk : ∀ (z l : Log), NoState z → stateAt (z ++ l) = stateAt l := by
            intro z l hz
            induction z with
            | nil => rfl
            | cons e z ih =>
              have hz' : NoState z := fun s n h => hz s n (.tail _ h)
              cases e <;> first | exact ih hz' | exact absurd (List.Mem.head _) (hz _ _)
          rw [hsk x _ (setupIo_noState hxi), hps, ← hst]
          exact this
        · rfl
      rw [hlog] at hy h1 h3 h4 hsd
      refine ⟨y ++ .sslCall .negotiate (env.ssl (t ++ (x ++ pre) ++ c.log) .negotiate).ok :: (t ++ (x ++ pre)), by rw [hy]; simp, .inr (.inr ⟨y, t ++ (x ++ pre), rfl, ?_, hsd, ?_, h1, h3, ?_⟩)⟩
      · rw [tlsCalls_append, tlsCalls_append, hpt, ho]
        rcases hts with rfl | ⟨n, rfl⟩ <;> simp [tlsCalls]
      · intro s n h
        rcases List.mem_append.mp h with h | h
        · rcases hts with rfl | ⟨n', rfl⟩
          · cases h
          · simp at h; exact h.1
        · rcases List.mem_append.mp h with h | h
          · exact absurd h (setupIo_noState hxi s n)
          · exact absurd h (hpn s n)
      · rw [h4]
        split
        · rw [if_neg (by simp)]
        · rfl

theorem noState_append {a b : Log} (h1 : NoState a) (h2 : NoState b) : NoState (a ++ b) :=
  fun s n h => (List.mem_append.mp h).elim (h1 s n) (h2 s n)

theorem ConnectCourse.lift {env : Env} {server : Bool} {ks : List SslCall} {l x pre q : Log} {rc0 rc : RC} {sid : Nat}
    (h : ConnectCourse env false ks (pre ++ l) x rc0 0) (hp : NoState pre) (hpt : tlsCalls pre = [])
    (hq : NoState q) (hqt : tlsCalls q = []) (hf : rc0 ≠ .success → rc = rc0)
    (hs : rc0 = .success → if server = true then
        (.rng none ∈ q ∧ rc = .rngFailure) ∨ (.rng (some sid) ∈ q ∧ rc = .success) else rc = .success) :
    ConnectCourse env server ks l (q ++ x ++ pre) rc sid := by
  rcases h with ⟨h1, h2, h3, h4⟩ | ⟨p, k, post, y, z, h1, h2, h3, h4, h5, h6⟩ | ⟨y, z, h1, h2, h3, h4, h5, h6, h7⟩
  · left
    exact ⟨by simp [h1], by rw [hf (by rw [h2]; simp), h2], by rw [tlsCalls_append, tlsCalls_append, hpt, h3, hqt]; rfl,
      noState_append (noState_append hq h4) hp⟩
  · refine .inr (.inl ⟨p, k, post, q ++ y, z ++ pre, h1, by rw [h2]; simp, ?_, ?_, ?_, noState_append (noState_append hq h6) hp⟩)
    · rw [tlsCalls_append, h3, hqt]; rfl
    · rw [tlsCalls_append, hpt, h4]; rfl
    · rw [List.append_assoc, ← h5]
      exact hf (by rw [h5]; exact setupCall_ne_success _ _)
  · refine .inr (.inr ⟨q ++ y, z ++ pre, ?_, ?_, ?_, ?_, ?_, ?_, ?_⟩)
    · rw [h1, List.append_assoc]; simp
    · rw [tlsCalls_append, hpt, h2]; rfl
    · rw [List.append_assoc]; exact h3
    · intro s n hm
      rcases List.mem_append.mp hm with hm | hm
      · exact h4 s n hm
      · exact absurd hm (hp s n)
    · rw [List.append_assoc]
      intro ho
      obtain ⟨n, y', io, e1, e2⟩ := h5 ho
      exact ⟨n, q ++ y', io, by rw [e1]; simp, e2⟩
    · rw [List.append_assoc]
      exact fun ho => noState_append hq (h6 ho)
    · rw [List.append_assoc]
      split
      · rename_i hg
        rw [if_pos hg, if_neg (by simp)] at h7
        have := hs h7
        split
        · rename_i hsv
          rw [if_pos hsv] at this
          rcases this with ⟨a, b⟩ | ⟨a, b⟩
          · exact .inl ⟨by simp [a], b⟩
          · exact .inr ⟨by simp [a], b⟩
        · rename_i hsv
          rw [if_neg hsv] at this; exact this
      · rename_i hg
        rw [if_neg hg] at h7
        rw [hf (by rw [h7]; simp), h7]

/-- **C77.**  The course of every connect call that passes validation (C44 says which do): the fragment table is
allocated; the TLS object is created and prepared by exactly the calls the context and the connection settings
ask for, in a fixed order, stopping at the first failure with a result that names it; CONNECTING is announced
before the handshake starts; the result is success exactly if the handshake completed or waits for the peer (and
a server could draw its session identifier). -/
theorem C77_connect_course (env : Env) (ops : List Op) (server : Bool) (ctx : SslCtx) (i o : Chain) {x : Log}
    (hx : (run env (ops ++ [connectOp server ctx i o])).log = x ++ (run env ops).log) (hv : .role server ∈ x) :
    let c := run env ops
    ConnectCourse env server (setupCalls server ctx c.outsideMtu (cstr c.sniHostname)) c.log x
      (step env c (connectOp server ctx i o)).2 (run env (ops ++ [connectOp server ctx i o])).sessionId := by
  have hst := run_state env ops
  rw [run_snoc] at hx ⊢
  generalize run env ops = c at *
  simp only
  cases server with
  | false =>
    have hop : connectOp false ctx i o = .clientConnect ctx i o := rfl
    rw [hop] at hx ⊢
    have hlog : (step env c (.clientConnect ctx i o)).1.log = .ret (clientConnect env (c.emit (.api .clientConnect)) ctx i o).2 ::
      (clientConnect env (c.emit (.api .clientConnect)) ctx i o).1.log := rfl
    have hres : (step env c (.clientConnect ctx i o)).2 = (clientConnect env (c.emit (.api .clientConnect)) ctx i o).2 := rfl
    generalize (step env c (.clientConnect ctx i o)).1.sessionId = sid
    rw [hlog] at hx
    rw [hres]
    clear hlog hres
    unfold clientConnect at *
    simp only at hx ⊢
    by_cases hval : isValidClient ctx (c.emit (.api .clientConnect)) = .success
    · rw [if_neg (by simpa using hval)] at hx ⊢
      obtain ⟨y, hy, hc⟩ := internalConnect_course env { (c.emit (.api .clientConnect)).emit (.role false) with isServer := false } ctx i o hst
      rw [hy] at hx
      have hxe : x = [.ret (internalConnect env { (c.emit (.api .clientConnect)).emit (.role false) with isServer := false } ctx i o).2] ++ y ++ [.role false, .api .clientConnect] := by
        refine (List.append_cancel_right (bs := c.log) ?_).symm
        rw [← hx]; simp [Conn.emit]
      rw [hxe]
      refine ConnectCourse.lift (pre := [.role false, .api .clientConnect]) hc (by intro s n h; simp at h) rfl (by intro s n h; simp at h) rfl (fun _ => rfl) (fun h => ?_)
      rw [if_neg (by simp)]; exact h
    · rw [if_pos hval] at hx
      have : x = [.ret (isValidClient ctx (c.emit (.api .clientConnect))), .api .clientConnect] := by
        refine (List.append_cancel_right (bs := c.log) ?_).symm
        rw [← hx]; simp [Conn.emit]
      rw [this] at hv
      simp at hv
  | true =>
    have hop : connectOp true ctx i o = .serverConnect ctx i o := rfl
    rw [hop] at hx ⊢
    have hlog : (step env c (.serverConnect ctx i o)).1.log = .ret (serverConnect env (c.emit (.api .serverConnect)) ctx i o).2 ::
      (serverConnect env (c.emit (.api .serverConnect)) ctx i o).1.log := rfl
    have hres : (step env c (.serverConnect ctx i o)).2 = (serverConnect env (c.emit (.api .serverConnect)) ctx i o).2 := rfl
    have hsid : (step env c (.serverConnect ctx i o)).1.sessionId = (serverConnect env (c.emit (.api .serverConnect)) ctx i o).1.sessionId := rfl
    rw [hlog] at hx
    rw [hres, hsid]
    clear hlog hres hsid
    unfold serverConnect at *
    simp only at hx ⊢
    by_cases hval : isValidServer ctx (c.emit (.api .serverConnect)) = .success
    · rw [if_neg (by simpa using hval)] at hx ⊢
      obtain ⟨y, hy, hc⟩ := internalConnect_course env { (c.emit (.api .serverConnect)).emit (.role true) with isServer := true } ctx i o hst
      have hks : setupCalls ({ (c.emit (.api .serverConnect)).emit (.role true) with isServer := true } : Conn).isServer ctx
          ({ (c.emit (.api .serverConnect)).emit (.role true) with isServer := true } : Conn).outsideMtu
          (cstr ({ (c.emit (.api .serverConnect)).emit (.role true) with isServer := true } : Conn).sniHostname) =
          setupCalls true ctx c.outsideMtu (cstr c.sniHostname) := rfl
      rw [hks] at hc
      have hl0 : ({ (c.emit (.api .serverConnect)).emit (.role true) with isServer := true } : Conn).log = [.role true, .api .serverConnect] ++ c.log := rfl
      rw [hl0] at hy hc
      generalize internalConnect env { (c.emit (.api .serverConnect)).emit (.role true) with isServer := true } ctx i o = r at hx hy hc ⊢
      obtain ⟨d, rc⟩ := r
      simp only at hx hy hc ⊢
      by_cases hrc : rc = .success
      · rw [if_neg (by simpa using hrc)] at hx ⊢
        unfold generateSessionId at hx ⊢
        simp only at hx ⊢
        cases hg : env.rng d.log with
        | none =>
          rw [hg] at hx
          simp only [Option.map_none] at hx ⊢
          have hxe : x = [.ret .rngFailure, .rng none] ++ y ++ [.role true, .api .serverConnect] := by
            refine (List.append_cancel_right (bs := c.log) ?_).symm
            rw [← hx]; simp [Conn.emit, hy]
          rw [hxe]
          refine ConnectCourse.lift hc (by intro s n h; simp at h) rfl (by intro s n h; simp at h) rfl (fun h => absurd hrc h) (fun _ => ?_)
          rw [if_pos rfl]
          exact .inl ⟨by simp, rfl⟩
        | some v =>
          rw [hg] at hx
          simp only [Option.map_some] at hx ⊢
          have hxe : x = [.ret .success, .rng (some (v % 2 ^ 64))] ++ y ++ [.role true, .api .serverConnect] := by
            refine (List.append_cancel_right (bs := c.log) ?_).symm
            rw [← hx]; simp [Conn.emit, hy]
          rw [hxe]
          refine ConnectCourse.lift hc (by intro s n h; simp at h) rfl (by intro s n h; simp at h) rfl (fun h => absurd hrc h) (fun _ => ?_)
          rw [if_pos rfl]
          exact .inr ⟨by simp, rfl⟩
      · rw [if_pos hrc] at hx ⊢
        have hxe : x = [.ret rc] ++ y ++ [.role true, .api .serverConnect] := by
          refine (List.append_cancel_right (bs := c.log) ?_).symm
          rw [← hx]; simp [hy]
        rw [hxe]
        exact ConnectCourse.lift hc (by intro s n h; simp at h) rfl (by intro s n h; simp at h) rfl (fun _ => rfl) (fun h => absurd h hrc)
    · rw [if_pos hval] at hx
      have : x = [.ret (isValidServer ctx (c.emit (.api .serverConnect))), .api .serverConnect] := by
        refine (List.append_cancel_right (bs := c.log) ?_).symm
        rw [← hx]; simp [Conn.emit]
      rw [this] at hv
      simp at hv

/-- A context that asks for everything a stream client can ask for. -/
def Demo.fullCtx : SslCtx := { Demo.ctx with connType := .stream, serverDn := [97, 46, 98, 0], usePqc := true }

def Demo.fullOps : List Op := [.setUsername [106], .setPassword [112], .setSni [120, 46, 121], .setOutsideMtu 1500]

/-- The host's TLS library refuses the domain-name check. -/
def Demo.noDn : Env := { Demo.env with ssl := fun l call => match call with
  | .checkDomainName _ => { ok := false, val := 0, err := .memory, io := [] }
  | _ => Demo.ssl2 l call }

/-- Not vacuous: all four preparing calls are made and the handshake starts; with the refusing library the call
stops at the domain name. -/
example : (Effect.role false ∈ (run Demo.env (Demo.fullOps ++ [connectOp false Demo.fullCtx [] []])).log ∧ Effect.role false ∉ (run Demo.env Demo.fullOps).log) ∧
    tlsCalls (run Demo.env (Demo.fullOps ++ [connectOp false Demo.fullCtx [] []])).log =
      [(.new, true), (.useSNI [120, 46, 121], true), (.checkDomainName [97, 46, 98], true), (.useKeyShare, true),
        (.negotiate, false), (.currentTimeout, true)] ∧
    (run Demo.env (Demo.fullOps ++ [connectOp false Demo.fullCtx [] []])).state = .connecting ∧
    tlsCalls (run Demo.noDn (Demo.fullOps ++ [connectOp false Demo.fullCtx [] []])).log =
      [(.new, true), (.useSNI [120, 46, 121], true), (.checkDomainName [97, 46, 98], false)] ∧
    (step Demo.noDn (run Demo.noDn Demo.fullOps) (connectOp false Demo.fullCtx [] [])).2 = .initFailed := by decide +kernel

end Lightway
