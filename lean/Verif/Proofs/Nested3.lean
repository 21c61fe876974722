import Verif.Proofs.Nested2

/-!
# Invariant of the reentrant model: connecting, the other calls, whole histories
-/

namespace Lightway
open Spec

variable {env : Env} {act : Prop} {k : Hook}

/-! ### Connecting -/

theorem setupType_io (env : Env) (c : Conn) (ctx : SslCtx) : IoFrame c (setupType env c ctx).1 := by
  unfold setupType
  split
  · have h1 := sslDo_frame env c (.setMtu (c.outsideMtu - packetOverhead + 37))
    generalize sslDo env c (.setMtu (c.outsideMtu - packetOverhead + 37)) = q at h1 ⊢
    obtain ⟨c1, r⟩ := q
    simp only at h1 ⊢
    split
    · exact h1
    · split
      · have h2 := h1.trans (sslDo_frame env c1 .allowChFrag)
        split <;> exact h2
      · exact h1
  · split
    · have h1 := sslDo_frame env c (.useSNI (cstr c.sniHostname))
      simp only
      split <;> exact h1
    · exact .refl c

theorem setupDn_io (env : Env) (c : Conn) (ctx : SslCtx) : IoFrame c (setupDn env c ctx).1 := by
  unfold setupDn
  split
  · have h1 := sslDo_frame env c (.checkDomainName (cstr ctx.serverDn))
    simp only
    split <;> exact h1
  · exact .refl c

theorem setupPqc_io (env : Env) (c : Conn) : IoFrame c (setupPqc env c).1 := by
  unfold setupPqc
  split
  · have h1 := sslDo_frame env c .useKeyShare
    simp only
    split <;> exact h1
  · exact .refl c

theorem setupSsl_io (env : Env) (c : Conn) (ctx : SslCtx) :
    IoFrame { c.emit (.sslCall .new (env.ssl c.log .new).ok) with wolfSet := (env.ssl c.log .new).ok }
      (setupSsl env c ctx).1 := by
  unfold setupSsl
  generalize (env.ssl c.log .new).ok = n
  simp only
  generalize ({ c.emit (.sslCall .new n) with wolfSet := n } : Conn) = c0
  split
  · exact .refl _
  · have h1 := setupType_io env c0 ctx
    generalize setupType env c0 ctx = q at h1 ⊢
    obtain ⟨c1, o⟩ := q
    cases o with
    | some rc => exact h1
    | none =>
      simp only at h1 ⊢
      have h2 := h1.trans (setupDn_io env c1 ctx)
      generalize setupDn env c1 ctx = q at h2 ⊢
      obtain ⟨c2, o⟩ := q
      cases o with
      | some rc => exact h2
      | none => exact h2.trans (setupPqc_io env c2)

theorem IoEff.connect {c : Conn} {e : Effect} (h : IoEff c e) : ConnectEff e := by
  cases e <;> first | exact h.elim | trivial

/-- A connect call that got to the first flight. -/
def Fresh (c : Conn) : Prop := ∃ x b old, c.log = x ++ .role b :: old ∧ ∀ e ∈ x, ConnectEff e

theorem inner_connect {x : List Effect} (h : ∀ e ∈ x, ConnectEff e) : Inner x := by
  induction x with
  | nil => exact .nil
  | cons e x ih =>
    have he := h e List.mem_cons_self
    exact .eff (fun a ha => by rw [ha] at he; exact he) (fun a ha => by rw [ha] at he; exact he)
      (ih (fun e he => h e (List.mem_cons_of_mem _ he)))

theorem Fresh.ext {c c' : Conn} (h : Fresh c) (x : List Effect) (hx : c'.log = x ++ c.log)
    (hx' : ∀ e ∈ x, ConnectEff e) : Fresh c' := by
  obtain ⟨y, b, old, hy, hy'⟩ := h
  refine ⟨x ++ y, b, old, by rw [hx, hy]; simp, fun e he => ?_⟩
  rcases List.mem_append.mp he with h | h
  · exact hx' e h
  · exact hy' e h

theorem firstFlightR_next {c : Conn} (hk : HookOk env act k) (hi : RInv env act c) (hf : Fresh c)
    (hw : EnvOk env → c.wolfSet = true) : NextR env act c (firstFlightR k env c).1 := by
  unfold firstFlightR
  have hrole : ∀ {c' : Conn}, NextR env act c c' → act → ∃ x b old, c'.log = x ++ .role b :: old ∧ Inner x ∧
      (act ∨ ∀ e ∈ x, ConnectEff e) := by
    intro c' h ha
    obtain ⟨x, b, old, hx, hx'⟩ := hf
    obtain ⟨y, iy, hy⟩ := h.ext
    exact ⟨y ++ x, b, old, by rw [hy, hx]; simp, iy.append (inner_connect hx'), .inl ha⟩
  have hch : ∀ {c' : Conn}, changeStateR k env c' .connecting = setStateR k c' .connecting := by
    intro c'
    unfold changeStateR
    split
    · rename_i h; unfold setStateR; rw [if_pos h]
    · simp only
      rw [if_neg]
      intro h; cases h.1
  simp only [hch]
  have hfr : ∃ x b old, c.log = x ++ .role b :: old ∧ Inner x ∧ (act ∨ ∀ e ∈ x, ConnectEff e) := by
    obtain ⟨x, b, old, hx, hx'⟩ := hf
    exact ⟨x, b, old, hx, inner_connect hx', .inr hx'⟩
  have h1 : NextR env act c (setStateR k c .connecting) ∧
      (act ∨ (setStateR k c .connecting).state = .connecting) := by
    refine ⟨setStateR_next hk hi _ (fun hne => ⟨by rw [hi.st]; exact hne, hfr⟩)
      (fun he => .inl (hw he)), ?_⟩
    by_cases hs : c.state = .connecting
    · right; unfold setStateR; rw [if_pos hs]; exact hs
    · exact (setStateR_calm hk hs (.inl rfl)).imp id (fun h => by rw [h])
  generalize setStateR k c .connecting = c1 at h1 ⊢
  obtain ⟨h1, hc1⟩ := h1
  have h2 := h1.trans (h1.inv.sslDo .negotiate)
  have hneg := sslDo_negotiated env c1
  have hs2 := (sslDo_frame env c1 .negotiate).fields.1
  generalize sslDo env c1 .negotiate = q at h2 hneg hs2 ⊢
  obtain ⟨c2, r⟩ := q
  simp only at h2 hneg hs2 ⊢
  have hw2 : EnvOk env → c2.wolfSet = true := fun he => h2.mono he (hw he)
  have again : NextR env act c (updateTimeoutR k env (setStateR k c2 .connecting)) := by
    have h3 : NextR env act c (setStateR k c2 .connecting) := by
      rcases hc1 with ha | hc1
      · exact h2.trans (setStateR_next hk h2.inv _ (fun hne => ⟨by rw [h2.inv.st]; exact hne, hrole h2 ha⟩)
          (fun he => .inl (hw2 he)))
      · unfold setStateR; rw [if_pos (hs2.trans hc1)]; exact h2
    exact h3.trans (updateTimeoutR_next hk h3.inv (fun he => h3.mono he (hw he)))
  split
  · split
    · exact again
    · exact again
    · exact h2
  · rename_i hok
    have h3 := h2.trans (changeStateR_linkUp hk h2.inv hw2 (hneg (by simpa using hok))
      (hc1.imp id (fun h => hs2.trans h)))
    exact h3.trans (updateTimeoutR_next hk h3.inv (fun he => h3.mono he (hw he)))

theorem configure_next {c : Conn} (hi : RInv env act c) (ctx : SslCtx) (hr : ∃ b old, c.log = .role b :: old) :
    NextR env act c (configure env c ctx).1 ∧ Fresh (configure env c ctx).1 := by
  obtain ⟨b, old, hr⟩ := hr
  unfold configure
  simp only
  generalize (if c.verMajor = 0 then ctx.maxMajor else c.verMajor) = vM
  generalize (if c.verMajor = 0 then ctx.maxMinor else c.verMinor) = vm
  have h0 : NextR env act c (Conn.emit { c with
      disableRoaming := ctx.disableRoaming, padding := ctx.padding, aggressive := ctx.aggressive,
      usePqc := ctx.usePqc, connType := ctx.connType, verMajor := vM, verMinor := vm, cbs := ctx.cbs,
      pingNextId := 1 } (.callbacks ctx.cbs)) :=
    ⟨⟨hi.st, hi.role, rfl, ⟨⟨trivial, .inr ⟨b, old, hr⟩⟩, hi.all⟩, hi.buf, hi.wolf, hi.frag, hi.pm⟩, ⟨[_], .eff (by simp) (by simp) .nil, rfl⟩,
      fun _ h => h⟩
  have f0 : Fresh (Conn.emit { c with
      disableRoaming := ctx.disableRoaming, padding := ctx.padding, aggressive := ctx.aggressive,
      usePqc := ctx.usePqc, connType := ctx.connType, verMajor := vM, verMinor := vm, cbs := ctx.cbs,
      pingNextId := 1 } (.callbacks ctx.cbs)) := ⟨[_], b, old, by simp only [Conn.emit]; rw [hr]; rfl, by simp [ConnectEff]⟩
  generalize Conn.emit { c with
      disableRoaming := ctx.disableRoaming, padding := ctx.padding, aggressive := ctx.aggressive,
      usePqc := ctx.usePqc, connType := ctx.connType, verMajor := vM, verMinor := vm, cbs := ctx.cbs,
      pingNextId := 1 } (.callbacks ctx.cbs) = c0 at h0 f0 ⊢
  generalize env.alloc c0.log = ok
  have h1 := h0.trans (h0.inv.plain (e := .alloc ok) trivial)
  have h2 := h1.trans (h1.inv.plain (e := .table ctx.maxFragEntries) trivial)
  have f2 : Fresh ((c0.emit (.alloc ok)).emit (.table ctx.maxFragEntries)) :=
    f0.ext [.table ctx.maxFragEntries, .alloc ok] rfl (by simp [ConnectEff])
  generalize (c0.emit (.alloc ok)).emit (.table ctx.maxFragEntries) = c2 at h2 f2 ⊢
  split
  · exact ⟨h2.trans (h2.inv.upd _ (hf := .inr (by
      intro t ht i en hs
      cases ht
      simp [FragTable.create] at hs))), f2⟩
  · exact ⟨h2.trans (h2.inv.upd _ (hf := .inr (by intro t ht; cases ht))), f2⟩

theorem internalConnectR_next {c : Conn} (hk : HookOk env act k) (hi : RInv env act c) (ctx : SslCtx) (i o : Chain)
    (hr : ∃ b old, c.log = .role b :: old) : NextR env act c (internalConnectR k env c ctx i o).1 := by
  unfold internalConnectR
  obtain ⟨h1, f1⟩ := configure_next (env := env) hi ctx hr
  generalize configure env c ctx = q at h1 f1 ⊢
  obtain ⟨c1, rc⟩ := q
  simp only at h1 f1 ⊢
  have h2 : NextR env act c { c1.emit (.chains i.plugins o.plugins) with insidePlugins := i, outsidePlugins := o } := by
    have := h1.trans (h1.inv.plain (e := .chains i.plugins o.plugins) trivial)
    exact this.trans (this.inv.upd _)
  have f2 : Fresh { c1.emit (.chains i.plugins o.plugins) with insidePlugins := i, outsidePlugins := o } :=
    f1.ext [.chains i.plugins o.plugins] rfl (by simp [ConnectEff])
  generalize ({ c1.emit (.chains i.plugins o.plugins) with insidePlugins := i, outsidePlugins := o } : Conn) = c2
    at h2 f2 ⊢
  split
  · exact h2
  · have hio := setupSsl_io env c2 ctx
    have h3 : NextR env act c { c2.emit (.sslCall .new (env.ssl c2.log .new).ok) with
        wolfSet := (env.ssl c2.log .new).ok } := by
      have := h2.trans (h2.inv.plain (e := .sslCall .new (env.ssl c2.log .new).ok) trivial)
      refine this.trans ⟨⟨this.inv.st, this.inv.role, this.inv.reg, this.inv.all, this.inv.buf, ?_, this.inv.frag,
        this.inv.pm⟩, ⟨[], .nil, rfl⟩, fun he _ => he.2 _⟩
      intro he hf
      rw [show (env.ssl c2.log .new).ok = true from he.2 _] at hf
      cases hf
    have f3 : Fresh { c2.emit (.sslCall .new (env.ssl c2.log .new).ok) with
        wolfSet := (env.ssl c2.log .new).ok } := f2.ext [.sslCall .new (env.ssl c2.log .new).ok] rfl (by simp [ConnectEff])
    have w3 : EnvOk env → ({ c2.emit (.sslCall .new (env.ssl c2.log .new).ok) with
        wolfSet := (env.ssl c2.log .new).ok } : Conn).wolfSet = true := fun he => he.2 _
    generalize ({ c2.emit (.sslCall .new (env.ssl c2.log .new).ok) with
        wolfSet := (env.ssl c2.log .new).ok } : Conn) = c3 at hio h3 f3 w3
    have h4 := h3.trans (h3.inv.io hio)
    have w4 := hio.fields.2.2.2.1
    obtain ⟨x, hx, hx'⟩ := hio.log
    have f4 := f3.ext x hx (fun e he => (hx' e he).connect)
    generalize setupSsl env c2 ctx = q at h4 w4 f4 ⊢
    obtain ⟨c4, oo⟩ := q
    cases oo with
    | some rc => exact h4
    | none =>
      exact h4.trans (firstFlightR_next hk h4.inv f4 (fun he => w4.trans (w3 he)))

theorem RInv.roleSet {c : Conn} (hi : RInv env act c) (b : Bool) :
    NextR env act c { c.emit (.role b) with isServer := b } :=
  ⟨⟨hi.st, rfl, hi.reg, ⟨⟨trivial, trivial⟩, hi.all⟩, hi.buf, hi.wolf, hi.frag, hi.pm⟩, ⟨[_], .eff (by simp) (by simp) .nil, rfl⟩, fun _ h => h⟩

theorem clientConnectR_next {c : Conn} (hk : HookOk env act k) (hi : RInv env act c) (ctx : SslCtx) (i o : Chain) :
    NextR env act c (clientConnectR k env c ctx i o).1 := by
  unfold clientConnectR
  simp only
  split
  · exact hi.next
  · have h1 := hi.roleSet false
    exact h1.trans (internalConnectR_next hk h1.inv ctx i o ⟨_, _, rfl⟩)

theorem serverConnectR_next {c : Conn} (hk : HookOk env act k) (hi : RInv env act c) (ctx : SslCtx) (i o : Chain) :
    NextR env act c (serverConnectR k env c ctx i o).1 := by
  unfold serverConnectR
  simp only
  split
  · exact hi.next
  · have h1 := hi.roleSet true
    have h2 := h1.trans (internalConnectR_next hk h1.inv ctx i o ⟨_, _, rfl⟩)
    generalize internalConnectR k env { c.emit (.role true) with isServer := true } ctx i o = q at h2 ⊢
    obtain ⟨c1, rc⟩ := q
    simp only at h2 ⊢
    split
    · exact h2
    · unfold generateSessionId
      simp only
      generalize (env.rng c1.log).map (· % 2 ^ 64) = v
      have h3 := h2.trans (h2.inv.plain (e := .rng v) trivial)
      cases v with
      | none => exact h3
      | some s => exact h3.trans (h3.inv.upd _)

theorem disconnectR_next {c : Conn} (hk : HookOk env act k) (hi : RInv env act c) :
    NextR env act c (disconnectR k env c).1 ∧
    ((disconnectR k env c).2 = .success → ∃ y b z, (disconnectR k env c).1.log = (y ++ .callbacks b :: z) ++ c.log ∧
      Inner y ∧ Inner z ∧ b.insideWrite = false ∧ b.outsideWrite = false) := by
  unfold disconnectR
  split
  · exact ⟨hi.next, by simp⟩
  · rename_i hws
    split
    · exact ⟨hi.next, by simp⟩
    · rename_i hs
      have hw : EnvOk env → c.wolfSet = true := fun _ => by simpa using hws
      have h1 := setStateR_next hk hi .disconnecting (fun hne => ⟨by rw [hi.st]; exact hne, .inl (by
        rw [hi.st]; cases h : c.state <;> simp_all)⟩) (fun he => .inl (hw he))
      simp only
      generalize setStateR k c .disconnecting = c1 at h1 ⊢
      have h2 : NextR env act c (sendGoodbye env c1) := h1.trans (h1.inv.io (sendMessage_frame env c1 _))
      generalize sendGoodbye env c1 = c2 at h2 ⊢
      have h3 := h2.trans (h2.inv.sslDo .shutdown)
      generalize (sslDo env c2 .shutdown).1 = c3 at h3 ⊢
      have h4 := h3.trans (h3.inv.plain (e := .timer 0) trivial)
      have h5 : NextR env act c (Conn.emit { c3.emit (.timer 0) with
          cbs := { c3.cbs with insideWrite := false, outsideWrite := false }, wolfTimeout := 0 }
          (.callbacks { c3.cbs with insideWrite := false, outsideWrite := false })) :=
        h4.trans ⟨⟨h4.inv.st, h4.inv.role, rfl, ⟨⟨trivial, .inl ⟨rfl, rfl⟩⟩, h4.inv.all⟩, h4.inv.buf, h4.inv.wolf,
          h4.inv.frag, h4.inv.pm⟩, ⟨[_], .eff (by simp) (by simp) .nil, rfl⟩, fun _ h => h⟩
      have h6 := setStateR_next hk h5.inv .disconnected (fun hne => ⟨by rw [h5.inv.st]; exact hne, trivial⟩)
        (fun _ => .inr rfl)
      refine ⟨h5.trans h6, fun _ => ?_⟩
      obtain ⟨z, iz, hz⟩ := h4.ext
      obtain ⟨y, iy, hy⟩ := h6.ext
      refine ⟨y, { c3.cbs with insideWrite := false, outsideWrite := false }, z, ?_, iy, iz, rfl, rfl⟩
      rw [hy]
      simp only [Conn.emit] at hz ⊢
      rw [hz]
      simp

theorem nudgeR_next {c : Conn} (hk : HookOk env act k) (hi : RInv env act c) :
    NextR env act c (nudgeR k env c).1 := by
  unfold nudgeR
  have h0 : NextR env act c { c with nudgeTimerRunning := false } := hi.upd _
  generalize ({ c with nudgeTimerRunning := false } : Conn) = c0 at h0
  simp only
  split
  · rename_i hs
    have hw := h0.inv.wolf_state (by rw [hs]; exact ⟨by decide, by decide⟩)
    have h1 := sendAuthR_next hk h0.inv (fun h => by rw [hs] at h; cases h)
    exact (h0.trans h1).trans (updateTimeoutR_next hk h1.inv (fun he => h1.mono he (hw he)))
  · have hw : c0.wolfSet = false → (sslDo env c0 .gotTimeout).2 = nullSslRes := by
      intro h; simp [Lightway.sslDo, h]
    have h1 := h0.trans (h0.inv.sslDo .gotTimeout)
    have n1 := (sslDo_frame env c0 .gotTimeout).fields.2.2.2.1
    generalize Lightway.sslDo env c0 .gotTimeout = q at h1 n1 hw ⊢
    obtain ⟨c2, r⟩ := q
    simp only at h1 n1 hw ⊢
    have hw2 : r.ok = true ∨ r.err = .wantRead ∨ r.err = .wantWrite → c2.wolfSet = true := by
      intro h
      rw [n1]
      cases hx : c0.wolfSet
      · rw [hw hx] at h; simp [nullSslRes] at h
      · rfl
    split
    · split
      · rename_i he; exact h1.trans (updateTimeoutR_next hk h1.inv (fun _ => hw2 (.inr (.inl he))))
      · rename_i he; exact h1.trans (updateTimeoutR_next hk h1.inv (fun _ => hw2 (.inr (.inr he))))
      · exact h1.trans (setStateR_next hk h1.inv _ (fun hne => ⟨by rw [h1.inv.st]; exact hne, trivial⟩)
          (fun _ => .inr rfl))
    · rename_i he
      exact h1.trans (updateTimeoutR_next hk h1.inv (fun _ => hw2 (.inl (by simpa using he))))

theorem startPmtudR_next {c : Conn} (hk : HookOk env act k) (hi : RInv env act c) :
    NextR env act c (startPmtudR k env c).1 := by
  unfold startPmtudR
  split
  · exact hi.next
  split
  · exact hi.next
  split
  · exact hi.next
  · exact startBaseProbingR_next hk hi

/-! ### Calls that make no callback -/

theorem fragLoop_next (size id : Nat) (h0 : 0 < size) (h1 : size + 7 ≤ 1500) {c : Conn} (hi : RInv env act c) (off : Nat) (pkt : Bytes) :
    NextR env act c (fragLoop env c size id off pkt).1 := by
  fun_induction fragLoop env c size id off pkt with
  | case1 => exact hi.next
  | case2 => omega
  | case3 c off pkt _ _ d hd =>
    exfalso
    have : d.length ≤ size := by simp only [d]; rw [List.length_take]; omega
    simp only [maxWireMtu] at hd; omega
  | case4 c off pkt _ _ d hd c1 rc he hne =>
    have := hi.send (fragMsg id off (decide (pkt.length > size)) d)
    rw [he] at this; exact this
  | case5 c off pkt _ _ d hd c1 rc he hne ih =>
    have := hi.send (fragMsg id off (decide (pkt.length > size)) d)
    rw [he] at this; exact this.trans (ih this.inv)

theorem insidePacket_next {c : Conn} (hi : RInv env act c) (pkt : Bytes) :
    NextR env act c (insidePacket env c pkt).1 := by
  have hr : 506 ≤ effectivePmtu c ∧ effectivePmtu c ≤ 1416 := by
    unfold effectivePmtu
    split
    · simp [maxMtu]
    · rename_i hn
      simp only [not_or] at hn
      rcases hi.pm.2.1 with h | h
      · exact absurd h hn.1
      · exact h
  unfold insidePacket
  split
  · exact hi.next
  split
  · exact hi.next
  simp only
  split
  · exact hi.next
  split
  · exact hi.next
  split
  · rename_i hx
    obtain ⟨r, hr⟩ := Option.isSome_iff_exists.mp (clampMss_isSome pkt (effectivePmtu c - 40))
    rw [hr] at hx; cases hx
  · split
    · exact hi.next
    · rename_i p rc _ _
      generalize sizeSub c.outsideMtu packetOverhead = cap
      have h1 := hi.ingress c.insidePlugins p cap
      generalize c.insidePlugins.ingress c.log p cap = q at h1 ⊢
      generalize effectivePmtu c = pm at hr ⊢
      generalize ({ c with log := q.1 } : Conn) = c1 at h1 ⊢
      split
      · exact h1
      split
      · exact h1
      split
      · exact h1
      split
      · split
        · exact h1
        · exact h1.trans (h1.inv.send _)
      · unfold fragAndSend
        simp only
        split
        · exact h1
        · have h2 : NextR env act c { c1 with fragNextId := (c1.fragNextId + 1) % 65536 } := h1.trans (h1.inv.upd _)
          exact h2.trans (fragLoop_next _ _ (by omega) (by omega) h2.inv _ _)

theorem keepalive_next {c : Conn} (hi : RInv env act c) : NextR env act c (keepalive env c).1 := by
  unfold keepalive
  split
  · exact hi.next
  · simp only
    have h0 : NextR env act c { c with pingNextId := (c.pingNextId + 1) % 65536 } := hi.upd _
    have h1 := h0.trans (h0.inv.send (pingMsg c.pingNextId))
    split
    · exact h1.trans (h1.inv.upd _)
    · exact h1

theorem sendServerConfig_next {c : Conn} (hi : RInv env act c) (b : Bytes) :
    NextR env act c (sendServerConfig env c b).1 := by
  unfold sendServerConfig
  repeat' split
  any_goals exact hi.next
  exact hi.send _

theorem rotateSession_next {c : Conn} (hi : RInv env act c) : NextR env act c (rotateSession env c).1 := by
  unfold rotateSession
  split
  · exact hi.next
  · unfold generateSessionId
    simp only
    generalize (env.rng c.log).map (· % 2 ^ 64) = v
    have h3 := hi.plain (env := env) (act := act) (e := .rng v) trivial
    cases v with
    | none => exact h3
    | some s => exact h3.trans (h3.inv.upd _)

theorem setter_next {c : Conn} (hi : RInv env act c) (op : Op) (hop : op.api = .setter) :
    NextR env act c (exec env c op).1 := by
  have hb := hi.buf
  cases op <;> simp only [Op.api, reduceCtorEq] at hop <;> simp only [exec]
  case setUsername s => exact hi.upd _
  case setPassword s => exact hi.upd _
  case setAuthToken t =>
    unfold setAuthToken
    split
    · exact hi.next
    split
    · exact hi.next
    · rename_i h1 h2
      rw [wr_isSome (by simp [maxMtu] at h2; omega)]
      exact hi.upd _ (hb := by simp [maxMtu] at h2; simp; omega)
  case setAuthBuffer t =>
    unfold setAuthBuffer
    split
    · exact hi.next
    split
    · exact hi.next
    · rename_i h1 h2
      rw [wr_isSome (by simp [maxMtu] at h2; omega)]
      exact hi.upd _ (hb := by simp [maxMtu] at h2; simp; omega)
  case setOutsideMtu m =>
    unfold setOutsideMtu
    split
    · exact hi.next
    · exact hi.upd _
  case setProtocolVersion x y => exact hi.upd _
  case setSessionId s =>
    unfold setSessionId
    split
    · exact hi.next
    · exact hi.upd _
  case setSni s => exact hi.upd _

/-! ### Whole calls and histories -/

theorem execR_next {c : Conn} (hk : HookOk env act k) (hi : RInv env act c) (op : Op) :
    NextR env act c (execR k env c op).1 := by
  by_cases hset : op.api = .setter
  · have : execR k env c op = exec env c op := by
      cases op <;> simp only [Op.api, reduceCtorEq] at hset <;> rfl
    rw [this]; exact setter_next hi op hset
  · cases op <;> simp only [Op.api, reduceCtorEq, not_true_eq_false, not_false_eq_true] at hset
    case clientConnect ctx i o => exact clientConnectR_next hk hi ctx i o
    case serverConnect ctx i o => exact serverConnectR_next hk hi ctx i o
    case disconnect => exact (disconnectR_next hk hi).1
    case insidePacket p => exact insidePacket_next hi p
    case outsideData b rs => exact outsideDataR_next hk hi b rs
    case nudge => exact nudgeR_next hk hi
    case keepalive => exact keepalive_next hi
    case sendServerConfig b => exact sendServerConfig_next hi b
    case scheduleReneg => exact hi.upd _
    case rotateSession => exact rotateSession_next hi
    case startPmtud => exact startPmtudR_next hk hi
    case pmtudTimeout => exact handleProbeTimeoutR_next hk hi

theorem RInv.apiMark {c : Conn} (hi : RInv env act c) (a : Api) : RInv env act (c.emit (.api a)) :=
  ⟨hi.st, hi.role, hi.reg, ⟨⟨trivial, trivial⟩, hi.all⟩, hi.buf, hi.wolf, hi.frag, hi.pm⟩

theorem stepR_next {c : Conn} (hk : HookOk env act k) (hi : RInv env act c) (op : Op) :
    NextR env act c (stepR k env c op).1 ∧ ∃ x, Calls x ∧ (stepR k env c op).1.log = x ++ c.log := by
  unfold stepR
  have h1 := hi.apiMark op.api
  have h2 := execR_next hk h1 op
  have h3 : (execR k env (c.emit (.api op.api)) op).2 = .success → op.api = .disconnect →
      ∃ y b z, (execR k env (c.emit (.api op.api)) op).1.log = (y ++ .callbacks b :: z) ++ .api op.api :: c.log ∧
        Inner y ∧ Inner z ∧ b.insideWrite = false ∧ b.outsideWrite = false := by
    intro hs ho
    cases op <;> simp only [Op.api, reduceCtorEq] at ho
    exact (disconnectR_next hk h1).2 hs
  obtain ⟨x, ix, hx⟩ := h2.ext
  simp only
  generalize execR k env (c.emit (.api op.api)) op = q at h2 h3 hx ⊢
  have hl : (q.1.emit (.ret q.2)).log = (.ret q.2 :: (x ++ .api op.api :: [])) ++ c.log := by
    simp only [Conn.emit] at hx ⊢; rw [hx]; simp
  have hi2 : RInv env act (q.1.emit (.ret q.2)) := by
    refine ⟨h2.inv.st, h2.inv.role, h2.inv.reg, ⟨⟨trivial, x, op.api, c.log, hx, ix, fun ha hr => ?_⟩, h2.inv.all⟩,
      h2.inv.buf, h2.inv.wolf, h2.inv.frag, h2.inv.pm⟩
    obtain ⟨y, b, z, hy, rest⟩ := h3 hr ha
    exact ⟨y, b, z, List.append_cancel_right (hx.symm.trans hy), rest⟩
  exact ⟨⟨hi2, ⟨_, .call ix .nil, hl⟩, h2.mono⟩, _, .call ix .nil, hl⟩

theorem hook_id : HookOk env act id := ⟨fun _ h => h.next, fun _ _ => ⟨[], .nil, rfl⟩, fun _ _ => .inr rfl⟩

theorem foldl_next {f : Conn → Op → Conn} (hf : ∀ c op, RInv env act c → NextR env act c (f c op) ∧
    ∃ x, Calls x ∧ (f c op).log = x ++ c.log) (ops : List Op) :
    ∀ {c : Conn}, RInv env act c → NextR env act c (ops.foldl f c) ∧ ∃ x, Calls x ∧ (ops.foldl f c).log = x ++ c.log := by
  induction ops with
  | nil => intro c h; exact ⟨h.next, [], .nil, rfl⟩
  | cons op rest ih =>
    intro c h
    obtain ⟨h1, x, cx, hx⟩ := hf c op h
    obtain ⟨h2, y, cy, hy⟩ := ih h1.inv
    exact ⟨h1.trans h2, y ++ x, cy.append cx, by rw [List.foldl_cons, hy, hx]; simp⟩

/-- The host makes no calls from the sensitive callbacks, or `act`. -/
theorem nested_next (host : Log → List Op) (hh : ∀ l, Sensitive l → act ∨ host l = []) (n : Nat) :
    ∀ (c : Conn) (op : Op), RInv env act c → NextR env act c (nested env host n c op).1 ∧
      ∃ x, Calls x ∧ (nested env host n c op).1.log = x ++ c.log := by
  induction n with
  | zero => exact fun c op h => stepR_next hook_id h op
  | succ n ih =>
    intro c op h
    refine stepR_next ⟨fun c h => (foldl_next ih (host c.log) h).1, fun c h => (foldl_next ih (host c.log) h).2,
      fun c hs => ?_⟩ h op
    rcases hh _ hs with h | h
    · exact .inl h
    · right; rw [h]; rfl

theorem create_rinv (env : Env) (act : Prop) : RInv env act Conn.create := by
  refine ⟨rfl, rfl, rfl, trivial, by simp [Conn.create], fun _ _ => ⟨.inl rfl, rfl⟩, by simp [Conn.create], ?_⟩
  exact ⟨.inl ⟨rfl, rfl⟩, .inl rfl, .inl rfl⟩

theorem runNested_inv (host : Log → List Op) (hh : ∀ l, Sensitive l → act ∨ host l = []) (n : Nat) (ops : List Op) :
    RInv env act (runNested env host n ops) :=
  (foldl_next (fun c op h => nested_next host hh n c op h) ops (create_rinv env act)).1.inv

end Lightway
