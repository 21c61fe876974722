import Verif.Model.Reenter
import Verif.Spec.Nested
import Verif.Proofs.Trav5

/-!
# Invariant of the reentrant model
-/

namespace Lightway
open Spec

/-- Ranges of the PMTU fields that also hold while a callback announcing BASE runs, before the base size is set. -/
def PmR (p : Pmtud) : Prop :=
  ((p.base = 0 ∧ p.probingSize = 0) ∨ p.base = 512 ∨ p.base = 1250) ∧
  (p.effective = 0 ∨ (506 ≤ p.effective ∧ p.effective ≤ 1416)) ∧
  (p.probingSize % 8 = 0 ∨ p.probingSize % 8 = 2)

structure RInv (env : Env) (act : Prop) (c : Conn) : Prop where
  st : stateAt c.log = c.state
  role : serverAt c.log = c.isServer
  reg : registered c.log = c.cbs
  all : AllAt (NestPermitted act (EnvOk env)) c.log
  buf : c.authBuffer.length = 1350
  wolf : EnvOk env → c.wolfSet = false → (c.state = .none ∨ c.state = .disconnected) ∧ c.renegInProgress = false
  frag : ∀ t, c.fragTable = some t → TableWf t
  pm : PmR c.pmtud

structure NextR (env : Env) (act : Prop) (c c' : Conn) : Prop where
  inv : RInv env act c'
  ext : ∃ x, Inner x ∧ c'.log = x ++ c.log
  mono : EnvOk env → c.wolfSet = true → c'.wolfSet = true

theorem Spec.Inner.append {x y : List Effect} (h1 : Inner x) (h2 : Inner y) : Inner (x ++ y) := by
  induction h1 with
  | nil => exact h2
  | eff a b _ ih => exact .eff a b ih
  | call hx _ _ ih => rw [List.cons_append, List.append_assoc, List.cons_append]; exact .call hx ih

theorem Spec.Calls.inner {x : List Effect} (h : Calls x) : Inner x := by
  induction h with
  | nil => exact .nil
  | call hx _ ih => exact .call hx ih

theorem Spec.Calls.append {x y : List Effect} (h1 : Calls x) (h2 : Calls y) : Calls (x ++ y) := by
  induction h1 with
  | nil => exact h2
  | call hx _ ih => rw [List.cons_append, List.append_assoc, List.cons_append]; exact .call hx ih

variable {env : Env} {act : Prop} {k : Hook}

theorem RInv.next {c : Conn} (hi : RInv env act c) : NextR env act c c := ⟨hi, ⟨[], .nil, rfl⟩, fun _ h => h⟩

theorem NextR.trans {a b c : Conn} (h1 : NextR env act a b) (h2 : NextR env act b c) : NextR env act a c := by
  obtain ⟨x, ix, hx⟩ := h1.ext
  obtain ⟨y, iy, hy⟩ := h2.ext
  exact ⟨h2.inv, ⟨y ++ x, iy.append ix, by rw [hy, hx]; simp⟩, fun he hw => h2.mono he (h1.mono he hw)⟩

/-- What is asked of the calls made from inside callbacks. -/
structure HookOk (env : Env) (act : Prop) (k : Hook) : Prop where
  next : ∀ c, RInv env act c → NextR env act c (k c)
  calls : ∀ c, RInv env act c → ∃ x, Calls x ∧ (k c).log = x ++ c.log
  calm : ∀ c, Sensitive c.log → act ∨ k c = c

/-- Effects that change neither state, role nor registered callbacks. -/
def StillEff : Effect → Prop
  | .state .. | .role _ | .callbacks _ | .api _ | .ret _ => False
  | _ => True

theorem StillEff.inner {e : Effect} (h : StillEff e) : Inner [e] :=
  .eff (fun a ha => by rw [ha] at h; exact h) (fun a ha => by rw [ha] at h; exact h) .nil

theorem stateAt_still {e : Effect} (h : StillEff e) (l : Log) : stateAt (e :: l) = stateAt l := by
  cases e <;> first | rfl | exact h.elim

theorem serverAt_still {e : Effect} (h : StillEff e) (l : Log) : serverAt (e :: l) = serverAt l := by
  cases e <;> first | rfl | exact h.elim

theorem registered_still {e : Effect} (h : StillEff e) (l : Log) : registered (e :: l) = registered l := by
  cases e <;> first | rfl | exact h.elim

theorem RInv.emit {c : Conn} (hi : RInv env act c) {e : Effect} (hs : StillEff e)
    (hp : NestPermitted act (EnvOk env) e c.log) : NextR env act c (c.emit e) :=
  ⟨⟨(stateAt_still hs _).trans hi.st, (serverAt_still hs _).trans hi.role, (registered_still hs _).trans hi.reg,
    ⟨hp, hi.all⟩, hi.buf, hi.wolf, hi.frag, hi.pm⟩, ⟨[e], hs.inner, rfl⟩, fun _ h => h⟩

/-- Effects that are always permitted. -/
def Plain : Effect → Prop
  | .state .. | .role _ | .callbacks _ | .event .. | .insideWrite _ | .outsideWrite .. | .netConfig .. | .serverConfig ..
  | .nudgeTime _ | .authUserPass .. | .authToken .. | .authBuf .. | .populate _ | .pmtudTime .. | .pmtudState _
  | .ub _ | .api _ | .ret _ => False
  | _ => True

theorem RInv.plain {c : Conn} (hi : RInv env act c) {e : Effect} (h : Plain e) : NextR env act c (c.emit e) := by
  refine hi.emit ?_ ?_
  · cases e <;> first | trivial | exact h.elim
  · cases e <;> first | exact ⟨trivial, trivial⟩ | exact h.elim

/-- An update of fields nobody looks at. -/
theorem RInv.upd {c : Conn} (hi : RInv env act c) (c' : Conn) (hl : c'.log = c.log := by rfl)
    (hs : c'.state = c.state := by rfl) (hr : c'.isServer = c.isServer := by rfl) (hc : c'.cbs = c.cbs := by rfl)
    (hb : c'.authBuffer.length = c.authBuffer.length := by rfl) (hw : c'.wolfSet = c.wolfSet := by rfl)
    (hn : c'.renegInProgress = c.renegInProgress ∨ (EnvOk env → c.wolfSet = true) := by exact .inl rfl)
    (hf : c'.fragTable = c.fragTable ∨ ∀ t, c'.fragTable = some t → TableWf t := by exact .inl rfl)
    (hp : c'.pmtud = c.pmtud ∨ PmR c'.pmtud := by exact .inl rfl) : NextR env act c c' := by
  refine ⟨⟨by rw [hl, hs]; exact hi.st, by rw [hl, hr]; exact hi.role, by rw [hl, hc]; exact hi.reg,
    by rw [hl]; exact hi.all, by rw [hb]; exact hi.buf, ?_, ?_, ?_⟩, ⟨[], .nil, by rw [hl]; rfl⟩, fun _ h => by rw [hw]; exact h⟩
  · intro he h
    rw [hw] at h
    rw [hs]
    rcases hn with hn | hn
    · rw [hn]; exact hi.wolf he h
    · rw [hn he] at h; cases h
  · rcases hf with hf | hf
    · rw [hf]; exact hi.frag
    · exact hf
  · rcases hp with hp | hp
    · rw [hp]; exact hi.pm
    · exact hp

theorem RInv.plains (x : List Effect) (h : ∀ e ∈ x, Plain e) {c : Conn} (hi : RInv env act c) :
    NextR env act c { c with log := x ++ c.log } := by
  induction x with
  | nil => exact hi.next
  | cons e x ih =>
    exact (ih (fun y hy => h y (List.mem_cons_of_mem _ hy))).trans
      ((ih (fun y hy => h y (List.mem_cons_of_mem _ hy))).inv.plain (h e List.mem_cons_self))

theorem IoEff.still {c : Conn} {e : Effect} (h : IoEff c e) : StillEff e := by
  cases e <;> first | trivial | exact h.elim

theorem RInv.ios (x : List Effect) {c : Conn} (h : ∀ e ∈ x, IoEff c e) (hi : RInv env act c) :
    NextR env act c { c with log := x ++ c.log } := by
  induction x with
  | nil => exact hi.next
  | cons e x ih =>
    have h1 := ih (fun y hy => h y (List.mem_cons_of_mem _ hy))
    have he := h e List.mem_cons_self
    refine h1.trans (h1.inv.emit he.still ?_)
    have hr : registered (x ++ c.log) = c.cbs := h1.inv.reg
    cases e <;> first | exact ⟨trivial, trivial⟩ | exact he.elim | skip
    exact ⟨by show (registered (x ++ c.log)).outsideWrite = true; rw [hr]; exact he.1, he.2⟩

theorem RInv.io {c c' : Conn} (hi : RInv env act c) (h : IoFrame c c') : NextR env act c c' := by
  obtain ⟨l, ps, sl, we, rfl, h⟩ := h
  have h1 := hi.ios l h
  exact h1.trans (h1.inv.upd _)

theorem RInv.sslDo {c : Conn} (hi : RInv env act c) (call : SslCall) : NextR env act c (sslDo env c call).1 :=
  hi.io (sslDo_frame env c call)

theorem RInv.send {c : Conn} (hi : RInv env act c) (m : Bytes) : NextR env act c (sendMessage env c m).1 :=
  hi.io (sendMessage_frame env c m)

/-- Undefined behaviour at one of the known places, or in an environment that misbehaves. -/
theorem RInv.ub {c : Conn} (hi : RInv env act c) (s : String) (h : EnvOk env → UbSite c.log s) :
    NextR env act c (c.ub s) := hi.emit trivial ⟨trivial, h⟩

theorem RInv.announce {c : Conn} (hi : RInv env act c) (s : ConnState)
    (he : NestEdge act c.log s) (hw : EnvOk env → c.wolfSet = true ∨ s = .disconnected) :
    NextR env act c { c with state := s, log := .state s c.cbs.stateChange :: c.log } := by
  refine ⟨⟨rfl, hi.role, hi.reg, ⟨⟨?_, he⟩, hi.all⟩, hi.buf, ?_, hi.frag, hi.pm⟩,
    ⟨[_], .eff (by simp) (by simp) .nil, rfl⟩, fun _ h => h⟩
  · show c.cbs.stateChange = (registered c.log).stateChange
    rw [hi.reg]
  · intro he' hf
    rcases hw he' with h | h
    · rw [show c.wolfSet = false from hf] at h; cases h
    · exact ⟨.inr h, (hi.wolf he' hf).2⟩

theorem setStateR_next {c : Conn} (hk : HookOk env act k) (hi : RInv env act c) (s : ConnState)
    (he : c.state ≠ s → NestEdge act c.log s) (hw : EnvOk env → c.wolfSet = true ∨ s = .disconnected) :
    NextR env act c (setStateR k c s) := by
  unfold setStateR
  by_cases h : c.state = s
  · rw [if_pos h]; exact hi.next
  · rw [if_neg h]
    have h1 := hi.announce s (he h) hw
    simp only
    split
    · exact h1.trans (hk.next _ h1.inv)
    · exact h1

/-- The announcement of a state, and what the host did then. -/
theorem setStateR_log {c : Conn} (hk : HookOk env act k) {s : ConnState} (hne : c.state ≠ s)
    (hi : RInv env act { c with state := s, log := .state s c.cbs.stateChange :: c.log }) :
    ∃ y, Calls y ∧ (setStateR k c s).log = y ++ .state s c.cbs.stateChange :: c.log := by
  unfold setStateR
  rw [if_neg hne]
  simp only
  split
  · exact hk.calls _ hi
  · exact ⟨[], .nil, rfl⟩

/-- After announcing a state from whose callback the host makes no calls, the connection is in that state and nothing
else happened. -/
theorem setStateR_calm {c : Conn} (hk : HookOk env act k) {s : ConnState} (hne : c.state ≠ s)
    (hs : s = .connecting ∨ s = .configuring) :
    act ∨ setStateR k c s = { c with state := s, log := .state s c.cbs.stateChange :: c.log } := by
  unfold setStateR
  rw [if_neg hne]
  simp only
  split
  · refine hk.calm _ ?_
    rcases hs with rfl | rfl <;> exact trivial
  · exact .inr rfl

theorem generateEventR_next {c : Conn} (hk : HookOk env act k) (hi : RInv env act c) (e : Event) :
    NextR env act c (generateEventR k c e) := by
  unfold generateEventR
  have h1 : NextR env act c (c.emit (.event e c.cbs.event)) := hi.emit trivial ⟨by
    show c.cbs.event = (registered c.log).event
    rw [hi.reg], trivial⟩
  simp only
  split
  · exact h1.trans (hk.next _ h1.inv)
  · exact h1

theorem sendAuthR_next {c : Conn} (hk : HookOk env act k) (hi : RInv env act c)
    (hr : c.state = .linkUp → c.isServer = false) : NextR env act c (sendAuthR k env c).1 := by
  unfold sendAuthR
  by_cases h : c.state ≠ .linkUp ∧ c.state ≠ .authenticating
  · rw [if_pos h]; exact hi.next
  · rw [if_neg h]
    have hw : EnvOk env → c.wolfSet = true := by
      intro he
      cases hws : c.wolfSet with
      | true => rfl
      | false =>
        exfalso
        apply h
        rcases (hi.wolf he hws).1 with h | h <;> rw [h] <;> exact ⟨by decide, by decide⟩
    have h1 : NextR env act c (setStateR k c .authenticating) := by
      refine setStateR_next hk hi _ ?_ (fun he => .inl (hw he))
      intro hne
      have : c.state = .linkUp := by
        cases hst : c.state <;> simp_all
      refine ⟨by rw [hi.st]; exact hne, by rw [hi.st]; exact this, by rw [hi.role]; exact hr this⟩
    generalize setStateR k c .authenticating = c1 at h1
    simp only
    repeat' split
    all_goals first | exact h1 | exact h1.trans (h1.inv.send _)

theorem sslVer_next {c : Conn} (hi : RInv env act c) (hw : EnvOk env → c.wolfSet = true) :
    NextR env act c (sslVer env c).1 := by
  unfold sslVer
  cases h : c.wolfSet
  · refine hi.ub _ ?_
    intro he; rw [hw he] at h; cases h
  · exact hi.next

theorem updateTimeoutR_next {c : Conn} (hk : HookOk env act k) (hi : RInv env act c)
    (hw : EnvOk env → c.wolfSet = true) : NextR env act c (updateTimeoutR k env c) := by
  unfold updateTimeoutR
  split
  · exact hi.next
  · have h1 := hi.sslDo (env := env) .currentTimeout
    generalize sslDo env c .currentTimeout = q at h1
    obtain ⟨c1, r⟩ := q
    have h2 := h1.trans (sslVer_next h1.inv (fun he => h1.mono he (hw he)))
    simp only at h2 ⊢
    generalize sslVer env c1 = q at h2
    obtain ⟨c2, v⟩ := q
    simp only at h2 ⊢
    have h3 : ∀ t : Int, NextR env act c (if v ≠ .dtls12 then
        ((sslDo env c2 .quickTimeout).1, if (sslDo env c2 .quickTimeout).2.ok then t.tdiv 4 else t) else (c2, t)).1 := by
      intro t
      split
      · exact h2.trans (h2.inv.sslDo _)
      · exact h2
    have h3 := h3 (r.val * 100)
    generalize hq : (if v ≠ .dtls12 then _ else _ : Conn × Int) = q at h3
    obtain ⟨c3, t⟩ := q
    simp only at h3 ⊢
    have h4 : NextR env act c { c3.emit (.timer t) with wolfTimeout := t } := by
      have := h3.trans (h3.inv.plain (e := .timer t) trivial)
      exact this.trans (this.inv.upd _)
    split
    · rename_i hn
      have h5 := h4.trans (h4.inv.emit (e := .nudgeTime t) trivial ⟨by
        have := h4.inv.reg
        show (registered (c3.emit (.timer t)).log).nudgeTime = true
        exact (congrArg Callbacks.nudgeTime this).trans hn.1, trivial⟩)
      have h6 := h5.trans (hk.next _ h5.inv)
      exact h6.trans (h6.inv.upd _)
    · exact h4

theorem renegotiateSslR_next {c : Conn} (hk : HookOk env act k) (hi : RInv env act c) :
    NextR env act c (renegotiateSslR k env c).1 := by
  unfold renegotiateSslR
  have h0 : NextR env act c { c with renegDue := false } := hi.upd _
  generalize ({ c with renegDue := false } : Conn) = c0 at h0
  simp only
  split
  · exact h0
  · rename_i hst
    have hon : c0.state = .online := by
      cases h : c0.state <;> simp_all
    have hw : EnvOk env → c0.wolfSet = true := by
      intro he
      cases hws : c0.wolfSet with
      | true => rfl
      | false => rcases (h0.inv.wolf he hws).1 with h | h <;> rw [h] at hon <;> cases hon
    have h1 := h0.trans (sslVer_next h0.inv hw)
    have hw1 := (sslVer_n env c0).wolfSet
    generalize sslVer env c0 = q at h1 hw1
    obtain ⟨c1, v⟩ := q
    simp only at h1 hw1 ⊢
    have hw1 : EnvOk env → c1.wolfSet = true := fun he => by rw [hw1]; exact hw he
    have go : ∀ (c2 : Conn) (r : SslRes), NextR env act c1 c2 →
        NextR env act c (if r.ok = true then (generateEventR k { c2 with renegInProgress := true } .renegStarted, RC.success)
          else match r.err with
            | .none | .wantRead | .wantWrite | .appDataReady =>
              (updateTimeoutR k env (generateEventR k { c2 with renegInProgress := true } .renegStarted), .success)
            | .secureReneg => (generateEventR k { c2 with renegInProgress := true } .renegStarted, .secureRenegotiationError)
            | e => ({ generateEventR k { c2 with renegInProgress := true } .renegStarted with wolfError := e }, .sslError)).1 := by
      intro c2 r h2
      have h3 : NextR env act c1 { c2 with renegInProgress := true } := h2.trans (h2.inv.upd _ (hn := .inr (fun he => h2.mono he (hw1 he))))
      have h4 := h3.trans (generateEventR_next hk h3.inv .renegStarted)
      have h5 := h1.trans h4
      have hw4 : EnvOk env → (generateEventR k { c2 with renegInProgress := true } .renegStarted).wolfSet = true :=
        fun he => h4.mono he (hw1 he)
      generalize generateEventR k { c2 with renegInProgress := true } .renegStarted = c4 at h5 hw4
      repeat' split
      all_goals first
        | exact h5
        | exact h5.trans (updateTimeoutR_next hk h5.inv hw4)
        | exact h5.trans (h5.inv.upd _)
    split
    · have h2 := h1.inv.sslDo (env := env) .renegSupport
      generalize sslDo env c1 .renegSupport = q at h2
      obtain ⟨c2, s⟩ := q
      simp only at h2 ⊢
      split
      · exact h1.trans h2
      · exact go _ (sslDo env c2 .rehandshake).2 (h2.trans (h2.inv.sslDo _))
    · exact go _ (sslDo env c1 .updateKeys).2 (h1.inv.sslDo _)

/-! ### PMTU discovery -/

theorem pmtudChangeStateR_next {c : Conn} (hk : HookOk env act k) (hi : RInv env act c) (s : PmtudState) :
    NextR env act c (pmtudChangeStateR k c s) := by
  unfold pmtudChangeStateR
  have h1 : NextR env act c { c with pmtud := { c.pmtud with state := s } } := hi.upd _ (hp := .inr hi.pm)
  simp only
  split
  · rename_i hc
    have h2 := h1.trans (h1.inv.emit (e := .pmtudState s) trivial ⟨by
      show (registered c.log).pmtudState = true
      rw [hi.reg]; exact hc, trivial⟩)
    exact h2.trans (hk.next _ h2.inv)
  · exact h1

theorem pmtudTimeCbR_next {c : Conn} (hk : HookOk env act k) (hi : RInv env act c) (ms : Nat)
    (hc : c.cbs.pmtudTime = true) : NextR env act c (pmtudTimeCbR k env c ms).1 := by
  have h2 := hi.emit (e := .pmtudTime ms (env.pmtudTime c.log ms)) trivial ⟨by
    show (registered c.log).pmtudTime = true
    rw [hi.reg]; exact hc, trivial⟩
  exact h2.trans (hk.next _ h2.inv)

theorem pmtudTimeIf_next {c : Conn} (hk : HookOk env act k) (hi : RInv env act c) (ms : Nat) :
    NextR env act c (if c.cbs.pmtudTime then (pmtudTimeCbR k env c ms).1 else c) := by
  split
  · exact pmtudTimeCbR_next hk hi ms ‹_›
  · exact hi.next

theorem sendProbeR_next {c : Conn} (hk : HookOk env act k) (hi : RInv env act c) (mtu : Nat)
    (hm : 512 ≤ mtu → (mtu % 8 = 0 ∨ mtu % 8 = 2) ∧ (c.pmtud.base = 512 ∨ c.pmtud.base = 1250)) :
    NextR env act c (sendProbeR k env c mtu).1 := by
  unfold sendProbeR
  split
  · exact hi.next
  · split
    · exact hi.next
    · rename_i hr
      simp only [minPlpmtu, not_or, Nat.not_lt] at hr
      have hm := hm hr.1
      have h1 : NextR env act c { c with
          pingNextId := (c.pingNextId + 1) % 65536,
          pmtud := { c.pmtud with probeCount := (c.pmtud.probeCount + 1) % 256, probingSize := mtu } } :=
        hi.upd _ (hp := .inr ⟨.inr hm.2, hi.pm.2.1, hm.1⟩)
      simp only
      have h2 := h1.trans (h1.inv.send (probeMsg c.pingNextId mtu))
      generalize sendMessage env _ (probeMsg c.pingNextId mtu) = q at h2 ⊢
      obtain ⟨c1, rc⟩ := q
      simp only at h2 ⊢
      by_cases hrc : rc ≠ .success
      · rw [if_pos hrc, if_pos hrc]
        exact h2.trans (pmtudTimeIf_next hk h2.inv _)
      · rw [if_neg hrc, if_neg hrc]
        have h3 : NextR env act c { c1 with pmtud := { c1.pmtud with pendingId := c.pingNextId } } :=
          h2.trans (h2.inv.upd _ (hp := .inr h2.inv.pm))
        exact h3.trans (pmtudTimeIf_next hk h3.inv _)

theorem retryProbeR_next {c : Conn} (hk : HookOk env act k) (hi : RInv env act c) (ms : Nat) :
    NextR env act c (retryProbeR k env c ms).1 := by
  unfold retryProbeR
  split
  rename_i c1 rc heq
  have h1 : NextR env act c c1 := by
    have := pmtudTimeIf_next hk hi (env := env) ms
    by_cases hc : c.cbs.pmtudTime = true
    · rw [if_pos hc] at heq this; rw [heq] at this; exact this
    · rw [if_neg hc] at heq this; cases heq; exact this
  exact h1.trans (h1.inv.upd _ (hp := .inr h1.inv.pm))

theorem startBaseProbingR_next {c : Conn} (hk : HookOk env act k) (hi : RInv env act c) :
    NextR env act c (startBaseProbingR k env c).1 := by
  unfold startBaseProbingR
  split
  · exact hi.next
  · exact hi.next
  · have h1 := pmtudChangeStateR_next hk hi .base
    generalize pmtudChangeStateR k c .base = c1 at h1 ⊢
    have h2 : NextR env act c { c1 with pmtud := { c1.pmtud with base := initialPlpmtu, probeCount := 0 } } :=
      h1.trans (h1.inv.upd _ (hp := .inr ⟨.inr (.inr rfl), h1.inv.pm.2⟩))
    exact h2.trans (sendProbeR_next hk h2.inv _ (fun _ => ⟨.inr (by show initialPlpmtu % 8 = 2; rfl), .inr rfl⟩))

theorem baseConfirmedR_next {c : Conn} (hk : HookOk env act k) (hi : RInv env act c) :
    NextR env act c (baseConfirmedR k env c).1 := by
  unfold baseConfirmedR
  split
  · have h1 := pmtudChangeStateR_next hk hi .searching
    generalize pmtudChangeStateR k c .searching = c1 at h1 ⊢
    have h2 : NextR env act c { c1 with pmtud := { c1.pmtud with probeCount := 0, bigStep := true } } :=
      h1.trans (h1.inv.upd _ (hp := .inr h1.inv.pm))
    refine h2.trans (sendProbeR_next hk h2.inv _ ?_)
    show 512 ≤ c1.pmtud.base + 32 → ((c1.pmtud.base + 32) % 8 = 0 ∨ (c1.pmtud.base + 32) % 8 = 2) ∧ (c1.pmtud.base = 512 ∨ c1.pmtud.base = 1250)
    have := h1.inv.pm.1
    omega
  · exact hi.next

theorem confirmBaseFailedR_next {c : Conn} (hk : HookOk env act k) (hi : RInv env act c) :
    NextR env act c (confirmBaseFailedR k env c).1 := by
  unfold confirmBaseFailedR
  split
  · have h1 := pmtudChangeStateR_next hk hi .error
    exact h1.trans (retryProbeR_next hk h1.inv _)
  · exact hi.next

theorem searchCompletedR_next {c : Conn} (hk : HookOk env act k) (hi : RInv env act c)
    (hp : 506 ≤ c.pmtud.probingSize) : NextR env act c (searchCompletedR k env c).1 := by
  unfold searchCompletedR
  split
  · have h0 : NextR env act c { c with pmtud := { c.pmtud with effective := min c.pmtud.probingSize maxPlpmtu } } :=
      hi.upd _ (hp := .inr ⟨hi.pm.1, .inr (by
        show 506 ≤ min c.pmtud.probingSize maxPlpmtu ∧ min c.pmtud.probingSize maxPlpmtu ≤ 1416
        simp only [maxPlpmtu]; omega), hi.pm.2.2⟩)
    have h1 := h0.trans (pmtudChangeStateR_next hk h0.inv .searchComplete)
    exact h1.trans (retryProbeR_next hk h1.inv _)
  · exact hi.next

theorem blackholeDetectedR_next {c : Conn} (hk : HookOk env act k) (hi : RInv env act c) :
    NextR env act c (blackholeDetectedR k env c).1 := by
  unfold blackholeDetectedR
  split
  · have h1 := pmtudChangeStateR_next hk hi .base
    generalize pmtudChangeStateR k c .base = c1 at h1 ⊢
    have h2 : NextR env act c { c1 with pmtud := { c1.pmtud with base := minPlpmtu, probeCount := 0 } } :=
      h1.trans (h1.inv.upd _ (hp := .inr ⟨.inr (.inl rfl), h1.inv.pm.2⟩))
    exact h2.trans (sendProbeR_next hk h2.inv _ (fun _ => ⟨.inl (by show minPlpmtu % 8 = 0; rfl), .inl rfl⟩))
  · exact hi.next

theorem handleProbeAckR_next {c : Conn} (hk : HookOk env act k) (hi : RInv env act c) (id : Nat) :
    NextR env act c (handleProbeAckR k env c id).1 := by
  unfold handleProbeAckR
  split
  · exact hi.next
  · have h0 := pmtudTimeIf_next hk hi (env := env) 0
    simp only
    generalize (if c.cbs.pmtudTime then (pmtudTimeCbR k env c 0).1 else c) = c1 at h0 ⊢
    have h1 : NextR env act c { c1 with pmtud := { c1.pmtud with pendingId := 0, probeCount := 0 } } :=
      h0.trans (h0.inv.upd _ (hp := .inr h0.inv.pm))
    split
    · exact h1.trans (baseConfirmedR_next hk h1.inv)
    · split
      · rename_i hp
        exact h1.trans (searchCompletedR_next hk h1.inv (by simp only [maxPlpmtu] at hp ⊢; omega))
      · refine h1.trans (sendProbeR_next hk h1.inv _ ?_)
        have hb := h0.inv.pm.1
        have h2 := h0.inv.pm.2.2
        show 512 ≤ min (c1.pmtud.probingSize + (if c1.pmtud.bigStep = true then 32 else 8)) maxPlpmtu →
          (min (c1.pmtud.probingSize + (if c1.pmtud.bigStep = true then 32 else 8)) maxPlpmtu % 8 = 0 ∨
          min (c1.pmtud.probingSize + (if c1.pmtud.bigStep = true then 32 else 8)) maxPlpmtu % 8 = 2) ∧
          (c1.pmtud.base = 512 ∨ c1.pmtud.base = 1250)
        generalize c1.pmtud.probingSize = q at h2 hb ⊢
        generalize c1.pmtud.base = b at hb ⊢
        simp only [maxPlpmtu]
        split <;> omega
    · exact h1.trans (baseConfirmedR_next hk h1.inv)
    · exact h1.trans (retryProbeR_next hk h1.inv _)
    · exact h1

theorem handleProbeTimeoutR_next {c : Conn} (hk : HookOk env act k) (hi : RInv env act c) :
    NextR env act c (handleProbeTimeoutR k env c).1 := by
  unfold handleProbeTimeoutR
  have hb := hi.pm.1
  have hq := hi.pm.2.2
  split
  · refine sendProbeR_next hk hi _ ?_
    generalize c.pmtud.probingSize = q at hb hq ⊢
    generalize c.pmtud.base = b at hb ⊢
    omega
  · have h1 : NextR env act c { c with pmtud := { c.pmtud with pendingId := 0, probeCount := 0 } } :=
      hi.upd _ (hp := .inr hi.pm)
    simp only
    split
    · split
      · rename_i hini
        refine h1.trans (sendProbeR_next hk h1.inv _ (fun _ => ⟨.inl rfl, ?_⟩))
        show c.pmtud.base = 512 ∨ c.pmtud.base = 1250
        have hini : c.pmtud.probingSize = 1250 := hini
        omega
      · exact h1.trans (confirmBaseFailedR_next hk h1.inv)
    · split
      · have h2 : NextR env act c { c with pmtud := { c.pmtud with pendingId := 0, probeCount := 0, bigStep := false } } :=
          hi.upd _ (hp := .inr hi.pm)
        refine h2.trans (sendProbeR_next hk h2.inv _ ?_)
        show 512 ≤ c.pmtud.probingSize - 32 + 8 → ((c.pmtud.probingSize - 32 + 8) % 8 = 0 ∨ (c.pmtud.probingSize - 32 + 8) % 8 = 2) ∧
          (c.pmtud.base = 512 ∨ c.pmtud.base = 1250)
        omega
      · split
        · exact h1.trans (h1.inv.ub _ (fun _ => .inl rfl))
        · rename_i hp
          have hp : ¬c.pmtud.probingSize ≤ c.pmtud.base := hp
          have h2 : NextR env act c { c with
              pmtud := { c.pmtud with pendingId := 0, probeCount := 0, probingSize := c.pmtud.probingSize - 8 } } :=
            hi.upd _ (hp := .inr ⟨by
              show (c.pmtud.base = 0 ∧ c.pmtud.probingSize - 8 = 0) ∨ c.pmtud.base = 512 ∨ c.pmtud.base = 1250
              omega, hi.pm.2.1, by
              show (c.pmtud.probingSize - 8) % 8 = 0 ∨ (c.pmtud.probingSize - 8) % 8 = 2
              omega⟩)
          refine h2.trans (searchCompletedR_next hk h2.inv ?_)
          show 506 ≤ c.pmtud.probingSize - 8
          omega
    · exact h1.trans (blackholeDetectedR_next hk h1.inv)
    · exact h1.trans (retryProbeR_next hk h1.inv _)
    · exact h1

/-! ### Messages -/

theorem handlePongR_next {c : Conn} (hk : HookOk env act k) (hi : RInv env act c) (pkt : Bytes) :
    NextR env act c (handlePongR k env c pkt).1 := by
  unfold handlePongR
  split
  · exact hi.next
  · rw [rd_isSome (by omega)]
    simp only
    split
    · exact generateEventR_next hk hi _
    · exact handleProbeAckR_next hk hi _

theorem handlePing_next {c : Conn} (hi : RInv env act c) (pkt : Bytes) : NextR env act c (handlePing env c pkt).1 := by
  unfold handlePing
  split
  · exact hi.next
  · split
    · exact hi.next
    · rw [rd_isSome (by omega)]
      exact hi.send _

theorem handleServerConfigR_next {c : Conn} (hk : HookOk env act k) (hi : RInv env act c) (pkt : Bytes)
    (hm : ∃ rest, c.log = .message pkt :: rest) (hd : pkt.head? = some 14) :
    NextR env act c (handleServerConfigR k env c pkt).1 := by
  unfold handleServerConfigR
  split
  · exact hi.next
  · rename_i hr
    split
    · exact hi.next
    · rename_i hv
      split
      · exact hi.next
      · rw [rd_isSome (by omega)]
        simp only
        split
        · exact hi.next
        · rename_i hn
          split
          · exact hi.next
          · rename_i hcb
            obtain ⟨rest, hm⟩ := hm
            rw [rd_isSome (by omega)]
            simp only
            have h1 := hi.emit (e := .serverConfig ((pkt.drop 3).take (rdBe16 (List.take 2 (List.drop 1 pkt))))
              (env.serverConfig c.log ((pkt.drop 3).take (rdBe16 (List.take 2 (List.drop 1 pkt)))))) trivial ⟨by
                show (registered c.log).serverConfig = true
                rw [hi.reg]; simpa using hcb, by rw [hi.role]; simpa using hr, by
                rw [hi.st]
                cases hs : c.state <;> simp_all [validStateForServerConfig], pkt, rest, hm, hd, by
                rw [num_rdBe16 (field_length (by omega))]; show 3 + rdBe16 (List.take 2 (List.drop 1 pkt)) ≤ _; omega,
                by rw [num_rdBe16 (field_length (by omega))]; rfl⟩
            have h2 := h1.trans (hk.next _ h1.inv)
            split <;> exact h2

theorem RInv.wolf_state {c : Conn} (hi : RInv env act c) (h : c.state ≠ .none ∧ c.state ≠ .disconnected)
    (he : EnvOk env) : c.wolfSet = true := by
  cases hws : c.wolfSet with
  | true => rfl
  | false => rcases (hi.wolf he hws).1 with h' | h'; exact absurd h' h.1; exact absurd h' h.2

theorem applyConfigR_next {c : Conn} (hk : HookOk env act k) (hi : RInv env act c) (pkt : Bytes) (cfg : NetCfg) (s : Nat)
    (hm : ∃ rest, c.log = .message pkt :: rest) (hmsg : IsConfigMsg pkt) (hst : c.state = .authenticating)
    (hr : c.isServer = false) (hsane : SaneCfg cfg) (hof : CfgOf pkt cfg) :
    NextR env act c (applyConfigR k env c cfg s).1 := by
  obtain ⟨rest, hm⟩ := hm
  have hauth : stateAt rest = .authenticating := by have := hi.st; rw [hm, hst] at this; exact this
  have hcl : serverAt rest = false := by have := hi.role; rw [hm, hr] at this; exact this
  have hws := hi.wolf_state (by rw [hst]; exact ⟨by decide, by decide⟩)
  unfold applyConfigR
  have h0 : NextR env act c { c with sessionId := s } := hi.upd _
  have hne : ({ c with sessionId := s } : Conn).state ≠ .configuring := by rw [hst]; decide
  have hedge : NestEdge act c.log .configuring :=
    ⟨by rw [h0.inv.st]; exact hne, by rw [h0.inv.st]; exact hst, by rw [h0.inv.role]; exact hr, pkt, rest, hm, hmsg⟩
  have h1 := h0.trans (setStateR_next hk h0.inv .configuring (fun _ => hedge) (fun he => .inl (hws he)))
  have hl1 := setStateR_log hk hne (h0.inv.announce .configuring hedge (fun he => .inl (hws he))).inv
  have hc1 := setStateR_calm (env := env) (act := act) hk (c := { c with sessionId := s }) hne (.inr rfl)
  simp only
  generalize setStateR k { c with sessionId := s } .configuring = c1 at h1 hc1 hl1 ⊢
  have hs1 : act ∨ c1.state = .configuring := hc1.imp id (fun h => by rw [h])
  have seen : ConfigSeen pkt c1.log := by
    obtain ⟨y, hy, hl⟩ := hl1
    exact ⟨y, _, rest, by rw [hl]; simp only; rw [hm], hy, hmsg, hauth, hcl⟩
  have hw1 : EnvOk env → c1.wolfSet = true := fun he => h1.mono he (hws he)
  split
  · rename_i hcb
    have h2 := h1.trans (h1.inv.emit (e := .netConfig cfg (env.netConfig c1.log cfg)) trivial
      ⟨by show (registered c1.log).netConfig = true; rw [h1.inv.reg]; exact hcb, hsane, pkt, hof, seen⟩)
    have h3 := h2.trans (hk.next _ h2.inv)
    have hc3 := hk.calm (c1.emit (.netConfig cfg (env.netConfig c1.log cfg))) trivial
    obtain ⟨y, hy, hly⟩ := hk.calls _ h2.inv
    have hw3 := fun he => (hk.next _ h2.inv).mono he (hw1 he)
    generalize k (c1.emit (.netConfig cfg (env.netConfig c1.log cfg))) = c3 at h3 hc3 hly hw3 ⊢
    split
    · exact h3
    · rename_i hrc
      have hrc : env.netConfig c1.log cfg = .success := by simpa using hrc
      refine h3.trans (setStateR_next hk h3.inv .online (fun hne => ⟨by rw [h3.inv.st]; exact hne, .inl ⟨?_, ?_⟩⟩)
        (fun he => .inl (hw3 he)))
      · refine .inl ⟨y, cfg, c1.log, pkt, ?_, hy, seen⟩
        rw [hly]; simp only [Conn.emit]; rw [hrc]
      · rcases hc3 with h | h
        · exact .inl h
        · rw [h3.inv.st, h]; exact hs1
  · rename_i hcb
    refine h1.trans (setStateR_next hk h1.inv .online (fun hne => ⟨by rw [h1.inv.st]; exact hne, .inl ⟨?_, by
      rw [h1.inv.st]; exact hs1⟩⟩) (fun he => .inl (hw1 he)))
    exact .inr ⟨by rw [h1.inv.reg]; simpa using hcb, pkt, seen⟩

theorem handleConfigIpv4R_next {c : Conn} (hk : HookOk env act k) (hi : RInv env act c) (pkt : Bytes)
    (hm : ∃ rest, c.log = .message pkt :: rest) (hd : pkt.head? = some 6) :
    NextR env act c (handleConfigIpv4R k env c pkt).1 := by
  unfold handleConfigIpv4R
  split
  · exact hi.next
  · split
    · exact hi.next
    · rename_i hs
      simp only [not_or, Bool.not_eq_true, Classical.not_not] at hs
      split
      · exact hi.next
      · rename_i hl
        rw [rd_isSome (by omega), rd_isSome (by omega), rd_isSome (by omega), rd_isSome (by omega),
          rd_isSome (by omega), wr_isSome (by simp; omega)]
        exact applyConfigR_next hk hi pkt _ _ hm ⟨hd, by omega⟩ hs.2 hs.1
          ⟨copyIpField_term _, copyIpField_term _, copyIpField_term _, configMtu_range _⟩ (cfgOf_msg pkt (by omega))

end Lightway
