import Verif.Props.Wire4

/-!
# C71: a packet refused by a plugin goes nowhere
-/

namespace Lightway
open Spec

/-- A packet moves on: to the inside, to the network, to the TLS library, or to another plugin. -/
def Spec.MovesOn : Effect → Prop
  | .insideWrite _ | .outsideWrite .. | .input .. | .pluginIngress .. | .pluginEgress .. => True
  | _ => False

/-- Nothing moves on directly after a refusal. -/
def Stopped (e : Effect) (l : Log) : Prop := MovesOn e → ¬Vetoed l

/-- An ingress plugin ran. -/
def IsIngress : Effect → Prop
  | .pluginIngress .. => True
  | _ => False

/-- What a step adds to the history. -/
def Adds (a : Api) (l l' : Log) : Prop :=
  ∃ x, l' = x ++ l ∧ (AllAt Stopped l → AllAt Stopped l') ∧ ∀ e ∈ x, IsIngress e → JustCalled a l

theorem Adds.none (a : Api) (l : Log) : Adds a l l := ⟨[], rfl, id, by simp⟩

theorem Adds.one (a : Api) (l : Log) {e : Effect} (h : MovesOn e → ¬Vetoed l) (hi : IsIngress e → JustCalled a l) :
    Adds a l (e :: l) := ⟨[e], rfl, fun h2 => ⟨h, h2⟩, by simpa using hi⟩

theorem Adds.still (a : Api) (l : Log) {e : Effect} (h : ¬MovesOn e) : Adds a l (e :: l) :=
  .one a l (fun h2 => absurd h2 h) (fun h2 => absurd (by cases e <;> simp_all [IsIngress, MovesOn]) h)

theorem JustCalled.notVetoed {a : Api} {l : Log} (h : JustCalled a l) : ¬Vetoed l := by
  obtain ⟨x, old, rfl, hx⟩ := h
  cases x with
  | nil => exact id
  | cons y ys => obtain ⟨p, rfl⟩ := hx y (by simp); simp [Vetoed]

/-- The egress chain stops at the first refusal. -/
theorem egress_adds (ch : Chain) (l : Log) (pkt : Bytes) (cap : Nat) (hn : ¬Vetoed l) :
    ∃ x, (ch.egress l pkt cap).1 = x ++ l ∧ (AllAt Stopped l → AllAt Stopped (x ++ l)) ∧ (∀ e ∈ x, ¬IsIngress e) ∧
      ((ch.egress l pkt cap).2.2 = .success → ¬Vetoed (x ++ l)) := by
  have key : ∀ x : Log, (∀ e ∈ x, ∃ p, e = Effect.pluginEgress p .success) →
      (AllAt Stopped l → AllAt Stopped (x ++ l)) ∧ (∀ e ∈ x, ¬IsIngress e) ∧ ¬Vetoed (x ++ l) := by
    intro x hx
    induction x with
    | nil => exact ⟨id, by simp, hn⟩
    | cons y ys ih =>
      obtain ⟨p, rfl⟩ := hx y (by simp)
      have ih := ih (fun e he => hx e (by simp [he]))
      exact ⟨fun h => ⟨fun _ => ih.2.2, ih.1 h⟩, by simpa [IsIngress] using ih.2.1, by simp [Vetoed]⟩
  obtain ⟨x, e, h⟩ := ch.egress_runs l pkt cap
  rcases h with ⟨hx, hr⟩ | ⟨p, r, x', rfl, h1, h2, hx⟩
  · have k := key x hx
    exact ⟨x, e, k.1, k.2.1, fun _ => k.2.2⟩
  · have k := key x' hx
    refine ⟨_, e, fun h => ⟨fun _ => k.2.2, k.1 h⟩, by simpa [IsIngress] using k.2.1, fun h => ?_⟩
    rw [h2] at h
    split at h <;> cases h

theorem Adds.trans {a : Api} {l1 l2 l3 : Log} (h1 : Adds a l1 l2) (h2 : Adds a l2 l3) (hm : ∃ x, l2 = x ++ l1 ∧ ∀ e ∈ x, NoMark e) :
    Adds a l1 l3 := by
  obtain ⟨x, e1, p1, i1⟩ := h1
  obtain ⟨y, e2, p2, i2⟩ := h2
  obtain ⟨x', e1', hm⟩ := hm
  have : x = x' := List.append_cancel_right (e1.symm.trans e1')
  subst this
  refine ⟨y ++ x, by rw [e2, e1]; simp, fun h => p2 (p1 h), fun e he hi => ?_⟩
  rcases List.mem_append.mp he with h | h
  · have := i2 e h hi
    refine Classical.byContradiction (fun hn => ?_)
    rw [e1] at this
    exact justCalled_ext hm hn this
  · exact i1 e h hi

/-- A record leaves for the network only if no plugin refused it. -/
theorem io_adds (env : Env) (a : Api) (c : Conn) (r : IoReq) (hn : ¬Vetoed c.log) : Adds a c.log (ioStep env c r).log := by
  cases r with
  | recv sz =>
    obtain ⟨r, e⟩ := recv_log env c sz
    rw [e]
    exact .still a _ (by simp [MovesOn])
  | send rec =>
    have key : ∃ x, ∃ r, (ioStep env c (.send rec)).log = .sslOut rec r :: x ++ c.log ∧
        (AllAt Stopped c.log → AllAt Stopped (x ++ c.log)) ∧ ∀ e ∈ x, ¬IsIngress e := by
      have ow : ∀ (d : Conn) (x : Log) (p : Bytes), d.log = x ++ c.log → ¬Vetoed (x ++ c.log) →
          (AllAt Stopped c.log → AllAt Stopped (x ++ c.log)) → (∀ e ∈ x, ¬IsIngress e) →
          ∃ y, (outsideWriteCb env d p).1.log = y ++ c.log ∧ ¬Vetoed (y ++ c.log) ∧
            (AllAt Stopped c.log → AllAt Stopped (y ++ c.log)) ∧ (∀ e ∈ y, ¬IsIngress e) := by
        intro d x p e hv hs hi
        refine ⟨.outsideWrite p (env.outsideWrite d.log p) :: x, ?_, id, fun h => ⟨fun _ => hv, hs h⟩, ?_⟩
        · show _ :: d.log = _; rw [e]; rfl
        · simpa [IsIngress] using hi
      simp only [ioStep]
      cases c.connType with
      | datagram =>
        unfold dtlsWrite
        by_cases h1 : rec.length + 16 > maxWireMtu
        · rw [if_pos h1]; exact ⟨[], _, rfl, id, by simp⟩
        · rw [if_neg h1]
          obtain ⟨x, e, hs, hi, hv⟩ := egress_adds c.outsidePlugins c.log (wireHeader c ++ rec) maxWireMtu hn
          generalize c.outsidePlugins.egress c.log (wireHeader c ++ rec) maxWireMtu = q at *
          obtain ⟨lg, p, rc⟩ := q
          simp only at e hv ⊢
          subst e
          split
          · exact ⟨x, _, rfl, hs, hi⟩
          · split
            · exact ⟨x, _, rfl, hs, hi⟩
            · rename_i hok
              have hv := hv (by simp only [not_or] at hok; simpa using hok.1)
              split
              · exact ⟨x, _, rfl, hs, hi⟩
              · obtain ⟨x2, e2, hv2, hs2, hi2⟩ := ow { c with log := x ++ c.log } x p rfl hv hs hi
                generalize outsideWriteCb env { c with log := x ++ c.log } p = q2 at *
                obtain ⟨c2, rc2⟩ := q2
                simp only at e2 ⊢
                split
                · exact ⟨x2, _, by show _ :: c2.log = _; rw [e2]; rfl, hs2, hi2⟩
                · split
                  · obtain ⟨x3, e3, hv3, hs3, hi3⟩ := ow c2 x2 p e2 hv2 hs2 hi2
                    generalize outsideWriteCb env c2 p = q3 at *
                    obtain ⟨c3, rc3⟩ := q3
                    simp only at e3 ⊢
                    split
                    · exact ⟨x3, _, by show _ :: c3.log = _; rw [e3]; rfl, hs3, hi3⟩
                    · obtain ⟨x4, e4, hv4, hs4, hi4⟩ := ow c3 x3 p e3 hv3 hs3 hi3
                      generalize outsideWriteCb env c3 p = q4 at *
                      obtain ⟨c4, rc4⟩ := q4
                      simp only at e4 ⊢
                      split <;> exact ⟨x4, _, by show _ :: c4.log = _; rw [e4]; rfl, hs4, hi4⟩
                  · exact ⟨x2, _, by show _ :: c2.log = _; rw [e2]; rfl, hs2, hi2⟩
      | stream =>
        simp only [tlsWrite]
        generalize (if rec.length < maxWireMtu then rec.length else maxWireMtu) = n
        obtain ⟨x, e, hs, hi, hv⟩ := egress_adds c.outsidePlugins c.log (rec.take n) maxWireMtu hn
        generalize c.outsidePlugins.egress c.log (rec.take n) maxWireMtu = q at *
        obtain ⟨lg, p, rc⟩ := q
        simp only at e hv ⊢
        subst e
        split
        · exact ⟨x, _, rfl, hs, hi⟩
        · split
          · exact ⟨x, _, rfl, hs, hi⟩
          · rename_i hok
            have hv := hv (by simp only [not_or] at hok; simpa using hok.1)
            split
            · exact ⟨x, _, rfl, hs, hi⟩
            · obtain ⟨x2, e2, hv2, hs2, hi2⟩ := ow { c with log := x ++ c.log } x p rfl hv hs hi
              generalize outsideWriteCb env { c with log := x ++ c.log } p = q2 at *
              obtain ⟨c2, rc2⟩ := q2
              simp only at e2 ⊢
              split <;> exact ⟨x2, _, by show _ :: c2.log = _; rw [e2]; rfl, hs2, hi2⟩
    obtain ⟨x, r, e, hs, hi⟩ := key
    refine ⟨.sslOut rec r :: x, e, fun h => ?_, ?_⟩
    · rw [e]; exact ⟨fun h => h.elim, hs h⟩
    · intro e he h
      rcases List.mem_cons.mp he with rfl | he
      · exact h.elim
      · exact absurd h (hi e he)

theorem Fine.adds {env : Env} {c c' : Conn} (a : Api) (h : Fine env c c') : Adds a c.log c'.log := by
  cases h with
  | io r hnv => exact io_adds env a c r hnv
  | err | pm => exact .none a _
  | probe pm mtu ok => exact .still a _ (by simp [MovesOn])
  | note e h hn => exact .still a _ (by cases e <;> simp_all [PEff, IoEff, MovesOn, NetEff])

theorem Fine.logExt {env : Env} {c c' : Conn} (h : Fine env c c') : ∃ x, c'.log = x ++ c.log ∧ ∀ e ∈ x, NoMark e := by
  cases h with
  | io r => exact (ioStep_frame env c r).pFrame.logExt
  | err | pm => exact ⟨[], rfl, by simp⟩
  | probe pm mtu ok => exact ⟨[_], rfl, by simp [NoMark]⟩
  | note e h => exact ⟨[e], rfl, by cases e <;> simp_all [PEff, IoEff, NoMark]⟩

theorem fine_adds {env : Env} {c c' : Conn} (a : Api) (h : Star (Fine env) c c') : Adds a c.log c'.log := by
  have : Adds a c.log c'.log ∧ ∃ x, c'.log = x ++ c.log ∧ ∀ e ∈ x, NoMark e := by
    induction h with
    | refl => exact ⟨.none a _, [], rfl, by simp⟩
    | tail _ s ih =>
      obtain ⟨h1, x, e, hx⟩ := ih
      obtain ⟨y, e2, hy⟩ := s.logExt
      refine ⟨h1.trans (s.adds a) ⟨x, e, hx⟩, y ++ x, by rw [e2, e]; simp, fun w hw => ?_⟩
      rcases List.mem_append.mp hw with h | h
      · exact hy w h
      · exact hx w h
  exact this.1

theorem Micro.adds {env : Env} {a : Api} {c c' : Conn} (h : Micro env a c c') : Adds a c.log c'.log := by
  cases h with
  | io r hnv => exact io_adds env a c r hnv
  | quiet e h hj hv =>
    refine .one a _ (fun hm => ?_) (fun hi => ?_)
    · cases e <;> simp_all [Quiet, MovesOn]
      · exact JustCalled.notVetoed hj
    · cases e <;> simp_all [IsIngress]
  | dgram s body h hf ht => exact .one a _ (fun _ => hf.notVetoed) (fun h => h.elim)
  | stream buf h hf hs ht => exact .one a _ (fun _ => hf.notVetoed) (fun h => h.elim)
  | insideWrite p h hs hc hv hm hnv => exact .one a _ (fun _ => hnv) (fun h => h.elim)
  | insideFrag t pkt g en hd tl p h hs hc hv ht hm hg hen hn hlast hb hclk hp hnv =>
    exact .one a _ (fun _ => hnv) (fun h => h.elim)
  | state s hne h =>
    have e : (setState c s).log = .state s c.cbs.stateChange :: c.log := by simp [setState, hne]
    rw [e]
    exact .still a _ (by simp [MovesOn])
  | configure ctx h =>
    obtain ⟨x, y, ok, ft, e, _⟩ := configure_shape env c ctx
    rw [e]
    exact ⟨[.table ctx.maxFragEntries, .alloc ok, .callbacks ctx.cbs], rfl,
      fun h => ⟨fun h => h.elim, fun h => h.elim, fun h => h.elim, h⟩, by simp [IsIngress]⟩
  | probeAck id h hs hm => exact fine_adds a (handleProbeAck_fine env c id)
  | probeTimeout h => exact fine_adds a (handleProbeTimeout_fine env c)
  | startBase h hs hd => exact fine_adds a (startBaseProbing_fine env c)
  | auth e u _ he hc h hr hs hm => exact .still a _ (by cases e <;> simp_all [AuthEff, MovesOn])
  | err | dueOff | sessCfg | sessClient | sessServer | rotate | sessSet | creds
  | mtu | version | pingPending | fragNext | fragNew | fragPut | fragDel => exact .none a _
  | _ => exact .still a _ (by simp [MovesOn])

theorem Star.adds {env : Env} {a : Api} {c c' : Conn} (h : M env a c c') : Adds a c.log c'.log := by
  induction h with
  | refl => exact .none a _
  | tail hs s ih => exact ih.trans s.adds hs.logExt

/-! ## Refusal on entry -/

/-- No ingress plugin refuses in this stretch of history. -/
def NoRefusal (x : Log) : Prop := ∀ p r, Effect.pluginIngress p r ∈ x → r = .success

theorem NoRefusal.append {x y : Log} (h1 : NoRefusal x) (h2 : NoRefusal y) : NoRefusal (x ++ y) := by
  intro p r h
  rcases List.mem_append.mp h with h | h
  · exact h1 p r h
  · exact h2 p r h

theorem NoRefusal.passed {x : Log} (h : ∀ e ∈ x, ∃ p, e = Effect.pluginIngress p .success) : NoRefusal x := by
  intro p r hm
  obtain ⟨q, e⟩ := h _ hm
  cases e; rfl

theorem NoRefusal.none {x : Log} (h : ∀ e ∈ x, ¬IsIngress e) : NoRefusal x :=
  fun p r hm => absurd trivial (h _ hm)

theorem IoFrame.noRefusal {c c' : Conn} (h : IoFrame c c') : ∃ x, c'.log = x ++ c.log ∧ NoRefusal x := by
  obtain ⟨l, ps, sl, we, e, hl⟩ := h
  refine ⟨l, by rw [e], .none fun e he hi => ?_⟩
  have := hl e he
  cases e <;> simp_all [IoEff, IsIngress]

theorem fragLoop_noRefusal (env : Env) (size id : Nat) (c : Conn) (off : Nat) (pkt : Bytes) :
    ∃ x, (fragLoop env c size id off pkt).1.log = x ++ c.log ∧ NoRefusal x := by
  fun_induction fragLoop env c size id off pkt with
  | case1 => exact ⟨[], rfl, by simp [NoRefusal]⟩
  | case2 => exact ⟨[_], rfl, by simp [NoRefusal]⟩
  | case3 => exact ⟨[_], rfl, by simp [NoRefusal]⟩
  | case4 c off pkt _ _ d hd c1 rc he hne =>
    have := (sendMessage_frame env c (fragMsg id off (decide (pkt.length > size)) d)).noRefusal
    rw [he] at this; exact this
  | case5 c off pkt _ _ d hd c1 rc he hne ih =>
    obtain ⟨x, e, hx⟩ := (sendMessage_frame env c (fragMsg id off (decide (pkt.length > size)) d)).noRefusal
    rw [he] at e
    obtain ⟨y, e2, hy⟩ := ih
    exact ⟨y ++ x, by rw [e2, e]; simp, hy.append hx⟩

/-- The result of a call whose packet is refused on entry. -/
def RefusedAs (c : Conn) (res : Conn × RC) : Prop :=
  ∃ p r passed, r ≠ PluginRet.success ∧ (∀ e ∈ passed, ∃ q, e = Effect.pluginIngress q .success) ∧
    res = ({ c with log := .pluginIngress p r :: passed ++ c.log }, if r = .drop then .success else .failed)

theorem insidePacket_entry (env : Env) (c : Conn) (pkt : Bytes) :
    (∃ x, (insidePacket env c pkt).1.log = x ++ c.log ∧ NoRefusal x) ∨ RefusedAs c (insidePacket env c pkt) := by
  have none : ∃ x, c.log = x ++ c.log ∧ NoRefusal x := ⟨[], rfl, by simp [NoRefusal]⟩
  unfold insidePacket
  split
  · exact .inl none
  split
  · exact .inl none
  simp only
  by_cases hcap : pkt.length > sizeSub c.outsideMtu packetOverhead
  · rw [if_pos hcap]; exact .inl none
  rw [if_neg hcap]
  split
  · exact .inl none
  split
  · exact .inl ⟨[_], rfl, by simp [NoRefusal]⟩
  rename_i q rc _
  split
  · exact .inl none
  generalize effectivePmtu c = pm
  generalize sizeSub c.outsideMtu packetOverhead = cap
  obtain ⟨l, e, h⟩ := c.insidePlugins.ingress_runs c.log q cap
  generalize c.insidePlugins.ingress c.log q cap = res at e h ⊢
  obtain ⟨lg, q2, v⟩ := res
  dsimp only at e h ⊢
  subst e
  rcases h with ⟨hl, rfl⟩ | ⟨p, r, l', rfl, h1, rfl, hl⟩
  · left
    rw [if_neg (by simp), if_neg (by simp)]
    have hno := NoRefusal.passed hl
    have ext : ∀ d : Conn, (∃ x, d.log = x ++ (l ++ c.log) ∧ NoRefusal x) → ∃ x, d.log = x ++ c.log ∧ NoRefusal x := by
      rintro d ⟨x, e, hx⟩
      exact ⟨x ++ l, by rw [e]; simp, hx.append hno⟩
    have stay : ∃ x, l ++ c.log = x ++ c.log ∧ NoRefusal x := ⟨l, rfl, hno⟩
    split
    · exact stay
    split
    · split
      · exact stay
      · exact ext _ (sendMessage_frame env _ _).noRefusal
    · unfold fragAndSend
      dsimp only
      split
      · exact stay
      · exact ext _ (fragLoop_noRefusal env _ _ { c with log := l ++ c.log, fragNextId := _ } 0 q2)
  · right
    refine ⟨p, r, l', h1, hl, ?_⟩
    cases r with
    | success => exact absurd rfl h1
    | drop => rfl
    | fail => rfl

theorem outsideData_entry (env : Env) (c : Conn) (buf : Bytes) (reads : List ReadRes)
    (hi : Inv env (some .outsideData) c) (hj : ∃ old, c.log = .api .outsideData :: old) :
    (∃ x, (outsideData env c buf reads).1.log = x ++ c.log ∧ NoRefusal x) ∨ RefusedAs c (outsideData env c buf reads) := by
  have none : ∃ x, c.log = x ++ c.log ∧ NoRefusal x := ⟨[], rfl, by simp [NoRefusal]⟩
  have hst := outsideData_star env c buf reads hi hj
  have hj' : JustCalled .outsideData c.log := by obtain ⟨old, h⟩ := hj; exact ⟨[], old, h, by simp⟩
  have hS := ingress_star env .outsideData c c.outsidePlugins buf buf.length hj'
  unfold outsideData
  split
  · exact .inl none
  rename_i hs
  have hs := not_or.mp hs
  dsimp only
  obtain ⟨l, e, h⟩ := c.outsidePlugins.ingress_runs c.log buf buf.length
  generalize c.outsidePlugins.ingress c.log buf buf.length = res at e h hS ⊢
  obtain ⟨lg, q, v⟩ := res
  dsimp only at e h hS ⊢
  subst e
  rcases h with ⟨hl, rfl⟩ | ⟨p, r, l', rfl, h1, rfl, hl⟩
  · left
    rw [if_neg (by simp), if_neg (by simp)]
    have hno := NoRefusal.passed hl
    have stay : ∃ x, l ++ c.log = x ++ c.log ∧ NoRefusal x := ⟨l, rfl, hno⟩
    have hi1 := hS.inv hi
    have hj1 : JustCalled .outsideData (l ++ c.log) := by
      obtain ⟨y, old, e, hy⟩ := hj'
      refine ⟨l ++ y, old, by simp [e], fun z hz => ?_⟩
      rcases List.mem_append.mp hz with h | h
      · exact hl z h
      · exact hy z h
    have ext : ∀ d d2 : Conn, (∃ s b, d.log = .input s b :: (l ++ c.log)) → M env .outsideData d d2 →
        ∃ x, d2.log = x ++ c.log ∧ NoRefusal x := by
      rintro d d2 ⟨s, b, hd⟩ h
      obtain ⟨x, e, _, hx⟩ := h.adds
      refine ⟨x ++ .input s b :: l, by rw [e, hd]; simp, (NoRefusal.none fun e he h => ?_).append ?_⟩
      · have := hx e he h
        rw [hd] at this
        exact not_justCalled_input this
      · intro _ _ h
        simp only [List.mem_cons, reduceCtorEq, false_or] at h
        exact hno _ _ h
    split
    · exact stay
    split
    · rename_i hct
      unfold outsidePacket
      split
      · exact stay
      rename_i hlen
      rw [rd_isSome (by omega), rd_isSome (by omega), rd_isSome (by omega), rd_isSome (by omega)]
      dsimp only
      split
      · exact stay
      split
      · exact stay
      split
      · exact stay
      generalize List.take (q.length - 16) (List.drop 16 q) = body
      generalize hse : rdLe (List.take 8 (List.drop 8 q)) = sess
      generalize hc1 : ({ c with log := l ++ c.log } : Conn) = c1 at hi1 ⊢
      have hl1 : c1.log = l ++ c.log := by rw [← hc1]
      have hs1 : c1.state = c.state := by rw [← hc1]
      have hct1 : c1.connType = .datagram := by rw [← hc1]; exact hct
      rw [← hl1] at hj1
      clear hc1
      have d1 : MO env c1 { c1.emit (.input sess body) with incoming := some body, packetSeen := false } :=
        .one (.dgram c1 sess body rfl hj1 hct1)
      have hi2 := d1.inv hi1
      generalize hc2 : ({ c1.emit (.input sess body) with incoming := some body, packetSeen := false } : Conn) = c2 at *
      have hl2 : c2.log = .input sess body :: (l ++ c.log) := by rw [← hc2, ← hl1]; rfl
      have hs2 : c2.state = c.state := by rw [← hc2]; exact hs1
      have v := verifyConnection_star env c2 reads hi2 (by rw [hs2]; exact hs)
      obtain ⟨x, hx, hno2⟩ := ext c2 _ ⟨_, _, hl2⟩ v
      generalize verifyConnection env c2 reads = res at v hx ⊢
      obtain ⟨c3, rc⟩ := res
      dsimp only at v hx ⊢
      split
      · exact ⟨x, hx, hno2⟩
      · unfold updateSessionIncoming
        split
        · exact ⟨x, hx, hno2⟩
        · split
          · split
            · exact ⟨x, hx, hno2⟩
            · split
              · refine ⟨.event .pendingSessionAcknowledged c3.cbs.event :: x, by show _ :: c3.log = _; rw [hx]; rfl, ?_⟩
                intro p r h
                simp only [List.mem_cons, reduceCtorEq, false_or] at h
                exact hno2 p r h
              · exact ⟨x, hx, hno2⟩
          · exact ⟨x, hx, hno2⟩
    · rename_i hct
      unfold outsideStream setupStreamState
      by_cases hle : ¬c.streamLeft.length = 0
      · simp only [hle, ne_eq, not_false_eq_true, if_true]
        simp only [reduceCtorEq, not_false_eq_true, if_true]
        exact stay
      · simp only [Decidable.not_not.mp hle, ne_eq, not_true_eq_false, if_false]
        have hle : c.streamLeft = [] := List.length_eq_zero_iff.mp (by simpa using hle)
        generalize hc1 : ({ c with log := l ++ c.log } : Conn) = c1 at hi1 ⊢
        have hl1 : c1.log = l ++ c.log := by rw [← hc1]
        have hs1 : c1.state = c.state := by rw [← hc1]
        have hct1 : c1.connType = .stream := by rw [← hc1]; exact hct
        have hle1 : c1.streamLeft = [] := by rw [← hc1]; exact hle
        rw [← hl1] at hj1
        clear hc1
        have d1 : MO env c1 { c1.emit (.input 0 q) with incoming := some q, streamLeft := q } :=
          .one (.stream c1 q rfl hj1 hle1 hct1)
        have hi2 := d1.inv hi1
        generalize hc2 : ({ c1.emit (.input 0 q) with incoming := some q, streamLeft := q } : Conn) = c2 at *
        have hl2 : c2.log = .input 0 q :: (l ++ c.log) := by rw [← hc2, ← hl1]; rfl
        have hs2 : c2.state = c.state := by rw [← hc2]; exact hs1
        exact ext c2 _ ⟨_, _, hl2⟩ (verifyConnection_star env c2 reads hi2 (by rw [hs2]; exact hs))
  · right
    refine ⟨p, r, l', h1, hl, ?_⟩
    cases r with
    | success => exact absurd rfl h1
    | drop => rfl
    | fail => rfl

/-! ## The property -/

/-- **C71.**  Directly after a plugin refused a packet (drop or fail), nothing is written to the inside
or to the network, nothing is handed to the TLS library, and no other plugin sees the packet. -/
theorem C71_refused_goes_nowhere (env : Env) (ops : List Op) {newer older : Log} {e : Effect}
    (h : (run env ops).log = newer ++ e :: older) (hm : MovesOn e) : ¬Vetoed older := by
  have key : AllAt Stopped (run env ops).log := by
    refine run_induct (P := fun c => AllAt Stopped c.log) (Q := fun _ => True) trivial ?_ ops (fun _ _ => trivial)
    intro c op _ hg hc
    obtain ⟨⟨ap, hi⟩, _⟩ := hg
    obtain ⟨x, e, hx, _⟩ := (exec_star env ap c op hi).adds
    show AllAt Stopped (.ret _ :: (exec env (c.emit (.api op.api)) op).1.log)
    exact ⟨fun h => h.elim, hx (by rw [entry_log]; exact ⟨fun h => h.elim, hc⟩)⟩
  exact key.at h hm

/-- **C71.**  A packet given to the connection from the inside or from the network and refused by an
ingress plugin ends the call: the plugins before the refusing one ran, nothing else happened, nothing
about the connection changed, and the call returns success (drop) or failure (fail). -/
theorem C71_refusal_ends_the_call (env : Env) (ops : List Op) (op : Op)
    (hop : (∃ pkt, op = .insidePacket pkt) ∨ ∃ buf reads, op = .outsideData buf reads)
    {x : Log} (hx : (run env (ops ++ [op])).log = x ++ (run env ops).log)
    {p : Bytes} {r : PluginRet} (hm : .pluginIngress p r ∈ x) (hr : r ≠ .success) :
    ∃ passed, (∀ e ∈ passed, ∃ q, e = .pluginIngress q .success) ∧
      x = .ret (if r = .drop then .success else .failed) :: .pluginIngress p r :: passed ++ [.api op.api] ∧
      step env (run env ops) op =
        ({ run env ops with log := x ++ (run env ops).log }, if r = .drop then .success else .failed) := by
  rw [run_snoc] at hx
  obtain ⟨⟨ap, hi⟩, _⟩ := run_good env ops
  generalize run env ops = c at *
  have hi := entry_inv hi op
  have key : (∃ y, (exec env (c.emit (.api op.api)) op).1.log = y ++ (c.emit (.api op.api)).log ∧ NoRefusal y) ∨
      RefusedAs (c.emit (.api op.api)) (exec env (c.emit (.api op.api)) op) := by
    rcases hop with ⟨pkt, rfl⟩ | ⟨buf, reads, rfl⟩
    · exact insidePacket_entry env _ pkt
    · exact outsideData_entry env _ buf reads hi ⟨_, rfl⟩
  have hst : step env c op = (((exec env (c.emit (.api op.api)) op).1.emit (.ret (exec env (c.emit (.api op.api)) op).2)),
    (exec env (c.emit (.api op.api)) op).2) := rfl
  rw [hst] at hx ⊢
  generalize exec env (c.emit (.api op.api)) op = res at hx key ⊢
  rcases key with ⟨y, e, hy⟩ | ⟨p', r', passed, h1, h2, e⟩
  · exfalso
    have hx : Effect.ret res.2 :: res.1.log = x ++ c.log := hx
    rw [e] at hx
    have : x = .ret res.2 :: (y ++ [.api op.api]) := by
      refine List.append_cancel_right (bs := c.log) ?_
      rw [← hx]; simp [Conn.emit]
    rw [this] at hm
    simp only [List.mem_cons, List.mem_append, reduceCtorEq, false_or, List.not_mem_nil, or_false] at hm
    exact hr (hy p r hm)
  · subst e
    have hx : Effect.ret _ :: (Effect.pluginIngress p' r' :: passed ++ .api op.api :: c.log) = x ++ c.log := hx
    have hxe : x = .ret (if r' = .drop then .success else .failed) :: .pluginIngress p' r' :: passed ++ [.api op.api] := by
      refine List.append_cancel_right (bs := c.log) ?_
      rw [← hx]; simp
    have : p = p' ∧ r = r' := by
      rw [hxe] at hm
      simp only [List.mem_cons, List.mem_append, reduceCtorEq, false_or, List.not_mem_nil, or_false,
        List.cons_append, Effect.pluginIngress.injEq] at hm
      rcases hm with h | h
      · exact h
      · obtain ⟨q, e⟩ := h2 _ h
        cases e
        exact absurd rfl hr
    obtain ⟨rfl, rfl⟩ := this
    refine ⟨passed, h2, hxe, ?_⟩
    rw [← hx]
    rfl

namespace Demo

/-- Refuses packets from the inside whose length is 28, and lets everything else pass. -/
def picky : Plugin :=
  { ingress := some (fun _ p _ => (if p.length = 28 then .drop else .success, p)),
    egress := some (fun _ p _ => (if p.length = 28 then .fail else .success, p)) }

/-- A client with two inside plugins, online. -/
def pickyOps : List Op :=
  [ .setUsername [106, 111, 101], .setPassword [112, 119], .setOutsideMtu 1500,
    .clientConnect ctx [some ⟨some (fun _ p _ => (.success, p)), none⟩, some picky] [],
    .outsideData (dgram [1, 2, 3]) [],
    .outsideData (dgram [9]) [msg (configIpv4Msg 4242 netCfg)] ]

def isDrop : Effect → Bool
  | .pluginIngress p .drop => p == ipPkt
  | _ => false

end Demo

/-- Not vacuous: the second plugin drops the packet; the call says success; nothing is sent. -/
example : Demo.newPart Demo.env (run Demo.env Demo.pickyOps) (.insidePacket Demo.ipPkt) =
    [.ret .success, .pluginIngress Demo.ipPkt .drop, .pluginIngress Demo.ipPkt .success, .api .insidePacket] := by
  decide +kernel

example : (run Demo.env Demo.pickyOps).state = .online := by decide +kernel

/-- A delivered packet refused by the inside plugins: the refusal is recorded, the call fails, and
nothing is written. -/
example : ((run Demo.env (Demo.pickyOps ++
      [.outsideData (Demo.dgram [7]) [Demo.msg ([5, 0, 28] ++ Demo.ipPkt)]])).log).take 3 =
      [.ret .failed, .pluginEgress Demo.ipPkt .fail, .message ([5, 0, 28] ++ Demo.ipPkt)] := by decide +kernel

end Lightway
