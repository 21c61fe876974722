import Verif.Proofs.Nested3
import Verif.Proofs.ReenterId
import Verif.Props.Demo

/-!
# Hosts that call the library from inside their callbacks
`runNested env host n ops` is a history in which the host reacts to any callback it gets, knowing everything that
happened so far, with any list of calls, and to the callbacks of those calls again, at most `n` deep; `n` is arbitrary.
With a host that makes no such calls it is the history of the other theorems (`reentrant_conforms`).
-/

namespace Lightway
open Spec

/-- A host that makes no calls from callbacks has the histories of the main model. -/
theorem reentrant_conforms (env : Env) (n : Nat) (ops : List Op) : runNested env (fun _ => []) n ops = run env ops :=
  runNested_silent env n ops

theorem nested_at {act : Prop} {env : Env} {host : Log → List Op} {n : Nat} {ops : List Op} {newer older : Log} {e : Effect}
    (hh : ∀ l, Sensitive l → act ∨ host l = []) (h : (runNested env host n ops).log = newer ++ e :: older) :
    NestPermitted act (EnvOk env) e older := (runNested_inv host hh n ops).all.at h

/-! ## C93 -/

/-- **C93.** Whatever calls the host makes from its callbacks: a tunnel packet is delivered only while the last
announced state is ONLINE, through an installed callback, and as the handling of a tunnel-data message. -/
theorem C93_inside_only_online {env : Env} {host : Log → List Op} {n : Nat} {ops : List Op} {newer older : Log} {p : Bytes}
    (h : (runNested env host n ops).log = newer ++ .insideWrite p :: older) :
    stateAt older = .online ∧ (registered older).insideWrite = true ∧
    ∃ x pkt old, older = x ++ .message pkt :: old ∧ (∀ e ∈ x, Handling e) ∧
      (pkt.head? = some 5 ∨ pkt.head? = some 13 ∨ pkt.head? = some 15) := by
  have := nested_at (act := True) (fun _ _ => .inl trivial) h
  exact ⟨this.2.1, this.1, this.2.2⟩

/-- **C93.** Every callback that runs is one that is installed at that moment. -/
theorem C93_callbacks_installed {env : Env} {host : Log → List Op} {n : Nat} {ops : List Op} {newer older : Log} {e : Effect}
    (h : (runNested env host n ops).log = newer ++ e :: older) : CbOk (registered older) e :=
  (nested_at (act := True) (fun _ _ => .inl trivial) h).1

/-- **C93.** ONLINE is announced only after an AUTH message was accepted by the host, which then supplied a network
configuration, or after a CONFIG_IPV4 message that arrived while AUTHENTICATING was announced and accepted; in
between lie only the calls the host made from the callbacks concerned. -/
theorem C93_online_justified {env : Env} {host : Log → List Op} {n : Nat} {ops : List Op} {newer older : Log} {b : Bool}
    (h : (runNested env host n ops).log = newer ++ .state .online b :: older) : ConfigTaken older ∨ LoggedIn older :=
  ((nested_at (act := True) (fun _ _ => .inl trivial) h).2.2).imp And.left id

/-- Where the mark of the call lies in which a moment of a history belongs. -/
def callMark : Nat → Log → Option Log
  | _, [] => none
  | d, .ret _ :: l => callMark (d + 1) l
  | 0, .api a :: l => some (.api a :: l)
  | d + 1, .api _ :: l => callMark d l
  | d, _ :: l => callMark d l

theorem callMark_inner {x : List Effect} (h : Inner x) : ∀ (d : Nat) (l : Log), callMark d (x ++ l) = callMark d l := by
  induction h with
  | nil => intro d l; rfl
  | @eff e x ha hr _ ih =>
    intro d l
    have : callMark d (e :: (x ++ l)) = callMark d (x ++ l) := by
      cases e <;> first | rfl | exact absurd rfl (ha _) | exact absurd rfl (hr _) | cases d <;> rfl
    rw [List.cons_append, this, ih]
  | @call r a x y _ _ ih1 ih2 =>
    intro d l
    show callMark (d + 1) ((x ++ .api a :: y) ++ l) = _
    rw [List.append_assoc, ih1]
    exact ih2 d l

/-- The call that a moment belongs to is unique. -/
theorem Spec.Inner.unique {x x' : List Effect} {a a' : Api} {old old' : Log} (h : Inner x) (h' : Inner x')
    (e : x ++ Effect.api a :: old = x' ++ .api a' :: old') : x = x' ∧ a = a' ∧ old = old' := by
  have h1 := callMark_inner h 0 (.api a :: old)
  have h2 := callMark_inner h' 0 (.api a' :: old')
  rw [e, h2] at h1
  have h3 : Effect.api a' :: old' = .api a :: old := Option.some.inj h1
  rw [h3] at e
  have := List.append_cancel_right e
  injection h3 with h4 h5
  injection h4 with h4
  exact ⟨this, h4.symm, h5.symm⟩

theorem off_until_role {act sane : Prop} {b : Callbacks} {old : Log} (hb : b.insideWrite = false ∧ b.outsideWrite = false)
    (y : List Effect) (h : AllAt (NestPermitted act sane) (y ++ .callbacks b :: old)) (hr : ∀ r, Effect.role r ∉ y) :
    (registered (y ++ .callbacks b :: old)).insideWrite = false ∧
    (registered (y ++ .callbacks b :: old)).outsideWrite = false := by
  induction y with
  | nil => exact hb
  | cons e y ih =>
    have ih := ih h.2 (fun r hm => hr r (List.mem_cons_of_mem _ hm))
    cases e with
    | callbacks b' =>
      rcases h.1.2 with h | ⟨r, rest, h⟩
      · exact h
      · cases y with
        | nil => cases h
        | cons e y =>
          have h : e :: (y ++ Effect.callbacks b :: old) = .role r :: rest := h
          injection h with h
          exact absurd (by rw [h]; simp) (hr r)
    | _ => exact ih

/-- **C93.** Once a disconnect call has succeeded, wherever it was made from, neither write callback runs again before a
later connect call takes effect: the call removes both callbacks (the entry `.callbacks cb`), and any write after that
is preceded by the `.role` entry of a connect call that is still later. -/
theorem C93_disconnect_silences {env : Env} {host : Log → List Op} {n : Nat} {ops : List Op} {newer mid x older : Log}
    {e : Effect} (hx : Inner x) (he : (∃ p, e = .insideWrite p) ∨ ∃ p r, e = .outsideWrite p r)
    (h : (runNested env host n ops).log = newer ++ e :: (mid ++ .ret .success :: (x ++ .api .disconnect :: older))) :
    ∃ y cb z, x = y ++ .callbacks cb :: z ∧ cb.insideWrite = false ∧ cb.outsideWrite = false ∧
      ∃ r, Effect.role r ∈ mid ∨ Effect.role r ∈ y := by
  have hret := nested_at (act := True) (fun _ _ => .inl trivial)
    (newer := newer ++ e :: mid) (e := .ret .success) (older := x ++ .api .disconnect :: older) (by rw [h]; simp)
  obtain ⟨x', a, old, hx', ix', hm⟩ := hret.2
  obtain ⟨rfl, rfl, rfl⟩ := hx.unique ix' hx'
  obtain ⟨y, cb, z, rfl, _, _, hi, ho⟩ := hm rfl rfl
  refine ⟨y, cb, z, rfl, hi, ho, ?_⟩
  apply Classical.byContradiction
  intro hno
  have hall := (runNested_inv (env := env) (act := True) host (fun _ _ => .inl trivial) n ops).all
  have hp := nested_at (act := True) (fun _ _ => .inl trivial) h
  have hall2 : ∀ (u v : Log), AllAt (NestPermitted True (EnvOk env)) (u ++ v) → AllAt (NestPermitted True (EnvOk env)) v := by
    intro u v hu
    induction u with
    | nil => exact hu
    | cons _ _ ih => exact ih hu.2
  rw [h] at hall
  have hall := (hall2 _ _ hall).2
  have hw : mid ++ Effect.ret .success :: (y ++ .callbacks cb :: z ++ .api .disconnect :: older) =
      (mid ++ .ret .success :: y) ++ .callbacks cb :: (z ++ .api .disconnect :: older) := by simp
  rw [hw] at hall hp
  have hoff := off_until_role ⟨hi, ho⟩ _ hall (by
    intro r hr
    apply hno
    refine ⟨r, ?_⟩
    simpa using hr)
  rcases he with ⟨p, rfl⟩ | ⟨p, r, rfl⟩
  · have : (registered ((mid ++ Effect.ret .success :: y) ++ .callbacks cb :: (z ++ .api .disconnect :: older))).insideWrite = true := hp.1
    rw [hoff.1] at this; cases this
  · have : (registered ((mid ++ Effect.ret .success :: y) ++ .callbacks cb :: (z ++ .api .disconnect :: older))).outsideWrite = true := hp.1
    rw [hoff.2] at this; cases this

namespace ReDemo

/-- A host that answers the first tunnel packet it is given by disconnecting, and DISCONNECTED by connecting again. -/
def quitter : Log → List Op
  | .insideWrite _ :: _ => [.disconnect]
  | .state .disconnected _ :: _ => [.clientConnect Demo.ctx [] []]
  | _ => []

/-- A client that receives two tunnel packets in one datagram. -/
def twoPackets : List Op :=
  Demo.clientOps ++ [.outsideData (Demo.dgram [9])
    [Demo.msg ([5, 0, 28] ++ Demo.ipPkt), Demo.msg ([5, 0, 28] ++ Demo.ipPkt)]]

/-- Only the first of the two packets is delivered. -/
example : Demo.occurs (fun e _ => match e with | .insideWrite p => p == Demo.ipPkt | _ => false)
    (runNested Demo.env quitter 3 twoPackets).log = true ∧
    (runNested Demo.env quitter 3 twoPackets).log.countP (fun e => match e with | .insideWrite _ => true | _ => false) = 1 ∧
    Demo.occurs (fun e l => (match e with | .outsideWrite .. => true | _ => false) &&
      Demo.occurs (fun e _ => Demo.toState .disconnected e) l) (runNested Demo.env quitter 3 twoPackets).log = true := by
  decide +kernel

/-- A host that disconnects when it is given the network configuration. -/
def dropper : Log → List Op
  | .netConfig .. :: _ => [.disconnect]
  | _ => []

/-- A server host that disconnects when it is given a tunnel packet. -/
def serverQuitter : Log → List Op
  | .insideWrite _ :: _ => [.disconnect]
  | _ => []

/-- A server that receives, in one datagram, a tunnel packet and the credentials once more. -/
def packetAndAuth : List Op :=
  Demo.serverOps ++ [.outsideData (Demo.dgram [9])
    [Demo.msg ([5, 0, 28] ++ Demo.ipPkt),
     Demo.msg (authUserPassMsg { username := [106, 111, 101] ++ zeros 48, password := [112, 119] ++ zeros 49 })]]

/-- A host that, while it decides on the credentials of a client, connects elsewhere with the same connection. -/
def turncoat : Log → List Op
  | .authUserPass .. :: _ =>
    [.setUsername [106], .setPassword [112], .clientConnect { Demo.ctx with cbs := { Demo.allCbs with populate := false } } [] []]
  | _ => []

end ReDemo

/-! ## C94 -/

/-- ONLINE is announced after a disconnect call had succeeded, although no connect call was made since. -/
def Undone (l : Log) : Prop :=
  ∃ newer b mid x older, l = newer ++ .state .online b :: (mid ++ .ret .success :: (x ++ .api .disconnect :: older)) ∧
    (∀ a, Effect.api a ∉ x) ∧ ∀ r, Effect.role r ∉ newer ∧ Effect.role r ∉ mid ∧ Effect.role r ∉ x

namespace ReDemo

def isRole : Effect → Bool
  | .role _ => true
  | _ => false

def inDisconnect : Log → Bool
  | [] => false
  | .api a :: _ => a == .disconnect
  | .role _ :: _ => false
  | _ :: l => inDisconnect l

def afterDisconnect : Log → Bool
  | [] => false
  | e :: l => !isRole e && ((match e with | .ret r => r == .success && inDisconnect l | _ => false) || afterDisconnect l)

def undone : Log → Bool
  | [] => false
  | e :: l => !isRole e && ((Demo.toState .online e && afterDisconnect l) || undone l)

theorem inDisconnect_spec {l : Log} (h : inDisconnect l = true) :
    ∃ x older, l = x ++ .api .disconnect :: older ∧ (∀ a, Effect.api a ∉ x) ∧ ∀ r, Effect.role r ∉ x := by
  induction l with
  | nil => cases h
  | cons e l ih =>
    by_cases ha : ∃ a, e = .api a
    · obtain ⟨a, rfl⟩ := ha
      have : a = .disconnect := by simpa [inDisconnect] using h
      subst this
      exact ⟨[], l, rfl, by simp, by simp⟩
    · have hr : ∀ r, e ≠ .role r := by rintro r rfl; cases h
      have h' : inDisconnect l = true := by
        cases e <;> first | exact h | exact absurd ⟨_, rfl⟩ ha | exact absurd rfl (hr _)
      obtain ⟨x, older, rfl, h1, h2⟩ := ih h'
      refine ⟨e :: x, older, rfl, fun a hm => ?_, fun r hm => ?_⟩
      · rcases List.mem_cons.mp hm with h | h
        · exact ha ⟨a, h.symm⟩
        · exact h1 a h
      · rcases List.mem_cons.mp hm with h | h
        · exact hr r h.symm
        · exact h2 r h

theorem afterDisconnect_spec {l : Log} (h : afterDisconnect l = true) :
    ∃ mid x older, l = mid ++ .ret .success :: (x ++ .api .disconnect :: older) ∧ (∀ a, Effect.api a ∉ x) ∧
      ∀ r, Effect.role r ∉ mid ∧ Effect.role r ∉ x := by
  induction l with
  | nil => cases h
  | cons e l ih =>
    simp only [afterDisconnect, Bool.and_eq_true, Bool.or_eq_true] at h
    obtain ⟨hr, h | h⟩ := h
    · cases e <;> simp only [Bool.and_eq_true, beq_iff_eq, Bool.false_eq_true] at h
      obtain ⟨rfl, h⟩ := h
      obtain ⟨x, older, rfl, h1, h2⟩ := inDisconnect_spec h
      exact ⟨[], x, older, rfl, h1, fun r => ⟨by simp, h2 r⟩⟩
    · obtain ⟨mid, x, older, rfl, h1, h2⟩ := ih h
      refine ⟨e :: mid, x, older, rfl, h1, fun r => ⟨fun hm => ?_, (h2 r).2⟩⟩
      rcases List.mem_cons.mp hm with h | h
      · rw [← h] at hr; cases hr
      · exact (h2 r).1 h

theorem undone_spec {l : Log} (h : undone l = true) : Undone l := by
  induction l with
  | nil => cases h
  | cons e l ih =>
    simp only [undone, Bool.and_eq_true, Bool.or_eq_true] at h
    obtain ⟨hr, h | h⟩ := h
    · obtain ⟨ho, h⟩ := h
      cases e <;> simp only [Demo.toState, beq_iff_eq, Bool.false_eq_true] at ho
      subst ho
      obtain ⟨mid, x, older, rfl, h1, h2⟩ := afterDisconnect_spec h
      exact ⟨[], _, mid, x, older, rfl, h1, fun r => ⟨by simp, h2 r⟩⟩
    · obtain ⟨newer, b, mid, x, older, rfl, h1, h2⟩ := ih h
      refine ⟨e :: newer, b, mid, x, older, rfl, h1, fun r => ⟨fun hm => ?_, (h2 r).2⟩⟩
      rcases List.mem_cons.mp hm with h | h
      · rw [← h] at hr; cases hr
      · exact (h2 r).1 h

end ReDemo

/-- **C94 fails for clients**: a successful disconnect made from the network configuration callback is undone; the
connection is announced ONLINE afterwards and stays so. -/
theorem C94_undone_client : ∃ (host : Log → List Op) (ops : List Op),
    Undone (runNested Demo.env host 1 ops).log ∧ (runNested Demo.env host 1 ops).state = .online ∧
    (runNested Demo.env host 1 ops).isServer = false :=
  ⟨ReDemo.dropper, Demo.clientOps, ReDemo.undone_spec (by decide +kernel), by decide +kernel, by decide +kernel⟩

/-- **C94 fails for servers**: a successful disconnect made while a tunnel packet is delivered is undone by an AUTH message
in the same datagram. -/
theorem C94_undone_server : ∃ (host : Log → List Op) (ops : List Op),
    Undone (runNested Demo.env host 1 ops).log ∧ (runNested Demo.env host 1 ops).state = .online ∧
    (runNested Demo.env host 1 ops).isServer = true :=
  ⟨ReDemo.serverQuitter, ReDemo.packetAndAuth, ReDemo.undone_spec (by decide +kernel), by decide +kernel, by decide +kernel⟩

/-- The life cycle of a client, with the reasons for each step. -/
def ClientStep (l : Log) (s : ConnState) : Prop :=
  match s with
  | .none => False
  | .connecting => ∃ x b old, l = x ++ .role b :: old ∧ ∀ e ∈ x, ConnectEff e
  | .linkUp => stateAt l = .connecting ∧ Negotiated l
  | .authenticating => stateAt l = .linkUp
  | .configuring => stateAt l = .authenticating ∧ ∃ pkt rest, l = .message pkt :: rest ∧ IsConfigMsg pkt
  | .online => stateAt l = .configuring ∧ ConfigTaken l
  | .disconnecting => stateAt l = .linkUp ∨ stateAt l = .authenticating ∨ stateAt l = .configuring ∨ stateAt l = .online
  | .disconnected => True

theorem serverAt_role {l : Log} (h : serverAt l = true) : Effect.role true ∈ l := by
  induction l with
  | nil => cases h
  | cons e l ih =>
    cases e with
    | role b => cases (show b = true from h); exact List.mem_cons_self
    | _ => exact List.mem_cons_of_mem _ (ih h)

/-- **C94 (partial).** A client whose host makes no calls from the network configuration callback nor from the callbacks
that announce CONNECTING and CONFIGURING, whatever calls it makes from all the others: every announced state is a new
one and follows the life cycle.  In particular DISCONNECTED, and so a disconnect, is left only by a connect call. -/
theorem C94_life_cycle_partial {env : Env} {host : Log → List Op} {n : Nat} {ops : List Op} {newer older : Log}
    {s : ConnState} {b : Bool} (hcalm : ∀ l, Sensitive l → host l = [])
    (hclient : Effect.role true ∉ (runNested env host n ops).log)
    (h : (runNested env host n ops).log = newer ++ .state s b :: older) :
    stateAt older ≠ s ∧ ClientStep older s := by
  have hno : ∀ l, (∃ x, older = x ++ l) → serverAt l = true → False := by
    rintro l ⟨x, hx⟩ hs
    apply hclient
    rw [h, hx]
    have := serverAt_role hs
    simp [this]
  have hp := (nested_at (act := False) (fun l hl => .inr (hcalm l hl)) h).2
  refine ⟨hp.1, ?_⟩
  have hp := hp.2
  cases s with
  | none => exact hp
  | connecting =>
    obtain ⟨x, b, old, hx, _, hc⟩ := hp
    exact ⟨x, b, old, hx, hc.resolve_left id⟩
  | linkUp => exact ⟨hp.2.resolve_left id, hp.1⟩
  | authenticating => exact hp.1
  | configuring => exact ⟨hp.1, hp.2.2⟩
  | online =>
    rcases hp with ⟨h1, h2⟩ | ⟨sent, y, l', h1, _, _, y', e, pkt, old, h2, _, _, _, h3⟩
    · exact ⟨h2.resolve_left id, h1⟩
    · exact (hno old ⟨sent ++ (y ++ .populate .success :: (y' ++ e :: [.message pkt])), by rw [h1, h2]; simp⟩ h3).elim
  | disconnecting =>
    rcases hp with h | ⟨x, pkt, old, h1, _, _, h3⟩
    · exact h
    · exact (hno old ⟨x ++ [.message pkt], by rw [h1]; simp⟩ h3).elim
  | disconnected => trivial

/-- The hypotheses are met by a host that disconnects when it is given a tunnel packet and reconnects from there. -/
example : (∀ l, Sensitive l → ReDemo.quitter l = []) ∧
    (runNested Demo.env ReDemo.quitter 3 ReDemo.twoPackets).log.all (fun e => match e with | .role b => !b | _ => true) = true ∧
    (runNested Demo.env ReDemo.quitter 3 ReDemo.twoPackets).state = .authenticating := by
  refine ⟨?_, by decide +kernel, by decide +kernel⟩
  intro l hl
  cases l with
  | nil => rfl
  | cons e l =>
    cases e <;> first | rfl | exact hl.elim | skip
    rename_i s b
    cases s <;> first | rfl | exact hl.elim

/-! ## C95 -/

/-- **C95.** Provided allocations and `wolfSSL_new` succeed, the only undefined behaviour a host can provoke by calling the
library from its callbacks is the assertion of pmtud.c, and the call of a populate callback that the host itself removed,
by a connect call, in the very authentication callback that accepted a client. -/
theorem C95_reentrant_safe {env : Env} {host : Log → List Op} {n : Nat} {ops : List Op} {newer older : Log} {s : String}
    (hok : EnvOk env) (h : (runNested env host n ops).log = newer ++ .ub s :: older) : UbSite older s :=
  (nested_at (act := True) (fun _ _ => .inl trivial) h).2 hok

/-- **C95.** The second of these can happen. -/
theorem C95_populate_removed : ∃ (host : Log → List Op) (ops : List Op),
    Effect.ub "populate callback removed" ∈ (runNested Demo.env host 1 ops).log :=
  ⟨ReDemo.turncoat, Demo.serverOps, by decide +kernel⟩

/-- **C95.** A host all of whose contexts have a populate callback is safe, but for the assertion. -/
theorem C95_safe_if_populate {env : Env} {host : Log → List Op} {n : Nat} {ops : List Op} {newer older : Log} {s : String}
    (hok : EnvOk env) (hp : ∀ b, Effect.callbacks b ∈ (runNested env host n ops).log → b.populate = true)
    (h : (runNested env host n ops).log = newer ++ .ub s :: older) : s = "pmtud.c:184 assert" := by
  rcases C95_reentrant_safe hok h with h1 | ⟨_, hacc, hpop⟩
  · exact h1
  · exfalso
    have hreg : ∀ l, (∃ x, (runNested env host n ops).log = x ++ l) → (∃ b, Effect.callbacks b ∈ l) →
        (registered l).populate = true := by
      intro l
      induction l with
      | nil => rintro _ ⟨b, hb⟩; cases hb
      | cons e l ih =>
        rintro ⟨x, hx⟩ ⟨b, hb⟩
        by_cases hc : ∃ b, e = .callbacks b
        · obtain ⟨b, rfl⟩ := hc
          exact hp b (by rw [hx]; simp)
        · have : registered (e :: l) = registered l := by
            cases e <;> first | rfl | exact absurd ⟨_, rfl⟩ hc
          rw [this]
          refine ih ⟨x ++ [e], by rw [hx]; simp⟩ ⟨b, ?_⟩
          rcases List.mem_cons.mp hb with h | h
          · exact absurd ⟨b, h.symm⟩ hc
          · exact h
    obtain ⟨y, e, pkt, old, hl, _, ho, _, _⟩ := hacc
    have hinst := C93_callbacks_installed (env := env) (host := host) (n := n) (ops := ops)
      (newer := newer ++ .ub s :: y) (e := e) (older := .message pkt :: old) (by rw [h, hl]; simp)
    have hcb : ∀ l, (∃ b, Effect.callbacks b ∈ l) ∨ registered l = {} := by
      intro l
      induction l with
      | nil => exact .inr rfl
      | cons e l ih =>
        by_cases hc : ∃ b, e = .callbacks b
        · obtain ⟨b, rfl⟩ := hc; exact .inl ⟨b, List.mem_cons_self⟩
        · rcases ih with ⟨b, hb⟩ | ih
          · exact .inl ⟨b, List.mem_cons_of_mem _ hb⟩
          · right
            rw [← ih]
            cases e <;> first | rfl | exact absurd ⟨_, rfl⟩ hc
    have hsome : ∃ b, Effect.callbacks b ∈ old := by
      rcases hcb old with h | h
      · exact h
      · exfalso
        have : registered (.message pkt :: old) = {} := h
        rw [this] at hinst
        cases e <;> first | exact ho.elim | cases hinst
    obtain ⟨b, hb⟩ := hsome
    have := hreg older ⟨newer ++ [.ub s], by rw [h]; simp⟩ ⟨b, by rw [hl]; simp [hb]⟩
    rw [hpop] at this
    cases this

/-- The hypotheses are met by a host that makes calls from callbacks at several levels. -/
example : EnvOk Demo.env ∧ (runNested Demo.env ReDemo.quitter 3 ReDemo.twoPackets).log.all
    (fun e => match e with | .callbacks b => b.populate | _ => true) = true := ⟨Demo.envOk, by decide +kernel⟩

end Lightway
