import Verif.Props.Veto
import Verif.Props.Demo

/-!
# C102: the TLS layer is told what became of each record
-/

namespace Lightway
open Spec

/-- What the TLS layer is told when it asks for a record to be sent or for bytes to be read; `l` is the history
before the answer, so its newest entry is the last thing that happened to the record. -/
def Spec.ToldTrue : Effect → Log → Prop
  | .sslOut rec res, l =>
    (∀ p, l.head? = some (.pluginEgress p .drop) → res = some rec.length) ∧
    (∀ p, l.head? = some (.pluginEgress p .fail) → res = none) ∧
    (∀ p rc, l.head? = some (.outsideWrite p rc) → (res = none ↔ rc ≠ .success)) ∧
    (∀ k, res = some k → k = rec.length ∨ k = 1500 ∧ 1500 < rec.length) ∧
    (res = none → 1500 < rec.length + 16 ∨ (∃ p, l.head? = some (.pluginEgress p .fail)) ∨
      (∃ p, l.head? = some (.pluginEgress p .success)) ∨ ∃ p rc, l.head? = some (.outsideWrite p rc) ∧ rc ≠ .success)
  | .sslIn sz (.bytes b), _ => b.length ≤ sz
  | _, _ => True

/-- The newest entry of a history is a write. -/
def WriteHead (l : Log) : Prop := ∃ p rc, l.head? = some (.outsideWrite p rc)

theorem toldTrue_other {e : Effect} (h : ¬NetEff e) (l : Log) : ToldTrue e l := by
  cases e <;> first | trivial | exact absurd trivial h

theorem toldTrue_write (p : Bytes) (rc : RC) (l : Log) : ToldTrue (.outsideWrite p rc) l := trivial

/-- What holds between the steps. -/
structure Told (l : Log) : Prop where
  all : AllAt ToldTrue l
  head : ¬WriteHead l

theorem Told.cons {l : Log} (h : Told l) {e : Effect} (he : ¬NetEff e) : Told (e :: l) := by
  refine ⟨⟨toldTrue_other he l, h.all⟩, ?_⟩
  rintro ⟨p, rc, h⟩
  cases h
  exact he trivial

theorem Told.ext {l : Log} (h : Told l) {x : Log} (hx : ∀ e ∈ x, ¬NetEff e) : Told (x ++ l) := by
  induction x with
  | nil => exact h
  | cons e x ih => exact (ih fun e he => hx e (by simp [he])).cons (hx e (by simp))

theorem Told.recv (env : Env) {m : Conn} (h : Told m.log) (sz : Nat) : Told (ioStep env m (.recv sz)).log := by
  have key : ∀ {d : Conn} {r : InRes}, d.log = m.log → (∀ b, r = .bytes b → b.length ≤ sz) → Told (.sslIn sz r :: d.log) := by
    intro d r e hb
    rw [e]
    refine ⟨⟨?_, h.all⟩, by rintro ⟨p, rc, h⟩; cases h⟩
    cases r with
    | bytes b => exact hb b rfl
    | wantRead => trivial
    | dropped => trivial
  show Told (.sslIn sz _ :: _)
  cases m.connType with
  | datagram =>
    show Told (.sslIn sz (dtlsRead m sz).2 :: (dtlsRead m sz).1.log)
    unfold dtlsRead
    split
    · exact key rfl (by simp)
    · split
      · exact key rfl (by simp)
      · split
        · exact key rfl (by simp)
        · rename_i h; exact key rfl (by intro b e; cases e; omega)
  | stream =>
    show Told (.sslIn sz (tlsRead m sz).2 :: (tlsRead m sz).1.log)
    unfold tlsRead
    split
    · exact key rfl (by simp)
    · refine key rfl ?_
      intro b e
      injection e with e
      rw [← e, List.length_take]
      split <;> omega

/-- The answer to one request to send, by what happened last. -/
inductive Sent1 (rec : Bytes) (n : Nat) (l : Log) : Log → Option Nat → Prop
  | quiet (y : Log) (hy : ∀ e ∈ y, ∃ p, e = .pluginEgress p .success) : Sent1 rec n l (y ++ l) (some n)
  | big (h : 1500 < rec.length + 16) : Sent1 rec n l l none
  | veto (y : Log) (p : Bytes) (r : PluginRet) (hr : r ≠ .success) (hy : ∀ e ∈ y, ∃ p, e = .pluginEgress p .success) :
      Sent1 rec n l (.pluginEgress p r :: y ++ l) (if r = .drop then some rec.length else none)
  | grown (y : Log) (p : Bytes) (hy : ∀ e ∈ y, ∃ p, e = .pluginEgress p .success) :
      Sent1 rec n l (.pluginEgress p .success :: y ++ l) none
  | wrote (y : Log) (p : Bytes) (rc : RC) (hy : ∀ e ∈ y, (∃ p, e = .pluginEgress p .success) ∨ ∃ p rc, e = .outsideWrite p rc) :
      Sent1 rec n l (.outsideWrite p rc :: y ++ l) (if rc = .success then some n else none)

theorem Told.sent {l l' : Log} (h : Told l) (hv : ¬Vetoed l) {rec : Bytes} {n : Nat}
    (hn : n = rec.length ∨ n = 1500 ∧ 1500 < rec.length) {res : Option Nat} (hs : Sent1 rec n l l' res) :
    Told (.sslOut rec res :: l') := by
  have hl : ∀ (y : Log), (∀ e ∈ y, (∃ p, e = .pluginEgress p .success) ∨ ∃ p rc, e = .outsideWrite p rc) → AllAt ToldTrue (y ++ l) := by
    intro y hy
    induction y with
    | nil => exact h.all
    | cons e y ih =>
      refine ⟨?_, ih fun e he => hy e (by simp [he])⟩
      rcases hy e (by simp) with ⟨p, rfl⟩ | ⟨p, rc, rfl⟩ <;> trivial
  have nh : ∀ r : Option Nat, ¬WriteHead (.sslOut rec r :: l') := by
    rintro r ⟨p, rc, h⟩; cases h
  have hk : ∀ k, some n = some k → k = rec.length ∨ k = 1500 ∧ 1500 < rec.length := by
    intro k h; cases h; exact hn
  refine ⟨⟨?_, ?_⟩, nh res⟩
  · cases hs with
    | quiet y hy =>
      have h0 : ∀ p r, (y ++ l).head? = some (.pluginEgress p r) → r = .success := by
        intro p r he
        cases y with
        | nil =>
          cases l with
          | nil => cases he
          | cons e l =>
            simp only [List.nil_append, List.head?_cons, Option.some.injEq] at he
            subst he
            exact Classical.byContradiction fun hr => hv hr
        | cons e y =>
          simp only [List.cons_append, List.head?_cons, Option.some.injEq] at he
          obtain ⟨q, rfl⟩ := hy e (by simp)
          cases he; rfl
      refine ⟨fun p he => absurd (h0 p _ he) (by simp), fun p he => absurd (h0 p _ he) (by simp), fun p rc he => ?_, hk, by simp⟩
      exfalso
      cases y with
      | nil => exact h.head ⟨p, rc, he⟩
      | cons e y =>
        simp only [List.cons_append, List.head?_cons, Option.some.injEq] at he
        obtain ⟨q, rfl⟩ := hy e (by simp)
        cases he
    | big hb =>
      have h0 : ∀ p r, l.head? = some (.pluginEgress p r) → r = .success := by
        intro p r he
        cases l with
        | nil => cases he
        | cons e l =>
          simp only [List.head?_cons, Option.some.injEq] at he
          subst he
          exact Classical.byContradiction fun hr => hv hr
      exact ⟨fun p he => absurd (h0 p _ he) (by simp), fun _ _ => rfl, fun p rc he => absurd ⟨p, rc, he⟩ h.head, by simp, fun _ => .inl hb⟩
    | veto y p r hr hy =>
      cases r with
      | success => exact absurd rfl hr
      | drop =>
        refine ⟨fun _ _ => rfl, ?_, ?_, ?_, ?_⟩
        · intro q he; cases he
        · intro q rc he; cases he
        · intro k e; cases e; exact .inl rfl
        · intro e; cases e
      | fail =>
        refine ⟨?_, fun _ _ => rfl, ?_, ?_, fun _ => .inr (.inl ⟨p, rfl⟩)⟩
        · intro q he; cases he
        · intro q rc he; cases he
        · intro k e; cases e
    | grown y p hy =>
      refine ⟨?_, fun _ _ => rfl, ?_, ?_, fun _ => .inr (.inr (.inl ⟨p, rfl⟩))⟩
      · intro q he; cases he
      · intro q rc he; cases he
      · intro k e; cases e
    | wrote y p rc hy =>
      refine ⟨?_, ?_, fun q rc' he => ?_, fun k e => ?_, fun e => ?_⟩
      · intro q he; cases he
      · intro q he; cases he
      · cases he
        by_cases hr : rc = .success
        · simp [hr]
        · simp [hr]
      · by_cases hr : rc = .success
        · rw [if_pos hr] at e; exact hk k e
        · rw [if_neg hr] at e; cases e
      · by_cases hr : rc = .success
        · rw [if_pos hr] at e; cases e
        · exact .inr (.inr (.inr ⟨p, rc, rfl, hr⟩))
  · cases hs with
    | quiet y hy => exact hl y fun e he => .inl (hy e he)
    | big hb => exact h.all
    | veto y p r hr hy => exact ⟨trivial, hl y fun e he => .inl (hy e he)⟩
    | grown y p hy => exact ⟨trivial, hl y fun e he => .inl (hy e he)⟩
    | wrote y p rc hy => exact ⟨trivial, hl y hy⟩

theorem egress_idle (ch : Chain) (l : Log) (p : Bytes) (cap : Nat) (h : (ch.egress l p cap).1 = l) :
    (ch.egress l p cap).2 = (p, .success) := by
  induction ch with
  | nil => rfl
  | cons n rest ih =>
    obtain ⟨l1, e1, h1⟩ := Chain.egress_runs rest l p cap
    unfold Chain.egress at h ⊢
    dsimp only at h ⊢
    by_cases hr : (Chain.egress rest l p cap).2.2 ≠ .success
    · rw [if_pos hr] at h
      exact absurd (by rw [ih h]) hr
    · rw [if_neg hr] at h ⊢
      split at h
      · exact ih h
      · exfalso
        have h2 : ∀ (e : Effect) (x : Log), e :: (x ++ l) ≠ l := by
          intro e x hh
          have := congrArg List.length hh
          simp at this
          omega
        rw [e1] at h
        split at h <;> exact h2 _ _ h

theorem wrote_plugins {y : Log} (hy : ∀ e ∈ y, ∃ p, e = Effect.pluginEgress p .success) :
    ∀ e ∈ y, (∃ p, e = Effect.pluginEgress p .success) ∨ ∃ p rc, e = Effect.outsideWrite p rc := fun e he => .inl (hy e he)

theorem wrote_more {y : Log} (hy : ∀ e ∈ y, (∃ p, e = Effect.pluginEgress p .success) ∨ ∃ p rc, e = Effect.outsideWrite p rc)
    (q : Bytes) (rc : RC) :
    ∀ e ∈ Effect.outsideWrite q rc :: y, (∃ p, e = Effect.pluginEgress p .success) ∨ ∃ p rc, e = Effect.outsideWrite p rc := by
  intro e he
  rcases List.mem_cons.1 he with rfl | he
  · exact .inr ⟨_, _, rfl⟩
  · exact hy e he

theorem dtlsWrite_sent (env : Env) (m : Conn) (rec : Bytes) :
    Sent1 rec rec.length m.log (dtlsWrite env m rec).1.log (dtlsWrite env m rec).2 := by
  unfold dtlsWrite
  by_cases h1 : rec.length + 16 > maxWireMtu
  · rw [if_pos h1]; exact .big h1
  rw [if_neg h1]
  obtain ⟨y, e, h⟩ := Chain.egress_runs m.outsidePlugins m.log (wireHeader m ++ rec) maxWireMtu
  have hz : y = [] → (Chain.egress m.outsidePlugins m.log (wireHeader m ++ rec) maxWireMtu).2.1 = wireHeader m ++ rec := by
    intro hy
    rw [hy, List.nil_append] at e
    rw [egress_idle m.outsidePlugins m.log (wireHeader m ++ rec) maxWireMtu e]
  generalize Chain.egress m.outsidePlugins m.log (wireHeader m ++ rec) maxWireMtu = q at *
  obtain ⟨lg, p, rc⟩ := q
  dsimp only at e h hz ⊢
  subst e
  rcases h with ⟨hy, rfl⟩ | ⟨p', r, y', rfl, hr, rfl, hy⟩
  · rw [if_neg (by simp)]
    by_cases h2 : RC.success ≠ RC.success ∨ p.length > maxWireMtu
    · rw [if_pos h2]
      cases y with
      | nil =>
        exfalso
        rw [hz rfl] at h2
        have : (wireHeader m).length = 16 := by simp [wireHeader, le64, leN]
        simp [this] at h2
        omega
      | cons e y =>
        obtain ⟨q, rfl⟩ := hy e (by simp)
        exact .grown y q fun e he => hy e (by simp [he])
    · rw [if_neg h2]
      split
      · exact .quiet y hy
      · have hy' : ∀ e ∈ y, (∃ p, e = Effect.pluginEgress p .success) ∨ ∃ p rc, e = Effect.outsideWrite p rc := fun e he => .inl (hy e he)
        have cb : ∀ (d : Conn), ∃ rc, outsideWriteCb env d p = (d.emit (.outsideWrite p rc), rc) := fun d => ⟨_, rfl⟩
        obtain ⟨r1, e1⟩ := cb { m with log := y ++ m.log }
        rw [e1]
        dsimp only
        by_cases k1 : r1 = .success
        case neg =>
          rw [if_pos k1]
          have := Sent1.wrote (rec := rec) (n := rec.length) (l := m.log) y p r1 hy'
          rw [if_neg k1] at this; exact this
        rw [if_neg (Decidable.not_not.2 k1)]
        subst k1
        split
        · obtain ⟨r2, e2⟩ := cb (({ m with log := y ++ m.log } : Conn).emit (.outsideWrite p .success))
          rw [e2]
          dsimp only
          by_cases k2 : r2 = .success
          case neg =>
            rw [if_pos k2]
            have := Sent1.wrote (rec := rec) (n := rec.length) (l := m.log) _ p r2 (wrote_more hy' p .success)
            rw [if_neg k2] at this; exact this
          rw [if_neg (Decidable.not_not.2 k2)]
          subst k2
          obtain ⟨r3, e3⟩ := cb ((({ m with log := y ++ m.log } : Conn).emit (.outsideWrite p .success)).emit (.outsideWrite p .success))
          rw [e3]
          dsimp only
          have := Sent1.wrote (rec := rec) (n := rec.length) (l := m.log) _ p r3 (wrote_more (wrote_more hy' p .success) p .success)
          by_cases k3 : r3 = .success
          · rw [if_neg (Decidable.not_not.2 k3)]; rw [if_pos k3] at this; exact this
          · rw [if_pos k3]; rw [if_neg k3] at this; exact this
        · exact Sent1.wrote (rec := rec) (n := rec.length) (l := m.log) y p .success hy'
  · have := Sent1.veto (rec := rec) (n := rec.length) (l := m.log) y' p' r hr hy
    cases r with
    | success => exact absurd rfl hr
    | drop => exact this
    | fail =>
      rw [if_neg (by decide), if_pos (.inl (by decide))]
      exact this

theorem tlsWrite_sent (env : Env) (m : Conn) (rec : Bytes) :
    Sent1 rec (min rec.length 1500) m.log (tlsWrite env m rec).1.log (tlsWrite env m rec).2 := by
  unfold tlsWrite
  have hn : (if rec.length < maxWireMtu then rec.length else maxWireMtu) = min rec.length 1500 := by
    by_cases h : rec.length < maxWireMtu
    · rw [if_pos h]; simp only [maxWireMtu] at h; omega
    · rw [if_neg h]; simp only [maxWireMtu] at h ⊢; omega
  rw [hn]
  dsimp only
  obtain ⟨y, e, h⟩ := Chain.egress_runs m.outsidePlugins m.log (rec.take (min rec.length 1500)) maxWireMtu
  have hz : y = [] → (Chain.egress m.outsidePlugins m.log (rec.take (min rec.length 1500)) maxWireMtu).2.1 = rec.take (min rec.length 1500) := by
    intro hy
    rw [hy, List.nil_append] at e
    rw [egress_idle m.outsidePlugins m.log (rec.take (min rec.length 1500)) maxWireMtu e]
  generalize Chain.egress m.outsidePlugins m.log (rec.take (min rec.length 1500)) maxWireMtu = q at *
  obtain ⟨lg, p, rc⟩ := q
  dsimp only at e h hz ⊢
  subst e
  rcases h with ⟨hy, rfl⟩ | ⟨p', r, y', rfl, hr, rfl, hy⟩
  · rw [if_neg (by simp)]
    by_cases h2 : RC.success ≠ RC.success ∨ p.length > maxWireMtu
    · rw [if_pos h2]
      cases y with
      | nil =>
        exfalso
        rw [hz rfl] at h2
        simp [maxWireMtu] at h2
        omega
      | cons e y =>
        obtain ⟨q, rfl⟩ := hy e (by simp)
        exact .grown y q fun e he => hy e (by simp [he])
    · rw [if_neg h2]
      split
      · exact .quiet y hy
      · have cb : ∀ (d : Conn), ∃ rc, outsideWriteCb env d p = (d.emit (.outsideWrite p rc), rc) := fun d => ⟨_, rfl⟩
        obtain ⟨r1, e1⟩ := cb { m with log := y ++ m.log }
        rw [e1]
        dsimp only
        have := Sent1.wrote (rec := rec) (n := min rec.length 1500) (l := m.log) y p r1 (wrote_plugins hy)
        by_cases k1 : r1 = .success
        · rw [if_neg (Decidable.not_not.2 k1)]; rw [if_pos k1] at this; exact this
        · rw [if_pos k1]; rw [if_neg k1] at this; exact this
  · have := Sent1.veto (rec := rec) (n := min rec.length 1500) (l := m.log) y' p' r hr hy
    cases r with
    | success => exact absurd rfl hr
    | drop => exact this
    | fail =>
      rw [if_neg (by decide), if_pos (.inl (by decide))]
      exact this

theorem Told.io (env : Env) {m : Conn} (h : Told m.log) (hv : ¬Vetoed m.log) (r : IoReq) : Told (ioStep env m r).log := by
  cases r with
  | recv sz => exact h.recv env sz
  | send rec =>
    show Told (.sslOut rec _ :: _)
    cases m.connType with
    | datagram => exact h.sent hv (.inl rfl) (dtlsWrite_sent env m rec)
    | stream => exact h.sent hv (by omega) (tlsWrite_sent env m rec)

theorem Told.fine {env : Env} {c d : Conn} (s : Star (Fine env) c d) (h : Told c.log) : Told d.log := by
  induction s with
  | refl => exact h
  | tail _ s ih =>
    cases s with
    | io r hnv => exact ih.io env hnv r
    | err | pm => exact ih
    | probe pm mtu ok => exact ih.cons (by simp [NetEff])
    | note e h hn => exact ih.cons hn

theorem Told.star {env : Env} {a : Api} {c d : Conn} (s : M env a c d) (h : Told c.log) : Told d.log := by
  induction s with
  | refl => exact h
  | tail _ s ih =>
    rcases s.net with ⟨l, e, hl, -⟩ | hf
    · rw [e]; exact ih.ext hl
    · exact ih.fine hf

/-- **C102.** At every point of every history, what the TLS layer is told about a record it asked to have sent, or
about bytes it asked to read, is what happened: a record the plugins dropped counts as sent whole, one they refused
counts as failed, one that was written counts as failed exactly if the host refused the (last) write, the number of
bytes reported as sent is that of the record or, for a record that does not fit, 1500, and sending fails for no other
reason than these and a size that does not fit; a read never returns more bytes than were asked for. -/
theorem C102_told_the_truth (env : Env) (ops : List Op) {newer older : Log} {e : Effect}
    (h : (run env ops).log = newer ++ e :: older) : ToldTrue e older := by
  have key : Told (run env ops).log := by
    refine run_induct (P := fun c => Told c.log) (Q := fun _ => True) ⟨trivial, by rintro ⟨_, _, h⟩; cases h⟩ ?_ ops (fun _ _ => trivial)
    intro c op _ hg hc
    obtain ⟨⟨ap, hi⟩, _⟩ := hg
    show Told (.ret _ :: (exec env (c.emit (.api op.api)) op).1.log)
    refine ((Told.star (exec_star env ap c op hi) ?_)).cons (by simp [NetEff])
    rw [entry_log]; exact hc.cons (by simp [NetEff])
  exact key.all.at h

namespace Demo

/-- Drops outgoing datagrams of 21 bytes, refuses those of 47, lets everything else pass. -/
def censor : Plugin :=
  { ingress := none,
    egress := some (fun _ p _ => (if p.length = 21 then .drop else if p.length = 47 then .fail else .success, p)) }

/-- A client with an outside plugin, online. -/
def censorOps : List Op :=
  [ .setUsername [106, 111, 101], .setPassword [112, 119], .setOutsideMtu 1500,
    .clientConnect ctx [] [some censor],
    .outsideData (dgram [1, 2, 3]) [],
    .outsideData (dgram [9]) [msg (configIpv4Msg 4242 netCfg)] ]

/-- The sizes of the records in a history, with the answers about them. -/
def answers (l : Log) : List (Nat × Option Nat) :=
  l.filterMap fun e => match e with | .sslOut r k => some (r.length, k) | _ => none

/-- The host refuses to write. -/
def refusingEnv : Env := { env with outsideWrite := fun _ p => if p.length = 21 then .failed else .success }

end Demo

/-- Not vacuous: a keepalive (5 bytes) is dropped by the plugin and counts as sent, a packet (31 bytes) is refused by
it and counts as failed, and a keepalive the host refuses to write counts as failed. -/
example : (run Demo.env Demo.censorOps).state = .online ∧
    Demo.answers (Demo.newPart Demo.env (run Demo.env Demo.censorOps) .keepalive) = [(5, some 5)] ∧
    Demo.answers (Demo.newPart Demo.env (run Demo.env Demo.censorOps) (.insidePacket Demo.ipPkt)) = [(31, none)] ∧
    Demo.answers (Demo.newPart Demo.refusingEnv (run Demo.refusingEnv Demo.clientOps) .keepalive) = [(5, none)] ∧
    Demo.answers (Demo.newPart Demo.env (run Demo.env Demo.clientOps) .keepalive) = [(5, some 5)] := by decide +kernel

end Lightway
