import Verif.Model.ConcSess
import Verif.Model.Api
import Verif.Props.ConcCallP

/-!
# C119: the session identifiers of a server used by several threads
-/

namespace Lightway.ConcSess

/-! ## What the theorems speak about -/

/-- No call has begun, and nothing is pending. -/
structure Ready (w : World) : Prop where
  pcs : ∀ t, w.pcs t = .idle
  pending : w.pending = 0
  log : w.log = []

/-- The random generator never yields the empty identifier (nor was the first one empty). -/
structure Drawn (w : World) : Prop where
  session : w.session ≠ 0
  ids : ∀ t, Job.rotate 0 ∉ w.todo t

/-- `x` is the identifier the connection had at the beginning, or one that a rotation gave to the host. -/
def Ours (w : World) (log : List (Nat × Act)) (x : Nat) : Prop := x = w.session ∨ ∃ u, (u, Act.rotated x) ∈ log

/-- Only thread `r` handles arriving datagrams, only thread `s` starts rotations. -/
structure OneEach (w : World) (r s : Nat) : Prop where
  receive : ∀ t, t ≠ r → ∀ h, Job.receive h ∉ w.todo t
  rotate : ∀ t, t ≠ s → ∀ id, Job.rotate id ∉ w.todo t

/-- The identifiers given to the host, oldest first. -/
def World.rotations (w : World) : List Nat :=
  w.log.reverse.filterMap fun x => match x.2 with
    | .rotated id => some id
    | _ => none

/-- The identifiers taken into use, oldest first. -/
def World.moves (w : World) : List Nat :=
  w.log.reverse.filterMap fun x => match x.2 with
    | .moved id => some id
    | _ => none

/-- The identifiers the host was told of, oldest first. -/
def World.acks (w : World) : List Nat :=
  w.log.reverse.filterMap fun x => match x.2 with
    | .told id => some id
    | _ => none

/-! ## Steps -/

/-- A call begins. -/
def World.begins (w : World) (t : Nat) (j : Job) (js : List Job) : World :=
  { w with todo := fun u => if u = t then js else w.todo u, pcs := fun u => if u = t then j.start else w.pcs u }

/-- An access is made. -/
def World.access (w : World) (t : Nat) : World :=
  let r := stepPc w.session w.pending (w.pcs t)
  { w with session := r.1, pending := r.2.1, pcs := fun u => if u = t then r.2.2.1 else w.pcs u,
           log := r.2.2.2.map (fun a => (t, a)) ++ w.log }

theorem step_cases (w : World) (t : Nat) :
    (∃ j js, w.pcs t = .idle ∧ w.todo t = j :: js ∧ w.step t = w.begins t j js) ∨ w.step t = w.access t := by
  unfold World.step
  cases hp : w.pcs t with
  | idle =>
    cases ht : w.todo t with
    | nil => right; dsimp only; unfold World.access; rw [hp]
    | cons j js => left; exact ⟨j, js, rfl, rfl, rfl⟩
  | _ => right; dsimp only; unfold World.access; rw [hp]

/-- Property kept by every step holds after every schedule. -/
theorem run_keeps {P : World → Prop} (hs : ∀ w t, P w → P (w.step t)) (w : World) (h : P w) (xs : List Nat) : P (w.run xs) := by
  induction xs generalizing w with
  | nil => exact h
  | cons t xs ih => exact ih _ (hs w t h)

theorem run_append (w : World) (xs ys : List Nat) : w.run (xs ++ ys) = (w.run xs).run ys := List.foldl_append

/-! ## Every identifier is one of the server's -/

/-- The world after an access with this outcome. -/
def World.after (w : World) (t s p : Nat) (pc : Pc) (acts : List Act) : World :=
  { w with session := s, pending := p, pcs := fun u => if u = t then pc else w.pcs u, log := acts.map (fun a => (t, a)) ++ w.log }

theorem access_eq (w : World) (t : Nat) : w.access t =
    w.after t (stepPc w.session w.pending (w.pcs t)).1 (stepPc w.session w.pending (w.pcs t)).2.1
      (stepPc w.session w.pending (w.pcs t)).2.2.1 (stepPc w.session w.pending (w.pcs t)).2.2.2 := rfl

theorem mem_acts {t u : Nat} {a : Act} {acts : List Act} {l : List (Nat × Act)} :
    (u, a) ∈ acts.map (fun a => (t, a)) ++ l ↔ (u = t ∧ a ∈ acts) ∨ (u, a) ∈ l := by
  rw [List.mem_append, List.mem_map]
  constructor
  · rintro (⟨b, hb, e⟩ | h)
    · cases e; exact Or.inl ⟨rfl, hb⟩
    · exact Or.inr h
  · rintro (⟨rfl, h⟩ | h)
    · exact Or.inl ⟨a, h, rfl⟩
    · exact Or.inr h

/-- The identifier was given to the host. -/
def Given (log : List (Nat × Act)) (x : Nat) : Prop := ∃ u, (u, Act.rotated x) ∈ log

structure IdInv (w0 w : World) : Prop where
  ses : Ours w0 w.log w.session
  pen : w.pending = 0 ∨ ∃ u, (u, Act.rotated w.pending) ∈ w.log
  set : ∀ t h, w.pcs t = .recvSet h → ∃ u, (u, Act.rotated h) ∈ w.log
  nz : ∀ t h, w.pcs t = .recvSession h ∨ w.pcs t = .recvPending h → h ≠ 0
  snt : ∀ t x, (t, Act.sent x) ∈ w.log → x = 0 ∨ Ours w0 w.log x
  mov : ∀ t x, (t, Act.moved x) ∈ w.log → ∃ u, (u, Act.rotated x) ∈ w.log

theorem IdInv.acc {w0 w : World} (h : IdInv w0 w) (t s p : Nat) (pc : Pc) (acts : List Act)
    (hs : s = w.session ∨ Given w.log s) (hp : p = w.pending ∨ p = 0 ∨ Act.rotated p ∈ acts)
    (hset : ∀ k, pc = .recvSet k → Given w.log k) (hnz : ∀ k, pc = .recvSession k ∨ pc = .recvPending k → k ≠ 0)
    (hsnt : ∀ x, Act.sent x ∈ acts → x = w.session ∨ x = w.pending) (hmov : ∀ x, Act.moved x ∈ acts → Given w.log x) :
    IdInv w0 (w.after t s p pc acts) := by
  have up : ∀ {x : Nat}, Given w.log x → Given (acts.map (fun a => (t, a)) ++ w.log) x :=
    fun ⟨u, hu⟩ => ⟨u, List.mem_append_right _ hu⟩
  have ours : ∀ {x : Nat}, Ours w0 w.log x → Ours w0 (acts.map (fun a => (t, a)) ++ w.log) x :=
    fun hx => hx.imp id up
  refine ⟨?_, ?_, fun u k hk => ?_, fun u k hk => ?_, fun u x hx => ?_, fun u x hx => ?_⟩
  · show Ours w0 _ s
    rcases hs with rfl | hs
    · exact ours h.ses
    · exact Or.inr (up hs)
  · show p = 0 ∨ Given _ p
    rcases hp with rfl | hp | hp
    · exact h.pen.imp id up
    · exact Or.inl hp
    · exact Or.inr ⟨t, mem_acts.mpr (Or.inl ⟨rfl, hp⟩)⟩
  · have hk : (if u = t then pc else w.pcs u) = .recvSet k := hk
    by_cases hu : u = t
    · rw [if_pos hu] at hk; exact up (hset k hk)
    · rw [if_neg hu] at hk; exact up (h.set u k hk)
  · have hk : (if u = t then pc else w.pcs u) = .recvSession k ∨ (if u = t then pc else w.pcs u) = .recvPending k := hk
    by_cases hu : u = t
    · rw [if_pos hu] at hk; exact hnz k hk
    · rw [if_neg hu] at hk; exact h.nz u k hk
  · rcases mem_acts.mp hx with ⟨_, hx⟩ | hx
    · rcases hsnt x hx with e | e
      · rw [e]; exact Or.inr (ours h.ses)
      · rw [e]; exact h.pen.imp id (fun g => Or.inr (up g))
    · exact (h.snt u x hx).imp id ours
  · rcases mem_acts.mp hx with ⟨_, hx⟩ | hx
    · exact up (hmov x hx)
    · exact up (h.mov u x hx)

theorem IdInv.step (w0 w : World) (t : Nat) (h : IdInv w0 w) : IdInv w0 (w.step t) := by
  rcases step_cases w t with ⟨j, js, hp, _, e⟩ | e
  · rw [e]
    refine ⟨h.ses, h.pen, fun u k hk => ?_, fun u k hk => ?_, h.snt, h.mov⟩
    · have hk : (if u = t then j.start else w.pcs u) = .recvSet k := hk
      by_cases hu : u = t
      · rw [if_pos hu] at hk
        cases j with
        | receive x => unfold Job.start at hk; dsimp only at hk; split at hk <;> cases hk
        | send => cases hk
        | rotate x => cases hk
      · rw [if_neg hu] at hk; exact h.set u k hk
    · have hk : (if u = t then j.start else w.pcs u) = .recvSession k ∨ (if u = t then j.start else w.pcs u) = .recvPending k := hk
      by_cases hu : u = t
      · rw [if_pos hu] at hk
        cases j with
        | receive x =>
          unfold Job.start at hk; dsimp only at hk
          split at hk
          · rcases hk with hk | hk <;> cases hk
          · rcases hk with hk | hk <;> cases hk
            assumption
        | send => rcases hk with hk | hk <;> cases hk
        | rotate x => rcases hk with hk | hk <;> cases hk
      · rw [if_neg hu] at hk; exact h.nz u k hk
  · rw [e]
    rw [access_eq]
    cases hp : w.pcs t with
    | idle =>
      exact h.acc t _ _ _ _ (Or.inl rfl) (Or.inl rfl) (fun _ e => nomatch e) (fun _ e => by rcases e with e | e <;> cases e)
        (fun _ e => nomatch e) (fun _ e => nomatch e)
    | sendLook =>
      unfold stepPc; dsimp only
      by_cases hz : w.pending ≠ 0
      · rw [if_pos hz]
        exact h.acc t _ _ _ _ (Or.inl rfl) (Or.inl rfl) (fun _ e => nomatch e) (fun _ e => by rcases e with e | e <;> cases e)
          (fun _ e => by cases List.mem_singleton.mp e) (fun _ e => by cases List.mem_singleton.mp e)
      · rw [if_neg hz]
        exact h.acc t _ _ _ _ (Or.inl rfl) (Or.inl rfl) (fun _ e => nomatch e) (fun _ e => by rcases e with e | e <;> cases e)
          (fun _ e => nomatch e) (fun _ e => nomatch e)
    | sendPending =>
      exact h.acc t _ _ _ _ (Or.inl rfl) (Or.inl rfl) (fun _ e => nomatch e) (fun _ e => by rcases e with e | e <;> cases e)
        (fun _ e => by cases List.mem_singleton.mp e; exact Or.inr rfl) (fun _ e => by cases List.mem_singleton.mp e)
    | sendSession =>
      exact h.acc t _ _ _ _ (Or.inl rfl) (Or.inl rfl) (fun _ e => nomatch e) (fun _ e => by rcases e with e | e <;> cases e)
        (fun _ e => by cases List.mem_singleton.mp e; exact Or.inl rfl) (fun _ e => by cases List.mem_singleton.mp e)
    | recvSession k =>
      unfold stepPc; dsimp only
      by_cases hz : k = w.session
      · rw [if_pos hz]
        exact h.acc t _ _ _ _ (Or.inl rfl) (Or.inl rfl) (fun _ e => nomatch e) (fun _ e => by rcases e with e | e <;> cases e)
          (fun _ e => nomatch e) (fun _ e => nomatch e)
      · rw [if_neg hz]
        exact h.acc t _ _ _ _ (Or.inl rfl) (Or.inl rfl) (fun _ e => nomatch e)
          (fun k' e => by rcases e with e | e <;> cases e; exact h.nz t k (Or.inl hp))
          (fun _ e => nomatch e) (fun _ e => nomatch e)
    | recvPending k =>
      unfold stepPc; dsimp only
      by_cases hz : k = w.pending
      · rw [if_pos hz]
        exact h.acc t _ _ _ _ (Or.inl rfl) (Or.inl rfl)
          (fun k' e => by
            cases e
            rcases h.pen with e | e
            · exact absurd (hz.trans e) (h.nz t k (Or.inr hp))
            · rw [hz]; exact e)
          (fun k' e => by rcases e with e | e <;> cases e) (fun _ e => nomatch e) (fun _ e => nomatch e)
      · rw [if_neg hz]
        exact h.acc t _ _ _ _ (Or.inl rfl) (Or.inl rfl) (fun _ e => nomatch e) (fun _ e => by rcases e with e | e <;> cases e)
          (fun _ e => by cases List.mem_singleton.mp e) (fun _ e => by cases List.mem_singleton.mp e)
    | recvSet k =>
      exact h.acc t _ _ _ _ (Or.inr (h.set t k hp)) (Or.inl rfl) (fun _ e => nomatch e) (fun _ e => by rcases e with e | e <;> cases e)
        (fun _ e => by cases List.mem_singleton.mp e) (fun _ e => by cases List.mem_singleton.mp e; exact h.set t k hp)
    | recvClear k =>
      exact h.acc t _ _ _ _ (Or.inl rfl) (Or.inr (Or.inl rfl)) (fun _ e => nomatch e) (fun _ e => by rcases e with e | e <;> cases e)
        (fun _ e => by cases List.mem_singleton.mp e) (fun _ e => by cases List.mem_singleton.mp e)
    | recvTell k =>
      exact h.acc t _ _ _ _ (Or.inl rfl) (Or.inl rfl) (fun _ e => nomatch e) (fun _ e => by rcases e with e | e <;> cases e)
        (fun _ e => by cases List.mem_singleton.mp e) (fun _ e => by cases List.mem_singleton.mp e)
    | rotLook k =>
      unfold stepPc; dsimp only
      by_cases hz : w.pending ≠ 0
      · rw [if_pos hz]
        exact h.acc t _ _ _ _ (Or.inl rfl) (Or.inl rfl) (fun _ e => nomatch e) (fun _ e => by rcases e with e | e <;> cases e)
          (fun _ e => by cases List.mem_singleton.mp e) (fun _ e => by cases List.mem_singleton.mp e)
      · rw [if_neg hz]
        exact h.acc t _ _ _ _ (Or.inl rfl) (Or.inl rfl) (fun _ e => nomatch e) (fun _ e => by rcases e with e | e <;> cases e)
          (fun _ e => nomatch e) (fun _ e => nomatch e)
    | rotSet k =>
      exact h.acc t _ _ _ _ (Or.inl rfl) (Or.inr (Or.inr List.mem_cons_self)) (fun _ e => nomatch e)
        (fun _ e => by rcases e with e | e <;> cases e)
        (fun _ e => by cases List.mem_singleton.mp e) (fun _ e => by cases List.mem_singleton.mp e)

theorem Ready.idInv {w : World} (h : Ready w) : IdInv w w where
  ses := Or.inl rfl
  pen := Or.inl h.pending
  set t k e := by rw [h.pcs t] at e; cases e
  nz t k e := by rw [h.pcs t] at e; rcases e with e | e <;> cases e
  snt t x e := by rw [h.log] at e; cases e
  mov t x e := by rw [h.log] at e; cases e

/-- C119: whatever the schedule, the identifier in use is the first one or one that a rotation gave to the host, and so is the
identifier in every header, unless it is empty. -/
theorem C119_ids_are_the_servers (w : World) (hw : Ready w) (xs : List Nat) :
    Ours w (w.run xs).log (w.run xs).session ∧
    ∀ t x, (t, Act.sent x) ∈ (w.run xs).log → x = 0 ∨ Ours w (w.run xs).log x := by
  have h := run_keeps (P := IdInv w) (fun v t => IdInv.step w v t) w hw.idInv xs
  exact ⟨h.ses, h.snt⟩

/-- C119: a client that gets such a datagram keeps its identifier or takes one of the server's: an empty identifier does no
harm. -/
theorem C119_harmless_to_client (w : World) (hw : Ready w) (xs : List Nat) {t x : Nat} (hx : (t, Act.sent x) ∈ (w.run xs).log)
    (c : Conn) (hc : c.isServer = false) :
    (updateSessionIncoming c x).2 = .success ∧
    ((updateSessionIncoming c x).1 = c ∨ Ours w (w.run xs).log (updateSessionIncoming c x).1.sessionId) := by
  unfold updateSessionIncoming
  by_cases h0 : x = 0
  · rw [if_pos h0]; exact ⟨rfl, Or.inl rfl⟩
  · rw [if_neg h0, hc]
    exact ⟨rfl, Or.inr (((C119_ids_are_the_servers w hw xs).2 t x hx).resolve_left h0)⟩

/-! ## When a header is empty -/

structure EmptyInv (w : World) : Prop where
  ses : w.session ≠ 0
  todo : ∀ t, Job.rotate 0 ∉ w.todo t
  rot : ∀ t id, w.pcs t = .rotLook id ∨ w.pcs t = .rotSet id → id ≠ 0
  rcv : ∀ t k, w.pcs t = .recvSession k ∨ w.pcs t = .recvPending k ∨ w.pcs t = .recvSet k → k ≠ 0
  look : ∀ t, w.pcs t = .sendPending → ∃ a c, w.log = a ++ (t, .found) :: c ∧ (w.pending ≠ 0 ∨ ∃ u, (u, Act.cleared) ∈ a)
  snt : ∀ n o t, w.log = n ++ (t, .sent 0) :: o → ∃ a b c u, o = a ++ (u, .cleared) :: b ++ (t, .found) :: c

theorem EmptyInv.begin {w : World} (h : EmptyInv w) (t : Nat) (j : Job) (js : List Job) (ht : w.todo t = j :: js) :
    EmptyInv (w.begins t j js) := by
  have hj : j ≠ .rotate 0 := fun e => h.todo t (by rw [ht, e]; exact List.mem_cons_self)
  refine ⟨h.ses, fun u hu => ?_, fun u k hk => ?_, fun u k hk => ?_, fun u hu => ?_, h.snt⟩
  · have hu : Job.rotate 0 ∈ (if u = t then js else w.todo u) := hu
    by_cases e : u = t
    · rw [if_pos e] at hu; exact h.todo t (by rw [ht]; exact List.mem_cons_of_mem _ hu)
    · rw [if_neg e] at hu; exact h.todo u hu
  · have hk : (if u = t then j.start else w.pcs u) = .rotLook k ∨ (if u = t then j.start else w.pcs u) = .rotSet k := hk
    by_cases e : u = t
    · rw [if_pos e] at hk
      cases j with
      | receive x => unfold Job.start at hk; dsimp only at hk; split at hk <;> rcases hk with hk | hk <;> cases hk
      | send => rcases hk with hk | hk <;> cases hk
      | rotate x =>
        rcases hk with hk | hk <;> cases hk
        exact fun e => hj (by rw [e])
    · rw [if_neg e] at hk; exact h.rot u k hk
  · have hk : (if u = t then j.start else w.pcs u) = .recvSession k ∨ (if u = t then j.start else w.pcs u) = .recvPending k ∨
        (if u = t then j.start else w.pcs u) = .recvSet k := hk
    by_cases e : u = t
    · rw [if_pos e] at hk
      cases j with
      | receive x =>
        unfold Job.start at hk; dsimp only at hk
        split at hk
        · rcases hk with hk | hk | hk <;> cases hk
        · rcases hk with hk | hk | hk <;> cases hk
          assumption
      | send => rcases hk with hk | hk | hk <;> cases hk
      | rotate x => rcases hk with hk | hk | hk <;> cases hk
    · rw [if_neg e] at hk; exact h.rcv u k hk
  · have hu : (if u = t then j.start else w.pcs u) = .sendPending := hu
    by_cases e : u = t
    · rw [if_pos e] at hu
      cases j with
      | receive x => unfold Job.start at hu; dsimp only at hu; split at hu <;> cases hu
      | send => cases hu
      | rotate x => cases hu
    · rw [if_neg e] at hu; exact h.look u hu

theorem EmptyInv.acc {w : World} (h : EmptyInv w) (t s p : Nat) (pc : Pc) (acts : List Act) (hl : acts.length ≤ 1)
    (hs : s ≠ 0) (hp : p = w.pending ∨ p ≠ 0 ∨ acts = [.cleared])
    (hrot : ∀ k, pc = .rotLook k ∨ pc = .rotSet k → k ≠ 0)
    (hrcv : ∀ k, pc = .recvSession k ∨ pc = .recvPending k ∨ pc = .recvSet k → k ≠ 0)
    (hlook : pc = .sendPending → acts = [.found] ∧ p ≠ 0)
    (hsnt : acts = [.sent 0] → ∃ a b c u, w.log = a ++ (u, .cleared) :: b ++ (t, .found) :: c) :
    EmptyInv (w.after t s p pc acts) := by
  refine ⟨hs, h.todo, fun u k hk => ?_, fun u k hk => ?_, fun u hu => ?_, fun n o u e => ?_⟩
  · have hk : (if u = t then pc else w.pcs u) = .rotLook k ∨ (if u = t then pc else w.pcs u) = .rotSet k := hk
    by_cases e : u = t
    · rw [if_pos e] at hk; exact hrot k hk
    · rw [if_neg e] at hk; exact h.rot u k hk
  · have hk : (if u = t then pc else w.pcs u) = .recvSession k ∨ (if u = t then pc else w.pcs u) = .recvPending k ∨
        (if u = t then pc else w.pcs u) = .recvSet k := hk
    by_cases e : u = t
    · rw [if_pos e] at hk; exact hrcv k hk
    · rw [if_neg e] at hk; exact h.rcv u k hk
  · have hu : (if u = t then pc else w.pcs u) = .sendPending := hu
    show ∃ a c, acts.map (fun a => (t, a)) ++ w.log = a ++ (u, .found) :: c ∧ (p ≠ 0 ∨ ∃ u, (u, Act.cleared) ∈ a)
    by_cases e : u = t
    · rw [if_pos e] at hu
      obtain ⟨h1, h2⟩ := hlook hu
      exact ⟨[], w.log, by rw [h1, e]; rfl, Or.inl h2⟩
    · rw [if_neg e] at hu
      obtain ⟨a, c, h1, h2⟩ := h.look u hu
      refine ⟨acts.map (fun a => (t, a)) ++ a, c, by rw [h1, List.append_assoc], ?_⟩
      rcases h2 with h2 | ⟨v, hv⟩
      · rcases hp with hp | hp | hp
        · rw [hp]; exact Or.inl h2
        · exact Or.inl hp
        · exact Or.inr ⟨t, by rw [hp]; exact List.mem_cons_self⟩
      · exact Or.inr ⟨v, List.mem_append_right _ hv⟩
  · have e : acts.map (fun a => (t, a)) ++ w.log = n ++ (u, .sent 0) :: o := e
    match acts, hl with
    | [], _ => exact h.snt n o u e
    | [a], _ =>
      rcases ConcCall.cons_split e with ⟨_, he, hl'⟩ | ⟨n', _, hl'⟩
      · have hu : t = u := congrArg Prod.fst he
        have ha : a = .sent 0 := congrArg Prod.snd he
        rw [← hl', ← hu]
        exact hsnt (by rw [ha])
      · exact h.snt n' o u hl'

theorem EmptyInv.step (w : World) (t : Nat) (h : EmptyInv w) : EmptyInv (w.step t) := by
  rcases step_cases w t with ⟨j, js, _, ht, e⟩ | e
  · rw [e]; exact h.begin t j js ht
  rw [e, access_eq]
  have one : ∀ a : Act, [a].length ≤ 1 := fun _ => Nat.le_refl _
  cases hp : w.pcs t with
  | idle =>
    exact h.acc t _ _ _ _ (Nat.zero_le _) h.ses (Or.inl rfl) (fun _ e => by rcases e with e | e <;> cases e)
      (fun _ e => by rcases e with e | e | e <;> cases e) (fun e => nomatch e) (fun e => nomatch e)
  | sendLook =>
    unfold stepPc; dsimp only
    by_cases hz : w.pending ≠ 0
    · rw [if_pos hz]
      exact h.acc t _ _ _ _ (one _) h.ses (Or.inl rfl) (fun _ e => by rcases e with e | e <;> cases e)
        (fun _ e => by rcases e with e | e | e <;> cases e) (fun _ => ⟨rfl, hz⟩) (fun e => nomatch e)
    · rw [if_neg hz]
      exact h.acc t _ _ _ _ (Nat.zero_le _) h.ses (Or.inl rfl) (fun _ e => by rcases e with e | e <;> cases e)
        (fun _ e => by rcases e with e | e | e <;> cases e) (fun e => nomatch e) (fun e => nomatch e)
  | sendPending =>
    refine h.acc t _ _ _ _ (one _) h.ses (Or.inl rfl) (fun _ e => by rcases e with e | e <;> cases e)
      (fun _ e => by rcases e with e | e | e <;> cases e) (fun e => nomatch e) (fun e => ?_)
    have e : [Act.sent w.pending] = [.sent 0] := e
    have hz : w.pending = 0 := by injection e with e _; injection e
    obtain ⟨a, c, h1, h2⟩ := h.look t hp
    rcases h2 with h2 | ⟨u, hu⟩
    · exact absurd hz h2
    · obtain ⟨a1, a2, e2⟩ := List.append_of_mem hu
      exact ⟨a1, a2, c, u, by rw [h1, e2]⟩
  | sendSession =>
    refine h.acc t _ _ _ _ (one _) h.ses (Or.inl rfl) (fun _ e => by rcases e with e | e <;> cases e)
      (fun _ e => by rcases e with e | e | e <;> cases e) (fun e => nomatch e) (fun e => ?_)
    have e : [Act.sent w.session] = [.sent 0] := e
    exact absurd (by injection e with e _; injection e) h.ses
  | recvSession k =>
    have hk := h.rcv t k (Or.inl hp)
    unfold stepPc; dsimp only
    by_cases hz : k = w.session
    · rw [if_pos hz]
      exact h.acc t _ _ _ _ (Nat.zero_le _) h.ses (Or.inl rfl) (fun _ e => by rcases e with e | e <;> cases e)
        (fun _ e => by rcases e with e | e | e <;> cases e) (fun e => nomatch e) (fun e => nomatch e)
    · rw [if_neg hz]
      exact h.acc t _ _ _ _ (Nat.zero_le _) h.ses (Or.inl rfl) (fun _ e => by rcases e with e | e <;> cases e)
        (fun _ e => by rcases e with e | e | e <;> cases e; exact hk) (fun e => nomatch e) (fun e => nomatch e)
  | recvPending k =>
    have hk := h.rcv t k (Or.inr (Or.inl hp))
    unfold stepPc; dsimp only
    by_cases hz : k = w.pending
    · rw [if_pos hz]
      exact h.acc t _ _ _ _ (Nat.zero_le _) h.ses (Or.inl rfl) (fun _ e => by rcases e with e | e <;> cases e)
        (fun _ e => by rcases e with e | e | e <;> cases e; exact hk) (fun e => nomatch e) (fun e => nomatch e)
    · rw [if_neg hz]
      exact h.acc t _ _ _ _ (one _) h.ses (Or.inl rfl) (fun _ e => by rcases e with e | e <;> cases e)
        (fun _ e => by rcases e with e | e | e <;> cases e) (fun e => nomatch e) (fun e => nomatch e)
  | recvSet k =>
    exact h.acc t _ _ _ _ (one _) (h.rcv t k (Or.inr (Or.inr hp))) (Or.inl rfl) (fun _ e => by rcases e with e | e <;> cases e)
      (fun _ e => by rcases e with e | e | e <;> cases e) (fun e => nomatch e) (fun e => nomatch e)
  | recvClear k =>
    exact h.acc t _ _ _ _ (one _) h.ses (Or.inr (Or.inr rfl)) (fun _ e => by rcases e with e | e <;> cases e)
      (fun _ e => by rcases e with e | e | e <;> cases e) (fun e => nomatch e) (fun e => nomatch e)
  | recvTell k =>
    exact h.acc t _ _ _ _ (one _) h.ses (Or.inl rfl) (fun _ e => by rcases e with e | e <;> cases e)
      (fun _ e => by rcases e with e | e | e <;> cases e) (fun e => nomatch e) (fun e => nomatch e)
  | rotLook k =>
    have hk := h.rot t k (Or.inl hp)
    unfold stepPc; dsimp only
    by_cases hz : w.pending ≠ 0
    · rw [if_pos hz]
      exact h.acc t _ _ _ _ (one _) h.ses (Or.inl rfl) (fun _ e => by rcases e with e | e <;> cases e)
        (fun _ e => by rcases e with e | e | e <;> cases e) (fun e => nomatch e) (fun e => nomatch e)
    · rw [if_neg hz]
      exact h.acc t _ _ _ _ (Nat.zero_le _) h.ses (Or.inl rfl) (fun _ e => by rcases e with e | e <;> cases e; exact hk)
        (fun _ e => by rcases e with e | e | e <;> cases e) (fun e => nomatch e) (fun e => nomatch e)
  | rotSet k =>
    have hk := h.rot t k (Or.inr hp)
    exact h.acc t _ _ _ _ (one _) h.ses (Or.inr (Or.inl hk)) (fun _ e => by rcases e with e | e <;> cases e)
      (fun _ e => by rcases e with e | e | e <;> cases e) (fun e => nomatch e) (fun e => nomatch e)

theorem Ready.emptyInv {w : World} (hw : Ready w) (hd : Drawn w) : EmptyInv w where
  ses := hd.session
  todo := hd.ids
  rot t k e := by rw [hw.pcs t] at e; rcases e with e | e <;> cases e
  rcv t k e := by rw [hw.pcs t] at e; rcases e with e | e | e <;> cases e
  look t e := by rw [hw.pcs t] at e; cases e
  snt n o t e := by rw [hw.log] at e; cases n <;> cases e

/-- C119: a header gets the empty identifier only if, between the sender's test and its copy, another thread cleared the pending
identifier. -/
theorem C119_empty_only_between (w : World) (hw : Ready w) (hd : Drawn w) (xs : List Nat) {newer older : List (Nat × Act)} {t : Nat}
    (hl : (w.run xs).log = newer ++ (t, .sent 0) :: older) :
    ∃ a b c u, older = a ++ (u, .cleared) :: b ++ (t, .found) :: c := by
  refine (run_keeps (P := EmptyInv) (fun v t => EmptyInv.step v t) w ?_ xs).snt newer older t hl
  exact hw.emptyInv hd

/-! ## One thread that receives and one that rotates -/

/-- The part of a call about an arriving datagram. -/
def Pc.receiving : Pc → Prop
  | .recvSession _ | .recvPending _ | .recvSet _ | .recvClear _ | .recvTell _ => True
  | _ => False

/-- The part of a rotation. -/
def Pc.rotating : Pc → Prop
  | .rotLook _ | .rotSet _ => True
  | _ => False

/-- An identifier taken into use of which the host has not been told. -/
def Pc.inflight : Pc → List Nat
  | .recvClear h | .recvTell h => [h]
  | _ => []

/-- The pending identifier, unless it has already been taken into use. -/
def waiting (pending : Nat) : Pc → List Nat
  | .recvClear _ => []
  | _ => if pending = 0 then [] else [pending]

structure OneInv (start r s : Nat) (w : World) : Prop where
  todo : OneEach w r s
  rcv : ∀ t, t ≠ r → ¬ (w.pcs t).receiving
  rot : ∀ t, t ≠ s → ¬ (w.pcs t).rotating
  rotSet : ∀ id, w.pcs s = .rotSet id → w.pending = 0
  recvSet : ∀ h, w.pcs r = .recvSet h → h = w.pending
  recvClear : ∀ h, w.pcs r = .recvClear h → h = w.pending ∧ h ≠ 0
  seq : w.rotations = w.moves ++ waiting w.pending (w.pcs r)
  last : w.session = w.moves.getLast?.getD start
  told : w.moves = w.acks ++ (w.pcs r).inflight

/-- A step that changes neither identifier and reports nothing about them. -/
theorem OneInv.neutral {start r s : Nat} {w v : World} (h : OneInv start r s w) (t : Nat) (pc : Pc)
    (htodo : ∀ u j, j ∈ v.todo u → j ∈ w.todo u) (hses : v.session = w.session) (hpen : v.pending = w.pending)
    (hpcs : ∀ u, v.pcs u = if u = t then pc else w.pcs u)
    (hr : v.rotations = w.rotations) (hm : v.moves = w.moves) (ha : v.acks = w.acks)
    (h1 : pc.receiving → t = r) (h2 : pc.rotating → t = s)
    (h3 : ∀ id, pc = .rotSet id → w.pending = 0) (h4 : ∀ k, pc = .recvSet k → k = w.pending)
    (h5 : pc.inflight = (w.pcs t).inflight) (h6 : ∀ p, waiting p pc = waiting p (w.pcs t)) (h7 : ∀ k, pc ≠ .recvClear k) :
    OneInv start r s v := by
  refine ⟨⟨fun u hu k hk => h.todo.receive u hu k (htodo u _ hk), fun u hu k hk => h.todo.rotate u hu k (htodo u _ hk)⟩,
    fun u hu => ?_, fun u hu => ?_, fun k hk => ?_, fun k hk => ?_, fun k hk => ?_, ?_, ?_, ?_⟩
  · rw [hpcs]
    by_cases e : u = t
    · rw [if_pos e]; exact fun g => hu (e.trans (h1 g))
    · rw [if_neg e]; exact h.rcv u hu
  · rw [hpcs]
    by_cases e : u = t
    · rw [if_pos e]; exact fun g => hu (e.trans (h2 g))
    · rw [if_neg e]; exact h.rot u hu
  · rw [hpcs] at hk; rw [hpen]
    by_cases e : s = t
    · rw [if_pos e] at hk; exact h3 k hk
    · rw [if_neg e] at hk; exact h.rotSet k hk
  · rw [hpcs] at hk; rw [hpen]
    by_cases e : r = t
    · rw [if_pos e] at hk; exact h4 k hk
    · rw [if_neg e] at hk; exact h.recvSet k hk
  · rw [hpcs] at hk; rw [hpen]
    by_cases e : r = t
    · rw [if_pos e] at hk; exact absurd hk (h7 k)
    · rw [if_neg e] at hk; exact h.recvClear k hk
  · rw [hr, hm, hpen, hpcs, h.seq]
    by_cases e : r = t
    · rw [if_pos e, h6, ← e]
    · rw [if_neg e]
  · rw [hses, hm]; exact h.last
  · rw [hm, ha, hpcs, h.told]
    by_cases e : r = t
    · rw [if_pos e, h5, ← e]
    · rw [if_neg e]

theorem rotations_after (w : World) (t s p : Nat) (pc : Pc) (acts : List Act) :
    (w.after t s p pc acts).rotations = w.rotations ++ acts.reverse.filterMap fun x => match x with
      | .rotated id => some id
      | _ => none := by
  unfold World.rotations World.after
  dsimp only
  rw [List.reverse_append, List.filterMap_append, ← List.map_reverse, List.filterMap_map]
  rfl

theorem moves_after (w : World) (t s p : Nat) (pc : Pc) (acts : List Act) :
    (w.after t s p pc acts).moves = w.moves ++ acts.reverse.filterMap fun x => match x with
      | .moved id => some id
      | _ => none := by
  unfold World.moves World.after
  dsimp only
  rw [List.reverse_append, List.filterMap_append, ← List.map_reverse, List.filterMap_map]
  rfl

theorem acks_after (w : World) (t s p : Nat) (pc : Pc) (acts : List Act) :
    (w.after t s p pc acts).acks = w.acks ++ acts.reverse.filterMap fun x => match x with
      | .told id => some id
      | _ => none := by
  unfold World.acks World.after
  dsimp only
  rw [List.reverse_append, List.filterMap_append, ← List.map_reverse, List.filterMap_map]
  rfl

theorem OneInv.step {start r s : Nat} (w : World) (t : Nat) (he : EmptyInv w) (h : OneInv start r s w) :
    OneInv start r s (w.step t) := by
  rcases step_cases w t with ⟨j, js, hp, ht, e⟩ | e
  · rw [e]
    have hsub : ∀ u k, k ∈ (w.begins t j js).todo u → k ∈ w.todo u := by
      intro u k hk
      have hk : k ∈ (if u = t then js else w.todo u) := hk
      by_cases e : u = t
      · rw [if_pos e] at hk; rw [e, ht]; exact List.mem_cons_of_mem _ hk
      · rw [if_neg e] at hk; exact hk
    have hj : j ∈ w.todo t := by rw [ht]; exact List.mem_cons_self
    cases j with
    | send =>
      exact h.neutral t .sendLook hsub rfl rfl (fun _ => rfl) rfl rfl rfl (fun g => g.elim) (fun g => g.elim)
        (fun _ e => nomatch e) (fun _ e => nomatch e) (by rw [hp]; rfl) (fun _ => by rw [hp]; rfl) (fun _ e => nomatch e)
    | rotate id =>
      refine h.neutral t (.rotLook id) hsub rfl rfl (fun _ => rfl) rfl rfl rfl (fun g => g.elim) (fun _ => ?_)
        (fun _ e => nomatch e) (fun _ e => nomatch e) (by rw [hp]; rfl) (fun _ => by rw [hp]; rfl) (fun _ e => nomatch e)
      by_cases e : t = s
      · exact e
      · exact absurd hj (h.todo.rotate t e id)
    | receive k =>
      have hr : t = r := by
        by_cases e : t = r
        · exact e
        · exact absurd hj (h.todo.receive t e k)
      by_cases hk : k = 0
      · exact h.neutral t .idle hsub rfl rfl (fun u => by
            show (if u = t then (if k = 0 then Pc.idle else .recvSession k) else w.pcs u) = _
            rw [if_pos hk]) rfl rfl rfl (fun _ => hr) (fun g => g.elim)
          (fun _ e => nomatch e) (fun _ e => nomatch e) (by rw [hp]) (fun _ => by rw [hp]) (fun _ e => nomatch e)
      · exact h.neutral t (.recvSession k) hsub rfl rfl (fun u => by
            show (if u = t then (if k = 0 then Pc.idle else .recvSession k) else w.pcs u) = _
            rw [if_neg hk]) rfl rfl rfl (fun _ => hr) (fun g => g.elim)
          (fun _ e => nomatch e) (fun _ e => nomatch e) (by rw [hp]; rfl) (fun _ => by rw [hp]; rfl) (fun _ e => nomatch e)
  rw [e, access_eq]
  -- a step that is not about the identifiers
  have quiet : ∀ (pc : Pc) (acts : List Act),
      (acts = [] ∨ acts = [.found] ∨ (∃ x, acts = [.sent x]) ∨ (∃ x, acts = [.unknown x]) ∨ acts = [.refused]) →
      (pc.receiving → t = r) → (pc.rotating → t = s) → (∀ id, pc = .rotSet id → w.pending = 0) →
      (∀ k, pc = .recvSet k → k = w.pending) → pc.inflight = (w.pcs t).inflight → (∀ p, waiting p pc = waiting p (w.pcs t)) →
      (∀ k, pc ≠ .recvClear k) → OneInv start r s (w.after t w.session w.pending pc acts) := by
    intro pc acts hacts g1 g2 g3 g4 g5 g6 g7
    refine h.neutral t pc (fun _ _ hk => hk) rfl rfl (fun _ => rfl) ?_ ?_ ?_ g1 g2 g3 g4 g5 g6 g7
    · rw [rotations_after]; rcases hacts with rfl | rfl | ⟨x, rfl⟩ | ⟨x, rfl⟩ | rfl <;> exact List.append_nil _
    · rw [moves_after]; rcases hacts with rfl | rfl | ⟨x, rfl⟩ | ⟨x, rfl⟩ | rfl <;> exact List.append_nil _
    · rw [acks_after]; rcases hacts with rfl | rfl | ⟨x, rfl⟩ | ⟨x, rfl⟩ | rfl <;> exact List.append_nil _
  have isr : (w.pcs t).receiving → t = r := fun g => by
    by_cases e : t = r
    · exact e
    · exact absurd g (h.rcv t e)
  have iss : (w.pcs t).rotating → t = s := fun g => by
    by_cases e : t = s
    · exact e
    · exact absurd g (h.rot t e)
  cases hp : w.pcs t with
  | idle =>
    exact quiet .idle [] (Or.inl rfl) (fun g => g.elim) (fun g => g.elim) (fun _ e => nomatch e) (fun _ e => nomatch e)
      (by rw [hp]) (fun _ => by rw [hp]) (fun _ e => nomatch e)
  | sendLook =>
    unfold stepPc; dsimp only
    by_cases hz : w.pending ≠ 0
    · rw [if_pos hz]
      exact quiet .sendPending [.found] (Or.inr (Or.inl rfl)) (fun g => g.elim) (fun g => g.elim) (fun _ e => nomatch e)
        (fun _ e => nomatch e) (by rw [hp]; rfl) (fun _ => by rw [hp]; rfl) (fun _ e => nomatch e)
    · rw [if_neg hz]
      exact quiet .sendSession [] (Or.inl rfl) (fun g => g.elim) (fun g => g.elim) (fun _ e => nomatch e)
        (fun _ e => nomatch e) (by rw [hp]; rfl) (fun _ => by rw [hp]; rfl) (fun _ e => nomatch e)
  | sendPending =>
    exact quiet .idle [.sent w.pending] (Or.inr (Or.inr (Or.inl ⟨_, rfl⟩))) (fun g => g.elim) (fun g => g.elim)
      (fun _ e => nomatch e) (fun _ e => nomatch e) (by rw [hp]; rfl) (fun _ => by rw [hp]; rfl) (fun _ e => nomatch e)
  | sendSession =>
    exact quiet .idle [.sent w.session] (Or.inr (Or.inr (Or.inl ⟨_, rfl⟩))) (fun g => g.elim) (fun g => g.elim)
      (fun _ e => nomatch e) (fun _ e => nomatch e) (by rw [hp]; rfl) (fun _ => by rw [hp]; rfl) (fun _ e => nomatch e)
  | recvSession k =>
    have hr := isr (by rw [hp]; trivial)
    unfold stepPc; dsimp only
    by_cases hz : k = w.session
    · rw [if_pos hz]
      exact quiet .idle [] (Or.inl rfl) (fun g => g.elim) (fun g => g.elim) (fun _ e => nomatch e)
        (fun _ e => nomatch e) (by rw [hp]; rfl) (fun _ => by rw [hp]; rfl) (fun _ e => nomatch e)
    · rw [if_neg hz]
      exact quiet (.recvPending k) [] (Or.inl rfl) (fun _ => hr) (fun g => g.elim) (fun _ e => nomatch e)
        (fun _ e => nomatch e) (by rw [hp]; rfl) (fun _ => by rw [hp]; rfl) (fun _ e => nomatch e)
  | recvPending k =>
    have hr := isr (by rw [hp]; trivial)
    unfold stepPc; dsimp only
    by_cases hz : k = w.pending
    · rw [if_pos hz]
      exact quiet (.recvSet k) [] (Or.inl rfl) (fun _ => hr) (fun g => g.elim) (fun _ e => nomatch e)
        (fun k' e => by cases e; exact hz) (by rw [hp]; rfl) (fun _ => by rw [hp]; rfl) (fun _ e => nomatch e)
    · rw [if_neg hz]
      exact quiet .idle [.unknown k] (Or.inr (Or.inr (Or.inr (Or.inl ⟨_, rfl⟩)))) (fun g => g.elim) (fun g => g.elim)
        (fun _ e => nomatch e) (fun _ e => nomatch e) (by rw [hp]; rfl) (fun _ => by rw [hp]; rfl) (fun _ e => nomatch e)
  | recvTell k =>
    have hr := isr (by rw [hp]; trivial)
    have hpc : ∀ u, (w.after t w.session w.pending .idle [.told k]).pcs u = if u = t then .idle else w.pcs u := fun _ => rfl
    rw [show stepPc w.session w.pending (.recvTell k) = (w.session, w.pending, .idle, [.told k]) from rfl]
    dsimp only
    refine ⟨⟨h.todo.receive, h.todo.rotate⟩, fun u hu => ?_, fun u hu => ?_, fun x hx => ?_, fun x hx => ?_, fun x hx => ?_, ?_, ?_, ?_⟩
    · rw [hpc, if_neg (fun e => hu (e.trans hr))]; exact h.rcv u hu
    · rw [hpc]
      by_cases e : u = t
      · rw [if_pos e]; exact fun g => g
      · rw [if_neg e]; exact h.rot u hu
    · rw [hpc] at hx
      by_cases e : s = t
      · rw [if_pos e] at hx; cases hx
      · rw [if_neg e] at hx; exact h.rotSet x hx
    · rw [hpc, if_pos hr.symm] at hx; cases hx
    · rw [hpc, if_pos hr.symm] at hx; cases hx
    · rw [rotations_after, moves_after, hpc, if_pos hr.symm, h.seq, ← hr, hp]
      show _ ++ [] = (_ ++ []) ++ _
      rw [List.append_nil, List.append_nil]; rfl
    · rw [moves_after]
      show w.session = (w.moves ++ []).getLast?.getD start
      rw [List.append_nil]; exact h.last
    · rw [moves_after, acks_after, hpc, if_pos hr.symm, h.told, ← hr, hp]
      show _ ++ [] = (_ ++ [k]) ++ []
      rw [List.append_nil, List.append_nil]; rfl
  | recvSet k =>
    have hr := isr (by rw [hp]; trivial)
    have hk := h.recvSet k (by rw [← hr]; exact hp)
    have hz := he.rcv t k (Or.inr (Or.inr hp))
    have hpc : ∀ u, (w.after t k w.pending (.recvClear k) [.moved k]).pcs u = if u = t then .recvClear k else w.pcs u := fun _ => rfl
    rw [show stepPc w.session w.pending (.recvSet k) = (k, w.pending, .recvClear k, [.moved k]) from rfl]
    dsimp only
    refine ⟨⟨h.todo.receive, h.todo.rotate⟩, fun u hu => ?_, fun u hu => ?_, fun x hx => ?_, fun x hx => ?_, fun x hx => ?_, ?_, ?_, ?_⟩
    · rw [hpc, if_neg (fun e => hu (e.trans hr))]; exact h.rcv u hu
    · rw [hpc]
      by_cases e : u = t
      · rw [if_pos e]; exact fun g => g
      · rw [if_neg e]; exact h.rot u hu
    · rw [hpc] at hx
      by_cases e : s = t
      · rw [if_pos e] at hx; cases hx
      · rw [if_neg e] at hx; exact h.rotSet x hx
    · rw [hpc, if_pos hr.symm] at hx; cases hx
    · rw [hpc, if_pos hr.symm] at hx; cases hx; exact ⟨hk, hz⟩
    · rw [rotations_after, moves_after, hpc, if_pos hr.symm, h.seq, ← hr, hp]
      show (_ ++ if w.pending = 0 then [] else [w.pending]) ++ [] = (_ ++ [k]) ++ []
      rw [if_neg (by rw [← hk]; exact hz), hk]
    · rw [moves_after]
      show k = (w.moves ++ [k]).getLast?.getD start
      rw [List.getLast?_append]; rfl
    · rw [moves_after, acks_after, hpc, if_pos hr.symm, h.told, ← hr, hp]
      show (_ ++ []) ++ [k] = (_ ++ []) ++ [k]
      rfl
  | recvClear k =>
    have hr := isr (by rw [hp]; trivial)
    have hpc : ∀ u, (w.after t w.session 0 (.recvTell k) [.cleared]).pcs u = if u = t then .recvTell k else w.pcs u := fun _ => rfl
    rw [show stepPc w.session w.pending (.recvClear k) = (w.session, 0, .recvTell k, [.cleared]) from rfl]
    dsimp only
    refine ⟨⟨h.todo.receive, h.todo.rotate⟩, fun u hu => ?_, fun u hu => ?_, fun x hx => rfl, fun x hx => ?_, fun x hx => ?_, ?_, ?_, ?_⟩
    · rw [hpc, if_neg (fun e => hu (e.trans hr))]; exact h.rcv u hu
    · rw [hpc]
      by_cases e : u = t
      · rw [if_pos e]; exact fun g => g
      · rw [if_neg e]; exact h.rot u hu
    · rw [hpc, if_pos hr.symm] at hx; cases hx
    · rw [hpc, if_pos hr.symm] at hx; cases hx
    · rw [rotations_after, moves_after, hpc, if_pos hr.symm, h.seq, ← hr, hp]
      show (_ ++ []) ++ [] = (_ ++ []) ++ []
      rfl
    · rw [moves_after]
      show w.session = (w.moves ++ []).getLast?.getD start
      rw [List.append_nil]; exact h.last
    · rw [moves_after, acks_after, hpc, if_pos hr.symm, h.told, ← hr, hp]
      show (_ ++ [k]) ++ [] = (_ ++ []) ++ [k]
      rw [List.append_nil, List.append_nil]
  | rotLook k =>
    have hs := iss (by rw [hp]; trivial)
    unfold stepPc; dsimp only
    by_cases hz : w.pending ≠ 0
    · rw [if_pos hz]
      exact quiet .idle [.refused] (Or.inr (Or.inr (Or.inr (Or.inr rfl)))) (fun g => g.elim) (fun g => g.elim)
        (fun _ e => nomatch e) (fun _ e => nomatch e) (by rw [hp]; rfl) (fun _ => by rw [hp]; rfl) (fun _ e => nomatch e)
    · rw [if_neg hz]
      exact quiet (.rotSet k) [] (Or.inl rfl) (fun g => g.elim) (fun _ => hs) (fun _ _ => Decidable.not_not.mp hz)
        (fun _ e => nomatch e) (by rw [hp]; rfl) (fun _ => by rw [hp]; rfl) (fun _ e => nomatch e)
  | rotSet k =>
    have hs := iss (by rw [hp]; trivial)
    have hz := h.rotSet k (by rw [← hs]; exact hp)
    have hk := he.rot t k (Or.inr hp)
    have hpc : ∀ u, (w.after t w.session k .idle [.rotated k]).pcs u = if u = t then .idle else w.pcs u := fun _ => rfl
    have hrp : ∀ x, w.pcs r ≠ .recvClear x := fun x hx => by
      have := h.recvClear x hx
      exact this.2 (this.1.trans hz)
    rw [show stepPc w.session w.pending (.rotSet k) = (w.session, k, .idle, [.rotated k]) from rfl]
    dsimp only
    have hw : ∀ pc : Pc, (∀ x, pc ≠ .recvClear x) → waiting w.pending pc = [] ∧ waiting k pc = [k] := by
      intro pc hpc
      cases pc with
      | recvClear x => exact absurd rfl (hpc x)
      | _ => exact ⟨if_pos hz, if_neg hk⟩
    refine ⟨⟨h.todo.receive, h.todo.rotate⟩, fun u hu => ?_, fun u hu => ?_, fun x hx => ?_, fun x hx => ?_, fun x hx => ?_, ?_, ?_, ?_⟩
    · rw [hpc]
      by_cases e : u = t
      · rw [if_pos e]; exact fun g => g
      · rw [if_neg e]; exact h.rcv u hu
    · rw [hpc, if_neg (fun e => hu (e.trans hs))]; exact h.rot u hu
    · rw [hpc, if_pos hs.symm] at hx; cases hx
    · rw [hpc] at hx
      by_cases e : r = t
      · rw [if_pos e] at hx; cases hx
      · rw [if_neg e] at hx
        exact absurd ((h.recvSet x hx).trans hz) (he.rcv r x (Or.inr (Or.inr hx)))
    · rw [hpc] at hx
      by_cases e : r = t
      · rw [if_pos e] at hx; cases hx
      · rw [if_neg e] at hx; exact absurd hx (hrp x)
    · rw [rotations_after, moves_after, hpc, h.seq, (hw _ hrp).1]
      show (_ ++ []) ++ [k] = (_ ++ []) ++ waiting k _
      have : waiting k (if r = t then .idle else w.pcs r) = [k] := by
        by_cases e : r = t
        · rw [if_pos e]; exact if_neg hk
        · rw [if_neg e]; exact (hw _ hrp).2
      rw [this]
    · rw [moves_after]
      show w.session = (w.moves ++ []).getLast?.getD start
      rw [List.append_nil]; exact h.last
    · rw [moves_after, acks_after, hpc, h.told]
      show (_ ++ _) ++ [] = (_ ++ []) ++ _
      rw [List.append_nil, List.append_nil]
      by_cases e : r = t
      · rw [if_pos e, e, hp]; rfl
      · rw [if_neg e]

theorem Ready.oneInv {w : World} (hw : Ready w) {r s : Nat} (h : OneEach w r s) : OneInv w.session r s w where
  todo := h
  rcv t _ := by rw [hw.pcs t]; exact fun g => g
  rot t _ := by rw [hw.pcs t]; exact fun g => g
  rotSet k e := by rw [hw.pcs s] at e; cases e
  recvSet k e := by rw [hw.pcs r] at e; cases e
  recvClear k e := by rw [hw.pcs r] at e; cases e
  seq := by
    unfold World.rotations World.moves
    rw [hw.log, hw.pcs r, hw.pending]; rfl
  last := by unfold World.moves; rw [hw.log]; rfl
  told := by unfold World.moves World.acks; rw [hw.log, hw.pcs r]; rfl

/-- C119: with one thread that handles arriving datagrams and one that rotates (any number of threads send), identifiers are
taken into use in the order in which the host got them, each once, none is forgotten, and the host is told of each: the
identifier in use is the last one taken, the one still pending is the only one not taken. -/
theorem C119_in_order (w : World) (hw : Ready w) (hd : Drawn w) {r s : Nat} (h1 : OneEach w r s) (xs : List Nat)
    (hi : (w.run xs).pcs r = .idle) :
    (w.run xs).rotations = (w.run xs).moves ++ (if (w.run xs).pending = 0 then [] else [(w.run xs).pending]) ∧
    (w.run xs).session = (w.run xs).moves.getLast?.getD w.session ∧
    (w.run xs).moves = (w.run xs).acks := by
  have h := (run_keeps (P := fun v => EmptyInv v ∧ OneInv w.session r s v)
    (fun v t hv => ⟨EmptyInv.step v t hv.1, OneInv.step v t hv.1 hv.2⟩) w ⟨hw.emptyInv hd, hw.oneInv h1⟩ xs).2
  refine ⟨?_, h.last, ?_⟩
  · rw [h.seq, hi]; rfl
  · have := h.told
    rw [hi] at this
    rw [this]; exact List.append_nil _

/-- C119: in the same conditions, whatever is going on, what was taken into use is a beginning of what the host got. -/
theorem C119_never_back (w : World) (hw : Ready w) (hd : Drawn w) {r s : Nat} (h1 : OneEach w r s) (xs : List Nat) :
    (w.run xs).moves <+: (w.run xs).rotations ∧ (w.run xs).session = (w.run xs).moves.getLast?.getD w.session := by
  have h := (run_keeps (P := fun v => EmptyInv v ∧ OneInv w.session r s v)
    (fun v t hv => ⟨EmptyInv.step v t hv.1, OneInv.step v t hv.1 hv.2⟩) w ⟨hw.emptyInv hd, hw.oneInv h1⟩ xs).2
  exact ⟨⟨_, h.seq.symm⟩, h.last⟩

/-! ## A call alone -/

theorem acc_step (v : World) (t : Nat) (pc : Pc) (s p : Nat) (pc' : Pc) (acts : List Act) (h : v.pcs t = pc) (hn : pc ≠ .idle)
    (he : stepPc v.session v.pending pc = (s, p, pc', acts)) : v.step t = v.after t s p pc' acts := by
  rcases step_cases v t with ⟨j, js, hp, _, _⟩ | e
  · exact absurd (h.symm.trans hp) hn
  · rw [e, access_eq, h, he]

/-- What the build without threads does in the connection `c` with the identifiers of `w`: the identifier of the header it
writes, what becomes of an arriving identifier, and a rotation refused exactly while another is under way. -/
def SameAs (c : Conn) (w v : World) (t : Nat) : Job → Prop
  | .send => v.session = w.session ∧ v.pending = w.pending ∧ ∃ x l, v.log = (t, .sent x) :: l ∧ (wireHeader c).drop 8 = le64 x
  | .receive h => v.session = (updateSessionIncoming c h).1.sessionId ∧
      v.pending = (updateSessionIncoming c h).1.pendingSessionId ∧
      ((updateSessionIncoming c h).2 = .unknownSession ↔ v.log = (t, .unknown h) :: w.log)
  | .rotate id => v.session = w.session ∧
      ((w.pending = 0 ∧ v.pending = id ∧ v.log = (t, .rotated id) :: w.log) ∨
       (w.pending ≠ 0 ∧ v.pending = w.pending ∧ v.log = (t, .refused) :: w.log))

/-- C119: a call that no other interrupts is the call of the build without threads: the header's identifier, the answer to an
arriving identifier, the rotation. -/
theorem C119_same_as_single (w : World) (t : Nat) (j : Job) (js : List Job) (hp : w.pcs t = .idle) (ht : w.todo t = j :: js)
    (c : Conn) (hs : c.sessionId = w.session) (hq : c.pendingSessionId = w.pending) (hc : c.isServer = true)
    (hr : c.disableRoaming = false) :
    ∃ n, (w.run (List.replicate n t)).pcs t = .idle ∧ (w.run (List.replicate n t)).todo t = js ∧
      SameAs c w (w.run (List.replicate n t)) t j := by
  have e1 : w.step t = w.begins t j js := by
    unfold World.step; rw [hp, ht]; rfl
  have b1 : (w.begins t j js).pcs t = j.start := if_pos rfl
  have b2 : (w.begins t j js).todo t = js := if_pos rfl
  cases j with
  | send =>
    by_cases hz : w.pending ≠ 0
    · have e2 := acc_step (w.begins t .send js) t .sendLook (w.session) (w.pending) .sendPending [.found] b1 (fun e => nomatch e) (if_pos hz)
      have e3 := acc_step ((w.begins t .send js).after t w.session w.pending .sendPending [.found]) t .sendPending w.session w.pending
        .idle [.sent w.pending] (if_pos rfl) (fun e => nomatch e) rfl
      refine ⟨3, ?_⟩
      rw [show w.run (List.replicate 3 t) = ((w.step t).step t).step t from rfl, e1, e2, e3]
      refine ⟨if_pos rfl, b2, rfl, rfl, w.pending, _, rfl, ?_⟩
      show le64 (if c.disableRoaming then _ else if c.pendingSessionId ≠ sessionEmpty then c.pendingSessionId else c.sessionId) = _
      rw [hr, hq]
      congr 1
      rw [if_neg Bool.false_ne_true]
      exact if_pos hz
    · have e2 := acc_step (w.begins t .send js) t .sendLook (w.session) (w.pending) .sendSession [] b1 (fun e => nomatch e) (if_neg hz)
      have e3 := acc_step ((w.begins t .send js).after t w.session w.pending .sendSession []) t .sendSession w.session w.pending
        .idle [.sent w.session] (if_pos rfl) (fun e => nomatch e) rfl
      refine ⟨3, ?_⟩
      rw [show w.run (List.replicate 3 t) = ((w.step t).step t).step t from rfl, e1, e2, e3]
      refine ⟨if_pos rfl, b2, rfl, rfl, w.session, _, rfl, ?_⟩
      show le64 (if c.disableRoaming then _ else if c.pendingSessionId ≠ sessionEmpty then c.pendingSessionId else c.sessionId) = _
      rw [hr, hq, hs]
      congr 1
      rw [if_neg Bool.false_ne_true]
      exact if_neg hz
  | rotate id =>
    by_cases hz : w.pending ≠ 0
    · have e2 := acc_step (w.begins t (.rotate id) js) t (.rotLook id) w.session w.pending .idle [.refused] b1 (fun e => nomatch e) (if_pos hz)
      refine ⟨2, ?_⟩
      rw [show w.run (List.replicate 2 t) = (w.step t).step t from rfl, e1, e2]
      exact ⟨if_pos rfl, b2, rfl, Or.inr ⟨hz, rfl, rfl⟩⟩
    · have e2 := acc_step (w.begins t (.rotate id) js) t (.rotLook id) w.session w.pending (.rotSet id) [] b1 (fun e => nomatch e) (if_neg hz)
      have e3 := acc_step ((w.begins t (.rotate id) js).after t w.session w.pending (.rotSet id) []) t (.rotSet id) w.session id
        .idle [.rotated id] (if_pos rfl) (fun e => nomatch e) rfl
      refine ⟨3, ?_⟩
      rw [show w.run (List.replicate 3 t) = ((w.step t).step t).step t from rfl, e1, e2, e3]
      exact ⟨if_pos rfl, b2, rfl, Or.inl ⟨Decidable.not_not.mp hz, rfl, rfl⟩⟩
  | receive h =>
    have long : ∀ (a : Nat × Act) (l : List (Nat × Act)), l ≠ a :: l := fun a l e => by
      have := congrArg List.length e; simp at this
    unfold SameAs updateSessionIncoming
    by_cases h0 : h = 0
    · refine ⟨1, ?_⟩
      rw [show w.run (List.replicate 1 t) = w.step t from rfl, e1]
      simp only [if_pos h0]
      refine ⟨b1.trans (if_pos h0), b2, hs.symm, hq.symm, ?_⟩
      exact ⟨fun e => (nomatch e), fun e => absurd e (long _ _)⟩
    simp only [if_neg h0, hc, if_true, hs, hq]
    have b1 : (w.begins t (.receive h) js).pcs t = .recvSession h := b1.trans (if_neg h0)
    by_cases h1 : h = w.session
    · have e2 := acc_step (w.begins t (.receive h) js) t (.recvSession h) w.session w.pending .idle [] b1 (fun e => nomatch e) (if_pos h1)
      refine ⟨2, ?_⟩
      rw [show w.run (List.replicate 2 t) = (w.step t).step t from rfl, e1, e2]
      simp only [if_pos h1]
      exact ⟨if_pos rfl, b2, hs.symm, hq.symm, fun e => (nomatch e), fun e => absurd e (long _ _)⟩
    simp only [if_neg h1]
    have e2 := acc_step (w.begins t (.receive h) js) t (.recvSession h) w.session w.pending (.recvPending h) [] b1 (fun e => nomatch e) (if_neg h1)
    by_cases h2 : h = w.pending
    · have e3 := acc_step ((w.begins t (.receive h) js).after t w.session w.pending (.recvPending h) []) t (.recvPending h)
        w.session w.pending (.recvSet h) [] (if_pos rfl) (fun e => nomatch e) (if_pos h2)
      have e4 := acc_step (((w.begins t (.receive h) js).after t w.session w.pending (.recvPending h) []).after t w.session w.pending
        (.recvSet h) []) t (.recvSet h) h w.pending (.recvClear h) [.moved h] (if_pos rfl) (fun e => nomatch e) rfl
      have e5 := acc_step ((((w.begins t (.receive h) js).after t w.session w.pending (.recvPending h) []).after t w.session w.pending
        (.recvSet h) []).after t h w.pending (.recvClear h) [.moved h]) t (.recvClear h) h 0 (.recvTell h) [.cleared] (if_pos rfl)
        (fun e => nomatch e) rfl
      have e6 := acc_step (((((w.begins t (.receive h) js).after t w.session w.pending (.recvPending h) []).after t w.session w.pending
        (.recvSet h) []).after t h w.pending (.recvClear h) [.moved h]).after t h 0 (.recvTell h) [.cleared]) t (.recvTell h) h 0 .idle
        [.told h] (if_pos rfl) (fun e => nomatch e) rfl
      refine ⟨6, ?_⟩
      rw [show w.run (List.replicate 6 t) = (((((w.step t).step t).step t).step t).step t).step t from rfl, e1, e2, e3, e4, e5, e6]
      simp only [if_pos h2]
      refine ⟨if_pos rfl, b2, ?_, ?_, fun e => (nomatch e), fun e => ?_⟩
      · first | rfl | exact h2
      · first | rfl | exact h2
      · have e : (t, Act.told h) :: _ = (t, Act.unknown h) :: _ := e
        injection e with e _; injection e with _ e; cases e
    · have e3 := acc_step ((w.begins t (.receive h) js).after t w.session w.pending (.recvPending h) []) t (.recvPending h)
        w.session w.pending .idle [.unknown h] (if_pos rfl) (fun e => nomatch e) (if_neg h2)
      refine ⟨3, ?_⟩
      rw [show w.run (List.replicate 3 t) = ((w.step t).step t).step t from rfl, e1, e2, e3]
      simp only [if_neg h2]
      exact ⟨if_pos rfl, b2, hs.symm, hq.symm, fun _ => rfl, fun _ => trivial⟩

/-! ## What goes wrong otherwise -/

/-- Threads 0 and 1 receive, 2 and 5 rotate, 3 sends, 4 receives. -/
def busy : World where
  session := 10
  todo := fun
    | 0 => [.receive 20]
    | 1 => [.receive 20]
    | 2 => [.rotate 20, .rotate 30]
    | 3 => [.send]
    | 4 => [.receive 30]
    | 5 => [.rotate 40]
    | _ => []

theorem busy_ready : Ready busy := ⟨fun _ => rfl, rfl, rfl⟩

/-- The hypotheses of `C119_same_as_single` for one of the calls of `busy`. -/
example : ∃ c : Conn, c.sessionId = busy.session ∧ c.pendingSessionId = busy.pending ∧ c.isServer = true ∧
    c.disableRoaming = false ∧ busy.pcs 2 = .idle ∧ busy.todo 2 = [.rotate 20, .rotate 30] :=
  ⟨{ sessionId := 10, isServer := true }, rfl, rfl, rfl, rfl, rfl, rfl⟩

/-- C119, hazard: the identifier is confirmed between the sender's test and its copy; the header gets the empty one. -/
theorem C119_empty_header :
    (3, Act.sent 0) ∈ (busy.run (List.replicate 3 2 ++ [3, 3] ++ List.replicate 6 0 ++ [3])).log := by decide +kernel

/-- C119, hazard: two threads confirm the same identifier; the slower one clears the identifier of the next rotation, which the
host was told had succeeded, and the host is told twice of the first. -/
theorem C119_rotation_forgotten :
    let v := busy.run (List.replicate 3 2 ++ [1, 1, 1] ++ List.replicate 6 0 ++ List.replicate 3 2 ++ List.replicate 3 1)
    v.rotations = [20, 30] ∧ v.pending = 0 ∧ v.session = 20 ∧ v.acks = [20, 20] := by decide +kernel

/-- C119, hazard: the slower one takes the connection back to an identifier the server has left behind. -/
theorem C119_goes_back :
    let v := busy.run (List.replicate 3 2 ++ [1, 1, 1] ++ List.replicate 6 0 ++ List.replicate 3 2 ++ List.replicate 6 4 ++ [1])
    v.moves = [20, 30, 20] ∧ v.session = 20 := by decide +kernel

/-- C119, hazard: two rotations both succeed; one identifier given to the host is never used. -/
theorem C119_two_rotations :
    let v := busy.run ([2, 2, 5, 5, 2, 5])
    v.rotations = [20, 40] ∧ v.pending = 40 := by decide +kernel

/-- One receiver, one rotator, two senders: the hypotheses of `C119_in_order`; after this schedule one identifier is in use, one
pending. -/
def orderly : World where
  session := 10
  todo := fun
    | 0 => [.receive 20, .receive 10]
    | 1 => [.rotate 20, .rotate 30, .rotate 50]
    | 2 => [.send, .send]
    | 3 => [.send]
    | _ => []

theorem orderly_ready : Ready orderly := ⟨fun _ => rfl, rfl, rfl⟩

theorem orderly_drawn : Drawn orderly where
  session := by decide
  ids t := by
    match t with
    | 0 | 1 | 2 | 3 => decide
    | n + 4 => exact List.not_mem_nil

theorem orderly_one : OneEach orderly 0 1 where
  receive t ht h := by
    match t with
    | 0 => exact absurd rfl ht
    | 1 | 2 | 3 => intro e; simp [orderly] at e
    | n + 4 => exact List.not_mem_nil
  rotate t ht h := by
    match t with
    | 1 => exact absurd rfl ht
    | 0 | 2 | 3 => intro e; simp [orderly] at e
    | n + 4 => exact List.not_mem_nil

example : let v := orderly.run ([1, 1, 1, 2, 2] ++ List.replicate 6 0 ++ [2, 1, 1, 1, 3, 3, 3])
    v.pcs 0 = .idle ∧ v.rotations = [20, 30] ∧ v.moves = [20] ∧ v.pending = 30 ∧ v.session = 20 ∧
    (2, Act.sent 0) ∈ v.log ∧ (3, Act.sent 30) ∈ v.log := by decide +kernel

end Lightway.ConcSess
