import Verif.Spec.Threads

/-!
# C113: the multithreaded build, thread by thread

The current datagram and the detailed TLS error are thread-local.  Whatever the other threads do, a thread fetches its own
datagrams only, each at most once, and behaves exactly as the ordinary build used by that thread alone.  But the variables are not
kept per connection: a thread that serves two connections can give one's datagram to the other's TLS object and reports one's
error for the other.
-/

namespace Lightway
open Spec Threads

/-- The datagram a thread could fetch. -/
def avail1 (l : Locals) : Option Bytes := if l.seen then none else l.cur

/-- A thread's variables agree with what the history says about it. -/
structure Tells (w : World) : Prop where
  pend : ∀ t, (pendingOn t w.hist).map (·.2) = avail1 (w.locals t)
  err : ∀ t, (w.locals t).err = lastErrorOn t w.hist

theorem read_eq (l : Locals) (sz : Nat) : (l.read sz).2 =
    match avail1 l with
    | none => .wantRead
    | some b => if b.length > sz then .dropped else .bytes b := by
  unfold Locals.read avail1
  cases hc : l.cur with
  | none => cases l.seen <;> rfl
  | some p =>
    cases l.seen with
    | true => rfl
    | false =>
      dsimp only
      by_cases h : p.length > sz
      · simp [h]
      · simp [h]

theorem Tells.step {w : World} (h : Tells w) (x : Nat × Nat × Access) : Tells (w.step x) := by
  obtain ⟨t, c, a⟩ := x
  have hh : (w.step (t, c, a)).hist = ⟨t, c, a, ((w.locals t).access a).2⟩ :: w.hist := rfl
  have hown : (w.step (t, c, a)).locals t = ((w.locals t).access a).1 := by simp [World.step]
  have hother : ∀ t', t' ≠ t → (w.step (t, c, a)).locals t' = w.locals t' := by intro t' ht; simp [World.step, ht]
  generalize w.step (t, c, a) = w' at hh hown hother
  constructor
  · intro t'
    have hp := h.pend t'
    rw [hh]
    by_cases ht : t' = t
    · subst ht
      rw [hown]
      cases a with
      | accept b => simp [pendingOn, Locals.access, avail1]
      | setErr e => exact hp
      | getErr => exact hp
      | read sz =>
        simp only [Locals.access]
        unfold Locals.read
        unfold avail1 at hp
        cases hc : (w.locals t').cur with
        | none => rw [hc] at hp; simpa [pendingOn, avail1, hc] using hp
        | some p =>
          dsimp only
          by_cases hs : (w.locals t').seen = true
          · simp only [hs, if_true] at hp ⊢
            simpa [pendingOn, avail1, hs] using hp
          · by_cases hl : p.length > sz
            · simp [pendingOn, avail1, hs, hl]
            · simp [pendingOn, avail1, hs, hl]
    · rw [hother t' ht, ← hp]
      have ht' : ¬ t = t' := fun e => ht e.symm
      congr 1
      cases a with
      | accept b => simp [pendingOn, ht']
      | setErr e => rfl
      | getErr => rfl
      | read sz =>
        simp only [Locals.access]
        generalize ((w.locals t).read sz).2 = r
        cases r <;> simp [pendingOn, ht']
  · intro t'
    have hp := h.err t'
    rw [hh]
    by_cases ht : t' = t
    · subst ht
      rw [hown]
      cases a with
      | accept b => simpa [lastErrorOn, Locals.access] using hp
      | setErr e => simp [lastErrorOn, Locals.access]
      | getErr => simpa [lastErrorOn, Locals.access] using hp
      | read sz =>
        have : ((w.locals t').read sz).1.err = (w.locals t').err := by
          unfold Locals.read
          repeat' split
          all_goals rfl
        simpa [lastErrorOn, Locals.access, this] using hp
    · rw [hother t' ht, hp]
      have ht' : ¬ t = t' := fun e => ht e.symm
      cases a <;> simp [lastErrorOn, ht']

/-- An answer is the one the history before it calls for. -/
def Answered (e : Entry) (older : List Entry) : Prop :=
  match e.access with
  | .read sz => e.answer = .input (match pendingOn e.thread older with
      | none => .wantRead
      | some (_, b) => if b.length > sz then .dropped else .bytes b)
  | .getErr => e.answer = .err (lastErrorOn e.thread older)
  | _ => e.answer = .unit

theorem Tells.answered {w : World} (h : Tells w) (x : Nat × Nat × Access) :
    Answered ⟨x.1, x.2.1, x.2.2, ((w.locals x.1).access x.2.2).2⟩ w.hist := by
  obtain ⟨t, c, a⟩ := x
  have hp := h.pend t
  cases a with
  | accept b => rfl
  | setErr e => rfl
  | getErr => exact congrArg Answer.err (h.err t)
  | read sz =>
    show Answer.input ((w.locals t).read sz).2 = Answer.input _
    rw [read_eq, ← hp]
    cases pendingOn t w.hist <;> rfl

theorem run_tells (xs : List (Nat × Nat × Access)) : Tells (World.run xs) ∧
    ∀ newer e older, (World.run xs).hist = newer ++ e :: older → Answered e older := by
  unfold World.run
  have gen : ∀ w : World, Tells w → (∀ newer e older, w.hist = newer ++ e :: older → Answered e older) →
      Tells (xs.foldl World.step w) ∧ ∀ newer e older, (xs.foldl World.step w).hist = newer ++ e :: older → Answered e older := by
    induction xs with
    | nil => intro w h1 h2; exact ⟨h1, h2⟩
    | cons x xs ih =>
      intro w h1 h2
      refine ih (w.step x) (h1.step x) ?_
      intro newer e older he
      cases newer with
      | nil =>
        simp only [World.step, List.nil_append, List.cons.injEq] at he
        rw [← he.1, ← he.2]
        exact h1.answered x
      | cons v newer =>
        simp only [World.step, List.cons_append, List.cons.injEq] at he
        exact h2 newer e older he.2
  exact gen {} ⟨fun t => rfl, fun t => rfl⟩ (by intro n e o h; simp at h)

/-- **C113.** However the accesses of all threads interleave, a read on a thread is answered from the datagram that thread itself
has last accepted and not yet fetched: all of it if it fits, dropped if it does not, and "nothing yet" if there is none. -/
theorem C113_own_datagram (xs : List (Nat × Nat × Access)) {newer older : List Entry} {t c sz : Nat} {r : Answer}
    (h : (World.run xs).hist = newer ++ ⟨t, c, .read sz, r⟩ :: older) :
    r = .input (match pendingOn t older with
      | none => .wantRead
      | some (_, b) => if b.length > sz then .dropped else .bytes b) :=
  (run_tells xs).2 _ _ _ h

/-- **C113.** And after a fetch, nothing is pending on that thread until it accepts the next datagram. -/
theorem C113_at_most_once {older : List Entry} {t c sz : Nat} {b : Bytes} :
    pendingOn t (⟨t, c, .read sz, .input (.bytes b)⟩ :: older) = none := by
  simp [pendingOn]

/-- **C113.** The detailed error reported on a thread is the one that thread has last recorded. -/
theorem C113_own_error (xs : List (Nat × Nat × Access)) {newer older : List Entry} {t c : Nat} {r : Answer}
    (h : (World.run xs).hist = newer ++ ⟨t, c, .getErr, r⟩ :: older) : r = .err (lastErrorOn t older) :=
  (run_tells xs).2 _ _ _ h

/-- The answers a thread got, in order. -/
def Spec.answersOn (t : Nat) (h : List Entry) : List Answer := ((h.filter (·.thread == t)).map (·.answer)).reverse

/-- The accesses a thread makes in a schedule, in order. -/
def Spec.accessesOn (t : Nat) (xs : List (Nat × Nat × Access)) : List Access := (xs.filter (·.1 == t)).map (·.2.2)

/-- The ordinary build's connection holds what the thread's variables hold. -/
def SameVars (l : Locals) (c : Conn) : Prop := l.cur = c.incoming ∧ l.seen = c.packetSeen ∧ l.err = c.wolfError

theorem plain_step {l : Locals} {c : Conn} (h : SameVars l c) (a : Access) :
    (l.access a).2 = (plain c a).2 ∧ SameVars (l.access a).1 (plain c a).1 := by
  obtain ⟨h1, h2, h3⟩ := h
  cases a with
  | accept b => exact ⟨rfl, rfl, rfl, h3⟩
  | setErr e => exact ⟨rfl, h1, h2, rfl⟩
  | getErr => exact ⟨congrArg Answer.err h3, h1, h2, h3⟩
  | read sz =>
    simp only [Locals.access, plain]
    unfold Locals.read dtlsRead
    cases hc : c.incoming with
    | none => rw [h1, hc]; exact ⟨rfl, by rw [h1, hc], h2, h3⟩
    | some p =>
      rw [h1, hc, h2]
      dsimp only
      by_cases hs : c.packetSeen = true
      · rw [if_pos hs, if_pos hs]; exact ⟨rfl, by rw [h1, hc], h2, h3⟩
      · rw [if_neg hs, if_neg hs]
        by_cases hl : p.length > sz
        · rw [if_pos hl, if_pos hl]; exact ⟨rfl, rfl, rfl, h3⟩
        · rw [if_neg hl, if_neg hl]; exact ⟨rfl, rfl, rfl, h3⟩

/-- **C113.** Every thread, whatever the others do in between, gets exactly the answers that a connection of the ordinary build,
used by it alone, would give: the theorems about receiving hold for it. -/
theorem C113_as_if_alone (xs : List (Nat × Nat × Access)) (t : Nat) :
    answersOn t (World.run xs).hist = plainRun Conn.create (accessesOn t xs) := by
  have gen : ∀ (w : World) (c : Conn), SameVars (w.locals t) c →
      answersOn t (xs.foldl World.step w).hist = answersOn t w.hist ++ plainRun c (accessesOn t xs) := by
    induction xs with
    | nil => intro w c _; simp [accessesOn, plainRun]
    | cons x xs ih =>
      intro w c h
      obtain ⟨t', cn, a⟩ := x
      by_cases ht : t' = t
      · subst ht
        obtain ⟨e, hs⟩ := plain_step h a
        rw [List.foldl_cons, ih (w.step (t', cn, a)) (plain c a).1 (by simpa [World.step] using hs)]
        simp [answersOn, accessesOn, World.step, plainRun, e]
      · have ht2 : t ≠ t' := fun e => ht e.symm
        rw [List.foldl_cons, ih (w.step (t', cn, a)) c (by simpa [World.step, ht2] using h)]
        simp [answersOn, accessesOn, World.step, ht]
  have := gen {} Conn.create ⟨rfl, rfl, rfl⟩
  simpa [answersOn, World.run] using this

/-- **C113.** If a thread serves one connection only, what it fetches was accepted for that connection. -/
theorem C113_one_connection (xs : List (Nat × Nat × Access)) {newer older : List Entry} {t c sz : Nat} {b : Bytes}
    (one : ∀ x ∈ xs, x.1 = t → x.2.1 = c)
    (h : (World.run xs).hist = newer ++ ⟨t, c, .read sz, .input (.bytes b)⟩ :: older) :
    pendingOn t older = some (c, b) := by
  have h1 := C113_own_datagram xs h
  have hm : ∀ e ∈ (World.run xs).hist, e.thread = t → e.conn = c := by
    have gen : ∀ w : World, (∀ e ∈ w.hist, e.thread = t → e.conn = c) →
        ∀ e ∈ (xs.foldl World.step w).hist, e.thread = t → e.conn = c := by
      clear h h1
      induction xs with
      | nil => intro w h; exact h
      | cons x xs ih =>
        intro w h
        refine ih (fun y hy => one y (by simp [hy])) (w.step x) ?_
        intro e he
        simp only [World.step, List.mem_cons] at he
        rcases he with rfl | he
        · exact one x (by simp)
        · exact h e he
    exact gen {} (by intro e h; simp at h)
  have hp : ∀ (l : List Entry), (∀ e ∈ l, e.thread = t → e.conn = c) → ∀ c' b', pendingOn t l = some (c', b') → c' = c := by
    intro l
    induction l with
    | nil => intro _ c' b' h; cases h
    | cons e l ih =>
      intro hl c' b' h
      have ih := ih (fun x hx => hl x (by simp [hx])) c' b'
      obtain ⟨t', cn, a, r⟩ := e
      have he := hl ⟨t', cn, a, r⟩ (by simp)
      dsimp only at he
      unfold pendingOn at h
      split at h
      · cases h
      · rename_i heq
        obtain ⟨⟨rfl, rfl, rfl, rfl⟩, rfl⟩ : (_ ∧ _ ∧ _ ∧ _) ∧ _ := by simpa using heq
        split at h
        · rename_i ht; cases h; exact he ht
        · exact ih h
      · rename_i heq
        obtain ⟨⟨rfl, rfl, rfl, rfl⟩, rfl⟩ : (_ ∧ _ ∧ _ ∧ _) ∧ _ := by simpa using heq
        split at h
        · cases h
        · exact ih h
      · rename_i heq
        obtain ⟨⟨rfl, rfl, rfl, rfl⟩, rfl⟩ : (_ ∧ _ ∧ _ ∧ _) ∧ _ := by simpa using heq
        split at h
        · cases h
        · exact ih h
      · rename_i heq
        obtain ⟨_, rfl⟩ : _ ∧ _ := by simpa using heq
        exact ih h
  cases hq : pendingOn t older with
  | none => rw [hq] at h1; cases h1
  | some q =>
    obtain ⟨c', b'⟩ := q
    have e1 := hp older (fun e he => hm e (by rw [h]; simp [he])) c' b' hq
    rw [hq] at h1
    dsimp only at h1
    split at h1
    · cases h1
    · cases h1; rw [e1]

/-! ## What does not hold: two connections on one thread -/

/-- **C113.** A thread accepts a datagram for connection 1 whose TLS object does not fetch it (C112 shows such a call); a later
read for connection 2 – a nudge of it, say – is given that datagram.  In the ordinary build it is told that there is none. -/
theorem C113_datagram_crosses : ∃ (xs : List (Nat × Nat × Access)) (b : Bytes),
    xs = [(0, 1, .accept b), (0, 2, .read 2000)] ∧
    (World.run xs).hist.head? = some ⟨0, 2, .read 2000, .input (.bytes b)⟩ ∧
    plainRun Conn.create [.read 2000] = [.input .wantRead] :=
  ⟨_, [1, 2, 3], rfl, by decide +kernel, rfl⟩

/-- **C113.** The detailed error reported for a connection can be another connection's, and that of its own call on another thread
is not seen. -/
theorem C113_error_crosses : ∃ xs : List (Nat × Nat × Access),
    (∀ e ∈ (World.run xs).hist, e.access = .getErr → e.conn = 2) ∧
    (World.run xs).hist.head? = some ⟨0, 2, .getErr, .err .memory⟩ ∧ lastErrorOf 2 (World.run xs).hist = .asnSigConfirm := by
  exact ⟨[(1, 2, .setErr .asnSigConfirm), (0, 1, .setErr .memory), (0, 2, .getErr)], by decide +kernel, by decide +kernel,
    by decide +kernel⟩

/-- Not vacuous: two threads, each with its own datagram, interleaved. -/
example : (World.run [(0, 1, .accept [1]), (1, 2, .accept [2]), (0, 1, .read 9), (1, 2, .read 9), (0, 1, .read 9)]).hist.map (·.answer) =
    [.input .wantRead, .input (.bytes [2]), .input (.bytes [1]), .unit, .unit] := by decide +kernel

end Lightway
