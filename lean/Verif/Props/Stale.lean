import Verif.Props.Wire4
import Verif.Props.Demo

/-!
# C112: when a receive buffer is read after the call that brought it

`he_conn_outside_data_received` does not copy the host's buffer: it stores a pointer and the TLS library fetches the bytes through
a callback.  C112: it fetches them during that same call, unless the call returned with the datagram still unfetched (on a stream:
with bytes left); and in that case a later call of another kind, or the next one, may read the buffer – which the host may long
have reused.
-/

namespace Lightway
open Spec

theorem avail_from {l : Log} {b : Bytes} (h : avail l = some b) : ∃ x s y, l = x ++ .input s b :: y ∧
    ∀ x1 e x2, x = x1 ++ e :: x2 → avail (x2 ++ .input s b :: y) = some b := by
  induction l with
  | nil => cases h
  | cons e l ih =>
    have skip : avail l = some b → ∃ x s y, e :: l = x ++ .input s b :: y ∧
        ∀ x1 e' x2, x = x1 ++ e' :: x2 → avail (x2 ++ .input s b :: y) = some b := by
      intro h
      obtain ⟨x, s, y, hx, hr⟩ := ih h
      refine ⟨e :: x, s, y, by rw [hx]; rfl, ?_⟩
      intro x1 e' x2 h2
      cases x1 with
      | nil =>
        simp only [List.nil_append, List.cons.injEq] at h2
        rw [← h2.2, ← hx]; exact h
      | cons v x1 =>
        simp only [List.cons_append, List.cons.injEq] at h2
        exact hr x1 e' x2 h2.2
    cases e
    case input s body =>
      simp only [avail, Option.some.injEq] at h
      exact ⟨[], s, l, by rw [h]; rfl, by intro x1 e x2 h; simp at h⟩
    case sslIn z r =>
      cases r
      case bytes => simp [avail] at h
      case dropped => simp [avail] at h
      case wantRead => exact skip (by simpa [avail] using h)
    all_goals exact skip (by simpa [avail] using h)

/-- **C112.** On a datagram connection: whenever the TLS library fetches a datagram, it was handed in by a call that has not
returned yet – unless a call has returned, since it was handed in, without the TLS library having fetched it. -/
theorem C112_fetched_during_its_call (env : Env) (ops : List Op)
    (ht : Throughout env (fun c => c.connType = .datagram) Conn.create ops) {newer older : Log} {sz : Nat} {b : Bytes}
    (h : (run env ops).log = newer ++ .sslIn sz (.bytes b) :: older) :
    ∃ since s before, older = since ++ .input s b :: before ∧
      ((∀ rc, .ret rc ∉ since) ∨ ∃ later rc o, older = later ++ .ret rc :: o ∧ avail o = some b) := by
  obtain ⟨h1, -, -⟩ := C26_payload_taken_once env ops ht h
  obtain ⟨x, s, y, e, hx⟩ := avail_from h1
  refine ⟨x, s, y, e, ?_⟩
  by_cases hr : ∃ rc, .ret rc ∈ x
  · obtain ⟨rc, hr⟩ := hr
    obtain ⟨x1, x2, rfl⟩ := List.append_of_mem hr
    exact .inr ⟨x1, rc, x2 ++ .input s b :: y, by rw [e]; simp, hx x1 (.ret rc) x2 rfl⟩
  · exact .inl fun rc h => hr ⟨rc, h⟩

/-- So if the TLS library fetches (or is told to drop) every datagram within its call, no buffer is ever read after its call. -/
theorem C112_never_late (env : Env) (ops : List Op)
    (ht : Throughout env (fun c => c.connType = .datagram) Conn.create ops)
    (fetched : ∀ later rc o, (run env ops).log = later ++ .ret rc :: o → avail o = none) {newer older : Log} {sz : Nat} {b : Bytes}
    (h : (run env ops).log = newer ++ .sslIn sz (.bytes b) :: older) :
    ∃ since s before, older = since ++ .input s b :: before ∧ ∀ rc, .ret rc ∉ since := by
  obtain ⟨x, s, y, e, hr | ⟨l, rc, o, e2, hav⟩⟩ := C112_fetched_during_its_call env ops ht h
  · exact ⟨x, s, y, e, hr⟩
  · have := fetched (newer ++ .sslIn sz (.bytes b) :: l) rc o (by rw [h, e2]; simp)
    rw [hav] at this
    cases this

/-- A call other than a receive call adds nothing to what was accepted from the network. -/
theorem step_accepted {env : Env} {c : Conn} (hg : Good env c) (op : Op) (ho : op.api ≠ .outsideData) :
    accepted (step env c op).1.log = accepted c.log := by
  obtain ⟨⟨ap, hi⟩, hs⟩ := hg
  have hx := exec_star env ap c op hi
  rw [exec_to_step]
  have hent : accepted (entry c op).log = accepted c.log := by rw [entry_log]; rfl
  have key := walk_call (P := fun m => accepted m.log = accepted c.log) hx hent
    (by
      rintro b d _ ⟨l, e, h, hcase⟩ hw hp
      rcases hcase with ⟨h1, -, -, -⟩ | ⟨ha, hj, _⟩ | ⟨ha, hj, _⟩
      · rw [e, accepted_skip _ (fun x hx => noRead_of (h x hx) (h1 x hx))]; exact hp
      · exact absurd ha ho
      · exact absurd ha ho)
    (by
      rintro b d _ ⟨l, e, h⟩ _ hp
      rw [e, accepted_skip]; exact hp
      intro x hx
      refine noRead_of (h x hx).2 ?_
      have := (h x hx).1
      cases x <;> simp_all [PEff, IoEff, IsInput])
    (by
      intro m r hw _ hp
      cases r with
      | recv sz =>
        have : accepted (ioStep env m (.recv sz)).log = accepted m.log := by
          cases hty : m.connType with
          | datagram =>
            simp only [ioStep, hty, dtlsRead]
            split
            · rfl
            · split
              · rfl
              · split <;> rfl
          | stream =>
            simp only [ioStep, hty, tlsRead]
            split <;> rfl
        rw [this]; exact hp
      | send rec =>
        obtain ⟨l, e, hl⟩ := send_log env m rec
        rw [e, accepted_skip _ hl]; exact hp)
  exact key

/-- **C112.** On a stream connection: if all bytes handed in so far have been fetched when a call other than a receive call is
made, that call fetches nothing. -/
theorem C112_stream_nothing_late (env : Env) (ops : List Op) (op : Op) (ht : Throughout env StreamOnly Conn.create (ops ++ [op]))
    (ho : op.api ≠ .outsideData) (hall : readBytes (run env ops).log = accepted (run env ops).log) :
    readBytes (run env (ops ++ [op])).log = readBytes (run env ops).log := by
  have h1 := C27_read_prefix env (ops ++ [op]) ht
  rw [run_snoc] at h1 ⊢
  rw [step_accepted (run_good env ops) op ho, ← hall] at h1
  obtain ⟨o, hi⟩ := run_inv env ops
  obtain ⟨l, e, -⟩ := step_log env op hi
  rw [e] at h1 ⊢
  have m : ∀ l L : Log, ∃ r, readBytes (l ++ L) = readBytes L ++ r := by
    intro l L
    induction l with
    | nil => exact ⟨[], by simp⟩
    | cons x l ih =>
      obtain ⟨r, hr⟩ := ih
      cases x
      case sslIn z q =>
        cases q
        case bytes b => exact ⟨r ++ b, by rw [List.cons_append]; show readBytes (l ++ L) ++ b = _; rw [hr, List.append_assoc]⟩
        all_goals exact ⟨r, hr⟩
      all_goals exact ⟨r, hr⟩
  obtain ⟨r, hr⟩ := m (.ret (step env (run env ops) op).2 :: l ++ [.api op.api]) (run env ops).log
  rw [List.append_assoc] at hr
  change readBytes (.ret (step env (run env ops) op).2 :: l ++ .api op.api :: (run env ops).log) = _ at hr
  rw [hr] at h1 ⊢
  have := h1.length_le
  simp only [List.length_append] at this
  rw [List.length_eq_zero_iff.mp (by omega : r.length = 0), List.append_nil]

/-! Concrete: in the run of a cooperative library every datagram is fetched in its call; with a TLS library that does not get to
reading in the receive call (a pending write, say), the host's next call – here a nudge – reads the old buffer. -/

namespace Demo

/-- The handshake step of the receive call stops at a pending write; the timeout handler reads. -/
def lateEnv : Env := { env with ssl := fun l c => match c with
  | .negotiate => { ok := false, val := -1, err := .wantWrite, io := [] }
  | .gotTimeout => { ok := true, val := 1, err := .none, io := [.recv 2000] }
  | c => ssl l c }

def lateOps : List Op :=
  [ .setUsername [106, 111, 101], .setPassword [112, 119], .setOutsideMtu 1500, .clientConnect ctx [] [],
    .outsideData (dgram [1, 2, 3]) [], .nudge ]

/-- C112 is not vacuous: the datagram of a cooperative client is fetched within its call … -/
example : (run env clientOps).log.any (fun e => match e with | .sslIn _ (.bytes _) => true | _ => false) = true := by decide +kernel

def lateStreamOps : List Op :=
  [ .setUsername [106, 111, 101], .setPassword [112, 119], .setOutsideMtu 1500, .clientConnect { ctx with connType := .stream } [] [],
    .outsideData [1, 2, 3] [], .nudge ]

/-- Non-vacuity of the stream theorem: nothing pending before the receive call. -/
example : readBytes (run lateEnv (lateStreamOps.take 4)).log = accepted (run lateEnv (lateStreamOps.take 4)).log := by decide +kernel

end Demo

/-- **C112.** The exception happens: the receive call returned success, and the nudge after it fetches its datagram. -/
theorem C112_late_datagram : ∃ (env : Env) (pre : List Op) (buf : Bytes),
    let ops := pre ++ [.outsideData buf []]
    Throughout env (fun c => c.connType = .datagram) Conn.create (ops ++ [.nudge]) ∧
    (step env (run env pre) (.outsideData buf [])).2 = .success ∧
    readBytes (run env ops).log = [] ∧ readBytes (run env (ops ++ [.nudge])).log = buf.drop 16 ∧ buf.drop 16 ≠ [] := by
  refine ⟨Demo.lateEnv, Demo.lateOps.take 4, Demo.dgram [1, 2, 3], ?_⟩
  exact ⟨Demo.throughout_of (P := fun c => c.connType = .datagram) (by simp) (by decide +kernel), by decide +kernel, by decide +kernel,
    by decide +kernel, by decide +kernel⟩

/-- **C112.** And on streams: a nudge reads what a receive call left. -/
theorem C112_late_stream : ∃ (env : Env) (pre : List Op) (buf : Bytes),
    let ops := pre ++ [.outsideData buf []]
    Throughout env StreamOnly Conn.create (ops ++ [.nudge]) ∧
    (step env (run env pre) (.outsideData buf [])).2 = .success ∧
    readBytes (run env ops).log = [] ∧ readBytes (run env (ops ++ [.nudge])).log = buf ∧ buf ≠ [] := by
  refine ⟨Demo.lateEnv, Demo.lateStreamOps.take 4, [1, 2, 3], ?_⟩
  refine ⟨Demo.throughout_of (P := fun c => c.connType = .stream || c.log.all (fun e => match e with | .input .. => false | _ => true))
    ?_ (by decide +kernel), by decide +kernel, by decide +kernel, by decide +kernel, by decide +kernel⟩
  intro c h
  rw [Bool.or_eq_true] at h
  rcases h with h | h
  · exact .inl (by simpa using h)
  · refine .inr fun e he hi => ?_
    have := List.all_eq_true.mp h e he
    cases e <;> simp_all [IsInput]

end Lightway
