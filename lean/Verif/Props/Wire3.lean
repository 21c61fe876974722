import Verif.Props.Wire2

/-!
# The wire, receiving: C24, C26, C27, C59
-/

namespace Lightway
open Spec

theorem dtlsWrite_only_log (env : Env) (c : Conn) (rec : Bytes) : ∃ l, (dtlsWrite env c rec).1 = { c with log := l } := by
  have cb : ∀ c p, ∃ rc, outsideWriteCb env c p = (c.emit (.outsideWrite p rc), rc) := fun c p => ⟨_, rfl⟩
  unfold dtlsWrite
  split
  · exact ⟨c.log, rfl⟩
  · generalize c.outsidePlugins.egress c.log (wireHeader c ++ rec) maxWireMtu = r
    obtain ⟨l, q, rc⟩ := r
    simp only
    split
    · exact ⟨l, rfl⟩
    · split
      · exact ⟨l, rfl⟩
      · split
        · exact ⟨l, rfl⟩
        · obtain ⟨r1, h1⟩ := cb { c with log := l } q
          rw [h1]
          simp only
          split
          · exact ⟨_, rfl⟩
          · split
            · obtain ⟨r2, h2⟩ := cb ({ c with log := l }.emit (.outsideWrite q r1)) q
              rw [h2]
              simp only
              split
              · exact ⟨_, rfl⟩
              · obtain ⟨r3, h3⟩ := cb (({ c with log := l }.emit (.outsideWrite q r1)).emit (.outsideWrite q r2)) q
                rw [h3]
                simp only
                split <;> exact ⟨_, rfl⟩
            · exact ⟨_, rfl⟩

theorem tlsWrite_only_log (env : Env) (c : Conn) (rec : Bytes) : ∃ l, (tlsWrite env c rec).1 = { c with log := l } := by
  have cb : ∀ c p, ∃ rc, outsideWriteCb env c p = (c.emit (.outsideWrite p rc), rc) := fun c p => ⟨_, rfl⟩
  unfold tlsWrite
  simp only
  generalize c.outsidePlugins.egress c.log _ maxWireMtu = r
  obtain ⟨l, q, rc⟩ := r
  simp only
  split
  · exact ⟨l, rfl⟩
  · split
    · exact ⟨l, rfl⟩
    · split
      · exact ⟨l, rfl⟩
      · obtain ⟨r1, h1⟩ := cb { c with log := l } q
        rw [h1]
        simp only
        split <;> exact ⟨_, rfl⟩

/-- Sending does not touch the pending input. -/
theorem send_keeps (env : Env) (m : Conn) (rec : Bytes) :
    (ioStep env m (.send rec)).incoming = m.incoming ∧ (ioStep env m (.send rec)).packetSeen = m.packetSeen ∧
    (ioStep env m (.send rec)).streamLeft = m.streamLeft := by
  simp only [ioStep]
  cases m.connType with
  | datagram =>
    obtain ⟨l, h⟩ := dtlsWrite_only_log env m rec
    simp only [Conn.emit, h]
    exact ⟨trivial, trivial, trivial⟩
  | stream =>
    obtain ⟨l, h⟩ := tlsWrite_only_log env m rec
    simp only [Conn.emit, h]
    exact ⟨trivial, trivial, trivial⟩

/-- What a send adds to the history is neither a read nor input. -/
theorem send_log (env : Env) (m : Conn) (rec : Bytes) : ∃ l, (ioStep env m (.send rec)).log = l ++ m.log ∧
    ∀ x ∈ l, (∀ sz r, x ≠ .sslIn sz r) ∧ ¬IsInput x := by
  have key : ∀ (pl copies : Log) (res : Option Nat) (q : Bytes),
      (∀ e ∈ pl, ∃ p r, e = .pluginEgress p r) → (∀ e ∈ copies, ∃ rc, e = .outsideWrite q rc) →
      ∀ x ∈ (.sslOut rec res :: (copies ++ pl) : Log), (∀ sz r, x ≠ .sslIn sz r) ∧ ¬IsInput x := by
    intro pl copies res q h1 h2 x hx
    rcases List.mem_cons.mp hx with rfl | hx
    · simp [IsInput]
    · rcases List.mem_append.mp hx with hx | hx
      · obtain ⟨r, rfl⟩ := h2 x hx; simp [IsInput]
      · obtain ⟨p, r, rfl⟩ := h1 x hx; simp [IsInput]
  cases hct : m.connType with
  | datagram =>
    obtain ⟨pl, copies, res, q, e, g1, _, g3⟩ := dtls_send env m rec hct
    refine ⟨.sslOut rec res :: (copies ++ pl), by rw [e]; simp, key pl copies res q g1 ?_⟩
    rcases g3 with ⟨g3, _⟩ | ⟨_, _, _, g3⟩
    · rw [g3]; simp
    · exact transmitted_mem g3
  | stream =>
    obtain ⟨pl, copies, res, q, e, g1, _, g3⟩ := tls_send env m rec hct
    refine ⟨.sslOut rec res :: (copies ++ pl), by rw [e]; simp, key pl copies res q g1 ?_⟩
    rcases g3 with ⟨g3, _⟩ | ⟨_, _, g3⟩
    · rw [g3]; simp
    · exact transmitted_mem g3

/-- Neither a read nor input. -/
def NoRead (x : Effect) : Prop := (∀ sz r, x ≠ .sslIn sz r) ∧ ¬IsInput x

theorem noRead_of {x : Effect} (h1 : ¬NetEff x) (h2 : ¬IsInput x) : NoRead x :=
  ⟨fun sz r h => by rw [h] at h1; exact h1 trivial, h2⟩

theorem avail_skip {l : Log} (L : Log) (h : ∀ x ∈ l, NoRead x) : avail (l ++ L) = avail L := by
  induction l with
  | nil => rfl
  | cons e l ih =>
    have h1 := ih (fun x hx => h x (by simp [hx]))
    obtain ⟨h2, h3⟩ := h e (by simp)
    cases e <;> simp_all [avail, IsInput]

theorem accepted_skip {l : Log} (L : Log) (h : ∀ x ∈ l, NoRead x) : accepted (l ++ L) = accepted L := by
  induction l with
  | nil => rfl
  | cons e l ih =>
    have h1 := ih (fun x hx => h x (by simp [hx]))
    obtain ⟨h2, h3⟩ := h e (by simp)
    cases e <;> simp_all [accepted, IsInput]

theorem readBytes_skip {l : Log} (L : Log) (h : ∀ x ∈ l, NoRead x) : readBytes (l ++ L) = readBytes L := by
  induction l with
  | nil => rfl
  | cons e l ih =>
    have h1 := ih (fun x hx => h x (by simp [hx]))
    obtain ⟨h2, h3⟩ := h e (by simp)
    cases e <;> simp_all [readBytes, IsInput]

theorem readOk_skip {l : Log} {L : Log} (h : ∀ x ∈ l, NoRead x) (hL : AllAt ReadOk L) : AllAt ReadOk (l ++ L) := by
  induction l with
  | nil => exact hL
  | cons e l ih =>
    refine ⟨?_, ih (fun x hx => h x (by simp [hx]))⟩
    obtain ⟨h2, h3⟩ := h e (by simp)
    cases e <;> simp_all [ReadOk, IsInput]

theorem justCalled_iff {l : Log} (h : JustCalled .outsideData l) : ∃ plugins before,
    l = plugins ++ .api .outsideData :: before ∧ ∀ e ∈ plugins, ∃ p r, e = .pluginIngress p r := by
  obtain ⟨x, old, e, hx⟩ := h
  exact ⟨x, old, e, fun y hy => by obtain ⟨p, h⟩ := hx y hy; exact ⟨p, _, h⟩⟩

/-- The pending datagram. -/
structure Pending (m : Conn) : Prop where
  av : avail m.log = if m.packetSeen then none else m.incoming
  all : AllAt ReadOk m.log

theorem Pending.skip {m d : Conn} (h : Pending m) {l : Log} (e : d.log = l ++ m.log) (hl : ∀ x ∈ l, NoRead x)
    (h1 : d.incoming = m.incoming) (h2 : d.packetSeen = m.packetSeen) : Pending d :=
  ⟨by rw [e, avail_skip _ hl, h.av, h1, h2], by rw [e]; exact readOk_skip hl h.all⟩

theorem Pending.recv {env : Env} {m : Conn} (h : Pending m) (ht : m.connType = .datagram) (sz : Nat) :
    Pending (ioStep env m (.recv sz)) := by
  have hav := h.av
  simp only [ioStep, ht, dtlsRead]
  split
  · rename_i hin
    rw [hin] at hav
    have hav : avail m.log = none := by rw [hav]; split <;> rfl
    exact ⟨h.av, ⟨hav, h.all⟩⟩
  · rename_i pkt hin
    split
    · rename_i hps
      rw [hps] at hav
      exact ⟨h.av, ⟨hav, h.all⟩⟩
    · rename_i hps
      have hps : m.packetSeen = false := by simpa using hps
      rw [hps, hin] at hav
      simp only [Bool.false_eq_true, if_false] at hav
      split
      · rename_i hsz
        exact ⟨rfl, ⟨⟨pkt, hav, hsz⟩, h.all⟩⟩
      · rename_i hsz
        exact ⟨rfl, ⟨⟨hav, by omega⟩, h.all⟩⟩

/-- A call on a connection that is a datagram connection when the call returns. -/
theorem step_pending {env : Env} {c : Conn} (hg : Good env c) (op : Op) (ht : (step env c op).1.connType = .datagram)
    (h0 : Pending c) : Pending (step env c op).1 := by
  obtain ⟨⟨ap, hi⟩, hs⟩ := hg
  have hx := exec_star env ap c op hi
  rw [exec_to_step] at ht ⊢
  have hent : Pending (entry c op) := by
    refine h0.skip (l := [.api op.api]) (entry_log c op) (by simp [NoRead, IsInput]) ?_ ?_ <;> cases op <;> rfl
  have key := walk_call (P := Pending) hx hent
    (by
      rintro b d _ ⟨l, e, h, hcase⟩ hw hp
      rcases hcase with ⟨h1, h2, h3, _⟩ | ⟨ha, hj, _, _, s, body, rfl, h2, h3, _⟩ | ⟨_, hj, _, h1, _, buf, rfl, _⟩
      · exact hp.skip e (fun x hx => noRead_of (h x hx) (h1 x hx)) h2 h3
      · exact ⟨by rw [e, h2, h3]; rfl, by rw [e]; exact ⟨justCalled_iff (ha ▸ hj), hp.all⟩⟩
      · have := (hw (by rw [e]; exact not_preparing (n := []) (by simp) (by simp [SetupEff]) trivial)).ty
        rw [h1] at this
        rw [show (exec env (c.emit (.api op.api)) op).1.connType = .datagram from ht] at this
        cases this)
    (by
      rintro b d _ ⟨l, e, h⟩ ⟨_, h2, h3⟩ hp
      refine hp.skip e (fun x hx => noRead_of (h x hx).2 ?_) h3 h2
      have := (h x hx).1
      cases x <;> simp_all [PEff, IoEff, IsInput])
    (by
      intro m r hw _ hp
      have hm : m.connType = .datagram := hw.ty.symm.trans ht
      cases r with
      | recv sz => exact hp.recv hm sz
      | send rec =>
        obtain ⟨l, e, hl⟩ := send_log env m rec
        have := send_keeps env m rec
        exact hp.skip e hl this.1 this.2.1)
  exact key.skip (l := [.ret (step env c op).2]) rfl (by simp [NoRead, IsInput]) rfl rfl

theorem allAt_drop {P : Effect → Log → Prop} {x l : Log} (h : AllAt P (x ++ l)) : AllAt P l := by
  induction x with
  | nil => exact h
  | cons e x ih => exact ih h.2

theorem create_pending : Pending Conn.create := ⟨rfl, trivial⟩

/-- On a connection that is a datagram connection throughout, reading obeys the rules at every point of the history. -/
theorem run_pending (env : Env) {c : Conn} (hg : Good env c) (h0 : Pending c) (ops : List Op)
    (ht : Throughout env (fun c => c.connType = .datagram) c ops) : Pending (runFrom env c ops) := by
  induction ops generalizing c with
  | nil => exact h0
  | cons op ops ih => exact ih (hg.step op) (step_pending hg op ht.1 h0) ht.2

/-- **C26.** On a datagram connection the TLS library gets a datagram's payload only while it is pending, whole and within its
buffer; afterwards none is pending until the next datagram is accepted. -/
theorem C26_payload_taken_once (env : Env) (ops : List Op)
    (ht : Throughout env (fun c => c.connType = .datagram) Conn.create ops) {newer older : Log} {sz : Nat} {b : Bytes}
    (h : (run env ops).log = newer ++ .sslIn sz (.bytes b) :: older) :
    avail older = some b ∧ b.length ≤ sz ∧ avail (.sslIn sz (.bytes b) :: older) = none := by
  have := (run_pending env (create_good env) create_pending ops ht).all.at h
  exact ⟨this.1, this.2, rfl⟩

/-- **C26.** A datagram too large for the TLS library's buffer is reported as dropped, and is not offered again. -/
theorem C26_too_large_dropped (env : Env) (ops : List Op)
    (ht : Throughout env (fun c => c.connType = .datagram) Conn.create ops) {newer older : Log} {sz : Nat}
    (h : (run env ops).log = newer ++ .sslIn sz .dropped :: older) :
    ∃ b, avail older = some b ∧ sz < b.length ∧ avail (.sslIn sz .dropped :: older) = none := by
  obtain ⟨b, h1, h2⟩ := (run_pending env (create_good env) create_pending ops ht).all.at h
  exact ⟨b, h1, h2, rfl⟩

/-- **C26.** During one receive call the payload is taken at most once. -/
theorem C26_at_most_once_per_call (env : Env) (ops : List Op)
    (ht : Throughout env (fun c => c.connType = .datagram) Conn.create ops) {n1 n2 older : Log} {sz sz' : Nat} {b b' : Bytes}
    (h : (run env ops).log = n1 ++ .sslIn sz' (.bytes b') :: (n2 ++ .sslIn sz (.bytes b) :: older)) :
    ∃ x y s, n2 = x ++ .input s b' :: y ∧ ∃ a, .api a ∈ y := by
  have hall := (run_pending env (create_good env) create_pending ops ht).all
  have h1 := (hall.at h).1
  rw [show runFrom env Conn.create ops = run env ops from rfl, h] at hall
  have h2 : AllAt ReadOk (n2 ++ .sslIn sz (.bytes b) :: older) := by
    have := hall
    rw [show n1 ++ .sslIn sz' (.bytes b') :: (n2 ++ .sslIn sz (.bytes b) :: older) =
      (n1 ++ [.sslIn sz' (.bytes b')]) ++ (n2 ++ .sslIn sz (.bytes b) :: older) by simp] at this
    exact allAt_drop this
  clear hall h
  -- an input must lie between the two reads, and before it the call that brought it
  have find : ∀ n2, avail (n2 ++ .sslIn sz (.bytes b) :: older) = some b' → ∃ x y s, n2 = x ++ .input s b' :: y := by
    intro n2
    induction n2 with
    | nil => intro h; simp [avail] at h
    | cons e n ih =>
      intro h
      cases e
      case input s body =>
        simp only [List.cons_append, avail, Option.some.injEq] at h
        exact ⟨[], n, s, by rw [h]; rfl⟩
      case sslIn z r =>
        cases r
        case bytes => simp [avail] at h
        case dropped => simp [avail] at h
        case wantRead =>
          obtain ⟨x, y, s, e⟩ := ih (by simpa [avail] using h)
          exact ⟨_ :: x, y, s, by rw [e]; rfl⟩
      all_goals
        obtain ⟨x, y, s, e⟩ := ih (by simpa [avail] using h)
        exact ⟨_ :: x, y, s, by rw [e]; rfl⟩
  obtain ⟨x, y, s, e⟩ := find n2 h1
  refine ⟨x, y, s, e, .outsideData, ?_⟩
  subst e
  rw [show x ++ .input s b' :: y ++ .sslIn sz (.bytes b) :: older = x ++ .input s b' :: (y ++ .sslIn sz (.bytes b) :: older) by simp] at h2
  obtain ⟨pl, old, e1, hpl⟩ := h2.at rfl
  rcases split_ext e1.symm with ⟨k, e2, _⟩ | ⟨k, e2, e3⟩
  · rw [e2]; simp
  · exfalso
    cases k with
    | nil => simp at e3
    | cons w k =>
      simp only [List.cons_append, List.cons.injEq] at e3
      obtain ⟨p, r, hw⟩ := hpl w (by rw [e2]; simp)
      rw [← e3.1] at hw
      cases hw

end Lightway
