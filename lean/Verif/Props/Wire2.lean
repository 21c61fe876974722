import Verif.Props.Wire

/-!
# The wire: C25, C26, C27, C28
-/

namespace Lightway
open Spec

/-- **C25.** Every buffer handed to the network on a datagram connection has at most 1500 bytes; without outside plugins it begins with
'H', 'e' and the connection's protocol version. -/
theorem C25_datagrams_well_formed {env : Env} {c : Conn} (hg : Good env c) (op : Op) {n o : Log} {p : Bytes} {rc : RC}
    (hd : (step env c op).1.connType = .datagram) (h : (step env c op).1.log = n ++ .outsideWrite p rc :: (o ++ c.log)) :
    p.length ≤ 1500 ∧ ((step env c op).1.outsidePlugins.plugins = 0 →
      16 ≤ p.length ∧ p.take 4 = [72, 101, (step env c op).1.verMajor, (step env c op).1.verMinor]) := by
  obtain ⟨b, m, r, n1, o1, n2, h1, h2, h3, h4, h5, h6, h7, h8, h9, h10⟩ := step_locate hg op (by trivial) h
  cases r with
  | recv sz =>
    obtain ⟨res, e⟩ := recv_log env m sz
    rw [e] at h8
    have := (split_in h8).1
    cases this
  | send rec =>
    rw [h3.ty] at hd
    obtain ⟨pl, copies, res, q, e, g1, g2, g3⟩ := dtls_send env m rec hd
    rw [e] at h8
    obtain ⟨k1, k2, g4, g5⟩ := split_write h8 g1
    rcases g3 with ⟨g3, _⟩ | ⟨gl, _, _, g3⟩
    · rw [g3] at g5; simp at g5
    · obtain ⟨_, hq⟩ := transmitted_mem g3 (.outsideWrite p rc) (by rw [g5]; simp)
      simp only [Effect.outsideWrite.injEq] at hq
      rw [hq.1]
      refine ⟨gl, fun hp => ?_⟩
      rw [h3.out] at hp
      rw [(g2 hp).1, h3.maj, h3.min]
      refine ⟨?_, rfl⟩
      simp only [List.length_append, wireHeader, le64, leN_length, List.length_cons, List.length_nil]
      omega

/-! ### Byte streams -/

theorem netBytes_skip {l : Log} (L : Log) (h : ∀ x ∈ l, ¬NetEff x) : netBytes (l ++ L) = netBytes L := by
  induction l with
  | nil => rfl
  | cons e l ih =>
    have h1 := ih (fun x hx => h x (by simp [hx]))
    have h2 := h e (by simp)
    cases e <;> simp_all [netBytes, NetEff]

theorem tlsBytes_skip {l : Log} (L : Log) (h : ∀ x ∈ l, ¬NetEff x) : tlsBytes (l ++ L) = tlsBytes L := by
  induction l with
  | nil => rfl
  | cons e l ih =>
    have h1 := ih (fun x hx => h x (by simp [hx]))
    have h2 := h e (by simp)
    cases e <;> simp_all [tlsBytes, NetEff]

theorem netBytes_append (l L : Log) : netBytes (l ++ L) = netBytes L ++ netBytes l := by
  induction l with
  | nil => simp [netBytes]
  | cons e l ih =>
    cases e
    case outsideWrite p rc => cases rc <;> simp_all [netBytes]
    all_goals simp_all [netBytes]

theorem tlsBytes_append (l L : Log) : tlsBytes (l ++ L) = tlsBytes L ++ tlsBytes l := by
  induction l with
  | nil => simp [tlsBytes]
  | cons e l ih =>
    cases e
    case sslOut p rc => cases rc <;> simp_all [tlsBytes]
    all_goals simp_all [tlsBytes]

/-- A whole call, from its marker to its return. -/
theorem exec_to_step (env : Env) (c : Conn) (op : Op) :
    (step env c op).1 = (exec env (c.emit (.api op.api)) op).1.emit (.ret (step env c op).2) := rfl

theorem step_stream_bytes {env : Env} {c : Conn} (hg : Good env c) (op : Op) (ha : op.api ≠ .disconnect)
    (ht : (step env c op).1.connType = .stream) (hp : (step env c op).1.outsidePlugins.plugins = 0)
    (hc : (step env c op).1.cbs.outsideWrite = true) :
    ∃ x, (step env c op).1.log = x ++ c.log ∧ netBytes x = tlsBytes x := by
  obtain ⟨⟨ap, hi⟩, hs⟩ := hg
  have hx := exec_star env ap c op hi
  rw [exec_to_step] at ht hp hc ⊢
  have key := walk_call (P := fun m => ∃ x, m.log = x ++ c.log ∧ netBytes x = tlsBytes x) hx
    ⟨[.api op.api], by rw [entry_log c op]; rfl, rfl⟩
    (by
      rintro b d _ ⟨l, e, h, _⟩ _ ⟨x, e1, h1⟩
      exact ⟨l ++ x, by rw [e, e1]; simp, by rw [netBytes_skip x h, tlsBytes_skip x h, h1]⟩)
    (by
      rintro b d _ ⟨l, e, h⟩ _ ⟨x, e1, h1⟩
      have h : ∀ x ∈ l, ¬NetEff x := fun x hx => (h x hx).2
      exact ⟨l ++ x, by rw [e, e1]; simp, by rw [netBytes_skip x h, tlsBytes_skip x h, h1]⟩)
    (by
      rintro m r hw hcb ⟨x, e1, h1⟩
      cases r with
      | recv sz =>
        obtain ⟨res, e⟩ := recv_log env m sz
        exact ⟨.sslIn sz res :: x, by rw [e, e1]; rfl, h1⟩
      | send rec =>
        have ht' : m.connType = .stream := hw.ty.symm.trans ht
        have hp' : m.outsidePlugins.plugins = 0 := by rw [← hw.out]; exact hp
        have hc' : m.cbs.outsideWrite = true := by rw [← hcb ha]; exact hc
        obtain ⟨pl, copies, res, q, e, g1, g2, g3⟩ := tls_send env m rec ht'
        obtain ⟨rfl, rfl⟩ := g2 hp'
        rcases g3 with ⟨_, ⟨g3, _⟩ | g3⟩ | ⟨_, _, g3⟩
        · rw [hc'] at g3; cases g3
        · exact absurd hp' g3
        · rcases g3 with ⟨g3, g4⟩ | ⟨k, rc, g5, g6, g3, g4⟩
          · refine ⟨.sslOut rec res :: (copies ++ x), by rw [e, e1]; simp, ?_⟩
            subst g3 g4
            simp only [List.replicate, List.cons_append, List.nil_append, netBytes, tlsBytes, h1]
            congr 1
            by_cases h : rec.length < 1500
            · rw [Nat.min_eq_left (by omega), List.take_of_length_le (by omega), List.take_of_length_le (by omega)]
            · rw [Nat.min_eq_right (by omega)]
          · refine ⟨.sslOut rec res :: (copies ++ x), by rw [e, e1]; simp, ?_⟩
            have : k = 0 := by omega
            subst this g3 g4
            cases rc <;> simp_all [netBytes, tlsBytes])
  obtain ⟨x, e, h⟩ := key
  exact ⟨.ret (step env c op).2 :: x, congrArg (fun l => Effect.ret (step env c op).2 :: l) e, h⟩

/-- The run stays in states satisfying `P` after each call. -/
def Throughout (env : Env) (P : Conn → Prop) : Conn → List Op → Prop
  | _, [] => True
  | c, op :: ops => P (step env c op).1 ∧ Throughout env P (step env c op).1 ops

/-- **C28.** On a stream connection without outside plugins and with a network callback, over any sequence of calls other than
disconnect, the bytes the network callback accepted are exactly the bytes the TLS library was told were sent, in order: the
TLS byte stream. -/
theorem C28_stream_output (env : Env) {c : Conn} (hg : Good env c) (ops : List Op)
    (hd : ∀ op ∈ ops, op.api ≠ .disconnect)
    (ht : Throughout env (fun c => c.connType = .stream ∧ c.outsidePlugins.plugins = 0 ∧ c.cbs.outsideWrite = true) c ops) :
    ∃ x, (runFrom env c ops).log = x ++ c.log ∧ netBytes x = tlsBytes x := by
  induction ops generalizing c with
  | nil => exact ⟨[], rfl, rfl⟩
  | cons op ops ih =>
    obtain ⟨⟨h1, h2, h3⟩, h4⟩ := ht
    obtain ⟨x, e1, g1⟩ := step_stream_bytes hg op (hd op (by simp)) h1 h2 h3
    obtain ⟨y, e2, g2⟩ := ih (hg.step op) (fun o ho => hd o (by simp [ho])) h4
    refine ⟨y ++ x, ?_, by rw [netBytes_append, tlsBytes_append, g1, g2]⟩
    show (runFrom env (step env c op).1 ops).log = _
    rw [e2, e1]; simp

/-- **C28.** Each record is offered to the network callback once, cut to 1500 bytes, and the count reported to the TLS library is
the number of bytes passed, or the failure. -/
theorem C28_each_record {env : Env} {c : Conn} (hg : Good env c) (op : Op) {n o : Log} {rec : Bytes} {res : Option Nat}
    (hd : (step env c op).1.connType = .stream) (hp : (step env c op).1.outsidePlugins.plugins = 0)
    (h : (step env c op).1.log = n ++ .sslOut rec res :: (o ++ c.log)) :
    ((registered (o ++ c.log)).outsideWrite = true ∧ ∃ before rc, o ++ c.log = .outsideWrite (rec.take 1500) rc :: before ∧
        res = if rc = .success then some (rec.take 1500).length else none) ∨
    ((registered (o ++ c.log)).outsideWrite = false ∧ res = some (rec.take 1500).length) := by
  obtain ⟨b, m, r, n1, o1, n2, h1, h2, h3, h4, h5, h6, h7, h8, h9, h10⟩ := step_locate hg op (by trivial) h
  cases r with
  | recv sz =>
    obtain ⟨res, e⟩ := recv_log env m sz
    rw [e] at h8
    have := (split_in h8).1
    cases this
  | send rec' =>
    rw [h3.ty] at hd
    rw [h3.out] at hp
    obtain ⟨pl, copies, res', q, e, g1, g2, g3⟩ := tls_send env m rec' hd
    obtain ⟨rfl, rfl⟩ := g2 hp
    have hc : ∀ e ∈ copies, ∃ p r, e = .outsideWrite p r := by
      rcases g3 with ⟨g3, _⟩ | ⟨_, _, g3⟩
      · rw [g3]; simp
      · intro e he; obtain ⟨r, hr⟩ := transmitted_mem g3 e he; exact ⟨_, r, hr⟩
    rw [e] at h8
    obtain ⟨_, hr, hs, ho⟩ := split_out h8 hc g1
    subst hr hs
    have hlen : (rec.take 1500).length = min rec.length 1500 := by simp; omega
    rw [h9, ho]
    simp only [List.append_nil]
    rw [hlen]
    rcases g3 with ⟨g3, ⟨g4, g5⟩ | g4⟩ | ⟨_, g4, g3⟩
    · right; subst g3; exact ⟨by simp only [List.nil_append]; rw [h5]; exact g4, g5⟩
    · exact absurd hp g4
    · left
      rcases g3 with ⟨g3, g5⟩ | ⟨k, rc, g7, g6, g3, g5⟩
      · subst g3
        exact ⟨by simpa [registered, h5] using g4, m.log, .success, rfl, by simp [g5]⟩
      · have : k = 0 := by omega
        subst this g3
        exact ⟨by simpa [registered, h5] using g4, m.log, rc, rfl, by simp [g5, g6]⟩

end Lightway
