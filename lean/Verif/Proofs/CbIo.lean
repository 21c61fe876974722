import Verif.Proofs.Frame

/-!
# What the TLS library's I/O callbacks add to the history
-/

namespace Lightway
open Spec

/-- Effects of the TLS library's I/O callbacks and of plugins. -/
def CbIo : Effect → Prop
  | .sslOut .. | .sslIn .. | .outsideWrite .. | .pluginEgress .. | .pluginIngress .. => True
  | _ => False

/-- The history grew by I/O-callback effects only. -/
def CbExt (c c' : Conn) : Prop := ∃ l, c'.log = l ++ c.log ∧ ∀ x ∈ l, CbIo x

theorem CbExt.refl (c : Conn) : CbExt c c := ⟨[], rfl, by simp⟩
theorem CbExt.trans {a b c : Conn} (h1 : CbExt a b) (h2 : CbExt b c) : CbExt a c := by
  obtain ⟨l1, e1, h1⟩ := h1
  obtain ⟨l2, e2, h2⟩ := h2
  refine ⟨l2 ++ l1, by rw [e2, e1]; simp, ?_⟩
  intro x hx
  rcases List.mem_append.mp hx with h | h
  · exact h2 x h
  · exact h1 x h
theorem CbExt.emit (c : Conn) {e : Effect} (h : CbIo e) : CbExt c (c.emit e) :=
  ⟨[e], rfl, by simpa using h⟩

theorem egress_cbExt (c : Conn) (ch : Chain) (pkt : Bytes) (cap : Nat) :
    CbExt c { c with log := (ch.egress c.log pkt cap).1 } := by
  obtain ⟨l, h1, h2⟩ := Chain.egress_log ch c.log pkt cap
  refine ⟨l, h1, ?_⟩
  intro x hx
  have := h2 x hx
  obtain ⟨p, r, rfl⟩ := this
  trivial

theorem dtlsWrite_cbExt (env : Env) (c : Conn) (rec : Bytes) : CbExt c (dtlsWrite env c rec).1 := by
  unfold dtlsWrite
  split
  · exact .refl c
  have h0 := egress_cbExt c c.outsidePlugins (wireHeader c ++ rec) maxWireMtu
  simp only []
  split
  · exact h0
  split
  · exact h0
  split
  · exact h0
  have w : ∀ (c' : Conn) p, CbExt c' (outsideWriteCb env c' p).1 := fun c' p => .emit c' trivial
  have h1 := h0.trans (w _ (c.outsidePlugins.egress c.log (wireHeader c ++ rec) maxWireMtu).2.1)
  split
  · exact h1
  split
  · have h2 := h1.trans (w _ (c.outsidePlugins.egress c.log (wireHeader c ++ rec) maxWireMtu).2.1)
    split
    · exact h2
    · have h3 := h2.trans (w _ (c.outsidePlugins.egress c.log (wireHeader c ++ rec) maxWireMtu).2.1)
      split <;> exact h3
  · exact h1

theorem tlsWrite_cbExt (env : Env) (c : Conn) (rec : Bytes) : CbExt c (tlsWrite env c rec).1 := by
  unfold tlsWrite
  simp only []
  generalize (if rec.length < maxWireMtu then rec.length else maxWireMtu) = n
  have h0 := egress_cbExt c c.outsidePlugins (rec.take n) maxWireMtu
  split
  · exact h0
  split
  · exact h0
  split
  · exact h0
  have h1 := h0.trans (CbExt.emit _ (e := .outsideWrite (c.outsidePlugins.egress c.log (rec.take n) maxWireMtu).2.1
    (env.outsideWrite (c.outsidePlugins.egress c.log (rec.take n) maxWireMtu).1
      (c.outsidePlugins.egress c.log (rec.take n) maxWireMtu).2.1)) trivial)
  split <;> exact h1

theorem ioStep_cbExt (env : Env) (c : Conn) (r : IoReq) : CbExt c (ioStep env c r) := by
  cases r with
  | send rec =>
    simp only [ioStep]
    cases c.connType
    · exact (dtlsWrite_cbExt env c rec).trans (.emit _ trivial)
    · exact (tlsWrite_cbExt env c rec).trans (.emit _ trivial)
  | recv sz =>
    simp only [ioStep]
    cases c.connType
    · refine CbExt.trans ?_ (.emit _ trivial)
      simp only [dtlsRead]
      split
      · exact .refl c
      · split
        · exact .refl c
        · split <;> exact ⟨[], rfl, by simp⟩
    · refine CbExt.trans ?_ (.emit _ trivial)
      simp only [tlsRead]
      split
      · exact .refl c
      · exact ⟨[], rfl, by simp⟩

theorem ioRun_cbExt (env : Env) (c : Conn) (io : List IoReq) : CbExt c (ioRun env c io) := by
  unfold ioRun
  induction io generalizing c with
  | nil => exact .refl c
  | cons r rest ih => exact (ioStep_cbExt env c r).trans (ih _)

theorem ioRun_netIo (env : Env) (c : Conn) (io : List IoReq) :
    ∃ l, (ioRun env c io).log = l ++ c.log ∧ ∀ x ∈ l, NetIo x := by
  obtain ⟨l, e, hl⟩ := ioRun_cbExt env c io
  obtain ⟨l', ps, sl, we, e', hl'⟩ := ioRun_frame env c io
  have : l = l' := by
    rw [e'] at e; exact (List.append_cancel_right e).symm
  subst this
  refine ⟨l, e, fun x hx => ?_⟩
  have h1 := hl x hx
  have h2 := hl' x hx
  cases x <;> simp_all [CbIo, IoEff, NetIo]

theorem sslDo_says (env : Env) (c : Conn) (call : SslCall) :
    ∃ l, (sslDo env c call).1.log = l ++ .sslCall call (sslDo env c call).2.ok :: c.log ∧ ∀ x ∈ l, NetIo x := by
  unfold sslDo
  generalize (if c.wolfSet = true then env.ssl c.log call else nullSslRes) = r
  exact ioRun_netIo env (c.emit (.sslCall call r.ok)) r.io

theorem sslDo_negotiated (env : Env) (c : Conn) (h : (sslDo env c .negotiate).2.ok = true) :
    Negotiated (sslDo env c .negotiate).1.log := by
  obtain ⟨l, e, hl⟩ := sslDo_says env c .negotiate
  rw [h] at e
  exact ⟨l, c.log, e, hl⟩

end Lightway
