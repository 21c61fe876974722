import Verif.Spec.Wire
import Verif.Proofs.Trav5
import Verif.Proofs.Str

/-!
# What handing a message to the TLS layer adds to the history
-/

namespace Lightway
open Spec

theorem writes_append {l : Log} (log : Log) (h : ∀ x ∈ l, CbIo x) : writes (l ++ log) = writes log := by
  induction l with
  | nil => rfl
  | cons x xs ih =>
    have ih := ih (fun y hy => h y (by simp [hy]))
    have hx := h x (by simp)
    rw [List.cons_append]
    cases x <;> simp_all [CbIo, writes]

theorem delivered_append {l : Log} (log : Log) (h : ∀ x ∈ l, CbIo x) :
    delivered (l ++ log) = delivered log := by
  induction l with
  | nil => rfl
  | cons x xs ih =>
    have ih := ih (fun y hy => h y (by simp [hy]))
    have hx := h x (by simp)
    rw [List.cons_append]
    cases x <;> simp_all [CbIo, delivered]

theorem CbExt.writes {c c' : Conn} (h : CbExt c c') : Spec.writes c'.log = Spec.writes c.log := by
  obtain ⟨l, e, h⟩ := h; rw [e, writes_append _ h]

theorem CbExt.delivered {c c' : Conn} (h : CbExt c c') : Spec.delivered c'.log = Spec.delivered c.log := by
  obtain ⟨l, e, h⟩ := h; rw [e, delivered_append _ h]

theorem sendMessage_log (env : Env) (c : Conn) (m : Bytes) :
    ∃ l ok, (sendMessage env c m).1.log = l ++ .sslCall (.write m) ok :: c.log ∧ ∀ x ∈ l, CbIo x := by
  have h : ∃ r, (sendMessage env c m).1.log = (sslDo env c (.write m)).1.log ∧
      r = (if c.wolfSet then env.ssl c.log (.write m) else nullSslRes) := by
    refine ⟨_, ?_, rfl⟩
    obtain ⟨e, he⟩ := sendMessage_eq env c m
    rw [he]
  obtain ⟨r, h1, hr⟩ := h
  obtain ⟨l, e, hl⟩ := ioRun_cbExt env (c.emit (.sslCall (.write m) r.ok)) r.io
  refine ⟨l, r.ok, ?_, hl⟩
  rw [h1]
  simp only [sslDo, ← hr]
  exact e

theorem writes_sendMessage (env : Env) (c : Conn) (m : Bytes) :
    writes (sendMessage env c m).1.log = m :: writes c.log := by
  obtain ⟨l, ok, e, hl⟩ := sendMessage_log env c m
  rw [e, writes_append _ hl, writes]

theorem delivered_sendMessage (env : Env) (c : Conn) (m : Bytes) :
    delivered (sendMessage env c m).1.log = delivered c.log := by
  obtain ⟨l, ok, e, hl⟩ := sendMessage_log env c m
  rw [e, delivered_append _ hl, delivered]
  intro p h; cases h

theorem ingress_cbExt (c : Conn) (ch : Chain) (pkt : Bytes) (cap : Nat) :
    CbExt c { c with log := (ch.ingress c.log pkt cap).1 } := by
  obtain ⟨l, h1, h2⟩ := Chain.ingress_log ch c.log pkt cap
  refine ⟨l, h1, ?_⟩
  intro x hx
  obtain ⟨p, r, rfl⟩ := h2 x hx
  trivial

end Lightway
