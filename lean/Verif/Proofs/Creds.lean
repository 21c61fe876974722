import Verif.Props.Sent

/-!
# What calls leave alone: the credentials a connection holds
-/

namespace Lightway
open Spec

/-- Not an AUTH message handed to the TLS layer. -/
def NoAuth : Effect → Prop
  | .sslCall (.write m) _ => m.head? ≠ some 4
  | _ => True

/-- The configured values other than the user name are the same. -/
structure SameConf (c0 c : Conn) : Prop where
  ty : c.authType = c0.authType
  pass : c.password = c0.password
  sni : c.sniHostname = c0.sniHostname
  buf : c.authBuffer = c0.authBuffer
  blen : c.authBufferLength = c0.authBufferLength
  mtu : c.outsideMtu = c0.outsideMtu

theorem SameConf.refl (c : Conn) : SameConf c c := ⟨rfl, rfl, rfl, rfl, rfl, rfl⟩
theorem SameConf.trans {a b c : Conn} (h1 : SameConf a b) (h2 : SameConf b c) : SameConf a c :=
  ⟨h2.ty.trans h1.ty, h2.pass.trans h1.pass, h2.sni.trans h1.sni, h2.buf.trans h1.buf, h2.blen.trans h1.blen,
   h2.mtu.trans h1.mtu⟩

/-- During a call that began with `c0`: the credentials are kept (a server receiving data stores the user name it
was sent), and AUTH messages carry them. -/
structure Kept (a : Api) (c0 c : Conn) : Prop where
  conf : SameConf c0 c
  user : c.username = c0.username ∨ (a = .outsideData ∧ c0.isServer = true)
  role : a = .outsideData → c.isServer = c0.isServer
  client : a ≠ .serverConnect → c0.isServer = false → c.isServer = false
  log : ∃ x, c.log = x ++ c0.log ∧ ∀ m ok, .sslCall (.write m) ok ∈ x → m.head? = some 4 →
    m = authMsg c0 ∨ (a = .outsideData ∧ c0.isServer = true)

theorem Kept.refl (a : Api) (c : Conn) : Kept a c c := ⟨.refl c, .inl rfl, fun _ => rfl, fun _ h => h, [], rfl, by simp⟩

theorem Kept.upd {a : Api} {c0 c c' : Conn} (h : Kept a c0 c) (hc : SameConf c c') (hu : c'.username = c.username)
    (hr : c'.isServer = c.isServer) (x : Log) (he : c'.log = x ++ c.log) (hx : ∀ e ∈ x, NoAuth e) :
    Kept a c0 c' := by
  obtain ⟨h1, h2, h3, h5, y, hy, h4⟩ := h
  refine ⟨h1.trans hc, by rw [hu]; exact h2, fun ha => hr.trans (h3 ha), fun g1 g2 => hr.trans (h5 g1 g2), x ++ y, by rw [he, hy]; simp, ?_⟩
  intro m ok hm hh
  rcases List.mem_append.mp hm with hm | hm
  · exact absurd hh (hx _ hm)
  · exact h4 m ok hm hh

theorem authMsg_congr {c0 c : Conn} (h : SameConf c0 c) (hu : c.username = c0.username) : authMsg c = authMsg c0 := by
  unfold authMsg authUserPassMsg
  rw [h.ty, h.pass, h.buf, h.blen, hu]

theorem NoSend.noAuth {e : Effect} (h : NoSend e) : NoAuth e := by
  cases e with
  | sslCall call ok => cases call <;> first | trivial | exact h.elim
  | _ => trivial

theorem Fine.kept {env : Env} {a : Api} {c0 c c' : Conn} (hf : Fine env c c') (h : Kept a c0 c) : Kept a c0 c' := by
  cases hf with
  | io r =>
    obtain ⟨x, e, hx⟩ := ioStep_noSend env c r
    obtain ⟨l, ps, sl, we, e', -⟩ := ioStep_frame env c r
    refine h.upd ?_ ?_ ?_ x e (fun y hy => (hx y hy).noAuth)
    · rw [e']; exact ⟨rfl, rfl, rfl, rfl, rfl, rfl⟩
    · rw [e']
    · rw [e']
  | err | pm => exact h.upd ⟨rfl, rfl, rfl, rfl, rfl, rfl⟩ rfl rfl [] rfl (by simp)
  | probe pm mtu ok hs h1 h2 =>
    obtain ⟨s1, s2, s3, s4, s5⟩ := probeMsg_shape c.pingNextId h1 h2
    exact h.upd ⟨rfl, rfl, rfl, rfl, rfl, rfl⟩ rfl rfl [_] rfl (by simp [NoAuth, s2])
  | note e he hn hw =>
    refine h.upd ⟨rfl, rfl, rfl, rfl, rfl, rfl⟩ rfl rfl [e] rfl ?_
    intro x hx
    simp at hx; subst hx
    cases x with
    | sslCall call ok => cases call <;> first | trivial | exact absurd rfl (hw _ _)
    | _ => trivial

theorem fine_kept {env : Env} {a : Api} {c0 c c' : Conn} (hf : Star (Fine env) c c') (h : Kept a c0 c) : Kept a c0 c' := by
  induction hf with
  | refl => exact h
  | tail _ s ih => exact s.kept ih

theorem Micro.kept {env : Env} {a : Api} {c0 c c' : Conn} (hm : Micro env a c c') (ha : a ≠ .setter) (h : Kept a c0 c) :
    Kept a c0 c' := by
  cases hm with
  | io r hnv => exact Fine.kept (.io c r hnv) h
  | state s hne _ =>
    refine h.upd (c' := setState c s) ?_ ?_ ?_ [.state s c.cbs.stateChange] (by simp [setState, hne]) (by simp [NoAuth])
    · unfold setState; split <;> exact ⟨rfl, rfl, rfl, rfl, rfl, rfl⟩
    · unfold setState; split <;> rfl
    · unfold setState; split <;> rfl
  | configure ctx _ =>
    obtain ⟨x, y, ok, ft, e, _⟩ := configure_shape env c ctx
    rw [e]
    exact h.upd ⟨rfl, rfl, rfl, rfl, rfl, rfl⟩ rfl rfl [_, _, _] rfl (by simp [NoAuth])
  | role b hc _ hb =>
    obtain ⟨h1, h2, h3, h5, y, hy, h4⟩ := h
    refine ⟨⟨h1.ty, h1.pass, h1.sni, h1.buf, h1.blen, h1.mtu⟩, h2,
      fun e => by (rcases hc with hc | hc <;> rw [hc] at e <;> cases e), fun g _ => ?_, .role b :: y, ?_, ?_⟩
    · show b = false
      cases b with
      | false => rfl
      | true => exact absurd (hb rfl) g
    · show _ :: c.log = _
      rw [hy]; rfl
    · intro m ok hm hh
      rcases List.mem_cons.mp hm with hm | hm
      · cases hm
      · exact h4 m ok hm hh
  | quiet e he =>
    refine h.upd ⟨rfl, rfl, rfl, rfl, rfl, rfl⟩ rfl rfl [e] rfl ?_
    intro x hx
    simp at hx; subst hx
    cases x with
    | sslCall call ok => cases call <;> first | trivial | exact he.elim
    | _ => trivial
  | auth e u _ he _ hd hr =>
    obtain ⟨h1, h2, h3, h5, y, hy, h4⟩ := h
    have hs : c0.isServer = true := by rw [← h3 hd]; exact hr
    refine ⟨⟨h1.ty, h1.pass, h1.sni, h1.buf, h1.blen, h1.mtu⟩, .inr ⟨hd, hs⟩, h3, h5, e :: y, ?_, ?_⟩
    · show e :: c.log = _
      rw [hy]; rfl
    · intro m ok _ _; exact .inr ⟨hd, hs⟩
  | write m ok hw hp hau =>
    obtain ⟨h1, h2, h3, h5, y, hy, h4⟩ := h
    refine ⟨⟨h1.ty, h1.pass, h1.sni, h1.buf, h1.blen, h1.mtu⟩, h2, h3, h5, .sslCall (.write m) ok :: y, ?_, ?_⟩
    · show _ :: c.log = _
      rw [hy]; rfl
    · intro m' ok' hm' hh
      rcases List.mem_cons.mp hm' with hm' | hm'
      · injection hm' with e _
        injection e with e
        subst e
        rcases h2 with h2 | h2
        · exact .inl ((hau hh).trans (authMsg_congr h1 h2))
        · exact .inr h2
      · exact h4 _ _ hm' hh
  | ping ok ha hst =>
    exact h.upd ⟨rfl, rfl, rfl, rfl, rfl, rfl⟩ rfl rfl [_] rfl (by simp [NoAuth, pingMsg, msgPing])
  | probeAck id _ hst hmsg => exact fine_kept (handleProbeAck_fine env c id) h
  | probeTimeout _ => exact fine_kept (handleProbeTimeout_fine env c) h
  | startBase _ => exact fine_kept (startBaseProbing_fine env c) h
  | creds _ _ _ _ _ _ hs => exact absurd hs ha
  | mtu _ hs => exact absurd hs ha
  | err | dueOff | sessCfg | sessClient | sessServer | rotate | sessSet
  | version | pingPending | fragNext | fragNew | fragPut | fragDel =>
    exact h.upd ⟨rfl, rfl, rfl, rfl, rfl, rfl⟩ rfl rfl [] rfl (by simp)
  | _ => exact h.upd ⟨rfl, rfl, rfl, rfl, rfl, rfl⟩ rfl rfl [_] rfl (by simp [NoAuth])

theorem Star.kept {env : Env} {a : Api} {c0 c c' : Conn} (hm : M env a c c') (ha : a ≠ .setter) (h : Kept a c0 c) :
    Kept a c0 c' := by
  induction hm with
  | refl => exact h
  | tail _ s ih => exact s.kept ha ih

/-- A call that is not a setter keeps the credentials. -/
theorem step_kept {env : Env} {c : Conn} (hg : Good env c) (op : Op) (ha : op.api ≠ .setter) :
    Kept op.api c (step env c op).1 := by
  obtain ⟨o, hi⟩ := hg.inv
  have h0 : Kept op.api c (entry c op) := by
    cases op <;> exact (Kept.refl _ c).upd ⟨rfl, rfl, rfl, rfl, rfl, rfl⟩ rfl rfl [.api _] rfl (by simp [NoAuth])
  exact ((exec_star env o c op hi).kept ha h0).upd ⟨rfl, rfl, rfl, rfl, rfl, rfl⟩ rfl rfl [_] rfl (by simp [NoAuth])

end Lightway
