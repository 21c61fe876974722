import Verif.Spec.Ctx
import Verif.Props.ConfigP

/-!
# Contexts: C84, C85
-/

namespace Lightway

/-- Starting as a plan. -/
theorem startCommon_shape (t : TlsCtxEnv) (o : CtxObj) :
    let plan : List CtxCall := match o.base.connType with
      | .stream => [.ioRecv true, .ioSend true]
      | .datagram => [.ioRecv false, .ioSend false, .secureReneg]
    let a := attempt t o.calls plan
    o.startCommon t = ({ o with
        base := { o.base with minMajor := 1, minMinor := 0, maxMajor := 1, maxMinor := 2 }
        calls := o.calls ++ a.1 }, match a.2 with | none => .success | some f => failureCode f) := by
  unfold CtxObj.startCommon CtxObj.tls
  have hcases : o.base.connType = .stream ∨ o.base.connType = .datagram := by cases o.base.connType <;> simp
  rcases hcases with hc | hc
  · simp [attempt, hc, CtxCall.cannotFail, wireMinMajor, wireMinMinor, wireMaxMajor, wireMaxMinor]
  · by_cases h : t (o.calls ++ [.ioRecv false] ++ [.ioSend false]) .secureReneg = .ok
    · simp only [List.append_assoc] at h
      simp at h
      simp [attempt, hc, CtxCall.cannotFail, wireMinMajor, wireMinMinor, wireMaxMajor, wireMaxMinor, h]
    · simp only [List.append_assoc] at h
      simp at h
      simp [attempt, hc, CtxCall.cannotFail, wireMinMajor, wireMinMinor, wireMaxMajor, wireMaxMinor, h, failureCode]

theorem attempt_cons_ok {t : TlsCtxEnv} {b : List CtxCall} {c : CtxCall} {plan : List CtxCall} (h : t b c = .ok) :
    attempt t b (c :: plan) = (c :: (attempt t (b ++ [c]) plan).1, (attempt t (b ++ [c]) plan).2) := by
  rw [attempt, if_pos (.inr h)]

theorem attempt_cons_fail {t : TlsCtxEnv} {b : List CtxCall} {c : CtxCall} {plan : List CtxCall}
    (hf : c.cannotFail = false) (h : t b c ≠ .ok) :
    attempt t b (c :: plan) = ([c], some (c, t b c)) := by
  rw [attempt, if_neg]
  rintro (h' | h')
  · rw [hf] at h'; cases h'
  · exact h h'

/-- What a start that passed its validity check leaves behind. -/
def Started (t : TlsCtxEnv) (o : CtxObj) (plan : List CtxCall) (r : CtxObj × RC) : Prop :=
  let a := attempt t o.calls plan
  r.2 = (match a.2 with | none => .success | some f => failureCode f) ∧
  r.1.calls = o.calls ++ a.1 ∧
  r.1 = { o with
    calls := r.1.calls
    base := if a.1.any CtxCall.isIoRecv then
        { o.base with minMajor := 1, minMinor := 0, maxMajor := 1, maxMinor := 2 } else o.base }

/-- One planned call that succeeds. -/
theorem Started.ok {t : TlsCtxEnv} {o : CtxObj} {c : CtxCall} {plan : List CtxCall} {r : CtxObj × RC}
    (hio : c.isIoRecv = false)
    (h : t o.calls c = .ok) (hs : Started t { o with calls := o.calls ++ [c] } plan r) :
    Started t o (c :: plan) r := by
  unfold Started at hs ⊢
  rw [attempt_cons_ok h]
  obtain ⟨h1, h2, h3⟩ := hs
  refine ⟨h1, by simpa using h2, ?_⟩
  simp only [List.any_cons, hio, Bool.false_or]
  exact h3

/-- One planned call that fails. -/
theorem Started.fail {t : TlsCtxEnv} {o : CtxObj} {c : CtxCall} {plan : List CtxCall} {rc : RC}
    (hio : c.isIoRecv = false) (hf : c.cannotFail = false)
    (h : t o.calls c ≠ .ok) (hrc : rc = failureCode (c, t o.calls c)) :
    Started t o (c :: plan) ({ o with calls := o.calls ++ [c] }, rc) := by
  unfold Started
  rw [attempt_cons_fail hf h]
  refine ⟨hrc, rfl, ?_⟩
  simp only [List.any_cons, hio, Bool.false_or, List.any_nil]
  rfl

theorem Started.common {t : TlsCtxEnv} {o : CtxObj} {plan : List CtxCall}
    (hp : plan = match o.base.connType with
      | .stream => [.ioRecv true, .ioSend true]
      | .datagram => [.ioRecv false, .ioSend false, .secureReneg]) :
    Started t o plan (o.startCommon t) := by
  have h := startCommon_shape t o
  simp only at h
  rw [← hp] at h
  unfold Started
  rw [h]
  refine ⟨rfl, rfl, ?_⟩
  have hany : (attempt t o.calls plan).1.any CtxCall.isIoRecv = true := by
    rw [hp]
    cases o.base.connType <;> simp [attempt, CtxCall.cannotFail, CtxCall.isIoRecv]
  rw [hany]
  rfl

theorem started_common_of {t : TlsCtxEnv} {o : CtxObj} {plan : List CtxCall} {ty : ConnType} (hc : o.base.connType = ty)
    (hp : plan = match (generalizing := false) ty with
      | .stream => [.ioRecv true, .ioSend true]
      | .datagram => [.ioRecv false, .ioSend false, .secureReneg]) :
    Started t o plan (o.startCommon t) := Started.common (by rw [hc]; exact hp)

theorem failureCode_ne (f : CtxCall × TlsRes) : failureCode f ≠ .success := by
  obtain ⟨c, r⟩ := f
  cases c <;> cases r <;> intro h <;> cases h

theorem attempt_all {t : TlsCtxEnv} : ∀ {plan b : List CtxCall}, (attempt t b plan).2 = none → (attempt t b plan).1 = plan
  | [], _, _ => rfl
  | c :: plan, b, h => by
    rw [attempt] at h ⊢
    by_cases hc : c.cannotFail = true ∨ t b c = .ok
    · rw [if_pos hc] at h ⊢
      show c :: _ = _
      rw [attempt_all h]
    · rw [if_neg hc] at h; cases h

/-- The last calls of a start. -/
def ioPlan : ConnType → List CtxCall
  | .stream => [.ioRecv true, .ioSend true]
  | .datagram => [.ioRecv false, .ioSend false, .secureReneg]

theorem attempt_mem {t : TlsCtxEnv} : ∀ {plan b : List CtxCall} {f : CtxCall × TlsRes},
    (attempt t b plan).2 = some f → f.1 ∈ plan
  | [], _, _, h => by cases h
  | c :: plan, b, f, h => by
    rw [attempt] at h
    by_cases hc : c.cannotFail = true ∨ t b c = .ok
    · rw [if_pos hc] at h
      exact List.mem_cons_of_mem _ (attempt_mem h)
    · rw [if_neg hc] at h
      cases h
      exact List.mem_cons_self

/-- How an attempt of a start can end: completely; at secure renegotiation; or before the I/O callbacks. -/
theorem attempt_io {t : TlsCtxEnv} {ty : ConnType} : ∀ {p b : List CtxCall}, (∀ c ∈ p, c.isIoRecv = false) →
    ((attempt t b (p ++ ioPlan ty)).2 = none ∧ (attempt t b (p ++ ioPlan ty)).1.any CtxCall.isIoRecv = true) ∨
    ((∃ r, (attempt t b (p ++ ioPlan ty)).2 = some (.secureReneg, r)) ∧
      (attempt t b (p ++ ioPlan ty)).1.any CtxCall.isIoRecv = true ∧ ty = .datagram) ∨
    (∃ f, (attempt t b (p ++ ioPlan ty)).2 = some f ∧ (attempt t b (p ++ ioPlan ty)).1.any CtxCall.isIoRecv = false)
  | [], b, _ => by
    cases ty with
    | stream => exact .inl ⟨by simp [ioPlan, attempt, CtxCall.cannotFail], by simp [ioPlan, attempt, CtxCall.cannotFail, CtxCall.isIoRecv]⟩
    | datagram =>
      by_cases h : t (b ++ [CtxCall.ioRecv false] ++ [CtxCall.ioSend false]) .secureReneg = .ok
      · simp only [List.append_assoc] at h
        simp at h
        exact .inl ⟨by simp [ioPlan, attempt, CtxCall.cannotFail, h], by simp [ioPlan, attempt, CtxCall.cannotFail, CtxCall.isIoRecv]⟩
      · simp only [List.append_assoc] at h
        simp at h
        exact .inr (.inl ⟨⟨_, by simp [ioPlan, attempt, CtxCall.cannotFail, h]; rfl⟩,
          by simp [ioPlan, attempt, CtxCall.cannotFail, CtxCall.isIoRecv], rfl⟩)
  | c :: p, b, hp => by
    have hc0 := hp c List.mem_cons_self
    rw [List.cons_append, attempt]
    by_cases hc : c.cannotFail = true ∨ t b c = .ok
    · rw [if_pos hc]
      simp only [List.any_cons, hc0, Bool.false_or]
      exact attempt_io (fun c hc => hp c (List.mem_cons_of_mem _ hc))
    · rw [if_neg hc]
      exact .inr (.inr ⟨_, rfl, by simp [hc0]⟩)

theorem ite_ok {α : Type} {r : TlsRes} {a b : α} (h : r = .ok) : (if r ≠ .ok then a else b) = b := if_neg (fun h' => h' h)
theorem ite_fail {α : Type} {r : TlsRes} {a b : α} (h : ¬ r = .ok) : (if r ≠ .ok then a else b) = a := if_pos h

theorem loadError_eq (p : Ptr) (n : Nat) (r : TlsRes) : loadError r = failureCode (.loadVerify p n, r) := by
  cases r <;> rfl

theorem start_shape (t : TlsCtxEnv) (o : CtxObj) {ca : Ptr × Nat} (hv : ctxValidClient o.base = .success)
    (hca : o.ca = some ca) : Started t o (clientPlan o.base.connType o.base.useChacha ca) (o.start t) := by
  have hca' : o = { o with ca := some ca } := by rw [← hca]
  rw [hca']
  unfold CtxObj.start CtxObj.tls
  rw [if_neg (by rw [hv]; exact fun h => h rfl)]
  cases hc : o.base.connType with
  | stream =>
    simp only [hc, Option.getD_some, if_true, clientPlan]
    generalize (if o.base.useChacha then "TLS13-CHACHA20-POLY1305-SHA256" else "TLS13-AES256-GCM-SHA384") = str
    by_cases h1 : t o.calls (.new .tls13Client) = .ok
    · rw [ite_ok h1]
      refine Started.ok rfl h1 ?_
      by_cases h2 : t (o.calls ++ [.new .tls13Client]) (.loadVerify ca.1 ca.2) = .ok
      · rw [ite_ok h2]
        refine Started.ok rfl h2 ?_
        by_cases h3 : t (o.calls ++ [.new .tls13Client] ++ [.loadVerify ca.1 ca.2]) (.ciphers str) = .ok
        · rw [ite_ok h3]
          refine Started.ok rfl h3 ?_
          apply Started.common; simp only [hc]
        · rw [ite_fail h3]
          exact Started.fail rfl rfl h3 rfl
      · rw [ite_fail h2]
        exact Started.fail rfl rfl h2 (loadError_eq _ _ _)
    · rw [ite_fail h1]
      exact Started.fail rfl rfl h1 rfl
  | datagram =>
    simp only [hc, Option.getD_some, reduceCtorEq, if_false, clientPlan]
    generalize (if o.base.useChacha then "TLS13-CHACHA20-POLY1305-SHA256:ECDHE-RSA-CHACHA20-POLY1305"
      else "TLS13-AES256-GCM-SHA384:ECDHE-RSA-AES256-GCM-SHA384") = str
    by_cases h1 : t o.calls (.new .dtlsClient) = .ok
    · rw [ite_ok h1]
      refine Started.ok rfl h1 ?_
      by_cases h2 : t (o.calls ++ [.new .dtlsClient]) (.loadVerify ca.1 ca.2) = .ok
      · rw [ite_ok h2]
        refine Started.ok rfl h2 ?_
        by_cases h3 : t (o.calls ++ [.new .dtlsClient] ++ [.loadVerify ca.1 ca.2]) .minDtls12 = .ok
        · rw [ite_ok h3]
          refine Started.ok rfl h3 ?_
          by_cases h4 : t (o.calls ++ [.new .dtlsClient] ++ [.loadVerify ca.1 ca.2] ++ [.minDtls12]) (.ciphers str) = .ok
          · rw [ite_ok h4]
            refine Started.ok rfl h4 ?_
            apply Started.common; simp only [hc]
          · rw [ite_fail h4]
            exact Started.fail rfl rfl h4 rfl
        · rw [ite_fail h3]
          exact Started.fail rfl rfl h3 rfl
      · rw [ite_fail h2]
        exact Started.fail rfl rfl h2 (loadError_eq _ _ _)
    · rw [ite_fail h1]
      exact Started.fail rfl rfl h1 rfl

theorem startServer_shape (t : TlsCtxEnv) (o : CtxObj) {cert key : Ptr} (hv : ctxValidServer o.base = .success)
    (hcert : o.cert = some cert) (hkey : o.key = some key) :
    Started t o (serverPlan o.base.connType cert key) (o.startServer t) := by
  have ho : o = { o with cert := some cert, key := some key } := by rw [← hcert, ← hkey]
  rw [ho]
  unfold CtxObj.startServer CtxObj.tls
  rw [if_neg (by rw [hv]; exact fun h => h rfl)]
  cases hc : o.base.connType with
  | stream =>
    simp only [hc, Option.getD_some, if_true, serverPlan]
    by_cases h1 : t o.calls (.new .tls13Server) = .ok
    · rw [ite_ok h1]
      refine Started.ok rfl h1 ?_
      by_cases h2 : t (o.calls ++ [.new .tls13Server]) (.certFile cert) = .ok
      · rw [ite_ok h2]
        refine Started.ok rfl h2 ?_
        by_cases h3 : t (o.calls ++ [.new .tls13Server] ++ [.certFile cert]) (.keyFile key) = .ok
        · rw [ite_ok h3]
          refine Started.ok rfl h3 ?_
          by_cases h4 : t (o.calls ++ [.new .tls13Server] ++ [.certFile cert] ++ [.keyFile key]) .initRng = .ok
          · rw [ite_ok h4]
            refine Started.ok rfl h4 ?_
            generalize hb : o.calls ++ [.new .tls13Server] ++ [.certFile cert] ++ [.keyFile key] ++ [.initRng] = b
            by_cases h5 : t b (.ciphers "TLS13-AES256-GCM-SHA384:TLS13-CHACHA20-POLY1305-SHA256") = .ok
            · rw [ite_ok h5]
              refine Started.ok rfl h5 ?_
              refine dite (t (b ++ [.ciphers "TLS13-AES256-GCM-SHA384:TLS13-CHACHA20-POLY1305-SHA256"])
                (.groups ["P521_ML_KEM_1024", "P521_KYBER_LEVEL5", "P256_KYBER_LEVEL1", "ECC_SECP256R1", "ECC_X25519"])
                = .ok) (fun h6 => ?_) (fun h6 => ?_)
              · rw [ite_ok h6]
                refine Started.ok rfl h6 ?_
                apply Started.common; simp only [hc]
              · rw [ite_fail h6]
                exact Started.fail rfl rfl h6 rfl
            · rw [ite_fail h5]
              exact Started.fail rfl rfl h5 rfl
          · rw [ite_fail h4]
            exact Started.fail rfl rfl h4 rfl
        · rw [ite_fail h3]
          exact Started.fail rfl rfl h3 rfl
      · rw [ite_fail h2]
        exact Started.fail rfl rfl h2 rfl
    · rw [ite_fail h1]
      exact Started.fail rfl rfl h1 rfl
  | datagram =>
    simp only [hc, Option.getD_some, reduceCtorEq, if_false, serverPlan]
    by_cases h1 : t o.calls (.new .dtlsServer) = .ok
    · rw [ite_ok h1]
      refine Started.ok rfl h1 ?_
      by_cases h2 : t (o.calls ++ [.new .dtlsServer]) (.certFile cert) = .ok
      · rw [ite_ok h2]
        refine Started.ok rfl h2 ?_
        by_cases h3 : t (o.calls ++ [.new .dtlsServer] ++ [.certFile cert]) (.keyFile key) = .ok
        · rw [ite_ok h3]
          refine Started.ok rfl h3 ?_
          by_cases h4 : t (o.calls ++ [.new .dtlsServer] ++ [.certFile cert] ++ [.keyFile key]) .initRng = .ok
          · rw [ite_ok h4]
            refine Started.ok rfl h4 ?_
            generalize hb : o.calls ++ [.new .dtlsServer] ++ [.certFile cert] ++ [.keyFile key] ++ [.initRng] = b
            generalize ("TLS13-CHACHA20-POLY1305-SHA256:ECDHE-RSA-CHACHA20-POLY1305" ++
               ":TLS13-AES256-GCM-SHA384:ECDHE-RSA-AES256-GCM-SHA384") = str
            by_cases h5 : t b (.ciphers str) = .ok
            · rw [ite_ok h5]
              refine Started.ok rfl h5 ?_
              refine dite (t (b ++ [.ciphers str])
                (.groups ["P521_ML_KEM_1024", "P521_KYBER_LEVEL5", "P256_KYBER_LEVEL1", "ECC_SECP256R1", "ECC_X25519"])
                = .ok) (fun h6 => ?_) (fun h6 => ?_)
              · rw [ite_ok h6]
                refine Started.ok rfl h6 ?_
                apply Started.common; simp only [hc]
              · rw [ite_fail h6]
                exact Started.fail rfl rfl h6 rfl
            · rw [ite_fail h5]
              exact Started.fail rfl rfl h5 rfl
          · rw [ite_fail h4]
            exact Started.fail rfl rfl h4 rfl
        · rw [ite_fail h3]
          exact Started.fail rfl rfl h3 rfl
      · rw [ite_fail h2]
        exact Started.fail rfl rfl h2 rfl
    · rw [ite_fail h1]
      exact Started.fail rfl rfl h1 rfl

/-! ### Histories -/

/-- A setting that every call either overwrites with what the entry gives or keeps is, after any history, the last value
given. -/
theorem track {α : Type} (t : TlsCtxEnv) (I : CtxObj → Prop) (g : CtxObj → α) (f : CtxEntry → Option α)
    (hI : ∀ o op, I o → I (o.step t op).1)
    (hs : ∀ o op, I o → g (o.step t op).1 =
      (f ⟨op, (o.step t op).2, (o.step t op).1.calls.drop o.calls.length⟩).getD (g o)) :
    ∀ ops o, I o → g (o.runFrom t ops).1 = (lastGiven f (o.runFrom t ops).2).getD (g o) := by
  intro ops
  induction ops with
  | nil => intro o _; rfl
  | cons op ops ih =>
    intro o ho
    show g ((o.step t op).1.runFrom t ops).1 = (lastGiven f (_ :: ((o.step t op).1.runFrom t ops).2)).getD (g o)
    rw [ih _ (hI o op ho), hs o op ho]
    unfold lastGiven
    rw [List.filterMap_cons]
    cases f ⟨op, (o.step t op).2, (o.step t op).1.calls.drop o.calls.length⟩ with
    | none => rfl
    | some v =>
      show _ = ((v :: _).getLast?).getD _
      rw [List.getLast?_cons]
      rfl

/-- The flags agree with the pointers. -/
structure CtxOk (o : CtxObj) : Prop where
  ca : o.base.caSet = o.ca.isSome
  cert : o.base.certSet = o.cert.isSome
  key : o.base.keySet = o.key.isSome
  cb : ∀ k, k.has o.base.cbs = (o.cb k).isSome
  dn : o.base.serverDn.length = 51

theorem put_has (s : Callbacks) (b : Bool) (j k : CbKind) : j.has (k.put b s) = if j = k then b else j.has s := by
  cases j <;> cases k <;> rfl

theorem start_step (t : TlsCtxEnv) (o : CtxObj) (h : CtxOk o) (op : CtxOp) (hop : op = .start ∨ op = .startServer) :
    ∃ calls b, (o.step t op).1 = { o with calls := o.calls ++ calls
                                          base := if b then { o.base with minMajor := 1, minMinor := 0, maxMajor := 1, maxMinor := 2 } else o.base } ∧
      b = calls.any CtxCall.isIoRecv := by
  have key : ∀ plan r, Started t o plan r → ∃ calls b, r.1 = { o with
      calls := o.calls ++ calls
      base := if b then { o.base with minMajor := 1, minMinor := 0, maxMajor := 1, maxMinor := 2 } else o.base } ∧
      b = calls.any CtxCall.isIoRecv := by
    intro plan r hr
    obtain ⟨-, h2, h3⟩ := hr
    refine ⟨(attempt t o.calls plan).1, _, ?_, rfl⟩
    rw [← h2]; exact h3
  have triv : ∃ calls b, o = { o with
      calls := o.calls ++ calls
      base := if b then { o.base with minMajor := 1, minMinor := 0, maxMajor := 1, maxMinor := 2 } else o.base } ∧
      b = calls.any CtxCall.isIoRecv := ⟨[], false, by simp, rfl⟩
  rcases hop with rfl | rfl
  · show ∃ calls b, (o.start t).1 = _ ∧ _
    by_cases hv : ctxValidClient o.base = .success
    · have hca : o.base.caSet = true := by
        unfold ctxValidClient at hv
        cases h2 : o.base.caSet
        · rw [h2] at hv
          cases h3 : o.base.cbs.outsideWrite <;> rw [h3] at hv <;> cases hv
        · rfl
      rw [h.ca, Option.isSome_iff_exists] at hca
      obtain ⟨ca, hca⟩ := hca
      exact key _ _ (start_shape t o hv hca)
    · unfold CtxObj.start
      rw [if_pos hv]
      exact triv
  · show ∃ calls b, (o.startServer t).1 = _ ∧ _
    by_cases hv : ctxValidServer o.base = .success
    · have hck : o.base.certSet = true ∧ o.base.keySet = true := by
        unfold ctxValidServer at hv
        cases h3 : o.base.cbs.outsideWrite <;> rw [h3] at hv
        · cases hv
        · cases h4 : o.base.certSet <;> cases h5 : o.base.keySet <;> rw [h4, h5] at hv
          · cases hv
          · cases hv
          · cases hv
          · exact ⟨rfl, rfl⟩
      rw [h.cert, h.key, Option.isSome_iff_exists, Option.isSome_iff_exists] at hck
      obtain ⟨⟨ce, hce⟩, ⟨ke, hke⟩⟩ := hck
      exact key _ _ (startServer_shape t o hv hce hke)
    · unfold CtxObj.startServer
      rw [if_pos hv]
      exact triv

theorem CtxOk.step {o : CtxObj} (h : CtxOk o) (t : TlsCtxEnv) (op : CtxOp) : CtxOk (o.step t op).1 := by
  have hst : op = .start ∨ op = .startServer → CtxOk (o.step t op).1 := by
    intro hop
    obtain ⟨calls, b, e, -⟩ := start_step t o h op hop
    rw [e]
    cases b
    · exact ⟨h.ca, h.cert, h.key, h.cb, h.dn⟩
    · exact ⟨h.ca, h.cert, h.key, h.cb, h.dn⟩
  have hmin : ∀ maj min, CtxOk { o with base := (setMinVersion o.base maj min).1 } := by
    intro maj min
    unfold Lightway.setMinVersion
    simp only
    generalize (if maj = 0 ∧ min = 0 then (wireMinMajor, wireMinMinor) else (maj, min)) = v
    cases validWireVersion v.1 v.2 <;> exact ⟨h.ca, h.cert, h.key, h.cb, h.dn⟩
  have hmax : ∀ maj min, CtxOk { o with base := (setMaxVersion o.base maj min).1 } := by
    intro maj min
    unfold Lightway.setMaxVersion
    simp only
    generalize (if maj = 0 ∧ min = 0 then (wireMaxMajor, wireMaxMinor) else (maj, min)) = v
    cases validWireVersion v.1 v.2 <;> exact ⟨h.ca, h.cert, h.key, h.cb, h.dn⟩
  cases op with
  | setMinVersion maj min => exact hmin maj min
  | setMaxVersion maj min => exact hmax maj min
  | setServerDn s => exact ⟨h.ca, h.cert, h.key, h.cb, (C43_server_dn_partial o.base h.dn s).2.2.2⟩
  | setUseChacha b => exact ⟨h.ca, h.cert, h.key, h.cb, h.dn⟩
  | setCa buf len =>
    show CtxOk { o with base := (setCa o.base len).1, ca := if (setCa o.base len).2 = .success then some (buf, len) else o.ca }
    unfold Lightway.setCa
    by_cases h0 : len = 0
    · rw [if_pos h0]; exact ⟨h.ca, h.cert, h.key, h.cb, h.dn⟩
    · rw [if_neg h0]; exact ⟨rfl, h.cert, h.key, h.cb, h.dn⟩
  | setCertKey c k => exact ⟨h.ca, rfl, rfl, h.cb, h.dn⟩
  | setConnType n =>
    show CtxOk { o with base := (setConnType o.base n).1 }
    unfold Lightway.setConnType
    by_cases h0 : n = 0
    · rw [if_pos h0]; exact ⟨h.ca, h.cert, h.key, h.cb, h.dn⟩
    · rw [if_neg h0]
      by_cases h1 : n = 1
      · rw [if_pos h1]; exact ⟨h.ca, h.cert, h.key, h.cb, h.dn⟩
      · rw [if_neg h1]; exact ⟨h.ca, h.cert, h.key, h.cb, h.dn⟩
  | setCb k p =>
    refine ⟨h.ca, h.cert, h.key, fun j => ?_, h.dn⟩
    show j.has (k.put p.isSome o.base.cbs) = (if j = k then p else o.cb j).isSome
    rw [put_has]
    by_cases hj : j = k
    · rw [if_pos hj, if_pos hj]
    · rw [if_neg hj, if_neg hj, h.cb]
  | disableRoaming => exact ⟨h.ca, h.cert, h.key, h.cb, h.dn⟩
  | setPadding p => exact ⟨h.ca, h.cert, h.key, h.cb, h.dn⟩
  | aggressive => exact ⟨h.ca, h.cert, h.key, h.cb, h.dn⟩
  | setUsePqc b => exact ⟨h.ca, h.cert, h.key, h.cb, h.dn⟩
  | setMaxFrag n => exact ⟨h.ca, h.cert, h.key, h.cb, h.dn⟩
  | start => exact hst (.inl rfl)
  | startServer => exact hst (.inr rfl)
  | stop => exact h

theorem ctxOk_create : CtxOk {} := ⟨rfl, rfl, rfl, fun k => by cases k <;> rfl, by decide⟩

theorem ctxRun_ok (t : TlsCtxEnv) (ops : List CtxOp) : CtxOk (ctxRun t ops).1 := by
  have key : ∀ (ops : List CtxOp) (o : CtxObj), CtxOk o → CtxOk (o.runFrom t ops).1 := by
    intro ops
    induction ops with
    | nil => exact fun o h => h
    | cons op ops ih => exact fun o h => ih _ (h.step t op)
  exact key ops _ ctxOk_create

/-- Every call leaves all fields of `g` alone unless the entry says otherwise: how each operation changes the object. -/
theorem step_fields (t : TlsCtxEnv) (o : CtxObj) (h : CtxOk o) (op : CtxOp) :
    let r := o.step t op
    let e : CtxEntry := ⟨op, r.2, r.1.calls.drop o.calls.length⟩
    (r.1.base.minMajor, r.1.base.minMinor) = (givesMin e).getD (o.base.minMajor, o.base.minMinor) ∧
    (r.1.base.maxMajor, r.1.base.maxMinor) = (givesMax e).getD (o.base.maxMajor, o.base.maxMinor) ∧
    cstr r.1.base.serverDn = (givesDn e).getD (cstr o.base.serverDn) ∧
    r.1.base.useChacha = (givesChacha e).getD o.base.useChacha ∧
    r.1.ca = (givesCa e).getD o.ca ∧
    (r.1.cert, r.1.key) = (givesCertKey e).getD (o.cert, o.key) ∧
    r.1.base.connType = (givesType e).getD o.base.connType ∧
    (∀ k, r.1.cb k = (givesCb k e).getD (o.cb k)) ∧
    r.1.base.disableRoaming = (o.base.disableRoaming || decide (op = .disableRoaming)) ∧
    r.1.base.padding = (givesPadding e).getD o.base.padding ∧
    r.1.base.aggressive = (o.base.aggressive || decide (op = .aggressive)) ∧
    r.1.base.usePqc = (givesPqc e).getD o.base.usePqc ∧
    r.1.base.maxFragEntries = (givesFrag e).getD o.base.maxFragEntries := by
  have hst : op = .start ∨ op = .startServer → _ := fun hop => start_step t o h op hop
  intro r e
  cases op with
  | start =>
    obtain ⟨calls, b, e1, e2⟩ := hst (.inl rfl)
    have hr : r.1 = _ := e1
    have he : reachedIo e = b := by
      show (r.1.calls.drop o.calls.length).any _ = b
      rw [hr, e2]
      simp
    have hm : givesMin e = if b then some (1, 0) else none := by rw [← he]; rfl
    have hx : givesMax e = if b then some (1, 2) else none := by rw [← he]; rfl
    rw [hm, hx, hr]
    cases b
    · exact ⟨rfl, rfl, rfl, rfl, rfl, rfl, rfl, fun _ => rfl, by simp, rfl, by simp, rfl, rfl⟩
    · exact ⟨rfl, rfl, rfl, rfl, rfl, rfl, rfl, fun _ => rfl, by simp, rfl, by simp, rfl, rfl⟩
  | startServer =>
    obtain ⟨calls, b, e1, e2⟩ := hst (.inr rfl)
    have hr : r.1 = _ := e1
    have he : reachedIo e = b := by
      show (r.1.calls.drop o.calls.length).any _ = b
      rw [hr, e2]
      simp
    have hm : givesMin e = if b then some (1, 0) else none := by rw [← he]; rfl
    have hx : givesMax e = if b then some (1, 2) else none := by rw [← he]; rfl
    rw [hm, hx, hr]
    cases b
    · exact ⟨rfl, rfl, rfl, rfl, rfl, rfl, rfl, fun _ => rfl, by simp, rfl, by simp, rfl, rfl⟩
    · exact ⟨rfl, rfl, rfl, rfl, rfl, rfl, rfl, fun _ => rfl, by simp, rfl, by simp, rfl, rfl⟩
  | setMinVersion maj min =>
    have hr : r.1 = { o with base := (Lightway.setMinVersion o.base maj min).1 } := rfl
    have hrc : e.rc = (Lightway.setMinVersion o.base maj min).2 := rfl
    have hg : givesMin e = accepted e (named maj min (1, 0)) := rfl
    rw [hg, hr]
    unfold accepted named
    rw [hrc]
    obtain ⟨h1, -, h3, h4, h5, -⟩ := C52_setters o.base maj min
    by_cases h0 : maj = 0 ∧ min = 0
    · rw [(h3 h0).1, if_pos rfl, if_pos h0]
      exact ⟨rfl, rfl, rfl, rfl, rfl, rfl, rfl, fun _ => rfl, by simp, rfl, by simp, rfl, rfl⟩
    · by_cases h2 : maj = 1 ∧ min.toNat ≤ 2
      · rw [(h4 h2).1, if_pos rfl, if_neg h0]
        exact ⟨rfl, rfl, rfl, rfl, rfl, rfl, rfl, fun _ => rfl, by simp, rfl, by simp, rfl, rfl⟩
      · have hn : (Lightway.setMinVersion o.base maj min).2 ≠ .success := fun h => (h1.mp h).elim h0 h2
        rw [h5 hn, if_neg hn]
        exact ⟨rfl, rfl, rfl, rfl, rfl, rfl, rfl, fun _ => rfl, by simp, rfl, by simp, rfl, rfl⟩
  | setMaxVersion maj min =>
    have hr : r.1 = { o with base := (Lightway.setMaxVersion o.base maj min).1 } := rfl
    have hrc : e.rc = (Lightway.setMaxVersion o.base maj min).2 := rfl
    have hg : givesMax e = accepted e (named maj min (1, 2)) := rfl
    rw [hg, hr]
    unfold accepted named
    rw [hrc]
    obtain ⟨-, h1, h3, h4, -, h5⟩ := C52_setters o.base maj min
    by_cases h0 : maj = 0 ∧ min = 0
    · rw [(h3 h0).2, if_pos rfl, if_pos h0]
      exact ⟨rfl, rfl, rfl, rfl, rfl, rfl, rfl, fun _ => rfl, by simp, rfl, by simp, rfl, rfl⟩
    · by_cases h2 : maj = 1 ∧ min.toNat ≤ 2
      · rw [(h4 h2).2, if_pos rfl, if_neg h0]
        exact ⟨rfl, rfl, rfl, rfl, rfl, rfl, rfl, fun _ => rfl, by simp, rfl, by simp, rfl, rfl⟩
      · have hn : (Lightway.setMaxVersion o.base maj min).2 ≠ .success := fun h => (h1.mp h).elim h0 h2
        rw [h5 hn, if_neg hn]
        exact ⟨rfl, rfl, rfl, rfl, rfl, rfl, rfl, fun _ => rfl, by simp, rfl, by simp, rfl, rfl⟩
  | setServerDn s =>
    obtain ⟨h1, h2, -, -⟩ := setConfigString_spec o.base.serverDn s h.dn
    have hg : givesDn e = if (setConfigString o.base.serverDn s).2 = .success then some ((cstr s).take 49) else none := rfl
    refine ⟨rfl, rfl, ?_, rfl, rfl, rfl, rfl, fun _ => rfl, by simp; rfl, rfl, by simp; rfl, rfl, rfl⟩
    rw [hg]
    show cstr (setConfigString o.base.serverDn s).1 = _
    rw [h2]
    by_cases ht : (setConfigString o.base.serverDn s).2 = .success
    · rw [if_pos ht, if_pos (h1.mp ht)]; rfl
    · rw [if_neg ht, if_neg (fun h' => ht (h1.mpr h'))]; rfl
  | setUseChacha b => exact ⟨rfl, rfl, rfl, rfl, rfl, rfl, rfl, fun _ => rfl, by simp; rfl, rfl, by simp; rfl, rfl, rfl⟩
  | setCa buf len =>
    have hr : r = ({ o with base := (setCa o.base len).1, ca := if (setCa o.base len).2 = .success then some (buf, len) else o.ca },
      (setCa o.base len).2) := rfl
    have hg : givesCa e = accepted e (some (buf, len)) := rfl
    have hrc : e.rc = (setCa o.base len).2 := rfl
    rw [hg, hr]
    unfold accepted
    rw [hrc]
    unfold Lightway.setCa
    by_cases h0 : len = 0
    · rw [if_pos h0]
      exact ⟨rfl, rfl, rfl, rfl, rfl, rfl, rfl, fun _ => rfl, by simp, rfl, by simp, rfl, rfl⟩
    · rw [if_neg h0]
      exact ⟨rfl, rfl, rfl, rfl, rfl, rfl, rfl, fun _ => rfl, by simp, rfl, by simp, rfl, rfl⟩
  | setCertKey c k => exact ⟨rfl, rfl, rfl, rfl, rfl, rfl, rfl, fun _ => rfl, by simp; rfl, rfl, by simp; rfl, rfl, rfl⟩
  | setConnType n =>
    have hr : r = ({ o with base := (setConnType o.base n).1 }, (setConnType o.base n).2) := rfl
    have hg : givesType e = accepted e (if n = 1 then .stream else .datagram) := rfl
    have hrc : e.rc = (setConnType o.base n).2 := rfl
    rw [hg, hr]
    unfold accepted
    rw [hrc]
    unfold Lightway.setConnType
    by_cases h0 : n = 0
    · rw [if_pos h0, h0]
      exact ⟨rfl, rfl, rfl, rfl, rfl, rfl, rfl, fun _ => rfl, by simp, rfl, by simp, rfl, rfl⟩
    · rw [if_neg h0]
      by_cases h1 : n = 1
      · rw [if_pos h1, h1]
        exact ⟨rfl, rfl, rfl, rfl, rfl, rfl, rfl, fun _ => rfl, by simp, rfl, by simp, rfl, rfl⟩
      · rw [if_neg h1]
        exact ⟨rfl, rfl, rfl, rfl, rfl, rfl, rfl, fun _ => rfl, by simp, rfl, by simp, rfl, rfl⟩
  | setCb k p =>
    refine ⟨rfl, rfl, rfl, rfl, rfl, rfl, rfl, fun j => ?_, by simp; rfl, rfl, by simp; rfl, rfl, rfl⟩
    show (if j = k then p else o.cb j) = ((if k = j then some p else none : Option (Option Ptr))).getD (o.cb j)
    by_cases hj : j = k
    · rw [if_pos hj, if_pos hj.symm]; rfl
    · rw [if_neg hj, if_neg (fun h' => hj h'.symm)]; rfl
  | disableRoaming => exact ⟨rfl, rfl, rfl, rfl, rfl, rfl, rfl, fun _ => rfl, by simp; rfl, rfl, by simp; rfl, rfl, rfl⟩
  | setPadding p => exact ⟨rfl, rfl, rfl, rfl, rfl, rfl, rfl, fun _ => rfl, by simp; rfl, rfl, by simp; rfl, rfl, rfl⟩
  | aggressive => exact ⟨rfl, rfl, rfl, rfl, rfl, rfl, rfl, fun _ => rfl, by simp; rfl, rfl, by simp; rfl, rfl, rfl⟩
  | setUsePqc b => exact ⟨rfl, rfl, rfl, rfl, rfl, rfl, rfl, fun _ => rfl, by simp; rfl, rfl, by simp; rfl, rfl, rfl⟩
  | setMaxFrag n =>
    refine ⟨rfl, rfl, rfl, rfl, rfl, rfl, rfl, fun _ => rfl, by simp; rfl, rfl, by simp; rfl, rfl, ?_⟩
    show (if n > 65536 then 65536 else n) = min n 65536
    by_cases hn : n > 65536
    · rw [if_pos hn]; omega
    · rw [if_neg hn]; omega
  | stop => exact ⟨rfl, rfl, rfl, rfl, rfl, rfl, rfl, fun _ => rfl, by simp; rfl, rfl, by simp; rfl, rfl, rfl⟩

/-- **C84** After any sequence of calls on a context, every setting has the value last accepted for it (the default if
there was none), whatever other calls were made: no setter or start disturbs another setting, a refused value leaves the
previous one.  The version bounds are also reset by a start that gets as far as installing the I/O callbacks. -/
theorem C84_last_accepted (t : TlsCtxEnv) (ops : List CtxOp) :
    let o := (ctxRun t ops).1
    let h := (ctxRun t ops).2
    (o.base.minMajor, o.base.minMinor) = (lastGiven givesMin h).getD (0, 0) ∧
    (o.base.maxMajor, o.base.maxMinor) = (lastGiven givesMax h).getD (0, 0) ∧
    cstr o.base.serverDn = (lastGiven givesDn h).getD [] ∧
    o.base.useChacha = (lastGiven givesChacha h).getD false ∧
    o.ca = (lastGiven givesCa h).getD none ∧
    (o.cert, o.key) = (lastGiven givesCertKey h).getD (none, none) ∧
    o.base.connType = (lastGiven givesType h).getD .datagram ∧
    (∀ k, o.cb k = (lastGiven (givesCb k) h).getD none) ∧
    o.base.padding = (lastGiven givesPadding h).getD .none ∧
    o.base.usePqc = (lastGiven givesPqc h).getD false ∧
    o.base.maxFragEntries = (lastGiven givesFrag h).getD 0 ∧
    (o.base.disableRoaming = true ↔ .disableRoaming ∈ ops) ∧
    (o.base.aggressive = true ↔ .aggressive ∈ ops) := by
  have hI : ∀ (o : CtxObj) op, CtxOk o → CtxOk (o.step t op).1 := fun o op h => h.step t op
  have hf := step_fields t
  refine ⟨?_, ?_, ?_, ?_, ?_, ?_, ?_, fun k => ?_, ?_, ?_, ?_, ?_, ?_⟩
  · exact track t CtxOk (fun o => (o.base.minMajor, o.base.minMinor)) givesMin hI (fun o op h => (hf o h op).1) ops {} ctxOk_create
  · exact track t CtxOk (fun o => (o.base.maxMajor, o.base.maxMinor)) givesMax hI (fun o op h => (hf o h op).2.1) ops {} ctxOk_create
  · have := track t CtxOk (fun o => cstr o.base.serverDn) givesDn hI (fun o op h => (hf o h op).2.2.1) ops {} ctxOk_create
    exact this
  · exact track t CtxOk (fun o => o.base.useChacha) givesChacha hI (fun o op h => (hf o h op).2.2.2.1) ops {} ctxOk_create
  · exact track t CtxOk (fun o => o.ca) givesCa hI (fun o op h => (hf o h op).2.2.2.2.1) ops {} ctxOk_create
  · exact track t CtxOk (fun o => (o.cert, o.key)) givesCertKey hI (fun o op h => (hf o h op).2.2.2.2.2.1) ops {} ctxOk_create
  · exact track t CtxOk (fun o => o.base.connType) givesType hI (fun o op h => (hf o h op).2.2.2.2.2.2.1) ops {} ctxOk_create
  · exact track t CtxOk (fun o => o.cb k) (givesCb k) hI (fun o op h => (hf o h op).2.2.2.2.2.2.2.1 k) ops {} ctxOk_create
  · exact track t CtxOk (fun o => o.base.padding) givesPadding hI (fun o op h => (hf o h op).2.2.2.2.2.2.2.2.2.1) ops {} ctxOk_create
  · exact track t CtxOk (fun o => o.base.usePqc) givesPqc hI (fun o op h => (hf o h op).2.2.2.2.2.2.2.2.2.2.2.1) ops {} ctxOk_create
  · exact track t CtxOk (fun o => o.base.maxFragEntries) givesFrag hI (fun o op h => (hf o h op).2.2.2.2.2.2.2.2.2.2.2.2) ops {} ctxOk_create
  · have key : ∀ (ops : List CtxOp) (o : CtxObj), CtxOk o →
        (o.runFrom t ops).1.base.disableRoaming = (o.base.disableRoaming || decide (CtxOp.disableRoaming ∈ ops)) := by
      intro ops
      induction ops with
      | nil => intro o _; simp [CtxObj.runFrom]
      | cons op ops ih =>
        intro o ho
        show ((o.step t op).1.runFrom t ops).1.base.disableRoaming = _
        rw [ih _ (hI o op ho), (hf o ho op).2.2.2.2.2.2.2.2.1]
        simp [Bool.or_assoc, eq_comm]
    have := key ops {} ctxOk_create
    show ((CtxObj.runFrom t {} ops).1.base.disableRoaming = true) ↔ _
    rw [this]
    simp
  · have key : ∀ (ops : List CtxOp) (o : CtxObj), CtxOk o →
        (o.runFrom t ops).1.base.aggressive = (o.base.aggressive || decide (CtxOp.aggressive ∈ ops)) := by
      intro ops
      induction ops with
      | nil => intro o _; simp [CtxObj.runFrom]
      | cons op ops ih =>
        intro o ho
        show ((o.step t op).1.runFrom t ops).1.base.aggressive = _
        rw [ih _ (hI o op ho), (hf o ho op).2.2.2.2.2.2.2.2.2.2.1]
        simp [Bool.or_assoc, eq_comm]
    have := key ops {} ctxOk_create
    show ((CtxObj.runFrom t {} ops).1.base.aggressive = true) ↔ _
    rw [this]
    simp

/-- **C84, what can be asked.**  The questions a host can ask of a context answer what it last gave: a callback, the
authority's certificates, the certificate and key files. -/
theorem C84_questions (t : TlsCtxEnv) (ops : List CtxOp) :
    let o := (ctxRun t ops).1
    let h := (ctxRun t ops).2
    (∀ k, o.isCbSet k = ((lastGiven (givesCb k) h).getD none).isSome) ∧
    o.isCaSet = ((lastGiven givesCa h).getD none).isSome ∧
    o.isCertKeySet = (lastGiven givesCertKey h).isSome := by
  obtain ⟨_, _, _, _, h1, h2, _, h3, _⟩ := C84_last_accepted t ops
  refine ⟨fun k => congrArg Option.isSome (h3 k), congrArg Option.isSome h1, ?_⟩
  have hc : (ctxRun t ops).1.isCertKeySet = (((ctxRun t ops).1.cert, (ctxRun t ops).1.key).1.isSome &&
    ((ctxRun t ops).1.cert, (ctxRun t ops).1.key).2.isSome) := rfl
  show (ctxRun t ops).1.isCertKeySet = _
  rw [hc, h2]
  unfold lastGiven
  cases hl : (List.filterMap givesCertKey (ctxRun t ops).2).getLast? with
  | none => rfl
  | some v =>
    have hm := List.mem_of_getLast? hl
    obtain ⟨e, _, he⟩ := List.mem_filterMap.mp hm
    unfold givesCertKey at he
    split at he
    · cases he; rfl
    · cases he

/-- **C84** Which values the setters accept, with the codes of the refused ones; and what a connection sees as
registered is exactly the set of callbacks whose last registration was not NULL. -/
theorem C84_accepts (t : TlsCtxEnv) (ops : List CtxOp) :
    let o := (ctxRun t ops).1
    (∀ maj min, (o.step t (.setMinVersion maj min)).2 =
      (if (maj = 0 ∧ min = 0) ∨ (maj = 1 ∧ min.toNat ≤ 2) then .success else .incorrectProtocolVersion)) ∧
    (∀ maj min, (o.step t (.setMaxVersion maj min)).2 =
      (if (maj = 0 ∧ min = 0) ∨ (maj = 1 ∧ min.toNat ≤ 2) then .success else .incorrectProtocolVersion)) ∧
    (∀ s, (o.step t (.setServerDn s)).2 =
      (if (cstr s).length = 0 then .emptyString else if (cstr s).length ≤ 50 then .success else .stringTooLong)) ∧
    (∀ buf len, (o.step t (.setCa buf len)).2 = (if len = 0 then .zeroSize else .success)) ∧
    (∀ n, (o.step t (.setConnType n)).2 = (if n = 0 ∨ n = 1 then .success else .invalidConnectionType)) ∧
    (∀ op, op ≠ .start → op ≠ .startServer → (∀ a b, op ≠ .setMinVersion a b) → (∀ a b, op ≠ .setMaxVersion a b) →
      (∀ s, op ≠ .setServerDn s) → (∀ a b, op ≠ .setCa a b) → (∀ n, op ≠ .setConnType n) →
      (o.step t op).2 = .success) ∧
    (∀ k : CbKind, k.has o.base.cbs = (o.cb k).isSome) := by
  intro o
  have hok : CtxOk o := ctxRun_ok t ops
  refine ⟨fun maj min => ?_, fun maj min => ?_, fun s => ?_, fun buf len => ?_, fun n => ?_, fun op h1 h2 h3 h4 h5 h6 h7 => ?_,
    hok.cb⟩
  · have h := (C52_setters o.base maj min).1
    show (Lightway.setMinVersion o.base maj min).2 = _
    by_cases ha : (maj = 0 ∧ min = 0) ∨ (maj = 1 ∧ min.toNat ≤ 2)
    · rw [if_pos ha, h.mpr ha]
    · rw [if_neg ha]
      have hn : (Lightway.setMinVersion o.base maj min).2 ≠ .success := fun h' => ha (h.mp h')
      unfold Lightway.setMinVersion at hn ⊢
      generalize (if maj = 0 ∧ min = 0 then (wireMinMajor, wireMinMinor) else (maj, min)) = v at hn ⊢
      simp only at hn ⊢
      cases hv : validWireVersion v.1 v.2
      · rfl
      · rw [hv] at hn; exact absurd rfl hn
  · have h := (C52_setters o.base maj min).2.1
    show (Lightway.setMaxVersion o.base maj min).2 = _
    by_cases ha : (maj = 0 ∧ min = 0) ∨ (maj = 1 ∧ min.toNat ≤ 2)
    · rw [if_pos ha, h.mpr ha]
    · rw [if_neg ha]
      have hn : (Lightway.setMaxVersion o.base maj min).2 ≠ .success := fun h' => ha (h.mp h')
      unfold Lightway.setMaxVersion at hn ⊢
      generalize (if maj = 0 ∧ min = 0 then (wireMaxMajor, wireMaxMinor) else (maj, min)) = v at hn ⊢
      simp only at hn ⊢
      cases hv : validWireVersion v.1 v.2
      · rfl
      · rw [hv] at hn; exact absurd rfl hn
  · obtain ⟨a1, -, a3, a4⟩ := setConfigString_spec o.base.serverDn s hok.dn
    have ad := (C43_server_dn_partial o.base hok.dn s).1
    show (setConfigString o.base.serverDn s).2 = _
    by_cases h0 : (cstr s).length = 0
    · rw [if_pos h0]; exact a3 (List.length_eq_zero_iff.mp h0)
    · rw [if_neg h0]
      by_cases h1 : (cstr s).length ≤ 50
      · rw [if_pos h1]; exact ad.mpr ⟨by omega, h1⟩
      · rw [if_neg h1]; exact a4 (by omega)
  · show (Lightway.setCa o.base len).2 = _
    unfold Lightway.setCa
    by_cases h0 : len = 0
    · rw [if_pos h0, if_pos h0]
    · rw [if_neg h0, if_neg h0]
  · show (Lightway.setConnType o.base n).2 = _
    unfold Lightway.setConnType
    by_cases h0 : n = 0
    · rw [if_pos h0, if_pos (.inl h0)]
    · rw [if_neg h0]
      by_cases h1 : n = 1
      · rw [if_pos h1, if_pos (.inr h1)]
      · rw [if_neg h1, if_neg (fun h => h.elim h0 h1)]
  · cases op with
    | start => exact absurd rfl h1
    | startServer => exact absurd rfl h2
    | setMinVersion a b => exact absurd rfl (h3 a b)
    | setMaxVersion a b => exact absurd rfl (h4 a b)
    | setServerDn s => exact absurd rfl (h5 s)
    | setCa a b => exact absurd rfl (h6 a b)
    | setConnType n => exact absurd rfl (h7 n)
    | _ => rfl

/-- **C85** Starting a client context, in any state a host can bring it to: without an outside write callback or without
a certificate authority it is refused and TLS is not called; otherwise exactly the planned TLS calls are made, with the
current settings, up to the first that fails, and the call succeeds exactly if none does; a failure is reported by its
code.  Only the version bounds change. -/
theorem C85_start_client (t : TlsCtxEnv) (ops : List CtxOp) :
    let o := (ctxRun t ops).1
    let r := o.step t .start
    (o.cb .outsideWrite = none → r = (o, .confOutsideWriteCbNotSet)) ∧
    (o.cb .outsideWrite ≠ none → o.ca = none → r = (o, .confCaNotSet)) ∧
    (∀ ca, o.cb .outsideWrite ≠ none → o.ca = some ca →
      let a := attempt t o.calls (clientPlan o.base.connType o.base.useChacha ca)
      r.2 = (match a.2 with | none => .success | some f => failureCode f) ∧
      r.1.calls = o.calls ++ a.1) ∧
    (r.2 = .success → r.1.base = { o.base with minMajor := 1, minMinor := 0, maxMajor := 1, maxMinor := 2 }) := by
  intro o
  have hok : CtxOk o := ctxRun_ok t ops
  have hw : o.base.cbs.outsideWrite = (o.cb .outsideWrite).isSome := hok.cb .outsideWrite
  have hplan : ∀ ca, o.cb .outsideWrite ≠ none → o.ca = some ca →
      Started t o (clientPlan o.base.connType o.base.useChacha ca) (o.start t) := by
    intro ca h1 h2
    refine start_shape t o ?_ h2
    unfold ctxValidClient
    rw [hw, hok.ca, h2]
    cases hcb : o.cb .outsideWrite with
    | none => exact absurd hcb h1
    | some p => rfl
  have r1 : o.cb .outsideWrite = none → o.start t = (o, .confOutsideWriteCbNotSet) := by
    intro h1
    have hv : ctxValidClient o.base = .confOutsideWriteCbNotSet := by
      unfold ctxValidClient; rw [hw, h1]; rfl
    unfold CtxObj.start
    rw [hv]; rfl
  have r2 : o.cb .outsideWrite ≠ none → o.ca = none → o.start t = (o, .confCaNotSet) := by
    intro h1 h2
    have hv : ctxValidClient o.base = .confCaNotSet := by
      unfold ctxValidClient; rw [hw, hok.ca, h2]
      cases hcb : o.cb .outsideWrite with
      | none => exact absurd hcb h1
      | some p => rfl
    unfold CtxObj.start
    rw [hv]; rfl
  refine ⟨r1, r2, fun ca h1 h2 => ⟨(hplan ca h1 h2).1, (hplan ca h1 h2).2.1⟩, fun hs => ?_⟩
  have hs : (o.start t).2 = .success := hs
  by_cases h1 : o.cb .outsideWrite = none
  · rw [r1 h1] at hs; cases hs
  · cases h2 : o.ca with
    | none => rw [r2 h1 h2] at hs; cases hs
    | some ca =>
      obtain ⟨a1, a2, a3⟩ := hplan ca h1 h2
      rw [hs] at a1
      have hany : (attempt t o.calls (clientPlan o.base.connType o.base.useChacha ca)).1.any CtxCall.isIoRecv = true := by
        have hn : (attempt t o.calls (clientPlan o.base.connType o.base.useChacha ca)).2 = none := by
          cases hf : (attempt t o.calls (clientPlan o.base.connType o.base.useChacha ca)).2 with
          | none => rfl
          | some f =>
            rw [hf] at a1
            exact absurd a1.symm (failureCode_ne f)
        rw [attempt_all hn]
        cases o.base.connType <;> rfl
      show (o.start t).1.base = _
      rw [a3, hany]
      rfl

/-- **C85** The same for a server context, which needs a certificate and a key file and a way to check credentials. -/
theorem C85_start_server (t : TlsCtxEnv) (ops : List CtxOp) :
    let o := (ctxRun t ops).1
    let r := o.step t .startServer
    (o.cb .outsideWrite = none → r = (o, .confOutsideWriteCbNotSet)) ∧
    (o.cb .outsideWrite ≠ none → o.cert = none ∨ o.key = none → r = (o, .confCaNotSet)) ∧
    (o.cb .outsideWrite ≠ none → o.cert ≠ none → o.key ≠ none → o.cb .auth = none → o.cb .authBuf = none →
      r = (o, .confAuthCbNotSet)) ∧
    (∀ cert key, o.cb .outsideWrite ≠ none → o.cert = some cert → o.key = some key →
      (o.cb .auth ≠ none ∨ o.cb .authBuf ≠ none) →
      let a := attempt t o.calls (serverPlan o.base.connType cert key)
      r.2 = (match a.2 with | none => .success | some f => failureCode f) ∧
      r.1.calls = o.calls ++ a.1) ∧
    (r.2 = .success → r.1.base = { o.base with minMajor := 1, minMinor := 0, maxMajor := 1, maxMinor := 2 }) := by
  intro o
  have hok : CtxOk o := ctxRun_ok t ops
  have hw : o.base.cbs.outsideWrite = (o.cb .outsideWrite).isSome := hok.cb .outsideWrite
  have ha : o.base.cbs.auth = (o.cb .auth).isSome := hok.cb .auth
  have hb : o.base.cbs.authBuf = (o.cb .authBuf).isSome := hok.cb .authBuf
  have r1 : o.cb .outsideWrite = none → o.startServer t = (o, .confOutsideWriteCbNotSet) := by
    intro h1
    have hv : ctxValidServer o.base = .confOutsideWriteCbNotSet := by
      unfold ctxValidServer; rw [hw, h1]; rfl
    unfold CtxObj.startServer
    rw [hv]; rfl
  have r2 : o.cb .outsideWrite ≠ none → o.cert = none ∨ o.key = none → o.startServer t = (o, .confCaNotSet) := by
    intro h1 h2
    have hv : ctxValidServer o.base = .confCaNotSet := by
      unfold ctxValidServer; rw [hw, hok.cert, hok.key]
      cases hcb : o.cb .outsideWrite with
      | none => exact absurd hcb h1
      | some p =>
        rcases h2 with h2 | h2
        · rw [h2]; rfl
        · rw [h2]; cases o.cert <;> rfl
    unfold CtxObj.startServer
    rw [hv]; rfl
  have r3 : o.cb .outsideWrite ≠ none → o.cert ≠ none → o.key ≠ none → o.cb .auth = none → o.cb .authBuf = none →
      o.startServer t = (o, .confAuthCbNotSet) := by
    intro h1 h2 h3 h4 h5
    have hv : ctxValidServer o.base = .confAuthCbNotSet := by
      unfold ctxValidServer isAuthCbSet; rw [hw, hok.cert, hok.key, ha, hb, h4, h5]
      cases hcb : o.cb .outsideWrite with
      | none => exact absurd hcb h1
      | some p =>
        cases hce : o.cert with
        | none => exact absurd hce h2
        | some _ =>
          cases hke : o.key with
          | none => exact absurd hke h3
          | some _ => rfl
    unfold CtxObj.startServer
    rw [hv]; rfl
  have hplan : ∀ cert key, o.cb .outsideWrite ≠ none → o.cert = some cert → o.key = some key →
      (o.cb .auth ≠ none ∨ o.cb .authBuf ≠ none) →
      Started t o (serverPlan o.base.connType cert key) (o.startServer t) := by
    intro cert key h1 h2 h3 h4
    refine startServer_shape t o ?_ h2 h3
    unfold ctxValidServer isAuthCbSet
    rw [hw, hok.cert, hok.key, ha, hb, h2, h3]
    cases hcb : o.cb .outsideWrite with
    | none => exact absurd hcb h1
    | some p =>
      cases hca : o.cb .auth with
      | some _ => rfl
      | none =>
        cases hcbf : o.cb .authBuf with
        | some _ => rfl
        | none => exact absurd h4 (by rw [hca, hcbf]; simp)
  refine ⟨r1, r2, r3, fun ce ke h1 h2 h3 h4 => ⟨(hplan ce ke h1 h2 h3 h4).1, (hplan ce ke h1 h2 h3 h4).2.1⟩, fun hs => ?_⟩
  have hs : (o.startServer t).2 = .success := hs
  by_cases h1 : o.cb .outsideWrite = none
  · rw [r1 h1] at hs; cases hs
  · cases h2 : o.cert with
    | none => rw [r2 h1 (.inl h2)] at hs; cases hs
    | some ce =>
      cases h3 : o.key with
      | none => rw [r2 h1 (.inr h3)] at hs; cases hs
      | some ke =>
        by_cases h4 : o.cb .auth = none ∧ o.cb .authBuf = none
        · rw [r3 h1 (by rw [h2]; simp) (by rw [h3]; simp) h4.1 h4.2] at hs; cases hs
        · have h4 : o.cb .auth ≠ none ∨ o.cb .authBuf ≠ none := by
            by_cases h5 : o.cb .auth = none
            · exact .inr (fun h6 => h4 ⟨h5, h6⟩)
            · exact .inl h5
          obtain ⟨a1, a2, a3⟩ := hplan ce ke h1 h2 h3 h4
          rw [hs] at a1
          have hany : (attempt t o.calls (serverPlan o.base.connType ce ke)).1.any CtxCall.isIoRecv = true := by
            have hn : (attempt t o.calls (serverPlan o.base.connType ce ke)).2 = none := by
              cases hf : (attempt t o.calls (serverPlan o.base.connType ce ke)).2 with
              | none => rfl
              | some f =>
                rw [hf] at a1
                exact absurd a1.symm (failureCode_ne f)
            rw [attempt_all hn]
            cases o.base.connType <;> rfl
          show (o.startServer t).1.base = _
          rw [a3, hany]
          rfl

/-- **C85** The abstract start used by the client object (Model/Client) is this one: some answers of the TLS library give
the same object and code. -/
theorem C85_refines (t : TlsCtxEnv) (ops : List CtxOp) :
    let o := (ctxRun t ops).1
    (∃ r : StartRes, r.load ≠ some .success ∧ ctxStart o.base r = ((o.step t .start).1.base, (o.step t .start).2)) ∧
    (∃ r : StartRes, r.load ≠ some .success ∧
      ctxStartServer o.base r = ((o.step t .startServer).1.base, (o.step t .startServer).2)) := by
  intro o
  have hok : CtxOk o := ctxRun_ok t ops
  have reset : ∀ b, ctxStartCommon o.base b = ({ o.base with minMajor := 1, minMinor := 0, maxMajor := 1, maxMinor := 2 },
      if o.base.connType = .datagram ∧ !b then .initFailed else .success) := by
    intro b
    unfold ctxStartCommon
    simp only
    by_cases h : o.base.connType = .datagram ∧ (!b) = true
    · rw [if_pos h, if_pos h]; rfl
    · rw [if_neg h, if_neg h]; rfl
  refine ⟨?_, ?_⟩
  · show ∃ r : StartRes, _ ∧ ctxStart o.base r = ((o.start t).1.base, (o.start t).2)
    by_cases hv : ctxValidClient o.base = .success
    · have hca : o.base.caSet = true := by
        unfold ctxValidClient at hv
        cases h2 : o.base.caSet
        · rw [h2] at hv
          cases h3 : o.base.cbs.outsideWrite <;> rw [h3] at hv <;> cases hv
        · rfl
      rw [hok.ca, Option.isSome_iff_exists] at hca
      obtain ⟨ca, hca⟩ := hca
      obtain ⟨a1, -, a3⟩ := start_shape t o hv hca
      have hpl := attempt_io (t := t) (b := o.calls) (ty := o.base.connType)
        (p := (clientPlan o.base.connType o.base.useChacha ca).filter (fun c => !c.isIoRecv && !c.cannotFail && c ≠ .secureReneg)) (by
          cases o.base.connType <;> cases o.base.useChacha <;> intro c hc <;> simp [clientPlan, CtxCall.isIoRecv, CtxCall.cannotFail] at hc <;> rcases hc with rfl | hc <;> try rfl
          all_goals rcases hc with rfl | hc <;> try rfl
          all_goals rcases hc with rfl | rfl <;> rfl)
      rw [show (clientPlan o.base.connType o.base.useChacha ca).filter (fun c => !c.isIoRecv && !c.cannotFail && c ≠ .secureReneg) ++ ioPlan o.base.connType = clientPlan o.base.connType o.base.useChacha ca by
        cases o.base.connType <;> rfl] at hpl
      simp only [a1]
      rw [a3]
      rcases hpl with ⟨h1, h2⟩ | ⟨⟨_, h1⟩, h2, h3⟩ | ⟨f, h1, h2⟩
      · refine ⟨⟨true, none, true, true⟩, by simp, ?_⟩
        unfold ctxStart
        rw [if_neg (show ¬ (ctxValidClient o.base ≠ .success) from fun h => h hv)]
        rw [h1, h2]
        show ctxStartCommon o.base true = _
        rw [reset]
        simp
      · refine ⟨⟨true, none, true, false⟩, by simp, ?_⟩
        unfold ctxStart
        rw [if_neg (show ¬ (ctxValidClient o.base ≠ .success) from fun h => h hv)]
        rw [h1, h2]
        show ctxStartCommon o.base false = _
        rw [reset, h3]
        rfl
      · refine ⟨⟨true, some (failureCode f), true, true⟩, ?_, ?_⟩
        · intro h; exact failureCode_ne f (Option.some.inj h)
        · unfold ctxStart
          rw [if_neg (show ¬ (ctxValidClient o.base ≠ .success) from fun h => h hv)]
          rw [h1, h2]; rfl
    · refine ⟨⟨true, none, true, true⟩, by simp, ?_⟩
      unfold ctxStart CtxObj.start
      rw [if_pos hv, if_pos hv]
  · show ∃ r : StartRes, _ ∧ ctxStartServer o.base r = ((o.startServer t).1.base, (o.startServer t).2)
    by_cases hv : ctxValidServer o.base = .success
    · have hck : o.base.certSet = true ∧ o.base.keySet = true := by
        unfold ctxValidServer at hv
        cases h3 : o.base.cbs.outsideWrite <;> rw [h3] at hv
        · cases hv
        · cases h4 : o.base.certSet <;> cases h5 : o.base.keySet <;> rw [h4, h5] at hv
          · cases hv
          · cases hv
          · cases hv
          · exact ⟨rfl, rfl⟩
      rw [hok.cert, hok.key, Option.isSome_iff_exists, Option.isSome_iff_exists] at hck
      obtain ⟨⟨ce, hce⟩, ⟨ke, hke⟩⟩ := hck
      obtain ⟨a1, -, a3⟩ := startServer_shape t o hv hce hke
      have hpl := attempt_io (t := t) (b := o.calls) (ty := o.base.connType)
        (p := (serverPlan o.base.connType ce ke).take 6) (by
          cases o.base.connType <;> intro c hc <;> simp [serverPlan] at hc <;> rcases hc with rfl | rfl | rfl | rfl | rfl | rfl <;> rfl)
      rw [show (serverPlan o.base.connType ce ke).take 6 ++ ioPlan o.base.connType = serverPlan o.base.connType ce ke by
        cases o.base.connType <;> rfl] at hpl
      simp only [a1]
      rw [a3]
      rcases hpl with ⟨h1, h2⟩ | ⟨⟨_, h1⟩, h2, h3⟩ | ⟨f, h1, h2⟩
      · refine ⟨⟨true, none, true, true⟩, by simp, ?_⟩
        unfold ctxStartServer
        rw [if_neg (show ¬ (ctxValidServer o.base ≠ .success) from fun h => h hv)]
        rw [h1, h2]
        show ctxStartCommon o.base true = _
        rw [reset]
        simp
      · refine ⟨⟨true, none, true, false⟩, by simp, ?_⟩
        unfold ctxStartServer
        rw [if_neg (show ¬ (ctxValidServer o.base ≠ .success) from fun h => h hv)]
        rw [h1, h2]
        show ctxStartCommon o.base false = _
        rw [reset, h3]
        rfl
      · refine ⟨⟨true, some .sslCert, true, true⟩, by simp, ?_⟩
        have hm := attempt_mem h1
        have hf : failureCode f = .initFailed := by
          obtain ⟨c, r⟩ := f
          have hm : c ∈ serverPlan o.base.connType ce ke := hm
          cases hct : o.base.connType <;> rw [hct] at hm <;> simp only [serverPlan, List.mem_cons, List.not_mem_nil, or_false] at hm
          · rcases hm with rfl | rfl | rfl | rfl | rfl | rfl | rfl | rfl | rfl <;> rfl
          · rcases hm with rfl | rfl | rfl | rfl | rfl | rfl | rfl | rfl <;> rfl
        unfold ctxStartServer
        rw [if_neg (show ¬ (ctxValidServer o.base ≠ .success) from fun h => h hv)]
        rw [h1, h2]
        show (o.base, RC.initFailed) = _
        rw [← hf]; rfl
    · refine ⟨⟨true, none, true, true⟩, by simp, ?_⟩
      unfold ctxStartServer CtxObj.startServer
      rw [if_pos hv, if_pos hv]

namespace CtxDemo

/-- A TLS library that accepts everything. -/
def ok : TlsCtxEnv := fun _ _ => .ok
/-- One that rejects the authority's certificates. -/
def badCa : TlsCtxEnv := fun _ c => match c with | .loadVerify _ _ => .asnInput | _ => .ok

/-- Settings given, refused and overwritten in various orders around a start. -/
def ops : List CtxOp :=
  [.setConnType 1, .setConnType 7, .setCb .outsideWrite (some 11), .setCb .event (some 12), .setCb .event none, .setCa 40 100,
   .setCa 41 0, .setServerDn [97, 98], .setServerDn [], .setMinVersion 1 2, .setMinVersion 3 0, .setMaxFrag 100000,
   .setUseChacha true, .start, .setMaxVersion 1 1]

/-- Non-vacuity of C84: defaults, overwritten, refused and reset values all occur. -/
example :
    let r := ctxRun ok ops
    r.1.base.connType = .stream ∧ lastGiven givesType r.2 = some .stream ∧
    lastGiven (givesCb .event) r.2 = some none ∧ lastGiven (givesCb .auth) r.2 = none ∧ r.1.ca = some (40, 100) ∧
    lastGiven givesMin r.2 = some (1, 0) ∧ lastGiven givesMax r.2 = some (1, 1) ∧ lastGiven givesFrag r.2 = some 65536 ∧
    lastGiven givesDn r.2 = some [97, 98] ∧ r.2.map (·.rc) = [.success, .invalidConnectionType, .success, .success, .success,
      .success, .zeroSize, .success, .emptyString, .success, .incorrectProtocolVersion, .success, .success, .success,
      .success] := by decide +kernel

/-- Non-vacuity of C85: a start that makes all its calls, and one stopped by the certificates. -/
example :
    let r := ctxRun ok ops
    let q := ctxRun badCa ops
    r.1.cb .outsideWrite ≠ none ∧ r.1.ca = some (40, 100) ∧
    r.1.calls = [.new .tls13Client, .loadVerify 40 100, .ciphers "TLS13-CHACHA20-POLY1305-SHA256", .ioRecv true,
      .ioSend true] ∧
    q.1.calls = [.new .tls13Client, .loadVerify 40 100] ∧ q.2.map (·.rc) ≠ r.2.map (·.rc) ∧
    (q.1.step badCa .start).2 = .sslAsnInput ∧ lastGiven givesMin q.2 = some (1, 2) := by decide +kernel

example :
    let o := (ctxRun ok [.setCertKey 1 2, .setCb .outsideWrite (some 3), .setCb .auth (some 4)]).1
    o.cert = some 1 ∧ o.key = some 2 ∧ (o.step ok .startServer).2 = .success ∧
    (o.step ok .startServer).1.calls.length = 9 := by decide +kernel

end CtxDemo

end Lightway
