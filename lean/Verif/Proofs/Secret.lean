import Verif.Spec.Secret
import Verif.Proofs.Str
import Verif.Proofs.Trav5

/-!
# Hiding the credentials commutes with every function
For a client (`w.srv` false) or for either role (`w.srv` true).
-/

namespace Lightway
open Spec
variable {w : Watch} {pay : Option (Padding × Nat)} {inn : Bool}

/-- A reassembly slot, and the table, with the packets hidden. -/
def seenEntry (w : Watch) (en : FragEntry) : FragEntry := { en with data := shade w en.data }
def seenTable (w : Watch) (t : FragTable) : FragTable := { t with slot := fun i => (t.slot i).map (seenEntry w) }

/-- A connection with the credentials hidden. -/
def mask (w : Watch) (c : Conn) : Conn :=
  { c with username := c.username.map hide, password := c.password.map hide, authBuffer := c.authBuffer.map hide,
           fragTable := c.fragTable.map (seenTable w), log := hideLog w c.log }

/-- A connection (a client unless `w`) with sealed plugins. -/
def Shut (w : Watch) (c : Conn) : Prop := (w.srv = false → c.isServer = false) ∧ SealedChain w c.insidePlugins ∧ SealedChain w c.outsidePlugins ∧
  (w.pay.isSome ∨ w.inn → c.insidePlugins = [])

theorem Shut.client {c : Conn} (h : Shut w c) : w.srv = false → c.isServer = false := h.1
theorem Shut.inside {c : Conn} (h : Shut w c) : SealedChain w c.insidePlugins := h.2.1
theorem Shut.outside {c : Conn} (h : Shut w c) : SealedChain w c.outsidePlugins := h.2.2.1

/-- The second result is the first with the credentials hidden. -/
def Par (w : Watch) {α : Type} (x y : Conn × α) : Prop := y = (mask w x.1, x.2) ∧ Shut w x.1

def ParC (w : Watch) (x y : Conn) : Prop := y = mask w x ∧ Shut w x

variable {α β : Type}

theorem Par.ite {p q : Prop} [Decidable p] [Decidable q] {a b a' b' : Conn × α} (h : p ↔ q) (ha : p → Par w a a')
    (hb : ¬p → Par w b b') : Par w (if p then a else b) (if q then a' else b') := by
  by_cases hp : p
  · rw [if_pos hp, if_pos (h.mp hp)]; exact ha hp
  · rw [if_neg hp, if_neg (fun hq => hp (h.mpr hq))]; exact hb hp

theorem ParC.ite {p q : Prop} [Decidable p] [Decidable q] {a b a' b' : Conn} (h : p ↔ q) (ha : p → ParC w a a')
    (hb : ¬p → ParC w b b') : ParC w (if p then a else b) (if q then a' else b') := by
  by_cases hp : p
  · rw [if_pos hp, if_pos (h.mp hp)]; exact ha hp
  · rw [if_neg hp, if_neg (fun hq => hp (h.mpr hq))]; exact hb hp

@[elab_as_elim]
theorem Par.bind {P : Conn × α → Conn × α → Prop} {x y : Conn × α} (h : Par w x y)
    (hk : ∀ c a, Shut w c → P (c, a) (mask w c, a)) : P x y := by
  obtain ⟨rfl, hs⟩ := h
  obtain ⟨c, a⟩ := x
  exact hk c a hs

/-- Continue with a connection already treated. -/
@[elab_as_elim]
theorem ParC.bind {P : Conn → Conn → Prop} {x y : Conn} (h : ParC w x y) (hk : ∀ c, Shut w c → P c (mask w c)) : P x y := by
  obtain ⟨rfl, hs⟩ := h
  exact hk x hs

theorem Par.fst {x y : Conn × α} (h : Par w x y) : ParC w x.1 y.1 := ⟨by rw [h.1], h.2⟩

theorem par {c : Conn} (h : Shut w c) (a : α) : Par w (c, a) (mask w c, a) := ⟨rfl, h⟩
theorem parC {c : Conn} (h : Shut w c) : ParC w c (mask w c) := ⟨rfl, h⟩

/-- Texts, buffers. -/
theorem hide_zero : hide 0 = 0 := rfl

theorem hide_eq_zero (b : UInt8) : hide b = 0 ↔ b = 0 := by
  unfold hide; split <;> simp_all

theorem cstr_hide (bs : Bytes) : cstr (bs.map hide) = (cstr bs).map hide := by
  induction bs with
  | nil => rfl
  | cons b bs ih =>
    by_cases h : b = 0
    · subst h; rw [List.map_cons, hide_zero, cstr_zero, cstr_zero]; rfl
    · rw [List.map_cons, cstr_cons _ (fun h' => h ((hide_eq_zero b).mp h')), cstr_cons _ h, ih]; rfl

theorem zeros_hide (n : Nat) : (zeros n).map hide = zeros n := by simp [zeros, hide_zero]

theorem strncpy_hide (d s : Bytes) (n : Nat) : strncpy (d.map hide) (s.map hide) n = (strncpy d s n).map hide := by
  simp only [strncpy, cstr_hide, List.map_append, List.map_take, List.map_drop, zeros_hide, List.length_take, List.length_map]

theorem setNul_hide (d : Bytes) (i : Nat) : setNul (d.map hide) i = (setNul d i).map hide := by
  simp only [setNul, List.map_set, hide_zero]

theorem strnlen_hide (d : Bytes) (n : Nat) : strnlen (d.map hide) n = strnlen d n := by
  rw [strnlen, ← List.map_take, cstr_hide, List.length_map]; rfl

theorem wr_hide (d s : Bytes) (n : Nat) : wr (d.map hide) n (s.map hide) = (wr d n s).map (·.map hide) := by
  simp only [wr, List.length_map]
  split <;> simp [List.map_take, List.map_drop]

theorem setConfigString_hide (f s : Bytes) :
    setConfigString (f.map hide) (s.map hide) = ((setConfigString f s).1.map hide, (setConfigString f s).2) := by
  have h1 : configIsEmptyString (s.map hide) = configIsEmptyString s := by
    simp [configIsEmptyString, cstr_hide]
  have h2 : configStringLengthOkay (s.map hide) = configStringLengthOkay s := by
    simp [configStringLengthOkay, cstr_hide]
  simp only [setConfigString, h1, h2, strncpy_hide, setNul_hide]
  repeat' split
  all_goals rfl

theorem hideMsg_id {m : Bytes} (h : m.head? ≠ some 4) : hideMsg m = m := by
  unfold hideMsg
  split
  · simp at h
  · rfl

theorem hideData_id {m : Bytes} (h : m.head? ≠ some 5) (h' : m.head? ≠ some 15) : hideData m = m := by
  unfold hideData
  split
  · simp at h
  · simp at h'
  · rfl

theorem hideMsg_head (m : Bytes) : (hideMsg m).head? = m.head? := by
  unfold hideMsg
  split <;> rfl

theorem hideOut_id {m : Bytes} (h : m.head? ≠ some 4 ∧ m.head? ≠ some 5 ∧ m.head? ≠ some 15) : hideOut w m = m := by
  unfold hideOut
  rw [hideMsg_id h.1, hideData_id h.2.1 h.2.2, ite_self]

theorem hideOut_four {m : Bytes} (h : m.head? = some 4) : hideOut w m = hideMsg m := by
  unfold hideOut
  rw [hideData_id (by rw [hideMsg_head, h]; simp) (by rw [hideMsg_head, h]; simp), ite_self]

theorem hideMsg_auth (ty l1 l2 : UInt8) (s : Bytes) : hideMsg (4 :: ty :: l1 :: l2 :: s) = 4 :: ty :: l1 :: l2 :: s.map hide := rfl

/-- Plugin chains. -/
theorem ingress_hide {ch : Chain} (h : SealedChain w ch) (l : Log) (p : Bytes) (cap : Nat) :
    ch.ingress (hideLog w l) p cap = (hideLog w (ch.ingress l p cap).1, (ch.ingress l p cap).2) := by
  induction ch generalizing l p with
  | nil => rfl
  | cons node rest ih =>
    have ih := ih (fun q hq => h q (by simp [hq]))
    simp only [Chain.ingress]
    cases node with
    | none => exact ih l p
    | some q =>
      simp only [Option.bind_some]
      cases hf : q.ingress with
      | none => exact ih l p
      | some f =>
        simp only
        rw [(h q (by simp)).1 f hf l]
        generalize f l p cap = v
        obtain ⟨v, p'⟩ := v
        cases v with
        | fail => rfl
        | drop => rfl
        | success => exact ih (.pluginIngress p .success :: l) p'

theorem egress_hide {ch : Chain} (h : SealedChain w ch) (l : Log) (p : Bytes) (cap : Nat) :
    ch.egress (hideLog w l) p cap = (hideLog w (ch.egress l p cap).1, (ch.egress l p cap).2) := by
  induction ch generalizing l p with
  | nil => rfl
  | cons node rest ih =>
    have ih := ih (fun q hq => h q (by simp [hq]))
    simp only [Chain.egress]
    rw [ih l p]
    generalize Chain.egress rest l p cap = x
    obtain ⟨l1, p1, rc⟩ := x
    simp only
    by_cases hrc : rc ≠ .success
    · rw [if_pos hrc, if_pos hrc]
    · rw [if_neg hrc, if_neg hrc]
      cases node with
      | none => rfl
      | some q =>
        simp only [Option.bind_some]
        cases hf : q.egress with
        | none => rfl
        | some f =>
          simp only
          rw [(h q (by simp)).2 f hf l1]
          generalize f l1 p1 cap = v
          obtain ⟨v, p'⟩ := v
          cases v <;> rfl

variable {env : Env}

/-! ### wolf.c -/

theorem outsideWriteCb_par (hE : Sealed w env) {c : Conn} (h : Shut w c) (p : Bytes) :
    Par w (outsideWriteCb env c p) (outsideWriteCb env (mask w c) p) := by
  have e : outsideWriteCb env (mask w c) p = ((mask w c).emit (.outsideWrite p (env.outsideWrite (hideLog w c.log) p)),
    env.outsideWrite (hideLog w c.log) p) := rfl
  rw [e, hE.outsideWrite]
  exact ⟨rfl, h⟩

theorem dtlsWrite_par (hE : Sealed w env) {c : Conn} (h : Shut w c) (rec : Bytes) :
    Par w (dtlsWrite env c rec) (dtlsWrite env (mask w c) rec) := by
  unfold dtlsWrite
  refine Par.ite Iff.rfl (fun _ => par h _) (fun _ => ?_)
  have e : (mask w c).outsidePlugins.egress (mask w c).log (wireHeader (mask w c) ++ rec) maxWireMtu = _ :=
    egress_hide h.outside c.log (wireHeader c ++ rec) maxWireMtu
  rw [e]
  extract_lets r c1 r' c2
  have h1 : Shut w c1 := h
  have e2 : c2 = mask w c1 := rfl
  clear_value c2
  subst e2
  clear_value c1
  refine Par.ite Iff.rfl (fun _ => par h1 _) (fun _ => ?_)
  refine Par.ite Iff.rfl (fun _ => par h1 _) (fun _ => ?_)
  refine Par.ite Iff.rfl (fun _ => par h1 _) (fun _ => ?_)
  refine Par.bind (outsideWriteCb_par hE h1 _) (fun c rc h => ?_)
  refine Par.ite Iff.rfl (fun _ => par h _) (fun _ => ?_)
  refine Par.ite Iff.rfl (fun _ => ?_) (fun _ => par h _)
  refine Par.bind (outsideWriteCb_par hE h _) (fun c rc h => ?_)
  refine Par.ite Iff.rfl (fun _ => par h _) (fun _ => ?_)
  refine Par.bind (outsideWriteCb_par hE h _) (fun c rc h => ?_)
  exact Par.ite Iff.rfl (fun _ => par h _) (fun _ => par h _)

theorem tlsWrite_par (hE : Sealed w env) {c : Conn} (h : Shut w c) (rec : Bytes) :
    Par w (tlsWrite env c rec) (tlsWrite env (mask w c) rec) := by
  unfold tlsWrite
  extract_lets n r c1 r' c2
  have e1 : r' = (hideLog w r.1, r.2) := egress_hide h.outside c.log (rec.take n) maxWireMtu
  have h1 : Shut w c1 := h
  have e2 : c2 = mask w c1 := by
    show { mask w c with log := r'.1 } = mask w { c with log := r.1 }
    rw [e1]; rfl
  clear_value c2
  subst e2
  clear_value r'
  subst e1
  clear_value c1
  refine Par.ite Iff.rfl (fun _ => par h1 _) (fun _ => ?_)
  refine Par.ite Iff.rfl (fun _ => par h1 _) (fun _ => ?_)
  refine Par.ite Iff.rfl (fun _ => par h1 _) (fun _ => ?_)
  refine Par.bind (outsideWriteCb_par hE h1 _) (fun c rc h => ?_)
  exact Par.ite Iff.rfl (fun _ => par h _) (fun _ => par h _)

theorem dtlsRead_par {c : Conn} (h : Shut w c) (sz : Nat) : Par w (dtlsRead c sz) (dtlsRead (mask w c) sz) := by
  unfold dtlsRead
  have : (mask w c).incoming = c.incoming := rfl
  rw [this]
  cases c.incoming with
  | none => exact par h _
  | some pkt =>
    refine Par.ite Iff.rfl (fun _ => par h _) (fun _ => ?_)
    exact Par.ite Iff.rfl (fun _ => ⟨rfl, h⟩) (fun _ => ⟨rfl, h⟩)

theorem tlsRead_par {c : Conn} (h : Shut w c) (sz : Nat) : Par w (tlsRead c sz) (tlsRead (mask w c) sz) := by
  unfold tlsRead
  exact Par.ite Iff.rfl (fun _ => par h _) (fun _ => ⟨rfl, h⟩)

theorem ioStep_par (hE : Sealed w env) {c : Conn} (h : Shut w c) (io : IoReq) : ParC w (ioStep env c io) (ioStep env (mask w c) io) := by
  have ht : (mask w c).connType = c.connType := rfl
  cases io with
  | send rec =>
    simp only [ioStep, ht]
    cases c.connType with
    | datagram => obtain ⟨e, hs⟩ := dtlsWrite_par hE h rec; simp only; rw [e]; exact ⟨rfl, hs⟩
    | stream => obtain ⟨e, hs⟩ := tlsWrite_par hE h rec; simp only; rw [e]; exact ⟨rfl, hs⟩
  | recv sz =>
    simp only [ioStep, ht]
    cases c.connType with
    | datagram => obtain ⟨e, hs⟩ := dtlsRead_par h sz; simp only; rw [e]; exact ⟨rfl, hs⟩
    | stream => obtain ⟨e, hs⟩ := tlsRead_par h sz; simp only; rw [e]; exact ⟨rfl, hs⟩

theorem ioRun_par (hE : Sealed w env) {c : Conn} (h : Shut w c) (io : List IoReq) : ParC w (ioRun env c io) (ioRun env (mask w c) io) := by
  unfold ioRun
  induction io generalizing c with
  | nil => exact parC h
  | cons r io ih =>
    obtain ⟨e, hs⟩ := ioStep_par hE h r
    simp only [List.foldl_cons]
    rw [e]
    exact ih hs

theorem sslDo_par' (hE : Sealed w env) {c : Conn} (h : Shut w c) (call : SslCall) :
    Par w (sslDo env c call) (sslDo env (mask w c) (hideCall w call)) := by
  have hr : (if (mask w c).wolfSet then env.ssl (mask w c).log (hideCall w call) else nullSslRes) =
      (if c.wolfSet then env.ssl c.log call else nullSslRes) := by
    show (if c.wolfSet then env.ssl (hideLog w c.log) (hideCall w call) else nullSslRes) = _
    rw [hE.ssl]
  unfold sslDo
  simp only [hr]
  generalize (if c.wolfSet then env.ssl c.log call else nullSslRes) = r
  have h1 : Shut w (c.emit (.sslCall call r.ok)) := h
  obtain ⟨e, hs⟩ := ioRun_par hE h1 r.io
  exact ⟨by
    have e' : (mask w c).emit (.sslCall (hideCall w call) r.ok) = mask w (c.emit (.sslCall call r.ok)) := rfl
    rw [e', e], hs⟩

/-- A call that is not a write. -/
theorem sslDo_par (hE : Sealed w env) {c : Conn} (h : Shut w c) {call : SslCall} (hc : hideCall w call = call) :
    Par w (sslDo env c call) (sslDo env (mask w c) call) := by
  have := sslDo_par' hE h call
  rw [hc] at this
  exact this

theorem setupStreamState_par {c : Conn} (h : Shut w c) (d : Bytes) : Par w (setupStreamState c d) (setupStreamState (mask w c) d) := by
  unfold setupStreamState
  exact Par.ite Iff.rfl (fun _ => ⟨rfl, h⟩) (fun _ => ⟨rfl, h⟩)

/-! ### conn.c -/

theorem sendMessage_par' (hE : Sealed w env) {c : Conn} (h : Shut w c) (m : Bytes) :
    Par w (sendMessage env c m) (sendMessage env (mask w c) (hideOut w m)) := by
  unfold sendMessage
  refine Par.bind (sslDo_par' hE h (.write m)) (fun c r h => ?_)
  refine Par.ite Iff.rfl (fun _ => par h _) (fun _ => ?_)
  generalize r.err = e
  cases e <;> first | exact par h _ | exact Par.ite Iff.rfl (fun _ => par h _) (fun _ => ⟨rfl, h⟩)

theorem sendMessage_par (hE : Sealed w env) {c : Conn} (h : Shut w c) {m : Bytes} (hm : m.head? ≠ some 4 ∧ m.head? ≠ some 5 ∧ m.head? ≠ some 15) :
    Par w (sendMessage env c m) (sendMessage env (mask w c) m) := by
  have := sendMessage_par' hE h m
  rw [hideOut_id hm] at this
  exact this

theorem generateEvent_par {c : Conn} (h : Shut w c) (e : Event) : ParC w (generateEvent c e) (generateEvent (mask w c) e) := ⟨rfl, h⟩

theorem setState_par {c : Conn} (h : Shut w c) (s : ConnState) : ParC w (setState c s) (setState (mask w c) s) := by
  unfold setState
  exact ParC.ite Iff.rfl (fun _ => parC h) (fun _ => ⟨rfl, h⟩)

theorem authUserPassMsg_hide (c : Conn) : authUserPassMsg (mask w c) = hideOut w (authUserPassMsg c) := by
  have e1 : (mask w c).username = c.username.map hide := rfl
  have e2 : (mask w c).password = c.password.map hide := rfl
  rw [hideOut_four (m := authUserPassMsg c) rfl]
  unfold authUserPassMsg
  rw [e1, e2, strnlen_hide, strnlen_hide]
  have e : ∀ a b : Bytes, [msgAuth, authUserPassTy, UInt8.ofNat (strnlen c.username 50), UInt8.ofNat (strnlen c.password 50)] ++ a ++ b =
      4 :: authUserPassTy :: UInt8.ofNat (strnlen c.username 50) :: UInt8.ofNat (strnlen c.password 50) :: (a ++ b) := fun _ _ => rfl
  rw [e, e, hideMsg_auth]
  simp only [List.map_append, List.map_take, zeros_hide]

theorem authBufMsg_hide (ty : UInt8) (b : Bytes) : authBufMsg ty (b.map hide) = hideOut w (authBufMsg ty b) := by
  rw [hideOut_four (m := authBufMsg ty b) rfl]
  show [4, ty] ++ be16 (b.map hide).length ++ b.map hide = _
  rw [List.length_map]
  rfl

theorem sendAuth_par (hE : Sealed w env) {c : Conn} (h : Shut w c) : Par w (sendAuth env c) (sendAuth env (mask w c)) := by
  unfold sendAuth
  refine Par.ite Iff.rfl (fun _ => par h _) (fun _ => ?_)
  refine ParC.bind (setState_par h .authenticating) (fun d hs => ?_)
  refine Par.ite Iff.rfl (fun _ => ?_) (fun _ => ?_)
  · rw [authUserPassMsg_hide]; exact sendMessage_par' hE hs _
  have e : (mask w d).authBuffer.take (mask w d).authBufferLength = (d.authBuffer.take d.authBufferLength).map hide :=
    (List.map_take ..).symm
  refine Par.ite Iff.rfl (fun _ => ?_) (fun _ => ?_)
  · refine Par.ite Iff.rfl (fun _ => par hs _) (fun _ => ?_)
    rw [e, authBufMsg_hide (w := w)]; exact sendMessage_par' hE hs _
  refine Par.ite Iff.rfl (fun _ => ?_) (fun _ => par hs _)
  refine Par.ite Iff.rfl (fun _ => par hs _) (fun _ => ?_)
  rw [e, authBufMsg_hide (w := w)]; exact sendMessage_par' hE hs _

theorem changeState_par (hE : Sealed w env) {c : Conn} (h : Shut w c) (s : ConnState) :
    ParC w (changeState env c s) (changeState env (mask w c) s) := by
  unfold changeState
  refine ParC.ite Iff.rfl (fun _ => parC h) (fun _ => ?_)
  refine ParC.bind (setState_par h s) (fun c h => ?_)
  exact ParC.ite Iff.rfl (fun _ => (sendAuth_par hE h).fst) (fun _ => parC h)

theorem sslVer_par (hE : Sealed w env) {c : Conn} (h : Shut w c) : Par w (sslVer env c) (sslVer env (mask w c)) := by
  unfold sslVer
  refine Par.ite Iff.rfl (fun _ => ?_) (fun _ => ⟨rfl, h⟩)
  have : env.sslVersion (mask w c).log = env.sslVersion c.log := hE.sslVersion c.log
  rw [this]
  exact par h _

/-- The end of `updateTimeout`. -/
def setTimer (c : Conn) (t : Int) : Conn :=
  let c := { c.emit (.timer t) with wolfTimeout := t }
  if c.cbs.nudgeTime ∧ !c.nudgeTimerRunning then { c.emit (.nudgeTime t) with nudgeTimerRunning := true } else c

theorem setTimer_par {c : Conn} (h : Shut w c) (t : Int) : ParC w (setTimer c t) (setTimer (mask w c) t) := by
  unfold setTimer
  refine ParC.bind (x := { c.emit (.timer t) with wolfTimeout := t }) (y := { (mask w c).emit (.timer t) with wolfTimeout := t })
    ⟨rfl, h⟩ (fun c h => ?_)
  exact ParC.ite Iff.rfl (fun _ => ⟨rfl, h⟩) (fun _ => parC h)

/-- Its middle. -/
def quickTimer (env : Env) (c : Conn) (v : SslVersion) (t : Int) : Conn × Int :=
  if v ≠ .dtls12 then
    let (c, q) := sslDo env c .quickTimeout
    (c, if q.ok then t.tdiv 4 else t)
  else (c, t)

theorem quickTimer_par (hE : Sealed w env) {c : Conn} (h : Shut w c) (v : SslVersion) (t : Int) :
    Par w (quickTimer env c v t) (quickTimer env (mask w c) v t) := by
  unfold quickTimer
  refine Par.ite Iff.rfl (fun _ => ?_) (fun _ => par h _)
  exact Par.bind (sslDo_par hE h rfl) (fun c q h => par h _)

theorem updateTimeout_eq (env : Env) (c : Conn) : updateTimeout env c =
    if c.state = .online ∧ !c.renegInProgress then c
    else setTimer (quickTimer env (sslVer env (sslDo env c .currentTimeout).1).1 (sslVer env (sslDo env c .currentTimeout).1).2
        ((sslDo env c .currentTimeout).2.val * 100)).1
      (quickTimer env (sslVer env (sslDo env c .currentTimeout).1).1 (sslVer env (sslDo env c .currentTimeout).1).2
        ((sslDo env c .currentTimeout).2.val * 100)).2 := rfl

theorem updateTimeout_par (hE : Sealed w env) {c : Conn} (h : Shut w c) :
    ParC w (updateTimeout env c) (updateTimeout env (mask w c)) := by
  rw [updateTimeout_eq, updateTimeout_eq]
  refine ParC.ite Iff.rfl (fun _ => parC h) (fun _ => ?_)
  refine Par.bind (sslDo_par hE h rfl) (fun c r h => ?_)
  refine Par.bind (sslVer_par hE h) (fun c v h => ?_)
  refine Par.bind (quickTimer_par hE h v _) (fun c t h => ?_)
  exact setTimer_par h t

theorem sendGoodbye_par (hE : Sealed w env) {c : Conn} (h : Shut w c) : ParC w (sendGoodbye env c) (sendGoodbye env (mask w c)) :=
  (sendMessage_par hE h (by simp [msgGoodbye])).fst

/-- The end of `renegotiateSsl`. -/
def renegBegun (env : Env) (c : Conn) (r : SslRes) : Conn × RC :=
  let c := { c with renegInProgress := true }
  let c := generateEvent c .renegStarted
  if r.ok then (c, .success)
  else
    match r.err with
    | .none | .wantRead | .wantWrite | .appDataReady => (updateTimeout env c, .success)
    | .secureReneg => (c, .secureRenegotiationError)
    | e => ({ c with wolfError := e }, .sslError)

theorem renegBegun_par (hE : Sealed w env) {c : Conn} (h : Shut w c) (r : SslRes) :
    Par w (renegBegun env c r) (renegBegun env (mask w c) r) := by
  unfold renegBegun
  have h2 : Shut w (generateEvent { c with renegInProgress := true } .renegStarted) := h
  have e2 : generateEvent { mask w c with renegInProgress := true } .renegStarted =
    mask w (generateEvent { c with renegInProgress := true } .renegStarted) := rfl
  dsimp only
  rw [e2]
  clear e2
  generalize generateEvent { c with renegInProgress := true } .renegStarted = c2 at h2
  refine Par.ite Iff.rfl (fun _ => par h2 _) (fun _ => ?_)
  have hu : Par w (updateTimeout env c2, RC.success) (updateTimeout env (mask w c2), .success) :=
    ParC.bind (updateTimeout_par hE h2) (fun c h => par h _)
  generalize r.err = e
  cases e <;> first | exact hu | exact ⟨rfl, h2⟩

/-- Its middle. -/
def renegBegin (env : Env) (c : Conn) (v : SslVersion) : Conn × RC :=
  if v = .dtls12 then
    if !(sslDo env c .renegSupport).2.ok then ((sslDo env c .renegSupport).1, .success)
    else renegBegun env (sslDo env (sslDo env c .renegSupport).1 .rehandshake).1 (sslDo env (sslDo env c .renegSupport).1 .rehandshake).2
  else renegBegun env (sslDo env c .updateKeys).1 (sslDo env c .updateKeys).2

theorem renegBegin_par (hE : Sealed w env) {c : Conn} (h : Shut w c) (v : SslVersion) :
    Par w (renegBegin env c v) (renegBegin env (mask w c) v) := by
  unfold renegBegin
  refine Par.ite Iff.rfl (fun _ => ?_) (fun _ => ?_)
  · refine Par.bind (sslDo_par hE h rfl) (fun c s h => ?_)
    refine Par.ite Iff.rfl (fun _ => par h _) (fun _ => ?_)
    exact Par.bind (sslDo_par hE h rfl) (fun c r h => renegBegun_par hE h r)
  · exact Par.bind (sslDo_par hE h rfl) (fun c r h => renegBegun_par hE h r)

theorem renegotiateSsl_eq (env : Env) (c : Conn) : renegotiateSsl env c =
    if c.renegInProgress ∨ c.state ≠ .online then ({ c with renegDue := false }, .success)
    else renegBegin env (sslVer env { c with renegDue := false }).1 (sslVer env { c with renegDue := false }).2 := rfl

theorem renegotiateSsl_par (hE : Sealed w env) {c : Conn} (h : Shut w c) :
    Par w (renegotiateSsl env c) (renegotiateSsl env (mask w c)) := by
  rw [renegotiateSsl_eq, renegotiateSsl_eq]
  have h1 : Shut w { c with renegDue := false } := h
  have e1 : ({ mask w c with renegDue := false } : Conn) = mask w { c with renegDue := false } := rfl
  rw [e1]
  clear e1
  refine Par.ite Iff.rfl (fun _ => par h1 _) (fun _ => ?_)
  exact Par.bind (sslVer_par hE h1) (fun c v h => renegBegin_par hE h v)

theorem generateSessionId_par (hE : Sealed w env) {c : Conn} (h : Shut w c) :
    Par w (generateSessionId env c) (generateSessionId env (mask w c)) := by
  unfold generateSessionId
  have : env.rng (mask w c).log = env.rng c.log := hE.rng c.log
  rw [this]
  exact ⟨rfl, h⟩

/-! ### pmtud.c -/

theorem pmtudChangeState_par {c : Conn} (h : Shut w c) (s : PmtudState) :
    ParC w (pmtudChangeState c s) (pmtudChangeState (mask w c) s) := by
  unfold pmtudChangeState
  exact ParC.ite Iff.rfl (fun _ => ⟨rfl, h⟩) (fun _ => ⟨rfl, h⟩)

theorem pmtudTimeCb_par (hE : Sealed w env) {c : Conn} (h : Shut w c) (ms : Nat) :
    Par w (pmtudTimeCb env c ms) (pmtudTimeCb env (mask w c) ms) := by
  unfold pmtudTimeCb
  have : env.pmtudTime (mask w c).log = env.pmtudTime c.log := hE.pmtudTime c.log
  rw [this]
  exact ⟨rfl, h⟩

theorem sendProbe_par (hE : Sealed w env) {c : Conn} (h : Shut w c) (mtu : Nat) :
    Par w (sendProbe env c mtu) (sendProbe env (mask w c) mtu) := by
  unfold sendProbe
  refine Par.ite Iff.rfl (fun _ => par h _) (fun _ => ?_)
  refine Par.ite Iff.rfl (fun _ => par h _) (fun _ => ?_)
  dsimp only
  have e0 : (mask w c).pingNextId = c.pingNextId := rfl
  rw [e0]
  generalize c.pingNextId = id
  refine ParC.bind
    (x := { c with pingNextId := (id + 1) % 65536, pmtud := { c.pmtud with probeCount := (c.pmtud.probeCount + 1) % 256, probingSize := mtu } })
    (y := { mask w c with pingNextId := (id + 1) % 65536, pmtud := { (mask w c).pmtud with probeCount := ((mask w c).pmtud.probeCount + 1) % 256, probingSize := mtu } })
    ⟨rfl, h⟩ (fun c h1 => ?_)
  refine Par.bind (sendMessage_par hE h1 (by simp [probeMsg, msgPing])) (fun c rc h => ?_)
  dsimp only
  have a : ParC w (if rc ≠ .success then c else { c with pmtud := { c.pmtud with pendingId := id } })
      (if rc ≠ .success then mask w c else { mask w c with pmtud := { (mask w c).pmtud with pendingId := id } }) :=
    ParC.ite Iff.rfl (fun _ => parC h) (fun _ => ⟨rfl, h⟩)
  refine ParC.bind a (fun c h => ?_)
  have b : ParC w (if c.cbs.pmtudTime then (pmtudTimeCb env c (if rc ≠ .success then 10 else 5000)).1 else c)
      (if (mask w c).cbs.pmtudTime then (pmtudTimeCb env (mask w c) (if rc ≠ .success then 10 else 5000)).1 else mask w c) :=
    ParC.ite Iff.rfl (fun _ => (pmtudTimeCb_par hE h _).fst) (fun _ => parC h)
  exact ParC.bind b (fun c h => par h _)

theorem retryProbe_par (hE : Sealed w env) {c : Conn} (h : Shut w c) (ms : Nat) :
    Par w (retryProbe env c ms) (retryProbe env (mask w c) ms) := by
  unfold retryProbe
  have a : Par w (if c.cbs.pmtudTime then pmtudTimeCb env c ms else (c, .pmtudCallbacksNotSet))
      (if (mask w c).cbs.pmtudTime then pmtudTimeCb env (mask w c) ms else (mask w c, .pmtudCallbacksNotSet)) :=
    Par.ite Iff.rfl (fun _ => pmtudTimeCb_par hE h _) (fun _ => par h _)
  exact Par.bind a (fun c rc h => ⟨rfl, h⟩)

theorem startBaseProbing_par (hE : Sealed w env) {c : Conn} (h : Shut w c) :
    Par w (startBaseProbing env c) (startBaseProbing env (mask w c)) := by
  unfold startBaseProbing
  have e : (mask w c).pmtud.state = c.pmtud.state := rfl
  rw [e]
  have k : Par w (sendProbe env { pmtudChangeState c .base with pmtud := { (pmtudChangeState c .base).pmtud with base := initialPlpmtu, probeCount := 0 } } initialPlpmtu)
     (sendProbe env { pmtudChangeState (mask w c) .base with pmtud := { (pmtudChangeState (mask w c) .base).pmtud with base := initialPlpmtu, probeCount := 0 } } initialPlpmtu) := by
    refine ParC.bind (pmtudChangeState_par h .base) (fun c h => ?_)
    exact sendProbe_par hE (c := { c with pmtud := { c.pmtud with base := initialPlpmtu, probeCount := 0 } }) h _
  cases c.pmtud.state <;> first | exact k | exact par h _

theorem baseConfirmed_par (hE : Sealed w env) {c : Conn} (h : Shut w c) :
    Par w (baseConfirmed env c) (baseConfirmed env (mask w c)) := by
  unfold baseConfirmed
  refine Par.ite Iff.rfl (fun _ => ?_) (fun _ => par h _)
  refine ParC.bind (pmtudChangeState_par h .searching) (fun c h => ?_)
  exact sendProbe_par hE (c := { c with pmtud := { c.pmtud with probeCount := 0, bigStep := true } }) h _

theorem confirmBaseFailed_par (hE : Sealed w env) {c : Conn} (h : Shut w c) :
    Par w (confirmBaseFailed env c) (confirmBaseFailed env (mask w c)) := by
  unfold confirmBaseFailed
  refine Par.ite Iff.rfl (fun _ => ?_) (fun _ => par h _)
  exact ParC.bind (pmtudChangeState_par h .error) (fun c h => retryProbe_par hE h _)

theorem searchCompleted_par (hE : Sealed w env) {c : Conn} (h : Shut w c) :
    Par w (searchCompleted env c) (searchCompleted env (mask w c)) := by
  unfold searchCompleted
  refine Par.ite Iff.rfl (fun _ => ?_) (fun _ => par h _)
  refine ParC.bind (x := { c with pmtud := { c.pmtud with effective := min c.pmtud.probingSize maxPlpmtu } })
    (y := { mask w c with pmtud := { (mask w c).pmtud with effective := min (mask w c).pmtud.probingSize maxPlpmtu } })
    ⟨rfl, h⟩ (fun c h1 => ?_)
  dsimp only
  exact ParC.bind (pmtudChangeState_par h1 .searchComplete) (fun c h => retryProbe_par hE h _)

theorem blackholeDetected_par (hE : Sealed w env) {c : Conn} (h : Shut w c) :
    Par w (blackholeDetected env c) (blackholeDetected env (mask w c)) := by
  unfold blackholeDetected
  refine Par.ite Iff.rfl (fun _ => ?_) (fun _ => par h _)
  refine ParC.bind (pmtudChangeState_par h .base) (fun c h => ?_)
  exact sendProbe_par hE (c := { c with pmtud := { c.pmtud with base := minPlpmtu, probeCount := 0 } }) h _

/-- The end of `handleProbeAck`. -/
def ackTail (env : Env) (c : Conn) : Conn × RC :=
  match c.pmtud.state with
  | .base => baseConfirmed env c
  | .searching =>
    if c.pmtud.probingSize ≥ maxPlpmtu then searchCompleted env c
    else ((sendProbe env c (min (c.pmtud.probingSize + (if c.pmtud.bigStep then 32 else 8)) maxPlpmtu)).1, .success)
  | .error => baseConfirmed env c
  | .searchComplete => retryProbe env c 600000
  | .disabled => (c, .success)

theorem ackTail_par (hE : Sealed w env) {c1 : Conn} (h1 : Shut w c1) : Par w (ackTail env c1) (ackTail env (mask w c1)) := by
  unfold ackTail
  have e : (mask w c1).pmtud = c1.pmtud := rfl
  rw [e]
  cases c1.pmtud.state with
  | base => exact baseConfirmed_par hE h1
  | searching =>
    refine Par.ite Iff.rfl (fun _ => searchCompleted_par hE h1) (fun _ => ?_)
    refine Par.bind (sendProbe_par hE h1 _) (fun c _ h => par h _)
  | error => exact baseConfirmed_par hE h1
  | searchComplete => exact retryProbe_par hE h1 _
  | disabled => exact par h1 _

/-- Its middle. -/
def ackTime (env : Env) (c : Conn) : Conn := if c.cbs.pmtudTime then (pmtudTimeCb env c 0).1 else c

theorem ackTime_par (hE : Sealed w env) {c : Conn} (h : Shut w c) : ParC w (ackTime env c) (ackTime env (mask w c)) := by
  unfold ackTime
  exact ParC.ite Iff.rfl (fun _ => (pmtudTimeCb_par hE h _).fst) (fun _ => parC h)

theorem handleProbeAck_eq (env : Env) (c : Conn) (id : Nat) : handleProbeAck env c id =
    if c.pmtud.pendingId ≠ id then (c, .success)
    else ackTail env { ackTime env c with pmtud := { (ackTime env c).pmtud with pendingId := 0, probeCount := 0 } } := rfl

theorem handleProbeAck_par (hE : Sealed w env) {c : Conn} (h : Shut w c) (id : Nat) :
    Par w (handleProbeAck env c id) (handleProbeAck env (mask w c) id) := by
  rw [handleProbeAck_eq, handleProbeAck_eq]
  refine Par.ite Iff.rfl (fun _ => par h _) (fun _ => ?_)
  refine ParC.bind (ackTime_par hE h) (fun c h => ?_)
  exact ackTail_par hE (c1 := { c with pmtud := { c.pmtud with pendingId := 0, probeCount := 0 } }) h

/-- The end of `handleProbeTimeout`. -/
def timeoutTail (env : Env) (c : Conn) : Conn × RC :=
  match c.pmtud.state with
  | .base =>
    if c.pmtud.probingSize = initialPlpmtu then sendProbe env c minPlpmtu
    else confirmBaseFailed env c
  | .searching =>
    if c.pmtud.bigStep then
      sendProbe env { c with pmtud := { c.pmtud with bigStep := false } } (c.pmtud.probingSize - 32 + 8)
    else if c.pmtud.probingSize ≤ c.pmtud.base then (c.ub "pmtud.c:184 assert", .failed)
    else searchCompleted env { c with pmtud := { c.pmtud with probingSize := c.pmtud.probingSize - 8 } }
  | .searchComplete => blackholeDetected env c
  | .error => retryProbe env c 60000
  | .disabled => (c, .success)

theorem timeoutTail_par (hE : Sealed w env) {c1 : Conn} (h1 : Shut w c1) : Par w (timeoutTail env c1) (timeoutTail env (mask w c1)) := by
  unfold timeoutTail
  have e : (mask w c1).pmtud.state = c1.pmtud.state := rfl
  cases hs : c1.pmtud.state with
  | base =>
    simp only [e, hs]
    exact Par.ite Iff.rfl (fun _ => sendProbe_par hE h1 _) (fun _ => confirmBaseFailed_par hE h1)
  | searching =>
    simp only [e, hs]
    refine Par.ite Iff.rfl (fun _ => ?_) (fun _ => ?_)
    · exact sendProbe_par hE (c := { c1 with pmtud := { c1.pmtud with state := .searching, bigStep := false } }) h1 _
    refine Par.ite Iff.rfl (fun _ => ⟨rfl, h1⟩) (fun _ => ?_)
    exact searchCompleted_par hE (c := { c1 with pmtud := { c1.pmtud with state := .searching, probingSize := c1.pmtud.probingSize - 8 } }) h1
  | error => simp only [e, hs]; exact retryProbe_par hE h1 _
  | searchComplete => simp only [e, hs]; exact blackholeDetected_par hE h1
  | disabled => simp only [e, hs]; exact par h1 _

theorem handleProbeTimeout_eq (env : Env) (c : Conn) : handleProbeTimeout env c =
    if c.pmtud.probeCount < 3 then sendProbe env c c.pmtud.probingSize
    else timeoutTail env { c with pmtud := { c.pmtud with pendingId := 0, probeCount := 0 } } := rfl

theorem handleProbeTimeout_par (hE : Sealed w env) {c : Conn} (h : Shut w c) :
    Par w (handleProbeTimeout env c) (handleProbeTimeout env (mask w c)) := by
  rw [handleProbeTimeout_eq, handleProbeTimeout_eq]
  refine Par.ite Iff.rfl (fun _ => sendProbe_par hE h _) (fun _ => ?_)
  exact timeoutTail_par hE (c1 := { c with pmtud := { c.pmtud with pendingId := 0, probeCount := 0 } }) h

end Lightway
