import Verif.Spec.Quiet
import Verif.Proofs.Secret3

/-!
# Leaving out the informing callbacks commutes with every function
-/

namespace Lightway.Quiet
open Spec

/-- A connection without the informing callbacks. -/
def quiet (c : Conn) : Conn := { c with cbs := quietCbs c.cbs, nudgeTimerRunning := false, log := hushLog c.log }

/-- A connection with deaf plugins. -/
def Shut (c : Conn) : Prop := DeafChain c.insidePlugins ∧ DeafChain c.outsidePlugins

theorem Shut.inside {c : Conn} (h : Shut c) : DeafChain c.insidePlugins := h.1
theorem Shut.outside {c : Conn} (h : Shut c) : DeafChain c.outsidePlugins := h.2

/-- The second result is the first without the informing callbacks. -/
def Par {α : Type} (x y : Conn × α) : Prop := y = (quiet x.1, x.2) ∧ Shut x.1

def ParC (x y : Conn) : Prop := y = quiet x ∧ Shut x

variable {α β : Type} {env : Env}


theorem Par.ite {p q : Prop} [Decidable p] [Decidable q] {a b a' b' : Conn × α} (h : p ↔ q) (ha : p → Par a a')
    (hb : ¬p → Par b b') : Par (if p then a else b) (if q then a' else b') := by
  by_cases hp : p
  · rw [if_pos hp, if_pos (h.mp hp)]; exact ha hp
  · rw [if_neg hp, if_neg (fun hq => hp (h.mpr hq))]; exact hb hp

theorem ParC.ite {p q : Prop} [Decidable p] [Decidable q] {a b a' b' : Conn} (h : p ↔ q) (ha : p → ParC a a')
    (hb : ¬p → ParC b b') : ParC (if p then a else b) (if q then a' else b') := by
  by_cases hp : p
  · rw [if_pos hp, if_pos (h.mp hp)]; exact ha hp
  · rw [if_neg hp, if_neg (fun hq => hp (h.mpr hq))]; exact hb hp

@[elab_as_elim]
theorem Par.bind {P : Conn × α → Conn × α → Prop} {x y : Conn × α} (h : Par x y)
    (hk : ∀ c a, Shut c → P (c, a) (quiet c, a)) : P x y := by
  obtain ⟨rfl, hs⟩ := h
  obtain ⟨c, a⟩ := x
  exact hk c a hs

/-- Continue with a connection already treated. -/
@[elab_as_elim]
theorem ParC.bind {P : Conn → Conn → Prop} {x y : Conn} (h : ParC x y) (hk : ∀ c, Shut c → P c (quiet c)) : P x y := by
  obtain ⟨rfl, hs⟩ := h
  exact hk x hs

theorem Par.fst {x y : Conn × α} (h : Par x y) : ParC x.1 y.1 := ⟨by rw [h.1], h.2⟩

theorem par {c : Conn} (h : Shut c) (a : α) : Par (c, a) (quiet c, a) := ⟨rfl, h⟩
theorem parC {c : Conn} (h : Shut c) : ParC c (quiet c) := ⟨rfl, h⟩

/-- Plugin chains. -/
theorem ingress_hide {ch : Chain} (h : DeafChain ch) (l : Log) (p : Bytes) (cap : Nat) :
    ch.ingress (hushLog l) p cap = (hushLog (ch.ingress l p cap).1, (ch.ingress l p cap).2) := by
  induction ch generalizing l p with
  | nil => rfl
  | cons node rest ih =>
    have ih := ih (fun q hq => h q (by simp [hq]))
    simp only [Chain.ingress]
    cases node with
    | none => exact ih l p
    | some q =>
      simp only [Option.bind_some]
      cases hf : q.ingress with
      | none => exact ih l p
      | some f =>
        simp only
        rw [(h q (by simp)).1 f hf l]
        generalize f l p cap = v
        obtain ⟨v, p'⟩ := v
        cases v with
        | fail => rfl
        | drop => rfl
        | success => exact ih (.pluginIngress p .success :: l) p'

theorem egress_hide {ch : Chain} (h : DeafChain ch) (l : Log) (p : Bytes) (cap : Nat) :
    ch.egress (hushLog l) p cap = (hushLog (ch.egress l p cap).1, (ch.egress l p cap).2) := by
  induction ch generalizing l p with
  | nil => rfl
  | cons node rest ih =>
    have ih := ih (fun q hq => h q (by simp [hq]))
    simp only [Chain.egress]
    rw [ih l p]
    generalize Chain.egress rest l p cap = x
    obtain ⟨l1, p1, rc⟩ := x
    simp only
    by_cases hrc : rc ≠ .success
    · rw [if_pos hrc, if_pos hrc]
    · rw [if_neg hrc, if_neg hrc]
      cases node with
      | none => rfl
      | some q =>
        simp only [Option.bind_some]
        cases hf : q.egress with
        | none => rfl
        | some f =>
          simp only
          rw [(h q (by simp)).2 f hf l1]
          generalize f l1 p1 cap = v
          obtain ⟨v, p'⟩ := v
          cases v <;> rfl

theorem outsideWriteCb_par (hE : Deaf env) {c : Conn} (h : Shut c) (p : Bytes) :
    Par (outsideWriteCb env c p) (outsideWriteCb env (quiet c) p) := by
  have e : outsideWriteCb env (quiet c) p = ((quiet c).emit (.outsideWrite p (env.outsideWrite (hushLog c.log) p)),
    env.outsideWrite (hushLog c.log) p) := rfl
  rw [e, hE.outsideWrite]
  exact ⟨rfl, h⟩

theorem dtlsWrite_par (hE : Deaf env) {c : Conn} (h : Shut c) (rec : Bytes) :
    Par (dtlsWrite env c rec) (dtlsWrite env (quiet c) rec) := by
  unfold dtlsWrite
  refine Par.ite Iff.rfl (fun _ => par h _) (fun _ => ?_)
  have e : (quiet c).outsidePlugins.egress (quiet c).log (wireHeader (quiet c) ++ rec) maxWireMtu = _ :=
    egress_hide h.outside c.log (wireHeader c ++ rec) maxWireMtu
  rw [e]
  extract_lets r c1 r' c2
  have h1 : Shut c1 := h
  have e2 : c2 = quiet c1 := rfl
  clear_value c2
  subst e2
  clear_value c1
  refine Par.ite Iff.rfl (fun _ => par h1 _) (fun _ => ?_)
  refine Par.ite Iff.rfl (fun _ => par h1 _) (fun _ => ?_)
  refine Par.ite Iff.rfl (fun _ => par h1 _) (fun _ => ?_)
  refine Par.bind (outsideWriteCb_par hE h1 _) (fun c rc h => ?_)
  refine Par.ite Iff.rfl (fun _ => par h _) (fun _ => ?_)
  refine Par.ite Iff.rfl (fun _ => ?_) (fun _ => par h _)
  refine Par.bind (outsideWriteCb_par hE h _) (fun c rc h => ?_)
  refine Par.ite Iff.rfl (fun _ => par h _) (fun _ => ?_)
  refine Par.bind (outsideWriteCb_par hE h _) (fun c rc h => ?_)
  exact Par.ite Iff.rfl (fun _ => par h _) (fun _ => par h _)

theorem tlsWrite_par (hE : Deaf env) {c : Conn} (h : Shut c) (rec : Bytes) :
    Par (tlsWrite env c rec) (tlsWrite env (quiet c) rec) := by
  unfold tlsWrite
  extract_lets n r c1 r' c2
  have e1 : r' = (hushLog r.1, r.2) := egress_hide h.outside c.log (rec.take n) maxWireMtu
  have h1 : Shut c1 := h
  have e2 : c2 = quiet c1 := by
    show { quiet c with log := r'.1 } = quiet { c with log := r.1 }
    rw [e1]; rfl
  clear_value c2
  subst e2
  clear_value r'
  subst e1
  clear_value c1
  refine Par.ite Iff.rfl (fun _ => par h1 _) (fun _ => ?_)
  refine Par.ite Iff.rfl (fun _ => par h1 _) (fun _ => ?_)
  refine Par.ite Iff.rfl (fun _ => par h1 _) (fun _ => ?_)
  refine Par.bind (outsideWriteCb_par hE h1 _) (fun c rc h => ?_)
  exact Par.ite Iff.rfl (fun _ => par h _) (fun _ => par h _)

theorem dtlsRead_par {c : Conn} (h : Shut c) (sz : Nat) : Par (dtlsRead c sz) (dtlsRead (quiet c) sz) := by
  unfold dtlsRead
  have : (quiet c).incoming = c.incoming := rfl
  rw [this]
  cases c.incoming with
  | none => exact par h _
  | some pkt =>
    refine Par.ite Iff.rfl (fun _ => par h _) (fun _ => ?_)
    exact Par.ite Iff.rfl (fun _ => ⟨rfl, h⟩) (fun _ => ⟨rfl, h⟩)

theorem tlsRead_par {c : Conn} (h : Shut c) (sz : Nat) : Par (tlsRead c sz) (tlsRead (quiet c) sz) := by
  unfold tlsRead
  exact Par.ite Iff.rfl (fun _ => par h _) (fun _ => ⟨rfl, h⟩)

theorem ioStep_par (hE : Deaf env) {c : Conn} (h : Shut c) (io : IoReq) : ParC (ioStep env c io) (ioStep env (quiet c) io) := by
  have ht : (quiet c).connType = c.connType := rfl
  cases io with
  | send rec =>
    simp only [ioStep, ht]
    cases c.connType with
    | datagram => obtain ⟨e, hs⟩ := dtlsWrite_par hE h rec; simp only; rw [e]; exact ⟨rfl, hs⟩
    | stream => obtain ⟨e, hs⟩ := tlsWrite_par hE h rec; simp only; rw [e]; exact ⟨rfl, hs⟩
  | recv sz =>
    simp only [ioStep, ht]
    cases c.connType with
    | datagram => obtain ⟨e, hs⟩ := dtlsRead_par h sz; simp only; rw [e]; exact ⟨rfl, hs⟩
    | stream => obtain ⟨e, hs⟩ := tlsRead_par h sz; simp only; rw [e]; exact ⟨rfl, hs⟩

theorem ioRun_par (hE : Deaf env) {c : Conn} (h : Shut c) (io : List IoReq) : ParC (ioRun env c io) (ioRun env (quiet c) io) := by
  unfold ioRun
  induction io generalizing c with
  | nil => exact parC h
  | cons r io ih =>
    obtain ⟨e, hs⟩ := ioStep_par hE h r
    simp only [List.foldl_cons]
    rw [e]
    exact ih hs

theorem sslDo_par (hE : Deaf env) {c : Conn} (h : Shut c) (call : SslCall) :
    Par (sslDo env c call) (sslDo env (quiet c) call) := by
  have hr : (if (quiet c).wolfSet then env.ssl (quiet c).log call else nullSslRes) =
      (if c.wolfSet then env.ssl c.log call else nullSslRes) := by
    show (if c.wolfSet then env.ssl (hushLog c.log) call else nullSslRes) = _
    rw [hE.ssl]
  unfold sslDo
  simp only [hr]
  generalize (if c.wolfSet then env.ssl c.log call else nullSslRes) = r
  have h1 : Shut (c.emit (.sslCall call r.ok)) := h
  obtain ⟨e, hs⟩ := ioRun_par hE h1 r.io
  exact ⟨by
    have e' : (quiet c).emit (.sslCall call r.ok) = quiet (c.emit (.sslCall call r.ok)) := rfl
    rw [e', e], hs⟩

theorem setupStreamState_par {c : Conn} (h : Shut c) (d : Bytes) : Par (setupStreamState c d) (setupStreamState (quiet c) d) := by
  unfold setupStreamState
  exact Par.ite Iff.rfl (fun _ => ⟨rfl, h⟩) (fun _ => ⟨rfl, h⟩)

theorem sendMessage_par (hE : Deaf env) {c : Conn} (h : Shut c) (m : Bytes) :
    Par (sendMessage env c m) (sendMessage env (quiet c) m) := by
  unfold sendMessage
  refine Par.bind (sslDo_par hE h (.write m)) (fun c r h => ?_)
  refine Par.ite Iff.rfl (fun _ => par h _) (fun _ => ?_)
  generalize r.err = e
  cases e <;> first | exact par h _ | exact Par.ite Iff.rfl (fun _ => par h _) (fun _ => ⟨rfl, h⟩)

theorem generateEvent_par {c : Conn} (h : Shut c) (e : Event) : ParC (generateEvent c e) (generateEvent (quiet c) e) := ⟨rfl, h⟩

theorem setState_par {c : Conn} (h : Shut c) (s : ConnState) : ParC (setState c s) (setState (quiet c) s) := by
  unfold setState
  exact ParC.ite Iff.rfl (fun _ => parC h) (fun _ => ⟨rfl, h⟩)

theorem sendAuth_par (hE : Deaf env) {c : Conn} (h : Shut c) : Par (sendAuth env c) (sendAuth env (quiet c)) := by
  unfold sendAuth
  refine Par.ite Iff.rfl (fun _ => par h _) (fun _ => ?_)
  refine ParC.bind (setState_par h .authenticating) (fun d hs => ?_)
  refine Par.ite Iff.rfl (fun _ => sendMessage_par hE hs _) (fun _ => ?_)
  refine Par.ite Iff.rfl (fun _ => ?_) (fun _ => ?_)
  · exact Par.ite Iff.rfl (fun _ => par hs _) (fun _ => sendMessage_par hE hs _)
  refine Par.ite Iff.rfl (fun _ => ?_) (fun _ => par hs _)
  exact Par.ite Iff.rfl (fun _ => par hs _) (fun _ => sendMessage_par hE hs _)

theorem changeState_par (hE : Deaf env) {c : Conn} (h : Shut c) (s : ConnState) :
    ParC (changeState env c s) (changeState env (quiet c) s) := by
  unfold changeState
  refine ParC.ite Iff.rfl (fun _ => parC h) (fun _ => ?_)
  refine ParC.bind (setState_par h s) (fun c h => ?_)
  exact ParC.ite Iff.rfl (fun _ => (sendAuth_par hE h).fst) (fun _ => parC h)

theorem sslVer_par (hE : Deaf env) {c : Conn} (h : Shut c) : Par (sslVer env c) (sslVer env (quiet c)) := by
  unfold sslVer
  refine Par.ite Iff.rfl (fun _ => ?_) (fun _ => ⟨rfl, h⟩)
  have : env.sslVersion (quiet c).log = env.sslVersion c.log := hE.sslVersion c.log
  rw [this]
  exact par h _

theorem setTimer_par {c : Conn} (h : Shut c) (t : Int) : ParC (setTimer c t) (setTimer (quiet c) t) := by
  unfold setTimer
  refine ParC.bind (x := { c.emit (.timer t) with wolfTimeout := t }) (y := { (quiet c).emit (.timer t) with wolfTimeout := t })
    ⟨rfl, h⟩ (fun c h => ?_)
  have e : ¬((quiet c).cbs.nudgeTime = true ∧ (!(quiet c).nudgeTimerRunning) = true) := fun hc => Bool.noConfusion hc.1
  rw [if_neg e]
  by_cases hc : c.cbs.nudgeTime = true ∧ (!c.nudgeTimerRunning) = true
  · rw [if_pos hc]; exact ⟨rfl, h⟩
  · rw [if_neg hc]; exact parC h

theorem quickTimer_par (hE : Deaf env) {c : Conn} (h : Shut c) (v : SslVersion) (t : Int) :
    Par (quickTimer env c v t) (quickTimer env (quiet c) v t) := by
  unfold quickTimer
  refine Par.ite Iff.rfl (fun _ => ?_) (fun _ => par h _)
  exact Par.bind (sslDo_par hE h _) (fun c q h => par h _)

theorem updateTimeout_par (hE : Deaf env) {c : Conn} (h : Shut c) :
    ParC (updateTimeout env c) (updateTimeout env (quiet c)) := by
  rw [updateTimeout_eq, updateTimeout_eq]
  refine ParC.ite Iff.rfl (fun _ => parC h) (fun _ => ?_)
  refine Par.bind (sslDo_par hE h _) (fun c r h => ?_)
  refine Par.bind (sslVer_par hE h) (fun c v h => ?_)
  refine Par.bind (quickTimer_par hE h v _) (fun c t h => ?_)
  exact setTimer_par h t

theorem sendGoodbye_par (hE : Deaf env) {c : Conn} (h : Shut c) : ParC (sendGoodbye env c) (sendGoodbye env (quiet c)) :=
  (sendMessage_par hE h _).fst

theorem renegBegun_par (hE : Deaf env) {c : Conn} (h : Shut c) (r : SslRes) :
    Par (renegBegun env c r) (renegBegun env (quiet c) r) := by
  unfold renegBegun
  have h2 : Shut (generateEvent { c with renegInProgress := true } .renegStarted) := h
  have e2 : generateEvent { quiet c with renegInProgress := true } .renegStarted =
    quiet (generateEvent { c with renegInProgress := true } .renegStarted) := rfl
  dsimp only
  rw [e2]
  clear e2
  generalize generateEvent { c with renegInProgress := true } .renegStarted = c2 at h2
  refine Par.ite Iff.rfl (fun _ => par h2 _) (fun _ => ?_)
  have hu : Par (updateTimeout env c2, RC.success) (updateTimeout env (quiet c2), .success) :=
    ParC.bind (updateTimeout_par hE h2) (fun c h => par h _)
  generalize r.err = e
  cases e <;> first | exact hu | exact ⟨rfl, h2⟩

theorem renegBegin_par (hE : Deaf env) {c : Conn} (h : Shut c) (v : SslVersion) :
    Par (renegBegin env c v) (renegBegin env (quiet c) v) := by
  unfold renegBegin
  refine Par.ite Iff.rfl (fun _ => ?_) (fun _ => ?_)
  · refine Par.bind (sslDo_par hE h _) (fun c s h => ?_)
    refine Par.ite Iff.rfl (fun _ => par h _) (fun _ => ?_)
    exact Par.bind (sslDo_par hE h _) (fun c r h => renegBegun_par hE h r)
  · exact Par.bind (sslDo_par hE h _) (fun c r h => renegBegun_par hE h r)

theorem renegotiateSsl_par (hE : Deaf env) {c : Conn} (h : Shut c) :
    Par (renegotiateSsl env c) (renegotiateSsl env (quiet c)) := by
  rw [renegotiateSsl_eq, renegotiateSsl_eq]
  have h1 : Shut { c with renegDue := false } := h
  have e1 : ({ quiet c with renegDue := false } : Conn) = quiet { c with renegDue := false } := rfl
  rw [e1]
  clear e1
  refine Par.ite Iff.rfl (fun _ => par h1 _) (fun _ => ?_)
  exact Par.bind (sslVer_par hE h1) (fun c v h => renegBegin_par hE h v)

theorem generateSessionId_par (hE : Deaf env) {c : Conn} (h : Shut c) :
    Par (generateSessionId env c) (generateSessionId env (quiet c)) := by
  unfold generateSessionId
  have : env.rng (quiet c).log = env.rng c.log := hE.rng c.log
  rw [this]
  exact ⟨rfl, h⟩

theorem pmtudChangeState_par {c : Conn} (h : Shut c) (s : PmtudState) :
    ParC (pmtudChangeState c s) (pmtudChangeState (quiet c) s) := by
  unfold pmtudChangeState
  exact ParC.ite Iff.rfl (fun _ => ⟨rfl, h⟩) (fun _ => ⟨rfl, h⟩)

theorem pmtudTimeCb_par (hE : Deaf env) {c : Conn} (h : Shut c) (ms : Nat) :
    Par (pmtudTimeCb env c ms) (pmtudTimeCb env (quiet c) ms) := by
  unfold pmtudTimeCb
  have : env.pmtudTime (quiet c).log = env.pmtudTime c.log := hE.pmtudTime c.log
  rw [this]
  exact ⟨rfl, h⟩

theorem sendProbe_par (hE : Deaf env) {c : Conn} (h : Shut c) (mtu : Nat) :
    Par (sendProbe env c mtu) (sendProbe env (quiet c) mtu) := by
  unfold sendProbe
  refine Par.ite Iff.rfl (fun _ => par h _) (fun _ => ?_)
  refine Par.ite Iff.rfl (fun _ => par h _) (fun _ => ?_)
  dsimp only
  have e0 : (quiet c).pingNextId = c.pingNextId := rfl
  rw [e0]
  generalize c.pingNextId = id
  refine ParC.bind
    (x := { c with pingNextId := (id + 1) % 65536, pmtud := { c.pmtud with probeCount := (c.pmtud.probeCount + 1) % 256, probingSize := mtu } })
    (y := { quiet c with pingNextId := (id + 1) % 65536, pmtud := { (quiet c).pmtud with probeCount := ((quiet c).pmtud.probeCount + 1) % 256, probingSize := mtu } })
    ⟨rfl, h⟩ (fun c h1 => ?_)
  refine Par.bind (sendMessage_par hE h1 _) (fun c rc h => ?_)
  dsimp only
  have a : ParC (if rc ≠ .success then c else { c with pmtud := { c.pmtud with pendingId := id } })
      (if rc ≠ .success then quiet c else { quiet c with pmtud := { (quiet c).pmtud with pendingId := id } }) :=
    ParC.ite Iff.rfl (fun _ => parC h) (fun _ => ⟨rfl, h⟩)
  refine ParC.bind a (fun c h => ?_)
  have b : ParC (if c.cbs.pmtudTime then (pmtudTimeCb env c (if rc ≠ .success then 10 else 5000)).1 else c)
      (if (quiet c).cbs.pmtudTime then (pmtudTimeCb env (quiet c) (if rc ≠ .success then 10 else 5000)).1 else quiet c) :=
    ParC.ite Iff.rfl (fun _ => (pmtudTimeCb_par hE h _).fst) (fun _ => parC h)
  exact ParC.bind b (fun c h => par h _)

theorem retryProbe_par (hE : Deaf env) {c : Conn} (h : Shut c) (ms : Nat) :
    Par (retryProbe env c ms) (retryProbe env (quiet c) ms) := by
  unfold retryProbe
  have a : Par (if c.cbs.pmtudTime then pmtudTimeCb env c ms else (c, .pmtudCallbacksNotSet))
      (if (quiet c).cbs.pmtudTime then pmtudTimeCb env (quiet c) ms else (quiet c, .pmtudCallbacksNotSet)) :=
    Par.ite Iff.rfl (fun _ => pmtudTimeCb_par hE h _) (fun _ => par h _)
  exact Par.bind a (fun c rc h => ⟨rfl, h⟩)

theorem startBaseProbing_par (hE : Deaf env) {c : Conn} (h : Shut c) :
    Par (startBaseProbing env c) (startBaseProbing env (quiet c)) := by
  unfold startBaseProbing
  have e : (quiet c).pmtud.state = c.pmtud.state := rfl
  rw [e]
  have k : Par (sendProbe env { pmtudChangeState c .base with pmtud := { (pmtudChangeState c .base).pmtud with base := initialPlpmtu, probeCount := 0 } } initialPlpmtu)
     (sendProbe env { pmtudChangeState (quiet c) .base with pmtud := { (pmtudChangeState (quiet c) .base).pmtud with base := initialPlpmtu, probeCount := 0 } } initialPlpmtu) := by
    refine ParC.bind (pmtudChangeState_par h .base) (fun c h => ?_)
    exact sendProbe_par hE (c := { c with pmtud := { c.pmtud with base := initialPlpmtu, probeCount := 0 } }) h _
  cases c.pmtud.state <;> first | exact k | exact par h _

theorem baseConfirmed_par (hE : Deaf env) {c : Conn} (h : Shut c) :
    Par (baseConfirmed env c) (baseConfirmed env (quiet c)) := by
  unfold baseConfirmed
  refine Par.ite Iff.rfl (fun _ => ?_) (fun _ => par h _)
  refine ParC.bind (pmtudChangeState_par h .searching) (fun c h => ?_)
  exact sendProbe_par hE (c := { c with pmtud := { c.pmtud with probeCount := 0, bigStep := true } }) h _

theorem confirmBaseFailed_par (hE : Deaf env) {c : Conn} (h : Shut c) :
    Par (confirmBaseFailed env c) (confirmBaseFailed env (quiet c)) := by
  unfold confirmBaseFailed
  refine Par.ite Iff.rfl (fun _ => ?_) (fun _ => par h _)
  exact ParC.bind (pmtudChangeState_par h .error) (fun c h => retryProbe_par hE h _)

theorem searchCompleted_par (hE : Deaf env) {c : Conn} (h : Shut c) :
    Par (searchCompleted env c) (searchCompleted env (quiet c)) := by
  unfold searchCompleted
  refine Par.ite Iff.rfl (fun _ => ?_) (fun _ => par h _)
  refine ParC.bind (x := { c with pmtud := { c.pmtud with effective := min c.pmtud.probingSize maxPlpmtu } })
    (y := { quiet c with pmtud := { (quiet c).pmtud with effective := min (quiet c).pmtud.probingSize maxPlpmtu } })
    ⟨rfl, h⟩ (fun c h1 => ?_)
  dsimp only
  exact ParC.bind (pmtudChangeState_par h1 .searchComplete) (fun c h => retryProbe_par hE h _)

theorem blackholeDetected_par (hE : Deaf env) {c : Conn} (h : Shut c) :
    Par (blackholeDetected env c) (blackholeDetected env (quiet c)) := by
  unfold blackholeDetected
  refine Par.ite Iff.rfl (fun _ => ?_) (fun _ => par h _)
  refine ParC.bind (pmtudChangeState_par h .base) (fun c h => ?_)
  exact sendProbe_par hE (c := { c with pmtud := { c.pmtud with base := minPlpmtu, probeCount := 0 } }) h _

theorem ackTail_par (hE : Deaf env) {c1 : Conn} (h1 : Shut c1) : Par (ackTail env c1) (ackTail env (quiet c1)) := by
  unfold ackTail
  have e : (quiet c1).pmtud = c1.pmtud := rfl
  rw [e]
  cases c1.pmtud.state with
  | base => exact baseConfirmed_par hE h1
  | searching =>
    refine Par.ite Iff.rfl (fun _ => searchCompleted_par hE h1) (fun _ => ?_)
    refine Par.bind (sendProbe_par hE h1 _) (fun c _ h => par h _)
  | error => exact baseConfirmed_par hE h1
  | searchComplete => exact retryProbe_par hE h1 _
  | disabled => exact par h1 _

theorem ackTime_par (hE : Deaf env) {c : Conn} (h : Shut c) : ParC (ackTime env c) (ackTime env (quiet c)) := by
  unfold ackTime
  exact ParC.ite Iff.rfl (fun _ => (pmtudTimeCb_par hE h _).fst) (fun _ => parC h)

theorem handleProbeAck_par (hE : Deaf env) {c : Conn} (h : Shut c) (id : Nat) :
    Par (handleProbeAck env c id) (handleProbeAck env (quiet c) id) := by
  rw [handleProbeAck_eq, handleProbeAck_eq]
  refine Par.ite Iff.rfl (fun _ => par h _) (fun _ => ?_)
  refine ParC.bind (ackTime_par hE h) (fun c h => ?_)
  exact ackTail_par hE (c1 := { c with pmtud := { c.pmtud with pendingId := 0, probeCount := 0 } }) h

theorem timeoutTail_par (hE : Deaf env) {c1 : Conn} (h1 : Shut c1) : Par (timeoutTail env c1) (timeoutTail env (quiet c1)) := by
  unfold timeoutTail
  have e : (quiet c1).pmtud.state = c1.pmtud.state := rfl
  cases hs : c1.pmtud.state with
  | base =>
    simp only [e, hs]
    exact Par.ite Iff.rfl (fun _ => sendProbe_par hE h1 _) (fun _ => confirmBaseFailed_par hE h1)
  | searching =>
    simp only [e, hs]
    refine Par.ite Iff.rfl (fun _ => ?_) (fun _ => ?_)
    · exact sendProbe_par hE (c := { c1 with pmtud := { c1.pmtud with state := .searching, bigStep := false } }) h1 _
    refine Par.ite Iff.rfl (fun _ => ⟨rfl, h1⟩) (fun _ => ?_)
    exact searchCompleted_par hE (c := { c1 with pmtud := { c1.pmtud with state := .searching, probingSize := c1.pmtud.probingSize - 8 } }) h1
  | error => simp only [e, hs]; exact retryProbe_par hE h1 _
  | searchComplete => simp only [e, hs]; exact blackholeDetected_par hE h1
  | disabled => simp only [e, hs]; exact par h1 _

theorem handleProbeTimeout_par (hE : Deaf env) {c : Conn} (h : Shut c) :
    Par (handleProbeTimeout env c) (handleProbeTimeout env (quiet c)) := by
  rw [handleProbeTimeout_eq, handleProbeTimeout_eq]
  refine Par.ite Iff.rfl (fun _ => sendProbe_par hE h _) (fun _ => ?_)
  exact timeoutTail_par hE (c1 := { c with pmtud := { c.pmtud with pendingId := 0, probeCount := 0 } }) h



theorem handlePing_par (hE : Deaf env) {c : Conn} (h : Shut c) (pkt : Bytes) :
    Par (handlePing env c pkt) (handlePing env (quiet c) pkt) := by
  unfold handlePing
  refine Par.ite Iff.rfl (fun _ => par h _) (fun _ => ?_)
  refine Par.ite Iff.rfl (fun _ => par h _) (fun _ => ?_)
  cases rd pkt 1 2 with
  | none => exact ⟨rfl, h⟩
  | some id => exact sendMessage_par hE h _

theorem handlePong_par (hE : Deaf env) {c : Conn} (h : Shut c) (pkt : Bytes) :
    Par (handlePong env c pkt) (handlePong env (quiet c) pkt) := by
  unfold handlePong
  refine Par.ite Iff.rfl (fun _ => par h _) (fun _ => ?_)
  cases rd pkt 1 2 with
  | none => exact ⟨rfl, h⟩
  | some id =>
    refine Par.ite Iff.rfl (fun _ => ⟨rfl, h⟩) (fun _ => ?_)
    exact Par.bind (handleProbeAck_par hE h _) (fun c _ h => par h _)

theorem handleServerConfig_par (hE : Deaf env) {c : Conn} (h : Shut c) (pkt : Bytes) :
    Par (handleServerConfig env c pkt) (handleServerConfig env (quiet c) pkt) := by
  unfold handleServerConfig
  refine Par.ite Iff.rfl (fun _ => par h _) (fun _ => ?_)
  refine Par.ite Iff.rfl (fun _ => par h _) (fun _ => ?_)
  refine Par.ite Iff.rfl (fun _ => par h _) (fun _ => ?_)
  cases rd pkt 1 2 with
  | none => exact ⟨rfl, h⟩
  | some len =>
    refine Par.ite Iff.rfl (fun _ => par h _) (fun _ => ?_)
    refine Par.ite Iff.rfl (fun _ => par h _) (fun _ => ?_)
    cases rd pkt 3 (rdBe16 len) with
    | none => exact ⟨rfl, h⟩
    | some buf =>
      have e : env.serverConfig (quiet c).log buf = env.serverConfig c.log buf := congrFun (hE.serverConfig c.log) buf
      dsimp only
      rw [e]
      exact Par.ite Iff.rfl (fun _ => ⟨rfl, h⟩) (fun _ => ⟨rfl, h⟩)

theorem takeConfig_par (hE : Deaf env) {c : Conn} (h : Shut c) (cfg : NetCfg) :
    Par (takeConfig env c cfg) (takeConfig env (quiet c) cfg) := by
  have e : env.netConfig (quiet c).log cfg = env.netConfig c.log cfg := congrFun (hE.netConfig c.log) cfg
  unfold takeConfig
  rw [e]
  refine Par.ite Iff.rfl (fun _ => ?_) (fun _ => ?_)
  · refine Par.ite Iff.rfl (fun _ => ⟨rfl, h⟩) (fun _ => ?_)
    have h1 : Shut (c.emit (.netConfig cfg (env.netConfig c.log cfg))) := h
    exact ParC.bind (setState_par h1 .online) (fun c h => par h _)
  · exact ParC.bind (setState_par h .online) (fun c h => par h _)

theorem handleConfigIpv4_par (hE : Deaf env) {c : Conn} (h : Shut c) (pkt : Bytes) :
    Par (handleConfigIpv4 env c pkt) (handleConfigIpv4 env (quiet c) pkt) := by
  unfold handleConfigIpv4
  refine Par.ite Iff.rfl (fun _ => par h _) (fun _ => ?_)
  refine Par.ite Iff.rfl (fun _ => par h _) (fun _ => ?_)
  refine Par.ite Iff.rfl (fun _ => par h _) (fun _ => ?_)
  have ub : Par (c.ub "config_ipv4", RC.failed) ((quiet c).ub "config_ipv4", .failed) := ⟨rfl, h⟩
  cases rd pkt 1 24 with
  | none => exact ub
  | some l =>
  cases rd pkt 25 24 with
  | none => exact ub
  | some p =>
  cases rd pkt 49 24 with
  | none => exact ub
  | some d =>
  cases rd pkt 73 24 with
  | none => exact ub
  | some m =>
  cases rd pkt 97 8 with
  | none => exact ub
  | some s =>
  cases wr pkt 96 [0] with
  | none => exact ub
  | some _ =>
    generalize hcfg : ({ localIp := copyIpField l, peerIp := copyIpField p, dnsIp := copyIpField d, mtu := configMtu (setNul m 23) } : NetCfg) = cfg
    have k : Par (takeConfig env (setState { c with sessionId := rdLe s } .configuring) cfg)
        (takeConfig env (setState { quiet c with sessionId := rdLe s } .configuring) cfg) := by
      have h1 : Shut { c with sessionId := rdLe s } := h
      exact ParC.bind (setState_par h1 .configuring) (fun c h => takeConfig_par hE h cfg)
    subst hcfg
    exact k

theorem internalHandleData_par {c : Conn} (h : Shut c) (pkt : Bytes) :
    Par (internalHandleData c pkt) (internalHandleData (quiet c) pkt) := by
  unfold internalHandleData
  have e : (quiet c).insidePlugins.egress (quiet c).log pkt pkt.length = _ := egress_hide h.inside c.log pkt pkt.length
  rw [e]
  clear e
  generalize c.insidePlugins.egress c.log pkt pkt.length = r
  obtain ⟨l, q, rc⟩ := r
  have h1 : Shut { c with log := l } := h
  refine Par.ite Iff.rfl (fun _ => ⟨rfl, h1⟩) (fun _ => ?_)
  refine Par.ite Iff.rfl (fun _ => ⟨rfl, h1⟩) (fun _ => ?_)
  refine Par.ite Iff.rfl (fun _ => ⟨rfl, h1⟩) (fun _ => ?_)
  refine Par.ite Iff.rfl (fun _ => ⟨rfl, h1⟩) (fun _ => ?_)
  exact Par.ite Iff.rfl (fun _ => ⟨rfl, h1⟩) (fun _ => ⟨rfl, h1⟩)

theorem handleData_par {c : Conn} (h : Shut c) (pkt : Bytes) : Par (handleData c pkt) (handleData (quiet c) pkt) := by
  unfold handleData
  refine Par.ite Iff.rfl (fun _ => par h _) (fun _ => ?_)
  refine Par.ite Iff.rfl (fun _ => par h _) (fun _ => ?_)
  cases rd pkt 1 2 with
  | none => exact ⟨rfl, h⟩
  | some l =>
    dsimp only
    have e : (if (quiet c).verMajor = 1 ∧ (quiet c).verMinor = 0 then rdLe16 l else rdBe16 l) =
      (if c.verMajor = 1 ∧ c.verMinor = 0 then rdLe16 l else rdBe16 l) := rfl
    rw [e]
    generalize (if c.verMajor = 1 ∧ c.verMinor = 0 then rdLe16 l else rdBe16 l) = len
    refine Par.ite Iff.rfl (fun _ => par h _) (fun _ => ?_)
    cases rd pkt 3 len with
    | none => exact ⟨rfl, h⟩
    | some inner => exact internalHandleData_par h inner

theorem handleDeprecated13_par {c : Conn} (h : Shut c) (pkt : Bytes) :
    Par (handleDeprecated13 c pkt) (handleDeprecated13 (quiet c) pkt) := by
  unfold handleDeprecated13
  refine Par.ite Iff.rfl (fun _ => par h _) (fun _ => ?_)
  refine Par.ite Iff.rfl (fun _ => par h _) (fun hl => ?_)
  cases rd pkt 1 2 with
  | none => exact ⟨rfl, h⟩
  | some l =>
    refine Par.ite Iff.rfl (fun _ => par h _) (fun _ => ?_)
    cases rd pkt 5 (rdBe16 l) with
    | none => exact ⟨rfl, h⟩
    | some inner => exact internalHandleData_par h inner

theorem fragGive_par {c : Conn} (h : Shut c) (t : FragTable) (p : Bytes) :
    Par (fragGive c t p) (fragGive (quiet c) t p) := by
  unfold fragGive
  exact Par.bind (internalHandleData_par h p) (fun c rc h => ⟨rfl, h⟩)

theorem fragDone_par {c : Conn} (h : Shut c) (t : FragTable) (id : Nat) (u : Option (FragEntry × RC × Bool)) :
    Par (fragDone c t id u) (fragDone (quiet c) t id u) := by
  cases u with
  | none => exact ⟨rfl, h⟩
  | some u =>
    obtain ⟨en, rc, a⟩ := u
    unfold fragDone
    dsimp only
    refine Par.ite Iff.rfl (fun _ => ⟨rfl, h⟩) (fun _ => ?_)
    refine Par.ite Iff.rfl (fun _ => ?_) (fun _ => ⟨rfl, h⟩)
    cases en.nodes with
    | nil => exact ⟨rfl, h⟩
    | cons hd _ =>
      dsimp only
      cases rd en.data 0 hd.e with
      | none => exact ⟨rfl, h⟩
      | some p =>
        exact fragGive_par (c := { c with fragTable := some (t.set id en) }) h ((t.set id en).delete id) p

theorem fragApply_par (hE : Deaf env) {c : Conn} (h : Shut c) (t : FragTable) (en : FragEntry) (id off : Nat) (last : Bool) (d : Bytes) :
    Par (fragApply env c t en id off last d) (fragApply env (quiet c) t en id off last d) := by
  rw [fragApply_eq, fragApply_eq]
  have e1 : env.now (quiet c).log = env.now c.log := hE.now c.log
  rw [e1]
  have e2 : env.alloc ((quiet c).emit (.clock (env.now c.log))).log = env.alloc (c.emit (.clock (env.now c.log))).log :=
    hE.alloc (c.emit (.clock (env.now c.log))).log
  rw [e2]
  exact fragDone_par (c := c.emit (.clock (env.now c.log))) h t id _

theorem fragFound_par (hE : Deaf env) {c : Conn} (h : Shut c) (id off : Nat) (last : Bool) (d : Bytes) (u : FragTable × Option FragEntry) :
    Par (fragFound env c id off last d u) (fragFound env (quiet c) id off last d u) := by
  obtain ⟨t, u⟩ := u
  cases u with
  | none => exact ⟨rfl, h⟩
  | some en => exact fragApply_par hE (c := { c with fragTable := some t }) h t en id off last d

theorem fragFresh_par (hE : Deaf env) {c : Conn} (h : Shut c) (f : Bool) : ParC (fragFresh env c f) (fragFresh env (quiet c) f) := by
  unfold fragFresh
  have e : env.alloc (quiet c).log = env.alloc c.log := hE.alloc c.log
  rw [e]
  exact ParC.ite Iff.rfl (fun _ => ⟨rfl, h⟩) (fun _ => parC h)

theorem fragClock_par (hE : Deaf env) {c : Conn} (h : Shut c) (f : Bool) : ParC (fragClock env c f) (fragClock env (quiet c) f) := by
  unfold fragClock
  have e : env.now (quiet c).log = env.now c.log := hE.now c.log
  rw [e]
  exact ParC.ite Iff.rfl (fun _ => ⟨rfl, h⟩) (fun _ => parC h)

theorem fragReceive_par (hE : Deaf env) {c : Conn} (h : Shut c) (id off : Nat) (last : Bool) (d : Bytes) :
    Par (fragReceive env c id off last d) (fragReceive env (quiet c) id off last d) := by
  rw [fragReceive_eq, fragReceive_eq]
  have e : (quiet c).fragTable = c.fragTable := rfl
  rw [e]
  cases c.fragTable with
  | none => exact par h _
  | some t =>
    dsimp only
    have e1 : env.alloc (quiet c).log = env.alloc c.log := hE.alloc c.log
    rw [e1]
    generalize env.alloc c.log = al
    refine ParC.bind (fragFresh_par hE h _) (fun c h => ?_)
    have e1 : env.now (quiet c).log = env.now c.log := hE.now c.log
    rw [e1]
    generalize env.now c.log = now
    exact ParC.bind (fragClock_par hE h _) (fun c h => fragFound_par hE h id off last d _)

theorem handleDataFrag_par (hE : Deaf env) {c : Conn} (h : Shut c) (pkt : Bytes) :
    Par (handleDataFrag env c pkt) (handleDataFrag env (quiet c) pkt) := by
  unfold handleDataFrag
  refine Par.ite Iff.rfl (fun _ => par h _) (fun _ => ?_)
  refine Par.ite Iff.rfl (fun _ => par h _) (fun hl => ?_)
  have ub : Par (c.ub "data_frag", RC.failed) ((quiet c).ub "data_frag", .failed) := ⟨rfl, h⟩
  cases rd pkt 1 2 with
  | none => exact ub
  | some l =>
  cases rd pkt 3 2 with
  | none => exact ub
  | some i =>
  cases rd pkt 5 2 with
  | none => exact ub
  | some o =>
    refine Par.ite Iff.rfl (fun _ => par h _) (fun _ => ?_)
    refine Par.ite Iff.rfl (fun _ => par h _) (fun _ => ?_)
    cases rd pkt 7 (rdBe16 l) with
    | none => exact ub
    | some d => exact fragReceive_par hE h _ _ _ d

theorem fragLoop_par (hE : Deaf env) {c : Conn} (h : Shut c) (size id off : Nat) (pkt : Bytes) :
    Par (fragLoop env c size id off pkt) (fragLoop env (quiet c) size id off pkt) := by
  induction hn : pkt.length using Nat.strongRecOn generalizing c off pkt with
  | _ n ih =>
    rw [fragLoop, fragLoop]
    by_cases hz : pkt.length = 0
    · rw [dif_pos hz, dif_pos hz]; exact par h _
    rw [dif_neg hz, dif_neg hz]
    by_cases hs : size = 0
    · rw [dif_pos hs, dif_pos hs]; exact ⟨rfl, h⟩
    rw [dif_neg hs, dif_neg hs]
    refine Par.ite Iff.rfl (fun _ => ⟨rfl, h⟩) (fun _ => ?_)
    refine Par.bind (sendMessage_par hE h _) (fun c rc h => ?_)
    refine Par.ite Iff.rfl (fun _ => par h _) (fun _ => ?_)
    exact ih (pkt.drop size).length (by rw [List.length_drop]; omega) h _ _ rfl

theorem fragAndSend_par (hE : Deaf env) {c : Conn} (h : Shut c) (pkt : Bytes) (n : Nat) :
    Par (fragAndSend env c pkt n) (fragAndSend env (quiet c) pkt n) := by
  unfold fragAndSend
  refine Par.ite Iff.rfl (fun _ => par h _) (fun _ => ?_)
  exact fragLoop_par hE (c := { c with fragNextId := (c.fragNextId + 1) % 65536 }) h _ _ _ _

theorem insideSend_par (hE : Deaf env) {c : Conn} (h : Shut c) (pmtu : Nat) (r : Log × Bytes × RC) :
    Par (insideSend env c pmtu r) (insideSend env (quiet c) pmtu (hushLog r.1, r.2)) := by
  unfold insideSend
  obtain ⟨l, q, rc⟩ := r
  have h1 : Shut { c with log := l } := h
  refine Par.ite Iff.rfl (fun _ => ⟨rfl, h1⟩) (fun _ => ?_)
  refine Par.ite Iff.rfl (fun _ => ⟨rfl, h1⟩) (fun _ => ?_)
  refine Par.ite Iff.rfl (fun _ => ⟨rfl, h1⟩) (fun _ => ?_)
  refine Par.ite Iff.rfl (fun _ => ?_) (fun _ => ?_)
  · refine Par.ite Iff.rfl (fun _ => ⟨rfl, h1⟩) (fun _ => ?_)
    exact sendMessage_par hE (c := { c with log := l }) h1 (dataMsg c q)
  · exact fragAndSend_par hE (c := { c with log := l }) h1 q (pmtu + 3 - 7)

theorem insideClamped_par (hE : Deaf env) {c : Conn} (h : Shut c) (q : Option (Bytes × RC)) :
    Par (insideClamped env c q) (insideClamped env (quiet c) q) := by
  cases q with
  | none => exact ⟨rfl, h⟩
  | some q =>
    obtain ⟨pkt, rc⟩ := q
    unfold insideClamped
    refine Par.ite Iff.rfl (fun _ => par h _) (fun _ => ?_)
    have e : (quiet c).insidePlugins.ingress (quiet c).log pkt (sizeSub (quiet c).outsideMtu packetOverhead) = _ :=
      ingress_hide h.inside c.log pkt (sizeSub c.outsideMtu packetOverhead)
    rw [e]
    exact insideSend_par hE h (effectivePmtu c) _

theorem insidePacket_par (hE : Deaf env) {c : Conn} (h : Shut c) (pkt : Bytes) :
    Par (insidePacket env c pkt) (insidePacket env (quiet c) pkt) := by
  rw [insidePacket_eq, insidePacket_eq]
  refine Par.ite Iff.rfl (fun _ => par h _) (fun _ => ?_)
  refine Par.ite Iff.rfl (fun _ => par h _) (fun _ => ?_)
  refine Par.ite Iff.rfl (fun _ => par h _) (fun _ => ?_)
  refine Par.ite Iff.rfl (fun _ => par h _) (fun _ => ?_)
  exact insideClamped_par hE h _

/-- The two outcomes of the authentication switch. -/
def ParA : AuthOut → AuthOut → Prop
  | .ret c rc p, .ret c' rc' p' => ParC c c' ∧ rc = rc' ∧ p = p'
  | .verdict c ok rc p, .verdict c' ok' rc' p' => ParC c c' ∧ ok = ok' ∧ rc = rc' ∧ p = p'
  | _, _ => False

theorem ParA.ite {p q : Prop} [Decidable p] [Decidable q] {a b a' b' : AuthOut} (h : p ↔ q) (ha : p → ParA a a')
    (hb : ¬p → ParA b b') : ParA (if p then a else b) (if q then a' else b') := by
  by_cases hp : p
  · rw [if_pos hp, if_pos (h.mp hp)]; exact ha hp
  · rw [if_neg hp, if_neg (fun hq => hp (h.mpr hq))]; exact hb hp

theorem authSwitch_par (hE : Deaf env) {c : Conn} (h : Shut c) (pkt : Bytes) (ty : UInt8) :
    ParA (authSwitch env c pkt ty) (authSwitch env (quiet c) pkt ty) := by
  unfold authSwitch
  have a1 : env.authUserPass (quiet c).log = env.authUserPass c.log := hE.authUserPass c.log
  have a2 : env.authToken (quiet c).log = env.authToken c.log := hE.authToken c.log
  have a3 : env.authBuf (quiet c).log = env.authBuf c.log := hE.authBuf c.log
  rw [a1, a2, a3]
  clear a1 a2 a3
  generalize env.authUserPass c.log = f1
  generalize env.authToken c.log = f2
  generalize env.authBuf c.log = f3
  refine ParA.ite Iff.rfl (fun _ => ?_) (fun _ => ?_)
  · refine ParA.ite Iff.rfl (fun _ => ?_) (fun _ => ⟨parC h, rfl, rfl, rfl⟩)
    refine ParA.ite Iff.rfl (fun _ => ⟨parC h, rfl, rfl⟩) (fun hl => ?_)
    cases rd pkt 4 50 with
    | none => exact ⟨⟨rfl, h⟩, rfl, rfl⟩
    | some u =>
    cases rd pkt 54 50 with
    | none => exact ⟨⟨rfl, h⟩, rfl, rfl⟩
    | some p =>
    cases wr pkt 54 (zeros 50) with
    | none => exact ⟨⟨rfl, h⟩, rfl, rfl⟩
    | some x => exact ⟨⟨rfl, h⟩, rfl, rfl, rfl⟩
  refine ParA.ite Iff.rfl (fun _ => ?_) (fun _ => ?_)
  · refine ParA.ite Iff.rfl (fun _ => ?_) (fun _ => ⟨parC h, rfl, rfl, rfl⟩)
    refine ParA.ite Iff.rfl (fun _ => ⟨parC h, rfl, rfl⟩) (fun hl => ?_)
    cases rd pkt 2 2 with
    | none => exact ⟨⟨rfl, h⟩, rfl, rfl⟩
    | some len =>
      dsimp only
      refine ParA.ite Iff.rfl (fun _ => ⟨parC h, rfl, rfl⟩) (fun _ => ?_)
      cases rd pkt 4 (rdBe16 len) with
      | none => exact ⟨⟨rfl, h⟩, rfl, rfl⟩
      | some tok => exact ⟨⟨rfl, h⟩, rfl, rfl, rfl⟩
  refine ParA.ite Iff.rfl (fun _ => ?_) (fun _ => ⟨parC h, rfl, rfl, rfl⟩)
  refine ParA.ite Iff.rfl (fun _ => ?_) (fun _ => ⟨parC h, rfl, rfl, rfl⟩)
  refine ParA.ite Iff.rfl (fun _ => ⟨parC h, rfl, rfl⟩) (fun hl => ?_)
  cases rd pkt 2 2 with
  | none => exact ⟨⟨rfl, h⟩, rfl, rfl⟩
  | some len =>
    dsimp only
    refine ParA.ite Iff.rfl (fun _ => ⟨parC h, rfl, rfl⟩) (fun _ => ?_)
    cases rd pkt 4 (rdBe16 len) with
    | none => exact ⟨⟨rfl, h⟩, rfl, rfl⟩
    | some buf => exact ⟨⟨rfl, h⟩, rfl, rfl, rfl⟩

theorem sendAuthDenied_par (hE : Deaf env) {c : Conn} (h : Shut c) :
    ParC (sendAuthDenied env c) (sendAuthDenied env (quiet c)) :=
  (sendMessage_par hE h _).fst

theorem verdict_par (hE : Deaf env) {c : Conn} (hs : Shut c) (ok : Bool) (rc : RC) (p : Bytes) :
    Par (authEnd env (.verdict c ok rc p)) (authEnd env (.verdict (quiet c) ok rc p)) := by
  unfold authEnd
  dsimp only
  have ep : env.populate (quiet c).log = env.populate c.log := hE.populate c.log
  rw [ep]
  generalize env.populate c.log = r
  have h1 : Shut (c.emit (.populate r.1)) := hs
  refine Par.ite Iff.rfl (fun _ => ?_) (fun _ => ?_)
  · refine ParC.bind (sendAuthDenied_par hE hs) (fun c h => ?_)
    exact ParC.bind (setState_par h .disconnecting) (fun c h => par h _)
  refine Par.ite Iff.rfl (fun _ => ?_) (fun _ => ?_)
  · have k : ParC (sendAuthDenied env (c.emit (.populate r.1))) (sendAuthDenied env ((quiet c).emit (.populate r.1))) :=
      sendAuthDenied_par hE h1
    exact ParC.bind k (fun c h => par h _)
  · have k : Par (sendMessage env (c.emit (.populate r.1)) (configIpv4Msg c.sessionId r.2))
        (sendMessage env ((quiet c).emit (.populate r.1)) (configIpv4Msg (quiet c).sessionId r.2)) :=
      sendMessage_par hE h1 _
    refine Par.bind k (fun c _ h => ?_)
    exact ParC.bind (setState_par h .online) (fun c h => par h _)

theorem authEnd_par (hE : Deaf env) {a b : AuthOut} (h : ParA a b) : Par (authEnd env a) (authEnd env b) := by
  cases a with
  | ret c rc p =>
    cases b with
    | ret c' rc' p' => exact ⟨by show (c', rc') = (quiet c, rc); rw [h.1.1, h.2.1], h.1.2⟩
    | verdict => exact h.elim
  | verdict c ok rc p =>
    cases b with
    | ret => exact h.elim
    | verdict c' ok' rc' p' =>
      have k := verdict_par hE h.1.2 ok rc p
      rw [← h.1.1, h.2.1, h.2.2.1, h.2.2.2] at k
      rw [h.2.1, h.2.2.1, h.2.2.2]
      exact k

theorem handleAuth_par (hE : Deaf env) {c : Conn} (h : Shut c) (pkt : Bytes) :
    Par (handleAuth env c pkt) (handleAuth env (quiet c) pkt) := by
  rw [handleAuth_eq, handleAuth_eq]
  refine Par.ite Iff.rfl (fun _ => par h _) (fun _ => ?_)
  refine Par.ite Iff.rfl (fun _ => par h _) (fun _ => ?_)
  refine Par.ite Iff.rfl (fun _ => par h _) (fun _ => ?_)
  refine Par.ite Iff.rfl (fun _ => par h _) (fun _ => ?_)
  match rd pkt 1 1 with
  | none => exact ⟨rfl, h⟩
  | some [] => exact ⟨rfl, h⟩
  | some [ty] => exact authEnd_par hE (authSwitch_par hE h pkt ty)
  | some (_ :: _ :: _) => exact ⟨rfl, h⟩

theorem processMessage_par (hE : Deaf env) {c : Conn} (h : Shut c) (pkt : Bytes) :
    Par (processMessage env c pkt) (processMessage env (quiet c) pkt) := by
  cases pkt with
  | nil => exact ⟨rfl, h⟩
  | cons id rest =>
    unfold processMessage
    dsimp only
    generalize id :: rest = pkt
    refine Par.ite Iff.rfl (fun _ => par h _) (fun _ => ?_)
    refine Par.ite Iff.rfl (fun _ => handlePing_par hE h _) (fun _ => ?_)
    refine Par.ite Iff.rfl (fun _ => handlePong_par hE h _) (fun _ => ?_)
    refine Par.ite Iff.rfl (fun _ => ?_) (fun _ => ?_)
    · exact Par.ite Iff.rfl (fun _ => handleAuth_par hE h _) (fun _ => par h _)
    refine Par.ite Iff.rfl (fun _ => handleData_par h _) (fun _ => ?_)
    refine Par.ite Iff.rfl (fun _ => ?_) (fun _ => ?_)
    · exact Par.ite Iff.rfl (fun _ => handleConfigIpv4_par hE h _) (fun _ => par h _)
    refine Par.ite Iff.rfl (fun _ => ?_) (fun _ => ?_)
    · exact Par.ite Iff.rfl (fun _ => par h _) (fun _ => par h _)
    refine Par.ite Iff.rfl (fun _ => par h _) (fun _ => ?_)
    refine Par.ite Iff.rfl (fun _ => par h _) (fun _ => ?_)
    refine Par.ite Iff.rfl (fun _ => par h _) (fun _ => ?_)
    refine Par.ite Iff.rfl (fun _ => handleDeprecated13_par h _) (fun _ => ?_)
    refine Par.ite Iff.rfl (fun _ => ?_) (fun _ => ?_)
    · exact Par.ite Iff.rfl (fun _ => handleServerConfig_par hE h _) (fun _ => par h _)
    exact Par.ite Iff.rfl (fun _ => handleDataFrag_par hE h _) (fun _ => par h _)

theorem readFailed_par {c : Conn} (h : Shut c) (r : ReadRes) {again again' : Conn → Conn × Option RC}
    (ha : ∀ c, Shut c → Par (again c) (again' (quiet c))) :
    Par (readFailed c r again) (readFailed (quiet c) r again') := by
  show Par (readFailed c r again) (readFailed (quiet c) r again')
  unfold readFailed
  generalize r.err = e
  cases e <;> first
    | exact par h _
    | exact ha c h
    | exact Par.ite Iff.rfl (fun _ => par h _) (fun _ => ⟨rfl, h⟩)

theorem processed_par {q q' : Conn × RC} (h : Par q q') {again again' : Conn → Conn × Option RC}
    (ha : ∀ c, Shut c → Par (again c) (again' (quiet c))) : Par (processed q again) (processed q' again') := by
  unfold processed
  refine Par.bind h (fun c rc h => ?_)
  exact Par.ite Iff.rfl (fun _ => par h _) (fun _ => ha c h)

theorem messageLoop_par (hE : Deaf env) {c : Conn} (h : Shut c) (reads : List ReadRes) :
    Par (messageLoop env c reads) (messageLoop env (quiet c) reads) := by
  induction reads generalizing c with
  | nil =>
    rw [messageLoop, messageLoop]
    exact Par.ite Iff.rfl (fun _ => ⟨rfl, h⟩) (fun _ => ⟨rfl, h⟩)
  | cons r rest ih =>
    rw [messageLoop_cons, messageLoop_cons]
    refine Par.ite Iff.rfl (fun _ => ⟨rfl, h⟩) (fun _ => ?_)
    generalize r.plain.take maxWireMtu = plain
    have h1 : Shut (c.emit (.sslCall .read (!plain.isEmpty))) := h
    have hr : ParC (ioRun env (c.emit (.sslCall .read (!plain.isEmpty))) r.io)
      (ioRun env ((quiet c).emit (.sslCall .read (!plain.isEmpty))) r.io) := ioRun_par hE h1 r.io
    refine ParC.bind hr (fun c h => ?_)
    refine Par.ite Iff.rfl (fun _ => ?_) (fun _ => ?_)
    · exact readFailed_par h r (fun c h => ih h)
    have h2 : Shut (c.emit (.message plain)) := h
    have hp : Par (processMessage env (c.emit (.message plain)) plain)
        (processMessage env ((quiet c).emit (.message plain)) plain) := processMessage_par hE h2 plain
    exact processed_par hp (fun c h => ih h)

theorem renegFin_par (hE : Deaf env) {c : Conn} (h : Shut c) (p : Bool) : Par (renegFin env c p) (renegFin env (quiet c) p) := by
  unfold renegFin
  cases p with
  | true =>
    have h1 : Shut { c with renegInProgress := true } := h
    exact ParC.bind (updateTimeout_par hE h1) (fun c h => par h _)
  | false =>
    have h1 : Shut { generateEvent c .renegCompleted with renegInProgress := false } := h
    exact ParC.bind (updateTimeout_par hE h1) (fun c h => par h _)

theorem renegAsk_par (hE : Deaf env) {c : Conn} (h : Shut c) (v : SslVersion) :
    Par (renegAsk env c v) (renegAsk env (quiet c) v) := by
  unfold renegAsk
  refine Par.ite Iff.rfl (fun _ => ?_) (fun _ => ?_)
  · exact Par.bind (sslDo_par hE h _) (fun c r h => renegFin_par hE h _)
  · refine Par.bind (sslDo_par hE h _) (fun c r h => ?_)
    exact Par.ite Iff.rfl (fun _ => ⟨rfl, h⟩) (fun _ => renegFin_par hE h _)

theorem renegTail_par (hE : Deaf env) {c : Conn} (h : Shut c) : Par (renegTail env c) (renegTail env (quiet c)) := by
  rw [renegTail_eq, renegTail_eq]
  refine Par.ite Iff.rfl (fun _ => par h _) (fun _ => ?_)
  exact Par.bind (sslVer_par hE h) (fun c v h => renegAsk_par hE h v)

theorem handleMessages_par (hE : Deaf env) {c : Conn} (h : Shut c) (reads : List ReadRes) :
    Par (handleMessages env c reads) (handleMessages env (quiet c) reads) := by
  unfold handleMessages
  refine Par.bind (messageLoop_par hE h reads) (fun c q h => ?_)
  cases q with
  | some rc => exact par h _
  | none =>
    refine Par.ite Iff.rfl (fun _ => ?_) (fun _ => renegTail_par hE h)
    refine Par.bind (renegotiateSsl_par hE h) (fun c rc h => ?_)
    exact Par.ite Iff.rfl (fun _ => par h _) (fun _ => renegTail_par hE h)

theorem firstMessage_par {c : Conn} (h : Shut c) : ParC (firstMessage c) (firstMessage (quiet c)) := by
  unfold firstMessage
  exact ParC.ite Iff.rfl (fun _ => ⟨rfl, h⟩) (fun _ => parC h)

theorem shaken_par (hE : Deaf env) {c : Conn} (h : Shut c) (r : SslRes) (reads : List ReadRes) :
    Par (shaken env c r reads) (shaken env (quiet c) r reads) := by
  unfold shaken
  refine Par.ite Iff.rfl (fun _ => ?_) (fun _ => ?_)
  · refine Par.ite Iff.rfl (fun _ => ?_) (fun _ => ?_)
    · refine Par.ite Iff.rfl (fun _ => par h _) (fun _ => ?_)
      exact Par.ite Iff.rfl (fun _ => par h _) (fun _ => ⟨rfl, h⟩)
    · have a : ParC (if c.connType = .datagram then updateTimeout env c else c)
          (if (quiet c).connType = .datagram then updateTimeout env (quiet c) else quiet c) :=
        ParC.ite Iff.rfl (fun _ => updateTimeout_par hE h) (fun _ => parC h)
      exact ParC.bind a (fun c h => par h _)
  · exact ParC.bind (changeState_par hE h .linkUp) (fun c h => handleMessages_par hE h reads)

theorem verifyConnection_par (hE : Deaf env) {c : Conn} (h : Shut c) (reads : List ReadRes) :
    Par (verifyConnection env c reads) (verifyConnection env (quiet c) reads) := by
  rw [verifyConnection_eq, verifyConnection_eq]
  refine ParC.bind (firstMessage_par h) (fun c h => ?_)
  refine Par.ite Iff.rfl (fun _ => ?_) (fun _ => handleMessages_par hE h reads)
  exact Par.bind (sslDo_par hE h _) (fun c r h => shaken_par hE h r reads)

theorem updateSessionIncoming_par {c : Conn} (h : Shut c) (s : Nat) :
    Par (updateSessionIncoming c s) (updateSessionIncoming (quiet c) s) := by
  unfold updateSessionIncoming
  refine Par.ite Iff.rfl (fun _ => par h _) (fun _ => ?_)
  refine Par.ite Iff.rfl (fun _ => ?_) (fun _ => ⟨rfl, h⟩)
  refine Par.ite Iff.rfl (fun _ => par h _) (fun _ => ?_)
  exact Par.ite Iff.rfl (fun _ => ⟨rfl, h⟩) (fun _ => par h _)

theorem outsidePacket_par (hE : Deaf env) {c : Conn} (h : Shut c) (pkt : Bytes) (reads : List ReadRes) :
    Par (outsidePacket env c pkt reads) (outsidePacket env (quiet c) pkt reads) := by
  unfold outsidePacket
  refine Par.ite Iff.rfl (fun _ => par h _) (fun _ => ?_)
  have ub : Par (c.ub "wire header", RC.failed) ((quiet c).ub "wire header", .failed) := ⟨rfl, h⟩
  cases rd pkt 0 2 with
  | none => exact ub
  | some he =>
  cases rd pkt 2 2 with
  | none => exact ub
  | some ver =>
  cases rd pkt 8 8 with
  | none => exact ub
  | some s =>
  cases rd pkt 16 (pkt.length - 16) with
  | none => exact ub
  | some body =>
    refine Par.ite Iff.rfl (fun _ => par h _) (fun _ => ?_)
    refine Par.ite Iff.rfl (fun _ => par h _) (fun _ => ?_)
    refine Par.ite Iff.rfl (fun _ => par h _) (fun _ => ?_)
    have h1 : Shut { c.emit (.input (rdLe s) body) with incoming := some body, packetSeen := false } := h
    have hv : Par (verifyConnection env { c.emit (.input (rdLe s) body) with incoming := some body, packetSeen := false } reads)
      (verifyConnection env { (quiet c).emit (.input (rdLe s) body) with incoming := some body, packetSeen := false } reads) :=
      verifyConnection_par hE h1 reads
    dsimp only
    dsimp only at hv
    refine Par.bind hv (fun c rc h => ?_)
    exact Par.ite Iff.rfl (fun _ => par h _) (fun _ => updateSessionIncoming_par h _)

theorem outsideStream_par (hE : Deaf env) {c : Conn} (h : Shut c) (buf : Bytes) (reads : List ReadRes) :
    Par (outsideStream env c buf reads) (outsideStream env (quiet c) buf reads) := by
  unfold outsideStream
  refine Par.bind (setupStreamState_par h buf) (fun c rc h => ?_)
  exact Par.ite Iff.rfl (fun _ => par h _) (fun _ => verifyConnection_par hE h reads)

theorem outsideData_par (hE : Deaf env) {c : Conn} (h : Shut c) (buf : Bytes) (reads : List ReadRes) :
    Par (outsideData env c buf reads) (outsideData env (quiet c) buf reads) := by
  unfold outsideData
  refine Par.ite Iff.rfl (fun _ => par h _) (fun _ => ?_)
  have e : (quiet c).outsidePlugins.ingress (quiet c).log buf buf.length = _ := ingress_hide h.outside c.log buf buf.length
  rw [e]
  clear e
  generalize c.outsidePlugins.ingress c.log buf buf.length = r
  obtain ⟨l, q, rc⟩ := r
  have h1 : Shut { c with log := l } := h
  refine Par.ite Iff.rfl (fun _ => ⟨rfl, h1⟩) (fun _ => ?_)
  refine Par.ite Iff.rfl (fun _ => ⟨rfl, h1⟩) (fun _ => ?_)
  refine Par.ite Iff.rfl (fun _ => ⟨rfl, h1⟩) (fun _ => ?_)
  have k : ∀ t : ConnType, Par
      (match t with
      | .datagram => outsidePacket env { c with log := l } q reads
      | .stream => outsideStream env { c with log := l } q reads)
      (match t with
      | .datagram => outsidePacket env (quiet { c with log := l }) q reads
      | .stream => outsideStream env (quiet { c with log := l }) q reads) := by
    intro t
    cases t with
    | datagram => exact outsidePacket_par hE h1 q reads
    | stream => exact outsideStream_par hE h1 q reads
  exact k c.connType



theorem makeTable_par (hE : Deaf env) {c : Conn} (h : Shut c) (n : Nat) : Par (makeTable env c n) (makeTable env (quiet c) n) := by
  unfold makeTable
  have e : env.alloc (quiet c).log = env.alloc c.log := hE.alloc c.log
  rw [e]
  exact Par.ite Iff.rfl (fun _ => ⟨rfl, h⟩) (fun _ => ⟨rfl, h⟩)

theorem configure_par (hE : Deaf env) {c : Conn} (h : Shut c) (ctx : SslCtx) :
    Par (configure env c ctx) (configure env (quiet c) (quietCtx ctx)) := by
  exact makeTable_par hE (c := ({ c with
    disableRoaming := ctx.disableRoaming
    padding := ctx.padding
    aggressive := ctx.aggressive
    usePqc := ctx.usePqc
    connType := ctx.connType
    verMajor := if c.verMajor = 0 then ctx.maxMajor else c.verMajor
    verMinor := if c.verMajor = 0 then ctx.maxMinor else c.verMinor
    cbs := ctx.cbs
    pingNextId := 1 } : Conn).emit (.callbacks ctx.cbs)) h ctx.maxFragEntries

theorem setupType_par (hE : Deaf env) {c : Conn} (h : Shut c) (ctx : SslCtx) :
    Par (setupType env c ctx) (setupType env (quiet c) (quietCtx ctx)) := by
  unfold setupType
  have e : (quietCtx ctx).connType = ctx.connType := rfl
  rw [e]
  cases ctx.connType with
  | datagram =>
    refine Par.bind (sslDo_par hE h _) (fun c r h => ?_)
    refine Par.ite Iff.rfl (fun _ => par h _) (fun _ => ?_)
    refine Par.ite Iff.rfl (fun _ => ?_) (fun _ => par h _)
    refine Par.bind (sslDo_par hE h _) (fun c r h => ?_)
    exact Par.ite Iff.rfl (fun _ => par h _) (fun _ => par h _)
  | stream =>
    refine Par.ite Iff.rfl (fun _ => ?_) (fun _ => par h _)
    refine Par.bind (sslDo_par hE h _) (fun c r h => ?_)
    exact Par.ite Iff.rfl (fun _ => par h _) (fun _ => par h _)

theorem setupDn_par (hE : Deaf env) {c : Conn} (h : Shut c) (ctx : SslCtx) :
    Par (setupDn env c ctx) (setupDn env (quiet c) (quietCtx ctx)) := by
  unfold setupDn
  refine Par.ite Iff.rfl (fun _ => ?_) (fun _ => par h _)
  refine Par.bind (sslDo_par hE h _) (fun c r h => ?_)
  exact Par.ite Iff.rfl (fun _ => par h _) (fun _ => par h _)

theorem setupPqc_par (hE : Deaf env) {c : Conn} (h : Shut c) : Par (setupPqc env c) (setupPqc env (quiet c)) := by
  unfold setupPqc
  refine Par.ite Iff.rfl (fun _ => ?_) (fun _ => par h _)
  refine Par.bind (sslDo_par hE h _) (fun c r h => ?_)
  exact Par.ite Iff.rfl (fun _ => par h _) (fun _ => par h _)

theorem setupRest_par (hE : Deaf env) {c : Conn} (h : Shut c) (ctx : SslCtx) :
    Par (setupRest env c ctx) (setupRest env (quiet c) (quietCtx ctx)) := by
  unfold setupRest
  refine Par.bind (setupType_par hE h ctx) (fun c q h => ?_)
  cases q with
  | some rc => exact par h _
  | none =>
    dsimp only
    refine Par.bind (setupDn_par hE h ctx) (fun c q h => ?_)
    cases q with
    | some rc => exact par h _
    | none => exact setupPqc_par hE h

theorem setupSsl_par (hE : Deaf env) {c : Conn} (h : Shut c) (ctx : SslCtx) :
    Par (setupSsl env c ctx) (setupSsl env (quiet c) (quietCtx ctx)) := by
  rw [setupSsl_eq, setupSsl_eq]
  have e : env.ssl (quiet c).log .new = env.ssl c.log .new := hE.ssl c.log .new
  rw [e]
  generalize (env.ssl c.log .new).ok = n
  refine Par.ite Iff.rfl (fun _ => ⟨rfl, h⟩) (fun _ => ?_)
  exact setupRest_par hE (c := { c.emit (.sslCall .new n) with wolfSet := n }) h ctx

theorem connected_par (hE : Deaf env) {c : Conn} (h : Shut c) (r : SslRes) :
    Par (connected env c r) (connected env (quiet c) r) := by
  have u : ∀ s, Par (updateTimeout env (changeState env c s), RC.success) (updateTimeout env (changeState env (quiet c) s), .success) := by
    intro s
    refine ParC.bind (changeState_par hE h s) (fun c h => ?_)
    exact ParC.bind (updateTimeout_par hE h) (fun c h => par h _)
  unfold connected
  refine Par.ite Iff.rfl (fun _ => ?_) (fun _ => u .linkUp)
  generalize r.err = e
  cases e <;> first | exact u .connecting | exact par h _

theorem afterSetup_par (hE : Deaf env) {x y : Conn × Option RC} (h : Par x y) : Par (afterSetup env x) (afterSetup env y) := by
  refine Par.bind h (fun c q h => ?_)
  cases q with
  | some rc => exact par h _
  | none =>
    unfold afterSetup
    dsimp only
    refine ParC.bind (changeState_par hE h .connecting) (fun c h => ?_)
    exact Par.bind (sslDo_par hE h _) (fun c r h => connected_par hE h r)

theorem afterConfigure_par (hE : Deaf env) (ctx : SslCtx) {i o : Chain} (hi : DeafChain i) (ho : DeafChain o) {c : Conn}
    (h : Shut c) (rc : RC) : Par (afterConfigure env ctx i o c rc) (afterConfigure env (quietCtx ctx) i o (quiet c) rc) := by
  have h1 : Shut { c.emit (.chains i.plugins o.plugins) with insidePlugins := i, outsidePlugins := o } := ⟨hi, ho⟩
  unfold afterConfigure
  refine Par.ite Iff.rfl (fun _ => ⟨rfl, h1⟩) (fun _ => ?_)
  exact afterSetup_par hE (setupSsl_par hE h1 ctx)

theorem internalConnect_par (hE : Deaf env) (ctx : SslCtx) {i o : Chain} (hi : DeafChain i) (ho : DeafChain o) {c : Conn}
    (h : Shut c) : Par (internalConnect env c ctx i o) (internalConnect env (quiet c) (quietCtx ctx) i o) := by
  rw [internalConnect_eq, internalConnect_eq]
  exact Par.bind (configure_par hE h ctx) (fun c rc h => afterConfigure_par hE ctx hi ho h rc)

theorem clientConnect_par (hE : Deaf env) (ctx : SslCtx) {i o : Chain} (hi : DeafChain i) (ho : DeafChain o) {c : Conn}
    (h : Shut c) : Par (clientConnect env c ctx i o) (clientConnect env (quiet c) (quietCtx ctx) i o) := by
  have e : isValidClient (quietCtx ctx) (quiet c) = isValidClient ctx c := rfl
  unfold clientConnect
  rw [e]
  refine Par.ite Iff.rfl (fun _ => par h _) (fun _ => ?_)
  exact internalConnect_par hE ctx hi ho (c := { c.emit (.role false) with isServer := false }) h

theorem hangUp_par {c : Conn} (h : Shut c) : Par (hangUp c) (hangUp (quiet c)) := by
  have h1 : Shut (({ c.emit (.timer 0) with cbs := { c.cbs with insideWrite := false, outsideWrite := false }, wolfTimeout := 0 } : Conn).emit
    (.callbacks { c.cbs with insideWrite := false, outsideWrite := false })) := h
  obtain ⟨e, hs⟩ := setState_par h1 .disconnected
  exact ⟨congrArg (·, RC.success) e, hs⟩

theorem disconnect_par (hE : Deaf env) {c : Conn} (h : Shut c) : Par (disconnect env c) (disconnect env (quiet c)) := by
  unfold disconnect
  refine Par.ite Iff.rfl (fun _ => par h _) (fun _ => ?_)
  refine Par.ite Iff.rfl (fun _ => par h _) (fun _ => ?_)
  have k : Par (hangUp (sslDo env (sendGoodbye env (setState c .disconnecting)) .shutdown).1)
      (hangUp (sslDo env (sendGoodbye env (setState (quiet c) .disconnecting)) .shutdown).1) := by
    refine ParC.bind (setState_par h .disconnecting) (fun c h => ?_)
    refine ParC.bind (sendGoodbye_par hE h) (fun c h => ?_)
    exact Par.bind (sslDo_par hE h _) (fun c _ h => hangUp_par h)
  exact k

theorem keepalive_par (hE : Deaf env) {c : Conn} (h : Shut c) : Par (keepalive env c) (keepalive env (quiet c)) := by
  unfold keepalive
  refine Par.ite Iff.rfl (fun _ => par h _) (fun _ => ?_)
  have h1 : Shut { c with pingNextId := (c.pingNextId + 1) % 65536 } := h
  have k : Par (sendMessage env { c with pingNextId := (c.pingNextId + 1) % 65536 } (pingMsg c.pingNextId))
      (sendMessage env { quiet c with pingNextId := ((quiet c).pingNextId + 1) % 65536 } (pingMsg (quiet c).pingNextId)) :=
    sendMessage_par hE h1 _
  have e0 : (quiet c).pingNextId = c.pingNextId := rfl
  dsimp only
  rw [e0] at k ⊢
  generalize c.pingNextId = id at k
  refine Par.bind k (fun c rc h => ?_)
  exact Par.ite Iff.rfl (fun _ => ⟨rfl, h⟩) (fun _ => par h _)

theorem sendServerConfig_par (hE : Deaf env) {c : Conn} (h : Shut c) (b : Bytes) :
    Par (sendServerConfig env c b) (sendServerConfig env (quiet c) b) := by
  unfold sendServerConfig
  refine Par.ite Iff.rfl (fun _ => par h _) (fun _ => ?_)
  refine Par.ite Iff.rfl (fun _ => par h _) (fun _ => ?_)
  refine Par.ite Iff.rfl (fun _ => par h _) (fun _ => ?_)
  exact sendMessage_par hE h _

theorem rotateSession_par (hE : Deaf env) {c : Conn} (h : Shut c) :
    Par (rotateSession env c) (rotateSession env (quiet c)) := by
  unfold rotateSession
  refine Par.ite Iff.rfl (fun _ => par h _) (fun _ => ?_)
  refine Par.bind (generateSessionId_par hE h) (fun c q h => ?_)
  cases q with
  | none => exact par h _
  | some s => exact ⟨rfl, h⟩

theorem withSession_par {x y : Conn × Option Nat} (h : Par x y) : Par (withSession x) (withSession y) := by
  refine Par.bind h (fun c q h => ?_)
  cases q with
  | none => exact par h _
  | some s => exact ⟨rfl, h⟩

theorem serverConnect_par (hE : Deaf env) (ctx : SslCtx) {i o : Chain} (hi : DeafChain i) (ho : DeafChain o)
    {c : Conn} (h : Shut c) : Par (serverConnect env c ctx i o) (serverConnect env (quiet c) (quietCtx ctx) i o) := by
  have e : isValidServer (quietCtx ctx) (quiet c) = isValidServer ctx c := rfl
  unfold serverConnect
  rw [e]
  refine Par.ite Iff.rfl (fun _ => par h _) (fun _ => ?_)
  have h1 : Shut { c.emit (.role true) with isServer := true } := h
  have k : Par (internalConnect env { c.emit (.role true) with isServer := true } ctx i o)
      (internalConnect env { (quiet c).emit (.role true) with isServer := true } (quietCtx ctx) i o) := internalConnect_par hE ctx hi ho h1
  refine Par.bind k (fun c rc h => ?_)
  refine Par.ite Iff.rfl (fun _ => par h _) (fun _ => ?_)
  exact withSession_par (generateSessionId_par hE h)

theorem nudge_par (hE : Deaf env) {c : Conn} (h : Shut c) : Par (nudge env c) (nudge env (quiet c)) := by
  have h1 : Shut { c with nudgeTimerRunning := false } := h
  have u : ∀ c, Shut c → Par (updateTimeout env c, RC.success) (updateTimeout env (quiet c), .success) :=
    fun c h => ParC.bind (updateTimeout_par hE h) (fun c h => par h _)
  unfold nudge
  refine ParC.bind (x := { c with nudgeTimerRunning := false }) (y := { quiet c with nudgeTimerRunning := false }) ⟨rfl, h1⟩ (fun c h => ?_)
  refine Par.ite Iff.rfl (fun _ => ?_) (fun _ => ?_)
  · exact ParC.bind (sendAuth_par hE h).fst (fun c h => u c h)
  · refine Par.bind (sslDo_par hE h _) (fun c r h => ?_)
    refine Par.ite Iff.rfl (fun _ => ?_) (fun _ => u c h)
    generalize r.err = e
    cases e <;> first | exact u c h | exact ParC.bind (setState_par h .disconnected) (fun c h => par h _)

theorem startPmtud_par (hE : Deaf env) {c : Conn} (h : Shut c) : Par (startPmtud env c) (startPmtud env (quiet c)) := by
  unfold startPmtud
  refine Par.ite Iff.rfl (fun _ => par h _) (fun _ => ?_)
  refine Par.ite Iff.rfl (fun _ => par h _) (fun _ => ?_)
  exact Par.ite Iff.rfl (fun _ => par h _) (fun _ => startBaseProbing_par hE h)

theorem exec_par (hE : Deaf env) {op : Op} (ho : DeafOp op) {c : Conn} (h : Shut c) :
    Par (exec env c op) (exec env (quiet c) (quietOp op)) := by
  cases op with
  | clientConnect ctx i o => exact clientConnect_par hE ctx ho.1 ho.2 h
  | serverConnect ctx i o => exact serverConnect_par hE ctx ho.1 ho.2 h
  | disconnect => exact disconnect_par hE h
  | insidePacket p => exact insidePacket_par hE h p
  | outsideData b rs => exact outsideData_par hE h b rs
  | nudge => exact nudge_par hE h
  | keepalive => exact keepalive_par hE h
  | sendServerConfig b => exact sendServerConfig_par hE h b
  | scheduleReneg => exact ⟨rfl, h⟩
  | rotateSession => exact rotateSession_par hE h
  | startPmtud => exact startPmtud_par hE h
  | pmtudTimeout => exact handleProbeTimeout_par hE h
  | setUsername s => exact ⟨rfl, h⟩
  | setPassword s => exact ⟨rfl, h⟩
  | setAuthToken s =>
    show Par (setAuthToken c s) (setAuthToken (quiet c) s)
    unfold setAuthToken
    refine Par.ite Iff.rfl (fun _ => par h _) (fun _ => ?_)
    refine Par.ite Iff.rfl (fun _ => par h _) (fun _ => ?_)
    have e : wr (quiet c).authBuffer 0 s = wr c.authBuffer 0 s := rfl
    rw [e]
    cases wr c.authBuffer 0 s <;> exact ⟨rfl, h⟩
  | setAuthBuffer s =>
    show Par (setAuthBuffer c s) (setAuthBuffer (quiet c) s)
    unfold setAuthBuffer
    refine Par.ite Iff.rfl (fun _ => par h _) (fun _ => ?_)
    refine Par.ite Iff.rfl (fun _ => par h _) (fun _ => ?_)
    have e : wr (quiet c).authBuffer 0 s = wr c.authBuffer 0 s := rfl
    rw [e]
    cases wr c.authBuffer 0 s <;> exact ⟨rfl, h⟩
  | setOutsideMtu m =>
    show Par (setOutsideMtu c m) (setOutsideMtu (quiet c) m)
    unfold setOutsideMtu
    exact Par.ite Iff.rfl (fun _ => par h _) (fun _ => ⟨rfl, h⟩)
  | setProtocolVersion a b => exact ⟨rfl, h⟩
  | setSessionId s =>
    show Par (setSessionId c s) (setSessionId (quiet c) s)
    unfold setSessionId
    exact Par.ite Iff.rfl (fun _ => par h _) (fun _ => ⟨rfl, h⟩)
  | setSni s => exact ⟨rfl, h⟩

theorem step_par (hE : Deaf env) {op : Op} (ho : DeafOp op) {c : Conn} (h : Shut c) :
    Par (step env c op) (step env (quiet c) (quietOp op)) := by
  have ha : (quietOp op).api = op.api := by cases op <;> rfl
  have h1 : Shut (c.emit (.api op.api)) := h
  have k : Par (exec env (c.emit (.api op.api)) op) (exec env ((quiet c).emit (.api (quietOp op).api)) (quietOp op)) := by
    rw [ha]; exact exec_par hE ho h1
  unfold step
  exact Par.bind k (fun c rc h => ⟨rfl, h⟩)

end Lightway.Quiet
