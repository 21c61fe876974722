import Verif.Model.Reenter

/-!
# With a host that makes no calls from its callbacks, the reentrant model is the main model
-/

namespace Lightway

theorem setStateR_id (c : Conn) (s : ConnState) : setStateR id c s = setState c s := by
  unfold setStateR setState
  by_cases h : c.state = s
  · rw [if_pos h, if_pos h]
  · rw [if_neg h, if_neg h]; exact ite_self _

theorem generateEventR_id (c : Conn) (e : Event) : generateEventR id c e = generateEvent c e := ite_self _

theorem sendAuthR_id (env : Env) (c : Conn) : sendAuthR id env c = sendAuth env c := by
  unfold sendAuthR sendAuth; rw [setStateR_id]

theorem changeStateR_id (env : Env) (c : Conn) (s : ConnState) : changeStateR id env c s = changeState env c s := by
  unfold changeStateR changeState; simp only [setStateR_id, sendAuthR_id]

theorem updateTimeoutR_id (env : Env) (c : Conn) : updateTimeoutR id env c = updateTimeout env c := rfl

theorem renegotiateSslR_id (env : Env) (c : Conn) : renegotiateSslR id env c = renegotiateSsl env c := by
  unfold renegotiateSslR renegotiateSsl; simp only [generateEventR_id, updateTimeoutR_id]; rfl

theorem pmtudChangeStateR_id (c : Conn) (s : PmtudState) : pmtudChangeStateR id c s = pmtudChangeState c s := rfl
theorem pmtudTimeCbR_id (env : Env) (c : Conn) (ms : Nat) : pmtudTimeCbR id env c ms = pmtudTimeCb env c ms := rfl
theorem sendProbeR_id (env : Env) (c : Conn) (m : Nat) : sendProbeR id env c m = sendProbe env c m := rfl
theorem retryProbeR_id (env : Env) (c : Conn) (m : Nat) : retryProbeR id env c m = retryProbe env c m := rfl
theorem startBaseProbingR_id (env : Env) (c : Conn) : startBaseProbingR id env c = startBaseProbing env c := rfl
theorem baseConfirmedR_id (env : Env) (c : Conn) : baseConfirmedR id env c = baseConfirmed env c := rfl
theorem confirmBaseFailedR_id (env : Env) (c : Conn) : confirmBaseFailedR id env c = confirmBaseFailed env c := rfl
theorem searchCompletedR_id (env : Env) (c : Conn) : searchCompletedR id env c = searchCompleted env c := rfl
theorem blackholeDetectedR_id (env : Env) (c : Conn) : blackholeDetectedR id env c = blackholeDetected env c := rfl
theorem handleProbeAckR_id (env : Env) (c : Conn) (i : Nat) : handleProbeAckR id env c i = handleProbeAck env c i := rfl
theorem handleProbeTimeoutR_id (env : Env) (c : Conn) : handleProbeTimeoutR id env c = handleProbeTimeout env c := rfl

theorem handlePongR_id (env : Env) (c : Conn) (p : Bytes) : handlePongR id env c p = handlePong env c p := by
  unfold handlePongR handlePong; simp only [generateEventR_id, handleProbeAckR_id]; rfl

theorem handleServerConfigR_id (env : Env) (c : Conn) (p : Bytes) :
    handleServerConfigR id env c p = handleServerConfig env c p := rfl

theorem handleConfigIpv4R_id (env : Env) (c : Conn) (p : Bytes) :
    handleConfigIpv4R id env c p = handleConfigIpv4 env c p := by
  unfold handleConfigIpv4R handleConfigIpv4 applyConfigR; simp only [setStateR_id]; rfl

theorem authSwitchR_id (env : Env) (c : Conn) (p : Bytes) (ty : UInt8) :
    authSwitchR id env c p ty = authSwitch env c p ty := rfl

theorem internalHandleDataR_id (c : Conn) (p : Bytes) : internalHandleDataR id c p = internalHandleData c p := rfl
theorem handleDataR_id (c : Conn) (p : Bytes) : handleDataR id c p = handleData c p := rfl
theorem handleDeprecated13R_id (c : Conn) (p : Bytes) : handleDeprecated13R id c p = handleDeprecated13 c p := rfl

theorem authSwitch_cbs (env : Env) (c c' : Conn) (p p' : Bytes) (ty : UInt8) (ok : Bool) (rc : RC)
    (h : authSwitch env c p ty = .verdict c' ok rc p') : c'.cbs = c.cbs := by
  unfold authSwitch at h
  simp only at h
  repeat' split at h
  all_goals (cases h <;> rfl)

theorem handleAuthBufR_id (env : Env) (c : Conn) (p : Bytes) : handleAuthBufR id env c p = handleAuthBuf env c p := by
  unfold handleAuthBufR handleAuthBuf
  by_cases h1 : (!c.isServer) = true ∧ c.state ≠ .linkUp ∧ c.state ≠ .online
  · rw [if_pos h1, if_pos h1]
  rw [if_neg h1, if_neg h1]
  by_cases h2 : (!c.cbs.populate) = true
  · rw [if_pos h2, if_pos h2]
  rw [if_neg h2, if_neg h2]
  simp only [authSwitchR_id]
  by_cases h3 : (!c.cbs.auth) = true ∧ (!c.cbs.authToken) = true ∧ (!c.cbs.authBuf) = true
  · rw [if_pos h3, if_pos h3]
  rw [if_neg h3, if_neg h3]
  by_cases h4 : p.length < 2
  · rw [if_pos h4, if_pos h4]
  rw [if_neg h4, if_neg h4]
  generalize rd p 1 1 = q
  rcases q with _ | _ | ⟨ty, _ | ⟨_, _⟩⟩
  · rfl
  · rfl
  · show (match authSwitch env c p ty with
      | .ret c rc pkt => (c, rc, pkt)
      | .verdict c ok rc pkt => afterAuthR id env c ok rc pkt) = (match authSwitch env c p ty with
      | .ret c rc pkt => (c, rc, pkt)
      | .verdict c ok rc pkt => _)
    have hc := authSwitch_cbs env c (p := p) (ty := ty)
    generalize authSwitch env c p ty = o at hc ⊢
    cases o with
    | ret => rfl
    | verdict c' ok rc pkt =>
      show afterAuthR id env c' ok rc pkt = _
      unfold afterAuthR
      simp only [setStateR_id]
      have hc : c'.cbs = c.cbs := hc _ _ _ _ rfl
      rw [hc]
      by_cases h5 : (!ok) = true
      · rw [if_pos h5, if_pos h5]
      · rw [if_neg h5, if_neg h5, if_neg h2]; rfl
  · rfl

theorem handleAuthR_id (env : Env) (c : Conn) (p : Bytes) : handleAuthR id env c p = handleAuth env c p := by
  unfold handleAuthR handleAuth; rw [handleAuthBufR_id]

theorem deliver_table (c : Conn) (p : Bytes) : (internalHandleData c p).1.fragTable = c.fragTable := by
  unfold internalHandleData
  simp only
  repeat' split
  all_goals rfl

theorem fragApplyR_id (env : Env) (c : Conn) (t : FragTable) (en : FragEntry) (i off : Nat) (last : Bool)
    (d : Bytes) : fragApplyR id env c t en i off last d = fragApply env c t en i off last d := by
  unfold fragApplyR fragApply
  simp only [internalHandleDataR_id, deliver_table, Option.map_some]
  rfl

theorem handleDataFragR_id (env : Env) (c : Conn) (p : Bytes) :
    handleDataFragR id env c p = handleDataFrag env c p := by
  unfold handleDataFragR handleDataFrag fragReceiveR fragReceive
  simp only [fragApplyR_id]; rfl

theorem processMessageR_id (env : Env) (c : Conn) (p : Bytes) :
    processMessageR id env c p = processMessage env c p := by
  cases p with
  | nil => rfl
  | cons i r =>
    unfold processMessageR processMessage
    simp only [handlePongR_id, handleAuthR_id, handleDataR_id, handleConfigIpv4R_id, handleDeprecated13R_id,
      handleServerConfigR_id, handleDataFragR_id]

theorem messageLoopR_id (env : Env) (rs : List ReadRes) : ∀ c, messageLoopR id env c rs = messageLoop env c rs := by
  induction rs with
  | nil => intro c; rfl
  | cons r rest ih =>
    intro c
    unfold messageLoopR messageLoop
    simp only [processMessageR_id, ih]; rfl

theorem renegTailR_id (env : Env) (c : Conn) : renegTailR id env c = renegTail env c := by
  unfold renegTailR renegTail renegFinR; simp only [generateEventR_id, updateTimeoutR_id]

theorem handleMessagesR_id (env : Env) (c : Conn) (rs : List ReadRes) :
    handleMessagesR id env c rs = handleMessages env c rs := by
  unfold handleMessagesR handleMessages; simp only [messageLoopR_id, renegotiateSslR_id, renegTailR_id]; rfl

theorem verifyConnectionR_id (env : Env) (c : Conn) (rs : List ReadRes) :
    verifyConnectionR id env c rs = verifyConnection env c rs := by
  unfold verifyConnectionR verifyConnection negotiateR
  simp only [generateEventR_id, changeStateR_id, updateTimeoutR_id, handleMessagesR_id]

theorem outsideDataR_id (env : Env) (c : Conn) (b : Bytes) (rs : List ReadRes) :
    outsideDataR id env c b rs = outsideData env c b rs := by
  have h (c : Conn) (s : Nat) : updateSessionIncomingR id c s = updateSessionIncoming c s := by
    unfold updateSessionIncomingR updateSessionIncoming; simp only [generateEventR_id]
  unfold outsideDataR outsideData outsidePacketR outsidePacket outsideStreamR outsideStream
  simp only [verifyConnectionR_id, h]; rfl

theorem internalConnectR_id (env : Env) (c : Conn) (ctx : SslCtx) (i o : Chain) :
    internalConnectR id env c ctx i o = internalConnect env c ctx i o := by
  unfold internalConnectR internalConnect firstFlightR; simp only [changeStateR_id, updateTimeoutR_id]; rfl

theorem disconnectR_id (env : Env) (c : Conn) : disconnectR id env c = disconnect env c := by
  unfold disconnectR disconnect; simp only [setStateR_id]

theorem nudgeR_id (env : Env) (c : Conn) : nudgeR id env c = nudge env c := by
  unfold nudgeR nudge; simp only [setStateR_id, sendAuthR_id, updateTimeoutR_id]; rfl

theorem execR_id (env : Env) (c : Conn) (op : Op) : execR id env c op = exec env c op := by
  cases op <;> try rfl
  · show clientConnectR id env c _ _ _ = clientConnect env c _ _ _
    unfold clientConnectR clientConnect; simp only [internalConnectR_id]
  · show serverConnectR id env c _ _ _ = serverConnect env c _ _ _
    unfold serverConnectR serverConnect; simp only [internalConnectR_id]; rfl
  · exact disconnectR_id env c
  · exact outsideDataR_id env c _ _
  · exact nudgeR_id env c

theorem stepR_id (env : Env) (c : Conn) (op : Op) : stepR id env c op = step env c op := by
  unfold stepR step; rw [execR_id]

theorem nested_silent (env : Env) (n : Nat) : ∀ c op, nested env (fun _ => []) n c op = step env c op := by
  cases n with
  | zero => exact stepR_id env
  | succ n => intro c op; exact stepR_id env c op

theorem runNested_silent (env : Env) (n : Nat) (ops : List Op) :
    runNested env (fun _ => []) n ops = run env ops := by
  unfold runNested run; simp only [nested_silent]

end Lightway
