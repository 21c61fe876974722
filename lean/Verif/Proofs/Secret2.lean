import Verif.Proofs.Secret

/-!
# Hiding the credentials commutes with the message handlers and the receive path
-/

namespace Lightway
open Spec
variable {w : Watch} {pay : Option (Padding × Nat)} {env : Env}

/-! ### msg_handlers.c -/

theorem handlePing_par (hE : Sealed w env) {c : Conn} (h : Shut w c) (pkt : Bytes) :
    Par w (handlePing env c pkt) (handlePing env (mask w c) pkt) := by
  unfold handlePing
  refine Par.ite Iff.rfl (fun _ => par h _) (fun _ => ?_)
  refine Par.ite Iff.rfl (fun _ => par h _) (fun _ => ?_)
  cases rd pkt 1 2 with
  | none => exact ⟨rfl, h⟩
  | some id => exact sendMessage_par hE h (by simp [msgPong])

theorem handlePong_par (hE : Sealed w env) {c : Conn} (h : Shut w c) (pkt : Bytes) :
    Par w (handlePong env c pkt) (handlePong env (mask w c) pkt) := by
  unfold handlePong
  refine Par.ite Iff.rfl (fun _ => par h _) (fun _ => ?_)
  cases rd pkt 1 2 with
  | none => exact ⟨rfl, h⟩
  | some id =>
    refine Par.ite Iff.rfl (fun _ => ⟨rfl, h⟩) (fun _ => ?_)
    exact Par.bind (handleProbeAck_par hE h _) (fun c _ h => par h _)

theorem handleServerConfig_par (hE : Sealed w env) {c : Conn} (h : Shut w c) (pkt : Bytes) :
    Par w (handleServerConfig env c pkt) (handleServerConfig env (mask w c) pkt) := by
  unfold handleServerConfig
  refine Par.ite Iff.rfl (fun _ => par h _) (fun _ => ?_)
  refine Par.ite Iff.rfl (fun _ => par h _) (fun _ => ?_)
  refine Par.ite Iff.rfl (fun _ => par h _) (fun _ => ?_)
  cases rd pkt 1 2 with
  | none => exact ⟨rfl, h⟩
  | some len =>
    refine Par.ite Iff.rfl (fun _ => par h _) (fun _ => ?_)
    refine Par.ite Iff.rfl (fun _ => par h _) (fun _ => ?_)
    cases rd pkt 3 (rdBe16 len) with
    | none => exact ⟨rfl, h⟩
    | some buf =>
      have e : env.serverConfig (mask w c).log buf = env.serverConfig c.log buf := congrFun (hE.serverConfig c.log) buf
      dsimp only
      rw [e]
      exact Par.ite Iff.rfl (fun _ => ⟨rfl, h⟩) (fun _ => ⟨rfl, h⟩)

/-- The end of `handleConfigIpv4`. -/
def takeConfig (env : Env) (c : Conn) (cfg : NetCfg) : Conn × RC :=
  if c.cbs.netConfig then
    if env.netConfig c.log cfg ≠ .success then (c.emit (.netConfig cfg (env.netConfig c.log cfg)), .callbackFailed)
    else (setState (c.emit (.netConfig cfg (env.netConfig c.log cfg))) .online, .success)
  else (setState c .online, .success)

theorem takeConfig_par (hE : Sealed w env) {c : Conn} (h : Shut w c) (cfg : NetCfg) :
    Par w (takeConfig env c cfg) (takeConfig env (mask w c) cfg) := by
  have e : env.netConfig (mask w c).log cfg = env.netConfig c.log cfg := congrFun (hE.netConfig c.log) cfg
  unfold takeConfig
  rw [e]
  refine Par.ite Iff.rfl (fun _ => ?_) (fun _ => ?_)
  · refine Par.ite Iff.rfl (fun _ => ⟨rfl, h⟩) (fun _ => ?_)
    have h1 : Shut w (c.emit (.netConfig cfg (env.netConfig c.log cfg))) := h
    exact ParC.bind (setState_par h1 .online) (fun c h => par h _)
  · exact ParC.bind (setState_par h .online) (fun c h => par h _)

theorem handleConfigIpv4_par (hE : Sealed w env) {c : Conn} (h : Shut w c) (pkt : Bytes) :
    Par w (handleConfigIpv4 env c pkt) (handleConfigIpv4 env (mask w c) pkt) := by
  unfold handleConfigIpv4
  refine Par.ite Iff.rfl (fun _ => par h _) (fun _ => ?_)
  refine Par.ite Iff.rfl (fun _ => par h _) (fun _ => ?_)
  refine Par.ite Iff.rfl (fun _ => par h _) (fun _ => ?_)
  have ub : Par w (c.ub "config_ipv4", RC.failed) ((mask w c).ub "config_ipv4", .failed) := ⟨rfl, h⟩
  cases rd pkt 1 24 with
  | none => exact ub
  | some l =>
  cases rd pkt 25 24 with
  | none => exact ub
  | some p =>
  cases rd pkt 49 24 with
  | none => exact ub
  | some d =>
  cases rd pkt 73 24 with
  | none => exact ub
  | some m =>
  cases rd pkt 97 8 with
  | none => exact ub
  | some s =>
  cases wr pkt 96 [0] with
  | none => exact ub
  | some _ =>
    generalize hcfg : ({ localIp := copyIpField l, peerIp := copyIpField p, dnsIp := copyIpField d, mtu := configMtu (setNul m 23) } : NetCfg) = cfg
    have k : Par w (takeConfig env (setState { c with sessionId := rdLe s } .configuring) cfg)
        (takeConfig env (setState { mask w c with sessionId := rdLe s } .configuring) cfg) := by
      have h1 : Shut w { c with sessionId := rdLe s } := h
      exact ParC.bind (setState_par h1 .configuring) (fun c h => takeConfig_par hE h cfg)
    subst hcfg
    exact k

/-! Hidden packets. -/

theorem blankPkt_length (p : Bytes) : (blankPkt p).length = p.length := by
  cases p <;> simp [blankPkt, zeros]

theorem blankPkt_take (p : Bytes) (n : Nat) : (blankPkt p).take n = blankPkt (p.take n) := by
  cases p with
  | nil => simp [blankPkt]
  | cons b r => cases n with
    | zero => rfl
    | succ n => simp [blankPkt, zeros, List.take_replicate]

theorem blankPkt_drop (p : Bytes) (n : Nat) : (blankPkt p).drop (n + 1) = zeros (p.drop (n + 1)).length := by
  cases p with
  | nil => simp [blankPkt, zeros]
  | cons b r => simp [blankPkt, zeros, List.drop_replicate]

theorem blankPkt_valid (p : Bytes) : ipv4Valid (blankPkt p) = ipv4Valid p := by
  cases p with
  | nil => rfl
  | cons b r => simp [blankPkt, ipv4Valid, zeros]

theorem blankPkt_zeros (n : Nat) : blankPkt (zeros n) = zeros n := by
  cases n with
  | zero => rfl
  | succ n => simp [blankPkt, zeros, List.replicate_succ]

theorem blankPkt_append (p q : Bytes) (h : p ≠ []) : blankPkt (p ++ q) = blankPkt p ++ zeros q.length := by
  cases p with
  | nil => exact absurd rfl h
  | cons b r => simp [blankPkt, zeros]

theorem blankFrag_length (off : Nat) (d : Bytes) : (blankFrag off d).length = d.length := by
  unfold blankFrag; split
  · exact blankPkt_length d
  · simp [zeros]

theorem shade_length (p : Bytes) : (shade w p).length = p.length := by
  unfold shade; split
  · exact blankPkt_length p
  · rfl

theorem shade_rd (p : Bytes) (n : Nat) : rd (shade w p) 0 n = (rd p 0 n).map (shade w) := by
  unfold rd
  rw [shade_length]
  by_cases hl : 0 + n ≤ p.length
  · rw [if_pos hl, if_pos hl]
    unfold shade
    split
    · simp [blankPkt_take]
    · rfl
  · rw [if_neg hl, if_neg hl]; rfl

/-- The part of `inMsg` that hides packets. -/
def seeIn (w : Watch) (m : Bytes) : Bytes := if w.inn then hideIn m else m

theorem hideIn_id {m : Bytes} (h : m.head? ≠ some 5) (h' : m.head? ≠ some 13) (h'' : m.head? ≠ some 15) : hideIn m = m := by
  unfold hideIn
  split
  · simp at h
  · simp at h'
  · simp at h''
  · rfl

theorem seeIn_id {m : Bytes} (h : m.head? ≠ some 5) (h' : m.head? ≠ some 13) (h'' : m.head? ≠ some 15) : seeIn w m = m := by
  unfold seeIn
  rw [hideIn_id h h' h'', ite_self]

theorem hideIn_len (m : Bytes) : (hideIn m).length = m.length := by
  unfold hideIn
  split <;> simp [blankPkt_length, blankFrag_length]

theorem seeIn_len (m : Bytes) : (seeIn w m).length = m.length := by
  unfold seeIn; split
  · exact hideIn_len m
  · rfl

theorem seeIn_head (m : Bytes) : (seeIn w m).head? = m.head? := by
  unfold seeIn hideIn; split
  · split <;> rfl
  · rfl

/-- Reading within a prefix that is the same. -/
theorem rd_prefix {a m m' : Bytes} (hl : m'.length = m.length) (h : ∃ t, m = a ++ t) (h' : ∃ t, m' = a ++ t) {off n : Nat}
    (hn : off + n ≤ a.length) : rd m' off n = rd m off n := by
  obtain ⟨t, rfl⟩ := h
  obtain ⟨t', rfl⟩ := h'
  unfold rd
  rw [hl]
  by_cases hb : off + n ≤ (a ++ t).length
  · rw [if_pos hb, if_pos hb]
    rw [List.drop_append_of_le_length (by omega), List.drop_append_of_le_length (by omega),
      List.take_append_of_le_length (by simp; omega), List.take_append_of_le_length (by simp; omega)]
  · rw [if_neg hb, if_neg hb]

/-- Reading past a prefix. -/
theorem rd_suffix (a t : Bytes) (n : Nat) : rd (a ++ t) a.length n = rd t 0 n := by
  unfold rd
  simp only [List.length_append, List.drop_left, Nat.zero_add, List.drop_zero]
  by_cases h : n ≤ t.length
  · rw [if_pos (by omega), if_pos h]
  · rw [if_neg (by omega), if_neg h]

theorem seeIn_data {m : Bytes} (hm : m.head? = some 5) (h : 3 ≤ m.length) :
    ∃ l1 l2 p, m = [5, l1, l2] ++ p ∧ seeIn w m = [5, l1, l2] ++ shade w p := by
  match m, hm, h with
  | a :: l1 :: l2 :: p, hm, _ =>
    simp only [List.head?_cons, Option.some.injEq] at hm
    subst hm
    refine ⟨l1, l2, p, rfl, ?_⟩
    unfold seeIn shade
    split <;> rfl

theorem seeIn_13 {m : Bytes} (hm : m.head? = some 13) (h : 5 ≤ m.length) :
    ∃ l1 l2 x y p, m = [13, l1, l2, x, y] ++ p ∧ seeIn w m = [13, l1, l2, x, y] ++ shade w p := by
  match m, hm, h with
  | a :: l1 :: l2 :: x :: y :: p, hm, _ =>
    simp only [List.head?_cons, Option.some.injEq] at hm
    subst hm
    refine ⟨l1, l2, x, y, p, rfl, ?_⟩
    unfold seeIn shade
    split <;> rfl

/-- A fragment's bytes as the observer sees them. -/
def shadeAt (w : Watch) (off : Nat) (d : Bytes) : Bytes := if w.inn then blankFrag off d else d

theorem shadeAt_length (off : Nat) (d : Bytes) : (shadeAt w off d).length = d.length := by
  unfold shadeAt; split
  · exact blankFrag_length off d
  · rfl

theorem shadeAt_rd (off : Nat) (p : Bytes) (n : Nat) : rd (shadeAt w off p) 0 n = (rd p 0 n).map (shadeAt w off) := by
  unfold rd
  rw [shadeAt_length]
  by_cases hl : 0 + n ≤ p.length
  · rw [if_pos hl, if_pos hl]
    unfold shadeAt blankFrag
    split
    · split
      · simp [blankPkt_take]
      · simp [zeros, List.take_replicate]
    · rfl
  · rw [if_neg hl, if_neg hl]; rfl

theorem seeIn_frag {m : Bytes} (hm : m.head? = some 15) (h : 7 ≤ m.length) :
    ∃ l1 l2 i1 i2 o1 o2 p, m = [15, l1, l2, i1, i2, o1, o2] ++ p ∧
      seeIn w m = [15, l1, l2, i1, i2, o1, o2] ++ shadeAt w (rdBe16 [o1, o2] % 8192 * 8) p := by
  match m, hm, h with
  | a :: l1 :: l2 :: i1 :: i2 :: o1 :: o2 :: p, hm, _ =>
    simp only [List.head?_cons, Option.some.injEq] at hm
    subst hm
    refine ⟨l1, l2, i1, i2, o1, o2, p, rfl, ?_⟩
    have e : rdBe16 [o1, o2] = o1.toNat * 256 + o2.toNat := rfl
    rw [e]
    unfold seeIn shadeAt
    split
    · show 15 :: l1 :: l2 :: i1 :: i2 :: o1 :: o2 :: blankFrag ((o1.toNat * 256 + o2.toNat) % 8192) p = _
      have : blankFrag ((o1.toNat * 256 + o2.toNat) % 8192) p = blankFrag ((o1.toNat * 256 + o2.toNat) % 8192 * 8) p := by
        unfold blankFrag
        by_cases hz : (o1.toNat * 256 + o2.toNat) % 8192 = 0
        · rw [if_pos hz, if_pos (by omega)]
        · rw [if_neg hz, if_neg (by omega)]
      rw [this]; rfl
    · rfl

theorem internalHandleData_par {c : Conn} (h : Shut w c) (pkt : Bytes) :
    Par w (internalHandleData c pkt) (internalHandleData (mask w c) (shade w pkt)) := by
  by_cases hi : w.inn = true
  · have e0 : c.insidePlugins = [] := h.2.2.2 (.inr hi)
    have e1 : (mask w c).insidePlugins = [] := e0
    have es : shade w pkt = blankPkt pkt := by unfold shade; rw [if_pos hi]
    have g0 : c.insidePlugins.egress c.log pkt pkt.length = (c.log, pkt, .success) := by rw [e0]; rfl
    have g1 : (mask w c).insidePlugins.egress (mask w c).log (blankPkt pkt) (blankPkt pkt).length =
      ((mask w c).log, blankPkt pkt, .success) := by rw [e1]; rfl
    unfold internalHandleData
    rw [es, g0, g1]
    clear g0 g1 e0 e1
    refine Par.ite Iff.rfl (fun _ => ⟨rfl, h⟩) (fun _ => ?_)
    refine Par.ite Iff.rfl (fun _ => ⟨rfl, h⟩) (fun _ => ?_)
    refine Par.ite (by rw [blankPkt_length]) (fun _ => ⟨rfl, h⟩) (fun _ => ?_)
    refine Par.ite (by rw [blankPkt_valid]) (fun _ => ⟨rfl, h⟩) (fun _ => ?_)
    refine Par.ite Iff.rfl (fun _ => ⟨?_, h⟩) (fun _ => ⟨rfl, h⟩)
    have e2 : (mask w c).emit (.insideWrite (shade w pkt)) = mask w (c.emit (.insideWrite pkt)) := rfl
    rw [es] at e2
    exact congrArg (·, RC.success) e2
  · have es : ∀ p, shade w p = p := fun p => by unfold shade; rw [if_neg hi]
    rw [es]
    unfold internalHandleData
    have e : (mask w c).insidePlugins.egress (mask w c).log pkt pkt.length = _ := egress_hide h.inside c.log pkt pkt.length
    rw [e]
    clear e
    generalize c.insidePlugins.egress c.log pkt pkt.length = r
    obtain ⟨l, q, rc⟩ := r
    have h1 : Shut w { c with log := l } := h
    refine Par.ite Iff.rfl (fun _ => ⟨rfl, h1⟩) (fun _ => ?_)
    refine Par.ite Iff.rfl (fun _ => ⟨rfl, h1⟩) (fun _ => ?_)
    refine Par.ite Iff.rfl (fun _ => ⟨rfl, h1⟩) (fun _ => ?_)
    refine Par.ite Iff.rfl (fun _ => ⟨rfl, h1⟩) (fun _ => ?_)
    refine Par.ite Iff.rfl (fun _ => ⟨?_, h1⟩) (fun _ => ⟨rfl, h1⟩)
    have e2 : (mask w { c with log := l }).emit (.insideWrite (shade w q)) = mask w (({ c with log := l } : Conn).emit (.insideWrite q)) := rfl
    rw [es] at e2
    exact congrArg (·, RC.success) e2

theorem handleData_par {c : Conn} (h : Shut w c) {pkt : Bytes} (hp : pkt.head? = some 5) :
    Par w (handleData c pkt) (handleData (mask w c) (seeIn w pkt)) := by
  unfold handleData
  rw [seeIn_len]
  refine Par.ite Iff.rfl (fun _ => par h _) (fun _ => ?_)
  refine Par.ite Iff.rfl (fun _ => par h _) (fun hl => ?_)
  obtain ⟨l1, l2, p, e1, e2⟩ := seeIn_data (w := w) hp (by omega)
  rw [rd_prefix (seeIn_len pkt) ⟨p, e1⟩ ⟨_, e2⟩ (off := 1) (n := 2) (by simp)]
  cases rd pkt 1 2 with
  | none => exact ⟨rfl, h⟩
  | some l =>
    dsimp only
    have e : (if (mask w c).verMajor = 1 ∧ (mask w c).verMinor = 0 then rdLe16 l else rdBe16 l) =
      (if c.verMajor = 1 ∧ c.verMinor = 0 then rdLe16 l else rdBe16 l) := rfl
    rw [e]
    generalize (if c.verMajor = 1 ∧ c.verMinor = 0 then rdLe16 l else rdBe16 l) = len
    refine Par.ite Iff.rfl (fun _ => par h _) (fun _ => ?_)
    have e3 : rd (seeIn w pkt) 3 len = (rd pkt 3 len).map (shade w) := by
      rw [e2, e1]
      exact (rd_suffix [5, l1, l2] (shade w p) len).trans
        ((shade_rd p len).trans (congrArg (Option.map (shade w)) (rd_suffix [5, l1, l2] p len).symm))
    rw [e3]
    cases rd pkt 3 len with
    | none => exact ⟨rfl, h⟩
    | some inner => exact internalHandleData_par h inner

/-- Delivery of the assembled packet. -/
def fragGive (c : Conn) (t : FragTable) (p : Bytes) : Conn × RC :=
  ({ (internalHandleData c p).1 with fragTable := some t }, (internalHandleData c p).2)

theorem fragGive_par {c : Conn} (h : Shut w c) (t : FragTable) (p : Bytes) :
    Par w (fragGive c t p) (fragGive (mask w c) (seenTable w t) (shade w p)) := by
  unfold fragGive
  exact Par.bind (internalHandleData_par h p) (fun c rc h => ⟨rfl, h⟩)

/-- What `update` gives, with the packet hidden. -/
def seenUpdate (w : Watch) (u : Option (FragEntry × RC × Bool)) : Option (FragEntry × RC × Bool) :=
  u.map (fun r => (seenEntry w r.1, r.2.1, r.2.2))

/-- The end of `fragApply`. -/
def fragDone (c : Conn) (t : FragTable) (id : Nat) : Option (FragEntry × RC × Bool) → Conn × RC
  | none => (c.ub "frag", .failed)
  | some (en, rc, assembled) =>
    let c := { c with fragTable := some (t.set id en) }
    if rc ≠ .success then (c, rc)
    else if assembled then
      match en.nodes with
      | [] => (c.ub "frag", .failed)
      | hd :: _ =>
        match rd en.data 0 hd.e with
        | none => (c.ub "frag", .failed)
        | some p =>
          let r := internalHandleData c p
          ({ r.1 with fragTable := some ((t.set id en).delete id) }, r.2)
    else (c, .success)

theorem seenTable_set (t : FragTable) (id : Nat) (en : FragEntry) :
    (seenTable w t).set id (seenEntry w en) = seenTable w (t.set id en) := by
  unfold FragTable.set seenTable
  congr 1
  funext i
  dsimp only
  by_cases h : i = id % t.num
  · rw [if_pos h, if_pos h]; rfl
  · rw [if_neg h, if_neg h]

theorem seenTable_delete (t : FragTable) (id : Nat) : (seenTable w t).delete id = seenTable w (t.delete id) := by
  unfold FragTable.delete seenTable
  congr 1
  funext i
  dsimp only
  by_cases h : i = id % t.num
  · rw [if_pos h, if_pos h]; rfl
  · rw [if_neg h, if_neg h]

theorem fragDone_par {c : Conn} (h : Shut w c) (t : FragTable) (id : Nat) (u : Option (FragEntry × RC × Bool)) :
    Par w (fragDone c t id u) (fragDone (mask w c) (seenTable w t) id (seenUpdate w u)) := by
  cases u with
  | none => exact ⟨rfl, h⟩
  | some u =>
    obtain ⟨en, rc, a⟩ := u
    unfold fragDone seenUpdate
    dsimp only [Option.map_some]
    rw [seenTable_set, seenTable_delete]
    refine Par.ite Iff.rfl (fun _ => ⟨rfl, h⟩) (fun _ => ?_)
    refine Par.ite Iff.rfl (fun _ => ?_) (fun _ => ⟨rfl, h⟩)
    have en1 : (seenEntry w en).nodes = en.nodes := rfl
    rw [en1]
    cases en.nodes with
    | nil => exact ⟨rfl, h⟩
    | cons hd _ =>
      dsimp only
      have en2 : rd (seenEntry w en).data 0 hd.e = (rd en.data 0 hd.e).map (shade w) := shade_rd _ _
      rw [en2]
      cases rd en.data 0 hd.e with
      | none => exact ⟨rfl, h⟩
      | some p =>
        exact fragGive_par (c := { c with fragTable := some (t.set id en) }) h ((t.set id en).delete id) p

theorem fragApply_eq (env : Env) (c : Conn) (t : FragTable) (en : FragEntry) (id off : Nat) (last : Bool) (d : Bytes) :
    fragApply env c t en id off last d = fragDone (c.emit (.clock (env.now c.log))) t id
      ((if env.now c.log - en.timestamp > 64 then { en.reset with timestamp := env.now c.log } else en).update
        (env.alloc (c.emit (.clock (env.now c.log))).log) d off last) := by
  unfold fragApply fragDone
  dsimp only
  generalize FragEntry.update _ _ _ _ _ = u
  cases u with
  | none => rfl
  | some u => obtain ⟨a, b, e⟩ := u; rfl

/-- Copying a fragment into the buffer. -/
theorem shade_wr (data d : Bytes) (off : Nat) : wr (shade w data) off (shadeAt w off d) = (wr data off d).map (shade w) := by
  unfold wr
  rw [shade_length, shadeAt_length]
  by_cases hl : off + d.length ≤ data.length
  · rw [if_pos hl, if_pos hl]
    simp only [Option.map_some, Option.some.injEq]
    by_cases hi : w.inn = true
    · have e1 : ∀ p, shade w p = blankPkt p := fun p => by unfold shade; rw [if_pos hi]
      have e2 : ∀ p, shadeAt w off p = blankFrag off p := fun p => by unfold shadeAt; rw [if_pos hi]
      rw [e1, e1, e2]
      cases off with
      | zero =>
        simp only [List.take_zero, List.nil_append, Nat.zero_add, blankFrag, if_true]
        cases d with
        | nil => rfl
        | cons b r =>
          rw [blankPkt_append _ _ (by simp)]
          simp only [List.length_cons]
          rw [blankPkt_drop]
      | succ off =>
        rw [blankPkt_take]
        have hne : data.take (off + 1) ≠ [] := by
          cases data with
          | nil => simp at hl
          | cons => simp
        have e3 : off + 1 + d.length = (off + d.length) + 1 := by omega
        rw [List.append_assoc (data.take (off + 1)), blankPkt_append _ _ hne, e3, blankPkt_drop]
        unfold blankFrag
        rw [if_neg (by omega)]
        simp [zeros, List.append_assoc]
    · have e1 : ∀ p, shade w p = p := fun p => by unfold shade; rw [if_neg hi]
      have e2 : ∀ p, shadeAt w off p = p := fun p => by unfold shadeAt; rw [if_neg hi]
      rw [e1, e1, e2]
  · rw [if_neg hl, if_neg hl]; rfl

theorem update_seen (en : FragEntry) (al : Bool) (d : Bytes) (off : Nat) (last : Bool) :
    (seenEntry w en).update al (shadeAt w off d) off last = seenUpdate w (en.update al d off last) := by
  unfold FragEntry.update
  rw [shadeAt_length]
  have en1 : (seenEntry w en).nodes = en.nodes := rfl
  have en2 : wr (seenEntry w en).data off (shadeAt w off d) = (wr en.data off d).map (shade w) := shade_wr _ _ _
  rw [en1, en2]
  by_cases hl : off + d.length > maxWireMtu
  · rw [if_pos hl, if_pos hl]; rfl
  rw [if_neg hl, if_neg hl]
  cases en.nodes with
  | nil =>
    dsimp only
    cases al with
    | false => rfl
    | true =>
      simp only [if_true]
      cases wr en.data off d with
      | none => rfl
      | some x => rfl
  | cons hd tl =>
    dsimp only
    cases walk al off d.length last [] [] (hd :: tl) with
    | ub => rfl
    | bad ns => rfl
    | done ns =>
      dsimp only
      cases wr en.data off d with
      | none => rfl
      | some x => cases ns <;> rfl

theorem expire_seen (en : FragEntry) (now : Int) :
    (if now - (seenEntry w en).timestamp > 64 then { (seenEntry w en).reset with timestamp := now } else seenEntry w en) =
    seenEntry w (if now - en.timestamp > 64 then { en.reset with timestamp := now } else en) := by
  have et : (seenEntry w en).timestamp = en.timestamp := rfl
  rw [et]
  by_cases h : now - en.timestamp > 64
  · rw [if_pos h, if_pos h]
    unfold seenEntry FragEntry.reset shade
    dsimp only
    rw [blankPkt_zeros, ite_self]
  · rw [if_neg h, if_neg h]

theorem fragApply_par (hE : Sealed w env) {c : Conn} (h : Shut w c) (t : FragTable) (en : FragEntry) (id off : Nat) (last : Bool) (d : Bytes) :
    Par w (fragApply env c t en id off last d) (fragApply env (mask w c) (seenTable w t) (seenEntry w en) id off last (shadeAt w off d)) := by
  rw [fragApply_eq, fragApply_eq]
  have e1 : env.now (mask w c).log = env.now c.log := hE.now c.log
  rw [e1]
  have e2 : env.alloc ((mask w c).emit (.clock (env.now c.log))).log = env.alloc (c.emit (.clock (env.now c.log))).log :=
    hE.alloc (c.emit (.clock (env.now c.log))).log
  rw [e2, expire_seen, update_seen]
  exact fragDone_par (c := c.emit (.clock (env.now c.log))) h t id _

/-- The end of `fragReceive`. -/
def fragFound (env : Env) (c : Conn) (id off : Nat) (last : Bool) (d : Bytes) : FragTable × Option FragEntry → Conn × RC
  | (t, none) => ({ c with fragTable := some t }, .noMemory)
  | (t, some en) => fragApply env { c with fragTable := some t } t en id off last d

theorem fragFound_par (hE : Sealed w env) {c : Conn} (h : Shut w c) (id off : Nat) (last : Bool) (d : Bytes) (u : FragTable × Option FragEntry) :
    Par w (fragFound env c id off last d u)
      (fragFound env (mask w c) id off last (shadeAt w off d) (seenTable w u.1, u.2.map (seenEntry w))) := by
  obtain ⟨t, u⟩ := u
  cases u with
  | none => exact ⟨rfl, h⟩
  | some en => exact fragApply_par hE (c := { c with fragTable := some t }) h t en id off last d

theorem find_seen (t : FragTable) (al : Bool) (now : Int) (id : Nat) :
    (seenTable w t).find al now id = (seenTable w (t.find al now id).1, (t.find al now id).2.map (seenEntry w)) := by
  unfold FragTable.find
  have e : (seenTable w t).slot (id % (seenTable w t).num) = (t.slot (id % t.num)).map (seenEntry w) := rfl
  rw [e]
  cases t.slot (id % t.num) with
  | some en => rfl
  | none =>
    cases al with
    | false => rfl
    | true =>
      simp only [Option.map_none, if_true]
      have ef : seenEntry w (FragEntry.fresh now) = FragEntry.fresh now := by
        unfold seenEntry FragEntry.fresh shade
        dsimp only
        rw [blankPkt_zeros, ite_self]
      have et : ({ seenTable w t with slot := fun i => if i = id % (seenTable w t).num then some (FragEntry.fresh now) else (seenTable w t).slot i } : FragTable)
          = seenTable w { t with slot := fun i => if i = id % t.num then some (FragEntry.fresh now) else t.slot i } := by
        have := seenTable_set (w := w) t id (FragEntry.fresh now)
        rw [ef] at this
        exact this
      rw [et]
      show _ = (_, some (seenEntry w (FragEntry.fresh now)))
      rw [ef]

def fragFresh (env : Env) (c : Conn) (f : Bool) : Conn := if f then c.emit (.alloc (env.alloc c.log)) else c
def fragClock (env : Env) (c : Conn) (f : Bool) : Conn := if f then c.emit (.clock (env.now c.log)) else c

theorem fragFresh_par (hE : Sealed w env) {c : Conn} (h : Shut w c) (f : Bool) : ParC w (fragFresh env c f) (fragFresh env (mask w c) f) := by
  unfold fragFresh
  have e : env.alloc (mask w c).log = env.alloc c.log := hE.alloc c.log
  rw [e]
  exact ParC.ite Iff.rfl (fun _ => ⟨rfl, h⟩) (fun _ => parC h)

theorem fragClock_par (hE : Sealed w env) {c : Conn} (h : Shut w c) (f : Bool) : ParC w (fragClock env c f) (fragClock env (mask w c) f) := by
  unfold fragClock
  have e : env.now (mask w c).log = env.now c.log := hE.now c.log
  rw [e]
  exact ParC.ite Iff.rfl (fun _ => ⟨rfl, h⟩) (fun _ => parC h)

theorem fragReceive_eq (env : Env) (c : Conn) (id off : Nat) (last : Bool) (d : Bytes) : fragReceive env c id off last d =
    match c.fragTable with
    | none => (c, .noMemory)
    | some t => fragFound env
        (fragClock env (fragFresh env c (t.slot (id % t.num)).isNone) ((t.slot (id % t.num)).isNone && env.alloc c.log)) id off last d
        (t.find (env.alloc c.log) (env.now (fragFresh env c (t.slot (id % t.num)).isNone).log) id) := by
  unfold fragReceive
  cases c.fragTable with
  | none => rfl
  | some t =>
    dsimp only [fragFresh, fragClock]
    generalize FragTable.find _ _ _ _ = u
    obtain ⟨t, u⟩ := u
    cases u <;> rfl

theorem fragReceive_par (hE : Sealed w env) {c : Conn} (h : Shut w c) (id off : Nat) (last : Bool) (d : Bytes) :
    Par w (fragReceive env c id off last d) (fragReceive env (mask w c) id off last (shadeAt w off d)) := by
  rw [fragReceive_eq, fragReceive_eq]
  have e : (mask w c).fragTable = c.fragTable.map (seenTable w) := rfl
  rw [e]
  cases c.fragTable with
  | none => exact par h _
  | some t =>
    dsimp only [Option.map_some]
    have e1 : env.alloc (mask w c).log = env.alloc c.log := hE.alloc c.log
    have e2 : ((seenTable w t).slot (id % (seenTable w t).num)).isNone = (t.slot (id % t.num)).isNone := by
      show ((t.slot (id % t.num)).map (seenEntry w)).isNone = _
      cases t.slot (id % t.num) <;> rfl
    rw [e1, e2, find_seen]
    generalize env.alloc c.log = al
    refine ParC.bind (fragFresh_par hE h _) (fun c h => ?_)
    have e1 : env.now (mask w c).log = env.now c.log := hE.now c.log
    rw [e1]
    generalize env.now c.log = now
    exact ParC.bind (fragClock_par hE h _) (fun c h => fragFound_par hE h id off last d _)

theorem handleDataFrag_par (hE : Sealed w env) {c : Conn} (h : Shut w c) {pkt : Bytes} (hp : pkt.head? = some 15) :
    Par w (handleDataFrag env c pkt) (handleDataFrag env (mask w c) (seeIn w pkt)) := by
  unfold handleDataFrag
  rw [seeIn_len]
  refine Par.ite Iff.rfl (fun _ => par h _) (fun _ => ?_)
  refine Par.ite Iff.rfl (fun _ => par h _) (fun hl => ?_)
  have ub : Par w (c.ub "data_frag", RC.failed) ((mask w c).ub "data_frag", .failed) := ⟨rfl, h⟩
  obtain ⟨l1, l2, i1, i2, o1, o2, p, e1, e2⟩ := seeIn_frag (w := w) hp (by omega)
  rw [rd_prefix (seeIn_len pkt) ⟨p, e1⟩ ⟨_, e2⟩ (off := 1) (n := 2) (by simp),
    rd_prefix (seeIn_len pkt) ⟨p, e1⟩ ⟨_, e2⟩ (off := 3) (n := 2) (by simp),
    rd_prefix (seeIn_len pkt) ⟨p, e1⟩ ⟨_, e2⟩ (off := 5) (n := 2) (by simp)]
  have eo : rd pkt 5 2 = some [o1, o2] := by
    rw [e1]; unfold rd; rw [if_pos (by simp)]; rfl
  rw [eo]
  cases rd pkt 1 2 with
  | none => exact ub
  | some l =>
  cases rd pkt 3 2 with
  | none => exact ub
  | some i =>
    refine Par.ite Iff.rfl (fun _ => par h _) (fun _ => ?_)
    refine Par.ite Iff.rfl (fun _ => par h _) (fun _ => ?_)
    have e3 : ∀ n, rd (seeIn w pkt) 7 n = (rd pkt 7 n).map (shadeAt w (rdBe16 [o1, o2] % 8192 * 8)) := by
      intro n
      rw [e2, e1]
      exact (rd_suffix [15, l1, l2, i1, i2, o1, o2] _ n).trans
        ((shadeAt_rd _ p n).trans (congrArg (Option.map _) (rd_suffix [15, l1, l2, i1, i2, o1, o2] p n).symm))
    rw [e3]
    cases rd pkt 7 (rdBe16 l) with
    | none => exact ub
    | some d => exact fragReceive_par hE h _ _ _ d

theorem handleDeprecated13_par {c : Conn} (h : Shut w c) {pkt : Bytes} (hp : pkt.head? = some 13) :
    Par w (handleDeprecated13 c pkt) (handleDeprecated13 (mask w c) (seeIn w pkt)) := by
  unfold handleDeprecated13
  rw [seeIn_len]
  refine Par.ite Iff.rfl (fun _ => par h _) (fun _ => ?_)
  refine Par.ite Iff.rfl (fun _ => par h _) (fun hl => ?_)
  obtain ⟨l1, l2, x, y, p, e1, e2⟩ := seeIn_13 (w := w) hp (by omega)
  rw [rd_prefix (seeIn_len pkt) ⟨p, e1⟩ ⟨_, e2⟩ (off := 1) (n := 2) (by simp)]
  cases rd pkt 1 2 with
  | none => exact ⟨rfl, h⟩
  | some l =>
    refine Par.ite Iff.rfl (fun _ => par h _) (fun _ => ?_)
    have e3 : ∀ n, rd (seeIn w pkt) 5 n = (rd pkt 5 n).map (shade w) := by
      intro n
      rw [e2, e1]
      exact (rd_suffix [13, l1, l2, x, y] _ n).trans
        ((shade_rd p n).trans (congrArg (Option.map _) (rd_suffix [13, l1, l2, x, y] p n).symm))
    rw [e3]
    cases rd pkt 5 (rdBe16 l) with
    | none => exact ⟨rfl, h⟩
    | some inner => exact internalHandleData_par h inner

/-! ### flow.c -/

/-- A packet as the observer sees it inside fragments. -/
def blank (w : Watch) (p : Bytes) : Bytes := if w.pay.isSome then zeros p.length else p

theorem blank_length (p : Bytes) : (blank w p).length = p.length := by
  unfold blank; split <;> simp [zeros]

theorem blank_take (p : Bytes) (n : Nat) : (blank w p).take n = blank w (p.take n) := by
  unfold blank; split <;> simp [zeros]

theorem blank_drop (p : Bytes) (n : Nat) : (blank w p).drop n = blank w (p.drop n) := by
  unfold blank; split <;> simp [zeros]

theorem fragMsg_hide (id off : Nat) (mf : Bool) (d : Bytes) : hideOut w (fragMsg id off mf d) = fragMsg id off mf (blank w d) := by
  have e : ∀ d, fragMsg id off mf d = [15] ++ be16 d.length ++ be16 id ++ be16 (off / 8 + (if mf then 8192 else 0)) ++ d := fun _ => rfl
  unfold hideOut
  rw [hideMsg_id (by rw [e]; simp), e, e, blank_length]
  unfold blank
  by_cases h : w.pay.isSome
  · rw [if_pos h, if_pos h]; rfl
  · rw [if_neg h, if_neg h]

theorem fragLoop_par (hE : Sealed w env) {c : Conn} (h : Shut w c) (size id off : Nat) (pkt : Bytes) :
    Par w (fragLoop env c size id off pkt) (fragLoop env (mask w c) size id off (blank w pkt)) := by
  induction hn : pkt.length using Nat.strongRecOn generalizing c off pkt with
  | _ n ih =>
    rw [fragLoop, fragLoop]
    simp only [blank_length, blank_take, blank_drop]
    by_cases hz : pkt.length = 0
    · rw [dif_pos hz, dif_pos hz]; exact par h _
    rw [dif_neg hz, dif_neg hz]
    by_cases hs : size = 0
    · rw [dif_pos hs, dif_pos hs]; exact ⟨rfl, h⟩
    rw [dif_neg hs, dif_neg hs]
    refine Par.ite Iff.rfl (fun _ => ⟨rfl, h⟩) (fun _ => ?_)
    rw [← fragMsg_hide]
    refine Par.bind (sendMessage_par' hE h _) (fun c rc h => ?_)
    refine Par.ite Iff.rfl (fun _ => par h _) (fun _ => ?_)
    exact ih (pkt.drop size).length (by rw [List.length_drop]; omega) h _ _ rfl

theorem fragAndSend_par (hE : Sealed w env) {c : Conn} (h : Shut w c) (pkt : Bytes) (n : Nat) :
    Par w (fragAndSend env c pkt n) (fragAndSend env (mask w c) (blank w pkt) n) := by
  unfold fragAndSend
  rw [blank_length]
  refine Par.ite Iff.rfl (fun _ => par h _) (fun _ => ?_)
  exact fragLoop_par hE (c := { c with fragNextId := (c.fragNextId + 1) % 65536 }) h _ _ _ _

/-- `insidePacket` after the segment-size clamp. -/
def insideSend (env : Env) (c : Conn) (pmtu : Nat) (r : Log × Bytes × RC) : Conn × RC :=
  let c1 := { c with log := r.1 }
  if r.2.2 = .pluginDrop then (c1, .success)
  else if r.2.2 ≠ .success then (c1, .failed)
  else if r.2.1.length > sizeSub c.outsideMtu packetOverhead then (c1, .failed)
  else if !shouldFragment c1 pmtu r.2.1.length then
    if r.2.1.length + 3 > maxWireMtu then (c1, .failed)
    else sendMessage env c1 (dataMsg c1 r.2.1)
  else fragAndSend env c1 r.2.1 (pmtu + 3 - 7)

theorem insideSend_par (hw : w.pay = none) (hE : Sealed w env) {c : Conn} (h : Shut w c) (pmtu : Nat) (r : Log × Bytes × RC) :
    Par w (insideSend env c pmtu r) (insideSend env (mask w c) pmtu (hideLog w r.1, r.2)) := by
  unfold insideSend
  obtain ⟨l, q, rc⟩ := r
  have h1 : Shut w { c with log := l } := h
  refine Par.ite Iff.rfl (fun _ => ⟨rfl, h1⟩) (fun _ => ?_)
  refine Par.ite Iff.rfl (fun _ => ⟨rfl, h1⟩) (fun _ => ?_)
  refine Par.ite Iff.rfl (fun _ => ⟨rfl, h1⟩) (fun _ => ?_)
  refine Par.ite Iff.rfl (fun _ => ?_) (fun _ => ?_)
  · refine Par.ite Iff.rfl (fun _ => ⟨rfl, h1⟩) (fun _ => ?_)
    have k := sendMessage_par' hE (c := { c with log := l }) h1 (dataMsg c q)
    have e : hideOut w (dataMsg c q) = dataMsg c q := by
      unfold hideOut
      rw [if_neg (by rw [hw]; simp), hideMsg_id (by simp [dataMsg, msgData])]
    rw [e] at k
    exact k
  · have k := fragAndSend_par hE (c := { c with log := l }) h1 q (pmtu + 3 - 7)
    have e : blank w q = q := by
      unfold blank
      rw [if_neg (by rw [hw]; simp)]
    rw [e] at k
    exact k

/-- `insidePacket` after the packet check. -/
def insideClamped (env : Env) (c : Conn) : Option (Bytes × RC) → Conn × RC
  | none => (c.ub "clamp_mss", .failed)
  | some (pkt, rc) =>
    if rc ≠ .success then (c, rc)
    else insideSend env c (effectivePmtu c) (c.insidePlugins.ingress c.log pkt (sizeSub c.outsideMtu packetOverhead))

theorem insideClamped_par (hw : w.pay = none) (hE : Sealed w env) {c : Conn} (h : Shut w c) (q : Option (Bytes × RC)) :
    Par w (insideClamped env c q) (insideClamped env (mask w c) q) := by
  cases q with
  | none => exact ⟨rfl, h⟩
  | some q =>
    obtain ⟨pkt, rc⟩ := q
    unfold insideClamped
    refine Par.ite Iff.rfl (fun _ => par h _) (fun _ => ?_)
    have e : (mask w c).insidePlugins.ingress (mask w c).log pkt (sizeSub (mask w c).outsideMtu packetOverhead) = _ :=
      ingress_hide h.inside c.log pkt (sizeSub c.outsideMtu packetOverhead)
    rw [e]
    exact insideSend_par hw hE h (effectivePmtu c) _

theorem insidePacket_eq (env : Env) (c : Conn) (pkt : Bytes) : insidePacket env c pkt =
    if c.state ≠ .online then (c, .invalidConnState)
    else if pkt.length < 20 then (c, .packetTooSmall)
    else if pkt.length > sizeSub c.outsideMtu packetOverhead then (c, .packetTooLarge)
    else if !ipv4Valid pkt then (c, .unsupportedPacketType)
    else insideClamped env c (clampMss pkt (effectivePmtu c - 40)) := by
  unfold insidePacket insideClamped insideSend
  dsimp only
  generalize clampMss pkt (effectivePmtu c - 40) = q
  cases q with
  | none => rfl
  | some q => obtain ⟨a, b⟩ := q; rfl

theorem insidePacket_par (hw : w.pay = none) (hE : Sealed w env) {c : Conn} (h : Shut w c) (pkt : Bytes) :
    Par w (insidePacket env c pkt) (insidePacket env (mask w c) pkt) := by
  rw [insidePacket_eq, insidePacket_eq]
  refine Par.ite Iff.rfl (fun _ => par h _) (fun _ => ?_)
  refine Par.ite Iff.rfl (fun _ => par h _) (fun _ => ?_)
  refine Par.ite Iff.rfl (fun _ => par h _) (fun _ => ?_)
  refine Par.ite Iff.rfl (fun _ => par h _) (fun _ => ?_)
  exact insideClamped_par hw hE h _

theorem hideMsg_len (m : Bytes) : (hideMsg m).length = m.length := by
  unfold hideMsg
  split <;> simp

theorem hideMsg_take (m : Bytes) (n : Nat) : hideMsg (m.take (n + 4)) = (hideMsg m).take (n + 4) := by
  match m with
  | [] => simp [hideMsg]
  | [a] => simp [hideMsg]
  | [a, b] => simp [hideMsg]
  | [a, b, d] => simp [hideMsg]
  | a :: b :: d :: e :: s =>
    by_cases h : a = 4
    · subst h; simp [hideMsg, List.map_take]
    · rw [hideMsg_id (by simpa using h), hideMsg_id (by simpa using h)]

theorem hideMsg_rd (m : Bytes) (off n : Nat) (h : off + n ≤ 4) : rd (hideMsg m) off n = rd m off n := by
  unfold rd
  rw [hideMsg_len]
  by_cases hl : off + n ≤ m.length
  · rw [if_pos hl, if_pos hl]
    unfold hideMsg
    split
    · rename_i ty l1 l2 s
      congr 1
      have e : ∀ t : Bytes, List.take n (List.drop off (4 :: ty :: l1 :: l2 :: t)) = List.take n (List.drop off [4, ty, l1, l2]) := by
        intro t
        have : (4 :: ty :: l1 :: l2 :: t) = [4, ty, l1, l2] ++ t := rfl
        rw [this, List.drop_append_of_le_length (by simp; omega), List.take_append_of_le_length (by simp; omega)]
      exact (e _).trans (e s).symm
    · rfl
  · rw [if_neg hl, if_neg hl]

theorem hideMsg_rd4 {m : Bytes} (hm : m.head? = some 4) (off n : Nat) (h : 4 ≤ off) :
    rd (hideMsg m) off n = (rd m off n).map (·.map hide) := by
  unfold rd
  rw [hideMsg_len]
  by_cases hl : off + n ≤ m.length
  · rw [if_pos hl, if_pos hl]
    match m, hm with
    | [a], _ => simp at hl; omega
    | [a, b], _ => simp at hl; omega
    | [a, b, d], _ => simp at hl; omega
    | a :: b :: d :: e :: s, hm =>
      simp only [List.head?_cons, Option.some.injEq] at hm
      subst hm
      obtain ⟨k, rfl⟩ : ∃ k, off = k + 4 := ⟨off - 4, by omega⟩
      simp [hideMsg, List.map_take, List.map_drop]
  · rw [if_neg hl, if_neg hl]; rfl

/-- The two outcomes of the authentication switch. -/
def ParA (w : Watch) : AuthOut → AuthOut → Prop
  | .ret c rc _, .ret c' rc' _ => ParC w c c' ∧ rc = rc'
  | .verdict c ok rc _, .verdict c' ok' rc' _ => ParC w c c' ∧ ok = ok' ∧ rc = rc'
  | _, _ => False

theorem ParA.ite {p q : Prop} [Decidable p] [Decidable q] {a b a' b' : AuthOut} (h : p ↔ q) (ha : p → ParA w a a')
    (hb : ¬p → ParA w b b') : ParA w (if p then a else b) (if q then a' else b') := by
  by_cases hp : p
  · rw [if_pos hp, if_pos (h.mp hp)]; exact ha hp
  · rw [if_neg hp, if_neg (fun hq => hp (h.mpr hq))]; exact hb hp

theorem authSwitch_par (hE : Sealed ⟨true, pay, inn⟩ env) {c : Conn} (h : Shut ⟨true, pay, inn⟩ c) {pkt : Bytes} (hp : pkt.head? = some 4) (ty : UInt8) :
    ParA ⟨true, pay, inn⟩ (authSwitch env c pkt ty) (authSwitch env (mask ⟨true, pay, inn⟩ c) (hideMsg pkt) ty) := by
  unfold authSwitch
  rw [hideMsg_len, hideMsg_rd pkt 2 2 (by omega), hideMsg_rd4 hp 4 50 (by omega), hideMsg_rd4 hp 54 50 (by omega)]
  refine ParA.ite Iff.rfl (fun _ => ?_) (fun _ => ?_)
  · refine ParA.ite Iff.rfl (fun _ => ?_) (fun _ => ⟨parC h, rfl, rfl⟩)
    refine ParA.ite Iff.rfl (fun _ => ⟨parC h, rfl⟩) (fun hl => ?_)
    have hl : 104 ≤ pkt.length := by omega
    have e1 : rd pkt 4 50 = some ((pkt.drop 4).take 50) := by unfold rd; rw [if_pos (by omega)]
    have e2 : rd pkt 54 50 = some ((pkt.drop 54).take 50) := by unfold rd; rw [if_pos (by omega)]
    have e3 : ∀ m : Bytes, m.length = pkt.length → ∃ x, wr m 54 (zeros 50) = some x := by
      intro m hm
      unfold wr
      rw [if_pos (by simp [zeros]; omega)]
      exact ⟨_, rfl⟩
    obtain ⟨x, hx⟩ := e3 pkt rfl
    obtain ⟨y, hy⟩ := e3 (hideMsg pkt) (hideMsg_len pkt)
    rw [e1, e2, hx, hy]
    generalize (pkt.drop 4).take 50 = u
    generalize (pkt.drop 54).take 50 = p
    dsimp only [Option.map_some]
    have ea : env.authUserPass (mask ⟨true, pay, inn⟩ c).log (u.map hide) (p.map hide) = env.authUserPass c.log u p :=
      hE.authUserPass rfl c.log u p
    rw [ea]
    have eu : ((mask ⟨true, pay, inn⟩ c).emit (.authUserPass (u.map hide) (p.map hide) (env.authUserPass c.log u p))).username =
      c.username.map hide := rfl
    rw [eu, strncpy_hide, setNul_hide]
    exact ⟨⟨rfl, h⟩, rfl, rfl⟩
  refine ParA.ite Iff.rfl (fun _ => ?_) (fun _ => ?_)
  · refine ParA.ite Iff.rfl (fun _ => ?_) (fun _ => ⟨parC h, rfl, rfl⟩)
    refine ParA.ite Iff.rfl (fun _ => ⟨parC h, rfl⟩) (fun hl => ?_)
    cases rd pkt 2 2 with
    | none => exact ⟨⟨rfl, h⟩, rfl⟩
    | some len =>
      dsimp only
      refine ParA.ite Iff.rfl (fun _ => ⟨parC h, rfl⟩) (fun _ => ?_)
      rw [hideMsg_rd4 hp 4 _ (by omega)]
      cases rd pkt 4 (rdBe16 len) with
      | none => exact ⟨⟨rfl, h⟩, rfl⟩
      | some tok =>
        dsimp only [Option.map_some]
        have ea : env.authToken (mask ⟨true, pay, inn⟩ c).log (tok.map hide) = env.authToken c.log tok := hE.authToken rfl c.log tok
        rw [ea]
        exact ⟨⟨rfl, h⟩, rfl, rfl⟩
  refine ParA.ite Iff.rfl (fun _ => ?_) (fun _ => ⟨parC h, rfl, rfl⟩)
  refine ParA.ite Iff.rfl (fun _ => ?_) (fun _ => ⟨parC h, rfl, rfl⟩)
  refine ParA.ite Iff.rfl (fun _ => ⟨parC h, rfl⟩) (fun hl => ?_)
  cases rd pkt 2 2 with
  | none => exact ⟨⟨rfl, h⟩, rfl⟩
  | some len =>
    dsimp only
    refine ParA.ite Iff.rfl (fun _ => ⟨parC h, rfl⟩) (fun _ => ?_)
    rw [hideMsg_rd4 hp 4 _ (by omega)]
    cases rd pkt 4 (rdBe16 len) with
    | none => exact ⟨⟨rfl, h⟩, rfl⟩
    | some buf =>
      dsimp only [Option.map_some]
      have ea : env.authBuf (mask ⟨true, pay, inn⟩ c).log ty (buf.map hide) = env.authBuf c.log ty buf := hE.authBuf rfl c.log ty buf
      rw [ea]
      exact ⟨⟨rfl, h⟩, rfl, rfl⟩

/-- `handleAuthBuf` after the switch, without the buffer. -/
def authEnd (env : Env) : AuthOut → Conn × RC
  | .ret c rc _ => (c, rc)
  | .verdict c ok rc _ =>
    if !ok then (setState (sendAuthDenied env c) .disconnecting, rc)
    else if (env.populate c.log).1 ≠ .success then (sendAuthDenied env (c.emit (.populate (env.populate c.log).1)), (env.populate c.log).1)
    else (setState (sendMessage env (c.emit (.populate (env.populate c.log).1)) (configIpv4Msg c.sessionId (env.populate c.log).2)).1 .online,
      .success)

theorem sendAuthDenied_par (hE : Sealed w env) {c : Conn} (h : Shut w c) :
    ParC w (sendAuthDenied env c) (sendAuthDenied env (mask w c)) :=
  (sendMessage_par hE h (by simp [authDeniedMsg, msgAuthResponse])).fst

theorem verdict_par (hE : Sealed ⟨true, pay, inn⟩ env) {c : Conn} (hs : Shut ⟨true, pay, inn⟩ c) (ok : Bool) (rc : RC) (p p' : Bytes) :
    Par ⟨true, pay, inn⟩ (authEnd env (.verdict c ok rc p)) (authEnd env (.verdict (mask ⟨true, pay, inn⟩ c) ok rc p')) := by
  unfold authEnd
  dsimp only
  have ep : env.populate (mask ⟨true, pay, inn⟩ c).log = env.populate c.log := hE.populate rfl c.log
  rw [ep]
  generalize env.populate c.log = r
  have h1 : Shut ⟨true, pay, inn⟩ (c.emit (.populate r.1)) := hs
  refine Par.ite Iff.rfl (fun _ => ?_) (fun _ => ?_)
  · refine ParC.bind (sendAuthDenied_par hE hs) (fun c h => ?_)
    exact ParC.bind (setState_par h .disconnecting) (fun c h => par h _)
  refine Par.ite Iff.rfl (fun _ => ?_) (fun _ => ?_)
  · have k : ParC ⟨true, pay, inn⟩ (sendAuthDenied env (c.emit (.populate r.1))) (sendAuthDenied env ((mask ⟨true, pay, inn⟩ c).emit (.populate r.1))) :=
      sendAuthDenied_par hE h1
    exact ParC.bind k (fun c h => par h _)
  · have k : Par ⟨true, pay, inn⟩ (sendMessage env (c.emit (.populate r.1)) (configIpv4Msg c.sessionId r.2))
        (sendMessage env ((mask ⟨true, pay, inn⟩ c).emit (.populate r.1)) (configIpv4Msg (mask ⟨true, pay, inn⟩ c).sessionId r.2)) :=
      sendMessage_par hE h1 (by simp [configIpv4Msg, msgConfigIpv4])
    refine Par.bind k (fun c _ h => ?_)
    exact ParC.bind (setState_par h .online) (fun c h => par h _)

theorem authEnd_par (hE : Sealed ⟨true, pay, inn⟩ env) {a b : AuthOut} (h : ParA ⟨true, pay, inn⟩ a b) : Par ⟨true, pay, inn⟩ (authEnd env a) (authEnd env b) := by
  cases a with
  | ret c rc p =>
    cases b with
    | ret c' rc' p' => exact ⟨by show (c', rc') = (mask ⟨true, pay, inn⟩ c, rc); rw [h.1.1, h.2], h.1.2⟩
    | verdict => exact h.elim
  | verdict c ok rc p =>
    cases b with
    | ret => exact h.elim
    | verdict c' ok' rc' p' =>
      have k := verdict_par hE h.1.2 ok rc p p'
      rw [← h.1.1, h.2.1, h.2.2] at k
      rw [h.2.1, h.2.2]
      exact k

/-- The type byte. -/
def authTyped (env : Env) (c : Conn) (pkt : Bytes) : Option Bytes → Conn × RC
  | some [ty] => authEnd env (authSwitch env c pkt ty)
  | _ => (c.ub "auth", .failed)

theorem handleAuth_eq (env : Env) (c : Conn) (pkt : Bytes) : handleAuth env c pkt =
    if !c.isServer ∧ (c.state ≠ .linkUp ∧ c.state ≠ .online) then (c, .invalidConnState)
    else if !c.cbs.populate then (c, .invalidConnState)
    else if !c.cbs.auth ∧ !c.cbs.authToken ∧ !c.cbs.authBuf then (c, .invalidConnState)
    else if pkt.length < 2 then (c, .packetTooSmall)
    else authTyped env c pkt (rd pkt 1 1) := by
  unfold handleAuth handleAuthBuf
  by_cases h1 : !c.isServer ∧ (c.state ≠ .linkUp ∧ c.state ≠ .online)
  · rw [if_pos h1, if_pos h1]
  rw [if_neg h1, if_neg h1]
  by_cases h2 : !c.cbs.populate
  · rw [if_pos h2, if_pos h2]
  rw [if_neg h2, if_neg h2]
  by_cases h3 : !c.cbs.auth ∧ !c.cbs.authToken ∧ !c.cbs.authBuf
  · rw [if_pos h3, if_pos h3]
  rw [if_neg h3, if_neg h3]
  by_cases h4 : pkt.length < 2
  · rw [if_pos h4, if_pos h4]
  rw [if_neg h4, if_neg h4]
  unfold authTyped
  match rd pkt 1 1 with
  | none => rfl
  | some [] => rfl
  | some [ty] =>
    dsimp only
    generalize authSwitch env c pkt ty = a
    cases a with
    | ret c rc pkt => rfl
    | verdict c ok rc pkt =>
      unfold authEnd
      dsimp only
      by_cases ho : (!ok) = true
      · rw [if_pos ho, if_pos ho]
      rw [if_neg ho, if_neg ho]
      by_cases hr : (env.populate c.log).1 ≠ .success
      · rw [if_pos hr, if_pos hr]
      rw [if_neg hr, if_neg hr]
  | some (_ :: _ :: _) => rfl

theorem handleAuth_par (hE : Sealed ⟨true, pay, inn⟩ env) {c : Conn} (h : Shut ⟨true, pay, inn⟩ c) {pkt : Bytes} (hp : pkt.head? = some 4) :
    Par ⟨true, pay, inn⟩ (handleAuth env c pkt) (handleAuth env (mask ⟨true, pay, inn⟩ c) (hideMsg pkt)) := by
  rw [handleAuth_eq, handleAuth_eq, hideMsg_len, hideMsg_rd pkt 1 1 (by omega)]
  refine Par.ite Iff.rfl (fun _ => par h _) (fun _ => ?_)
  refine Par.ite Iff.rfl (fun _ => par h _) (fun _ => ?_)
  refine Par.ite Iff.rfl (fun _ => par h _) (fun _ => ?_)
  refine Par.ite Iff.rfl (fun _ => par h _) (fun _ => ?_)
  match rd pkt 1 1 with
  | none => exact ⟨rfl, h⟩
  | some [] => exact ⟨rfl, h⟩
  | some [ty] => exact authEnd_par hE (authSwitch_par hE h hp ty)
  | some (_ :: _ :: _) => exact ⟨rfl, h⟩

/-- A message that is not AUTH (or is, and is ignored). -/
theorem processMessage_par' (hE : Sealed w env) {c : Conn} (h : Shut w c) (pkt : Bytes)
    (ha : pkt.head? = some 4 → c.isServer = false) :
    Par w (processMessage env c pkt) (processMessage env (mask w c) (seeIn w pkt)) := by
  cases pkt with
  | nil => rw [seeIn_id (by simp) (by simp) (by simp)]; exact ⟨rfl, h⟩
  | cons id rest =>
    have ha4 : id = 4 → c.isServer = false := fun e => ha (by rw [e]; rfl)
    obtain ⟨rest', e⟩ : ∃ rest', seeIn w (id :: rest) = id :: rest' := by
      have := seeIn_head (w := w) (id :: rest)
      cases hs : seeIn w (id :: rest) with
      | nil => rw [hs] at this; cases this
      | cons a r => rw [hs] at this; simp at this; exact ⟨r, by rw [this]⟩
    have same : id ≠ 5 → id ≠ 13 → id ≠ 15 → id :: rest' = id :: rest := by
      intro a1 a2 a3
      rw [← e]
      exact seeIn_id (by simpa using a1) (by simpa using a2) (by simpa using a3)
    have hd : (id :: rest).head? = some id := rfl
    rw [e]
    unfold processMessage
    dsimp only
    rw [← e] at same ⊢
    generalize id :: rest = pkt at *
    clear e
    refine Par.ite Iff.rfl (fun _ => par h _) (fun _ => ?_)
    refine Par.ite Iff.rfl (fun hi => ?_) (fun _ => ?_)
    · rw [same (by rw [hi]; decide) (by rw [hi]; decide) (by rw [hi]; decide)]; exact handlePing_par hE h _
    refine Par.ite Iff.rfl (fun hi => ?_) (fun _ => ?_)
    · rw [same (by rw [hi]; decide) (by rw [hi]; decide) (by rw [hi]; decide)]; exact handlePong_par hE h _
    refine Par.ite Iff.rfl (fun h4 => ?_) (fun _ => ?_)
    · refine Par.ite Iff.rfl (fun hs => ?_) (fun _ => par h _)
      rw [ha4 h4] at hs; cases hs
    refine Par.ite Iff.rfl (fun hi => handleData_par h (by rw [hd, hi]; rfl)) (fun _ => ?_)
    refine Par.ite Iff.rfl (fun hi => ?_) (fun _ => ?_)
    · rw [same (by rw [hi]; decide) (by rw [hi]; decide) (by rw [hi]; decide)]
      exact Par.ite Iff.rfl (fun _ => handleConfigIpv4_par hE h _) (fun _ => par h _)
    refine Par.ite Iff.rfl (fun _ => ?_) (fun _ => ?_)
    · exact Par.ite Iff.rfl (fun _ => par h _) (fun _ => par h _)
    refine Par.ite Iff.rfl (fun _ => par h _) (fun _ => ?_)
    refine Par.ite Iff.rfl (fun _ => par h _) (fun _ => ?_)
    refine Par.ite Iff.rfl (fun _ => par h _) (fun _ => ?_)
    refine Par.ite Iff.rfl (fun hi => handleDeprecated13_par h (by rw [hd, hi]; rfl)) (fun _ => ?_)
    refine Par.ite Iff.rfl (fun hi => ?_) (fun _ => ?_)
    · rw [same (by rw [hi]; decide) (by rw [hi]; decide) (by rw [hi]; decide)]
      exact Par.ite Iff.rfl (fun _ => handleServerConfig_par hE h _) (fun _ => par h _)
    exact Par.ite Iff.rfl (fun hi => handleDataFrag_par hE h (by rw [hd, hi]; rfl)) (fun _ => par h _)

theorem processMessage_authTail (env : Env) (c : Conn) {pkt : Bytes} (hp : pkt.head? = some 4) : processMessage env c pkt =
    if c.isServer then handleAuth env c pkt else (c, .success) := by
  cases pkt with
  | nil => cases hp
  | cons id rest =>
    simp only [List.head?_cons, Option.some.injEq] at hp
    subst hp
    rfl

theorem inMsg_eq (m : Bytes) : inMsg w m = seeIn w (if w.srv then hideMsg m else m) := rfl

theorem processMessage_par (hE : Sealed w env) {c : Conn} (h : Shut w c) (pkt : Bytes) :
    Par w (processMessage env c pkt) (processMessage env (mask w c) (inMsg w pkt)) := by
  obtain ⟨srv, pay, inn⟩ := w
  cases srv with
  | false => exact processMessage_par' hE h pkt (fun _ => h.client rfl)
  | true =>
    show Par ⟨true, pay, inn⟩ (processMessage env c pkt) (processMessage env (mask ⟨true, pay, inn⟩ c) (seeIn ⟨true, pay, inn⟩ (hideMsg pkt)))
    by_cases hp : pkt.head? = some 4
    · have hh : (hideMsg pkt).head? = some 4 := by rw [hideMsg_head]; exact hp
      rw [seeIn_id (by rw [hh]; simp) (by rw [hh]; simp) (by rw [hh]; simp), processMessage_authTail env c hp, processMessage_authTail env (mask ⟨true, pay, inn⟩ c) hh]
      exact Par.ite Iff.rfl (fun _ => handleAuth_par hE h hp) (fun _ => par h _)
    · rw [hideMsg_id hp]
      exact processMessage_par' hE h pkt (fun e => absurd e hp)

/-- One failed read. -/
def readFailed (c : Conn) (r : ReadRes) (again : Conn → Conn × Option RC) : Conn × Option RC :=
  match r.err with
  | .none | .wantRead | .wantWrite => (c, none)
  | .appDataReady => again c
  | e =>
    if r.retZero then (c, some .connectionWasClosed)
    else ({ c with wolfError := e }, some (if c.connType = .stream then .sslError else .sslErrorNonfatal))

theorem readFailed_par {c : Conn} (h : Shut w c) (r : ReadRes) {again again' : Conn → Conn × Option RC}
    (ha : ∀ c, Shut w c → Par w (again c) (again' (mask w c))) :
    Par w (readFailed c r again) (readFailed (mask w c) (inRead w r) again') := by
  show Par w (readFailed c r again) (readFailed (mask w c) { r with plain := inMsg w r.plain } again')
  unfold readFailed
  generalize r.err = e
  cases e <;> first
    | exact par h _
    | exact ha c h
    | exact Par.ite Iff.rfl (fun _ => par h _) (fun _ => ⟨rfl, h⟩)

/-- After one message. -/
def processed (q : Conn × RC) (again : Conn → Conn × Option RC) : Conn × Option RC :=
  if q.2 ≠ .success then (q.1, some q.2) else again q.1

theorem processed_par {q q' : Conn × RC} (h : Par w q q') {again again' : Conn → Conn × Option RC}
    (ha : ∀ c, Shut w c → Par w (again c) (again' (mask w c))) : Par w (processed q again) (processed q' again') := by
  unfold processed
  refine Par.bind h (fun c rc h => ?_)
  exact Par.ite Iff.rfl (fun _ => par h _) (fun _ => ha c h)

theorem messageLoop_cons (env : Env) (c : Conn) (r : ReadRes) (rest : List ReadRes) : messageLoop env c (r :: rest) =
    if !c.wolfSet then ({ c.emit (.sslCall .read false) with wolfError := .badFuncArg },
      some (if c.connType = .stream then .sslError else .sslErrorNonfatal))
    else if (r.plain.take maxWireMtu).isEmpty then
      readFailed (ioRun env (c.emit (.sslCall .read (!(r.plain.take maxWireMtu).isEmpty))) r.io) r (fun c => messageLoop env c rest)
    else
      processed (ioRun env (c.emit (.sslCall .read (!(r.plain.take maxWireMtu).isEmpty))) r.io |>.emit (.message (r.plain.take maxWireMtu))
        |> (processMessage env · (r.plain.take maxWireMtu))) (fun c => messageLoop env c rest) := by
  rw [messageLoop]
  rfl

theorem hideIn_take (m : Bytes) (n : Nat) : hideIn (m.take (n + 7)) = (hideIn m).take (n + 7) := by
  by_cases h5 : m.head? = some 5
  · match m, h5 with
    | [a], h => simp at h; subst h; rfl
    | [a, b], h => simp at h; subst h; rfl
    | a :: b :: d :: p, h =>
      simp at h; subst h
      simp [hideIn, blankPkt_take]
  by_cases h13 : m.head? = some 13
  · match m, h13 with
    | [a], h => simp at h; subst h; rfl
    | [a, b], h => simp at h; subst h; rfl
    | [a, b, d], h => simp at h; subst h; rfl
    | [a, b, d, e], h => simp at h; subst h; rfl
    | a :: b :: d :: e :: f :: p, h =>
      simp at h; subst h
      simp [hideIn, blankPkt_take]
  by_cases h15 : m.head? = some 15
  · match m, h15 with
    | [a], h => simp at h; subst h; rfl
    | [a, b], h => simp at h; subst h; rfl
    | [a, b, d], h => simp at h; subst h; rfl
    | [a, b, d, e], h => simp at h; subst h; rfl
    | [a, b, d, e, f], h => simp at h; subst h; rfl
    | [a, b, d, e, f, g], h => simp at h; subst h; rfl
    | a :: b :: d :: e :: f :: g :: k :: p, h =>
      simp at h; subst h
      simp only [hideIn, List.take_succ_cons, blankFrag]
      split
      · simp [blankPkt_take]
      · simp [zeros, List.take_replicate]
  · rw [hideIn_id h5 h13 h15, hideIn_id (m := m.take (n + 7))] <;>
      (cases m <;> simp_all)

theorem inMsg_take (m : Bytes) : (inMsg w m).take maxWireMtu = inMsg w (m.take maxWireMtu) := by
  have h2 : ∀ m : Bytes, (seeIn w m).take maxWireMtu = seeIn w (m.take maxWireMtu) := by
    intro m
    unfold seeIn
    by_cases h : w.inn = true
    · rw [if_pos h, if_pos h]; exact (hideIn_take m 1493).symm
    · rw [if_neg h, if_neg h]
  rw [inMsg_eq, inMsg_eq, h2]
  by_cases h : w.srv = true
  · rw [if_pos h, if_pos h]; exact congrArg (seeIn w) (hideMsg_take m 1496).symm
  · rw [if_neg h, if_neg h]

theorem inMsg_isEmpty (m : Bytes) : (inMsg w m).isEmpty = m.isEmpty := by
  have e : ∀ a b : Bytes, a.length = b.length → a.isEmpty = b.isEmpty := by
    intro a b h
    cases a <;> cases b <;> simp_all
  apply e
  rw [inMsg_eq, seeIn_len]
  split
  · exact hideMsg_len m
  · rfl

theorem message_mask (c : Conn) (m : Bytes) : (mask w c).emit (.message (inMsg w m)) = mask w (c.emit (.message m)) := rfl

theorem messageLoop_par (hE : Sealed w env) {c : Conn} (h : Shut w c) (reads : List ReadRes) :
    Par w (messageLoop env c reads) (messageLoop env (mask w c) (reads.map (inRead w))) := by
  induction reads generalizing c with
  | nil =>
    rw [List.map_nil, messageLoop, messageLoop]
    exact Par.ite Iff.rfl (fun _ => ⟨rfl, h⟩) (fun _ => ⟨rfl, h⟩)
  | cons r rest ih =>
    rw [List.map_cons, messageLoop_cons, messageLoop_cons]
    refine Par.ite Iff.rfl (fun _ => ⟨rfl, h⟩) (fun _ => ?_)
    have e1 : (inRead w r).plain = inMsg w r.plain := rfl
    rw [e1, inMsg_take, inMsg_isEmpty]
    generalize r.plain.take maxWireMtu = plain
    have h1 : Shut w (c.emit (.sslCall .read (!plain.isEmpty))) := h
    have hr : ParC w (ioRun env (c.emit (.sslCall .read (!plain.isEmpty))) r.io)
      (ioRun env ((mask w c).emit (.sslCall .read (!plain.isEmpty))) (inRead w r).io) := ioRun_par hE h1 r.io
    refine ParC.bind hr (fun c h => ?_)
    refine Par.ite Iff.rfl (fun _ => ?_) (fun _ => ?_)
    · exact readFailed_par h r (fun c h => ih h)
    have h2 : Shut w (c.emit (.message plain)) := h
    have hp : Par w (processMessage env (c.emit (.message plain)) plain)
        (processMessage env ((mask w c).emit (.message (inMsg w plain))) (inMsg w plain)) := by
      rw [message_mask]
      exact processMessage_par hE h2 plain
    exact processed_par hp (fun c h => ih h)

/-- The end of `renegTail`. -/
def renegFin (env : Env) (c : Conn) (pending : Bool) : Conn × RC :=
  (updateTimeout env { (if !pending then generateEvent c .renegCompleted else c) with renegInProgress := pending }, .success)

theorem renegFin_par (hE : Sealed w env) {c : Conn} (h : Shut w c) (p : Bool) : Par w (renegFin env c p) (renegFin env (mask w c) p) := by
  unfold renegFin
  cases p with
  | true =>
    have h1 : Shut w { c with renegInProgress := true } := h
    exact ParC.bind (updateTimeout_par hE h1) (fun c h => par h _)
  | false =>
    have h1 : Shut w { generateEvent c .renegCompleted with renegInProgress := false } := h
    exact ParC.bind (updateTimeout_par hE h1) (fun c h => par h _)

/-- Its middle. -/
def renegAsk (env : Env) (c : Conn) (v : SslVersion) : Conn × RC :=
  if v = .dtls12 then renegFin env (sslDo env c .renegPending).1 ((sslDo env c .renegPending).2.val ≠ 0)
  else if !(sslDo env c .keyUpdateResponse).2.ok then
    ({ (sslDo env c .keyUpdateResponse).1 with wolfError := (sslDo env c .keyUpdateResponse).2.err }, .sslError)
  else renegFin env (sslDo env c .keyUpdateResponse).1 ((sslDo env c .keyUpdateResponse).2.val ≠ 0)

theorem renegAsk_par (hE : Sealed w env) {c : Conn} (h : Shut w c) (v : SslVersion) :
    Par w (renegAsk env c v) (renegAsk env (mask w c) v) := by
  unfold renegAsk
  refine Par.ite Iff.rfl (fun _ => ?_) (fun _ => ?_)
  · exact Par.bind (sslDo_par hE h rfl) (fun c r h => renegFin_par hE h _)
  · refine Par.bind (sslDo_par hE h rfl) (fun c r h => ?_)
    exact Par.ite Iff.rfl (fun _ => ⟨rfl, h⟩) (fun _ => renegFin_par hE h _)

theorem renegTail_eq (env : Env) (c : Conn) : renegTail env c =
    if !c.renegInProgress then (c, .success) else renegAsk env (sslVer env c).1 (sslVer env c).2 := rfl

theorem renegTail_par (hE : Sealed w env) {c : Conn} (h : Shut w c) : Par w (renegTail env c) (renegTail env (mask w c)) := by
  rw [renegTail_eq, renegTail_eq]
  refine Par.ite Iff.rfl (fun _ => par h _) (fun _ => ?_)
  exact Par.bind (sslVer_par hE h) (fun c v h => renegAsk_par hE h v)

theorem handleMessages_par (hE : Sealed w env) {c : Conn} (h : Shut w c) (reads : List ReadRes) :
    Par w (handleMessages env c reads) (handleMessages env (mask w c) (reads.map (inRead w))) := by
  unfold handleMessages
  refine Par.bind (messageLoop_par hE h reads) (fun c q h => ?_)
  cases q with
  | some rc => exact par h _
  | none =>
    refine Par.ite Iff.rfl (fun _ => ?_) (fun _ => renegTail_par hE h)
    refine Par.bind (renegotiateSsl_par hE h) (fun c rc h => ?_)
    exact Par.ite Iff.rfl (fun _ => par h _) (fun _ => renegTail_par hE h)

/-- The first message of a connection. -/
def firstMessage (c : Conn) : Conn :=
  if !c.firstMessageReceived then generateEvent { c with firstMessageReceived := true } .firstMessageReceived else c

theorem firstMessage_par {c : Conn} (h : Shut w c) : ParC w (firstMessage c) (firstMessage (mask w c)) := by
  unfold firstMessage
  exact ParC.ite Iff.rfl (fun _ => ⟨rfl, h⟩) (fun _ => parC h)

/-- After the handshake step. -/
def shaken (env : Env) (c : Conn) (r : SslRes) (reads : List ReadRes) : Conn × RC :=
  if !r.ok then
    if r.err ≠ .wantRead ∧ r.err ≠ .wantWrite then
      if r.err = .asnSigConfirm then (c, .cannotVerifyServerCert)
      else if r.err = .domainMismatch then (c, .serverDnMismatch)
      else ({ c with wolfError := r.err }, .sslError)
    else ((if c.connType = .datagram then updateTimeout env c else c), .success)
  else handleMessages env (changeState env c .linkUp) reads

theorem shaken_par (hE : Sealed w env) {c : Conn} (h : Shut w c) (r : SslRes) (reads : List ReadRes) :
    Par w (shaken env c r reads) (shaken env (mask w c) r (reads.map (inRead w))) := by
  unfold shaken
  refine Par.ite Iff.rfl (fun _ => ?_) (fun _ => ?_)
  · refine Par.ite Iff.rfl (fun _ => ?_) (fun _ => ?_)
    · refine Par.ite Iff.rfl (fun _ => par h _) (fun _ => ?_)
      exact Par.ite Iff.rfl (fun _ => par h _) (fun _ => ⟨rfl, h⟩)
    · have a : ParC w (if c.connType = .datagram then updateTimeout env c else c)
          (if (mask w c).connType = .datagram then updateTimeout env (mask w c) else mask w c) :=
        ParC.ite Iff.rfl (fun _ => updateTimeout_par hE h) (fun _ => parC h)
      exact ParC.bind a (fun c h => par h _)
  · exact ParC.bind (changeState_par hE h .linkUp) (fun c h => handleMessages_par hE h reads)

theorem verifyConnection_eq (env : Env) (c : Conn) (reads : List ReadRes) : verifyConnection env c reads =
    if (firstMessage c).state = .connecting then
      shaken env (sslDo env (firstMessage c) .negotiate).1 (sslDo env (firstMessage c) .negotiate).2 reads
    else handleMessages env (firstMessage c) reads := rfl

theorem verifyConnection_par (hE : Sealed w env) {c : Conn} (h : Shut w c) (reads : List ReadRes) :
    Par w (verifyConnection env c reads) (verifyConnection env (mask w c) (reads.map (inRead w))) := by
  rw [verifyConnection_eq, verifyConnection_eq]
  refine ParC.bind (firstMessage_par h) (fun c h => ?_)
  refine Par.ite Iff.rfl (fun _ => ?_) (fun _ => handleMessages_par hE h reads)
  exact Par.bind (sslDo_par hE h rfl) (fun c r h => shaken_par hE h r reads)

theorem updateSessionIncoming_par {c : Conn} (h : Shut w c) (s : Nat) :
    Par w (updateSessionIncoming c s) (updateSessionIncoming (mask w c) s) := by
  unfold updateSessionIncoming
  refine Par.ite Iff.rfl (fun _ => par h _) (fun _ => ?_)
  refine Par.ite Iff.rfl (fun _ => ?_) (fun _ => ⟨rfl, h⟩)
  refine Par.ite Iff.rfl (fun _ => par h _) (fun _ => ?_)
  exact Par.ite Iff.rfl (fun _ => ⟨rfl, h⟩) (fun _ => par h _)

theorem outsidePacket_par (hE : Sealed w env) {c : Conn} (h : Shut w c) (pkt : Bytes) (reads : List ReadRes) :
    Par w (outsidePacket env c pkt reads) (outsidePacket env (mask w c) pkt (reads.map (inRead w))) := by
  unfold outsidePacket
  refine Par.ite Iff.rfl (fun _ => par h _) (fun _ => ?_)
  have ub : Par w (c.ub "wire header", RC.failed) ((mask w c).ub "wire header", .failed) := ⟨rfl, h⟩
  cases rd pkt 0 2 with
  | none => exact ub
  | some he =>
  cases rd pkt 2 2 with
  | none => exact ub
  | some ver =>
  cases rd pkt 8 8 with
  | none => exact ub
  | some s =>
  cases rd pkt 16 (pkt.length - 16) with
  | none => exact ub
  | some body =>
    refine Par.ite Iff.rfl (fun _ => par h _) (fun _ => ?_)
    refine Par.ite Iff.rfl (fun _ => par h _) (fun _ => ?_)
    refine Par.ite Iff.rfl (fun _ => par h _) (fun _ => ?_)
    have h1 : Shut w { c.emit (.input (rdLe s) body) with incoming := some body, packetSeen := false } := h
    have hv : Par w (verifyConnection env { c.emit (.input (rdLe s) body) with incoming := some body, packetSeen := false } reads)
      (verifyConnection env { (mask w c).emit (.input (rdLe s) body) with incoming := some body, packetSeen := false } (reads.map (inRead w))) :=
      verifyConnection_par hE h1 reads
    dsimp only
    dsimp only at hv
    refine Par.bind hv (fun c rc h => ?_)
    exact Par.ite Iff.rfl (fun _ => par h _) (fun _ => updateSessionIncoming_par h _)

theorem outsideStream_par (hE : Sealed w env) {c : Conn} (h : Shut w c) (buf : Bytes) (reads : List ReadRes) :
    Par w (outsideStream env c buf reads) (outsideStream env (mask w c) buf (reads.map (inRead w))) := by
  unfold outsideStream
  refine Par.bind (setupStreamState_par h buf) (fun c rc h => ?_)
  exact Par.ite Iff.rfl (fun _ => par h _) (fun _ => verifyConnection_par hE h reads)

theorem outsideData_par (hE : Sealed w env) {c : Conn} (h : Shut w c) (buf : Bytes) (reads : List ReadRes) :
    Par w (outsideData env c buf reads) (outsideData env (mask w c) buf (reads.map (inRead w))) := by
  unfold outsideData
  refine Par.ite Iff.rfl (fun _ => par h _) (fun _ => ?_)
  have e : (mask w c).outsidePlugins.ingress (mask w c).log buf buf.length = _ := ingress_hide h.outside c.log buf buf.length
  rw [e]
  clear e
  generalize c.outsidePlugins.ingress c.log buf buf.length = r
  obtain ⟨l, q, rc⟩ := r
  have h1 : Shut w { c with log := l } := h
  refine Par.ite Iff.rfl (fun _ => ⟨rfl, h1⟩) (fun _ => ?_)
  refine Par.ite Iff.rfl (fun _ => ⟨rfl, h1⟩) (fun _ => ?_)
  refine Par.ite Iff.rfl (fun _ => ⟨rfl, h1⟩) (fun _ => ?_)
  have k : ∀ t : ConnType, Par w
      (match t with
      | .datagram => outsidePacket env { c with log := l } q reads
      | .stream => outsideStream env { c with log := l } q reads)
      (match t with
      | .datagram => outsidePacket env (mask w { c with log := l }) q (reads.map (inRead w))
      | .stream => outsideStream env (mask w { c with log := l }) q (reads.map (inRead w))) := by
    intro t
    cases t with
    | datagram => exact outsidePacket_par hE h1 q reads
    | stream => exact outsideStream_par hE h1 q reads
  exact k c.connType

end Lightway
