import Verif.Proofs.Nested

/-!
# Invariant of the reentrant model: log-in, data, connecting, whole calls
-/

namespace Lightway
open Spec

variable {env : Env} {act : Prop} {k : Hook}

/-- What the authentication switch leaves. -/
def AuthNext (env : Env) (act : Prop) (c : Conn) : AuthOut → Prop
  | .ret c' _ _ => NextR env act c c'
  | .verdict c' ok _ _ => NextR env act c c' ∧ (ok = true → AuthAccepted c'.log)

theorem authSwitchR_next {c : Conn} (hk : HookOk env act k) (hi : RInv env act c) (pkt : Bytes) (ty : UInt8)
    (_h2 : 2 ≤ pkt.length) (hr : c.isServer = true) (hm : ∃ rest, c.log = .message pkt :: rest)
    (hd : pkt.head? = some 4) (hty : pkt[1]? = some ty) : AuthNext env act c (authSwitchR k env c pkt ty) := by
  obtain ⟨rest, hm⟩ := hm
  have hsr : serverAt rest = true := by have := hi.role; rw [hm, hr] at this; exact this
  have acc : ∀ (e : Effect) (c1 : Conn), AuthArgs pkt e → (∃ x, Calls x ∧ c1.log = x ++ (c.emit e).log) → AuthOk e →
      AuthAccepted c1.log := by
    intro e c1 ha hx ho
    obtain ⟨x, hx, hl⟩ := hx
    exact ⟨x, e, pkt, rest, by rw [hl]; simp only [Conn.emit]; rw [hm], hx, ho, ha, hsr⟩
  have one : ∀ e : Effect, StillEff e → CbOk c.cbs e → AuthArgs pkt e → AuthEff e → NextR env act c (k (c.emit e)) ∧
      ∃ x, Calls x ∧ (k (c.emit e)).log = x ++ (c.emit e).log := by
    intro e hs hc ha he
    have h1 : NextR env act c (c.emit e) := by
      refine hi.emit hs ⟨by rw [hi.reg]; exact hc, ?_⟩
      cases e <;> first | exact he.elim | exact ⟨by rw [hi.role]; exact hr, pkt, rest, hm, ha⟩
    have h2 := hk.next _ h1.inv
    exact ⟨h1.trans h2, hk.calls _ h1.inv⟩
  unfold authSwitchR
  split
  · rename_i ht
    split
    · rename_i hcb
      split
      · exact hi.next
      · rw [rd_isSome (by omega), rd_isSome (by omega), wr_isSome (by simp; omega)]
        simp only
        have hargs : AuthArgs pkt (.authUserPass ((pkt.drop 4).take 50) ((pkt.drop 54).take 50)
            (env.authUserPass c.log ((pkt.drop 4).take 50) ((pkt.drop 54).take 50))) :=
          ⟨hd, by rw [hty, ht]; rfl, by omega, rfl, rfl⟩
        have h1 := one (.authUserPass ((pkt.drop 4).take 50) ((pkt.drop 54).take 50)
            (env.authUserPass c.log ((pkt.drop 4).take 50) ((pkt.drop 54).take 50))) trivial hcb hargs trivial
        refine ⟨h1.1.trans (h1.1.inv.upd _), fun hok => acc _ _ hargs h1.2 hok⟩
    · exact ⟨hi.next, by simp⟩
  · split
    · rename_i ht
      split
      · rename_i hcb
        split
        · exact hi.next
        · rw [rd_isSome (by omega)]
          simp only
          split
          · exact hi.next
          · rw [rd_isSome (by omega)]
            simp only
            have hargs : ∀ ok, AuthArgs pkt (.authToken ((pkt.drop 4).take
                (rdBe16 (List.take 2 (List.drop 2 pkt)))) ok) := fun ok =>
              ⟨hd, by rw [hty, ht]; rfl, by rw [num_rdBe16 (field_length (by omega))]; show 4 + rdBe16 (List.take 2 (List.drop 2 pkt)) ≤ _; omega,
                by rw [num_rdBe16 (field_length (by omega))]; rfl⟩
            have h1 := one (.authToken ((pkt.drop 4).take (rdBe16 (List.take 2 (List.drop 2 pkt)))) (env.authToken c.log ((pkt.drop 4).take (rdBe16 (List.take 2 (List.drop 2 pkt)))))) trivial hcb (hargs _) trivial
            exact ⟨h1.1, fun hok => acc _ _ (hargs _) h1.2 hok⟩
      · exact ⟨hi.next, by simp⟩
    · split
      · rename_i ht
        split
        · rename_i hcb
          split
          · exact hi.next
          · rw [rd_isSome (by omega)]
            simp only
            split
            · exact hi.next
            · rw [rd_isSome (by omega)]
              simp only
              have hargs : ∀ ok, AuthArgs pkt (.authBuf ty ((pkt.drop 4).take
                  (rdBe16 (List.take 2 (List.drop 2 pkt)))) ok) := fun ok =>
                ⟨hd, by rw [hty, ht]; rfl, ht, by rw [num_rdBe16 (field_length (by omega))]; show 4 + rdBe16 (List.take 2 (List.drop 2 pkt)) ≤ _; omega,
                  by rw [num_rdBe16 (field_length (by omega))]; rfl⟩
              have h1 := one (.authBuf ty ((pkt.drop 4).take (rdBe16 (List.take 2 (List.drop 2 pkt)))) (env.authBuf c.log ty ((pkt.drop 4).take (rdBe16 (List.take 2 (List.drop 2 pkt)))))) trivial hcb (hargs _) trivial
              exact ⟨h1.1, fun hok => acc _ _ (hargs _) h1.2 hok⟩
        · exact ⟨hi.next, by simp⟩
      · exact ⟨hi.next, by simp⟩

theorem afterAuthR_next {c : Conn} (hk : HookOk env act k) (hi : RInv env act c) (ok : Bool) (rc : RC) (pkt : Bytes)
    (hw : EnvOk env → c.wolfSet = true) (har : AuthArrived c.log) (hok : ok = true → AuthAccepted c.log) :
    NextR env act c (afterAuthR k env c ok rc pkt).1 := by
  unfold afterAuthR
  cases ok with
  | false =>
    simp only [Bool.not_false, if_true]
    have h1 := hi.send authDeniedMsg
    obtain ⟨x, ix, hx⟩ := h1.ext
    refine h1.trans (setStateR_next hk h1.inv _ (fun hne => ⟨by rw [h1.inv.st]; exact hne, .inr ?_⟩)
      (fun he => .inl (h1.mono he (hw he))))
    obtain ⟨y, p, old, h, iy, h'⟩ := har
    exact ⟨x ++ y, p, old, by rw [hx, h]; simp, ix.append iy, h'⟩
  | true =>
    simp only [Bool.not_true, Bool.false_eq_true, if_false]
    have hacc := hok rfl
    split
    · rename_i hpop
      exact hi.ub _ (fun _ => .inr ⟨rfl, hacc, by rw [hi.reg]; simpa using hpop⟩)
    · rename_i hpop
      have h1 := hi.emit (e := .populate (env.populate c.log).1) trivial ⟨by
        show (registered c.log).populate = true
        rw [hi.reg]; simpa using hpop, hacc⟩
      have h2 := hk.next _ h1.inv
      obtain ⟨x, cx, hx⟩ := hk.calls _ h1.inv
      have h3 := h1.trans h2
      split
      · exact h3.trans (h3.inv.send _)
      · rename_i hrc
        have hrc : (env.populate c.log).1 = .success := by simpa using hrc
        have h4 := h3.inv.send (configIpv4Msg c.sessionId (env.populate c.log).2)
        obtain ⟨y, hy, iy⟩ := (sendMessage_frame env (k (c.emit (.populate (env.populate c.log).1)))
          (configIpv4Msg c.sessionId (env.populate c.log).2)).log
        refine (h3.trans h4).trans (setStateR_next hk h4.inv _ (fun hne => ⟨by rw [h4.inv.st]; exact hne, .inr ?_⟩)
          (fun he => .inl ((h3.trans h4).mono he (hw he))))
        refine ⟨y, x, c.log, ?_, fun e he => (iy e he).isIo, cx, hacc⟩
        rw [hy, hx]
        simp only [Conn.emit]; rw [hrc]

theorem handleAuthR_next {c : Conn} (hk : HookOk env act k) (hi : RInv env act c) (pkt : Bytes) (hr : c.isServer = true)
    (hm : ∃ rest, c.log = .message pkt :: rest) (hd : pkt.head? = some 4) (hw : EnvOk env → c.wolfSet = true) :
    NextR env act c (handleAuthR k env c pkt).1 := by
  unfold handleAuthR handleAuthBufR
  split
  · exact hi.next
  · split
    · exact hi.next
    · split
      · exact hi.next
      · split
        · exact hi.next
        · rename_i hl
          rw [rd_one (by omega)]
          simp only
          have hspec := authSwitchR_next hk hi pkt (pkt[1]'(by omega)) (by omega) hr hm hd
            (List.getElem?_eq_getElem (by omega))
          generalize authSwitchR k env c pkt (pkt[1]'(by omega)) = q at hspec ⊢
          cases q with
          | ret c1 rc p => exact hspec
          | verdict c1 ok rc p =>
            obtain ⟨h1, hok⟩ := hspec
            obtain ⟨rest, hm⟩ := hm
            obtain ⟨x, ix, hx⟩ := h1.ext
            have hsr : serverAt rest = true := by have := hi.role; rw [hm, hr] at this; exact this
            exact h1.trans (afterAuthR_next hk h1.inv ok rc p (fun he => h1.mono he (hw he))
              ⟨x, pkt, rest, by rw [hx, hm], ix, hd, hsr⟩ hok)

/-! ### Data -/

theorem RInv.egress {c : Conn} (hi : RInv env act c) (ch : Chain) (p : Bytes) (cap : Nat) :
    NextR env act c { c with log := (ch.egress c.log p cap).1 } := by
  obtain ⟨l, h, hl⟩ := Chain.egress_log ch c.log p cap
  rw [h]
  refine hi.plains l (fun e he => ?_)
  obtain ⟨_, _, rfl⟩ := hl e he
  trivial

theorem RInv.ingress {c : Conn} (hi : RInv env act c) (ch : Chain) (p : Bytes) (cap : Nat) :
    NextR env act c { c with log := (ch.ingress c.log p cap).1 } := by
  obtain ⟨l, h, hl⟩ := Chain.ingress_log ch c.log p cap
  rw [h]
  refine hi.plains l (fun e he => ?_)
  obtain ⟨_, _, rfl⟩ := hl e he
  trivial

/-- A tunnel-data message is being handled. -/
def DataMsg (l : Log) : Prop :=
  ∃ x pkt old, l = x ++ .message pkt :: old ∧ (∀ e ∈ x, Handling e) ∧
    (pkt.head? = some 5 ∨ pkt.head? = some 13 ∨ pkt.head? = some 15)

theorem DataMsg.ext {l : Log} (h : DataMsg l) (x : Log) (hx : ∀ e ∈ x, Handling e) : DataMsg (x ++ l) := by
  obtain ⟨y, pkt, old, rfl, hy, h⟩ := h
  refine ⟨x ++ y, pkt, old, by simp, fun e he => ?_, h⟩
  rcases List.mem_append.mp he with h | h
  · exact hx e h
  · exact hy e h

theorem DataMsg.emit {c : Conn} (h : DataMsg c.log) {e : Effect} (he : Handling e) : DataMsg (c.emit e).log :=
  h.ext [e] (by simpa using he)

theorem DataMsg.mk {l : Log} {pkt : Bytes} (hm : ∃ rest, l = .message pkt :: rest)
    (h : pkt.head? = some 5 ∨ pkt.head? = some 13 ∨ pkt.head? = some 15) : DataMsg l := by
  obtain ⟨rest, hm⟩ := hm
  exact ⟨[], pkt, rest, hm, by simp, h⟩

theorem internalHandleDataR_next {c : Conn} (hk : HookOk env act k) (hi : RInv env act c) (p : Bytes)
    (hs : c.state = .online) (hd : DataMsg c.log) : NextR env act c (internalHandleDataR k c p).1 := by
  unfold internalHandleDataR
  have h1 := hi.egress c.insidePlugins p p.length
  have hd1 : DataMsg (c.insidePlugins.egress c.log p p.length).1 := by
    obtain ⟨l, h, hl⟩ := Chain.egress_log c.insidePlugins c.log p p.length
    rw [h]
    refine hd.ext l (fun e he => ?_)
    obtain ⟨_, _, rfl⟩ := hl e he
    trivial
  generalize c.insidePlugins.egress c.log p p.length = r at h1 hd1
  simp only
  split
  · exact h1
  split
  · exact h1
  split
  · exact h1
  split
  · exact h1
  split
  · rename_i hcb
    have h2 := h1.trans (h1.inv.emit (e := .insideWrite r.2.1) trivial
      ⟨by show (registered r.1).insideWrite = true
          have := h1.inv.reg
          exact (congrArg Callbacks.insideWrite this).trans hcb,
        by show stateAt r.1 = .online; exact h1.inv.st.trans hs, hd1⟩)
    exact h2.trans (hk.next _ h2.inv)
  · exact h1

theorem handleDataR_next {c : Conn} (hk : HookOk env act k) (hi : RInv env act c) (pkt : Bytes) (hd : DataMsg c.log) :
    NextR env act c (handleDataR k c pkt).1 := by
  unfold handleDataR
  split
  · exact hi.next
  · rename_i hs
    split
    · exact hi.next
    · rw [rd_isSome (by omega)]
      simp only
      generalize (if c.verMajor = 1 ∧ c.verMinor = 0 then rdLe16 (List.take 2 (List.drop 1 pkt))
        else rdBe16 (List.take 2 (List.drop 1 pkt))) = len
      by_cases hl : len > pkt.length - 3
      · rw [if_pos hl]; exact hi.next
      · rw [if_neg hl, rd_isSome (by omega)]
        exact internalHandleDataR_next hk hi _ (by simpa using hs) hd

theorem handleDeprecated13R_next {c : Conn} (hk : HookOk env act k) (hi : RInv env act c) (pkt : Bytes)
    (hd : DataMsg c.log) : NextR env act c (handleDeprecated13R k c pkt).1 := by
  unfold handleDeprecated13R
  split
  · exact hi.next
  · rename_i hs
    split
    · exact hi.next
    · rw [rd_isSome (by omega)]
      simp only
      split
      · exact hi.next
      · rw [rd_isSome (by omega)]
        exact internalHandleDataR_next hk hi _ (by simpa using hs) hd

theorem fragApplyR_next {c : Conn} (hk : HookOk env act k) (hi : RInv env act c) (t : FragTable) (en : FragEntry)
    (i off : Nat) (last : Bool) (d : Bytes) (hs : c.state = .online) (ht : TableWf t) (hen : EntryWf en) (hd : DataMsg c.log) :
    NextR env act c (fragApplyR k env c t en i off last d).1 := by
  unfold fragApplyR
  simp only
  have h1 : NextR env act c (c.emit (.clock (env.now c.log))) := hi.plain trivial
  have hs1 : (c.emit (.clock (env.now c.log))).state = .online := hs
  have hd1 : DataMsg (c.emit (.clock (env.now c.log))).log := hd.emit trivial
  generalize env.now c.log = now at h1 hs1 hd1 ⊢
  generalize c.emit (.clock now) = c1 at h1 hs1 hd1 ⊢
  have wf2 : EntryWf (if now - en.timestamp > 64 then { en.reset with timestamp := now } else en) := expire_wf now hen
  generalize (if now - en.timestamp > 64 then { en.reset with timestamp := now } else en) = en2 at wf2 ⊢
  have upd := update_wf (al := env.alloc c1.log) (d := d) (off := off) (last := last) wf2
  generalize hu : en2.update (env.alloc c1.log) d off last = u at upd ⊢
  cases u with
  | none =>
    refine h1.trans (h1.inv.ub _ (fun he => ?_))
    have := upd.2.1 (he.1 _)
    cases this
  | some q =>
    obtain ⟨en3, rc, asm⟩ := q
    have wf3 := upd.1 _ _ _ rfl
    simp only
    have h3 : NextR env act c { c1 with fragTable := some (t.set i en3) } :=
      h1.trans (h1.inv.upd _ (hf := .inr (fun t' ht' => by cases ht'; exact set_wf ht i wf3)))
    split
    · exact h3
    · split
      · rename_i hasm
        subst hasm
        have hne := upd.2.2 _ _ rfl
        cases hn : en3.nodes with
        | nil => exact absurd hn hne
        | cons nd tl =>
          simp only
          have hle : nd.e ≤ 1500 := (wf3.2 nd (by simp [hn])).2
          rw [rd_isSome (by have := wf3.1; omega)]
          simp only
          have h4 := h3.trans (internalHandleDataR_next hk h3.inv ((en3.data.drop 0).take nd.e) hs1 hd1)
          generalize internalHandleDataR k { c1 with fragTable := some (t.set i en3) } ((en3.data.drop 0).take nd.e) = r at h4 ⊢
          refine h4.trans (h4.inv.upd _ (hf := .inr ?_))
          intro t' ht'
          simp only [Option.map_eq_some_iff] at ht'
          obtain ⟨t0, h0, rfl⟩ := ht'
          exact delete_wf (h4.inv.frag _ h0) i
      · exact h3

theorem fragReceiveR_next {c : Conn} (hk : HookOk env act k) (hi : RInv env act c) (i off : Nat) (last : Bool) (d : Bytes)
    (hs : c.state = .online) (hd : DataMsg c.log) : NextR env act c (fragReceiveR k env c i off last d).1 := by
  unfold fragReceiveR
  split
  · exact hi.next
  · rename_i t ht
    have htw := hi.frag t ht
    simp only
    cases hsl : t.slot (i % t.num) with
    | some en =>
      simp only [Option.isNone_some, Bool.false_and, FragTable.find, hsl, Bool.false_eq_true, if_false]
      rw [fragTable_self ht]
      exact fragApplyR_next hk hi t en i off last d hs htw (htw _ _ hsl) hd
    | none =>
      simp only [Option.isNone_none, if_true, Bool.true_and, FragTable.find, hsl]
      cases hal : env.alloc c.log with
      | false =>
        simp only [Bool.false_eq_true, if_false]
        have h1 : NextR env act c (c.emit (.alloc false)) := hi.plain trivial
        rw [fragTable_self (c := c.emit (.alloc false)) ht]; exact h1
      | true =>
        simp only [if_true]
        have h1 : NextR env act c (c.emit (.alloc true)) := hi.plain trivial
        have hs1 : (c.emit (.alloc true)).state = .online := hs
        have hd1 : DataMsg (c.emit (.alloc true)).log := hd.emit trivial
        generalize c.emit (.alloc true) = c1 at h1 hs1 hd1 ⊢
        have h2 := h1.trans (h1.inv.plain (e := .clock (env.now c1.log)) trivial)
        have wf := set_wf htw i (fresh_wf (env.now c1.log))
        have h3 : NextR env act c { c1.emit (.clock (env.now c1.log)) with
            fragTable := some (t.set i (FragEntry.fresh (env.now c1.log))) } :=
          h2.trans (h2.inv.upd _ (hf := .inr (fun t' ht' => by cases ht'; exact wf)))
        exact h3.trans (fragApplyR_next hk h3.inv _ _ i off last d hs1 wf (fresh_wf _) (hd1.emit trivial))

theorem handleDataFragR_next {c : Conn} (hk : HookOk env act k) (hi : RInv env act c) (pkt : Bytes) (hd : DataMsg c.log) :
    NextR env act c (handleDataFragR k env c pkt).1 := by
  unfold handleDataFragR
  split
  · exact hi.next
  · rename_i hs
    split
    · exact hi.next
    · rw [rd_isSome (by omega), rd_isSome (by omega), rd_isSome (by omega)]
      simp only
      split
      · exact hi.next
      · split
        · exact hi.next
        · rw [rd_isSome (by omega)]
          exact fragReceiveR_next hk hi _ _ _ _ (by simpa using hs) hd

theorem processMessageR_next {c : Conn} (hk : HookOk env act k) (hi : RInv env act c) (pkt : Bytes)
    (hm : ∃ rest, c.log = .message pkt :: rest) (hw : EnvOk env → c.wolfSet = true) :
    NextR env act c (processMessageR k env c pkt).1 := by
  unfold processMessageR
  split
  · exact hi.upd _
  · rename_i id tl
    have hd : (id :: tl).head? = some id := rfl
    generalize id :: tl = p at hm hd ⊢
    by_cases h : id = msgNoop
    · rw [if_pos h]
      exact hi.next
    rw [if_neg h]; clear h
    by_cases h : id = msgPing
    · rw [if_pos h]
      exact handlePing_next hi _
    rw [if_neg h]; clear h
    by_cases h : id = msgPong
    · rw [if_pos h]
      exact handlePongR_next hk hi _
    rw [if_neg h]; clear h
    by_cases h : id = msgAuth
    · rw [if_pos h]
      split
      · rename_i hr; exact handleAuthR_next hk hi _ hr hm (by rw [hd, h]; rfl) hw
      · exact hi.next
    rw [if_neg h]; clear h
    by_cases h : id = msgData
    · rw [if_pos h]
      exact handleDataR_next hk hi _ (.mk hm (.inl (by rw [hd, h]; rfl)))
    rw [if_neg h]; clear h
    by_cases h : id = msgConfigIpv4
    · rw [if_pos h]
      split
      · exact handleConfigIpv4R_next hk hi _ hm (by rw [hd, h]; rfl)
      · exact hi.next
    rw [if_neg h]; clear h
    by_cases h : id = msgAuthResponse
    · rw [if_pos h]
      split <;> exact hi.next
    rw [if_neg h]; clear h
    by_cases h : id = msgAuthResponseWithConfig
    · rw [if_pos h]
      exact hi.next
    rw [if_neg h]; clear h
    by_cases h : id = msgGoodbye
    · rw [if_pos h]
      exact hi.next
    rw [if_neg h]; clear h
    by_cases h : id = msgExtension
    · rw [if_pos h]
      exact hi.next
    rw [if_neg h]; clear h
    by_cases h : id = msgDeprecated13
    · rw [if_pos h]
      exact handleDeprecated13R_next hk hi _ (.mk hm (.inr (.inl (by rw [hd, h]; rfl))))
    rw [if_neg h]; clear h
    by_cases h : id = msgServerConfig
    · rw [if_pos h]
      split
      · exact handleServerConfigR_next hk hi _ hm (by rw [hd, h]; rfl)
      · exact hi.next
    rw [if_neg h]; clear h
    by_cases h : id = msgDataWithFrag
    · rw [if_pos h]
      exact handleDataFragR_next hk hi _ (.mk hm (.inr (.inr (by rw [hd, h]; rfl))))
    rw [if_neg h]; clear h
    exact hi.next

theorem messageLoopR_next (hk : HookOk env act k) (rs : List ReadRes) : ∀ {c : Conn}, RInv env act c →
    NextR env act c (messageLoopR k env c rs).1 := by
  induction rs with
  | nil =>
    intro c hi
    unfold messageLoopR
    have h1 : NextR env act c (c.emit (.sslCall .read false)) := hi.plain trivial
    split
    · exact h1
    · exact h1.trans (h1.inv.upd _)
  | cons r rest ih =>
    intro c hi
    unfold messageLoopR
    split
    · have h1 : NextR env act c (c.emit (.sslCall .read false)) := hi.plain trivial
      exact h1.trans (h1.inv.upd _)
    · rename_i hws
      have hws : c.wolfSet = true := by simpa using hws
      simp only
      have h1 : NextR env act c (c.emit (.sslCall .read (!(r.plain.take maxWireMtu).isEmpty))) := hi.plain trivial
      have h2 := h1.trans (h1.inv.io (ioRun_frame env _ r.io))
      have hw2 : EnvOk env → (ioRun env (c.emit (.sslCall .read (!(r.plain.take maxWireMtu).isEmpty))) r.io).wolfSet = true :=
        fun he => h2.mono he hws
      generalize ioRun env (c.emit (.sslCall .read (!(r.plain.take maxWireMtu).isEmpty))) r.io = c2 at h2 hw2 ⊢
      split
      · split
        · exact h2
        · exact h2
        · exact h2
        · exact h2.trans (ih h2.inv)
        · split
          · exact h2
          · exact h2.trans (h2.inv.upd _)
      · have h3 := h2.trans (h2.inv.plain (e := .message (r.plain.take maxWireMtu)) trivial)
        have h4 := h3.trans (processMessageR_next hk h3.inv (r.plain.take maxWireMtu) ⟨_, rfl⟩ hw2)
        generalize processMessageR k env (c2.emit (.message (r.plain.take maxWireMtu))) (r.plain.take maxWireMtu) = q at h4 ⊢
        obtain ⟨c4, rc⟩ := q
        simp only at h4 ⊢
        split
        · exact h4
        · exact h4.trans (ih h4.inv)

theorem renegFinR_next {c : Conn} (hk : HookOk env act k) (hi : RInv env act c) (p : Bool)
    (hw : EnvOk env → c.wolfSet = true) : NextR env act c (renegFinR k env c p).1 := by
  unfold renegFinR
  have h1 : NextR env act c (if !p then generateEventR k c .renegCompleted else c) := by
    split
    · exact generateEventR_next hk hi _
    · exact hi.next
  simp only
  generalize (if !p then generateEventR k c .renegCompleted else c) = c1 at h1 ⊢
  have h2 : NextR env act c { c1 with renegInProgress := p } :=
    h1.trans (h1.inv.upd _ (hn := .inr (fun he => h1.mono he (hw he))))
  exact h2.trans (updateTimeoutR_next hk h2.inv (fun he => h2.mono he (hw he)))

theorem renegTailR_next {c : Conn} (hk : HookOk env act k) (hi : RInv env act c) :
    NextR env act c (renegTailR k env c).1 := by
  unfold renegTailR
  split
  · exact hi.next
  · rename_i hr
    have hw : EnvOk env → c.wolfSet = true := by
      intro he
      cases hws : c.wolfSet with
      | true => rfl
      | false => rw [(hi.wolf he hws).2] at hr; exact absurd rfl hr
    have h1 := sslVer_next hi hw
    generalize sslVer env c = q at h1 ⊢
    obtain ⟨c1, v⟩ := q
    simp only at h1 ⊢
    split
    · have h2 := h1.trans (h1.inv.sslDo .renegPending)
      exact h2.trans (renegFinR_next hk h2.inv _ (fun he => h2.mono he (hw he)))
    · have h2 := h1.trans (h1.inv.sslDo .keyUpdateResponse)
      split
      · exact h2.trans (h2.inv.upd _)
      · exact h2.trans (renegFinR_next hk h2.inv _ (fun he => h2.mono he (hw he)))

theorem handleMessagesR_next {c : Conn} (hk : HookOk env act k) (hi : RInv env act c) (rs : List ReadRes) :
    NextR env act c (handleMessagesR k env c rs).1 := by
  unfold handleMessagesR
  have h1 := messageLoopR_next hk rs hi
  generalize messageLoopR k env c rs = q at h1 ⊢
  obtain ⟨c1, o⟩ := q
  cases o with
  | some rc => exact h1
  | none =>
    simp only at h1 ⊢
    split
    · have h2 := h1.trans (renegotiateSslR_next hk h1.inv)
      split
      · exact h2
      · exact h2.trans (renegTailR_next hk h2.inv)
    · exact h1.trans (renegTailR_next hk h1.inv)

theorem changeStateR_linkUp {c : Conn} (hk : HookOk env act k) (hi : RInv env act c)
    (hw : EnvOk env → c.wolfSet = true) (hn : Negotiated c.log) (hs : act ∨ c.state = .connecting) :
    NextR env act c (changeStateR k env c .linkUp) := by
  unfold changeStateR
  split
  · exact hi.next
  · have h1 := setStateR_next hk hi .linkUp (fun hne => ⟨by rw [hi.st]; exact hne, hn, by rw [hi.st]; exact hs⟩)
      (fun he => .inl (hw he))
    simp only
    split
    · rename_i hc
      exact h1.trans (sendAuthR_next hk h1.inv (fun _ => by simpa using hc.2))
    · exact h1

theorem negotiateR_next {c : Conn} (hk : HookOk env act k) (hi : RInv env act c) (rs : List ReadRes) :
    NextR env act c (negotiateR k env c rs).1 := by
  unfold negotiateR
  split
  · rename_i hst
    have hw := hi.wolf_state (by rw [hst]; exact ⟨by decide, by decide⟩)
    have h1 := hi.sslDo (env := env) .negotiate
    have hneg := sslDo_negotiated env c
    have hs1 := (sslDo_frame env c .negotiate).fields.1
    generalize sslDo env c .negotiate = q at h1 hneg hs1 ⊢
    obtain ⟨c1, r⟩ := q
    simp only at h1 hneg hs1 ⊢
    split
    · split
      · repeat' split
        all_goals first | exact h1 | exact h1.trans (h1.inv.upd _)
      · split
        · exact h1.trans (updateTimeoutR_next hk h1.inv (fun he => h1.mono he (hw he)))
        · exact h1
    · rename_i hok
      have h2 := h1.trans (changeStateR_linkUp hk h1.inv (fun he => h1.mono he (hw he)) (hneg (by simpa using hok))
        (.inr (hs1.trans hst)))
      exact h2.trans (handleMessagesR_next hk h2.inv rs)
  · exact handleMessagesR_next hk hi rs

theorem verifyConnectionR_next {c : Conn} (hk : HookOk env act k) (hi : RInv env act c) (rs : List ReadRes) :
    NextR env act c (verifyConnectionR k env c rs).1 := by
  unfold verifyConnectionR
  have h1 : NextR env act c (if !c.firstMessageReceived then
      generateEventR k { c with firstMessageReceived := true } .firstMessageReceived else c) := by
    split
    · have h0 : NextR env act c { c with firstMessageReceived := true } := hi.upd _
      exact h0.trans (generateEventR_next hk h0.inv _)
    · exact hi.next
  exact h1.trans (negotiateR_next hk h1.inv rs)

theorem updateSessionIncomingR_next {c : Conn} (hk : HookOk env act k) (hi : RInv env act c) (s : Nat) :
    NextR env act c (updateSessionIncomingR k c s).1 := by
  unfold updateSessionIncomingR
  split
  · exact hi.next
  · split
    · split
      · exact hi.next
      · split
        · have h0 : NextR env act c { c with sessionId := s, pendingSessionId := sessionEmpty } := hi.upd _
          exact h0.trans (generateEventR_next hk h0.inv _)
        · exact hi.next
    · exact hi.upd _

theorem outsidePacketR_next {c : Conn} (hk : HookOk env act k) (hi : RInv env act c) (p : Bytes) (rs : List ReadRes) :
    NextR env act c (outsidePacketR k env c p rs).1 := by
  unfold outsidePacketR
  split
  · exact hi.next
  · rw [rd_isSome (by omega), rd_isSome (by omega), rd_isSome (by omega), rd_isSome (by omega)]
    simp only
    generalize rdLe (List.take 8 (List.drop 8 p)) = s
    generalize List.take (p.length - 16) (List.drop 16 p) = body
    split
    · exact hi.next
    split
    · exact hi.next
    split
    · exact hi.next
    have h1 := hi.plain (env := env) (act := act) (e := .input s body) trivial
    have h2 : NextR env act c { c.emit (.input s body) with incoming := some body, packetSeen := false } :=
      h1.trans (h1.inv.upd _)
    have h3 := h2.trans (verifyConnectionR_next hk h2.inv rs)
    generalize verifyConnectionR k env { c.emit (.input s body) with incoming := some body, packetSeen := false } rs = q
      at h3 ⊢
    obtain ⟨c1, rc⟩ := q
    simp only at h3 ⊢
    split
    · exact h3
    · exact h3.trans (updateSessionIncomingR_next hk h3.inv s)

theorem outsideStreamR_next {c : Conn} (hk : HookOk env act k) (hi : RInv env act c) (p : Bytes) (rs : List ReadRes) :
    NextR env act c (outsideStreamR k env c p rs).1 := by
  unfold outsideStreamR setupStreamState
  by_cases hl : c.streamLeft.length ≠ 0
  · rw [if_pos hl]; exact hi.upd _
  · rw [if_neg hl]
    have h1 := hi.plain (env := env) (act := act) (e := .input 0 p) trivial
    have h2 : NextR env act c { c.emit (.input 0 p) with incoming := some p, streamLeft := p } :=
      h1.trans (h1.inv.upd _)
    exact h2.trans (verifyConnectionR_next hk h2.inv rs)

theorem outsideDataR_next {c : Conn} (hk : HookOk env act k) (hi : RInv env act c) (b : Bytes) (rs : List ReadRes) :
    NextR env act c (outsideDataR k env c b rs).1 := by
  unfold outsideDataR
  split
  · exact hi.next
  · have h1 := hi.ingress c.outsidePlugins b b.length
    generalize c.outsidePlugins.ingress c.log b b.length = r at h1
    simp only
    split
    · exact h1
    split
    · exact h1
    split
    · exact h1
    generalize ({ c with log := r.1 } : Conn) = c1 at h1 ⊢
    generalize c.connType = ct
    cases ct
    · exact h1.trans (outsidePacketR_next hk h1.inv _ rs)
    · exact h1.trans (outsideStreamR_next hk h1.inv _ rs)

end Lightway
