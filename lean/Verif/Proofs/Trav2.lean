import Verif.Proofs.Trav1
import Verif.Proofs.Str

/-!
# The API functions are sequences of micro steps (part 2: message handlers)
-/

namespace Lightway
open Spec

/-! ### Small facts about the network configuration -/

theorem copyIpField_term (s : Bytes) : TermField (copyIpField s) := by
  have hl : (strncpy (zeros 24) s 24).length = 24 := by
    rw [strncpy_length _ _ _ (by simp)]; simp
  refine ⟨by simp [copyIpField, hl], ?_⟩
  simp [copyIpField, setNul, hl]

theorem configMtu_range (s : Bytes) : 1 ≤ configMtu s ∧ configMtu s ≤ 1350 := by
  unfold configMtu
  split
  · simp [maxMtu]
  · split
    · simp [maxMtu]
    · rename_i h
      simp only [not_or, Int.not_le, maxMtu, gt_iff_lt, Int.not_lt] at h
      omega

/-! ### Data -/

theorem lastMessage_egress (ch : Chain) (log : Log) (pkt : Bytes) (cap : Nat) :
    lastMessage (ch.egress log pkt cap).1 = lastMessage log := by
  obtain ⟨l, e, hl⟩ := Chain.egress_log ch log pkt cap
  rw [e]; clear e
  induction l with
  | nil => rfl
  | cons x xs ih =>
    obtain ⟨p, r, rfl⟩ := hl x (by simp)
    exact ih (fun y hy => hl y (by simp [hy]))

theorem deliveredSince_egress (ch : Chain) (log : Log) (pkt : Bytes) (cap : Nat) :
    deliveredSince (ch.egress log pkt cap).1 = deliveredSince log := by
  obtain ⟨l, e, hl⟩ := Chain.egress_log ch log pkt cap
  rw [e]; clear e
  induction l with
  | nil => rfl
  | cons x xs ih =>
    obtain ⟨p, r, rfl⟩ := hl x (by simp)
    exact ih (fun y hy => hl y (by simp [hy]))

theorem lastClock_egress (ch : Chain) (log : Log) (pkt : Bytes) (cap : Nat) :
    lastClock (ch.egress log pkt cap).1 = lastClock log := by
  obtain ⟨l, e, hl⟩ := Chain.egress_log ch log pkt cap
  rw [e]; clear e
  induction l with
  | nil => rfl
  | cons x xs ih =>
    obtain ⟨p, r, rfl⟩ := hl x (by simp)
    exact ih (fun y hy => hl y (by simp [hy]))

/-- A chain without plugins does nothing. -/
theorem egress_noPlugins {ch : Chain} (h : ch.plugins = 0) (log : Log) (pkt : Bytes) (cap : Nat) :
    ch.egress log pkt cap = (log, pkt, .success) := by
  induction ch with
  | nil => rfl
  | cons n ns ih =>
    unfold Chain.plugins at h
    rw [List.countP_eq_zero] at h
    have hn : n = none := by have := h n (by simp); cases n <;> simp_all
    subst hn
    have ih := ih (by unfold Chain.plugins; rw [List.countP_eq_zero]; exact fun x hx => h x (by simp [hx]))
    unfold Chain.egress
    simp [ih]

theorem ingress_noPlugins {ch : Chain} (h : ch.plugins = 0) (log : Log) (pkt : Bytes) (cap : Nat) :
    ch.ingress log pkt cap = (log, pkt, .success) := by
  induction ch with
  | nil => rfl
  | cons n ns ih =>
    unfold Chain.plugins at h
    rw [List.countP_eq_zero] at h
    have hn : n = none := by have := h n (by simp); cases n <;> simp_all
    subst hn
    have ih := ih (by unfold Chain.plugins; rw [List.countP_eq_zero]; exact fun x hx => h x (by simp [hx]))
    unfold Chain.ingress
    simp [ih]

/-- Plugins run, then possibly the packet is delivered. -/
theorem internalHandleData_cases (c : Conn) (pkt : Bytes) : ∃ q rc,
    (c.insidePlugins.plugins = 0 → q = pkt) ∧
    ((internalHandleData c pkt).1 = { c with log := (c.insidePlugins.egress c.log pkt pkt.length).1 } ∨
     ((internalHandleData c pkt) =
        ({ c with log := (c.insidePlugins.egress c.log pkt pkt.length).1 }.emit (.insideWrite q), rc) ∧
      c.cbs.insideWrite = true ∧ ipv4Valid q = true ∧
      (c.insidePlugins.egress c.log pkt pkt.length).2.2 = .success ∧
      (c.insidePlugins.egress c.log pkt pkt.length).2.1 = q ∧ q.length ≤ pkt.length)) := by
  refine ⟨(c.insidePlugins.egress c.log pkt pkt.length).2.1, .success, ?_, ?_⟩
  · intro h; rw [egress_noPlugins h]
  · unfold internalHandleData
    simp only
    split
    · exact .inl rfl
    · split
      · exact .inl rfl
      · rename_i hp
        split
        · exact .inl rfl
        · split
          · exact .inl rfl
          · split
            · rename_i hlen hv hc
              exact .inr ⟨rfl, hc, by simpa using hv, by simpa using hp, trivial, by omega⟩
            · exact .inl rfl

theorem egress_notVetoed (ch : Chain) (log : Log) (pkt : Bytes) (cap : Nat)
    (h : (ch.egress log pkt cap).2.2 = .success) (hn : ¬Vetoed log) : ¬Vetoed (ch.egress log pkt cap).1 := by
  obtain ⟨l, e, hl⟩ := ch.egress_passed log pkt cap h
  rw [e]
  cases l with
  | nil => exact hn
  | cons x xs => obtain ⟨p, rfl⟩ := hl x (by simp); simp [Vetoed]

theorem egress_star (env : Env) (a : Api) (c : Conn) (pkt : Bytes) (cap : Nat) (hnv : ¬Vetoed c.log) :
    M env a c { c with log := (c.insidePlugins.egress c.log pkt cap).1 } := by
  have key : ∀ l : Log, (∀ x ∈ l, ∃ p, x = Effect.pluginEgress p .success) →
      M env a c { c with log := l ++ c.log } ∧ ¬Vetoed (l ++ c.log) := by
    intro l hl
    induction l with
    | nil => exact ⟨.refl c, hnv⟩
    | cons x xs ih =>
      obtain ⟨p, rfl⟩ := hl x (by simp)
      have ih := ih (fun y hy => hl y (by simp [hy]))
      exact ⟨ih.1.tail (.quiet _ (.pluginEgress p .success) trivial (hv := fun _ _ _ => ih.2)), by simp [Vetoed]⟩
  obtain ⟨l, e, h⟩ := Chain.egress_runs c.insidePlugins c.log pkt cap
  rw [e]
  rcases h with ⟨hl, _⟩ | ⟨p, r, l', rfl, _, _, hl⟩
  · exact (key l hl).1
  · exact (key l' hl).1.tail (.quiet _ (.pluginEgress p r) trivial (hv := fun _ _ _ => (key l' hl).2))

/-- Showing a packet to the ingress plugins at the start of a call. -/
theorem ingress_star (env : Env) (a : Api) (c : Conn) (ch : Chain) (buf : Bytes) (cap : Nat)
    (hj : JustCalled a c.log) :
    M env a c { c with log := (ch.ingress c.log buf cap).1 } := by
  have key : ∀ l : Log, (∀ x ∈ l, ∃ p, x = Effect.pluginIngress p .success) →
      M env a c { c with log := l ++ c.log } ∧ JustCalled a (l ++ c.log) := by
    intro l hl
    refine ⟨?_, ?_⟩
    · induction l with
      | nil => exact .refl c
      | cons x xs ih =>
        obtain ⟨p, rfl⟩ := hl x (by simp)
        refine (ih (fun y hy => hl y (by simp [hy]))).tail (.quiet _ (.pluginIngress p .success) trivial (hj := fun _ _ _ => ?_))
        obtain ⟨y, old, e, hy⟩ := hj
        refine ⟨xs ++ y, old, by simp [e], fun z hz => ?_⟩
        rcases List.mem_append.mp hz with h | h
        · exact hl z (by simp [h])
        · exact hy z h
    · obtain ⟨y, old, e, hy⟩ := hj
      refine ⟨l ++ y, old, by simp [e], fun z hz => ?_⟩
      rcases List.mem_append.mp hz with h | h
      · exact hl z h
      · exact hy z h
  obtain ⟨l, e, h⟩ := Chain.ingress_runs ch c.log buf cap
  rw [e]
  rcases h with ⟨hl, _⟩ | ⟨p, r, l', rfl, _, _, hl⟩
  · exact (key l hl).1
  · exact (key l' hl).1.tail (.quiet _ (.pluginIngress p r) trivial (hj := fun _ _ _ => (key l' hl).2))

theorem internalHandleData_star (env : Env) (a : Api) (c : Conn) (d : Bytes) (ha : a = .outsideData)
    (hs : c.state = .online)
    (hm : ∃ pkt, lastMessage c.log = some pkt ∧
        ((pkt.head? = some 5 ∧ ∃ n, 3 + n ≤ pkt.length ∧ d = field pkt 3 n ∧
            (n = num (field pkt 1 2) ∨ n = rdLe (field pkt 1 2))) ∨
         (pkt.head? = some 13 ∧ 5 + num (field pkt 1 2) ≤ pkt.length ∧
            d = field pkt 5 (num (field pkt 1 2))))) (hnv : ¬Vetoed c.log)
    (hver : ∀ pkt, lastMessage c.log = some pkt → pkt.head? = some 5 →
        d = field pkt 3 (if c.verMajor = 1 ∧ c.verMinor = 0 then rdLe (field pkt 1 2) else num (field pkt 1 2)))
    (hone : deliveredSince c.log = false) :
    M env a c (internalHandleData c d).1 ∧ (internalHandleData c d).1.state = c.state := by
  have h1 := egress_star env a c d d.length hnv
  obtain ⟨q, rc, hq, h | ⟨h, hc, hv, hps, hq2, hql⟩⟩ := internalHandleData_cases c d
  · rw [h]; exact ⟨h1, rfl⟩
  · rw [h]
    refine ⟨h1.tail (.insideWrite _ q ha hs hc hv ?_ (egress_notVetoed _ _ _ _ hps hnv)
      (fun h0 pkt hl h5 => (hq h0).trans (hver pkt (by simp only [lastMessage_egress] at hl; exact hl) h5))
      (by simp only [deliveredSince_egress]; exact hone)
      ⟨d, c.log, by rw [← hps, ← hq2], hql, fun pkt hl => ⟨fun h5 => hver pkt (by simp only [lastMessage_egress] at hl; exact hl) h5,
        fun h13 => ?_⟩⟩), rfl⟩
    rotate_left
    · simp only [lastMessage_egress] at hl
      obtain ⟨pkt', h2, h3⟩ := hm
      have : pkt' = pkt := Option.some.inj (h2.symm.trans hl)
      subst this
      rcases h3 with ⟨h3, _⟩ | ⟨_, _, h4⟩
      · rw [h13] at h3; simp at h3
      · exact h4
    obtain ⟨pkt, h2, h3⟩ := hm
    refine ⟨pkt, by simp only [lastMessage_egress]; exact h2, ?_⟩
    rcases h3 with ⟨h3, n, h4⟩ | ⟨h3, h4⟩
    · exact .inl ⟨h3, fun h0 => ⟨n, h4.1, (hq h0).trans h4.2.1, h4.2.2⟩⟩
    · exact .inr ⟨h3, fun h0 => ⟨h4.1, (hq h0).trans h4.2⟩⟩

theorem handleData_star (env : Env) (a : Api) (c : Conn) (pkt : Bytes) (ha : a = .outsideData)
    (hm : ∃ rest, c.log = .message pkt :: rest) (hd : pkt.head? = some 5) :
    M env a c (handleData c pkt).1 ∧ (handleData c pkt).1.state = c.state := by
  unfold handleData
  split
  · exact ⟨.refl c, rfl⟩
  · rename_i hs
    split
    · exact ⟨.refl c, rfl⟩
    · rename_i hl
      rw [rd_isSome (by omega)]
      simp only
      have hlen : (if c.verMajor = 1 ∧ c.verMinor = 0 then rdLe16 (List.take 2 (List.drop 1 pkt))
        else rdBe16 (List.take 2 (List.drop 1 pkt))) = num (field pkt 1 2) ∨
          (if c.verMajor = 1 ∧ c.verMinor = 0 then rdLe16 (List.take 2 (List.drop 1 pkt))
        else rdBe16 (List.take 2 (List.drop 1 pkt))) = rdLe (field pkt 1 2) := by
        have h2 : (field pkt 1 2).length = 2 := field_length (by omega)
        split
        · right
          exact rdLe16_rdLe h2
        · left
          exact (num_rdBe16 h2).symm
      have hlen2 : (if c.verMajor = 1 ∧ c.verMinor = 0 then rdLe16 (List.take 2 (List.drop 1 pkt))
        else rdBe16 (List.take 2 (List.drop 1 pkt))) =
          (if c.verMajor = 1 ∧ c.verMinor = 0 then rdLe (field pkt 1 2) else num (field pkt 1 2)) := by
        have h2 : (field pkt 1 2).length = 2 := field_length (by omega)
        split
        · exact rdLe16_rdLe h2
        · exact (num_rdBe16 h2).symm
      generalize (if c.verMajor = 1 ∧ c.verMinor = 0 then rdLe16 (List.take 2 (List.drop 1 pkt))
        else rdBe16 (List.take 2 (List.drop 1 pkt))) = len at hlen hlen2 ⊢
      split
      · exact ⟨.refl c, rfl⟩
      · rw [rd_isSome (by omega)]
        obtain ⟨rest, hm⟩ := hm
        exact internalHandleData_star env a c ((pkt.drop 3).take len) ha (by simpa using hs)
          ⟨pkt, by rw [hm]; rfl, .inl ⟨hd, len, by omega, rfl, hlen⟩⟩ (by rw [hm]; exact id)
          (fun pkt' hl _ => by rw [hm] at hl; cases hl; rw [← hlen2]; rfl) (by rw [hm]; rfl)

theorem handleDeprecated13_star (env : Env) (a : Api) (c : Conn) (pkt : Bytes) (ha : a = .outsideData)
    (hm : ∃ rest, c.log = .message pkt :: rest) (hd : pkt.head? = some 13) :
    M env a c (handleDeprecated13 c pkt).1 ∧ (handleDeprecated13 c pkt).1.state = c.state := by
  unfold handleDeprecated13
  split
  · exact ⟨.refl c, rfl⟩
  · rename_i hs
    split
    · exact ⟨.refl c, rfl⟩
    · rename_i hl
      rw [rd_isSome (by omega)]
      simp only
      have h2 : (field pkt 1 2).length = 2 := field_length (by omega)
      have hlen : rdBe16 (List.take 2 (List.drop 1 pkt)) = num (field pkt 1 2) := (num_rdBe16 h2).symm
      rw [hlen]
      split
      · exact ⟨.refl c, rfl⟩
      · rw [rd_isSome (by omega)]
        obtain ⟨rest, hm⟩ := hm
        exact internalHandleData_star env a c ((pkt.drop 5).take (num (field pkt 1 2))) ha (by simpa using hs)
          ⟨pkt, by rw [hm]; rfl, .inr ⟨hd, by omega, rfl⟩⟩ (by rw [hm]; exact id)
          (fun pkt' hl h5 => by rw [hm] at hl; cases hl; rw [hd] at h5; exact absurd h5 (by decide)) (by rw [hm]; rfl)

/-! ### Fragments -/

theorem fragTable_self {c : Conn} {t : FragTable} (h : c.fragTable = some t) :
    { c with fragTable := some t } = c := by
  cases c; simp_all

theorem FragTable.set_slot (t : FragTable) (id : Nat) (a : FragEntry) :
    (t.set id a).slot (id % (t.set id a).num) = some a := by
  simp [FragTable.set]

theorem update_asm {en en' : FragEntry} {al : Bool} {d : Bytes} {off : Nat} {last : Bool} {rc : RC}
    (h : en.update al d off last = some (en', rc, true)) :
    ∃ hd tl, en'.nodes = hd :: tl ∧ hd.last = true ∧ hd.b = 0 := by
  unfold FragEntry.update at h
  repeat' split at h
  all_goals (try (simp at h; done))
  rename_i hd tl _
  simp only [Option.some.injEq, Prod.mk.injEq, Bool.and_eq_true, decide_eq_true_eq] at h
  exact ⟨hd, tl, by rw [← h.1], h.2.2.1, h.2.2.2⟩

theorem update_timestamp {en en' : FragEntry} {al : Bool} {d : Bytes} {off : Nat} {last : Bool} {rc : RC} {asm : Bool}
    (h : en.update al d off last = some (en', rc, asm)) : en'.timestamp = en.timestamp := by
  unfold FragEntry.update at h
  repeat' split at h
  all_goals first
    | (simp at h; done)
    | (simp only [Option.some.injEq, Prod.mk.injEq] at h; rw [← h.1])

theorem expire_timestamp (en : FragEntry) (now : Int) : now - (en.expire now).timestamp ≤ 64 := by
  unfold FragEntry.expire
  split
  · simp
  · omega

/-- The table after the lookup: an entry exists. -/
theorem fragReceive_tail (env : Env) (c : Conn) (t : FragTable) (en : FragEntry)
    (g : Fragment) (hi : Inv env (some .outsideData) c)
    (hs : c.state = .online) (ht : c.fragTable = some t)
    (hsl : t.slot (g.id % t.num) = some en)
    (hl : ∃ pkt rest, carried pkt = some g ∧ (c.log = .message pkt :: rest ∨
          c.log = .clock en.timestamp :: .alloc true :: .message pkt :: rest)) :
    M env .outsideData c (fragApply env c t en g.id g.off (!g.more) g.data).1 ∧
    (fragApply env c t en g.id g.off (!g.more) g.data).1.state = c.state := by
  unfold fragApply
  simp only
  have h1 : M env .outsideData c (c.emit (.clock (env.now c.log))) := .one (.quiet c _ trivial)
  have i1 := h1.inv hi
  have ht1 : (c.emit (.clock (env.now c.log))).fragTable = some t := ht
  have hs1 : (c.emit (.clock (env.now c.log))).state = .online := hs
  have hl1 : ∃ pkt rest, carried pkt = some g ∧
      ((c.emit (.clock (env.now c.log))).log = .clock (env.now c.log) :: .message pkt :: rest ∨
       (c.emit (.clock (env.now c.log))).log =
        .clock (env.now c.log) :: .clock en.timestamp :: .alloc true :: .message pkt :: rest) := by
    obtain ⟨pkt, rest, hg, h⟩ := hl
    refine ⟨pkt, rest, hg, ?_⟩
    rcases h with h | h
    · exact .inl (by show _ :: c.log = _; rw [h])
    · exact .inr (by show _ :: c.log = _; rw [h])
  have hlm : ∃ pkt, carried pkt = some g ∧ lastMessage (c.emit (.clock (env.now c.log))).log = some pkt ∧
      lastClock (c.emit (.clock (env.now c.log))).log = some (env.now c.log) := by
    obtain ⟨pkt, rest, hg, h⟩ := hl1
    refine ⟨pkt, hg, ?_, rfl⟩
    rcases h with h | h <;> rw [h] <;> rfl
  rw [← show (c.emit (.clock (env.now c.log))).state = c.state from rfl]
  generalize env.now c.log = now at h1 i1 ht1 hs1 hl1 hlm ⊢
  generalize c.emit (.clock now) = c1 at h1 i1 ht1 hs1 hl1 hlm ⊢
  show M env _ c (match (en.expire now).update (env.alloc c1.log) g.data g.off (!g.more) with
      | none => _ | some (en, rc, assembled) => _ : Conn × RC).1 ∧ _
  have wf2 : EntryWf (en.expire now) := expire_wf now (i1.frag t ht1 _ _ hsl)
  have upd := update_wf (al := env.alloc c1.log) (d := g.data) (off := g.off) (last := !g.more) wf2
  cases hu : (en.expire now).update (env.alloc c1.log) g.data g.off (!g.more) with
  | none =>
    unfold FragEntry.expire at hu
    rw [hu]
    refine ⟨h1.tail (.ub c1 _ (fun he => ?_)), rfl⟩
    have := upd.2.1 (he.1 _)
    unfold FragEntry.expire at this
    rw [hu] at this; cases this
  | some q =>
    obtain ⟨en3, rc, asm⟩ := q
    have wf3 := upd.1 _ _ _ hu
    have h3 : M env .outsideData c { c1 with fragTable := some (t.set g.id en3) } :=
      h1.tail (.fragPut c1 t g en en3 now _ rc asm rfl ht1 hsl hl1 hu)
    have hts : now - en3.timestamp ≤ 64 := by rw [update_timestamp hu]; exact expire_timestamp en now
    have hu' := hu
    unfold FragEntry.expire at hu'
    rw [hu']
    simp only
    split
    · exact ⟨h3, rfl⟩
    · split
      · rename_i hasm
        subst hasm
        obtain ⟨hd, tl, hnodes, hlast, hb⟩ := update_asm hu
        rw [hnodes]
        simp only
        have hle : hd.e ≤ 1500 := (wf3.2 hd (by simp [hnodes])).2
        rw [rd_isSome (by have := wf3.1; omega)]
        simp only [List.drop_zero]
        generalize hc3 : ({ c1 with fragTable := some (t.set g.id en3) } : Conn) = c3 at h3
        have ht3 : c3.fragTable = some (t.set g.id en3) := by rw [← hc3]
        have hs3 : c3.state = c1.state := by rw [← hc3]
        have hlog3 : c3.log = c1.log := by rw [← hc3]
        clear hc3
        have hnv3 : ¬Vetoed c3.log := by
          rw [hlog3]; obtain ⟨_, _, _, h | h⟩ := hl1 <;> rw [h] <;> exact id
        have hone3 : deliveredSince c3.log = false := by
          rw [hlog3]; obtain ⟨_, _, _, h | h⟩ := hl1 <;> rw [h] <;> rfl
        have h4 := h3.trans (egress_star env .outsideData c3 (en3.data.take hd.e) (en3.data.take hd.e).length hnv3)
        obtain ⟨q, rc', hq, h | ⟨h, hc, hv, hps, hq2, hql⟩⟩ := internalHandleData_cases c3 (en3.data.take hd.e)
        · rw [h]
          obtain ⟨pkt, hg, hm, hck⟩ := hlm
          refine ⟨h4.tail (.fragDel _ (t.set g.id en3) pkt g rfl ht3
            (by simp only [lastMessage_egress]; rw [hlog3]; exact hm) hg), ?_⟩
          exact hs3
        · rw [h]
          obtain ⟨pkt, hg, hm, hck⟩ := hlm
          refine ⟨h4.tail (.insideFrag _ (t.set g.id en3) pkt g en3 hd tl q rfl ?_ hc hv ht3 ?_ hg
            (t.set_slot g.id en3) hnodes hlast hb ⟨now, ?_, hts⟩ hq
            (egress_notVetoed _ _ _ _ hps hnv3) (by simp only [deliveredSince_egress]; exact hone3)
            ⟨c3.log, by rw [← hps, ← hq2], hql⟩), ?_⟩
          · exact hs3.trans hs1
          · simp only [lastMessage_egress]; rw [hlog3]; exact hm
          · simp only [lastClock_egress]; rw [hlog3]; exact hck
          · exact hs3
      · exact ⟨h3, rfl⟩

theorem fragReceive_star (env : Env) (c : Conn) (g : Fragment)
    (hi : Inv env (some .outsideData) c) (hs : c.state = .online)
    (hm : ∃ pkt rest, c.log = .message pkt :: rest ∧ carried pkt = some g) :
    M env .outsideData c (fragReceive env c g.id g.off (!g.more) g.data).1 ∧
    (fragReceive env c g.id g.off (!g.more) g.data).1.state = c.state := by
  obtain ⟨pkt, rest, hm, hg⟩ := hm
  unfold fragReceive
  split
  · exact ⟨.refl c, rfl⟩
  · rename_i t ht
    simp only
    cases hsl : t.slot (g.id % t.num) with
    | some en =>
      simp only [Option.isNone_some, Bool.false_and, FragTable.find, hsl, Bool.false_eq_true, if_false]
      rw [fragTable_self ht]
      exact fragReceive_tail env c t en g hi hs ht hsl ⟨pkt, rest, hg, .inl hm⟩
    | none =>
      simp only [Option.isNone_none, if_true, Bool.true_and, FragTable.find, hsl]
      have h1 : M env .outsideData c (c.emit (.alloc (env.alloc c.log))) := .one (.quiet c _ trivial)
      cases hal : env.alloc c.log with
      | false =>
        simp only [Bool.false_eq_true, if_false]
        rw [hal] at h1
        refine ⟨?_, rfl⟩
        rw [fragTable_self (c := c.emit (.alloc false)) ht]; exact h1
      | true =>
        simp only [if_true]
        rw [hal] at h1
        generalize hc1 : c.emit (.alloc true) = c1 at h1
        have ht1 : c1.fragTable = some t := by rw [← hc1]; exact ht
        have hs1 : c1.state = .online := by rw [← hc1]; exact hs
        have hm1 : c1.log = .alloc true :: .message pkt :: rest := by rw [← hc1]; show _ :: c.log = _; rw [hm]
        have h2 := h1.tail (.quiet c1 (.clock (env.now c1.log)) trivial)
        have h3 := h2.tail (.fragNew _ t g.id (env.now c1.log) rfl
          (show (c1.emit (.clock (env.now c1.log))).fragTable = some t from ht1) hsl
          ⟨pkt, g, rest, hg, rfl, by show _ :: c1.log = _; rw [hm1]⟩)
        have h4 := fragReceive_tail env _ (t.set g.id (FragEntry.fresh (env.now c1.log)))
          (FragEntry.fresh (env.now c1.log)) g (h3.inv hi) hs1 rfl (t.set_slot g.id _)
          ⟨pkt, rest, hg, .inr (by show _ :: c1.log = _; rw [hm1]; rfl)⟩
        refine ⟨h3.trans h4.1, ?_⟩
        exact h4.2.trans (hs1.trans hs.symm)

end Lightway
