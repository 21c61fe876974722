import Verif.Proofs.FragInv

/-!
# A reassembly slot changes only while a fragment for it is processed
-/

namespace Lightway
open Spec

/-- A micro step leaves the table alone, or changes the slot of the fragment being processed, or creates a table. -/
theorem Micro.table_cases {env : Env} {a : Api} {c c' : Conn} (hm : Micro env a c c') :
    c'.fragTable = c.fragTable ∨
    (∃ k l, c'.log = .table k :: l) ∨
    ∃ t t' pkt g, c.fragTable = some t ∧ c'.fragTable = some t' ∧ t'.num = t.num ∧
      lastMessage c.log = some pkt ∧ carried pkt = some g ∧ ∀ s, s ≠ g.id % t.num → t'.slot s = t.slot s := by
  have hset : ∀ (t : FragTable) (id : Nat) (e : FragEntry) (s : Nat), s ≠ id % t.num → (t.set id e).slot s = t.slot s := by
    intro t id e s h; simp [FragTable.set, h]
  have hdel : ∀ (t : FragTable) (id : Nat) (s : Nat), s ≠ id % t.num → (t.delete id).slot s = t.slot s := by
    intro t id s h; simp [FragTable.delete, h]
  cases hm with
  | io r => left; have := (ioStep_frame env c r).pFrame; obtain ⟨l, ps, sl, we, pm, pn, e, hl⟩ := this; rw [e]
  | probeAck id _ _ _ => left; obtain ⟨l, ps, sl, we, pm, pn, e, hl⟩ := (handleProbeAck_frame env c id); rw [e]
  | probeTimeout _ => left; obtain ⟨l, ps, sl, we, pm, pn, e, hl⟩ := (handleProbeTimeout_frame env c); rw [e]
  | startBase _ _ _ => left; obtain ⟨l, ps, sl, we, pm, pn, e, hl⟩ := (startBaseProbing_frame env c); rw [e]
  | state s hne _ => left; simp [setState, hne]
  | configure ctx ha =>
    right; left
    obtain ⟨x, y, ok, ft, e, hft⟩ := configure_shape env c ctx
    exact ⟨_, _, by rw [e]⟩
  | insideFrag t pkt g en hd tl p ha hs hc hv ht hm hg hen hn hlast hb hclk hp =>
    right; right
    exact ⟨t, _, pkt, g, ht, rfl, rfl, hm, hg, hdel t g.id⟩
  | fragNew t id now ha ht hn hl =>
    right; right
    obtain ⟨pkt, g, rest, hg, rfl, hl⟩ := hl
    exact ⟨t, _, pkt, g, ht, rfl, rfl, by rw [hl]; rfl, hg, hset t g.id _⟩
  | fragPut t g en en' now al rc asm ha ht hs hl hu =>
    right; right
    obtain ⟨pkt, rest, hg, hl⟩ := hl
    exact ⟨t, _, pkt, g, ht, rfl, rfl, by rcases hl with hl | hl <;> rw [hl] <;> rfl, hg, hset t g.id _⟩
  | fragDel t pkt g ha ht hm hg =>
    right; right
    exact ⟨t, _, pkt, g, ht, rfl, rfl, hm, hg, hdel t g.id⟩
  | _ => left; rfl

theorem lastMessage_mem {x old : Log} {a : Api} {pkt : Bytes} (h : lastMessage (x ++ .api a :: old) = some pkt) :
    Effect.message pkt ∈ x := by
  induction x with
  | nil => simp [lastMessage] at h
  | cons e x ih =>
    cases e with
    | message p => simp [lastMessage] at h; simp [h]
    | api a' => simp [lastMessage] at h
    | _ => exact List.mem_cons_of_mem _ (ih h)

/-- Nothing in `x` concerns slot `s` of a table of size `n`. -/
def Quiescent (n s : Nat) (x : Log) : Prop :=
  (∀ k, Effect.table k ∉ x) ∧ ∀ m f, Effect.message m ∈ x → carried m = some f → f.id % n ≠ s

theorem Star.slot {env : Env} {a b : Api} {c c' : Conn} (hm : M env a c c') {old : Log} (h0 : c.log = .api b :: old)
    {t : FragTable} (ht : c.fragTable = some t) {s : Nat} {x : Log} (hx : c'.log = x ++ c.log)
    (hq : Quiescent t.num s x) : ∃ t', c'.fragTable = some t' ∧ t'.num = t.num ∧ t'.slot s = t.slot s := by
  induction hm generalizing x with
  | refl => exact ⟨t, ht, rfl, rfl⟩
  | @tail d e hst mi ih =>
    obtain ⟨y, hy, _⟩ := hst.logExt
    obtain ⟨z, hz, _⟩ := mi.logExt
    have hxe : x = z ++ y := by
      rw [hz, hy, ← List.append_assoc] at hx
      exact (List.append_cancel_right hx).symm
    subst hxe
    obtain ⟨t1, h1, h2, h3⟩ := ih hy ⟨fun k hk => hq.1 k (by simp [hk]), fun m f hmm => hq.2 m f (by simp [hmm])⟩
    rcases mi.table_cases with h | ⟨k, l, hk⟩ | ⟨t2, t3, pkt, g, e1, e2, e3, e4, e5, e6⟩
    · exact ⟨t1, by rw [h]; exact h1, h2, h3⟩
    · exfalso
      rw [hz] at hk
      cases z with
      | nil =>
        simp only [List.nil_append] at hk
        rw [hy, h0] at hk
        cases y with
        | nil => simp at hk
        | cons y1 y2 =>
          simp only [List.cons_append, List.cons.injEq] at hk
          exact hq.1 k (by rw [hk.1]; simp)
      | cons z1 z2 =>
        simp only [List.cons_append, List.cons.injEq] at hk
        exact hq.1 k (by rw [hk.1]; simp)
    · rw [h1] at e1
      cases e1
      refine ⟨t3, e2, e3.trans h2, ?_⟩
      rw [e6, h3]
      rw [hy, h0] at e4
      have := hq.2 pkt g (by simp [lastMessage_mem e4]) e5
      rw [h2]
      exact fun h => this h.symm

/-- A whole API call. -/
theorem step_slot (env : Env) {o : Option Api} {c : Conn} (op : Op) (hi : Inv env o c)
    {t : FragTable} (ht : c.fragTable = some t) {s : Nat} {x : Log} (hx : (step env c op).1.log = x ++ c.log)
    (hq : Quiescent t.num s x) :
    ∃ t', (step env c op).1.fragTable = some t' ∧ t'.num = t.num ∧ t'.slot s = t.slot s := by
  have e2 : (entry c op).log = .api op.api :: c.log := by cases op <;> rfl
  obtain ⟨y, hy, _⟩ := (exec_star env o c op hi).logExt
  have hl : (step env c op).1.log = .ret (step env c op).2 :: y ++ (.api op.api :: c.log) := by
    rw [← e2]
    show _ :: (exec env (c.emit (.api op.api)) op).1.log = _
    rw [hy]; rfl
  have hxe : x = .ret (step env c op).2 :: y ++ [.api op.api] := by
    rw [hx] at hl
    have : .ret (step env c op).2 :: y ++ (.api op.api :: c.log) =
      (.ret (step env c op).2 :: y ++ [.api op.api]) ++ c.log := by simp
    rw [this] at hl
    exact List.append_cancel_right hl
  subst hxe
  have ht2 : (entry c op).fragTable = some t := by cases op <;> exact ht
  exact (exec_star env o c op hi).slot e2 ht2 hy
    ⟨fun k hk => hq.1 k (by simp [hk]), fun m f hm => hq.2 m f (by simp [hm])⟩

/-- With working allocation, a connection that has a TLS object has a reassembly table. -/
theorem Micro.tinv {env : Env} (hok : EnvOk env) {a : Api} {c c' : Conn} (hm : Micro env a c c')
    (h : c.wolfSet = true → c.fragTable.isSome = true) : c'.wolfSet = true → c'.fragTable.isSome = true := by
  cases hm with
  | io r =>
    obtain ⟨l, ps, sl, we, pm, pn, e, hl⟩ := (ioStep_frame env c r).pFrame
    rw [e]; exact h
  | probeAck id _ _ _ => obtain ⟨l, ps, sl, we, pm, pn, e, hl⟩ := (handleProbeAck_frame env c id); rw [e]; exact h
  | probeTimeout _ => obtain ⟨l, ps, sl, we, pm, pn, e, hl⟩ := (handleProbeTimeout_frame env c); rw [e]; exact h
  | startBase _ _ _ => obtain ⟨l, ps, sl, we, pm, pn, e, hl⟩ := (startBaseProbing_frame env c); rw [e]; exact h
  | state s hne _ => simpa [setState, hne] using h
  | configure ctx ha =>
    intro _
    refine configure_table env c ctx ?_
    unfold Lightway.configure
    simp only [hok.1, if_true]
  | wolfNew ha hm ht => intro _; exact ht
  | insideFrag | fragNew | fragPut | fragDel => intro _; rfl
  | _ => exact h

theorem run_table {env : Env} (hok : EnvOk env) (ops : List Op) :
    (run env ops).wolfSet = true → (run env ops).fragTable.isSome = true := by
  suffices ∀ (ops : List Op) (c : Conn), (∃ o, Inv env o c) → (c.wolfSet = true → c.fragTable.isSome = true) →
      ((ops.foldl (fun c op => (step env c op).1) c).wolfSet = true →
       (ops.foldl (fun c op => (step env c op).1) c).fragTable.isSome = true) from
    this ops _ ⟨none, create_inv env⟩ (by intro h; cases h)
  intro ops
  induction ops with
  | nil => intro c _ h; exact h
  | cons op ops ih =>
    intro c ⟨o, hi⟩ h
    refine ih _ ⟨_, step_inv env o c op hi⟩ ?_
    have h0 : (entry c op).wolfSet = true → (entry c op).fragTable.isSome = true := by cases op <;> exact h
    have hs := exec_star env o c op hi
    show (exec env (c.emit (.api op.api)) op).1.wolfSet = true → (exec env (c.emit (.api op.api)) op).1.fragTable.isSome = true
    generalize (exec env (c.emit (.api op.api)) op).1 = c' at hs ⊢
    induction hs with
    | refl => exact h0
    | tail _ s ih => exact s.tinv hok ih

end Lightway
