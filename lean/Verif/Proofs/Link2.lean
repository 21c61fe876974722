import Verif.Proofs.Link
import Verif.Props.Screen

/-!
# The numbering of packets on the sending side
-/

namespace Lightway
open Spec

theorem writes_app (a b : Log) : writes (a ++ b) = writes a ++ writes b := by
  induction a with
  | nil => rfl
  | cons e a ih =>
    cases e with
    | sslCall q ok => cases q <;> simp [writes, ih]
    | _ => simp [writes, ih]

theorem mem_writes {l : Log} {m : Bytes} (h : m ∈ writes l) : ∃ a ok b, l = a ++ .sslCall (.write m) ok :: b := by
  induction l with
  | nil => simp [writes] at h
  | cons e l ih =>
    have key : m ∈ writes l → ∃ a ok b, e :: l = a ++ .sslCall (.write m) ok :: b := by
      intro h
      obtain ⟨a, ok, b, rfl⟩ := ih h
      exact ⟨e :: a, ok, b, rfl⟩
    cases e with
    | sslCall q ok =>
      cases q with
      | write m' =>
        simp only [writes, List.mem_cons] at h
        rcases h with rfl | h
        · exact ⟨[], ok, l, rfl⟩
        · exact key h
      | _ => exact key h
    | _ => exact key h

theorem lastApi_noMark {x : Log} (h : ∀ e ∈ x, NoMark e) (a : Api) (l : Log) : lastApi (x ++ .api a :: l) = some a := by
  induction x with
  | nil => rfl
  | cons e x ih =>
    have he := h e (by simp)
    have := ih (fun y hy => h y (by simp [hy]))
    cases e <;> first | exact he.elim | exact this

/-- Calls other than he_conn_inside_packet_received send no data. -/
theorem step_nodata (env : Env) (ops : List Op) (op : Op) (ha : op.api ≠ .insidePacket) :
    ∃ new, handed (run env (ops ++ [op])).log = handed (run env ops).log ++ new ∧
      ∀ m ∈ new, m.head? ≠ some 5 ∧ m.head? ≠ some 15 ∧ m.head? ≠ some 13 := by
  obtain ⟨o, hi⟩ := (run_good env ops).inv
  obtain ⟨x, hx, hn⟩ := step_log env op hi
  rw [← run_snoc] at hx
  refine ⟨(writes x).reverse, ?_, ?_⟩
  · show (writes (run env (ops ++ [op])).log).reverse = (writes (run env ops).log).reverse ++ _
    have h : writes (run env (ops ++ [op])).log = writes x ++ writes (run env ops).log := by
      rw [hx]
      show writes (x ++ _) = _
      rw [writes_app]; rfl
    rw [h, List.reverse_append]
  · intro m hm
    obtain ⟨a, ok, b, rfl⟩ := mem_writes (List.mem_reverse.mp hm)
    have hs := C70_sent_in_order env (ops ++ [op]) (m := m) (ok := ok) (newer := .ret (step env (run env ops) op).2 :: a)
      (older := b ++ .api op.api :: (run env ops).log) (by rw [hx]; simp)
    have hl := lastApi_noMark (fun e he => hn e (by simp [he])) op.api (run env ops).log (x := b)
    unfold SentOk at hs
    refine ⟨?_, ?_, ?_⟩ <;> intro h <;> rw [h] at hs
    · rw [hl] at hs; exact ha (by simpa using hs.2.2.1)
    · rw [hl] at hs; exact ha (by simpa using hs.2.2.1)
    · exact hs.2.elim

/-- Begins a packet: a DATA message or a first fragment. -/
def isHead (m : Bytes) : Bool := opens m || m.head? == some 5

/-- How many packets were begun before message number `k`. -/
def headNo (W : List Bytes) (k : Nat) : Nat := (W.take k).countP isHead

theorem decodeFrag_head {m : Bytes} {f : Fragment} (h : decodeFrag m = some f) : m.head? = some 15 := by
  unfold decodeFrag at h
  split at h
  · rename_i h1; exact h1.1
  · cases h

theorem opens_head {m : Bytes} (h : opens m = true) : m.head? = some 15 := by
  unfold opens at h
  split at h
  · rename_i f hf; exact decodeFrag_head hf
  · cases h

theorem isHead_head {m : Bytes} (h : isHead m = true) : m.head? = some 15 ∨ m.head? = some 5 := by
  unfold isHead at h
  rcases Bool.or_eq_true _ _ ▸ h with h | h
  · exact .inl (opens_head h)
  · exact .inr (by simpa using h)

/-- What a call adds to the packets shipped. -/
theorem shipped_snoc (env : Env) (ops : List Op) (op : Op) :
    shipped env (ops ++ [op]) = shipped env ops ++ (shippedAt env (ops ++ [op]) ops.length).toList := by
  unfold shipped
  rw [List.length_append, List.length_singleton, List.range_succ, List.filterMap_append]
  have h : ∀ l : List Nat, (∀ i ∈ l, i < ops.length) →
      l.filterMap (shippedAt env (ops ++ [op])) = l.filterMap (shippedAt env ops) := by
    intro l hl
    induction l with
    | nil => rfl
    | cons i l ih =>
      have hi := hl i (by simp)
      have e : shippedAt env (ops ++ [op]) i = shippedAt env ops i := by
        unfold shippedAt
        rw [List.getElem?_append_left hi, List.take_append_of_le_length (by omega), List.take_append_of_le_length (by omega)]
      rw [List.filterMap_cons, List.filterMap_cons, e, ih (fun i hi => hl i (by simp [hi]))]
  rw [h _ (fun i hi => List.mem_range.mp hi)]
  congr 1

theorem shippedAt_last (env : Env) (ops : List Op) (op : Op) :
    shippedAt env (ops ++ [op]) ops.length =
      match op with
      | .insidePacket pkt =>
        if writes (run env (ops ++ [op])).log = writes (run env ops).log then none
        else (clampMss pkt (effectivePmtu (run env ops) - 40)).map (·.1)
      | _ => none := by
  unfold shippedAt
  rw [show (ops ++ [op])[ops.length]? = some op by simp, show (ops ++ [op]).take (ops.length + 1) = ops ++ [op] by
    rw [List.take_of_length_le (by simp)], show (ops ++ [op]).take ops.length = ops by simp]
  cases op <;> rfl

/-- The packets a sender sends in fragments, in order, with their fragments, and where they are on the wire. -/
structure Line (env : Env) (ops : List Op) (fp : List (List Fragment × Bytes)) : Prop where
  next : (run env ops).fragNextId = fp.length % 65536
  len : (handed (run env ops).log).countP opens = fp.length
  heads : (handed (run env ops).log).countP isHead = (shipped env ops).length
  ids : ∀ i frs q, fp[i]? = some (frs, q) → Fragments (i % 65536) q frs ∧ q ∈ shipped env ops
  frag : ∀ k m, (handed (run env ops).log)[k]? = some m → m.head? = some 15 →
    0 < serial (handed (run env ops).log) k ∧ ∃ frs q f, fp[serial (handed (run env ops).log) k - 1]? = some (frs, q) ∧
      f ∈ frs ∧ decodeFrag m = some f ∧
      (opens m = true → (shipped env ops)[headNo (handed (run env ops).log) k]? = some q)
  data : ∀ k m, (handed (run env ops).log)[k]? = some m → m.head? = some 5 →
    ∃ pre pkt q, (pre ++ [.insidePacket pkt]) <+: ops ∧ (run env pre).state = .online ∧ m = dataMsg (run env pre) q ∧
      q.length + 3 ≤ 1500 ∧ (shipped env ops)[headNo (handed (run env ops).log) k]? = some q
  no13 : ∀ m ∈ handed (run env ops).log, m.head? ≠ some 13

theorem prefix_snoc {α : Type} {a l : List α} (h : a <+: l) (x : α) : a <+: l ++ [x] := h.trans (List.prefix_append l [x])

/-- Adding messages that are not data. -/
theorem Line.skip {env : Env} {ops : List Op} {op : Op} {fp : List (List Fragment × Bytes)} (h : Line env ops fp)
    {new : List Bytes} (hw : handed (run env (ops ++ [op])).log = handed (run env ops).log ++ new)
    (hn : ∀ m ∈ new, m.head? ≠ some 5 ∧ m.head? ≠ some 15 ∧ m.head? ≠ some 13)
    (hf : (run env (ops ++ [op])).fragNextId = (run env ops).fragNextId)
    (hs : shipped env (ops ++ [op]) = shipped env ops) : Line env (ops ++ [op]) fp := by
  have c1 : new.countP opens = 0 := by
    rw [List.countP_eq_zero]
    intro m hm h; exact (hn m hm).2.1 (opens_head h)
  have c2 : new.countP isHead = 0 := by
    rw [List.countP_eq_zero]
    intro m hm h
    rcases isHead_head h with h | h
    · exact (hn m hm).2.1 h
    · exact (hn m hm).1 h
  have old : ∀ k m, (handed (run env ops).log ++ new)[k]? = some m → m.head? = some 5 ∨ m.head? = some 15 →
      (handed (run env ops).log)[k]? = some m ∧ k < (handed (run env ops).log).length := by
    intro k m hk hm
    rcases Nat.lt_or_ge k (handed (run env ops).log).length with h1 | h1
    · rw [List.getElem?_append_left h1] at hk; exact ⟨hk, h1⟩
    · rw [List.getElem?_append_right h1] at hk
      have := hn m (List.mem_of_getElem? hk)
      rcases hm with hm | hm
      · exact absurd hm this.1
      · exact absurd hm this.2.1
  refine ⟨by rw [hf]; exact h.next, ?_, ?_, ?_, ?_, ?_, ?_⟩
  · rw [hw, List.countP_append, c1]; exact h.len
  · rw [hw, hs, List.countP_append, c2]; exact h.heads
  · rw [hs]; exact h.ids
  · rw [hw, hs]
    intro k m hk hm
    obtain ⟨h1, h2⟩ := old k m hk (.inr hm)
    have := h.frag k m h1 hm
    unfold serial headNo at this ⊢
    rw [List.take_append_of_le_length (by omega), List.take_append_of_le_length (by omega)]
    exact this
  · rw [hw, hs]
    intro k m hk hm
    obtain ⟨h1, h2⟩ := old k m hk (.inl hm)
    obtain ⟨pre, pkt, q, p1, p2⟩ := h.data k m h1 hm
    refine ⟨pre, pkt, q, prefix_snoc p1 _, ?_⟩
    unfold headNo at p2 ⊢
    rw [List.take_append_of_le_length (by omega)]
    exact p2
  · rw [hw]
    intro m hm
    rcases List.mem_append.mp hm with hm | hm
    · exact h.no13 m hm
    · exact (hn m hm).2.2

/-- Sending a packet in one piece. -/
theorem Line.whole {env : Env} {ops : List Op} {pkt q : Bytes} {fp : List (List Fragment × Bytes)} (h : Line env ops fp)
    (hw : handed (run env (ops ++ [.insidePacket pkt])).log = handed (run env ops).log ++ [dataMsg (run env ops) q])
    (hl : q.length + 3 ≤ 1500) (hst : (run env ops).state = .online)
    (hf : (run env (ops ++ [.insidePacket pkt])).fragNextId = (run env ops).fragNextId)
    (hs : shipped env (ops ++ [.insidePacket pkt]) = shipped env ops ++ [q]) : Line env (ops ++ [.insidePacket pkt]) fp := by
  have h5 : (dataMsg (run env ops) q).head? = some 5 := rfl
  have c1 : opens (dataMsg (run env ops) q) = false := by
    cases h : opens (dataMsg (run env ops) q) with
    | false => rfl
    | true => have := opens_head h; rw [h5] at this; exact absurd this (by decide)
  have c2 : isHead (dataMsg (run env ops) q) = true := by unfold isHead; rw [h5]; simp
  generalize hm0 : dataMsg (run env ops) q = m0 at hw h5 c1 c2
  refine ⟨by rw [hf]; exact h.next, ?_, ?_, ?_, ?_, ?_, ?_⟩
  · rw [hw, List.countP_append, List.countP_singleton, c1]; exact h.len
  · rw [hw, hs, List.countP_append, List.countP_singleton, c2, List.length_append, h.heads]; rfl
  · rw [hs]
    intro i frs q' hi
    exact ⟨(h.ids i frs q' hi).1, List.mem_append_left _ (h.ids i frs q' hi).2⟩
  · rw [hw, hs]
    intro k m hk hm
    rcases Nat.lt_or_ge k (handed (run env ops).log).length with h1 | h1
    · rw [List.getElem?_append_left h1] at hk
      have := h.frag k m hk hm
      unfold serial headNo at this ⊢
      rw [List.take_append_of_le_length (by omega), List.take_append_of_le_length (by omega)]
      obtain ⟨g1, frs, q', f, g2, g3, g4, g5⟩ := this
      refine ⟨g1, frs, q', f, g2, g3, g4, fun ho => ?_⟩
      have := g5 ho
      rw [List.getElem?_append_left (by
        rcases Nat.lt_or_ge (((handed (run env ops).log).take k).countP isHead) (shipped env ops).length with h | h
        · exact h
        · rw [List.getElem?_eq_none h] at this; cases this)]
      exact this
    · rw [List.getElem?_append_right h1] at hk
      have := List.mem_of_getElem? hk
      rw [List.mem_singleton] at this
      rw [this, h5] at hm
      exact absurd hm (by decide)
  · rw [hw, hs]
    intro k m hk hm
    rcases Nat.lt_or_ge k (handed (run env ops).log).length with h1 | h1
    · rw [List.getElem?_append_left h1] at hk
      obtain ⟨pre, pkt', q', p1, p2, p3, p4, p5⟩ := h.data k m hk hm
      refine ⟨pre, pkt', q', prefix_snoc p1 _, p2, p3, p4, ?_⟩
      unfold headNo at p5 ⊢
      rw [List.take_append_of_le_length (by omega)]
      rw [List.getElem?_append_left (by
        rcases Nat.lt_or_ge (((handed (run env ops).log).take k).countP isHead) (shipped env ops).length with h | h
        · exact h
        · rw [List.getElem?_eq_none h] at p5; cases p5)]
      exact p5
    · rw [List.getElem?_append_right h1] at hk
      have hk' : k = (handed (run env ops).log).length := by
        rcases Nat.lt_or_ge (k - (handed (run env ops).log).length) 1 with h | h
        · omega
        · rw [List.getElem?_eq_none (by simpa using h)] at hk; cases hk
      have := List.mem_of_getElem? hk
      rw [List.mem_singleton] at this
      refine ⟨ops, pkt, q, List.prefix_refl _, hst, by rw [this, hm0], hl, ?_⟩
      unfold headNo
      rw [hk', List.take_append_of_le_length (Nat.le_refl _), List.take_length, h.heads]
      simp
  · rw [hw]
    intro m hm
    rcases List.mem_append.mp hm with hm | hm
    · exact h.no13 m hm
    · rw [List.mem_singleton] at hm
      rw [hm, h5]; decide

/-- Only the first of a packet's fragments has offset 0. -/
theorem contiguous_off {o : Nat} {l : List Fragment} (h : Contiguous o l) : ∀ f ∈ l, o ≤ f.off := by
  induction l generalizing o with
  | nil => simp
  | cons g r ih =>
    intro f hf
    rcases List.mem_cons.mp hf with rfl | hf
    · exact Nat.le_of_eq h.1.symm
    · exact Nat.le_trans (Nat.le_add_right _ _) (ih h.2.2.2 f hf)

/-- Sending a packet in fragments. -/
theorem Line.pieces {env : Env} {ops : List Op} {pkt q : Bytes} {fp : List (List Fragment × Bytes)} (h : Line env ops fp)
    {new : List Bytes} {frs rest : List Fragment}
    (hw : handed (run env (ops ++ [.insidePacket pkt])).log = handed (run env ops).log ++ new)
    (hd : new.map decodeFrag = frs.map some) (hne : frs ≠ []) (hfr : Fragments (run env ops).fragNextId q (frs ++ rest))
    (hf : (run env (ops ++ [.insidePacket pkt])).fragNextId = ((run env ops).fragNextId + 1) % 65536)
    (hs : shipped env (ops ++ [.insidePacket pkt]) = shipped env ops ++ [q]) :
    Line env (ops ++ [.insidePacket pkt]) (fp ++ [(frs ++ rest, q)]) := by
  obtain ⟨f0, fs, rfl⟩ := List.exists_cons_of_ne_nil hne
  cases new with
  | nil => simp at hd
  | cons m0 ms =>
  simp only [List.map_cons, List.cons.injEq] at hd
  obtain ⟨hd0, hds⟩ := hd
  have hdec : ∀ (i : Nat) (m : Bytes), (m0 :: ms)[i]? = some m → ∃ f ∈ f0 :: fs, decodeFrag m = some f := by
    intro i m hi
    have hmem := List.mem_of_getElem? hi
    rcases List.mem_cons.mp hmem with rfl | hmem
    · exact ⟨f0, by simp, hd0⟩
    · have : decodeFrag m ∈ ms.map decodeFrag := List.mem_map_of_mem hmem
      rw [hds, List.mem_map] at this
      obtain ⟨f, hf, e⟩ := this
      exact ⟨f, by simp [hf], e.symm⟩
  have ho0 : opens m0 = true := by
    unfold opens; rw [hd0]; simp only [beq_iff_eq]; exact hfr.2.1.1
  have hos : ∀ m ∈ ms, opens m = false := by
    intro m hm
    have : decodeFrag m ∈ ms.map decodeFrag := List.mem_map_of_mem hm
    rw [hds, List.mem_map] at this
    obtain ⟨f, hf, e⟩ := this
    have hc : Contiguous (0 + f0.data.length) (fs ++ rest) := hfr.2.1.2.2.2
    have := contiguous_off hc f (List.mem_append_left _ hf)
    have hpos : 0 < f0.data.length := List.length_pos_iff.mpr hfr.2.1.2.1
    unfold opens; rw [← e]
    simp only [beq_eq_false_iff_ne]; omega
  have h15 : ∀ (i : Nat) (m : Bytes), (m0 :: ms)[i]? = some m → m.head? = some 15 := by
    intro i m hi
    obtain ⟨f, _, e⟩ := hdec i m hi
    exact decodeFrag_head e
  have hhd : ∀ m ∈ ms, isHead m = false := by
    intro m hm
    obtain ⟨i, hi⟩ := List.getElem?_of_mem hm
    unfold isHead
    rw [hos m hm, h15 (i + 1) m (by simpa using hi)]; rfl
  have c1 : ∀ i, ((m0 :: ms).take (i + 1)).countP opens = 1 := by
    intro i
    rw [List.take_succ_cons, List.countP_cons, ho0, List.countP_eq_zero.mpr]
    · rfl
    · intro m hm; rw [hos m (List.mem_of_mem_take hm)]; simp
  have c2 : (m0 :: ms).countP opens = 1 := by
    have := c1 (m0 :: ms).length
    rwa [List.take_of_length_le (by omega)] at this
  have c3 : (m0 :: ms).countP isHead = 1 := by
    rw [List.countP_cons, List.countP_eq_zero.mpr, show isHead m0 = true by unfold isHead; rw [ho0]; rfl]
    · rfl
    · intro m hm; rw [hhd m hm]; simp
  generalize hW : handed (run env ops).log = W at hw
  have hlen : W.countP opens = fp.length := by rw [← hW]; exact h.len
  have hheads : W.countP isHead = (shipped env ops).length := by rw [← hW]; exact h.heads
  refine ⟨?_, ?_, ?_, ?_, ?_, ?_, ?_⟩
  · rw [hf, h.next, List.length_append, List.length_singleton]; omega
  · rw [hw, List.countP_append, c2, hlen]; simp
  · rw [hw, hs, List.countP_append, c3, List.length_append, hheads]; rfl
  · rw [hs]
    intro i frs' q' hi
    rcases Nat.lt_or_ge i fp.length with h1 | h1
    · rw [List.getElem?_append_left h1] at hi
      exact ⟨(h.ids i frs' q' hi).1, List.mem_append_left _ (h.ids i frs' q' hi).2⟩
    · rw [List.getElem?_append_right h1] at hi
      have hk : i = fp.length := by
        rcases Nat.lt_or_ge (i - fp.length) 1 with h | h
        · omega
        · rw [List.getElem?_eq_none (by simpa using h)] at hi; cases hi
      have := List.mem_of_getElem? hi
      rw [List.mem_singleton] at this
      cases this
      rw [hk, ← h.next]
      exact ⟨hfr, by simp⟩
  · rw [hw, hs]
    intro k m hk hm
    rcases Nat.lt_or_ge k W.length with h1 | h1
    · rw [List.getElem?_append_left h1, ← hW] at hk
      have := h.frag k m hk hm
      rw [hW] at this
      unfold serial headNo at this ⊢
      rw [List.take_append_of_le_length (by omega), List.take_append_of_le_length (by omega)]
      obtain ⟨g1, frs', q', f, g2, g3, g4, g5⟩ := this
      refine ⟨g1, frs', q', f, ?_, g3, g4, fun ho => ?_⟩
      · rw [List.getElem?_append_left (by
          rcases Nat.lt_or_ge ((W.take (k + 1)).countP opens - 1) fp.length with h | h
          · exact h
          · rw [List.getElem?_eq_none h] at g2; cases g2)]
        exact g2
      · have := g5 ho
        rw [List.getElem?_append_left (by
          rcases Nat.lt_or_ge ((W.take k).countP isHead) (shipped env ops).length with h | h
          · exact h
          · rw [List.getElem?_eq_none h] at this; cases this)]
        exact this
    · rw [List.getElem?_append_right h1] at hk
      have hser : serial (W ++ m0 :: ms) k = fp.length + 1 := by
        unfold serial
        rw [List.take_append, List.take_of_length_le (by omega), List.countP_append, hlen,
          show k + 1 - W.length = (k - W.length) + 1 by omega, c1]
      rw [hser]
      refine ⟨by omega, ?_⟩
      obtain ⟨f, hf, e⟩ := hdec _ m hk
      refine ⟨(f0 :: fs) ++ rest, q, f, by simp, by simp at hf ⊢; rcases hf with h | h <;> simp [h], e, fun ho => ?_⟩
      have hk0 : k = W.length := by
        rcases Nat.eq_zero_or_pos (k - W.length) with h | h
        · omega
        · rw [show k - W.length = (k - W.length - 1) + 1 by omega, List.getElem?_cons_succ] at hk
          rw [hos m (List.mem_of_getElem? hk)] at ho; cases ho
      unfold headNo
      rw [hk0, List.take_append_of_le_length (Nat.le_refl _), List.take_length, hheads]
      simp
  · rw [hw, hs]
    intro k m hk hm
    rcases Nat.lt_or_ge k W.length with h1 | h1
    · rw [List.getElem?_append_left h1, ← hW] at hk
      obtain ⟨pre, pkt', q', p1, p2, p3, p4, p5⟩ := h.data k m hk hm
      refine ⟨pre, pkt', q', prefix_snoc p1 _, p2, p3, p4, ?_⟩
      rw [hW] at p5
      unfold headNo at p5 ⊢
      rw [List.take_append_of_le_length (by omega)]
      rw [List.getElem?_append_left (by
        rcases Nat.lt_or_ge ((W.take k).countP isHead) (shipped env ops).length with h | h
        · exact h
        · rw [List.getElem?_eq_none h] at p5; cases p5)]
      exact p5
    · rw [List.getElem?_append_right h1] at hk
      rw [h15 _ m hk] at hm; exact absurd hm (by decide)
  · rw [hw]
    intro m hm
    rcases List.mem_append.mp hm with hm | hm
    · rw [← hW] at hm; exact h.no13 m hm
    · obtain ⟨i, hi⟩ := List.getElem?_of_mem hm
      rw [h15 i m hi]; decide

theorem run_line (env : Env) (ops : List Op) (hz : NoInsidePlugins env ops) : ∃ fp, Line env ops fp := by
  revert hz
  induction ops using snoc_induct with
  | h0 =>
    intro _
    exact ⟨[], rfl, rfl, rfl, by simp, by intro k m h; simp [run, Conn.create, handed, writes] at h,
      by intro k m h; simp [run, Conn.create, handed, writes] at h, by simp [run, Conn.create, handed, writes]⟩
  | h1 ops op ih =>
    intro hz
    obtain ⟨fp, hl⟩ := ih (fun pre pkt h => hz pre pkt (prefix_snoc h _))
    have hg := run_good env ops
    by_cases ha : op.api = .insidePacket
    · obtain ⟨pkt, rfl⟩ : ∃ pkt, op = .insidePacket pkt := by
        cases op <;> first | exact ⟨_, rfl⟩ | (simp [Op.api] at ha)
      have hz0 := hz ops pkt (List.prefix_refl _)
      rw [(run_finv env ops).plug] at hz0
      have hsl := shippedAt_last env ops (.insidePacket pkt)
      simp only at hsl
      have hss := shipped_snoc env ops (.insidePacket pkt)
      rw [hsl] at hss
      have hnx : (run env (ops ++ [.insidePacket pkt])).fragNextId =
          (insidePacket env ((run env ops).emit (.api .insidePacket)) pkt).1.fragNextId := by rw [run_snoc]; rfl
      have hwr : writes (run env (ops ++ [.insidePacket pkt])).log =
          writes (insidePacket env ((run env ops).emit (.api .insidePacket)) pkt).1.log := by rw [run_snoc]; rfl
      by_cases hst : (run env ops).state = .online
      · obtain ⟨s1, s2, s3, s4, -, s6, -, -⟩ := step_inside env hg pkt
        have hp := insidePacket_link env ((run env ops).emit (.api .insidePacket)) pkt s1 hz0 s2 (s3 hst)
        rcases hp with ⟨hw, hn⟩ | ⟨q, _, hc, hp⟩
        · refine ⟨fp, hl.skip (new := []) ?_ (by simp) (hnx.trans hn) ?_⟩
          · unfold handed; rw [hwr, hw, List.append_nil]; rfl
          · rw [hss, if_pos (show _ = writes (run env ops).log from hwr.trans hw)]; simp
        · have hc : clampMss pkt (effectivePmtu (run env ops) - 40) = some (q, .success) := hc
          rw [hc] at hss
          rcases hp with ⟨hlen, hw, hn⟩ | ⟨new, frs, rest, hw, hd, hne, hfr, hn⟩
          · refine ⟨fp, hl.whole (q := q) ?_ hlen hst (hnx.trans hn) ?_⟩
            · unfold handed; rw [hwr, hw, List.reverse_cons]; rfl
            · rw [hss, if_neg]
              · rfl
              · rw [hwr, hw]
                intro h; have := congrArg List.length h
                simp [Conn.emit, writes] at this
          · refine ⟨_, hl.pieces (q := q) (new := new) ?_ hd hne hfr (hnx.trans hn) ?_⟩
            · unfold handed; rw [hwr, hw, List.reverse_append, List.reverse_reverse]; rfl
            · rw [hss, if_neg]
              · rfl
              · rw [hwr, hw]
                intro h
                have := congrArg List.length h
                have hlen := congrArg List.length hd
                simp [Conn.emit, writes] at this hlen
                rw [this] at hlen
                exact hne (List.length_eq_zero_iff.mp hlen.symm)
      · have e : insidePacket env ((run env ops).emit (.api .insidePacket)) pkt =
            ((run env ops).emit (.api .insidePacket), .invalidConnState) := by
          unfold insidePacket; exact if_pos hst
        rw [e] at hnx hwr
        refine ⟨fp, hl.skip (new := []) ?_ (by simp) hnx ?_⟩
        · unfold handed; rw [hwr, List.append_nil]; rfl
        · rw [hss, if_pos (show _ = writes (run env ops).log from hwr)]; simp
    · obtain ⟨new, hw, hn⟩ := step_nodata env ops op ha
      refine ⟨fp, hl.skip hw hn ?_ ?_⟩
      · rw [run_snoc]; exact step_keepNext hg op ha
      · rw [shipped_snoc, shippedAt_last]
        cases op <;> first | (exact absurd rfl ha) | simp

end Lightway
