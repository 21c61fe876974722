import Verif.Proofs.Link3
import Verif.Props.MssP
import Verif.Props.Stream

/-!
# C96, C97: whatever the network does, the receiving host gets only packets the sending host handed over, and none twice
-/

namespace Lightway
open Spec

/-- The message a delivered packet starts in: its number `i`, what happened since it arrived. -/
structure Start (W S : List Bytes) (org : Nat → Nat) (older : Log) (p m : Bytes) (n o : Log) : Prop where
  split : older = n ++ .message m :: o
  head : W[org (messages o).length]? = some m ∧ isHead m = true
  packet : S[headNo W (org (messages o).length)]? = some p
  kind : (m.head? = some 5 ∧ (∀ k, Effect.message k ∉ n) ∧ (∀ k, Effect.api k ∉ n)) ∨
    ∃ f g ml, m.head? = some 15 ∧ Held older (f.id % tableSize older) f n ∧ carried m = some f ∧
      lastMessage older = some ml ∧ carried ml = some g ∧ g.id % tableSize older = f.id % tableSize older

theorem delivery_start {env env' : Env} {ops ops' : List Op} {org : Nat → Nat} {newer older : Log} {p : Bytes}
    (h : (run env' ops').log = newer ++ .insideWrite p :: older) (hz : insidePluginsAt older = 0)
    (hz' : NoInsidePlugins env ops) (hv : SameOrder env ops env' ops')
    (hA : Authentic (handed (run env ops).log) (messages older) org)
    (hT : ToldApart (handed (run env ops).log) older org) :
    ∃ m n o, Start (handed (run env ops).log) (shipped env ops) org older p m n o := by
  obtain ⟨fp, hl⟩ := run_line env ops hz'
  obtain ⟨hlen, ⟨b, hb, hb4⟩, ml, hm, hc⟩ := C69_delivered_is_ipv4_payload h
  obtain ⟨n, o, hs, hn1, hn2⟩ := lastMessage_split hm
  have hidx : (messages older).length = (messages o).length + 1 := by
    rw [hs, messages_append, messages_nil hn1]; simp [messages]
  have hW := hA (messages o).length ml (by rw [hs]; exact messages_at n o ml)
  rcases hc hz with ⟨h5, -⟩ | ⟨h13, -⟩ | ⟨g, hg⟩
  · obtain ⟨pre, pkt, q, p1, p2, p3, p4, p5⟩ := hl.data _ _ hW h5
    obtain ⟨-, pre', buf, rs, d1, d2⟩ := delivery_at env' ops' h
    have d3 := d2 hz ml hm h5
    have : p = q := by
      rw [d3, p3]
      exact dataMsg_payload (run env pre) q p4 _ (hv pre pkt p1 p2 pre' buf rs d1).symm
    subst this
    exact ⟨ml, n, o, hs, ⟨hW, by unfold isHead; rw [h5]; simp⟩, p5, .inl ⟨h5, hn1, hn2⟩⟩
  · exact absurd h13 (hl.no13 ml (List.mem_of_getElem? hW))
  · have h15 := carried_head hg
    obtain ⟨hpos, frs, q, g', e1, e2, e3, -⟩ := hl.frag _ _ hW h15
    obtain rfl := carried_eq e3 hg
    obtain ⟨hfr, hq⟩ := hl.ids _ _ _ e1
    obtain ⟨life, en, hd, tl, now, r1, r2, r3, r4, r5, r6, r7⟩ := reassembled h hz hm hg
    -- every fragment in the slot belongs to the same packet
    have key : ∀ f, Fresh older (g.id % tableSize older) f now → ∃ m' n' o' f', older = n' ++ .message m' :: o' ∧
        Held older (f.id % tableSize older) f n' ∧ carried m' = some f ∧ f.id % tableSize older = g.id % tableSize older ∧
        (handed (run env ops).log)[org (messages o').length]? = some m' ∧ decodeFrag m' = some f' ∧ f' = f ∧ f ∈ frs ∧
        (opens m' = true → (shipped env ops)[headNo (handed (run env ops).log) (org (messages o').length)]? = some q) := by
      rintro f ⟨a1, t, a2, hh, ha2, hmono⟩
      have hh0 := hh
      obtain ⟨m', o', hs', hc', hid', ht', hd'⟩ := hh
      have hW' := hA (messages o').length m' (by rw [hs']; exact messages_at _ o' m')
      obtain ⟨hpos', frs', q', f', e1', e2', e3', e4'⟩ := hl.frag _ _ hW' (carried_head hc')
      obtain rfl := carried_eq e3' hc'
      obtain ⟨hfr', hq'⟩ := hl.ids _ _ _ e1'
      have i1 : f.id = (serial (handed (run env ops).log) (org (messages o').length) - 1) % 65536 := (hfr'.2.2.1 f e2').1
      have i2 : g.id = (serial (handed (run env ops).log) (org (messages o).length) - 1) % 65536 := (hfr.2.2.1 g e2).1
      have hser := same_serial hT (i := (messages o').length) (j := (messages o).length) (t := t) (now := now)
        ⟨a1, a2, m', o', hs', rfl, ha2⟩ r6 hmono hidx.symm hpos' hpos (by rw [← i1, ← i2]; exact hid')
      rw [hser, e1] at e1'
      cases e1'
      exact ⟨m', _, o', f, hs', by rw [hid']; exact hh0, hc', hid', hW', e3', rfl, e2', e4'⟩
    have hpq : p = q := by
      refine C14_never_corrupt h hz hm hg r6 hfr (fun f hf => ?_)
      obtain ⟨_, _, _, _, _, _, _, _, _, _, _, hin, _⟩ := key f hf
      exact hin
    subst hpq
    -- the fragment that holds the first byte
    have hbit : en.data[0]? = some b := by
      have : p[0]? = some b := by rw [← List.head?_eq_getElem?]; exact hb
      rw [r5] at this
      rcases Nat.eq_zero_or_pos hd.e with h0 | h0
      · rw [h0] at this; simp at this
      · rwa [List.getElem?_take_of_lt h0] at this
    rcases r1.bytes 0 b hbit with h0 | ⟨f, hf, hoff, -⟩
    · rw [h0] at hb4; exact absurd hb4 (by decide)
    · obtain ⟨m', n', o', f', k1, k2, k3, k4, k5, k6, k7, k8, k9⟩ := key f (r7 f hf)
      have hop : opens m' = true := by
        unfold opens; rw [k6, k7]; simp only [beq_iff_eq]; omega
      exact ⟨m', n', o', k1, ⟨k5, by unfold isHead; rw [hop]; rfl⟩, k9 hop,
        .inr ⟨f, g, ml, opens_head hop, k2, k3, hm, hg, k4.symm⟩⟩

/-- **C96** (no forged, mixed or damaged packets) The whole life of a sending connection and the whole life of a
receiving one, any two; no inside plugins; a network that loses, reorders, delays and repeats messages, of which TLS
lets only genuine ones through; and few enough packets fragmented at a time that the receiver's slots tell them apart.
Then every packet given to the receiving host is one the sending host handed over. -/
theorem C96_integrity {env env' : Env} {ops ops' : List Op} {org : Nat → Nat} {newer older : Log} {p : Bytes}
    (h : (run env' ops').log = newer ++ .insideWrite p :: older) (hz : insidePluginsAt older = 0)
    (hz' : NoInsidePlugins env ops) (hv : SameOrder env ops env' ops')
    (hA : Authentic (handed (run env ops).log) (messages older) org)
    (hT : ToldApart (handed (run env ops).log) older org) : p ∈ shipped env ops := by
  obtain ⟨m, n, o, hs⟩ := delivery_start h hz hz' hv hA hT
  exact List.mem_of_getElem? hs.packet

/-- **C96** (what was handed over) A shipped packet was handed over in some call made while ONLINE that gave something to
TLS, and is what the host handed over except for the maximum segment size of a TCP SYN. -/
theorem C96_shipped {env : Env} {ops : List Op} {q : Bytes} (h : q ∈ shipped env ops) :
    ∃ pre pkt, (pre ++ [.insidePacket pkt]) <+: ops ∧ (run env pre).state = .online ∧
      writes (run env (pre ++ [.insidePacket pkt])).log ≠ writes (run env pre).log ∧ SameButMss pkt q := by
  unfold shipped at h
  rw [List.mem_filterMap] at h
  obtain ⟨i, hi, h⟩ := h
  unfold shippedAt at h
  split at h
  · rename_i pkt hop
    have hpre : ops.take (i + 1) = ops.take i ++ [.insidePacket pkt] := by
      rw [List.take_add_one, hop]; rfl
    split at h
    · cases h
    · rename_i hw
      rw [hpre] at hw
      obtain ⟨r, hr1, hr2⟩ := Option.map_eq_some_iff.mp h
      obtain ⟨q', rc⟩ := r
      simp only at hr2
      subst hr2
      have hp : (ops.take i ++ [.insidePacket pkt]) <+: ops := by rw [← hpre]; exact List.take_prefix _ _
      have honl : (run env (ops.take i)).state = .online := by
        false_or_by_contra
        rename_i hst
        apply hw
        rw [run_snoc]
        show writes (insidePacket env ((run env (ops.take i)).emit (.api .insidePacket)) pkt).1.log = _
        have e : insidePacket env ((run env (ops.take i)).emit (.api .insidePacket)) pkt =
            ((run env (ops.take i)).emit (.api .insidePacket), .invalidConnState) := by
          unfold insidePacket; exact if_pos hst
        rw [e]; rfl
      obtain ⟨c1, c2, c3, -⟩ := C19_only_mss_and_checksum _ _ _ _ hr1
      refine ⟨ops.take i, pkt, hp, honl, hw, c1, fun j hj => ?_, c3⟩
      obtain ⟨k, k1, -, k2⟩ := c2 j hj
      exact ⟨k, k1, k2⟩
  · cases h

/-! ### Counting -/

theorem nodup_subset_length : ∀ {l k : List Nat}, l.Nodup → (∀ x ∈ l, x ∈ k) → l.length ≤ k.length := by
  intro l
  induction l with
  | nil => intro k _ _; simp
  | cons a l ih =>
    intro k hn hs
    have ha := hs a (by simp)
    obtain ⟨k1, k2, rfl⟩ := List.append_of_mem ha
    rw [List.nodup_cons] at hn
    have := ih (k := k1 ++ k2) hn.2 (fun x hx => by
      have hx' := hs x (by simp [hx])
      have hne : x ≠ a := fun e => hn.1 (e ▸ hx)
      simp only [List.mem_append, List.mem_cons] at hx' ⊢
      rcases hx' with h | h | h
      · exact .inl h
      · exact absurd h hne
      · exact .inr h)
    simp at this ⊢; omega

theorem count_range {α : Type} [BEq α] [LawfulBEq α] (x : α) : ∀ l : List α,
    l.count x = ((List.range l.length).filter (fun i => l[i]? == some x)).length := by
  intro l
  induction l with
  | nil => rfl
  | cons a l ih =>
    rw [List.length_cons, List.range_succ_eq_map, List.filter_cons, List.filter_map, List.count_cons, ih]
    simp only [List.getElem?_cons_zero, Function.comp_def, List.getElem?_cons_succ]
    by_cases h : a = x
    · subst h; simp
    · have : (some a == some x) = false := by simpa using h
      rw [this]
      simp [h]

theorem nodup_map_on {f : Nat → Nat} : ∀ {l : List Nat}, l.Nodup → (∀ a ∈ l, ∀ b ∈ l, f a = f b → a = b) → (l.map f).Nodup := by
  intro l
  induction l with
  | nil => intro _ _; simp
  | cons a l ih =>
    intro hn hi
    rw [List.nodup_cons] at hn
    rw [List.map_cons, List.nodup_cons]
    refine ⟨?_, ih hn.2 (fun x hx y hy => hi x (by simp [hx]) y (by simp [hy]))⟩
    intro hm
    obtain ⟨b, hb, e⟩ := List.mem_map.mp hm
    have := hi a (by simp) b (by simp [hb]) e.symm
    exact hn.1 (this ▸ hb)

/-- If every element of `A` has a place of its own in `B`, `B` has at least as many copies of each. -/
theorem count_le_of_places {α : Type} [BEq α] [LawfulBEq α] {A B : List α} (f : Nat → Nat)
    (h : ∀ d x, A[d]? = some x → B[f d]? = some x)
    (hi : ∀ d d', d < A.length → d' < A.length → f d = f d' → d = d') (x : α) : A.count x ≤ B.count x := by
  rw [count_range, count_range, ← List.length_map (f := f)]
  apply nodup_subset_length
  · refine nodup_map_on (List.Pairwise.filter _ List.nodup_range) (fun a ha b hb e => ?_)
    rw [List.mem_filter, List.mem_range] at ha hb
    exact hi a b ha.1 hb.1 e
  · intro k hk
    obtain ⟨d, hd, rfl⟩ := List.mem_map.mp hk
    rw [List.mem_filter, List.mem_range, beq_iff_eq] at hd
    have := h d x hd.2
    rw [List.mem_filter, List.mem_range, beq_iff_eq]
    refine ⟨?_, this⟩
    rcases Nat.lt_or_ge (f d) B.length with h1 | h1
    · exact h1
    · rw [List.getElem?_eq_none h1] at this; cases this

theorem delivered_app (a b : Log) : delivered (a ++ b) = delivered a ++ delivered b := by
  induction a with
  | nil => rfl
  | cons e a ih => cases e <;> simp [delivered, ih]

/-- The `d`-th delivery, in the history. -/
theorem delivered_split {l : Log} {d : Nat} {p : Bytes} (h : (delivered l).reverse[d]? = some p) :
    ∃ newer older, l = newer ++ .insideWrite p :: older ∧ (delivered older).length = d := by
  induction l with
  | nil => simp [delivered] at h
  | cons e l ih =>
    have key : (delivered l).reverse[d]? = some p →
        ∃ newer older, e :: l = newer ++ .insideWrite p :: older ∧ (delivered older).length = d := by
      intro h
      obtain ⟨n, o, rfl, h2⟩ := ih h
      exact ⟨e :: n, o, rfl, h2⟩
    cases e with
    | insideWrite q =>
      have h : ((delivered l).reverse ++ [q])[d]? = some p := by simpa [delivered] using h
      rcases Nat.lt_or_ge d (delivered l).reverse.length with h1 | h1
      · rw [List.getElem?_append_left h1] at h; exact key h
      · rw [List.getElem?_append_right h1] at h
        have hd : d = (delivered l).reverse.length := by
          rcases Nat.lt_or_ge (d - (delivered l).reverse.length) 1 with h2 | h2
          · omega
          · rw [List.getElem?_eq_none (by simpa using h2)] at h; cases h
        rw [hd] at h
        simp at h
        subst h
        exact ⟨[], l, rfl, by simpa using hd.symm⟩
    | _ => exact key h

theorem headNo_lt {W : List Bytes} {k k' : Nat} {m : Bytes} (hm : W[k]? = some m) (hh : isHead m = true) (hlt : k < k') :
    headNo W k < headNo W k' := by
  unfold headNo
  have : W.take (k + 1) = W.take k ++ [m] := by rw [List.take_add_one, hm]; rfl
  have h1 : (W.take (k + 1)).countP isHead = (W.take k).countP isHead + 1 := by
    rw [this, List.countP_append, List.countP_singleton, hh]; rfl
  have h2 : (W.take (k + 1)).Sublist (W.take k') := by
    have : W.take (k + 1) = (W.take k').take (k + 1) := by rw [List.take_take]; congr 1; omega
    rw [this]; exact List.take_sublist _ _
  have := h2.countP_le (p := isHead)
  omega

/-- Two deliveries never start in the same message. -/
theorem start_once {env' : Env} {ops' : List Op} {W S : List Bytes} {org : Nat → Nat} {older1 older2 n1 o1 n2 o2 y : Log}
    {newer : Log} {p1 p2 m1 m2 : Bytes} (h : (run env' ops').log = newer ++ .insideWrite p2 :: older2)
    (hy : older2 = y ++ .insideWrite p1 :: older1)
    (s1 : Start W S org older1 p1 m1 n1 o1) (s2 : Start W S org older2 p2 m2 n2 o2)
    (hi : (messages o1).length = (messages o2).length) : False := by
  obtain ⟨e1, e2, e3⟩ := split_unique (n := n2) (n' := y ++ .insideWrite p1 :: n1) (m := m2) (m' := m1) (o := o2) (o' := o1)
    (by rw [← s2.split, hy, s1.split]; simp) hi.symm
  subst e1 e2 e3
  rcases s2.kind with ⟨h5, k1, k2⟩ | ⟨f, g, ml, h15, hh, hc, -, -, -⟩
  · have hd := (delivery_at env' ops' h).1
    rw [hy, deliveredSince_skip (fun k hk => k1 k (by simp [hk])) (fun k hk => k2 k (by simp [hk]))] at hd
    cases hd
  · rcases s1.kind with ⟨h5, _⟩ | ⟨f1, g1, ml1, -, hh1, hc1, hl1, hg1, hid1⟩
    · rw [h5] at h15; exact absurd h15 (by decide)
    · rw [hc] at hc1
      cases hc1
      obtain ⟨m', o', q1, q2, q3, q4, q5⟩ := hh
      have hmo : m' = m2 ∧ o' = o2 := by
        have := s2.split.symm.trans q1
        have := List.append_cancel_left this
        simp only [List.cons.injEq, Effect.message.injEq] at this
        exact ⟨this.1.symm, this.2.symm⟩
      obtain ⟨rfl, rfl⟩ := hmo
      have ht1 : tableSize older1 = tableSize older2 := by
        unfold tableSize
        rw [s1.split, s2.split, tableAt_skip q4, tableAt_skip (fun k hk => q4 k (by simp [hk]))]
      refine q5 ⟨y, p1, n1, ml1, g1, rfl, ?_, hg1, ?_⟩
      · rw [← s1.split]; exact hl1
      · rw [← ht1]; exact hid1

theorem start_inj {W S : List Bytes} {R : Log} {org : Nat → Nat} (hN : NoReplay (messages R) org)
    {older1 older2 n1 o1 n2 o2 : Log} {p1 p2 m1 m2 : Bytes}
    (s1 : Start W S org older1 p1 m1 n1 o1) (s2 : Start W S org older2 p2 m2 n2 o2)
    (h1 : older1 <:+ R) (h2 : older2 <:+ R)
    (he : headNo W (org (messages o1).length) = headNo W (org (messages o2).length)) :
    (messages o1).length = (messages o2).length := by
  have lt : ∀ {older n o : Log} {m : Bytes}, older <:+ R → older = n ++ .message m :: o → (messages o).length < (messages R).length := by
    rintro older n o m ⟨z, rfl⟩ rfl
    simp only [messages_append, messages, List.length_append, List.length_cons, List.length_nil]; omega
  refine hN _ _ (lt h1 s1.split) (lt h2 s2.split) ?_
  rcases Nat.lt_trichotomy (org (messages o1).length) (org (messages o2).length) with h | h | h
  · have := headNo_lt s1.head.1 s1.head.2 h; omega
  · exact h
  · have := headNo_lt s2.head.1 s2.head.2 h; omega

/-- **C97** (at most once) If, in addition, no message comes out of TLS twice, then no packet is given to the receiving
host more often than the sending host handed it over. -/
theorem C97_at_most_once {env env' : Env} {ops ops' : List Op} {org : Nat → Nat}
    (hz : ∀ newer p older, (run env' ops').log = newer ++ .insideWrite p :: older → insidePluginsAt older = 0)
    (hz' : NoInsidePlugins env ops) (hv : SameOrder env ops env' ops')
    (hA : Authentic (handed (run env ops).log) (messages (run env' ops').log) org)
    (hN : NoReplay (messages (run env' ops').log) org)
    (hT : ∀ newer p older, (run env' ops').log = newer ++ .insideWrite p :: older →
      ToldApart (handed (run env ops).log) older org) (p : Bytes) :
    (delivered (run env' ops').log).count p ≤ (shipped env ops).count p := by
  have hA' : ∀ newer p older, (run env' ops').log = newer ++ .insideWrite p :: older →
      Authentic (handed (run env ops).log) (messages older) org := by
    intro newer p older h j m hj
    refine hA j m ?_
    rw [h, messages_append]
    show (messages older ++ messages newer)[j]? = _
    rw [List.getElem?_append_left]
    · exact hj
    · rcases Nat.lt_or_ge j (messages older).length with h1 | h1
      · exact h1
      · rw [List.getElem?_eq_none h1] at hj; cases hj
  have hex : ∀ d, ∃ k, ∀ q, (delivered (run env' ops').log).reverse[d]? = some q →
      ∃ newer older m n o, (run env' ops').log = newer ++ .insideWrite q :: older ∧ (delivered older).length = d ∧
        Start (handed (run env ops).log) (shipped env ops) org older q m n o ∧
        k = headNo (handed (run env ops).log) (org (messages o).length) := by
    intro d
    cases hd : (delivered (run env' ops').log).reverse[d]? with
    | none => exact ⟨0, fun q hq => by cases hq⟩
    | some q =>
      obtain ⟨newer, older, h1, h2⟩ := delivered_split hd
      obtain ⟨m, n, o, hs⟩ := delivery_start h1 (hz _ _ _ h1) hz' hv (hA' _ _ _ h1) (hT _ _ _ h1)
      refine ⟨headNo (handed (run env ops).log) (org (messages o).length), fun q' hq' => ?_⟩
      cases hq'
      exact ⟨newer, older, m, n, o, h1, h2, hs, rfl⟩
  obtain ⟨f, hf⟩ := Classical.axiomOfChoice hex
  rw [← List.count_reverse]
  refine count_le_of_places f (fun d x hx => ?_) (fun d d' hd hd' he => ?_) p
  · obtain ⟨newer, older, m, n, o, -, -, hs, hk⟩ := hf d x hx
    rw [hk]; exact hs.packet
  · obtain ⟨x, hx⟩ : ∃ x, (delivered (run env' ops').log).reverse[d]? = some x := ⟨_, List.getElem?_eq_getElem hd⟩
    obtain ⟨x', hx'⟩ : ∃ x, (delivered (run env' ops').log).reverse[d']? = some x := ⟨_, List.getElem?_eq_getElem hd'⟩
    obtain ⟨w1, l1, m1, n1, o1, a1, a2, a3, a4⟩ := hf d x hx
    obtain ⟨w2, l2, m2, n2, o2, b1, b2, b3, b4⟩ := hf d' x' hx'
    have suf : ∀ {w l : Log} {q : Bytes}, (run env' ops').log = w ++ .insideWrite q :: l → l <:+ (run env' ops').log := by
      intro w l q h; exact ⟨w ++ [.insideWrite q], by rw [h]; simp⟩
    have hi := start_inj hN a3 b3 (suf a1) (suf b1) (by rw [← a4, ← b4]; exact he)
    -- one of the two is later
    have later : ∀ {w l w' l' : Log} {q q' : Bytes}, (run env' ops').log = w ++ .insideWrite q :: l →
        (run env' ops').log = w' ++ .insideWrite q' :: l' → (delivered l).length < (delivered l').length →
        ∃ y, l' = y ++ .insideWrite q :: l := by
      intro w l w' l' q q' h1 h2 hlt
      rcases cut_cases (b := .insideWrite q' :: l') (h2.symm.trans h1) with ⟨z, c1, c2⟩ | ⟨z, c1, c2⟩
      · exfalso
        rw [c2, delivered_app] at hlt
        simp [delivered] at hlt; omega
      · cases z with
        | nil =>
          simp only [List.nil_append, List.cons.injEq] at c2
          rw [c2.2] at hlt; omega
        | cons z zs =>
          simp only [List.cons_append, List.cons.injEq] at c2
          exact ⟨zs, c2.2⟩
    rcases Nat.lt_trichotomy d d' with h | h | h
    · obtain ⟨y, hy⟩ := later a1 b1 (by omega)
      exact (start_once b1 hy a3 b3 hi).elim
    · exact h
    · obtain ⟨y, hy⟩ := later b1 a1 (by omega)
      exact (start_once a1 hy b3 a3 hi.symm).elim

/-! ### A concrete case -/

namespace Demo

/-- The client hands over a small packet and a big one, which leaves in two fragments. -/
def linkSend : List Op := clientOps ++ [.insidePacket ipPkt, .insidePacket bigPkt]

/-- The credentials, the small packet and the two fragments. -/
def linkWire : List Bytes := handed (run env linkSend).log

/-- The server receives the second fragment, the first fragment, the small packet. -/
def linkRecv : List Op := serverOps ++ [recv linkWire[3]!, recv linkWire[2]!, recv linkWire[1]!]

def linkOrg (j : Nat) : Nat := [0, 3, 2, 1][j]!

theorem take_of_prefix {pre ops : List Op} {x : Op} (h : (pre ++ [x]) <+: ops) : pre = ops.take pre.length ∧ pre.length < ops.length := by
  obtain ⟨r, rfl⟩ := h
  exact ⟨by simp, by simp⟩

theorem link_hyp : NoInsidePlugins env linkSend ∧ SameOrder env linkSend env linkRecv ∧
    Authentic (handed (run env linkSend).log) (messages (run env linkRecv).log) linkOrg ∧
    NoReplay (messages (run env linkRecv).log) linkOrg ∧
    (∀ newer p older, (run env linkRecv).log = newer ++ .insideWrite p :: older →
      insidePluginsAt older = 0 ∧ ToldApart (handed (run env linkSend).log) older linkOrg) := by
  have hz : ∀ i, i < linkSend.length → insidePluginsAt (run env (linkSend.take i)).log = 0 ∧
      (run env (linkSend.take i)).verMinor ≠ 0 ∨ insidePluginsAt (run env (linkSend.take i)).log = 0 ∧
      (run env (linkSend.take i)).verMajor ≠ 1 := by decide +kernel
  have hv : ∀ i, i < linkRecv.length → (run env (linkRecv.take i)).verMinor ≠ 0 ∨ (run env (linkRecv.take i)).verMajor ≠ 1 := by
    decide +kernel
  have hl : (messages (run env linkRecv).log).length = 4 := by decide +kernel
  refine ⟨?_, ?_, ?_, ?_, ?_⟩
  · intro pre pkt h
    obtain ⟨h1, h2⟩ := take_of_prefix h
    rw [h1]
    rcases hz _ h2 with h | h <;> exact h.1
  · intro pre pkt h _ pre' buf rs h'
    obtain ⟨h1, h2⟩ := take_of_prefix h
    obtain ⟨h1', h2'⟩ := take_of_prefix h'
    rw [h1, h1']
    have k1 := hz _ h2
    have k2 := hv _ h2'
    constructor
    · intro ⟨a, b⟩
      rcases k1 with k | k
      · exact absurd b k.2
      · exact absurd a k.2
    · intro ⟨a, b⟩
      rcases k2 with k | k
      · exact absurd b k
      · exact absurd a k
  · intro j m hj
    have hlt : j < 4 := by
      rcases Nat.lt_or_ge j 4 with h | h
      · exact h
      · rw [List.getElem?_eq_none (by omega)] at hj; cases hj
    have : ∀ j, j < 4 → (handed (run env linkSend).log)[linkOrg j]? = (messages (run env linkRecv).log)[j]? := by decide +kernel
    rw [this j hlt]; exact hj
  · intro i j hi hj
    rw [hl] at hi hj
    have : ∀ i, i < 4 → ∀ j, j < 4 → linkOrg i = linkOrg j → i = j := by decide
    exact this i hi j hj
  · intro newer p older h
    have hc : (handed (run env linkSend).log).countP opens = 1 := by decide +kernel
    have hch : (run env linkRecv).log.all (fun e => match e with | .chains i _ => i == 0 | _ => true) = true := by decide +kernel
    have key : ∀ l : Log, l.all (fun e => match e with | .chains i _ => i == 0 | _ => true) = true → insidePluginsAt l = 0 := by
      intro l
      induction l with
      | nil => intro _; rfl
      | cons e l ih =>
        intro h
        rw [List.all_cons, Bool.and_eq_true] at h
        cases e with
        | chains i o => simpa [insidePluginsAt] using h.1
        | _ => exact ih h.2
    refine ⟨key older ?_, .inr (by rw [hc]; omega), .inl ?_⟩
    · rw [h, List.all_append, Bool.and_eq_true, List.all_cons, Bool.and_eq_true] at hch
      exact hch.2.2
    · rw [hc]; unfold tableSize; split <;> omega

end Demo

/-- The small and the big packet arrive, once each, out of order. -/
example : delivered (run Demo.env Demo.linkRecv).log = [Demo.ipPkt, bigPkt] ∧
    shipped Demo.env Demo.linkSend = [Demo.ipPkt, bigPkt] := by decide +kernel

example (p : Bytes) : (delivered (run Demo.env Demo.linkRecv).log).count p ≤ (shipped Demo.env Demo.linkSend).count p :=
  C97_at_most_once (fun n p o h => (Demo.link_hyp.2.2.2.2 n p o h).1) Demo.link_hyp.1 Demo.link_hyp.2.1
    Demo.link_hyp.2.2.1 Demo.link_hyp.2.2.2.1 (fun n p o h => (Demo.link_hyp.2.2.2.2 n p o h).2) p

/-! ### Few slots, and time between the packets -/

/-- Clock readings with the number of the message during whose processing they were made, newest first. -/
def readings : Log → List (Nat × Int)
  | [] => []
  | .clock t :: l => if (messages l).isEmpty then readings l else ((messages l).length - 1, t) :: readings l
  | _ :: l => readings l

theorem readings_cons (e : Effect) (l : Log) {x : Nat × Int} (h : x ∈ readings l) : x ∈ readings (e :: l) := by
  cases e with
  | clock t =>
    unfold readings
    split
    · exact h
    · exact List.mem_cons_of_mem _ h
  | _ => exact h

theorem messages_skip {a : Log} (ha : ∀ m, Effect.message m ∉ a) (l : Log) : messages (a ++ l) = messages l := by
  induction a with
  | nil => rfl
  | cons e a ih =>
    have h := ih (fun m hm => ha m (List.mem_cons_of_mem _ hm))
    cases e with
    | message m => exact absurd (by simp) (ha m)
    | _ => exact h

theorem mem_readings {l : Log} {i : Nat} {t : Int} (h : ReadAt l i t) : (i, t) ∈ readings l := by
  obtain ⟨n, a, m, o, rfl, hi, ha⟩ := h
  have e : messages (a ++ .message m :: o) = messages o ++ [m] := messages_skip ha _
  induction n with
  | nil =>
    show (i, t) ∈ readings (.clock t :: (a ++ .message m :: o))
    unfold readings
    rw [e, if_neg (by simp)]
    simp [hi]
  | cons x n ih => exact readings_cons x _ ih

/-- The condition `Window`, checked. -/
def windowOk (W : List Bytes) (l : Log) (org : Nat → Nat) (N : Nat) : Bool :=
  match lastClock l with
  | none => true
  | some now => (readings l).all fun r => decide (64 < now - r.2) ||
      (decide (serial W (org r.1) < serial W (org ((messages l).length - 1)) + N) &&
       decide (serial W (org ((messages l).length - 1)) < serial W (org r.1) + N))

theorem window_of_ok {W : List Bytes} {l : Log} {org : Nat → Nat} {N : Nat} (h : windowOk W l org N = true) : Window W l org N := by
  intro i j t now hr hc ht hj
  unfold windowOk at h
  rw [hc] at h
  have := List.all_eq_true.mp h _ (mem_readings hr)
  rw [show (messages l).length - 1 = j by omega] at this
  rw [Bool.or_eq_true, Bool.and_eq_true, decide_eq_true_iff, decide_eq_true_iff, decide_eq_true_iff] at this
  rcases this with h1 | h1
  · dsimp only at h1; omega
  · exact h1

/-- The clock readings, newest first. -/
def clocks : Log → List Int
  | [] => []
  | .clock t :: l => t :: clocks l
  | _ :: l => clocks l

theorem mem_clocks {l : Log} {t : Int} (h : Effect.clock t ∈ l) : t ∈ clocks l := by
  induction l with
  | nil => cases h
  | cons e l ih =>
    rcases List.mem_cons.mp h with h | h
    · subst h; exact List.mem_cons_self
    · have := ih h
      cases e with
      | clock s => exact List.mem_cons_of_mem _ this
      | _ => exact this

theorem monotone_of {l : Log} (h : (clocks l).Pairwise (fun t s => s ≤ t)) : ClockMonotone l := by
  unfold ClockMonotone
  induction l with
  | nil => trivial
  | cons e l ih =>
    cases e with
    | clock t =>
      have h := List.pairwise_cons.mp h
      refine ⟨fun t' e s hs => ?_, ih h.2⟩
      injection e with e
      subst e
      exact h.1 _ (mem_clocks hs)
    | _ => exact ⟨fun t e => (by cases e), ih h⟩

namespace Demo

/-- The clock advances by 100 seconds with every packet delivered. -/
def slowEnv : Env := { env with now := fun l => 100 * (delivered l).length }

/-- Another packet that leaves in two fragments. -/
def bigPkt' : Bytes := [69, 0, 5, 106] ++ zeros 1381 ++ [7]

/-- The client hands over two big packets; the server has one slot, and receives both in order. -/
def slowSend : List Op := clientOps ++ [.insidePacket bigPkt, .insidePacket bigPkt']
def slowWire : List Bytes := handed (run slowEnv slowSend).log
def slowRecv : List Op := serverOpsWith { ctx with maxFragEntries := 1 } ++
  [recv slowWire[1]!, recv slowWire[2]!, recv slowWire[3]!, recv slowWire[4]!]

/-- More packets are fragmented than the server has slots, and still it can tell them apart whenever it delivers one. -/
theorem slow_told_apart : ∀ newer p older, (run slowEnv slowRecv).log = newer ++ .insideWrite p :: older →
    ToldApart (handed (run slowEnv slowSend).log) older id := by
  have key : ∀ k, k < (run slowEnv slowRecv).log.length →
      (match (run slowEnv slowRecv).log[k]? with
       | some (.insideWrite _) =>
         decide (tableSize ((run slowEnv slowRecv).log.drop (k + 1)) = 1 ∧
           (clocks ((run slowEnv slowRecv).log.drop (k + 1))).Pairwise (fun t s => s ≤ t)) &&
         windowOk (handed (run slowEnv slowSend).log) ((run slowEnv slowRecv).log.drop (k + 1)) id 1
       | _ => true) = true := by decide +kernel
  intro newer p older h
  have hk := key newer.length (by rw [h]; simp)
  have e : (newer ++ .insideWrite p :: older).drop (newer.length + 1) = older := by
    rw [← List.drop_drop, List.drop_left]; rfl
  rw [h, List.getElem?_append_right (Nat.le_refl _), Nat.sub_self, e] at hk
  replace hk : (decide (tableSize older = 1 ∧ (clocks older).Pairwise (fun t s => s ≤ t)) &&
    windowOk (handed (run slowEnv slowSend).log) older id 1) = true := hk
  rw [Bool.and_eq_true, decide_eq_true_iff] at hk
  exact ⟨.inl (by rw [hk.1.1]; exact ⟨65536, rfl⟩), .inr ⟨monotone_of hk.1.2, by rw [hk.1.1]; exact window_of_ok hk.2⟩⟩

example : (handed (run slowEnv slowSend).log).countP opens = 2 ∧ tableSize (run slowEnv slowRecv).log = 1 ∧
    delivered (run slowEnv slowRecv).log = [bigPkt', bigPkt] ∧ shipped slowEnv slowSend = [bigPkt, bigPkt'] := by decide +kernel

end Demo

end Lightway
