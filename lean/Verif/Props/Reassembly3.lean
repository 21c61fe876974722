import Verif.Props.Reassembly2

/-!
# The order of arrival decides whether a fragmented packet is delivered (C79)
-/

namespace Lightway
open Spec

/-! ### Fragments of one packet are apart -/

theorem contiguous_pairwise {o : Nat} {frs : List Fragment} (h : Contiguous o frs) :
    frs.Pairwise (fun f g => f.off + f.data.length ≤ g.off) := by
  induction frs generalizing o with
  | nil => exact .nil
  | cons f r ih =>
    obtain ⟨h1, _, _, h4⟩ := h
    refine .cons (fun g hg => ?_) (ih h4)
    have := (contiguous_facts h4 g hg).2.1
    omega

theorem fragments_apart {o : Nat} {frs : List Fragment} (h : Contiguous o frs) :
    ∀ {f g : Fragment}, f ∈ frs → g ∈ frs → f = g ∨ f.off + f.data.length ≤ g.off ∨ g.off + g.data.length ≤ f.off := by
  have hp := contiguous_pairwise h
  intro f g hf hg
  clear h
  induction hp with
  | nil => cases hf
  | @cons a l h1 _ ih =>
    rcases List.mem_cons.mp hf with hf | hf
    · rcases List.mem_cons.mp hg with hg | hg
      · exact .inl (hf.trans hg.symm)
      · rw [hf]; exact .inr (.inl (h1 g hg))
    · rcases List.mem_cons.mp hg with hg | hg
      · rw [hg]; exact .inr (.inr (h1 f hf))
      · exact ih hf hg

theorem fragments_nodup {o : Nat} {frs : List Fragment} (h : Contiguous o frs) : frs.Nodup := by
  refine List.Pairwise.imp_of_mem ?_ (contiguous_pairwise h)
  intro a b ha _ hab e
  subst e
  have := (contiguous_facts h a ha).1
  omega

/-! ### The list walk never loses a node -/

/-- Node ends increase. -/
abbrev Rising (ns : List FragNode) : Prop := ns.Pairwise (fun a b => a.e < b.e)

/-- What one walk makes of the nodes `old`. -/
def Walked (x : Nat) (old ns : List FragNode) : Prop :=
  Rising ns ∧ old.length ≤ ns.length ∧ ∀ n ∈ ns, n.e = x ∨ ∃ m ∈ old, m.e = n.e

theorem walk_rising {off len : Nat} {last : Bool} (hlen : 0 < len) : ∀ (dn sk rest : List FragNode),
    Apart rest → Rising (dn.reverse ++ rest) → (∀ n ∈ dn, n.e < off) → sk.length ≤ 1 →
    (∀ n ∈ sk, n.e = off + len) → (∀ n ∈ sk, ∀ m ∈ rest, off < m.e) → (∀ n ∈ rest, off < n.e → off + len < n.e) →
    ∃ ns, (walk true off len last dn sk rest = .done ns ∨ walk true off len last dn sk rest = .bad ns) ∧
      Walked (off + len) (dn.reverse ++ sk.reverse ++ rest) ns := by
  have plain : ∀ (dn sk rest : List FragNode), Rising (dn.reverse ++ rest) → (∀ n ∈ dn, n.e < off) → sk.length ≤ 1 →
      (∀ n ∈ sk, n.e = off + len) → (∀ n ∈ sk, ∀ m ∈ rest, off < m.e) → (∀ n ∈ rest, off < n.e → off + len < n.e) →
      Rising (dn.reverse ++ sk.reverse ++ rest) := by
    intro dn sk rest hr hd hs1 hs2 hs3 hx
    rw [Rising, List.pairwise_append] at hr
    obtain ⟨r1, r2, r3⟩ := hr
    rw [Rising, List.append_assoc, List.pairwise_append]
    refine ⟨r1, List.pairwise_append.2 ⟨?_, r2, ?_⟩, ?_⟩
    · match sk, hs1 with
      | [], _ => exact .nil
      | [a], _ => exact List.pairwise_singleton _ _
    · intro a ha b hb
      rw [hs2 a (by simpa using ha)]
      exact hx b hb (hs3 a (by simpa using ha) b hb)
    · intro a ha b hb
      rcases List.mem_append.mp hb with hb | hb
      · rw [hs2 b (by simpa using hb)]
        have := hd a (by simpa using ha)
        omega
      · exact r3 a ha b hb
  intro dn sk rest
  fun_induction walk true off len last dn sk rest with
  | case1 dn sk =>
    intro _ hr hd hs1 hs2 hs3 hx
    refine ⟨_, .inl rfl, ?_, by simp, fun n hn => .inr ⟨n, by simpa using hn, rfl⟩⟩
    simpa using plain dn sk [] hr hd hs1 hs2 hs3 hx
  | case2 dn sk curr rest heq ih =>
    intro ha hr hd hs1 hs2 hs3 hx
    have hsk : sk = [] := by
      cases sk with
      | nil => rfl
      | cons a l => exact absurd (hs3 a (by simp) curr (by simp)) (by omega)
    subst hsk
    have hrt : ∀ m ∈ rest, off < m.e := by
      intro m hm
      have := (List.pairwise_append.1 hr).2.1
      rw [List.pairwise_cons] at this
      have := this.1 m hm
      omega
    obtain ⟨ns, h1, h2, h3, h4⟩ := ih
      (by cases rest with
          | nil => trivial
          | cons b r => exact ha.2)
      (List.Pairwise.sublist (List.Sublist.append (List.Sublist.refl _) (List.sublist_cons_self _ _)) hr) hd (by simp)
      (by simp) (by intro n _ m hm; exact hrt m hm) (fun n hn => hx n (by simp [hn]))
    refine ⟨ns, h1, h2, by simpa using h3, fun n hn => ?_⟩
    rcases h4 n hn with h | ⟨m, hm, he⟩
    · exact .inl h
    · simp only [List.reverse_cons, List.reverse_nil, List.nil_append, List.append_assoc, List.mem_append, List.mem_reverse,
        List.cons_append, List.mem_cons] at hm
      rcases hm with hm | hm | hm
      · exact .inr ⟨m, by simp [hm], he⟩
      · subst hm; left; exact he.symm
      · exact .inr ⟨m, by simp [hm], he⟩
  | case3 dn sk curr rest hne heq =>
    intro ha hr hd hs1 hs2 hs3 hx
    have hpl := plain dn sk (curr :: rest) hr hd hs1 hs2 hs3 hx
    refine ⟨_, .inl rfl, ?_, by simp, fun n hn => ?_⟩
    · rw [Rising, List.pairwise_append, List.pairwise_cons] at hpl ⊢
      refine ⟨hpl.1, ⟨fun m hm => hpl.2.1.1 m hm, hpl.2.1.2⟩, fun a ha b hb => ?_⟩
      rcases List.mem_cons.mp hb with rfl | hb
      · exact hpl.2.2 a ha curr (by simp)
      · exact hpl.2.2 a ha b (by simp [hb])
    · rcases List.mem_append.mp hn with hn | hn
      · exact .inr ⟨n, List.mem_append.2 (.inl hn), rfl⟩
      · rcases List.mem_cons.mp hn with rfl | hn
        · exact .inr ⟨curr, by simp, rfl⟩
        · exact .inr ⟨n, by simp [hn], rfl⟩
  | case4 dn sk curr hne hne2 hgt _ =>
    intro ha hr hd hs1 hs2 hs3 hx
    have hsk : sk = [] := by
      cases sk with
      | nil => rfl
      | cons a l => exact absurd (hs3 a (by simp) curr (by simp)) (by omega)
    subst hsk
    refine ⟨_, .inl rfl, ?_, by simp, fun n hn => ?_⟩
    · have hr' := List.pairwise_append.1 hr
      simp only [Rising, List.reverse_nil, List.append_nil]
      rw [List.pairwise_append]
      refine ⟨hr'.1, ?_, ?_⟩
      · rw [List.pairwise_cons]
        exact ⟨by intro b hb; simp only [List.mem_singleton] at hb; subst hb; simp only; omega, List.pairwise_singleton _ _⟩
      · intro a hm b hb
        simp only [List.mem_cons, List.not_mem_nil, or_false] at hb
        rcases hb with rfl | rfl
        · exact hr'.2.2 a hm _ (by simp)
        · have := hd a (by simpa using hm); simp only; omega
    · simp only [List.reverse_nil, List.append_nil, List.mem_append, List.mem_reverse, List.mem_cons, List.not_mem_nil, or_false] at hn
      rcases hn with hn | rfl | rfl
      · exact .inr ⟨n, by simp [hn], rfl⟩
      · exact .inr ⟨_, by simp, rfl⟩
      · exact .inl rfl
  | case5 dn sk curr hne hne2 hgt hal => exact absurd rfl hal
  | case6 dn sk curr hne hne2 hgt n2 hj => intro ha; exact absurd hj.symm ha.1
  | case7 dn sk curr hne hne2 hgt n2 hj n3 r2 ih => intro ha; exact absurd hj.symm ha.1
  | case8 dn sk curr hne hne2 hgt n2 r2 hj ih =>
    intro ha hr hd hs1 hs2 hs3 hx
    have hsk : sk = [] := by
      cases sk with
      | nil => rfl
      | cons a l => exact absurd (hs3 a (by simp) curr (by simp)) (by omega)
    subst hsk
    obtain ⟨ns, h1, h2⟩ := ih ha.2 (by simpa using hr)
      (by intro n hn
          simp only [List.nil_append, List.mem_cons] at hn
          rcases hn with rfl | hn
          · exact hgt
          · exact hd n hn) (by simp) (by simp) (by simp) (fun n hn => hx n (by simp only [List.mem_cons] at hn ⊢; exact .inr hn))
    exact ⟨ns, h1, by simpa using h2⟩
  | case9 dn sk curr rest hne hne2 hgt hlt2 _ =>
    intro ha hr hd hs1 hs2 hs3 hx
    have hr' := List.pairwise_append.1 hr
    have hce : off + len < curr.e := hx curr (by simp) (by omega)
    refine ⟨_, .inl rfl, ?_, ?_, fun n hn => ?_⟩
    · rw [Rising, List.pairwise_append, List.pairwise_cons]
      refine ⟨hr'.1, ⟨fun m hm => ?_, hr'.2.1⟩, fun a ha b hb => ?_⟩
      · rcases List.mem_cons.mp hm with rfl | hm
        · exact hce
        · have := (List.pairwise_cons.1 hr'.2.1).1 m hm
          show off + len < m.e
          omega
      · rcases List.mem_cons.mp hb with rfl | hb
        · have := hd a (by simpa using ha); simp only; omega
        · exact hr'.2.2 a ha b hb
    · simp only [List.length_append, List.length_reverse, List.length_cons]; omega
    · rcases List.mem_append.mp hn with hn | hn
      · exact .inr ⟨n, by simp at hn ⊢; simp [hn], rfl⟩
      · rcases List.mem_cons.mp hn with rfl | hn
        · exact .inl rfl
        · exact .inr ⟨n, List.mem_append.2 (.inr hn), rfl⟩
  | case10 dn sk curr rest hne hne2 hgt hlt2 hal => exact absurd rfl hal
  | case11 dn sk curr rest hne hne2 hgt hlt2 =>
    intro ha hr hd hs1 hs2 hs3 hx
    exact ⟨_, .inr rfl, plain dn sk (curr :: rest) hr hd hs1 hs2 hs3 hx, by simp, fun n hn => .inr ⟨n, hn, rfl⟩⟩

/-! ### One reassembly entry -/

/-- An entry that holds fragments `got` of the packet, and has a hole. -/
def Gapped (frs got : List Fragment) (en : FragEntry) : Prop :=
  ∃ life, Built en life ∧ (∀ f ∈ life, f ∈ frs) ∧ 2 ≤ en.nodes.length ∧ Rising en.nodes ∧
    ∀ n ∈ en.nodes, ∃ g ∈ got, n.e = g.off + g.data.length

theorem update_walked {id : Nat} {P : Bytes} {frs got : List Fragment} (hp : Fragments id P frs) (hl : P.length ≤ 1500)
    {en : FragEntry} {life : List Fragment} (hb : Built en life) (hlife : ∀ f ∈ life, f ∈ frs) {f : Fragment} (hf : f ∈ frs)
    (hgot : ∀ g ∈ got, g ∈ frs) (hne : en.nodes ≠ [])
    (hends : ∀ n ∈ en.nodes, ∃ g ∈ got, n.e = g.off + g.data.length) {ns : List FragNode}
    (hw : walk true f.off f.data.length (!f.more) [] [] en.nodes = .done ns ∨
      walk true f.off f.data.length (!f.more) [] [] en.nodes = .bad ns)
    (h2 : 2 ≤ ns.length) (hns : Walked (f.off + f.data.length) en.nodes ns) :
    ∃ en' rc, en.update true f.data f.off (!f.more) = some (en', rc, false) ∧ Gapped frs (f :: got) en' ∧
      en'.timestamp = en.timestamp := by
  obtain ⟨h1, _, h3, h4, _⟩ := contiguous_facts hp.2.1 f hf
  rw [hp.2.2.2, Nat.zero_add] at h3 h4
  obtain ⟨data, hd⟩ : ∃ data, wr en.data f.off f.data = some data := ⟨_, wr_isSome (by rw [hb.length]; omega)⟩
  obtain ⟨n1, _, n3⟩ := hns
  have ends : ∀ n ∈ ns, ∃ g ∈ f :: got, n.e = g.off + g.data.length := by
    intro n hn
    rcases n3 n hn with h | ⟨m, hm, he⟩
    · exact ⟨f, by simp, h⟩
    · obtain ⟨g, hg, hge⟩ := hends m hm
      exact ⟨g, by simp [hg], by omega⟩
  have mk : ∀ en' rc, en'.nodes = ns → en'.timestamp = en.timestamp →
      en.update true f.data f.off (!f.more) = some (en', rc, false) → Gapped frs (f :: got) en' := by
    intro en' rc e1 e2 hu
    refine ⟨f :: life, hb.put f hu, ?_, by rw [e1]; exact h2, by rw [e1]; exact n1, by rw [e1]; exact ends⟩
    intro x hx
    rcases List.mem_cons.mp hx with rfl | hx
    · exact hf
    · exact hlife x hx
  rcases hw with hw | hw
  · obtain ⟨hd1, nd2, tl, rfl⟩ : ∃ hd1 nd2 tl, ns = hd1 :: nd2 :: tl := by
      match ns, h2 with
      | hd1 :: nd2 :: tl, _ => exact ⟨_, _, _, rfl⟩
    have hu : ∀ asm, asm = (hd1.last && decide (hd1.b = 0)) → en.update true f.data f.off (!f.more) =
        some ({ en with data := data, nodes := hd1 :: nd2 :: tl }, .success, asm) := by
      intro asm ha
      unfold FragEntry.update
      rw [if_neg (by simp only [maxWireMtu]; omega)]
      split
      · rename_i hx; exact absurd hx hne
      · rw [hw, hd, ha]
    have hbt := hb.put f (hu _ rfl)
    have hlast : hd1.last = false := by
      cases hq : hd1.last with
      | false => rfl
      | true =>
        have hpk := (hbt.packet hp (by
          intro x hx
          rcases List.mem_cons.mp hx with rfl | hx
          · exact hf
          · exact hlife x hx)).2
        have e1 := (hpk hd1 (by simp)).last.1 hq
        have e2 := (List.pairwise_cons.1 n1).1 nd2 (by simp)
        obtain ⟨g, hg, hge⟩ := ends nd2 (by simp)
        have hgf : g ∈ frs := by
          rcases List.mem_cons.mp hg with rfl | hg
          · exact hf
          · exact hgot g hg
        have := (contiguous_facts hp.2.1 g hgf).2.2.1
        rw [hp.2.2.2, Nat.zero_add] at this
        omega
    have hu := hu false (by simp [hlast])
    exact ⟨_, _, hu, mk _ _ rfl rfl hu, rfl⟩
  · have hu : en.update true f.data f.off (!f.more) = some ({ en with nodes := ns }, .badFragment, false) := by
      unfold FragEntry.update
      rw [if_neg (by simp only [maxWireMtu]; omega)]
      split
      · rename_i hx; exact absurd hx hne
      · rw [hw]
    exact ⟨_, _, hu, mk _ _ rfl rfl hu, rfl⟩

/-- No later end meets a fragment that was not received. -/
theorem ends_clear {id : Nat} {P : Bytes} {frs got : List Fragment} (hp : Fragments id P frs) {f : Fragment} (hf : f ∈ frs)
    (hgot : ∀ g ∈ got, g ∈ frs) (hnew : f ∉ got) {ns : List FragNode}
    (hends : ∀ n ∈ ns, ∃ g ∈ got, n.e = g.off + g.data.length) :
    ∀ n ∈ ns, f.off < n.e → f.off + f.data.length < n.e := by
  intro n hn hlt
  obtain ⟨g, hg, he⟩ := hends n hn
  have hp1 := (contiguous_facts hp.2.1 g (hgot g hg)).1
  rcases fragments_apart hp.2.1 hf (hgot g hg) with rfl | h | h
  · exact absurd hg hnew
  · omega
  · omega

theorem update_gapped {id : Nat} {P : Bytes} {frs got : List Fragment} (hp : Fragments id P frs) (hl : P.length ≤ 1500)
    {en : FragEntry} (hg : Gapped frs got en) {f : Fragment} (hf : f ∈ frs) (hgot : ∀ g ∈ got, g ∈ frs) (hnew : f ∉ got) :
    ∃ en' rc, en.update true f.data f.off (!f.more) = some (en', rc, false) ∧ Gapped frs (f :: got) en' ∧
      en'.timestamp = en.timestamp := by
  obtain ⟨life, hb, hlife, h2, hr, hends⟩ := hg
  have hne : en.nodes ≠ [] := by intro h; rw [h] at h2; simp at h2
  obtain ⟨ns, hw, hns⟩ := walk_rising (off := f.off) (len := f.data.length) (last := !f.more) (contiguous_facts hp.2.1 f hf).1 [] [] en.nodes
    (hb.packet hp hlife).1 (by simpa using hr) (by simp) (by simp) (by simp) (by simp) (ends_clear hp hf hgot hnew hends)
  simp only [List.reverse_nil, List.nil_append] at hns
  exact update_walked hp hl hb hlife hf hgot hne hends hw (Nat.le_trans h2 hns.2.1) hns

/-- The received fragments are exactly those of the block `[b, e)`. -/
def Covers (frs got : List Fragment) (b e : Nat) : Prop :=
  (∀ x ∈ frs, b ≤ x.off → x.off < e → x ∈ got) ∧ ∃ g ∈ got, e = g.off + g.data.length

theorem update_gap {id : Nat} {P : Bytes} {frs got : List Fragment} (hp : Fragments id P frs) (hl : P.length ≤ 1500)
    {en : FragEntry} {b e : Nat} (hb : Block frs P.length en b e) (hc : Covers frs got b e) {f : Fragment} (hf : f ∈ frs)
    (hgot : ∀ g ∈ got, g ∈ frs) (hnew : f ∉ got) (h1 : f.off ≠ e) (h2 : f.off + f.data.length ≠ b) :
    ∃ en' rc, en.update true f.data f.off (!f.more) = some (en', rc, false) ∧ Gapped frs (f :: got) en' ∧
      en'.timestamp = en.timestamp := by
  obtain ⟨life, hbt, hlife, hn⟩ := hb
  have hnode := (hbt.packet hp hlife).2 ⟨b, e, decide (e = P.length)⟩ (by rw [hn]; simp)
  have hbe := hnode.lt
  simp only at hbe
  have hpos := (contiguous_facts hp.2.1 f hf).1
  have hcut := hnode.cb f hf
  simp only at hcut
  have hout : e < f.off ∨ f.off + f.data.length < b := by
    have := fun ha hb => hnew (hc.1 f hf ha hb)
    by_cases hx : b ≤ f.off
    · left
      have : ¬f.off < e := this hx
      omega
    · omega
  have hends : ∀ n ∈ en.nodes, ∃ g ∈ got, n.e = g.off + g.data.length := by
    intro n hm
    rw [hn] at hm
    simp only [List.mem_singleton] at hm
    subst hm
    exact hc.2
  obtain ⟨ns, hw, hns, hlen⟩ : ∃ ns, walk true f.off f.data.length (!f.more) [] [] en.nodes = .done ns ∧
      Walked (f.off + f.data.length) en.nodes ns ∧ 2 ≤ ns.length := by
    rw [hn]
    unfold walk
    rw [if_neg h1, if_neg h2]
    by_cases hgt : f.off > e
    · rw [if_pos hgt]
      simp only [if_true]
      refine ⟨_, rfl, ⟨?_, by simp, ?_⟩, by simp⟩
      · simp [Rising]; omega
      · intro n hm
        simp only [List.reverse_nil, List.nil_append, List.mem_cons, List.not_mem_nil, or_false] at hm
        rcases hm with rfl | rfl
        · exact .inr ⟨_, by simp, rfl⟩
        · exact .inl rfl
    · rw [if_neg hgt, if_pos (by simp only; omega)]
      simp only [if_true]
      refine ⟨_, rfl, ⟨?_, by simp, ?_⟩, by simp⟩
      · simp [Rising]; omega
      · intro n hm
        simp only [List.reverse_nil, List.nil_append, List.mem_cons, List.not_mem_nil, or_false] at hm
        rcases hm with rfl | rfl
        · exact .inl rfl
        · exact .inr ⟨_, by simp, rfl⟩
  exact update_walked hp hl hbt hlife hf hgot (by rw [hn]; simp) hends (.inl hw) hlen hns

/-! ### One fragment through the connection -/

theorem fragApply_clock (env : Env) (c : Conn) (t : FragTable) (en : FragEntry) (id off : Nat) (last : Bool) (d : Bytes) :
    ∃ y, (fragApply env c t en id off last d).1.log = y ++ .clock (env.now c.log) :: c.log := by
  unfold fragApply
  simp only
  split
  · exact ⟨[.ub "frag"], rfl⟩
  · split
    · exact ⟨[], rfl⟩
    · split
      · split
        · exact ⟨[.ub "frag"], rfl⟩
        · split
          · exact ⟨[.ub "frag"], rfl⟩
          · rename_i en2 _ _ _ _ _ _ _ _ _ _ p _
            obtain ⟨x, hx⟩ := internalHandleData_log { c.emit (.clock (env.now c.log)) with fragTable := some (t.set id en2) } p
            exact ⟨x, hx⟩
      · exact ⟨[], rfl⟩

/-- A fragment that does not complete its slot's packet. -/
theorem frag_put {env : Env} (hok : EnvOk env) {c : Conn} (hg : Good env c) (ho : c.state = .online) {op : Op} {f : Fragment}
    (hr : Receives c op f) {lo : Int} (hw : InWindow lo c (step env c op).1) {id : Nat} {P : Bytes} {frs : List Fragment}
    (hp : Fragments id P frs) (hlP : P.length ≤ 1500) (hf : f ∈ frs) {t : FragTable} (ht : c.fragTable = some t)
    {en en' : FragEntry} {rc : RC} (hs : t.slot (id % t.num) = some en) (hts : lo ≤ en.timestamp)
    (hu : en.update true f.data f.off (!f.more) = some (en', rc, false)) :
    (∃ t', (step env c op).1.fragTable = some t' ∧ t'.num = t.num ∧ t'.slot (id % t.num) = some en') ∧
    delivered (step env c op).1.log = delivered c.log := by
  have hid : f.id = id := (hp.2.2.1 f hf).1
  obtain ⟨h1, h2, h3, _⟩ := contiguous_facts hp.2.1 f hf
  rw [hp.2.2.2, Nat.zero_add] at h3
  obtain ⟨d, new, hd, e1, e2, e3, e4, htf⟩ := recv_frag hok hg ho hr (by omega)
  have hfr : fragReceive env d f.id f.off (!f.more) f.data =
      fragApply env { d with fragTable := some t } t en f.id f.off (!f.more) f.data := by
    unfold fragReceive
    rw [e1, ht]
    simp only [hid, hs, Option.isNone_some, Bool.false_and, Bool.false_eq_true, if_false, FragTable.find]
  rw [hfr] at htf
  obtain ⟨l, hl⟩ := htf.log
  generalize hc2 : ({ d with fragTable := some t } : Conn) = c2 at *
  have hc2l : c2.log = new ++ c.log := by rw [← hc2, ← hd]
  obtain ⟨y, hy⟩ := fragApply_clock env c2 t en f.id f.off (!f.more) f.data
  have w := window_mem hw (x := l ++ (y ++ .clock (env.now c2.log) :: new)) (t := env.now c2.log)
    (by rw [hl, hy, hc2l]; simp) (by simp)
  have hlen : env.now c2.log - en.timestamp ≤ 64 := by omega
  have hfa : (fragApply env c2 t en f.id f.off (!f.more) f.data).1 =
      { c2.emit (.clock (env.now c2.log)) with fragTable := some (t.set f.id en') } := by
    unfold fragApply
    simp only
    rw [if_neg (by omega), hok.1, hu]
    simp only [Bool.false_eq_true, if_false]
    split <;> rfl
  rw [hfa] at htf
  refine ⟨⟨_, htf.table, rfl, ?_⟩, ?_⟩
  · simp [FragTable.set, hid]
  · rw [htf.delivered]
    simp only [Conn.emit, hc2l, delivered, ← e4, hd]

/-- The slot after the fragments `got` of an order that does not grow one block, with `rem` to come. -/
def Stuck (frs got : List Fragment) (L : Nat) (lo : Int) (num slot : Nat) (c : Conn) (rem : List Fragment) : Prop :=
  (Vacant num slot c ∧ got = [] ∧ ¬GrowthOrder rem) ∨
  (∃ b e, Holds frs L lo num slot c b e ∧ Covers frs got b e ∧ ¬growsFrom b e rem) ∨
  ∃ t en, c.fragTable = some t ∧ t.num = num ∧ t.slot slot = some en ∧ Gapped frs got en ∧ lo ≤ en.timestamp

theorem stuck_frag {env : Env} (hok : EnvOk env) {ops : List Op} {c : Conn} (hc : c = run env ops) (ho : c.state = .online)
    {op : Op} {f : Fragment} (hr : Receives c op f) {lo : Int} (hw : InWindow lo c (step env c op).1) {id : Nat} {P : Bytes}
    {frs got rem : List Fragment} (hp : Fragments id P frs) (hlP : P.length ≤ 1500) (hall : ∀ x ∈ got ++ f :: rem, x ∈ frs)
    (hnd : (got ++ f :: rem).Nodup) {num : Nat} (hst : Stuck frs got P.length lo num (id % num) c (f :: rem)) :
    Stuck frs (f :: got) P.length lo num (id % num) (step env c op).1 rem ∧ delivered (step env c op).1.log = delivered c.log := by
  have hg : Good env c := hc ▸ run_good env ops
  have hf := hall f (by simp)
  have hgot : ∀ g ∈ got, g ∈ frs := fun g h => hall g (by simp [h])
  have hnd' := List.nodup_append.1 hnd
  have hnew : f ∉ got := fun h => hnd'.2.2 f h f (by simp) rfl
  have hfr : f ∉ rem := (List.nodup_cons.1 hnd'.2.1).1
  rcases hst with ⟨⟨t, ht, rfl, hs⟩, rfl, hgo⟩ | ⟨b, e, ⟨t, en, ht, rfl, hs, hb, hts⟩, hcov, hgr⟩ | ⟨t, en, ht, rfl, hs, hgap, hts⟩
  · obtain ⟨h1, h2⟩ := frag_first hok hg ho hr hw hp hlP hf ht hs
    refine ⟨.inr (.inl ⟨_, _, h1, ⟨fun x hx h3 h4 => ?_, f, by simp, rfl⟩, hgo⟩), h2⟩
    have hx1 := (contiguous_facts hp.2.1 x hx).1
    rcases fragments_apart hp.2.1 hx hf with h | h | h
    · simp [h]
    · omega
    · omega
  · have hbe : b < e := by
      obtain ⟨life, hbt, hl, hn⟩ := hb
      exact ((hbt.packet hp hl).2 ⟨b, e, decide (e = P.length)⟩ (by rw [hn]; simp)).lt
    have grow : ∀ b' e', ((f.off = e ∧ b' = b ∧ e' = e + f.data.length) ∨ (f.off + f.data.length = b ∧ b' = f.off ∧ e' = e)) →
        ¬growsFrom b' e' rem →
        Stuck frs (f :: got) P.length lo t.num (id % t.num) (step env c op).1 rem ∧ delivered (step env c op).1.log = delivered c.log := by
      intro b' e' hgr' hng
      have hcov' : Covers frs (f :: got) b' e' := by
        refine ⟨fun x hx h3 h4 => ?_, ?_⟩
        · have hx1 := (contiguous_facts hp.2.1 x hx).1
          by_cases hin : b ≤ x.off ∧ x.off < e
          · exact .tail _ (hcov.1 x hx hin.1 hin.2)
          · rcases fragments_apart hp.2.1 hx hf with h | h | h
            · simp [h]
            · omega
            · omega
        · rcases hgr' with ⟨g1, rfl, rfl⟩ | ⟨g1, rfl, rfl⟩
          · exact ⟨f, by simp, by omega⟩
          · obtain ⟨g, hg, he⟩ := hcov.2
            exact ⟨g, by simp [hg], he⟩
      obtain ⟨k1, -⟩ := frag_grow hok hg ho hr hw hp hlP hf ht hs hb hts hgr'
      have hnc : ¬(b' = 0 ∧ e' = P.length) := by
        rintro ⟨rfl, rfl⟩
        cases rem with
        | nil => exact hng trivial
        | cons x r =>
          have hxf : x ∈ frs := hall x (by simp)
          obtain ⟨hx1, _, hx3, _⟩ := contiguous_facts hp.2.1 x hxf
          rw [hp.2.2.2, Nat.zero_add] at hx3
          rcases List.mem_cons.mp (hcov'.1 x hxf (by omega) (by omega)) with rfl | hx
          · exact hfr (by simp)
          · exact hnd'.2.2 x hx x (by simp) rfl
      obtain ⟨m1, m2⟩ := k1 hnc
      exact ⟨.inr (.inl ⟨b', e', m1, hcov', hng⟩), m2⟩
    by_cases h1 : f.off = e
    · exact grow b (e + f.data.length) (.inl ⟨h1, rfl, rfl⟩) (fun h => hgr (.inl ⟨h1, h⟩))
    · by_cases h2 : f.off + f.data.length = b
      · exact grow f.off e (.inr ⟨h2, rfl, rfl⟩) (fun h => hgr (.inr ⟨h2, h⟩))
      · obtain ⟨en', rc, hu, hgp, hts'⟩ := update_gap hp hlP hb hcov hf hgot hnew h1 h2
        obtain ⟨⟨t', k1, k2, k3⟩, k4⟩ := frag_put hok hg ho hr hw hp hlP hf ht hs hts hu
        exact ⟨.inr (.inr ⟨t', en', k1, k2, k3, hgp, by omega⟩), k4⟩
  · obtain ⟨en', rc, hu, hgp, hts'⟩ := update_gapped hp hlP hgap hf hgot hnew
    obtain ⟨⟨t', k1, k2, k3⟩, k4⟩ := frag_put hok hg ho hr hw hp hlP hf ht hs hts hu
    exact ⟨.inr (.inr ⟨t', en', k1, k2, k3, hgp, by omega⟩), k4⟩

theorem stuck_arrives {env : Env} (hok : EnvOk env) {lo : Int} {id num slot : Nat} {P : Bytes} {frs : List Fragment}
    (hp : Fragments id P frs) (hlP : P.length ≤ 1500) (hslot : slot = id % num) {c d : Conn} {pre : List Fragment}
    (ha : Arrives env slot lo c pre d) (got rest : List Fragment) (hall : ∀ x ∈ got ++ (pre ++ rest), x ∈ frs)
    (hnd : (got ++ (pre ++ rest)).Nodup) (hc : ∃ ops, c = run env ops)
    (hw : Stuck frs got P.length lo num slot c (pre ++ rest)) :
    (∃ ops, d = run env ops) ∧ Stuck frs (pre.reverse ++ got) P.length lo num slot d rest := by
  subst hslot
  induction ha generalizing got with
  | nil c => exact ⟨hc, hw⟩
  | @other c d l new op hl hq h ih =>
    obtain ⟨ops, hc⟩ := hc
    refine ih got hall hnd ⟨ops ++ [op], by rw [run_snoc, ← hc]⟩ ?_
    obtain ⟨o, hi⟩ := run_inv env ops
    rw [← hc] at hi
    have hn := (run_finv env ops).num
    rw [← hc] at hn
    rcases hw with ⟨⟨t, ht, rfl, hs⟩, h1⟩ | ⟨b, e, ⟨t, en, ht, rfl, hs, hb, hts⟩, h1⟩ | ⟨t, en, ht, rfl, hs, h1⟩
    · rw [← hn t ht] at hq
      obtain ⟨t', k1, k2, k3⟩ := step_slot env op hi ht hl hq
      exact .inl ⟨⟨t', k1, k2, by rw [k3]; exact hs⟩, h1⟩
    · rw [← hn t ht] at hq
      obtain ⟨t', k1, k2, k3⟩ := step_slot env op hi ht hl hq
      exact .inr (.inl ⟨b, e, ⟨t', en, k1, k2, by rw [k3]; exact hs, hb, hts⟩, h1⟩)
    · rw [← hn t ht] at hq
      obtain ⟨t', k1, k2, k3⟩ := step_slot env op hi ht hl hq
      exact .inr (.inr ⟨t', en, k1, k2, by rw [k3]; exact hs, h1⟩)
  | @frag c d l f op ho hrc hwin h ih =>
    obtain ⟨ops, hc⟩ := hc
    have := (stuck_frag hok hc ho hrc hwin hp hlP hall hnd hw).1
    have hperm : (f :: got ++ (l ++ rest)).Perm (got ++ (f :: l ++ rest)) := by
      simpa using List.perm_middle.symm
    have := ih (f :: got) (fun x hx => hall x (hperm.subset hx)) (hperm.nodup_iff.2 hnd) ⟨ops ++ [op], by rw [run_snoc, ← hc]⟩ this
    simpa using this

/-- **C79.**  A packet `P` (IPv4, at most 1500 bytes) was cut into fragments `frs`, and no fragment is held for its slot
when the connection, in any reachable ONLINE state, starts to receive them, each once, in any order, within 64 seconds,
with any number of other API calls in between that do not concern the slot.  The packet is delivered, by the last of
the fragments, exactly if the order grows one contiguous block; otherwise nothing is ever delivered. -/
theorem C79_order_decides {env : Env} (hok : EnvOk env) (ops : List Op) {id : Nat} {P : Bytes}
    {frs pre post : List Fragment} {f : Fragment} {lo : Int} {c1 : Conn} {op : Op} [Decidable (GrowthOrder (pre ++ f :: post))] :
    let c0 := run env ops
    let slot := id % tableSize c0.log
    c0.state = .online → (∀ f n, ¬Held c0.log slot f n) →
    Fragments id P frs → 20 ≤ P.length → P.length ≤ 1500 → (∃ b, P.head? = some b ∧ b.toNat / 16 = 4) →
    (pre ++ f :: post).Perm frs → Arrives env slot lo c0 pre c1 →
    c1.state = .online → Receives c1 op f → InWindow lo c1 (step env c1 op).1 →
    (post = [] → c1.cbs.insideWrite = true ∧ insidePluginsAt c1.log = 0) →
    delivered (step env c1 op).1.log =
      (if post = [] ∧ GrowthOrder (pre ++ f :: post) then [P] else []) ++ delivered c1.log := by
  intro c0 slot ho hh hp hl1 hl2 hv hperm ha ho1 hr hw hcb
  by_cases hgo : GrowthOrder (pre ++ f :: post)
  · rw [C12_growth_order_delivers hok ops ho hh hp hl1 hl2 hv hperm hgo ha ho1 hr hw hcb]
    simp [hgo]
  · rw [if_neg (fun h => hgo h.2), List.nil_append]
    have hall : ∀ x ∈ pre ++ f :: post, x ∈ frs := fun x hx => hperm.subset hx
    have hnd : (pre ++ f :: post).Nodup := hperm.nodup_iff.2 (fragments_nodup hp.2.1)
    have hwolf := (online_reading hok (run_good env ops) ho).1
    obtain ⟨t, ht⟩ := Option.isSome_iff_exists.1 (run_table hok ops hwolf)
    have hnum := (run_finv env ops).num t ht
    have hvac : Vacant (tableSize c0.log) slot c0 := by
      refine ⟨t, ht, hnum, ?_⟩
      cases hs : t.slot slot with
      | none => rfl
      | some en =>
        obtain ⟨_, _, f', n', h'⟩ := (run_finv env ops).ent t slot en ht hs
        exact (hh f' n' h').elim
    obtain ⟨⟨ops1, hc1⟩, hw1⟩ := stuck_arrives hok hp hl2 rfl ha [] (f :: post) (by simpa using hall) (by simpa using hnd) ⟨ops, rfl⟩
      (.inl ⟨hvac, rfl, hgo⟩)
    have hpm : (pre.reverse ++ [] ++ f :: post).Perm (pre ++ f :: post) := by
      simpa using (List.reverse_perm pre).append_right (f :: post)
    exact (stuck_frag hok hc1 ho1 hr hw hp hl2 (fun x hx => hall x (hpm.subset hx)) (hpm.nodup_iff.2 hnd) hw1).2

/-- Not vacuous: a packet in three fragments; of its six orders of arrival, 0-2-1 and 2-0-1 leave a hole
(`C13_gap_never_fills` carries 0-2-1 out, the examples after `C12_growth_order_delivers` the others). -/
example : Fragments 5 Demo.ipPkt Demo.three ∧
    ¬GrowthOrder [Demo.three[0], Demo.three[2], Demo.three[1]] ∧ ¬GrowthOrder [Demo.three[2], Demo.three[0], Demo.three[1]] ∧
    GrowthOrder [Demo.three[1], Demo.three[0], Demo.three[2]] := by
  refine ⟨Demo.three_fragments, ?_, ?_, ?_⟩
  · rintro (⟨h, _⟩ | ⟨h, _⟩) <;> revert h <;> decide
  · rintro (⟨h, _⟩ | ⟨h, _⟩) <;> revert h <;> decide
  · exact .inr ⟨rfl, .inl ⟨rfl, trivial⟩⟩

end Lightway
