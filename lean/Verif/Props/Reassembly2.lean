import Verif.Proofs.Slot
import Verif.Props.RoundTrip
import Verif.Props.Reassembly

/-!
# Reassembly succeeds when fragments arrive in an order that grows one block (C12, C13)
-/

namespace Lightway
open Spec

namespace Spec

/-- Arriving after a block `[b, e)` of the packet was received, each fragment extends it at one of its ends. -/
def growsFrom : Nat → Nat → List Fragment → Prop
  | _, _, [] => True
  | b, e, f :: r => (f.off = e ∧ growsFrom b (e + f.data.length) r) ∨ (f.off + f.data.length = b ∧ growsFrom f.off e r)

/-- An order of arrival in which the received bytes are always one contiguous block. -/
def GrowthOrder : List Fragment → Prop
  | [] => True
  | f :: r => growsFrom f.off (f.off + f.data.length) r

/-- The call processes one message, and that carries fragment `f`. -/
def Receives (c : Conn) (op : Op) (f : Fragment) : Prop :=
  ∃ buf r, op = .outsideData buf [r] ∧ r.plain.length ≤ 1500 ∧ Accepts (c.emit (.api .outsideData)) buf ∧
    carried r.plain = some f

/-- All clock readings of a call lie in a window of 64 seconds starting at `lo`. -/
def InWindow (lo : Int) (c d : Conn) : Prop :=
  ∃ new, d.log = new ++ c.log ∧ ∀ t, Effect.clock t ∈ new → lo ≤ t ∧ t ≤ lo + 64

/-- From `c`, calls lead to `d`, and of those that concern `slot`, which are all made while ONLINE and within the
window, each delivers one fragment, in the order of the list; other calls may come between. -/
inductive Arrives (env : Env) (slot : Nat) (lo : Int) : Conn → List Fragment → Conn → Prop
  | nil (c : Conn) : Arrives env slot lo c [] c
  | other {c d : Conn} {l : List Fragment} {new : Log} (op : Op) (hl : (step env c op).1.log = new ++ c.log)
      (hq : Quiescent (tableSize c.log) slot new) (h : Arrives env slot lo (step env c op).1 l d) : Arrives env slot lo c l d
  | frag {c d : Conn} {l : List Fragment} {f : Fragment} (op : Op) (ho : c.state = .online) (hr : Receives c op f)
      (hw : InWindow lo c (step env c op).1) (h : Arrives env slot lo (step env c op).1 l d) : Arrives env slot lo c (f :: l) d

end Spec

theorem Built.length {en : FragEntry} {life : List Fragment} (h : Built en life) : en.data.length = 1500 := by
  induction h with
  | empty en hd hn => rw [hd]; simp only [zeros, List.length_replicate, maxWireMtu]
  | @put en en' life al rc asm g h hu ih =>
    rcases update_cases hu with ⟨_, rfl, _⟩ | ⟨_, _, _, data, hw, _, _, rfl⟩ | ⟨_, _, ns, hwk, _, _, rfl⟩ | ⟨_, _, hd, tl, data, hwk, hw, _, _, rfl⟩
    · exact ih
    · have := wr_length hw; simp only; omega
    · exact ih
    · have := wr_length hw; simp only; omega

/-- An entry holding one block of a packet. -/
def Block (frs : List Fragment) (L : Nat) (en : FragEntry) (b e : Nat) : Prop :=
  ∃ life, Built en life ∧ (∀ f ∈ life, f ∈ frs) ∧ en.nodes = [{ b := b, e := e, last := decide (e = L) }]

theorem update_first {id : Nat} {P : Bytes} {frs : List Fragment} (hp : Fragments id P frs) (hl : P.length ≤ 1500)
    (now : Int) {f : Fragment} (hf : f ∈ frs) :
    ∃ en', (FragEntry.fresh now).update true f.data f.off (!f.more) = some (en', .success, false) ∧
      Block frs P.length en' f.off (f.off + f.data.length) ∧ en'.timestamp = now := by
  obtain ⟨h1, h2, h3, h4, _⟩ := contiguous_facts hp.2.1 f hf
  rw [hp.2.2.2, Nat.zero_add] at h3 h4
  have hb : Built (FragEntry.fresh now) [] := .empty _ rfl rfl
  have hwr : ∃ data, wr (FragEntry.fresh now).data f.off f.data = some data :=
    ⟨_, wr_isSome (by rw [hb.length]; omega)⟩
  obtain ⟨data, hd⟩ := hwr
  have hu : (FragEntry.fresh now).update true f.data f.off (!f.more) =
      some ({ (FragEntry.fresh now) with data := data, nodes := [{ b := f.off, e := f.off + f.data.length, last := !f.more }] }, .success, false) := by
    unfold FragEntry.update
    rw [if_neg (by simp only [maxWireMtu]; omega)]
    show (match wr (FragEntry.fresh now).data f.off f.data with
      | none => none
      | some data' => _) = _
    rw [hd]
  refine ⟨_, hu, ⟨[f], hb.put f hu, by simpa using hf, ?_⟩, rfl⟩
  simp only [List.cons.injEq, FragNode.mk.injEq, and_true, true_and]
  cases hm : f.more <;> simp [hm] at h4 ⊢ <;> exact h4

theorem update_grow {id : Nat} {P : Bytes} {frs : List Fragment} (hp : Fragments id P frs) (hl : P.length ≤ 1500)
    {en : FragEntry} {b e b' e' : Nat} (hb : Block frs P.length en b e) {f : Fragment} (hf : f ∈ frs)
    (hg : (f.off = e ∧ b' = b ∧ e' = e + f.data.length) ∨ (f.off + f.data.length = b ∧ b' = f.off ∧ e' = e)) :
    ∃ en', en.update true f.data f.off (!f.more) = some (en', .success, decide (e' = P.length) && decide (b' = 0)) ∧
      Block frs P.length en' b' e' ∧ en'.timestamp = en.timestamp := by
  obtain ⟨life, hbt, hall, hn⟩ := hb
  obtain ⟨h1, h2, h3, h4, _⟩ := contiguous_facts hp.2.1 f hf
  rw [hp.2.2.2, Nat.zero_add] at h3 h4
  have hbe : b < e := ((hbt.packet hp hall).2 ⟨b, e, decide (e = P.length)⟩ (by rw [hn]; simp)).lt
  obtain ⟨data, hd⟩ : ∃ data, wr en.data f.off f.data = some data := ⟨_, wr_isSome (by rw [hbt.length]; omega)⟩
  have hwk : walk true f.off f.data.length (!f.more) [] [] en.nodes =
      .done [{ b := b', e := e', last := decide (e' = P.length) }] := by
    rw [hn]
    unfold walk
    rcases hg with ⟨g1, rfl, rfl⟩ | ⟨g1, rfl, rfl⟩
    · rw [if_pos g1]
      unfold walk
      simp only [List.reverse_nil, List.reverse_cons, List.nil_append, g1, WalkRes.done.injEq, List.cons.injEq, FragNode.mk.injEq,
        and_true, true_and]
      cases hm : f.more <;> simp [hm] at h4 ⊢ <;> omega
    · rw [if_neg (by simp only; omega), if_pos g1]
      rfl
  have hu : en.update true f.data f.off (!f.more) =
      some ({ en with data := data, nodes := [{ b := b', e := e', last := decide (e' = P.length) }] }, .success,
        decide (e' = P.length) && decide (b' = 0)) := by
    unfold FragEntry.update
    rw [if_neg (by simp only [maxWireMtu]; omega)]
    split
    · rename_i hx; rw [hn] at hx; cases hx
    · rw [hwk, hd]
  exact ⟨_, hu, ⟨f :: life, hbt.put f hu, by
    intro x hx
    rcases List.mem_cons.mp hx with rfl | hx
    · exact hf
    · exact hall x hx, rfl⟩, rfl⟩

theorem carried_process (env : Env) {c : Conn} (ho : c.state = .online) {m : Bytes} {f : Fragment} (hc : carried m = some f)
    (hl : f.off + f.data.length ≤ 1500) :
    processMessage env c m = fragReceive env c f.id f.off (!f.more) f.data := by
  unfold carried at hc
  split at hc
  · rename_i h
    obtain ⟨h1, h2, h3⟩ := h
    cases hc
    have hproc : processMessage env c m = handleDataFrag env c m := by
      cases m with
      | nil => simp at h1
      | cons x r =>
        simp only [List.head?_cons, Option.some.injEq] at h1
        subst h1
        unfold processMessage
        simp [msgNoop, msgPing, msgPong, msgAuth, msgData, msgConfigIpv4, msgAuthResponse, msgAuthResponseWithConfig,
          msgGoodbye, msgExtension, msgDeprecated13, msgServerConfig, msgDataWithFrag]
    have e1 := num_rdBe16 (bs := field m 1 2) (field_length (by omega))
    have e2 := num_rdBe16 (bs := field m 3 2) (field_length (by omega))
    have e3 := num_rdBe16 (bs := field m 5 2) (field_length (by omega))
    simp only at hl
    have hfl : (field m 7 (num (field m 1 2))).length = num (field m 1 2) := field_length (by omega)
    rw [hproc]
    unfold handleDataFrag
    rw [if_neg (by simp [ho]), if_neg (by omega), rd_isSome (by omega), rd_isSome (by omega), rd_isSome (by omega)]
    simp only
    rw [show (m.drop 1).take 2 = field m 1 2 from rfl, show (m.drop 3).take 2 = field m 3 2 from rfl,
      show (m.drop 5).take 2 = field m 5 2 from rfl, ← e1, ← e2, ← e3, if_neg (by omega),
      if_neg (by simp only [maxWireMtu]; omega), rd_isSome (by omega)]
    simp only
    rw [show (m.drop 7).take (num (field m 1 2)) = field m 7 (num (field m 1 2)) from rfl]
    congr 1
    have : num (field m 5 2) / 8192 % 2 = 0 ∨ num (field m 5 2) / 8192 % 2 = 1 := by omega
    rcases this with h | h <;> simp [h]
  · cases hc

/-! ### One fragment through the connection -/

theorem fragApply_keep (env : Env) (hok : EnvOk env) (c : Conn) (t : FragTable) {en en' : FragEntry} (f : Fragment)
    (hn : env.now c.log - en.timestamp ≤ 64)
    (hu : en.update true f.data f.off (!f.more) = some (en', .success, false)) :
    fragApply env c t en f.id f.off (!f.more) f.data =
      ({ c.emit (.clock (env.now c.log)) with fragTable := some (t.set f.id en') }, .success) := by
  unfold fragApply
  simp only
  rw [if_neg (by omega), hok.1, hu]
  rfl

theorem fragApply_done (env : Env) (hok : EnvOk env) (c : Conn) (t : FragTable) {en en' : FragEntry} (f : Fragment)
    {n : FragNode} {P : Bytes} (hn : env.now c.log - en.timestamp ≤ 64)
    (hu : en.update true f.data f.off (!f.more) = some (en', .success, true))
    (hnode : en'.nodes = [n]) (hlen : n.e ≤ en'.data.length) (hP : en'.data.take n.e = P)
    (hcb : c.cbs.insideWrite = true) (hpl : c.insidePlugins.plugins = 0) (hv : ipv4Valid P = true) :
    fragApply env c t en f.id f.off (!f.more) f.data =
      ({ (c.emit (.clock (env.now c.log))).emit (.insideWrite P) with fragTable := some ((t.set f.id en').delete f.id) },
        .success) := by
  unfold fragApply
  simp only
  rw [if_neg (by omega), hok.1, hu]
  simp only [ne_eq, not_true_eq_false, if_false, if_true, hnode]
  rw [rd_isSome (by omega), List.drop_zero, hP]
  simp only
  have h := internalHandleData_delivers
    { c.emit (.clock (env.now c.log)) with fragTable := some (t.set f.id en') } P P (c.emit (.clock (env.now c.log))).log
    hcb (egress_noPlugins hpl _ _ _) (Nat.le_refl _) hv
  rw [h.1]
  rfl

theorem internalHandleData_log (c : Conn) (p : Bytes) : ∃ x, (internalHandleData c p).1.log = x ++ c.log := by
  obtain ⟨l, hl, _⟩ := egress_cbExt c c.insidePlugins p p.length
  obtain ⟨q, rc, _, h | ⟨h, _⟩⟩ := internalHandleData_cases c p
  · rw [h]; exact ⟨l, hl⟩
  · rw [h]
    refine ⟨.insideWrite q :: l, ?_⟩
    show _ :: _ = _
    rw [hl]; rfl

/-- The slot holds exactly the block `[b, e)` of a packet of length `L`, stamped after `lo`. -/
def Holds (frs : List Fragment) (L : Nat) (lo : Int) (num slot : Nat) (c : Conn) (b e : Nat) : Prop :=
  ∃ t en, c.fragTable = some t ∧ t.num = num ∧ t.slot slot = some en ∧ Block frs L en b e ∧ lo ≤ en.timestamp

/-- The slot is empty. -/
def Vacant (num slot : Nat) (c : Conn) : Prop := ∃ t, c.fragTable = some t ∧ t.num = num ∧ t.slot slot = none

/-- One fragment received: `q` is the state after its message was processed. -/
theorem recv_frag {env : Env} (hok : EnvOk env) {c : Conn} (hg : Good env c) (ho : c.state = .online) {op : Op}
    {f : Fragment} (hr : Receives c op f) (hl : f.off + f.data.length ≤ 1500) :
    ∃ (d : Conn) (new : Log), d.log = new ++ c.log ∧ d.fragTable = c.fragTable ∧ d.cbs = c.cbs ∧
      d.insidePlugins = c.insidePlugins ∧ delivered d.log = delivered c.log ∧
      TFrame (fragReceive env d f.id f.off (!f.more) f.data).1 (step env c op).1 := by
  obtain ⟨buf, r, rfl, h1, h2, h3⟩ := hr
  have hne : r.plain ≠ [] := by intro h; rw [h] at h3; simp [carried] at h3
  obtain ⟨d, hd, hpost⟩ := recv_one env c buf r (online_reading hok hg ho) h2 hne h1
  have hf := hd.fields
  have hlog : ∃ new, (d.emit (.message r.plain)).log = new ++ c.log := by
    obtain ⟨l, _, _, _, _, _, rfl, e⟩ := hd
    exact ⟨.message r.plain :: l, rfl⟩
  obtain ⟨new, hlog⟩ := hlog
  refine ⟨d.emit (.message r.plain), new, hlog, hf.2.2.2.2.2.2.1, hf.2.2.1, hf.2.2.2.2.2.1, hd.delivered, ?_⟩
  have := hpost.1
  rwa [carried_process env (by show d.state = _; rw [hf.1]; exact ho) h3 hl] at this

theorem TFrame.table {c d : Conn} (h : TFrame c d) : d.fragTable = c.fragTable := by
  obtain ⟨l, _, _, _, _, _, _, _, _, _, _, _, rfl, e⟩ := h; rfl

theorem TFrame.log {c d : Conn} (h : TFrame c d) : ∃ l, d.log = l ++ c.log := by
  obtain ⟨l, _, _, _, _, _, _, _, _, _, _, _, rfl, e⟩ := h; exact ⟨l, rfl⟩

/-- A clock reading made after `c` and still in the log of `s` lies in the window. -/
theorem window_mem {lo : Int} {c s : Conn} (hw : InWindow lo c s) {x : Log} (hs : s.log = x ++ c.log) {t : Int}
    (ht : Effect.clock t ∈ x) : lo ≤ t ∧ t ≤ lo + 64 := by
  obtain ⟨new, h1, h2⟩ := hw
  rw [h1] at hs
  rw [← List.append_cancel_right hs] at ht
  exact h2 t ht

section
variable {env : Env} (hok : EnvOk env) {c : Conn} (hg : Good env c) (ho : c.state = .online) {op : Op} {f : Fragment}
  (hr : Receives c op f) {lo : Int} (hw : InWindow lo c (step env c op).1) {id : Nat} {P : Bytes} {frs : List Fragment}
  (hp : Fragments id P frs) (hlP : P.length ≤ 1500) (hf : f ∈ frs) {t : FragTable} (ht : c.fragTable = some t)
include hok hg ho hr hw hp hlP hf ht

theorem frag_first (hv : t.slot (id % t.num) = none) :
    Holds frs P.length lo t.num (id % t.num) (step env c op).1 f.off (f.off + f.data.length) ∧
    delivered (step env c op).1.log = delivered c.log := by
  have hid : f.id = id := (hp.2.2.1 f hf).1
  obtain ⟨h1, h2, h3, _⟩ := contiguous_facts hp.2.1 f hf
  rw [hp.2.2.2, Nat.zero_add] at h3
  obtain ⟨d, new, hd, e1, e2, e3, e4, htf⟩ := recv_frag hok hg ho hr (by omega)
  obtain ⟨en', hu, hb, hts⟩ := update_first hp hlP (env.now (d.emit (.alloc true)).log) hf
  have hfr : fragReceive env d f.id f.off (!f.more) f.data =
      fragApply env { (d.emit (.alloc true)).emit (.clock (env.now (d.emit (.alloc true)).log)) with
          fragTable := some { t with slot := fun i => if i = id % t.num then some (FragEntry.fresh (env.now (d.emit (.alloc true)).log)) else t.slot i } }
        { t with slot := fun i => if i = id % t.num then some (FragEntry.fresh (env.now (d.emit (.alloc true)).log)) else t.slot i }
        (FragEntry.fresh (env.now (d.emit (.alloc true)).log)) f.id f.off (!f.more) f.data := by
    unfold fragReceive
    rw [e1, ht]
    simp only [hid, hv, Option.isNone_none, hok.1, if_true, Bool.and_self, FragTable.find]
  rw [hfr] at htf
  obtain ⟨l, hl⟩ := htf.log
  generalize hnow1 : env.now (d.emit (.alloc true)).log = now1 at *
  generalize hc2 : ({ (d.emit (.alloc true)).emit (.clock now1) with
          fragTable := some { t with slot := fun i => if i = id % t.num then some (FragEntry.fresh now1) else t.slot i } } : Conn) = c2 at *
  have hc2l : c2.log = .clock now1 :: .alloc true :: (new ++ c.log) := by rw [← hc2, ← hd]; rfl
  have hlen : env.now c2.log - (FragEntry.fresh now1).timestamp ≤ 64 := by
    have key : (fragApply env c2 { t with slot := fun i => if i = id % t.num then some (FragEntry.fresh now1) else t.slot i }
        (FragEntry.fresh now1) f.id f.off (!f.more) f.data).1.log = .clock (env.now c2.log) :: c2.log ∨
        env.now c2.log - (FragEntry.fresh now1).timestamp ≤ 64 := by
      by_cases h : env.now c2.log - (FragEntry.fresh now1).timestamp ≤ 64
      · exact .inr h
      · left
        unfold fragApply
        simp only
        rw [if_pos (by omega), hok.1]
        obtain ⟨en2, hu2, _, _⟩ := update_first hp hlP (env.now c2.log) hf
        have : ({ (FragEntry.fresh now1).reset with timestamp := env.now c2.log } : FragEntry) = FragEntry.fresh (env.now c2.log) := rfl
        rw [this, hu2]
        rfl
    rcases key with key | key
    · rw [key, hc2l] at hl
      have w1 := window_mem hw (x := l ++ .clock (env.now c2.log) :: .clock now1 :: .alloc true :: new) (t := now1)
        (by rw [hl, hc2l]; simp) (by simp)
      have w2 := window_mem hw (x := l ++ .clock (env.now c2.log) :: .clock now1 :: .alloc true :: new) (t := env.now c2.log)
        (by rw [hl, hc2l]; simp) (by simp [hc2l])
      show env.now c2.log - now1 ≤ 64
      omega
    · exact key
  rw [fragApply_keep env hok c2 _ f hlen hu] at htf hl
  have hlo : lo ≤ now1 := by
    have w1 := window_mem hw (x := l ++ .clock (env.now c2.log) :: .clock now1 :: .alloc true :: new) (t := now1)
        (by rw [hl]; simp [Conn.emit, hc2l]) (by simp)
    omega
  refine ⟨⟨_, en', htf.table, rfl, ?_, hb, by omega⟩, ?_⟩
  · simp [FragTable.set, hid]
  · rw [htf.delivered]
    simp only [Conn.emit, hc2l, delivered, ← e4, hd]

theorem frag_grow {en : FragEntry} {b e b' e' : Nat} (hs : t.slot (id % t.num) = some en) (hb : Block frs P.length en b e)
    (hts : lo ≤ en.timestamp)
    (hgr : (f.off = e ∧ b' = b ∧ e' = e + f.data.length) ∨ (f.off + f.data.length = b ∧ b' = f.off ∧ e' = e)) :
    (¬(b' = 0 ∧ e' = P.length) → Holds frs P.length lo t.num (id % t.num) (step env c op).1 b' e' ∧
      delivered (step env c op).1.log = delivered c.log) ∧
    (b' = 0 ∧ e' = P.length → c.cbs.insideWrite = true → c.insidePlugins.plugins = 0 → ipv4Valid P = true →
      delivered (step env c op).1.log = P :: delivered c.log ∧ Vacant t.num (id % t.num) (step env c op).1) := by
  have hid : f.id = id := (hp.2.2.1 f hf).1
  obtain ⟨h1, h2, h3, _⟩ := contiguous_facts hp.2.1 f hf
  rw [hp.2.2.2, Nat.zero_add] at h3
  obtain ⟨d, new, hd, e1, e2, e3, e4, htf⟩ := recv_frag hok hg ho hr (by omega)
  obtain ⟨en', hu, hb', hts'⟩ := update_grow hp hlP hb hf hgr
  have hfr : fragReceive env d f.id f.off (!f.more) f.data =
      fragApply env { d with fragTable := some t } t en f.id f.off (!f.more) f.data := by
    unfold fragReceive
    rw [e1, ht]
    simp only [hid, hs, Option.isNone_some, Bool.false_and, Bool.false_eq_true, if_false, FragTable.find]
  rw [hfr] at htf
  obtain ⟨l, hl⟩ := htf.log
  generalize hc2 : ({ d with fragTable := some t } : Conn) = c2 at *
  have hc2l : c2.log = new ++ c.log ∧ c2.cbs = c.cbs ∧ c2.insidePlugins = c.insidePlugins := by
    rw [← hc2, ← hd]; exact ⟨rfl, e2, e3⟩
  have hclk : ∃ y, (fragApply env c2 t en f.id f.off (!f.more) f.data).1.log = y ++ .clock (env.now c2.log) :: c2.log := by
    unfold fragApply
    simp only
    split
    · exact ⟨[.ub "frag"], rfl⟩
    · split
      · exact ⟨[], rfl⟩
      · split
        · split
          · exact ⟨[.ub "frag"], rfl⟩
          · split
            · exact ⟨[.ub "frag"], rfl⟩
            · rename_i en2 _ _ _ _ _ _ _ _ _ _ p _
              obtain ⟨x, hx⟩ := internalHandleData_log { c2.emit (.clock (env.now c2.log)) with fragTable := some (t.set f.id en2) } p
              exact ⟨x, hx⟩
        · exact ⟨[], rfl⟩
  obtain ⟨y, hy⟩ := hclk
  have w := window_mem hw (x := l ++ (y ++ .clock (env.now c2.log) :: new)) (t := env.now c2.log)
    (by rw [hl, hy, hc2l.1]; simp) (by simp)
  have hlen : env.now c2.log - en.timestamp ≤ 64 := by omega
  constructor
  · intro hnd
    have ha : (decide (e' = P.length) && decide (b' = 0)) = false := by
      simp only [Bool.and_eq_false_iff, decide_eq_false_iff_not]
      omega
    rw [ha] at hu
    rw [fragApply_keep env hok c2 _ f hlen hu] at htf
    refine ⟨⟨_, en', htf.table, rfl, ?_, hb', by omega⟩, ?_⟩
    · simp [FragTable.set, hid]
    · rw [htf.delivered]
      simp only [Conn.emit, hc2l.1, delivered, ← e4, hd]
  · intro hnd hcb hpl hv
    have ha : (decide (e' = P.length) && decide (b' = 0)) = true := by simp [hnd]
    rw [ha] at hu
    obtain ⟨life, hbt, hall, hn⟩ := hb'
    have hwh := hbt.whole hp hall hn (by simp [hnd.2]) hnd.1
    have hfa := fragApply_done env hok c2 t f hlen hu hn (by rw [hbt.length]; simp only; omega) hwh
      (by rw [hc2l.2.1]; exact hcb) (by rw [hc2l.2.2]; exact hpl) hv
    rw [hfa] at htf
    refine ⟨?_, _, htf.table, rfl, ?_⟩
    · rw [htf.delivered]
      simp only [Conn.emit, hc2l.1, delivered, ← e4, hd]
    · simp [FragTable.delete, FragTable.set, hid]

end

/-! ### Whole arrivals -/

/-- Total number of bytes in some fragments. -/
def total (l : List Fragment) : Nat := (l.map (·.data.length)).sum

theorem total_perm {l l' : List Fragment} (h : l.Perm l') : total l = total l' := (h.map _).sum_nat

theorem total_fragments {id : Nat} {P : Bytes} {frs : List Fragment} (h : Fragments id P frs) : total frs = P.length := by
  rw [← h.2.2.2, List.length_flatten]
  simp [total, List.map_map, Function.comp_def]

/-- The slot is ready for the rest `rem` of the fragments. -/
def Waiting (frs : List Fragment) (L : Nat) (lo : Int) (num slot : Nat) (c : Conn) (rem : List Fragment) : Prop :=
  (Vacant num slot c ∧ GrowthOrder rem ∧ total rem = L ∧ 2 ≤ rem.length) ∨
  ∃ b e, Holds frs L lo num slot c b e ∧ growsFrom b e rem ∧ e - b + total rem = L ∧ e ≤ L

/-- One of the fragments arrives. -/
theorem waiting_frag {env : Env} (hok : EnvOk env) {ops : List Op} {c : Conn} (hc : c = run env ops) (ho : c.state = .online)
    {op : Op} {f : Fragment} (hr : Receives c op f) {lo : Int} (hw : InWindow lo c (step env c op).1) {id : Nat} {P : Bytes}
    {frs rem : List Fragment} (hp : Fragments id P frs) (hlP : P.length ≤ 1500) (hall : ∀ x ∈ f :: rem, x ∈ frs) {num : Nat}
    (hwt : Waiting frs P.length lo num (id % num) c (f :: rem)) :
    (rem ≠ [] → Waiting frs P.length lo num (id % num) (step env c op).1 rem ∧
      delivered (step env c op).1.log = delivered c.log) ∧
    (rem = [] → c.cbs.insideWrite = true → c.insidePlugins.plugins = 0 → ipv4Valid P = true →
      delivered (step env c op).1.log = P :: delivered c.log ∧ Vacant num (id % num) (step env c op).1) := by
  have hg : Good env c := hc ▸ run_good env ops
  have hf := hall f (by simp)
  obtain ⟨f1, _, f3, _⟩ := contiguous_facts hp.2.1 f hf
  rw [hp.2.2.2, Nat.zero_add] at f3
  have hpos : rem ≠ [] → 0 < total rem := by
    intro h
    cases rem with
    | nil => exact absurd rfl h
    | cons x r =>
      obtain ⟨x1, _⟩ := contiguous_facts hp.2.1 x (hall x (by simp))
      simp [total]; omega
  have htot : total (f :: rem) = f.data.length + total rem := by simp [total]
  rcases hwt with ⟨⟨t, ht, rfl, hs⟩, hgo, hsum, hlen⟩ | ⟨b, e, ⟨t, en, ht, rfl, hs, hb, hts⟩, hgr, hsum, he⟩
  · obtain ⟨h1, h2⟩ := frag_first hok hg ho hr hw hp hlP hf ht hs
    refine ⟨fun _ => ⟨.inr ⟨_, _, h1, hgo, ?_, f3⟩, h2⟩, fun h => ?_⟩
    · omega
    · rw [h] at hlen; simp at hlen
  · have hbe : b < e := by
      obtain ⟨life, hbt, hl, hn⟩ := hb
      exact ((hbt.packet hp hl).2 ⟨b, e, decide (e = P.length)⟩ (by rw [hn]; simp)).lt
    have : ∃ b' e', ((f.off = e ∧ b' = b ∧ e' = e + f.data.length) ∨ (f.off + f.data.length = b ∧ b' = f.off ∧ e' = e)) ∧
        growsFrom b' e' rem ∧ e' - b' + total rem = P.length ∧ e' ≤ P.length := by
      rcases hgr with ⟨g1, g2⟩ | ⟨g1, g2⟩
      · exact ⟨b, e + f.data.length, .inl ⟨g1, rfl, rfl⟩, g2, by omega, by omega⟩
      · exact ⟨f.off, e, .inr ⟨g1, rfl, rfl⟩, g2, by omega, by omega⟩
    obtain ⟨b', e', hgr', hg2, hs2, he2⟩ := this
    obtain ⟨k1, k2⟩ := frag_grow hok hg ho hr hw hp hlP hf ht hs hb hts hgr'
    constructor
    · intro hne
      have := hpos hne
      obtain ⟨m1, m2⟩ := k1 (by omega)
      exact ⟨.inr ⟨b', e', m1, hg2, hs2, he2⟩, m2⟩
    · intro h
      subst h
      simp [total] at hs2
      exact k2 (by omega)

theorem waiting_arrives {env : Env} (hok : EnvOk env) {lo : Int} {id num slot : Nat} {P : Bytes} {frs : List Fragment}
    (hp : Fragments id P frs) (hlP : P.length ≤ 1500) (hslot : slot = id % num) {c d : Conn} {pre : List Fragment}
    (ha : Arrives env slot lo c pre d) (rest : List Fragment) (hr : rest ≠ []) (hall : ∀ x ∈ pre ++ rest, x ∈ frs)
    (hc : ∃ ops, c = run env ops) (hw : Waiting frs P.length lo num slot c (pre ++ rest)) :
    (∃ ops, d = run env ops) ∧ Waiting frs P.length lo num slot d rest := by
  subst hslot
  induction ha with
  | nil c => exact ⟨hc, hw⟩
  | @other c d l new op hl hq h ih =>
    obtain ⟨ops, hc⟩ := hc
    refine ih hall ⟨ops ++ [op], by rw [run_snoc, ← hc]⟩ ?_
    obtain ⟨o, hi⟩ := run_inv env ops
    rw [← hc] at hi
    have hn := (run_finv env ops).num
    rw [← hc] at hn
    rcases hw with ⟨⟨t, ht, rfl, hs⟩, h1⟩ | ⟨b, e, ⟨t, en, ht, rfl, hs, hb, hts⟩, h1⟩
    · rw [← hn t ht] at hq
      obtain ⟨t', k1, k2, k3⟩ := step_slot env op hi ht hl hq
      exact .inl ⟨⟨t', k1, k2, by rw [k3]; exact hs⟩, h1⟩
    · rw [← hn t ht] at hq
      obtain ⟨t', k1, k2, k3⟩ := step_slot env op hi ht hl hq
      exact .inr ⟨b, e, ⟨t', en, k1, k2, by rw [k3]; exact hs, hb, hts⟩, h1⟩
  | @frag c d l f op ho hrc hwin h ih =>
    obtain ⟨ops, hc⟩ := hc
    have := (waiting_frag hok hc ho hrc hwin hp hlP hall hw).1 (by simp [hr])
    exact ih (fun x hx => hall x (by simp [hx])) ⟨ops ++ [op], by rw [run_snoc, ← hc]⟩ this.1

/-- **C12.** A packet `P` (IPv4, at most 1500 bytes) was cut into fragments `frs`, and no fragment is held for its
slot when the connection `c0`, in any reachable ONLINE state, starts to receive them, each once, in any order that
grows one contiguous block, within 64 seconds, with any number of other API calls in between that do not concern
the slot.  Then each fragment but the last delivers nothing, and the last delivers exactly `P`. -/
theorem C12_growth_order_delivers {env : Env} (hok : EnvOk env) (ops : List Op) {id : Nat} {P : Bytes}
    {frs pre post : List Fragment} {f : Fragment} {lo : Int} {c1 : Conn} {op : Op} :
    let c0 := run env ops
    let slot := id % tableSize c0.log
    c0.state = .online → (∀ f n, ¬Held c0.log slot f n) →
    Fragments id P frs → 20 ≤ P.length → P.length ≤ 1500 → (∃ b, P.head? = some b ∧ b.toNat / 16 = 4) →
    (pre ++ f :: post).Perm frs → GrowthOrder (pre ++ f :: post) →
    Arrives env slot lo c0 pre c1 →
    c1.state = .online → Receives c1 op f → InWindow lo c1 (step env c1 op).1 →
    (post = [] → c1.cbs.insideWrite = true ∧ insidePluginsAt c1.log = 0) →
    delivered (step env c1 op).1.log = (if post = [] then [P] else []) ++ delivered c1.log := by
  intro c0 slot ho hh hp hl1 hl2 hv hperm hgo ha ho1 hr hw hcb
  have hall : ∀ x ∈ pre ++ f :: post, x ∈ frs := fun x hx => hperm.subset hx
  have hwolf := (online_reading hok (run_good env ops) ho).1
  obtain ⟨t, ht⟩ := Option.isSome_iff_exists.1 (run_table hok ops hwolf)
  have hnum := (run_finv env ops).num t ht
  have hvac : Vacant (tableSize c0.log) slot c0 := by
    refine ⟨t, ht, hnum, ?_⟩
    cases hs : t.slot slot with
    | none => rfl
    | some en =>
      obtain ⟨_, _, f', n', h'⟩ := (run_finv env ops).ent t slot en ht hs
      exact (hh f' n' h').elim
  have hw0 : Waiting frs P.length lo (tableSize c0.log) slot c0 (pre ++ f :: post) :=
    .inl ⟨hvac, hgo, by rw [total_perm hperm, total_fragments hp], by rw [hperm.length_eq]; exact hp.1⟩
  obtain ⟨⟨ops1, hc1⟩, hw1⟩ := waiting_arrives hok hp hl2 rfl ha (f :: post) (by simp) hall ⟨ops, rfl⟩ hw0
  obtain ⟨k1, k2⟩ := waiting_frag hok hc1 ho1 hr hw hp hl2 (fun x hx => hall x (by simp at hx ⊢; right; exact hx)) hw1
  by_cases h : post = []
  · rw [if_pos h]
    obtain ⟨m1, m2⟩ := hcb h
    refine (k2 h m1 ?_ ?_).1
    · rw [hc1] at m2 ⊢
      rw [← (run_finv env ops1).plug]; exact m2
    · obtain ⟨b, hb1, hb2⟩ := hv
      cases P with
      | nil => simp at hl1
      | cons x r =>
        simp only [List.head?_cons, Option.some.injEq] at hb1
        subst hb1
        simp [ipv4Valid]
        exact ⟨by simpa using hl1, hb2⟩
  · rw [if_neg h]
    exact (k1 h).2

/-! ### Orders -/

/-- Fragments following each other from offset `o`. -/
def Chained : Nat → List Fragment → Prop
  | _, [] => True
  | o, f :: r => f.off = o ∧ Chained (o + f.data.length) r

theorem Contiguous.chained {o : Nat} {l : List Fragment} (h : Contiguous o l) : Chained o l := by
  induction l generalizing o with
  | nil => trivial
  | cons f r ih => exact ⟨h.1, ih h.2.2.2⟩

theorem Chained.forward {o b : Nat} {l : List Fragment} (h : Chained o l) : growsFrom b o l := by
  induction l generalizing o with
  | nil => trivial
  | cons f r ih => exact .inl ⟨h.1, ih h.2⟩

theorem Chained.backward {o e : Nat} {l m : List Fragment} (h : Chained o l) (hm : growsFrom o e m) :
    growsFrom (o + total l) e (l.reverse ++ m) := by
  induction l generalizing o m with
  | nil => exact hm
  | cons f r ih =>
    have : total (f :: r) = f.data.length + total r := by simp [total]
    rw [this, ← Nat.add_assoc, List.reverse_cons, List.append_assoc]
    refine ih h.2 (.inr ⟨by rw [h.1], ?_⟩)
    rw [h.1]; exact hm

theorem Chained.split {o : Nat} {l m : List Fragment} (h : Chained o (l ++ m)) : Chained o l ∧ Chained (o + total l) m := by
  induction l generalizing o with
  | nil => exact ⟨trivial, h⟩
  | cons f r ih =>
    have : total (f :: r) = f.data.length + total r := by simp [total]
    rw [this, ← Nat.add_assoc]
    exact ⟨⟨h.1, (ih h.2).1⟩, (ih h.2).2⟩

/-- The order in which the sender sends them is such an order. -/
theorem inOrder_grows {id : Nat} {P : Bytes} {frs : List Fragment} (h : Fragments id P frs) : GrowthOrder frs := by
  have h2 := Contiguous.chained h.2.1
  cases frs with
  | nil => trivial
  | cons f r =>
    show growsFrom _ _ _
    rw [h2.1]
    exact h2.2.forward

/-- So is the reverse order. -/
theorem reverse_grows {id : Nat} {P : Bytes} {frs : List Fragment} (h : Fragments id P frs) : GrowthOrder frs.reverse := by
  have h2 := Contiguous.chained h.2.1
  rcases List.eq_nil_or_concat frs with rfl | ⟨l, z, rfl⟩
  · trivial
  · rw [List.concat_eq_append] at h2 ⊢
    obtain ⟨h3, h4⟩ := h2.split
    rw [List.reverse_append]
    show growsFrom _ _ _
    have := h3.backward (m := []) (e := z.off + z.data.length) trivial
    rw [List.append_nil, ← h4.1] at this
    exact this

theorem perm_two {α : Type} {x y a b : α} (h : [x, y].Perm [a, b]) : (x = a ∧ y = b) ∨ (x = b ∧ y = a) := by
  have hx : x ∈ [a, b] := h.subset (by simp)
  rcases List.mem_cons.mp hx with rfl | hx
  · have := (List.perm_cons _).1 h
    exact .inl ⟨rfl, by simpa using this⟩
  · have hx : x = b := by simpa using hx
    subst hx
    have h2 : [x, y].Perm [x, a] := h.trans (List.Perm.swap x a [])
    have := (List.perm_cons _).1 h2
    exact .inr ⟨rfl, by simpa using this⟩

/-- **C13, for packets in two fragments** (every packet of at most 1500 bytes when the effective PMTU is at least
750): whatever the order of arrival, nothing is delivered by the first and exactly the packet by the second.
Missing: packets in three or more fragments, for which the claim is false (`C13_gap_never_fills`). -/
theorem C13_two_fragments_partial {env : Env} (hok : EnvOk env) (ops : List Op) {id : Nat} {P : Bytes}
    {f g : Fragment} {frs : List Fragment} {lo : Int} {c1 : Conn} {op : Op} :
    let c0 := run env ops
    let slot := id % tableSize c0.log
    c0.state = .online → (∀ f n, ¬Held c0.log slot f n) →
    Fragments id P frs → 20 ≤ P.length → P.length ≤ 1500 → (∃ b, P.head? = some b ∧ b.toNat / 16 = 4) →
    [f, g].Perm frs → Arrives env slot lo c0 [f] c1 →
    c1.state = .online → Receives c1 op g → InWindow lo c1 (step env c1 op).1 →
    c1.cbs.insideWrite = true → insidePluginsAt c1.log = 0 →
    delivered (step env c1 op).1.log = P :: delivered c1.log := by
  intro c0 slot ho hh hp h1 h2 hv hperm ha ho1 hr hw hcb hpl
  have hgo : GrowthOrder [f, g] := by
    match frs, hperm.length_eq, hp, hperm with
    | [a, b], _, hp, hperm =>
      rcases perm_two hperm with ⟨rfl, rfl⟩ | ⟨rfl, rfl⟩
      · exact inOrder_grows hp
      · exact reverse_grows hp
  have := C12_growth_order_delivers hok ops (pre := [f]) (post := []) ho hh hp h1 h2 hv hperm hgo ha ho1 hr hw
    (fun _ => ⟨hcb, hpl⟩)
  simpa using this

theorem decodeFrag_carried {m : Bytes} {f : Fragment} (h : decodeFrag m = some f) : carried m = some f := by
  unfold decodeFrag at h
  split at h
  · rename_i h1
    cases h
    unfold carried
    rw [if_pos ⟨h1.1, h1.2.1, by omega⟩]
    congr 2
    unfold field
    rw [List.take_of_length_le]
    simp only [List.length_drop]
    have := h1.2.2
    unfold field at this
    omega
  · cases h

/-- **C12, end to end.** Any reachable sender on a datagram connection without inside plugins and with an outside
MTU of at most 1614 accepts a packet that needs fragmentation.  The messages it hands to its TLS layer carry
fragments which, when they arrive at any reachable ONLINE receiver without inside plugins, in the order sent or any
other order that grows one block, deliver exactly one packet: the sender's, with its MSS clamped. -/
theorem C12_end_to_end (env env' : Env) (hok : EnvOk env') (ops ops' : List Op) (pkt q : Bytes) :
    let c := run env ops
    let d := run env' ops'
    let slot := c.fragNextId % tableSize d.log
    clampMss pkt (effectivePmtu c - 40) = some (q, .success) → c.insidePlugins.plugins = 0 → c.outsideMtu ≤ 1614 →
    c.connType = .datagram → effectivePmtu c < q.length → (step env c (.insidePacket pkt)).2 = .success →
    d.state = .online → (∀ f n, ¬Held d.log slot f n) →
    ∃ (new : List Bytes) (frs : List Fragment),
      writes (step env c (.insidePacket pkt)).1.log = new.reverse ++ writes c.log ∧
      new.map carried = frs.map some ∧ (∀ m ∈ new, m.length ≤ 1500) ∧
      ∀ (order pre : List Fragment) (f : Fragment) (lo : Int) (d1 : Conn) (op : Op),
        (order = frs ∨ order = frs.reverse ∨ (order.Perm frs ∧ GrowthOrder order)) → order = pre ++ [f] →
        Arrives env' slot lo d pre d1 → d1.state = .online → Receives d1 op f → InWindow lo d1 (step env' d1 op).1 →
        d1.cbs.insideWrite = true → insidePluginsAt d1.log = 0 →
        delivered (step env' d1 op).1.log = q :: delivered d1.log := by
  intro c d slot hq hpl hmtu hdg hbig hsuc hod hh
  have hgc : Good env c := run_good env ops
  have hprep : Prepared (c.emit (.api .insidePacket)) pkt q := ⟨q, _, hq, ingress_noPlugins hpl _ _ _⟩
  obtain ⟨new, frs, hw, hdec, hfr, hlen⟩ := C11_fragments_partition env ops pkt q hprep hdg hbig hsuc
  obtain ⟨o, hi⟩ := hgc.inv
  have hpr := effectivePmtu_range hi.pm
  have hcar : new.map carried = frs.map some := by
    clear hw hlen hfr
    induction new generalizing frs with
    | nil => exact hdec
    | cons m r ih =>
      cases frs with
      | nil => simp at hdec
      | cons f fs =>
        simp only [List.map_cons, List.cons.injEq] at hdec ⊢
        exact ⟨decodeFrag_carried hdec.1, ih fs hdec.2⟩
  refine ⟨new, frs, hw, hcar, ?_, ?_⟩
  · intro m hm
    have : m.length ≤ effectivePmtu c + 3 := hlen m hm
    omega
  · intro order pre f lo d1 op hord hsplit ha ho1 hr hwin hcb hpl1
    have hv := (clampMss_valid hq).2
    have hperm : order.Perm frs := by
      rcases hord with rfl | rfl | h
      · exact .refl _
      · exact List.reverse_perm _
      · exact h.1
    have hgo : GrowthOrder order := by
      rcases hord with rfl | rfl | h
      · exact inOrder_grows hfr
      · exact reverse_grows hfr
      · exact h.2
    have hql : q.length ≤ 1500 := by
      have hs : c.state = .online := by
        apply Decidable.byContradiction
        intro hs
        rw [(inside_refused env c pkt).1 hs] at hsuc
        cases hsuc
      have hle : pkt.length ≤ sizeSub c.outsideMtu packetOverhead := by
        apply Decidable.byContradiction
        intro hn
        have : (insidePacket env (c.emit (.api .insidePacket)) pkt).2 = .success := hsuc
        unfold insidePacket at this
        rw [if_neg (by simp [show (c.emit (.api .insidePacket)).state = .online from hs])] at this
        split at this
        · cases this
        · simp only at this
          rw [if_pos (by show pkt.length > sizeSub c.outsideMtu packetOverhead; omega)] at this
          cases this
      have hcl := (C19_only_mss_and_checksum pkt q _ _ hq).1
      rcases hgc.sizes.mtu with h2 | h2
      · exact absurd h2 (hgc.sizes.online hs)
      · rw [capacity_eq (by omega) (by omega)] at hle; omega
    subst hsplit
    have hv2 := hv
    rw [ipv4Valid_iff] at hv2
    have hhead : ∃ b, q.head? = some b ∧ b.toNat / 16 = 4 := by
      cases q with
      | nil => simp [ipv4Valid] at hv
      | cons b t => simp [ipv4Valid] at hv; exact ⟨b, rfl, hv.2⟩
    have := C12_growth_order_delivers hok ops' (pre := pre) (post := []) hod hh hfr hv2.1 hql hhead hperm hgo
      ha ho1 hr hwin (fun _ => ⟨hcb, hpl1⟩)
    simpa using this

/-! ### Concrete cases -/

theorem inWindow_const (env : Env) {o : Option Api} {c : Conn} (hi : Inv env o c) (op : Op)
    (h : (step env c op).1.log.all (fun e => match e with | .clock t => t == 1000 | _ => true) = true) :
    InWindow 1000 c (step env c op).1 := by
  obtain ⟨l, hl, _⟩ := step_log env op hi
  refine ⟨.ret (step env c op).2 :: l ++ [.api op.api], by rw [hl]; simp, ?_⟩
  intro t ht
  rw [List.all_eq_true] at h
  have := h (.clock t) (by rw [hl]; simp at ht ⊢; exact .inl ht)
  simp at this
  omega

namespace Demo

/-- The operation that lets the server receive the message `m`. -/
def recv (m : Bytes) : Op := .outsideData (dgram [9]) [msg m]

theorem receives (c : Conn) (m : Bytes) {f : Fragment} (hm : m.length ≤ 1500) (hf : carried m = some f)
    (hp : c.outsidePlugins.isEmpty = true) (ht : c.connType = .datagram) (hv : c.verMajor = 1 ∧ c.verMinor = 2) :
    Receives c (recv m) f := by
  refine ⟨dgram [9], msg m, rfl, hm, accepts_plain _ _ hp ht ?_, hf⟩
  refine ⟨by decide, by decide, ?_, by decide +kernel⟩
  show field (dgram [9]) 2 2 = [c.verMajor, c.verMinor]
  rw [hv.1, hv.2]; decide

/-- `ipPkt` in three fragments with identifier 5. -/
def three : List Fragment := [⟨5, 0, true, ipPkt.take 8⟩, ⟨5, 8, true, (ipPkt.drop 8).take 8⟩, ⟨5, 16, false, ipPkt.drop 16⟩]

theorem three_fragments : Fragments 5 ipPkt three := by
  refine ⟨by decide, ?_, by decide, by decide +kernel⟩
  exact ⟨rfl, by decide, rfl, rfl, by decide, rfl, rfl, by decide, rfl, trivial⟩

def m0 : Bytes := frag 5 0 true (ipPkt.take 8)
def m1 : Bytes := frag 5 8 true ((ipPkt.drop 8).take 8)
def m2 : Bytes := frag 5 16 false (ipPkt.drop 16)

/-- Facts that make a receiver with the given history accept a fragment at time 1000. -/
def ready (c : Conn) (op : Op) : Bool :=
  c.outsidePlugins.isEmpty && c.connType == .datagram && c.verMajor == 1 && c.verMinor == 2 && c.state == .online &&
    (step env c op).1.log.all (fun e => match e with | .clock t => t == 1000 | _ => true)

theorem ready_recv {ops : List Op} {m : Bytes} {f : Fragment} (h : ready (run env ops) (recv m) = true) (hm : m.length ≤ 1500)
    (hf : carried m = some f) : (run env ops).state = .online ∧ Receives (run env ops) (recv m) f ∧
      InWindow 1000 (run env ops) (step env (run env ops) (recv m)).1 := by
  simp only [ready, Bool.and_eq_true, beq_iff_eq] at h
  obtain ⟨⟨⟨⟨⟨h1, h2⟩, h3⟩, h4⟩, h5⟩, h6⟩ := h
  obtain ⟨o, hi⟩ := run_inv env ops
  exact ⟨h5, receives _ m hm hf h1 h2 ⟨h3, h4⟩, inWindow_const env hi _ h6⟩

theorem no_fragment_yet {l : Log} (h : l.all (fun e => match e with | .message m => (carried m).isNone | _ => true) = true)
    (slot : Nat) (f : Fragment) (n : Log) : ¬Held l slot f n := by
  rintro ⟨m, o, ho, hc, _⟩
  rw [List.all_eq_true] at h
  have := h (.message m) (by rw [ho]; simp)
  simp [hc] at this

end Demo

/-- The hypotheses of C12 are met: the server of the demonstration receives three fragments in the order 1, 0, 2. -/
example : ∃ c1, (run Demo.env Demo.serverOps).state = .online ∧
    (∀ f n, ¬Held (run Demo.env Demo.serverOps).log (5 % tableSize (run Demo.env Demo.serverOps).log) f n) ∧
    Fragments 5 Demo.ipPkt Demo.three ∧
    [Demo.three[1], Demo.three[0], Demo.three[2]].Perm Demo.three ∧
    GrowthOrder [Demo.three[1], Demo.three[0], Demo.three[2]] ∧
    Arrives Demo.env (5 % tableSize (run Demo.env Demo.serverOps).log) 1000 (run Demo.env Demo.serverOps)
      [Demo.three[1], Demo.three[0]] c1 ∧ c1.state = .online ∧
    Receives c1 (Demo.recv Demo.m2) Demo.three[2] ∧ InWindow 1000 c1 (step Demo.env c1 (Demo.recv Demo.m2)).1 ∧
    c1.cbs.insideWrite = true ∧ insidePluginsAt c1.log = 0 := by
  have a1 := Demo.ready_recv (ops := Demo.serverOps) (m := Demo.m1) (f := Demo.three[1]) (by decide +kernel) (by decide) (by decide +kernel)
  have a2 := Demo.ready_recv (ops := Demo.serverOps ++ [Demo.recv Demo.m1]) (m := Demo.m0) (f := Demo.three[0]) (by decide +kernel)
    (by decide) (by decide +kernel)
  have a3 := Demo.ready_recv (ops := Demo.serverOps ++ [Demo.recv Demo.m1] ++ [Demo.recv Demo.m0]) (m := Demo.m2) (f := Demo.three[2])
    (by decide +kernel) (by decide) (by decide +kernel)
  refine ⟨run Demo.env (Demo.serverOps ++ [Demo.recv Demo.m1] ++ [Demo.recv Demo.m0]), a1.1, Demo.no_fragment_yet (by decide +kernel) _,
    Demo.three_fragments, List.Perm.swap _ _ _, ?_, ?_, a3.1, a3.2.1, a3.2.2, by decide +kernel, by decide +kernel⟩
  · exact .inr ⟨rfl, .inl ⟨rfl, trivial⟩⟩
  · refine .frag (Demo.recv Demo.m1) a1.1 a1.2.1 a1.2.2 ?_
    rw [run_snoc] at a2
    refine .frag (Demo.recv Demo.m0) a2.1 a2.2.1 a2.2.2 ?_
    rw [run_snoc, run_snoc]
    exact .nil _

/-- **C13 is false.** All three fragments of a packet arrive within the same second at an ONLINE receiver whose
slot is empty, in the order 0, 2, 1, and nothing is delivered. -/
theorem C13_gap_never_fills : ∃ (env : Env) (ops : List Op) (P : Bytes) (frs order : List Fragment) (c1 : Conn),
    EnvOk env ∧ (run env ops).state = .online ∧ (run env ops).cbs.insideWrite = true ∧ insidePluginsAt (run env ops).log = 0 ∧
    (∀ f n, ¬Held (run env ops).log (5 % tableSize (run env ops).log) f n) ∧
    Fragments 5 P frs ∧ ipv4Valid P = true ∧ P.length ≤ 1500 ∧ order.Perm frs ∧
    Arrives env (5 % tableSize (run env ops).log) 1000 (run env ops) order c1 ∧
    delivered c1.log = delivered (run env ops).log := by
  have a1 := Demo.ready_recv (ops := Demo.serverOps) (m := Demo.m0) (f := Demo.three[0]) (by decide +kernel) (by decide) (by decide +kernel)
  have a2 := Demo.ready_recv (ops := Demo.serverOps ++ [Demo.recv Demo.m0]) (m := Demo.m2) (f := Demo.three[2]) (by decide +kernel)
    (by decide) (by decide +kernel)
  have a3 := Demo.ready_recv (ops := Demo.serverOps ++ [Demo.recv Demo.m0] ++ [Demo.recv Demo.m2]) (m := Demo.m1) (f := Demo.three[1])
    (by decide +kernel) (by decide) (by decide +kernel)
  refine ⟨Demo.env, Demo.serverOps, Demo.ipPkt, Demo.three, [Demo.three[0], Demo.three[2], Demo.three[1]],
    run Demo.env (Demo.serverOps ++ [Demo.recv Demo.m0] ++ [Demo.recv Demo.m2] ++ [Demo.recv Demo.m1]),
    Demo.envOk, a1.1, by decide +kernel, by decide +kernel, Demo.no_fragment_yet (by decide +kernel) _,
    Demo.three_fragments, by decide +kernel, by decide, .cons _ (List.Perm.swap _ _ _), ?_, by decide +kernel⟩
  refine .frag (Demo.recv Demo.m0) a1.1 a1.2.1 a1.2.2 ?_
  rw [run_snoc] at a2
  refine .frag (Demo.recv Demo.m2) a2.1 a2.2.1 a2.2.2 ?_
  rw [run_snoc, run_snoc] at a3
  refine .frag (Demo.recv Demo.m1) a3.1 a3.2.1 a3.2.2 ?_
  rw [run_snoc, run_snoc, run_snoc]
  exact .nil _

/-- The sender's side of `C12_end_to_end`: a 1386-byte packet, which the client of the demonstration fragments. -/
example : clampMss bigPkt (effectivePmtu (run Demo.env Demo.clientOps) - 40) = some (bigPkt, .success) ∧
    (run Demo.env Demo.clientOps).insidePlugins.plugins = 0 ∧ (run Demo.env Demo.clientOps).outsideMtu ≤ 1614 ∧
    (run Demo.env Demo.clientOps).connType = .datagram ∧ effectivePmtu (run Demo.env Demo.clientOps) < bigPkt.length ∧
    (step Demo.env (run Demo.env Demo.clientOps) (.insidePacket bigPkt)).2 = .success ∧
    ∀ slot f n, ¬Held (run Demo.env Demo.serverOps).log slot f n := by
  refine ⟨by decide +kernel, by decide +kernel, by decide +kernel, by decide +kernel, by decide +kernel, by decide +kernel, ?_⟩
  exact fun slot => Demo.no_fragment_yet (by decide +kernel) slot

/-! ### C58 -/

/-- **C58, with an outside MTU of at most 1614** (the default is 1500): every fragment a packet accepted on a datagram
connection is sent in ends within the 1500 bytes that reassembly accepts.  Missing: larger outside MTUs, for which
the claim is false (`C58_large_mtu_refused_by_peer`). -/
theorem C58_fragments_fit_partial (env : Env) (ops : List Op) (pkt : Bytes) :
    let c := run env ops
    c.outsideMtu ≤ 1614 → ∃ new : List Bytes,
      writes (step env c (.insidePacket pkt)).1.log = new.reverse ++ writes c.log ∧
      ∀ m ∈ new, m.length ≤ 1500 ∧ ∀ f, decodeFrag m = some f → f.off + f.data.length ≤ 1500 := by
  intro c hmtu
  have hg : Good env c := run_good env ops
  obtain ⟨h1, h2, h3, h4, _, h6, _, _⟩ := step_inside env hg pkt
  by_cases hs : c.state = .online
  · have hcap : sizeSub c.outsideMtu packetOverhead ≤ 1500 := by
      rcases hg.sizes.mtu with h | h
      · exact absurd h (hg.sizes.online hs)
      · rw [capacity_eq (by omega) (by omega)]; omega
    have hpr := effectivePmtu_range h1
    have hpost := insidePacket_writes env (c.emit (.api .insidePacket)) pkt h1 h2 (h3 hs)
    rw [h6, ← h4]
    obtain ⟨_, ⟨hw, _⟩ | ⟨p, hp, hpl, ⟨_, hl, hw⟩ | ⟨_, _, new, frs, rest, hw, hlen, hdec, hfr, _⟩⟩⟩ := hpost
    · exact ⟨[], hw, by simp⟩
    · refine ⟨[dataMsg (c.emit (.api .insidePacket)) p], hw, ?_⟩
      intro m hm
      simp only [List.mem_singleton] at hm
      have h5 : m.head? = some 5 := by rw [hm]; unfold dataMsg; rfl
      rw [← hm] at hw
      obtain ⟨_, _, _, _, _, _, _, _, hml, _⟩ := padding_of_write env _ pkt m h1 h2 (h3 hs) h5 hw
      refine ⟨hml, fun f hf => ?_⟩
      unfold decodeFrag at hf
      split at hf
      · rename_i h15; rw [h5] at h15; simp at h15
      · cases hf
    · refine ⟨new, hw, fun m hm => ?_⟩
      have hm2 := hlen m hm
      refine ⟨by omega, fun f hf => ?_⟩
      have hmem : f ∈ frs := by
        have : some f ∈ new.map decodeFrag := List.mem_map.2 ⟨m, hm, hf⟩
        rw [hdec] at this
        simpa using this
      obtain ⟨_, _, h, _⟩ := contiguous_facts hfr.2.1 f (by simp [hmem])
      rw [hfr.2.2.2] at h
      have : sizeSub (c.emit (.api .insidePacket)).outsideMtu packetOverhead ≤ 1500 := hcap
      omega
  · rw [(inside_refused env c pkt).1 hs]
    exact ⟨[], rfl, by simp⟩

/-- Whoever receives it refuses a fragment that ends beyond 1500 bytes, without any effect. -/
theorem oversize_refused (env : Env) (d : Conn) (ho : d.state = .online) {m : Bytes} {f : Fragment} (hc : decodeFrag m = some f)
    (hl : 1500 < f.off + f.data.length) : processMessage env d m = (d, .pointerWouldOverflow) := by
  have hc := decodeFrag_carried hc
  unfold carried at hc
  split at hc
  · rename_i h
    obtain ⟨h1, h2, h3⟩ := h
    cases hc
    have hproc : processMessage env d m = handleDataFrag env d m := by
      cases m with
      | nil => simp at h1
      | cons x r =>
        simp only [List.head?_cons, Option.some.injEq] at h1
        subst h1
        unfold processMessage
        simp [msgNoop, msgPing, msgPong, msgAuth, msgData, msgConfigIpv4, msgAuthResponse, msgAuthResponseWithConfig,
          msgGoodbye, msgExtension, msgDeprecated13, msgServerConfig, msgDataWithFrag]
    have e1 := num_rdBe16 (bs := field m 1 2) (field_length (by omega))
    have e3 := num_rdBe16 (bs := field m 5 2) (field_length (by omega))
    simp only at hl
    rw [field_length (by omega)] at hl
    rw [hproc]
    unfold handleDataFrag
    rw [if_neg (by simp [ho]), if_neg (by omega), rd_isSome (by omega), rd_isSome (by omega), rd_isSome (by omega)]
    simp only
    rw [show (m.drop 1).take 2 = field m 1 2 from rfl, show (m.drop 3).take 2 = field m 3 2 from rfl,
      show (m.drop 5).take 2 = field m 5 2 from rfl, ← e1, ← e3, if_neg (by omega),
      if_pos (by simp only [maxWireMtu]; omega)]
  · cases hc

/-- The client of the demonstration with an outside MTU of 1700. -/
def Demo.bigMtuOps : List Op := Demo.clientOps.map fun op => match op with
  | .setOutsideMtu _ => .setOutsideMtu 1700
  | op => op

/-- An IPv4 packet of 1586 bytes. -/
def hugePkt : Bytes := [69, 0, 6, 50] ++ zeros 1582

/-- **C58 is false for larger outside MTUs.** A connection with outside MTU 1700 accepts a packet of 1586 bytes and
sends it in fragments of which one is refused by every receiver in every state. -/
theorem C58_large_mtu_refused_by_peer : ∃ (env : Env) (ops : List Op) (pkt m : Bytes),
    (run env ops).connType = .datagram ∧ (step env (run env ops) (.insidePacket pkt)).2 = .success ∧
    m ∈ writes (step env (run env ops) (.insidePacket pkt)).1.log ∧ m ∉ writes (run env ops).log ∧
    ∀ (env' : Env) (d : Conn), processMessage env' d m = (d, .pointerWouldOverflow) ∨
      processMessage env' d m = (d, .invalidConnState) := by
  have hm : ∃ m, (writes (step Demo.env (run Demo.env Demo.bigMtuOps) (.insidePacket hugePkt)).1.log).head? = some m ∧
      m ∉ writes (run Demo.env Demo.bigMtuOps).log ∧ m.head? = some 15 ∧
      ∃ f, decodeFrag m = some f ∧ 1500 < f.off + f.data.length := by
    refine ⟨fragMsg 0 1344 false (hugePkt.drop 1344), by decide +kernel, by decide +kernel, by decide +kernel,
      ⟨0, 1344, false, hugePkt.drop 1344⟩, by decide +kernel, by decide +kernel⟩
  obtain ⟨m, h1, h2, h15, f, h3, h4⟩ := hm
  refine ⟨Demo.env, Demo.bigMtuOps, hugePkt, m, by decide +kernel, by decide +kernel, ?_, h2, ?_⟩
  · exact List.mem_of_mem_head? h1
  · intro env' d
    by_cases ho : d.state = .online
    · exact .inl (oversize_refused env' d ho h3 h4)
    · right
      cases m with
      | nil => simp at h15
      | cons x r =>
        simp only [List.head?_cons, Option.some.injEq] at h15
        subst h15
        unfold processMessage
        simp [msgNoop, msgPing, msgPong, msgAuth, msgData, msgConfigIpv4, msgAuthResponse, msgAuthResponseWithConfig,
          msgGoodbye, msgExtension, msgDeprecated13, msgServerConfig, msgDataWithFrag, handleDataFrag, ho]

end Lightway
