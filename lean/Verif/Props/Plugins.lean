import Verif.Model.Stats

/-!
# Plugin chains and the statistics plugin (C53, C65)
-/

namespace Lightway

/-- A plugin function: history so far, packet, capacity to verdict and packet. -/
abbrev PlugFn := Log → Bytes → Nat → PluginRet × Bytes

namespace Spec

/-- Running plugin functions one after the other on a packet; the first that does not report success
stops the sequence. -/
def runAll (mark : Bytes → PluginRet → Effect) (cap : Nat) : List PlugFn → Log → Bytes → Log × Bytes × PluginRet
  | [], log, p => (log, p, .success)
  | f :: fs, log, p =>
    let r := f log p cap
    if r.1 = .success then runAll mark cap fs (mark p r.1 :: log) r.2
    else (mark p r.1 :: log, r.2, r.1)

/-- The return code of a chain for the verdict that decided it. -/
def verdict : PluginRet → RC
  | .success => .success
  | .fail => .failed
  | .drop => .pluginDrop

end Spec
open Spec

/-- Registering a list of plugins one after the other. -/
def registerAll (ch : Chain) (ps : List Plugin) : Chain :=
  ps.foldl (fun ch p => (ch.register p).1) ch

theorem register_full (qs : List Plugin) (q p : Plugin) :
    Chain.register ((q :: qs).map some) p = ((q :: qs ++ [p]).map some, .success) := by
  induction qs generalizing q with
  | nil => rfl
  | cons q' qs ih =>
    have := ih q'
    simp only [List.map_cons] at this ⊢
    simp only [Chain.register, this]
    simp

theorem registerAll_full (ps qs : List Plugin) (q : Plugin) :
    registerAll ((q :: qs).map some) ps = (q :: qs ++ ps).map some := by
  induction ps generalizing qs with
  | nil => simp [registerAll]
  | cons p ps ih =>
    unfold registerAll
    rw [List.foldl_cons, register_full]
    have := ih (qs ++ [p])
    unfold registerAll at this
    simp only [List.cons_append, List.append_assoc, List.nil_append] at this ⊢
    exact this

/-- The chain after registering plugins on a fresh one. -/
theorem registerAll_create (ps : List Plugin) :
    registerAll Chain.create ps = if ps = [] then [none] else ps.map some := by
  cases ps with
  | nil => rfl
  | cons p ps =>
    have := registerAll_full ps [] p
    simpa [registerAll, Chain.create, Chain.register] using this

theorem ingress_some (ps : List Plugin) (log : Log) (pkt : Bytes) (cap : Nat) :
    Chain.ingress (ps.map some) log pkt cap =
      let r := runAll .pluginIngress cap (ps.filterMap (·.ingress)) log pkt
      (r.1, r.2.1, verdict r.2.2) := by
  induction ps generalizing log pkt with
  | nil => rfl
  | cons p ps ih =>
    simp only [List.map_cons, Chain.ingress, Option.bind_some]
    cases h : p.ingress with
    | none => simp only [List.filterMap_cons, h]; exact ih log pkt
    | some f =>
      simp only [List.filterMap_cons, h, runAll]
      generalize hf : f log pkt cap = r
      obtain ⟨v, q⟩ := r
      cases v
      · simp only [if_true]; exact ih _ q
      · rfl
      · rfl

theorem runAll_append (mark : Bytes → PluginRet → Effect) (cap : Nat) (fs gs : List PlugFn) (log : Log) (pkt : Bytes) :
    runAll mark cap (fs ++ gs) log pkt =
      let r := runAll mark cap fs log pkt
      if r.2.2 = .success then runAll mark cap gs r.1 r.2.1 else r := by
  induction fs generalizing log pkt with
  | nil => simp [runAll]
  | cons f fs ih =>
    simp only [List.cons_append, runAll]
    split
    · exact ih _ _
    · rfl

theorem egress_some (ps : List Plugin) (log : Log) (pkt : Bytes) (cap : Nat) :
    Chain.egress (ps.map some) log pkt cap =
      let r := runAll .pluginEgress cap (ps.reverse.filterMap (·.egress)) log pkt
      (r.1, r.2.1, verdict r.2.2) := by
  induction ps generalizing log pkt with
  | nil => rfl
  | cons p ps ih =>
    simp only [List.map_cons, Chain.egress, Option.bind_some, ih, List.reverse_cons, List.filterMap_append,
      runAll_append]
    generalize runAll Effect.pluginEgress cap (List.filterMap (fun x => x.egress) ps.reverse) log pkt = r
    obtain ⟨l, q, v⟩ := r
    cases v
    · cases h : p.egress with
      | none => simp [verdict, h, runAll]
      | some f =>
        simp only [verdict, ne_eq, not_true_eq_false, if_false, if_true, List.filterMap_cons, h,
          List.filterMap_nil, runAll]
        generalize hf : f l q cap = r
        obtain ⟨v, q'⟩ := r
        cases v <;> rfl
    · simp [verdict]
    · simp [verdict]

/-- **C53, order and refusal.** After registering plugins on a fresh chain, the ingress direction runs their
ingress functions in registration order, the egress direction their egress functions in the opposite order;
the first refusal ends the run and decides the return code. -/
theorem C53_order (ps : List Plugin) (log : Log) (pkt : Bytes) (cap : Nat) :
    (registerAll Chain.create ps).ingress log pkt cap =
      (let r := runAll .pluginIngress cap (ps.filterMap (·.ingress)) log pkt
       (r.1, r.2.1, verdict r.2.2)) ∧
    (registerAll Chain.create ps).egress log pkt cap =
      (let r := runAll .pluginEgress cap (ps.reverse.filterMap (·.egress)) log pkt
       (r.1, r.2.1, verdict r.2.2)) := by
  rw [registerAll_create]
  split
  · rename_i h
    subst h
    exact ⟨rfl, rfl⟩
  · exact ⟨ingress_some ps log pkt cap, egress_some ps log pkt cap⟩

/-- A plugin whose egress undoes its ingress, at whatever point of the history either runs. -/
def Mirrors (p : Plugin) : Prop :=
  match p.ingress, p.egress with
  | none, none => True
  | some f, some g => ∀ l l' pkt cap cap' q, f l pkt cap = (.success, q) → g l' q cap' = (.success, pkt)
  | _, _ => False

/-- **C53, inversion.** If every plugin's egress undoes its ingress, the egress chain undoes the ingress
chain. -/
theorem C53_inverse (ps : List Plugin) (h : ∀ p ∈ ps, Mirrors p) (l l' l1 : Log) (pkt q : Bytes) (cap cap' : Nat)
    (hin : (registerAll Chain.create ps).ingress l pkt cap = (l1, q, .success)) :
    ∃ l2, (registerAll Chain.create ps).egress l' q cap' = (l2, pkt, .success) := by
  rw [registerAll_create] at hin ⊢
  split at hin
  · rename_i h0
    subst h0
    rw [if_pos rfl]
    simp [Chain.ingress] at hin
    exact ⟨l', by simp [Chain.egress, hin.2]⟩
  rename_i h0
  rw [if_neg h0]
  clear h0
  induction ps generalizing l pkt with
  | nil =>
    simp [Chain.ingress] at hin
    exact ⟨l', by simp [Chain.egress, hin.2]⟩
  | cons p ps ih =>
    have hp := h p (by simp)
    have ih := fun l pkt => ih (fun q hq => h q (by simp [hq])) l pkt
    simp only [List.map_cons, Chain.ingress, Option.bind_some] at hin
    unfold Mirrors at hp
    split at hp
    · rename_i h1 h2
      rw [h1] at hin
      obtain ⟨l2, he⟩ := ih l pkt hin
      exact ⟨l2, by simp [Chain.egress, he, h2]⟩
    · rename_i f g h1 h2
      rw [h1] at hin
      simp only at hin
      generalize hf : f l pkt cap = r at hin
      obtain ⟨v, p1⟩ := r
      cases v with
      | success =>
        obtain ⟨l2, he⟩ := ih _ p1 hin
        have := hp l l2 pkt cap cap' p1 hf
        exact ⟨Effect.pluginEgress p1 .success :: l2, by simp [Chain.egress, he, h2, this]⟩
      | fail => simp at hin
      | drop => simp at hin
    · exact hp.elim

/-- A plugin that flips every byte, in both directions. -/
def flipPlugin : Plugin :=
  { ingress := some (fun _ p _ => (.success, p.map (fun b => 255 - b)))
    egress := some (fun _ p _ => (.success, p.map (fun b => 255 - b))) }

theorem flip_mirrors : Mirrors flipPlugin := by
  intro l l' pkt cap cap' q h
  simp only [Prod.mk.injEq, true_and] at h ⊢
  subst h
  rw [List.map_map]
  conv => rhs; rw [← List.map_id pkt]
  apply List.map_congr_left
  intro b _
  show 255 - (255 - b) = b
  apply UInt8.toNat_inj.mp
  have := b.toNat_lt
  have e := UInt8.toNat_sub_of_le 255 b (by rw [UInt8.le_iff_toNat_le]; show b.toNat ≤ 255; omega)
  have e2 := UInt8.toNat_sub_of_le 255 (255 - b) (by rw [UInt8.le_iff_toNat_le, e]; show 255 - b.toNat ≤ 255; omega)
  rw [e2, e]
  show 255 - (255 - b.toNat) = b.toNat
  omega

example : ∃ l, (registerAll Chain.create [flipPlugin, statsPlugin]).ingress [] [1, 2] 10 = (l, [254, 253], .success) :=
  ⟨_, rfl⟩

/-! ## C65 -/

/-- Feeding packet lengths to the statistics of one direction. -/
def statsOf (lens : List Nat) : Stats := lens.foldl Stats.sample {}

/-- Least and greatest element of a non-empty list. -/
theorem statsOf_spec (lens : List Nat) :
    (statsOf lens).n = lens.length ∧ (statsOf lens).sum = lens.sum ∧
    (statsOf lens).sumsq = (lens.map (fun s => s * s)).sum ∧
    (lens ≠ [] → (statsOf lens).min ∈ lens ∧ (statsOf lens).max ∈ lens) ∧
    ∀ s ∈ lens, (statsOf lens).min ≤ s ∧ s ≤ (statsOf lens).max := by
  have key : ∀ (rev : List Nat), let st := rev.foldr (fun s st => Stats.sample st s) {}
      st.n = rev.length ∧ st.sum = rev.sum ∧ st.sumsq = (rev.map (fun s => s * s)).sum ∧
      (rev ≠ [] → st.min ∈ rev ∧ st.max ∈ rev) ∧ ∀ s ∈ rev, st.min ≤ s ∧ s ≤ st.max := by
    intro rev
    induction rev with
    | nil => simp
    | cons s rev ih =>
      simp only [List.foldr_cons] at ih ⊢
      generalize List.foldr (fun s st => Stats.sample st s) {} rev = st at ih ⊢
      obtain ⟨h1, h2, h3, h4, h5⟩ := ih
      simp only [Stats.sample]
      refine ⟨by simp [h1], by simp [h2]; omega, by simp [h3]; omega, fun _ => ?_, ?_⟩
      · cases rev with
        | nil => simp [h1]
        | cons r rs =>
          have hn : st.n ≠ 0 := by rw [h1]; simp
          have := h4 (by simp)
          simp only [hn, if_false]
          constructor <;> split <;> simp_all
      · intro t ht
        cases rev with
        | nil =>
          simp at ht h1
          simp [h1, ht]
        | cons r rs =>
          have hn : st.n ≠ 0 := by rw [h1]; simp
          simp only [hn, if_false]
          have hm := h4 (by simp)
          rcases List.mem_cons.mp ht with rfl | ht
          · constructor <;> split <;> omega
          · have := h5 t ht
            constructor <;> split <;> omega
  have := key lens.reverse
  rw [List.foldr_reverse] at this
  unfold statsOf
  obtain ⟨h1, h2, h3, h4, h5⟩ := this
  refine ⟨by simpa using h1, by simpa using h2, by simpa using h3, ?_, ?_⟩
  · intro hne
    have := h4 (by simpa using hne)
    simpa using this
  · intro s hs
    exact h5 s (by simpa using hs)

/-- One packet through the statistics plugin, in (`true`) or out. -/
def statsCall (d : PacketStats) (p : Bool × Bytes) : PluginRet × Bytes × Option PacketStats :=
  if p.1 then statsIngress (some d) p.2 else statsEgress (some d) p.2

/-- The plugin's data after a sequence of packets. -/
def statsRun (d : PacketStats) (ps : List (Bool × Bytes)) : PacketStats :=
  ps.foldl (fun d p => (statsCall d p).2.2.getD d) d

/-- **C65.** On every packet sequence the statistics plugin reports success and leaves each packet as it is,
and afterwards the count, sum, sum of squares, minimum and maximum of each direction are those of the lengths
of the packets that passed in that direction. -/
theorem C65_stats_transparent (ps : List (Bool × Bytes)) :
    (∀ d p, (statsCall d p).1 = .success ∧ (statsCall d p).2.1 = p.2 ∧ (statsCall d p).2.2.isSome) ∧
    ∀ dir : Bool,
      let st := if dir then (statsRun {} ps).incoming else (statsRun {} ps).outgoing
      let lens := (ps.filter (fun p => p.1 == dir)).map (fun p => p.2.length)
      st.n = lens.length ∧ st.sum = lens.sum ∧ st.sumsq = (lens.map (fun s => s * s)).sum ∧
      (lens ≠ [] → st.min ∈ lens ∧ st.max ∈ lens) ∧ ∀ s ∈ lens, st.min ≤ s ∧ s ≤ st.max := by
  constructor
  · intro d p
    unfold statsCall
    split <;> exact ⟨rfl, rfl, rfl⟩
  · intro dir
    have key : ∀ (ps : List (Bool × Bytes)) (d : PacketStats),
        (statsRun d ps).incoming = ((ps.filter (fun p => p.1 == true)).map (fun p => p.2.length)).foldl Stats.sample d.incoming ∧
        (statsRun d ps).outgoing = ((ps.filter (fun p => p.1 == false)).map (fun p => p.2.length)).foldl Stats.sample d.outgoing := by
      intro ps
      induction ps with
      | nil => intro d; exact ⟨rfl, rfl⟩
      | cons p ps ih =>
        intro d
        have := ih ((statsCall d p).2.2.getD d)
        obtain ⟨b, p⟩ := p
        unfold statsRun at this ⊢
        rw [List.foldl_cons]
        rw [this.1, this.2]
        cases b <;> simp [statsCall, statsIngress, statsEgress]
    have k := key ps {}
    cases dir
    · rw [if_neg (by simp), k.2]
      exact statsOf_spec _
    · rw [if_pos rfl, k.1]
      exact statsOf_spec _

/-- **C65, in a chain.**  At any place of any chain, in either direction, the statistics plugin makes no difference
but the record that it ran: the packet and the verdict are those of the rest of the chain. -/
theorem C65_in_chain (rest : Chain) (log : Log) (p : Bytes) (cap : Nat) :
    Chain.ingress (some statsPlugin :: rest) log p cap = Chain.ingress rest (.pluginIngress p .success :: log) p cap ∧
    (Chain.egress (some statsPlugin :: rest) log p cap).2 = (Chain.egress rest log p cap).2 := by
  constructor
  · rfl
  · show (if _ then _ else _ : Log × Bytes × RC).2 = _
    by_cases h : (Chain.egress rest log p cap).2.2 ≠ .success
    · rw [if_pos h]
    · rw [if_neg h]
      have h : (Chain.egress rest log p cap).2.2 = .success := by simpa using h
      show (_, RC.success) = _
      rw [← h]; rfl

/-- Alone, behind another plugin, and before one. -/
example (p : Bytes) : (Chain.egress [some statsPlugin] [] p 1500).2 = (p, .success) ∧
    (Chain.egress [some flipPlugin, some statsPlugin] [] p 1500).2 = (Chain.egress [some flipPlugin] [] p 1500).2 ∧
    (Chain.egress [some statsPlugin, some flipPlugin] [] p 1500).2 = (Chain.egress [some flipPlugin] [] p 1500).2 :=
  ⟨rfl, rfl, (C65_in_chain _ _ _ _).2⟩

example : (statsRun {} [(true, [1, 2]), (false, [3]), (true, [])]).incoming = ⟨2, 4, 2, 0, 2⟩ := by decide

end Lightway
