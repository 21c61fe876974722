import Verif.Proofs.FragInv
import Verif.Props.Demo

/-!
# Reassembly (C14, C15, C16, C17, C57, C69)
-/

namespace Lightway
open Spec

/-- **C69.** Whatever happened before, a packet handed to the host is a valid IPv4 packet, and without inside
plugins it is either exactly the payload carried in the DATA message being processed, or a packet reassembled in
the slot of the DATA_WITH_FRAG message being processed. -/
theorem C69_delivered_is_ipv4_payload {env : Env} {ops : List Op} {newer older : Log} {p : Bytes}
    (h : (run env ops).log = newer ++ .insideWrite p :: older) :
    20 ≤ p.length ∧ (∃ b, p.head? = some b ∧ b.toNat / 16 = 4) ∧
    ∃ m, lastMessage older = some m ∧ (insidePluginsAt older = 0 →
      (m.head? = some 5 ∧ ∃ n, 3 + n ≤ m.length ∧ p = field m 3 n ∧
        (n = num (field m 1 2) ∨ n = rdLe (field m 1 2))) ∨
      (m.head? = some 13 ∧ 5 + num (field m 1 2) ≤ m.length ∧ p = field m 5 (num (field m 1 2))) ∨
      ∃ g, carried m = some g) := by
  have hd := (run_finv env ops).all.at h p rfl
  obtain ⟨hv, m, hm, hc⟩ := hd
  have hip : 20 ≤ p.length ∧ ∃ b, p.head? = some b ∧ b.toNat / 16 = 4 := by
    cases p with
    | nil => simp [ipv4Valid] at hv
    | cons b t =>
      simp [ipv4Valid] at hv
      exact ⟨by simp; omega, b, rfl, hv.2⟩
  refine ⟨hip.1, hip.2, m, hm, fun hz => ?_⟩
  rcases hc hz with h5 | h13 | ⟨g, _, _, _, _, _, hg, _⟩
  · exact .inl h5
  · exact .inr (.inl h13)
  · exact .inr (.inr ⟨g, hg⟩)

theorem carried_id {m : Bytes} {f : Fragment} (h : carried m = some f) : f.id < 65536 := by
  unfold carried at h
  split at h
  · rename_i h1
    cases h
    simp only
    rw [num_rdBe16 (field_length (by omega))]
    exact rdBe16_lt _
  · cases h

theorem reassembled {env : Env} {ops : List Op} {newer older : Log} {p m : Bytes} {g : Fragment}
    (h : (run env ops).log = newer ++ .insideWrite p :: older) (hz : insidePluginsAt older = 0)
    (hm : lastMessage older = some m) (hg : carried m = some g) :
    ∃ life en hd tl now, Built en life ∧ en.nodes = hd :: tl ∧ hd.last = true ∧ hd.b = 0 ∧
      p = en.data.take hd.e ∧ lastClock older = some now ∧ ∀ f ∈ life, Fresh older (g.id % tableSize older) f now := by
  obtain ⟨_, m', hm', hc⟩ := (run_finv env ops).all.at h p rfl
  rw [hm] at hm'
  cases hm'
  rcases hc hz with ⟨h5, _⟩ | ⟨h13, _⟩ | ⟨g', life, en, hd, tl, now, hg', h1, h2, h3, h4, h5, h6, h7⟩
  · exact (carried_not_head hg h5 (by decide)).elim
  · exact (carried_not_head hg h13 (by decide)).elim
  · rw [hg] at hg'
    cases hg'
    exact ⟨life, en, hd, tl, now, h1, h2, h3, h4, h5, h6, h7⟩

/-- **C14.** Consider a packet `p` delivered while processing a fragment `g`, without inside plugins.  If all
fragments that arrived for `g`'s slot since the slot was last emptied (by a delivery from it, a new connect, or
expiry) belong to one packet `P` cut under one identifier — in whatever order, with duplicates or losses — then
`p` is exactly `P`. -/
theorem C14_never_corrupt {env : Env} {ops : List Op} {newer older : Log} {p m P : Bytes} {g : Fragment} {now : Int}
    {id : Nat} {frs : List Fragment}
    (h : (run env ops).log = newer ++ .insideWrite p :: older) (hz : insidePluginsAt older = 0)
    (hm : lastMessage older = some m) (hg : carried m = some g) (hnow : lastClock older = some now)
    (hP : Fragments id P frs) (hall : ∀ f, Fresh older (g.id % tableSize older) f now → f ∈ frs) : p = P := by
  obtain ⟨life, en, hd, tl, now', h1, h2, h3, h4, h5, h6, h7⟩ := reassembled h hz hm hg
  rw [hnow] at h6
  cases h6
  rw [h5]
  exact h1.whole hP (fun f hf => hall f (h7 f hf)) h2 h3 h4

/-- **C15.** Every byte of a packet delivered from the fragment table is zero or a byte, at its place, of a
fragment that arrived for that slot since the slot was last emptied. -/
theorem C15_no_stale_data {env : Env} {ops : List Op} {newer older : Log} {p m : Bytes} {g : Fragment}
    (h : (run env ops).log = newer ++ .insideWrite p :: older) (hz : insidePluginsAt older = 0)
    (hm : lastMessage older = some m) (hg : carried m = some g) :
    p.length ≤ 1500 ∧ ∀ i v, p[i]? = some v → v = 0 ∨
      ∃ f n, Held older (g.id % tableSize older) f n ∧ f.off ≤ i ∧ f.data[i - f.off]? = some v := by
  obtain ⟨life, en, hd, tl, now, h1, h2, h3, h4, h5, h6, h7⟩ := reassembled h hz hm hg
  constructor
  · rw [h5]
    have : en.data.length = 1500 := by
      clear h2 h3 h4 h5 h6 h7 h hz hm hg
      induction h1 with
      | empty en hd hn => rw [hd]; simp only [zeros, List.length_replicate, maxWireMtu]
      | @put en en' life al rc asm g h hu ih =>
        rcases update_cases hu with ⟨_, rfl, _⟩ | ⟨_, _, _, data, hw, _, _, rfl⟩ | ⟨_, _, ns, hwk, _, _, rfl⟩ | ⟨_, _, hd, tl, data, hwk, hw, _, _, rfl⟩
        · exact ih
        · have := wr_length hw; simp only; omega
        · exact ih
        · have := wr_length hw; simp only; omega
    simp; omega
  · intro i v hv
    rw [h5] at hv
    have hi : i < hd.e := by
      rcases Nat.lt_or_ge i hd.e with hi | hi
      · exact hi
      · rw [List.getElem?_eq_none (by simp; omega)] at hv; cases hv
    rw [List.getElem?_take_of_lt hi] at hv
    rcases h1.bytes i v hv with h | ⟨f, hf, h8, h9⟩
    · exact .inl h
    · obtain ⟨n, t, a, hn, _⟩ := h7 f hf
      exact .inr ⟨f, _, hn, h8, h9⟩

/-- **C17.** If the clock never goes back, every non-zero byte of a reassembled packet comes from a fragment whose
arrival was timed at most 64 seconds before the delivery: older fragments are never combined with newer ones. -/
theorem C17_expiry {env : Env} {ops : List Op} {newer older : Log} {p m : Bytes} {g : Fragment} {now : Int}
    (h : (run env ops).log = newer ++ .insideWrite p :: older) (hz : insidePluginsAt older = 0)
    (hm : lastMessage older = some m) (hg : carried m = some g) (hnow : lastClock older = some now)
    (hmono : ClockMonotone older) :
    ∀ i v, p[i]? = some v → v = 0 ∨ ∃ f n t a, Held older (g.id % tableSize older) f (n ++ .clock t :: a) ∧
      (∀ m, Effect.message m ∉ a) ∧ now - t ≤ 64 ∧ f.off ≤ i ∧ f.data[i - f.off]? = some v := by
  obtain ⟨life, en, hd, tl, now', h1, h2, h3, h4, h5, h6, h7⟩ := reassembled h hz hm hg
  rw [hnow] at h6
  cases h6
  intro i v hv
  rw [h5] at hv
  have hi : i < hd.e := by
    rcases Nat.lt_or_ge i hd.e with hi | hi
    · exact hi
    · rw [List.getElem?_eq_none (by simp; omega)] at hv; cases hv
  rw [List.getElem?_take_of_lt hi] at hv
  rcases h1.bytes i v hv with h | ⟨f, hf, h8, h9⟩
  · exact .inl h
  · obtain ⟨n, t, a, hn, ha, ht⟩ := h7 f hf
    exact .inr ⟨f, n, t, a, hn, ha, ht hmono, h8, h9⟩

/-- **C16.** With the full table of 65536 slots, every non-zero byte of a reassembled packet comes from a fragment
with the identifier of the fragment that completed it. -/
theorem C16_no_mixing_partial {env : Env} {ops : List Op} {newer older : Log} {p m : Bytes} {g : Fragment}
    (h : (run env ops).log = newer ++ .insideWrite p :: older) (hz : insidePluginsAt older = 0)
    (hm : lastMessage older = some m) (hg : carried m = some g) (hsize : tableSize older = 65536) :
    ∀ i v, p[i]? = some v → v = 0 ∨
      ∃ f n, Held older (g.id % 65536) f n ∧ f.id = g.id ∧ f.off ≤ i ∧ f.data[i - f.off]? = some v := by
  intro i v hv
  rcases (C15_no_stale_data h hz hm hg).2 i v hv with h | ⟨f, n, hh, h1, h2⟩
  · exact .inl h
  · rw [hsize] at hh
    refine .inr ⟨f, n, hh, ?_, h1, h2⟩
    obtain ⟨m', o, _, hc, hid, _⟩ := hh
    rw [hsize] at hid
    have := carried_id hc
    have := carried_id hg
    omega

/-- **C57.** The table a connection uses has as many slots as were configured (65536 if none were), at most 65536
when configured through he_ssl_ctx_set_max_frag_entries, and every identifier falls into it. -/
theorem C57_table_size (env : Env) (ops : List Op) :
    (∀ t, (run env ops).fragTable = some t → t.num = tableSize (run env ops).log ∧ ∀ id, id % t.num < t.num) ∧
    ∀ (ctx : SslCtx) (n : Nat), (setMaxFragEntries ctx n).2 = .success ∧
      (setMaxFragEntries ctx n).1.maxFragEntries = min n 65536 := by
  refine ⟨fun t ht => ?_, fun ctx n => ⟨rfl, ?_⟩⟩
  · have h := (run_finv env ops).num t ht
    refine ⟨h, fun id => Nat.mod_lt _ ?_⟩
    rw [h]; unfold tableSize; split <;> omega
  · simp only [setMaxFragEntries]; split <;> omega

/-! ### Concrete cases -/

namespace Demo

/-- A fragment message. -/
def frag (id off : Nat) (more : Bool) (d : Bytes) : Bytes :=
  [15] ++ be16 d.length ++ be16 id ++ be16 (off / 8 + if more then 8192 else 0) ++ d

/-- The server receives one message per datagram. -/
def recvs (ms : List Bytes) : List Op := ms.map (fun m => .outsideData (dgram [9]) [msg m])

/-- `ipPkt` in two fragments with identifier 5. -/
def two : List Fragment := [⟨5, 0, true, ipPkt.take 16⟩, ⟨5, 16, false, ipPkt.drop 16⟩]

def twoOps : List Op := serverOps ++ recvs [frag 5 0 true (ipPkt.take 16), frag 5 16 false (ipPkt.drop 16)]

/-- Deliveries together with the message being processed. -/
def fragDelivery (p m : Bytes) : Effect → Log → Bool
  | .insideWrite q, l => q == p && lastMessage l == some m && insidePluginsAt l == 0
  | _, _ => false

theorem frag_delivery {l : Log} {p m : Bytes} (h : occurs (fragDelivery p m) l = true) :
    ∃ newer older, l = newer ++ .insideWrite p :: older ∧ lastMessage older = some m ∧ insidePluginsAt older = 0 := by
  obtain ⟨newer, e, older, hl, h2⟩ := occurs_split h
  cases e <;> simp [fragDelivery] at h2
  obtain ⟨⟨rfl, h3⟩, h4⟩ := h2
  exact ⟨newer, older, hl, h3, h4⟩

end Demo

/-- All clock readings are 1000. -/
theorem monotone_const {l : Log} (h : ∀ t, Effect.clock t ∈ l → t = 1000) : ClockMonotone l := by
  induction l with
  | nil => trivial
  | cons e l ih =>
    refine ⟨?_, ih (fun t ht => h t (by simp [ht]))⟩
    intro t ht s hs
    have h1 := h t (by simp [ht])
    have h2 := h s (by simp [hs])
    omega

/-- Two fragments of a packet: the hypotheses of C14, C15, C16 and C17 are met by a real delivery. -/
example : ∃ newer older, (run Demo.env Demo.twoOps).log = newer ++ .insideWrite Demo.ipPkt :: older ∧
    lastMessage older = some (Demo.frag 5 16 false (Demo.ipPkt.drop 16)) ∧ insidePluginsAt older = 0 ∧
    lastClock older = some 1000 ∧ ClockMonotone older ∧
    ∀ f, Fresh older (5 % tableSize older) f 1000 → f ∈ Demo.two := by
  have h : Demo.occurs (fun e l => Demo.fragDelivery Demo.ipPkt (Demo.frag 5 16 false (Demo.ipPkt.drop 16)) e l &&
      (lastClock l == some 1000) && l.all (fun e => match e with
        | .message m => match carried m with
          | some f => decide (f ∈ Demo.two)
          | none => true
        | .clock t => t == 1000
        | _ => true)) (run Demo.env Demo.twoOps).log = true := by decide +kernel
  obtain ⟨newer, e, older, hl, h2⟩ := Demo.occurs_split h
  rw [Bool.and_eq_true, Bool.and_eq_true] at h2
  obtain ⟨⟨h2, h4⟩, h3⟩ := h2
  cases e <;> simp [Demo.fragDelivery] at h2
  obtain ⟨⟨rfl, h5⟩, h6⟩ := h2
  rw [List.all_eq_true] at h3
  refine ⟨newer, older, hl, h5, h6, by simpa using h4, monotone_const ?_, ?_⟩
  · intro t ht
    have := h3 _ ht
    simpa using this
  · rintro f ⟨n, t, a, ⟨m, o, ho, hc, _⟩, _⟩
    have := h3 (.message m) (by rw [ho]; simp)
    simp only [hc] at this
    simpa using this

example : carried (Demo.frag 5 16 false (Demo.ipPkt.drop 16)) = some ⟨5, 16, false, Demo.ipPkt.drop 16⟩ := by
  decide +kernel

example : Fragments 5 Demo.ipPkt Demo.two := by
  refine ⟨by decide, ?_, ?_, by decide +kernel⟩
  · refine ⟨rfl, by decide, rfl, rfl, by decide, rfl, trivial⟩
  · decide

/-- **C16 is false in general.** With 16 slots, fragments with identifiers 1 and 17 are combined into one packet. -/
theorem C16_small_table_mixes : ∃ (env : Env) (ops : List Op) (newer older : Log) (a b : Bytes),
    a ≠ [] ∧ b ≠ [] ∧ a ≠ b ∧
    (run env ops).log = newer ++ .insideWrite (a ++ b) :: older ∧ insidePluginsAt older = 0 ∧
    -- the only fragments ever received: `a` with identifier 1, `b` with identifier 17
    (∀ m f, Effect.message m ∈ older → carried m = some f → (f.id = 1 ∧ f.data = a) ∨ (f.id = 17 ∧ f.data = b)) := by
  have h : Demo.occurs (fun e l => Demo.fragDelivery Demo.ipPkt (Demo.frag 17 16 false (Demo.ipPkt.drop 16)) e l &&
      l.all (fun e => match e with
        | .message m => match carried m with
          | some f => decide ((f.id = 1 ∧ f.data = Demo.ipPkt.take 16) ∨ (f.id = 17 ∧ f.data = Demo.ipPkt.drop 16))
          | none => true
        | _ => true))
    (run Demo.env (Demo.serverOps ++ Demo.recvs [Demo.frag 1 0 true (Demo.ipPkt.take 16),
        Demo.frag 17 16 false (Demo.ipPkt.drop 16)])).log = true := by decide +kernel
  obtain ⟨newer, e, older, hl, h2⟩ := Demo.occurs_split h
  rw [Bool.and_eq_true] at h2
  obtain ⟨h2, h3⟩ := h2
  cases e <;> simp [Demo.fragDelivery] at h2
  obtain ⟨⟨rfl, _⟩, h4⟩ := h2
  refine ⟨Demo.env, Demo.serverOps ++ Demo.recvs [Demo.frag 1 0 true (Demo.ipPkt.take 16),
        Demo.frag 17 16 false (Demo.ipPkt.drop 16)], newer, older, Demo.ipPkt.take 16, Demo.ipPkt.drop 16, by decide, by decide, by decide, ?_, h4, ?_⟩
  · rw [List.take_append_drop]; exact hl
  · intro m f hm hc
    rw [List.all_eq_true] at h3
    have := h3 _ hm
    simp only [hc] at this
    simpa using this

end Lightway
