import Verif.Props.Reassembly3

/-!
# A stream of packets through the tunnel: C89
Two processes, each with its own environment and its own calls, joined only by the messages one wrote and the
other read.
-/

namespace Lightway
open Spec

namespace Spec

/-- The connection can hand packets to its host: ONLINE, inside-write callback, no inside plugins; `v` is its
protocol version. -/
def Ready (v : UInt8 × UInt8) (d : Conn) : Prop :=
  d.state = .online ∧ d.cbs.insideWrite = true ∧ insidePluginsAt d.log = 0 ∧ (d.verMajor, d.verMinor) = v

/-- A call that creates no table, processes no message with a fragment and delivers no packet. -/
def Aside (env : Env) (d : Conn) (op : Op) : Prop :=
  ∃ new, (step env d op).1.log = new ++ d.log ∧ (∀ k, Effect.table k ∉ new) ∧
    (∀ m, Effect.message m ∈ new → carried m = none) ∧ delivered (step env d op).1.log = delivered d.log

/-- From `d`, calls lead to `d'`: each of the messages arrives, in the order of the list, in a call of its own,
within 64 seconds from `lo`; other calls may come between. -/
inductive Relays (env : Env) (v : UInt8 × UInt8) (lo : Int) : Conn → List Bytes → Conn → Prop
  | nil (d : Conn) : Relays env v lo d [] d
  | other {d d' : Conn} {ms : List Bytes} (op : Op) (ha : Aside env d op) (h : Relays env v lo (step env d op).1 ms d') :
      Relays env v lo d ms d'
  | msg {d d' : Conn} {m : Bytes} {ms : List Bytes} (buf : Bytes) (r : ReadRes) (hr : Ready v d)
      (hacc : Accepts (d.emit (.api .outsideData)) buf) (hm : r.plain = m)
      (hw : InWindow lo d (step env d (.outsideData buf [r])).1)
      (h : Relays env v lo (step env d (.outsideData buf [r])).1 ms d') : Relays env v lo d (m :: ms) d'

/-- The host passes `pkt` to a connection without inside plugins, with an outside MTU of at most 1614; the call
succeeds, `q` is the packet with its MSS clamped, and `ms` are the messages handed to the TLS layer. -/
structure Sends (env : Env) (c : Conn) (pkt q : Bytes) (ms : List Bytes) : Prop where
  clamp : clampMss pkt (effectivePmtu c - 40) = some (q, .success)
  plain : insidePluginsAt c.log = 0
  mtu : c.outsideMtu ≤ 1614
  ok : (step env c (.insidePacket pkt)).2 = .success
  wrote : writes (step env c (.insidePacket pkt)).1.log = ms.reverse ++ writes c.log

/-- Orders in which the network may deliver the messages of one packet: as sent, backwards, or any order in which the
fragments grow one block. -/
def Orderly (ms ms' : List Bytes) : Prop :=
  ms' = ms ∨ ms' = ms.reverse ∨ (ms'.Perm ms ∧ ∀ frs : List Fragment, ms'.map carried = frs.map some → GrowthOrder frs)

/-- The sender goes from `c` to `c'`, the receiver from `d` to `d'`.  Between packets, and between the messages of a
packet, either makes other calls; of the packets the sender was given, those in `qs` made it through, one after the
other; others are lost with all their messages. -/
inductive Stream (env env' : Env) : Conn → Conn → List Bytes → Conn → Conn → Prop
  | nil (c d : Conn) : Stream env env' c d [] c d
  | sender {c d c' d' : Conn} {qs : List Bytes} (op : Op) (h : Stream env env' (step env c op).1 d qs c' d') :
      Stream env env' c d qs c' d'
  | receiver {c d c' d' : Conn} {qs : List Bytes} (op : Op) (ha : Aside env' d op)
      (h : Stream env env' c (step env' d op).1 qs c' d') : Stream env env' c d qs c' d'
  | packet {c d d1 c' d' : Conn} {q : Bytes} {ms ms' qs : List Bytes} (pkt : Bytes) (lo : Int)
      (hs : Sends env c pkt q ms) (ho : Orderly ms ms') (hr : Relays env' (c.verMajor, c.verMinor) lo d ms' d1)
      (h : Stream env env' (step env c (.insidePacket pkt)).1 d1 qs c' d') : Stream env env' c d (q :: qs) c' d'

end Spec

/-- No slot is in use. -/
def AllVacant (num : Nat) (d : Conn) : Prop := ∃ t, d.fragTable = some t ∧ t.num = num ∧ ∀ s, t.slot s = none

theorem aside_slot {env : Env} {ops : List Op} {d : Conn} (hd : d = run env ops) {op : Op} (ha : Aside env d op)
    {t : FragTable} (ht : d.fragTable = some t) :
    ∃ t', (step env d op).1.fragTable = some t' ∧ t'.num = t.num ∧ ∀ s, t'.slot s = t.slot s := by
  obtain ⟨new, hn, h1, h2, -⟩ := ha
  obtain ⟨o, hi⟩ := run_inv env ops
  rw [← hd] at hi
  have q : ∀ s, Quiescent t.num s new := fun s => ⟨h1, fun m f hm hc => by rw [h2 m hm] at hc; cases hc⟩
  obtain ⟨t', k1, k2, -⟩ := step_slot env op hi ht hn (q 0)
  refine ⟨t', k1, k2, fun s => ?_⟩
  obtain ⟨t'', m1, -, m3⟩ := step_slot env op hi ht hn (q s)
  rw [k1] at m1; cases m1; exact m3

theorem aside_vacant {env : Env} {ops : List Op} {d : Conn} (hd : d = run env ops) {op : Op} (ha : Aside env d op)
    {num : Nat} (hv : AllVacant num d) : AllVacant num (step env d op).1 := by
  obtain ⟨t, ht, hn, hs⟩ := hv
  obtain ⟨t', h1, h2, h3⟩ := aside_slot hd ha ht
  exact ⟨t', h1, h2.trans hn, fun s => by rw [h3, hs]⟩

theorem internalHandleData_table (c : Conn) (p : Bytes) : (internalHandleData c p).1.fragTable = c.fragTable := by
  obtain ⟨q, rc, _, h | ⟨h, _⟩⟩ := internalHandleData_cases c p <;> rw [h] <;> rfl

theorem fragApply_others (env : Env) (c : Conn) (t : FragTable) (en : FragEntry) (id off : Nat) (last : Bool) (d : Bytes)
    (ht : c.fragTable = some t) {s : Nat} (hs : s ≠ id % t.num) :
    ∃ t', (fragApply env c t en id off last d).1.fragTable = some t' ∧ t'.num = t.num ∧ t'.slot s = t.slot s := by
  unfold fragApply
  simp only
  generalize (if env.now c.log - en.timestamp > 64 then { en.reset with timestamp := env.now c.log } else en) = en1
  have hset : ∀ e : FragEntry, (t.set id e).slot s = t.slot s := fun e => by simp [FragTable.set, hs]
  split
  · exact ⟨t, ht, rfl, rfl⟩
  · split
    · exact ⟨_, rfl, rfl, hset _⟩
    · split
      · split
        · exact ⟨_, rfl, rfl, hset _⟩
        · split
          · exact ⟨_, rfl, rfl, hset _⟩
          · refine ⟨_, rfl, rfl, ?_⟩
            simp [FragTable.delete, FragTable.set, hs]
      · exact ⟨_, rfl, rfl, hset _⟩

theorem fragReceive_others (env : Env) (c : Conn) (id off : Nat) (last : Bool) (d : Bytes) {t : FragTable}
    (ht : c.fragTable = some t) {s : Nat} (hs : s ≠ id % t.num) :
    ∃ t', (fragReceive env c id off last d).1.fragTable = some t' ∧ t'.num = t.num ∧ t'.slot s = t.slot s := by
  unfold fragReceive
  rw [ht]
  simp only [FragTable.find]
  generalize (if (t.slot (id % t.num)).isNone = true then c.emit (.alloc (env.alloc c.log)) else c) = c1
  generalize (if ((t.slot (id % t.num)).isNone && env.alloc c.log) = true then c1.emit (.clock (env.now c1.log)) else c1) = c2
  cases hsl : t.slot (id % t.num) with
  | some en =>
    simp only
    exact fragApply_others env _ t en id off last d rfl hs
  | none =>
    simp only
    cases env.alloc c.log with
    | false => exact ⟨t, rfl, rfl, rfl⟩
    | true =>
      simp only [if_true]
      obtain ⟨t', h1, h2, h3⟩ := fragApply_others env
        { c2 with fragTable := some (t.set id (FragEntry.fresh (env.now c1.log))) } (t.set id (FragEntry.fresh (env.now c1.log)))
        (FragEntry.fresh (env.now c1.log)) id off last d rfl (s := s) hs
      exact ⟨t', h1, h2, by rw [h3]; simp [FragTable.set, hs]⟩

theorem recv_others {env : Env} (hok : EnvOk env) {c : Conn} (hg : Good env c) (ho : c.state = .online) {op : Op}
    {f : Fragment} (hr : Receives c op f) (hl : f.off + f.data.length ≤ 1500) {t : FragTable} (ht : c.fragTable = some t)
    {s : Nat} (hs : s ≠ f.id % t.num) :
    ∃ t', (step env c op).1.fragTable = some t' ∧ t'.num = t.num ∧ t'.slot s = t.slot s := by
  obtain ⟨d, new, hd, e1, -, -, -, htf⟩ := recv_frag hok hg ho hr hl
  rw [htf.table]
  exact fragReceive_others env d f.id f.off (!f.more) f.data (by rw [e1]; exact ht) hs

/-- A DATA message leaves the reassembly table alone. -/
theorem data_keeps_table {env : Env} (hok : EnvOk env) {d : Conn} (hg : Good env d) (ho : d.state = .online) (buf : Bytes)
    (r : ReadRes) (hacc : Accepts (d.emit (.api .outsideData)) buf) (h5 : r.plain.head? = some 5) (hl : r.plain.length ≤ 1500) :
    (step env d (.outsideData buf [r])).1.fragTable = d.fragTable := by
  obtain ⟨e, he, hpost⟩ := recv_one env d buf r (online_reading hok hg ho) hacc (by intro h; rw [h] at h5; cases h5) hl
  rw [hpost.1.table]
  have h2 : (e.emit (.message r.plain)).fragTable = d.fragTable := he.fields.2.2.2.2.2.2.1
  generalize e.emit (.message r.plain) = c at h2 ⊢
  rw [← h2]
  cases hm : r.plain with
  | nil => rw [hm] at h5; cases h5
  | cons b t =>
    rw [hm] at h5
    have : b = 5 := Option.some.inj h5
    subst this
    show (handleData c (5 :: t)).1.fragTable = _
    unfold handleData
    simp only
    repeat' split
    all_goals first | rfl | exact internalHandleData_table _ _

theorem Spec.Relays.reach {env : Env} {v : UInt8 × UInt8} {lo : Int} {d d' : Conn} {ms : List Bytes}
    (h : Relays env v lo d ms d') (hd : ∃ ops, d = run env ops) : ∃ ops, d' = run env ops := by
  induction h with
  | nil d => exact hd
  | other op _ _ ih => obtain ⟨ops, e⟩ := hd; exact ih ⟨ops ++ [op], by rw [run_snoc, ← e]⟩
  | msg buf r _ _ _ _ _ ih => obtain ⟨ops, e⟩ := hd; exact ih ⟨ops ++ [_], by rw [run_snoc, ← e]⟩

/-- Nothing arrives. -/
theorem Spec.Relays.quiet {env : Env} {v : UInt8 × UInt8} {lo : Int} {d d' : Conn} {num : Nat}
    (h : Relays env v lo d [] d') (hd : ∃ ops, d = run env ops) (hv : AllVacant num d) :
    AllVacant num d' ∧ delivered d'.log = delivered d.log := by
  generalize hms : ([] : List Bytes) = ms at h
  induction h with
  | nil d => exact ⟨hv, rfl⟩
  | other op ha _ ih =>
    obtain ⟨ops, e⟩ := hd
    obtain ⟨h1, h2⟩ := ih ⟨ops ++ [op], by rw [run_snoc, ← e]⟩ (aside_vacant e ha hv) hms
    obtain ⟨_, _, _, _, h3⟩ := ha
    exact ⟨h1, h2.trans h3⟩
  | msg => cases hms

/-- The remaining messages of a fragmented packet arrive. -/
theorem Spec.Relays.frags {env : Env} (hok : EnvOk env) {v : UInt8 × UInt8} {lo : Int} {d d' : Conn} {ms : List Bytes} {num id : Nat}
    {P : Bytes} {frs rem : List Fragment} (hp : Fragments id P frs) (hlP : P.length ≤ 1500) (hval : ipv4Valid P = true)
    (h : Relays env v lo d ms d') (hlen : ∀ m ∈ ms, m.length ≤ 1500) (hc : ms.map carried = rem.map some)
    (hall : ∀ x ∈ rem, x ∈ frs) (hne : rem ≠ []) (hd : ∃ ops, d = run env ops)
    (hw : Waiting frs P.length lo num (id % num) d rem)
    (hoth : ∃ t, d.fragTable = some t ∧ ∀ s, s ≠ id % num → t.slot s = none) :
    AllVacant num d' ∧ delivered d'.log = P :: delivered d.log := by
  induction h generalizing rem with
  | nil d => exact (hne (by simpa using hc.symm)).elim
  | @other d d' ms op ha h ih =>
    obtain ⟨ops, e⟩ := hd
    obtain ⟨t, ht, hs⟩ := hoth
    obtain ⟨t', k1, k2, k3⟩ := aside_slot e ha ht
    obtain ⟨h1, h2⟩ := ih hlen hc hall hne ⟨ops ++ [op], by rw [run_snoc, ← e]⟩ (by
      rcases hw with ⟨⟨u, hu, hn, hsl⟩, h1⟩ | ⟨b, e', ⟨u, en, hu, hn, hsl, hb, hts⟩, h1⟩
      · rw [ht] at hu; cases hu
        exact .inl ⟨⟨t', k1, k2.trans hn, by rw [k3]; exact hsl⟩, h1⟩
      · rw [ht] at hu; cases hu
        exact .inr ⟨b, e', ⟨t', en, k1, k2.trans hn, by rw [k3]; exact hsl, hb, hts⟩, h1⟩)
      ⟨t', k1, fun s h => by rw [k3]; exact hs s h⟩
    obtain ⟨_, _, _, _, h3⟩ := ha
    exact ⟨h1, by rw [h2, h3]⟩
  | @msg d d' m ms buf r hr hacc hm hwin h ih =>
    obtain ⟨ops, e⟩ := hd
    have hg : Good env d := e ▸ run_good env ops
    cases rem with
    | nil => exact (hne rfl).elim
    | cons f rem =>
      simp only [List.map_cons, List.cons.injEq] at hc
      obtain ⟨hcf, hcr⟩ := hc
      have hrec : Receives d (.outsideData buf [r]) f := ⟨buf, r, rfl, by rw [hm]; exact hlen m (by simp), hacc, by rw [hm]; exact hcf⟩
      have hf := hall f (by simp)
      obtain ⟨_, _, f3, _⟩ := contiguous_facts hp.2.1 f hf
      rw [hp.2.2.2, Nat.zero_add] at f3
      have hid : f.id = id := (hp.2.2.1 f hf).1
      obtain ⟨t, ht, hs⟩ := hoth
      have hnum : t.num = num := by
        rcases hw with ⟨⟨u, hu, hn, _⟩, _⟩ | ⟨b, e', ⟨u, en, hu, hn, _⟩, _⟩ <;> (rw [ht] at hu; cases hu; exact hn)
      obtain ⟨k1, k2⟩ := waiting_frag hok e hr.1 hrec hwin hp hlP hall hw
      have hoth' : ∃ t', (step env d (.outsideData buf [r])).1.fragTable = some t' ∧ ∀ s, s ≠ id % num → t'.slot s = none := by
        obtain ⟨t', m1, -, -⟩ := recv_others hok hg hr.1 hrec (by omega) ht (s := f.id % t.num + 1) (by omega)
        refine ⟨t', m1, fun s hsn => ?_⟩
        obtain ⟨t'', n1, -, n3⟩ := recv_others hok hg hr.1 hrec (by omega) ht (s := s) (by rw [hid, hnum]; exact hsn)
        rw [m1] at n1; cases n1
        rw [n3]; exact hs s hsn
      have hreach : ∃ ops', (step env d (.outsideData buf [r])).1 = run env ops' := ⟨ops ++ [_], by rw [run_snoc, ← e]⟩
      by_cases hrem : rem = []
      · obtain ⟨n1, u, hu, hun, hus⟩ := k2 hrem hr.2.1 (by rw [e, ← (run_finv env ops).plug, ← e]; exact hr.2.2.1) hval
        have hms : ms = [] := by rw [hrem] at hcr; simpa using hcr
        rw [hms] at h
        obtain ⟨t', m1, m2⟩ := hoth'
        have hut : u = t' := Option.some.inj (hu.symm.trans m1)
        rw [hut] at hun hus
        obtain ⟨p1, p2⟩ := h.quiet hreach (num := num) ⟨t', m1, hun, fun s => by
          by_cases hsn : s = id % num
          · rw [hsn]; exact hus
          · exact m2 s hsn⟩
        exact ⟨p1, by rw [p2, n1]⟩
      · obtain ⟨n1, n2⟩ := k1 hrem
        obtain ⟨p1, p2⟩ := ih (fun x hx => hlen x (by simp [hx])) hcr (fun x hx => hall x (by simp [hx])) hrem hreach n1 hoth'
        exact ⟨p1, by rw [p2, n2]⟩

/-- The one message of an unfragmented packet arrives. -/
theorem Spec.Relays.data {env env' : Env} (hok : EnvOk env') (ops : List Op) (pkt q m : Bytes) {lo : Int} {d d' : Conn} {num : Nat}
    (hpl : (run env ops).insidePlugins.plugins = 0)
    (hcl : clampMss pkt (effectivePmtu (run env ops) - 40) = some (q, .success))
    (hm : writes (step env (run env ops) (.insidePacket pkt)).1.log = m :: writes (run env ops).log) (h5 : m.head? = some 5)
    (h : Relays env' ((run env ops).verMajor, (run env ops).verMinor) lo d [m] d') (hd : ∃ ops', d = run env' ops')
    (hv : AllVacant num d) : AllVacant num d' ∧ delivered d'.log = q :: delivered d.log := by
  generalize hms : [m] = ms at h
  induction h with
  | nil d => cases hms
  | other op ha _ ih =>
    obtain ⟨ops', e⟩ := hd
    obtain ⟨h1, h2⟩ := ih ⟨ops' ++ [op], by rw [run_snoc, ← e]⟩ (aside_vacant e ha hv) hms
    obtain ⟨_, _, _, _, h3⟩ := ha
    exact ⟨h1, by rw [h2, h3]⟩
  | @msg d d' m' ms buf r hr hacc hrm hwin h ih =>
    simp only [List.cons.injEq] at hms
    obtain ⟨rfl, rfl⟩ := hms
    obtain ⟨ops', e⟩ := hd
    have hg : Good env' d := e ▸ run_good env' ops'
    have hm1500 : m.length ≤ 1500 := by
      obtain ⟨_, _, _, _, _, _, _, _, h, _⟩ := C10_padding env ops pkt m h5 hm
      exact h
    have hun : Undoes d.insidePlugins (run env ops).insidePlugins := by
      intro l l' l1 p1 p2 cap hin
      rw [ingress_noPlugins hpl] at hin
      cases hin
      refine ⟨Nat.le_refl _, l', egress_noPlugins ?_ _ _ _⟩
      rw [e, ← (run_finv env' ops').plug, ← e]; exact hr.2.2.1
    have hvv := hr.2.2.2
    simp only [Prod.mk.injEq] at hvv
    have key := C09_round_trip env env' hok ops ops' pkt m buf r hm h5 (by rw [← e]; exact hr.1) (by rw [← e]; exact hr.2.1)
      (by rw [← e]; exact hvv) (by rw [← e]; exact hun) (by rw [← e]; exact hacc) hrm
    obtain ⟨q', hq', hdel⟩ := key
    rw [hcl] at hq'; cases hq'
    rw [← e] at hdel
    have htab := data_keeps_table hok hg hr.1 buf r hacc (by rw [hrm]; exact h5) (by rw [hrm]; exact hm1500)
    obtain ⟨t, ht, hn, hs⟩ := hv
    obtain ⟨p1, p2⟩ := h.quiet ⟨ops' ++ [_], by rw [run_snoc, ← e]⟩ (num := num) ⟨t, by rw [htab]; exact ht, hn, hs⟩
    exact ⟨p1, by rw [p2, hdel]⟩

theorem map_carried_perm {ms ms' : List Bytes} {frs : List Fragment} (hp : ms'.Perm ms) (h : ms.map carried = frs.map some) :
    ∃ frs' : List Fragment, frs'.Perm frs ∧ ms'.map carried = frs'.map some := by
  have : (ms'.map carried).Perm (frs.map some) := h ▸ hp.map _
  refine ⟨(ms'.map carried).filterMap id, ?_, ?_⟩
  · have := this.filterMap id
    simpa using this
  · have hall : ∀ x ∈ ms'.map carried, x.isSome := by
      intro x hx
      have := this.subset hx
      obtain ⟨f, _, rfl⟩ := List.mem_map.1 this
      rfl
    generalize ms'.map carried = l at hall
    induction l with
    | nil => rfl
    | cons x l ih =>
      have hx := hall x (by simp)
      obtain ⟨y, rfl⟩ := Option.isSome_iff_exists.1 hx
      simp only [List.filterMap_cons, id, List.map_cons, List.cons.injEq, true_and]
      exact ih (fun z hz => hall z (by simp [hz]))

/-- One packet of the stream. -/
theorem packet_through {env env' : Env} (hok : EnvOk env') (ops ops' : List Op) {pkt q : Bytes} {ms ms' : List Bytes} {lo : Int}
    {d1 : Conn} {num : Nat} (hs : Sends env (run env ops) pkt q ms) (ho : Orderly ms ms')
    (hr : Relays env' ((run env ops).verMajor, (run env ops).verMinor) lo (run env' ops') ms' d1)
    (hv : AllVacant num (run env' ops')) :
    AllVacant num d1 ∧ delivered d1.log = q :: delivered (run env' ops').log := by
  obtain ⟨hcl, hpl, hmtu, hsuc, hw⟩ := hs
  rw [(run_finv env ops).plug] at hpl
  have hgc : Good env (run env ops) := run_good env ops
  obtain ⟨s1, s2, s3, s4, s5, s6, s7, s8⟩ := step_inside env hgc pkt
  have hon : (run env ops).state = .online := by
    apply Decidable.byContradiction
    intro h
    rw [(inside_refused env _ pkt).1 h] at hsuc
    cases hsuc
  have hprep : Prepared ((run env ops).emit (.api .insidePacket)) pkt q := ⟨q, _, hcl, ingress_noPlugins hpl _ _ _⟩
  obtain ⟨-, hpost⟩ := insidePacket_writes env ((run env ops).emit (.api .insidePacket)) pkt s1 s2 (s3 hon)
  rw [s8] at hsuc
  rcases hpost with ⟨_, hdr⟩ | ⟨p, hp, hple, hcase⟩
  · obtain ⟨q1, l1, p1, e1, e2⟩ := hdr hsuc
    cases e2.symm.trans (ingress_noPlugins hpl _ _ _)
  obtain ⟨q1, l1, e1, e2⟩ := hp
  have e1 : clampMss pkt (effectivePmtu (run env ops) - 40) = some (q1, .success) := e1
  rw [hcl] at e1; cases e1
  cases e2.symm.trans (ingress_noPlugins hpl _ _ _)
  rcases hcase with ⟨-, -, hone⟩ | ⟨hdg, hbig, -⟩
  · rw [← s6, hw, s4] at hone
    have hms : ms = [dataMsg ((run env ops).emit (.api .insidePacket)) q] := by
      have := List.append_cancel_right (bs := writes (run env ops).log) (cs := [_]) hone
      simpa using this
    subst hms
    have hms' : ms' = [dataMsg ((run env ops).emit (.api .insidePacket)) q] := by
      rcases ho with h | h | ⟨h, _⟩
      · exact h
      · simpa using h
      · exact List.perm_singleton.1 h
    subst hms'
    exact hr.data hok ops pkt q _ hpl hcl hw (by rfl) ⟨ops', rfl⟩ hv
  · rw [← s8] at hsuc
    obtain ⟨new, frs, hw2, hdec, hfr, hlen⟩ := C11_fragments_partition env ops pkt q hprep hdg hbig hsuc
    rw [hw] at hw2
    have hms : ms = new := by
      have := congrArg List.reverse (List.append_cancel_right hw2)
      simpa using this
    subst hms
    have hcar : ms.map carried = frs.map some := by
      clear hw hlen hfr hw2 hr ho
      induction ms generalizing frs with
      | nil => exact hdec
      | cons m r ih =>
        cases frs with
        | nil => simp at hdec
        | cons f fs =>
          simp only [List.map_cons, List.cons.injEq] at hdec ⊢
          exact ⟨decodeFrag_carried hdec.1, ih fs hdec.2⟩
    have hpm : ms'.Perm ms := by
      rcases ho with h | h | ⟨h, _⟩
      · rw [h]
      · rw [h]; exact List.reverse_perm _
      · exact h
    obtain ⟨frs', hfp, hcar'⟩ := map_carried_perm hpm hcar
    have hgo : GrowthOrder frs' := by
      have hinj : ∀ a b : List Fragment, a.map some = b.map some → a = b := fun a b h =>
        (List.map_inj_right (fun _ _ => Option.some.inj)).1 h
      rcases ho with h | h | ⟨_, h⟩
      · rw [h, hcar] at hcar'
        rw [← hinj _ _ hcar']; exact inOrder_grows hfr
      · rw [h, List.map_reverse, hcar, ← List.map_reverse] at hcar'
        rw [← hinj _ _ hcar']; exact reverse_grows hfr
      · exact h frs' hcar'
    have hql : q.length ≤ 1500 := by
      have hple : q.length ≤ sizeSub (run env ops).outsideMtu packetOverhead := hple
      rcases hgc.sizes.mtu with h2 | h2
      · exact absurd h2 (hgc.sizes.online hon)
      · rw [capacity_eq (by omega) (by omega)] at hple; omega
    have hpr := effectivePmtu_range s1
    obtain ⟨t, ht, hn, hsl⟩ := hv
    refine hr.frags hok hfr hql (clampMss_valid hcl).2 (fun m hm => ?_) hcar' (fun x hx => hfp.subset hx) ?_ ⟨ops', rfl⟩
      (.inl ⟨⟨t, ht, hn, hsl _⟩, hgo, by rw [total_perm hfp, total_fragments hfr], by rw [hfp.length_eq]; exact hfr.1⟩)
      ⟨t, ht, fun s _ => hsl s⟩
    · have := hlen m (hpm.subset hm)
      have : effectivePmtu (run env ops) = effectivePmtu ((run env ops).emit (.api .insidePacket)) := rfl
      omega
    · intro h
      have := hfp.length_eq
      rw [h] at this
      have := hfr.1
      simp at *
      omega

/-- **C89.** Sender and receiver are connections of two processes, in any reachable states, the receiver ONLINE and
holding no fragments.  Along any stream (`Spec.Stream`) the packets handed to the receiving host are exactly those
that made it through, unchanged except for their MSS, each once and in order. -/
theorem C89_stream (env env' : Env) (hok : EnvOk env') (ops ops' : List Op) {qs : List Bytes} {c' d' : Conn}
    (ho : (run env' ops').state = .online) (hh : ∀ slot f n, ¬Held (run env' ops').log slot f n)
    (h : Stream env env' (run env ops) (run env' ops') qs c' d') :
    delivered d'.log = qs.reverse ++ delivered (run env' ops').log := by
  have hwolf := (online_reading hok (run_good env' ops') ho).1
  obtain ⟨t, ht⟩ := Option.isSome_iff_exists.1 (run_table hok ops' hwolf)
  have hv : AllVacant t.num (run env' ops') := by
    refine ⟨t, ht, rfl, fun s => ?_⟩
    cases hs : t.slot s with
    | none => rfl
    | some en =>
      obtain ⟨_, _, f', n', h'⟩ := (run_finv env' ops').ent t s en ht hs
      exact (hh s f' n' h').elim
  clear ht hh hwolf ho
  generalize t.num = num at hv
  generalize hc : run env ops = c at h
  generalize hd : run env' ops' = d at h hv ⊢
  induction h generalizing ops ops' with
  | nil c d => rfl
  | sender op _ ih => exact ih (ops ++ [op]) ops' (by rw [run_snoc, hc]) hd hv
  | receiver op ha _ ih =>
    have := ih ops (ops' ++ [op]) hc (by rw [run_snoc, hd]) (aside_vacant hd.symm ha hv)
    obtain ⟨_, _, _, _, h3⟩ := ha
    rw [this, h3]
  | packet pkt lo hs hor hr _ ih =>
    subst hc hd
    obtain ⟨ops1, hd1⟩ := hr.reach ⟨ops', rfl⟩
    obtain ⟨h1, h2⟩ := packet_through hok ops ops' hs hor hr hv
    have := ih (ops ++ [.insidePacket pkt]) ops1 (by rw [run_snoc]) hd1.symm h1
    rw [this, h2]
    simp

namespace Demo

theorem ready_data {ops : List Op} {m : Bytes} (h : ready (run env ops) (recv m) = true)
    (h2 : ((run env ops).cbs.insideWrite && insidePluginsAt (run env ops).log == 0) = true) :
    Ready (1, 2) (run env ops) ∧ Accepts ((run env ops).emit (.api .outsideData)) (dgram [9]) ∧
      InWindow 1000 (run env ops) (step env (run env ops) (recv m)).1 := by
  simp only [ready, Bool.and_eq_true, beq_iff_eq] at h h2
  obtain ⟨⟨⟨⟨⟨h1, h2'⟩, h3⟩, h4⟩, h5⟩, h6⟩ := h
  obtain ⟨o, hi⟩ := run_inv env ops
  refine ⟨⟨h5, h2.1, h2.2, by rw [h3, h4]⟩, accepts_plain _ _ h1 h2' ?_, inWindow_const env hi _ h6⟩
  refine ⟨by decide, by decide, ?_, by decide +kernel⟩
  show field (dgram [9]) 2 2 = [(run env ops).verMajor, (run env ops).verMinor]
  rw [h3, h4]; decide

theorem aside_of {ops : List Op} {op : Op} (k : Nat)
    (hk : (step env (run env ops) op).1.log.length = k + (run env ops).log.length)
    (h : ((step env (run env ops) op).1.log.take k).all (fun e => match e with
      | .table _ => false | .message _ => false | .insideWrite _ => false | _ => true) = true) :
    Aside env (run env ops) op := by
  obtain ⟨o, hi⟩ := run_inv env ops
  obtain ⟨l, hl, _⟩ := step_log env op hi
  have hl : (step env (run env ops) op).1.log = (.ret (step env (run env ops) op).2 :: l ++ [.api op.api]) ++ (run env ops).log := by
    rw [hl]; simp
  generalize .ret (step env (run env ops) op).2 :: l ++ [.api op.api] = new at hl
  have hn : new.length = k := by rw [hl] at hk; simp at hk; omega
  rw [hl, ← hn, List.take_left, List.all_eq_true] at h
  refine ⟨new, hl, fun j hj => ?_, fun m hm => ?_, ?_⟩
  · have := h _ hj; simp at this
  · have := h _ hm; simp at this
  · rw [hl]
    clear hl hn hk
    induction new with
    | nil => rfl
    | cons e new ih =>
      have he := h e (by simp)
      have := ih (fun x hx => h x (by simp [hx]))
      cases e <;> first | exact this | (simp at he)

/-- The messages of the big packet, sent after the small one. -/
def bigMsgs : List Bytes :=
  ((writes (run env (clientOps ++ [.insidePacket ipPkt] ++ [.insidePacket bigPkt])).log).take 2).reverse

end Demo

/-- A stream of two packets: the small one as one message, then the big one, whose two fragments arrive backwards,
with a keepalive of the receiver between them.  Both reach the host. -/
example : ∃ c' d', (run Demo.env Demo.serverOps).state = .online ∧
    (∀ slot f n, ¬Held (run Demo.env Demo.serverOps).log slot f n) ∧
    Stream Demo.env Demo.env (run Demo.env Demo.clientOps) (run Demo.env Demo.serverOps) [Demo.ipPkt, bigPkt] c' d' ∧
    delivered d'.log = [bigPkt, Demo.ipPkt] ++ delivered (run Demo.env Demo.serverOps).log := by
  let m0 := dataMsg (run Demo.env Demo.clientOps) Demo.ipPkt
  let b0 := Demo.bigMsgs[0]!
  let b1 := Demo.bigMsgs[1]!
  let o0 := Demo.serverOps
  let o1 := o0 ++ [Demo.recv m0]
  let o2 := o1 ++ [Demo.recv b1]
  let o3 := o2 ++ [.keepalive]
  let o4 := o3 ++ [Demo.recv b0]
  have hs : Stream Demo.env Demo.env (run Demo.env Demo.clientOps) (run Demo.env Demo.serverOps) [Demo.ipPkt, bigPkt]
      (run Demo.env (Demo.clientOps ++ [.insidePacket Demo.ipPkt] ++ [.insidePacket bigPkt])) (run Demo.env o4) := by
    have a0 := Demo.ready_data (ops := o0) (m := m0) (by decide +kernel) (by decide +kernel)
    have a1 := Demo.ready_data (ops := o1) (m := b1) (by decide +kernel) (by decide +kernel)
    have a2 := Demo.aside_of (ops := o2) (op := .keepalive) 5 (by decide +kernel) (by decide +kernel)
    have a3 := Demo.ready_data (ops := o3) (m := b0) (by decide +kernel) (by decide +kernel)
    have e1 : (step Demo.env (run Demo.env o0) (Demo.recv m0)).1 = run Demo.env o1 := (run_snoc ..).symm
    have e2 : (step Demo.env (run Demo.env o1) (Demo.recv b1)).1 = run Demo.env o2 := (run_snoc ..).symm
    have e3 : (step Demo.env (run Demo.env o2) .keepalive).1 = run Demo.env o3 := (run_snoc ..).symm
    have e4 : (step Demo.env (run Demo.env o3) (Demo.recv b0)).1 = run Demo.env o4 := (run_snoc ..).symm
    have v0 : ((run Demo.env Demo.clientOps).verMajor, (run Demo.env Demo.clientOps).verMinor) = (1, 2) := by decide +kernel
    have v1 : ((run Demo.env (Demo.clientOps ++ [.insidePacket Demo.ipPkt])).verMajor,
      (run Demo.env (Demo.clientOps ++ [.insidePacket Demo.ipPkt])).verMinor) = (1, 2) := by decide +kernel
    refine .packet (d1 := run Demo.env o1) (ms := [m0]) (ms' := [m0]) Demo.ipPkt 1000
      ⟨by decide +kernel, by decide +kernel, by decide +kernel, by decide +kernel, by decide +kernel⟩ (.inl rfl) ?_ ?_
    · rw [v0]
      refine .msg (Demo.dgram [9]) (Demo.msg m0) a0.1 a0.2.1 rfl a0.2.2 ?_
      show Relays _ _ _ (step Demo.env (run Demo.env o0) (Demo.recv m0)).1 _ _
      rw [e1]; exact .nil _
    · rw [← run_snoc]
      refine .packet (d1 := run Demo.env o4) (ms := [b0, b1]) (ms' := [b1, b0]) bigPkt 1000
        ⟨by decide +kernel, by decide +kernel, by decide +kernel, by decide +kernel, by decide +kernel⟩ (.inr (.inl rfl)) ?_ ?_
      · rw [v1]
        refine .msg (Demo.dgram [9]) (Demo.msg b1) a1.1 a1.2.1 rfl a1.2.2 ?_
        show Relays _ _ _ (step Demo.env (run Demo.env o1) (Demo.recv b1)).1 _ _
        rw [e2]
        refine .other .keepalive a2 ?_
        rw [e3]
        refine .msg (Demo.dgram [9]) (Demo.msg b0) a3.1 a3.2.1 rfl a3.2.2 ?_
        show Relays _ _ _ (step Demo.env (run Demo.env o3) (Demo.recv b0)).1 _ _
        rw [e4]; exact .nil _
      · rw [← run_snoc]
        exact .nil _ _
  have ho : (run Demo.env Demo.serverOps).state = .online := by decide +kernel
  have hh := fun slot => Demo.no_fragment_yet (l := (run Demo.env Demo.serverOps).log) (by decide +kernel) slot
  exact ⟨_, _, ho, hh, hs, C89_stream Demo.env Demo.env Demo.envOk _ _ ho hh hs⟩

end Lightway
