import Verif.Proofs.HeapP6

/-!
# Memory
-/

namespace Lightway

open Mem

/-- The packets and return codes of the list model, fragment by fragment. -/
def FragTable.feed (t : FragTable) : List Arrival → Option (List (RC × Option Bytes))
  | [] => some []
  | x :: xs =>
    match t.receive true x.t1 x.t2 x.id x.off x.last x.d with
    | none => none
    | some (t, r) =>
      match t.feed xs with
      | none => none
      | some rs => some (r :: rs)

/-- **C80.** Whatever the host calls, in whatever order, whatever fragments arrive and whichever allocations fail - except
the one of a fragment record - no block is used after its release, released twice, or reached through NULL. -/
theorem C80_memory_safe (ok : Oracle) (hok : ∀ k, ok .node k = true) (cs : List Call) : ∃ s, Sys.run ok cs = some s := by
  obtain ⟨s, os, Y, e, -⟩ := runFrom_ok hok cs Sys.init [] [] SInv.init
  exact ⟨s, e⟩

/-- The exception is needed: the allocation of a fragment record is not checked. -/
theorem C80_record_allocation_unchecked :
    ∃ (ok : Oracle) (cs : List Call), (∀ w k, w ≠ .node → ok w k = true) ∧ Sys.run ok cs = none := by
  refine ⟨fun w _ => decide (w ≠ .node), [.newConn, .newCtx, .connect 1 2 true 1, .fragment 1 0 0 false [1] 0 0], fun w k h => by simpa using h, ?_⟩
  decide +kernel

/-- **C81** (part). If the host destroyed all it had to destroy, no block is left - provided no call lost one (`Clean`). -/
theorem C81_released_partial (ok : Oracle) (hok : ∀ k, ok .node k = true) (cs : List Call) (hc : CleanRun ok .init cs)
    (s : Sys) (hs : Sys.run ok cs = some s) (hh : s.handles = []) : ∀ a, s.heap.at_ a = none := by
  obtain ⟨s', os, Y, e, hi, hY⟩ := runFrom_ok hok cs Sys.init [] [] SInv.init
  obtain rfl : s' = s := by
    unfold Sys.run at hs; rw [hs] at e; exact (Option.some.inj e).symm
  have hos : os = [] := by
    apply handles_nil
    have := hi.handles
    rw [hh] at this
    exact List.nil_perm.1 this
  have h1 := hi.holds
  rw [hos, hY hc] at h1
  intro a
  cases ha : s'.heap.at_ a with
  | none => rfl
  | some b => exact absurd ((h1.mem a b).1 ha) (by simp)

namespace MemDemo

def always : Oracle := fun _ _ => true

/-- A client's life: connect, one packet in two fragments, a plugin, destruction. -/
def life : List Call := [.newClient, .register 4 7, .clientConnect 1 true true true 4, .fragment 3 9 0 false (zeros 8) 0 0,
  .fragment 3 9 8 true (zeros 8) 0 0, .destroy 1 .client]

theorem life_end : (Sys.run always life).any (fun s => s.handles.isEmpty && (s.heap.brk == 12)) = true := by decide +kernel

/-- The parts `[0, 8)`, `[24, 32)` and `[8, 16)` of one packet arriving in this order. -/
def reordered : List Call := [.newConn, .newCtx, .connect 1 2 true 4, .fragment 1 1 0 false (zeros 8) 0 0,
  .fragment 1 1 24 true (zeros 8) 0 0, .fragment 1 1 8 false (zeros 8) 0 0, .destroy 1 .conn, .destroy 2 .ctx]

/-- A context started twice and a connection connected twice. -/
def twice : List Call := [.newConn, .newCtx, .start 2 true, .start 2 true, .connect 1 2 true 4, .connect 1 2 true 4, .destroy 1 .conn,
  .destroy 2 .ctx]

end MemDemo

/-- `Clean`, computed. -/
def cleanB (s : Sys) : Call → Bool
  | .start x _ => s.heap.ctx x == some 0
  | .connect c _ _ _ => s.heap.conn c == some (0, 0)
  | .clientConnect k _ _ _ _ => match s.heap.client k with
    | some (x, c, _, _) => s.heap.ctx x == some 0 && s.heap.conn c == some (0, 0)
    | none => true
  | .fragment c id off _ d _ now => match held s.heap c id with
    | some (ts, ns) => decide (now - ts > 64) || ns.all (fun n => ns.all (fun m => !(decide (off = n.e) && decide (off + d.length < m.b))))
    | none => true
  | _ => true

theorem clean_of {s : Sys} {c : Call} (h : cleanB s c = true) : Clean s c := by
  cases c with
  | start x v => intro _; simpa [cleanB] using h
  | connect c x v n => intro _; simpa [cleanB] using h
  | clientConnect k a b d n =>
    intro x c i o hr
    simp only [cleanB, hr] at h
    simpa using h
  | fragment c id off last d t1 now =>
    intro ts ns hh hage hd
    simp only [cleanB, hh] at h
    obtain ⟨n, hn, m, hm, h1, h2⟩ := hd
    simp only [Bool.or_eq_true, decide_eq_true_eq] at h
    rcases h with h | h
    · omega
    · have := List.all_eq_true.1 (List.all_eq_true.1 h n hn) m hm
      simp [h2] at this
      exact absurd h1 this
  | _ => trivial

def cleanRunB (ok : Oracle) (s : Sys) : List Call → Bool
  | [] => true
  | c :: cs => cleanB s c && match s.exec ok c with | some s' => cleanRunB ok s' cs | none => true

theorem cleanRun_of {ok : Oracle} : ∀ {cs : List Call} {s : Sys}, cleanRunB ok s cs = true → CleanRun ok s cs
  | [], _, _ => trivial
  | c :: cs, s, h => by
    simp only [cleanRunB, Bool.and_eq_true] at h
    refine ⟨clean_of h.1, fun s' hs' => cleanRun_of ?_⟩
    have := h.2
    rw [hs'] at this
    exact this

/-- The hypotheses are met by a history that allocates eleven blocks. -/
theorem C81_clean_case : CleanRun MemDemo.always .init MemDemo.life ∧
    ∃ s, Sys.run MemDemo.always MemDemo.life = some s ∧ s.handles = [] ∧ s.heap.brk = 12 := by
  refine ⟨cleanRun_of (by decide +kernel), (Sys.run MemDemo.always MemDemo.life).get (by decide +kernel), by simp, ?_, ?_⟩ <;> decide +kernel

/-- **C81 is false in general**: honest fragments of one packet, reordered, leave a block no one can release. -/
theorem C81_reordering_leaks : ∃ s, Sys.run MemDemo.always MemDemo.reordered = some s ∧ s.handles = [] ∧ ∃ a, (s.heap.at_ a).isSome = true := by
  refine ⟨(Sys.run MemDemo.always MemDemo.reordered).get (by decide +kernel), by simp, by decide +kernel, 7, by decide +kernel⟩

/-- So does connecting twice, or starting a context twice. -/
theorem C81_reconnect_leaks : ∃ s, Sys.run MemDemo.always MemDemo.twice = some s ∧ s.handles = [] ∧
    s.heap.at_ 3 = some .tlsCtx ∧ s.heap.at_ 7 = some .tls ∧ s.heap.at_ 5 = some (.table 6 4) := by
  refine ⟨(Sys.run MemDemo.always MemDemo.twice).get (by decide +kernel), by simp, ?_, ?_, ?_, ?_⟩ <;> decide +kernel

/-! ### Unbounded growth -/

namespace MemDemo

/-- An empty fragment at offset 8 of packet 0. -/
def empty : Call := .fragment 1 0 8 false [] 0 0

/-- A connection that receives the parts `[0, 8)` and `[24, 32)` of a packet and then `n` empty fragments, and is destroyed. -/
def flood (n : Nat) : List Call := [.newConn, .newCtx, .connect 1 2 true 1, .fragment 1 0 0 false (zeros 8) 0 0,
  .fragment 1 0 24 true (zeros 8) 0 0] ++ List.replicate n empty ++ [.destroy 1 .conn, .destroy 2 .ctx]

end MemDemo

/-- Two ranges held with a gap, and an empty fragment where the first one ends: a record is allocated and another lost. -/
theorem update_loses {ok : Oracle} (hok : ∀ k, ok .node k = true) {h : Heap} {F : List Cell} (E : EntryV) (hE : E.Ok)
    (hh : Holds h (E.cells ++ F)) {n m : FragNode} (hn : E.plain.nodes = [n, m]) (h8 : n.e = 8) (h24 : m.b = 24) (h32 : m.e = 32) :
    ∃ (h' : Heap) (E' : EntryV) (X : List Cell) (rc : RC) (full : Bool), updateEntry ok h E.a [] 8 false = some (h', rc, full) ∧
      Holds h' (E'.cells ++ (X ++ F)) ∧ h.brk ≤ h'.brk ∧ E'.a = E.a ∧ E'.Ok ∧
      FragEntry.update true E.plain [] 8 false = some (E'.plain, rc, full) ∧ X.length = 1 := by
  obtain ⟨a, data, ts, nodes⟩ := E
  obtain ⟨p, q, rfl⟩ : ∃ p q, nodes = [(p, n), (q, m)] := by
    match nodes, hn with
    | [(p, n'), (q, m')], hn =>
      simp [EntryV.plain, plain] at hn
      exact ⟨p, q, by rw [hn.1, hn.2]⟩
    | [], hn => simp [EntryV.plain, plain] at hn
    | [x], hn => simp [EntryV.plain, plain] at hn
    | _ :: _ :: _ :: _, hn => simp [EntryV.plain, plain] at hn
  have hlen := hh.length_lt
  simp [EntryV.cells, nodeCells] at hlen
  have hdl : data.length = 1500 := hE.1
  have hp0 : p ≠ 0 := (hh.low (p, .node n q) (by simp [EntryV.cells, nodeCells, nextOf])).1
  have hq0 : q ≠ 0 := (hh.low (q, .node m 0) (by simp [EntryV.cells, nodeCells, nextOf])).1
  have hh0 : Holds h ((a, .entry data ts p) :: (p, .node n q) :: (q, .node m 0) :: F) := hh
  obtain ⟨f, hf⟩ : ∃ f, h.brk = f + 1 + 1 := ⟨h.brk - 2, by omega⟩
  -- extend the first block
  obtain ⟨h1, e1, hh1, b1⟩ := Holds.set (a := p) (l1 := [(a, .entry data ts p)]) hh0 (.node { n with e := 8 + 0, last := false } q)
  -- the new record
  obtain ⟨r, h2, e2, hr, hh2, b2⟩ := alloc_node hh1 hok (.node { b := 0, e := 0, last := false } 0)
  obtain ⟨h3, e3, hh3, b3⟩ := Holds.set (l1 := []) hh2 (.node { b := 8, e := 8 + 0, last := false } q)
  have hre := hh3.entry (a := a) (d := data) (t := ts) (p := p) (by simp)
  obtain ⟨h4, e4, hh4, b4⟩ := Holds.set (a := a) (l1 := [(r, .node { b := 8, e := 8 + 0, last := false } q)]) hh3 (.entry data ts r)
  have hwalk : walkC ok 8 0 false a h.brk h 0 p = some (h4, true) := by
    rw [hf, walkC, if_neg hp0, bind_some' _ (hh0.node (a := p) (n := n) (p := q) (by simp))]
    simp only
    rw [if_pos h8.symm, bind_some' _ e1, walkC, if_neg hq0, bind_some' _ (hh1.node (a := q) (n := m) (p := 0) (by simp))]
    simp only
    rw [if_neg (by omega), if_neg (by omega), if_neg (by omega), if_pos (by omega)]
    rw [e2]
    simp only
    rw [bind_some' _ e3, if_pos True.intro, bind_some' _ hre]
    simp only
    rw [bind_some' _ e4]
  have hw : wr data 8 [] = some (data.take 8 ++ [] ++ data.drop 8) := by unfold wr; rw [if_pos (by simp; omega)]; rfl
  have hwd : data.take 8 ++ [] ++ data.drop 8 = data := by simp
  rw [hwd] at hw
  obtain ⟨h5, e5, hh5, b5⟩ := Holds.set (a := a) (l1 := [(r, .node { b := 8, e := 8 + 0, last := false } q)]) hh4 (.entry data ts r)
  have hrun : updateEntry ok h a [] 8 false = some (h5, .success, false) := by
    unfold updateEntry
    rw [if_neg (by simp [maxWireMtu]), bind_some' _ (hh0.entry (a := a) (d := data) (t := ts) (p := p) (by simp))]
    simp only
    rw [if_neg hp0, bind_some' _ (show walkC ok 8 ([] : Bytes).length false a h.brk h 0 p = _ from hwalk)]
    simp only
    rw [if_pos True.intro, bind_some' _ (hh4.entry (a := a) (d := data) (t := ts) (p := r) (by simp))]
    simp only
    rw [bind_some' _ hw, bind_some' _ e5, bind_some' _ (hh5.node (a := r) (n := { b := 8, e := 8 + 0, last := false }) (p := q) (by simp))]
    rfl
  refine ⟨h5, ⟨a, data, ts, [(r, { b := 8, e := 8 + 0, last := false }), (q, m)]⟩, [(p, .node { n with e := 8 + 0, last := false } q)], _, _, hrun, ?_,
    by omega, rfl, ?_, ?_, rfl⟩
  · have hh5' : Holds h5 ((r, .node { b := 8, e := 8 + 0, last := false } q) :: (a, .entry data ts r) ::
        (p, .node { n with e := 8 + 0, last := false } q) :: (q, .node m 0) :: F) := hh5
    refine hh5'.perm ?_
    simp only [EntryV.cells, nodeCells, nextOf]; same_cells
  · refine ⟨hdl, fun x hx => ?_⟩
    simp [EntryV.plain, plain] at hx
    rcases hx with rfl | rfl
    · simp [NodeOk]
    · simp [NodeOk, h24, h32]
  · unfold FragEntry.update
    rw [if_neg (by simp [maxWireMtu])]
    simp only [EntryV.plain, plain, List.map_cons, List.map_nil]
    have : walk true 8 ([] : Bytes).length false [] [] [n, m] = .done [{ b := 8, e := 8 + 0, last := false }, m] := by
      rw [walk, if_pos h8.symm, walk, if_neg (by omega), if_neg (by simp; omega), if_neg (by omega), if_pos (by simp; omega), if_pos rfl]
      rfl
    rw [this]
    simp only
    rw [hw]
    rfl

/-- What a table looks like while it grows: one slot, two ranges with a gap. -/
def Gap (t : FragTable) : Prop :=
  ∃ en n m, t.slot (0 % t.num) = some en ∧ en.timestamp = 0 ∧ en.nodes = [n, m] ∧ n.e = 8 ∧ m.b = 24 ∧ m.e = 32

theorem receive_gap {t : FragTable} (hg : Gap t) (hw : TableWf t) {al : Bool} {t' : FragTable} {rc : RC} {out : Option Bytes}
    (h : t.receive al 0 0 0 8 false [] = some (t', rc, out)) : Gap t' := by
  obtain ⟨en, n, m, hs, hts, hn, h8, h24, h32⟩ := hg
  have hwf := hw _ _ hs
  have hd : en.data.length = 1500 := hwf.1
  have hf : t.find al 0 0 = (t, some en) := by unfold FragTable.find; rw [hs]
  have he : en.expire 0 = en := by unfold FragEntry.expire; rw [hts]; rfl
  have hwk : walk true 8 ([] : Bytes).length false [] [] [n, m] = .done [{ b := 8, e := 8 + 0, last := false }, m] := by
    rw [walk, if_pos h8.symm, walk, if_neg (by omega), if_neg (by simp; omega), if_neg (by omega), if_pos (by simp; omega), if_pos rfl]
    rfl
  have hw' : wr en.data 8 [] = some en.data := by
    unfold wr; rw [if_pos (by simp; omega)]; simp
  have hu : en.update true [] 8 false = some ({ en with nodes := [{ b := 8, e := 8 + 0, last := false }, m] }, .success, false) := by
    unfold FragEntry.update
    rw [if_neg (by simp [maxWireMtu]), hn]
    simp only
    rw [hwk]
    simp only
    rw [hw']
    rfl
  unfold FragTable.receive at h
  rw [hf] at h
  simp only at h
  rw [he, hu] at h
  simp at h
  obtain ⟨rfl, -, -⟩ := h
  exact ⟨{ en with nodes := [{ b := 8, e := 8 + 0, last := false }, m] }, _, m, by simp [FragTable.set], hts, rfl, rfl, h24, h32⟩

/-- The state while the flood goes on. -/
structure Flooded (s : Sys) (k : Nat) : Prop where
  handles : s.handles = [(2, .ctx, true), (1, .conn, true)]
  heap : ∃ (T : TableV) (tls : Addr) (X : List Cell), T.Ok ∧ Gap T.plain ∧ k ≤ X.length ∧
    Holds s.heap (ConnV.cells ⟨1, some T, tls⟩ ++ (X ++ CtxV.cells ⟨2, 0⟩))

theorem tableWf_plain {T : TableV} (hT : T.Ok) : TableWf T.plain := by
  intro i en h
  simp only [TableV.plain] at h
  cases hx : T.ents[i]? with
  | none => rw [hx] at h; simp at h
  | some x =>
    rw [hx] at h
    cases x with
    | none => simp at h
    | some E =>
      simp at h
      rw [← h]
      exact hT.2 E (List.mem_of_getElem? hx)

theorem Flooded.step {s : Sys} {k : Nat} (hs : Flooded s k) : ∃ s', s.exec MemDemo.always MemDemo.empty = some s' ∧ Flooded s' (k + 1) := by
  obtain ⟨T, tls, X, hT, hg, hX, hh⟩ := hs.heap
  obtain ⟨h', T', Y, rc, out, e, hh', -, hT', ⟨al, hr, -⟩, hY⟩ := fragment_gen (ok := MemDemo.always) (Q := fun Y => Y.length = 1) (c := 1) (tls := tls)
    (F := optCell .tls tls ++ (X ++ CtxV.cells ⟨2, 0⟩)) T hT (hh.perm (by simp only [ConnV.cells, tableCells, tableAddr]; same_cells)) 0 8 false [] 0 0 (by
      intro h E FF hE hhE hp
      obtain ⟨en, n, m, hsl, hts, hn, h8, h24, h32⟩ := hg
      rcases hp with ⟨en', hen', hp⟩ | ⟨hen', -⟩
      · rw [hsl] at hen'
        obtain rfl := Option.some.inj hen'
        have he : en.expire 0 = en := by unfold FragEntry.expire; rw [hts]; rfl
        rw [he] at hp
        exact update_loses (fun _ => rfl) E hE hhE (by rw [hp]; exact hn) h8 h24 h32
      · rw [hsl] at hen'; cases hen')
  have hY' : Y.length = 1 := by
    rcases hY with h | ⟨h, -⟩
    · exact h
    · obtain ⟨en, _, _, hsl, _⟩ := hg
      rw [hsl] at h; cases h
  refine ⟨{ s with heap := h' }, ?_, hs.handles, T', tls, Y ++ X, hT', receive_gap hg (tableWf_plain hT) hr, by simp [hY']; omega, hh'.perm ?_⟩
  · rw [MemDemo.empty, Sys.exec, if_neg (by simp [Sys.has, hs.handles]), bind_some' _ e]
  · simp only [ConnV.cells, tableCells, tableAddr]; same_cells

theorem Flooded.steps {s : Sys} {k : Nat} (n : Nat) (hs : Flooded s k) :
    ∃ s', s.runFrom MemDemo.always (List.replicate n MemDemo.empty) = some s' ∧ Flooded s' (k + n) := by
  induction n generalizing s k with
  | zero => exact ⟨s, rfl, hs⟩
  | succ n ih =>
    obtain ⟨s1, e1, h1⟩ := hs.step
    obtain ⟨s2, e2, h2⟩ := ih h1
    refine ⟨s2, ?_, by rw [show k + (n + 1) = k + 1 + n by omega]; exact h2⟩
    rw [List.replicate_succ, Sys.runFrom, bind_some' _ e1]
    exact e2

theorem alloc_always {h : Heap} {cs : List Cell} (hh : Holds h cs) (w : What) (b : Block) :
    ∃ h', h.alloc MemDemo.always w b = (h.brk, h') ∧ Holds h' ((h.brk, b) :: cs) ∧ h'.brk = h.brk + 1 := by
  rcases hh.alloc MemDemo.always w b with ⟨p, h', e, -, hh', -⟩ | ⟨⟨k, hk⟩, -⟩
  · have e' := e
    unfold Heap.alloc at e'
    rw [if_pos (show MemDemo.always w h.asked = true from rfl)] at e'
    simp only [Prod.mk.injEq] at e'
    obtain ⟨rfl, rfl⟩ := e'
    exact ⟨_, e, hh', rfl⟩
  · cases hk

/-- The two fragments with a gap, in the list model. -/
theorem gap_made : (do
    let (t, _) ← (FragTable.create 1).receive true 0 0 0 0 false (zeros 8)
    let (t, _) ← t.receive true 0 0 0 24 true (zeros 8)
    some (t.num, (t.slot 0).map (fun en => (en.timestamp, en.nodes)))) =
    some (1, some (0, [{ b := 0, e := 8, last := false }, { b := 24, e := 32, last := true }])) := by decide +kernel

theorem flood_start : ∃ s, Sys.init.runFrom MemDemo.always [.newConn, .newCtx, .connect 1 2 true 1, .fragment 1 0 0 false (zeros 8) 0 0,
    .fragment 1 0 24 true (zeros 8) 0 0] = some s ∧ Flooded s 0 := by
  obtain ⟨h1, e1, hh1, b1⟩ := alloc_always holds_empty .conn (.conn 0 0)
  obtain ⟨h2, e2, hh2, b2⟩ := alloc_always hh1 .ctx (.ctx 0)
  have hb0 : Heap.empty.brk = 1 := rfl
  rw [hb0] at e1 hh1 b1 hh2
  rw [b1] at e2 hh2 b2
  obtain ⟨h3, rc3, C, X3, e3, hh3, ha3, hC3, -, hX3, ht3, -, hs3⟩ := connect_ok MemDemo.always (F := [(2, .ctx 0)]) ⟨1, none, 0⟩
    (hh2.perm (by simp only [ConnV.cells, tableCells, tableAddr, optCell]; simp; exact List.Perm.swap _ _ _)) 1
  have hX := hX3 rfl rfl
  subst hX
  have hrc : rc3 = .success := by
    rcases hs3 with h | ⟨w, k, h⟩
    · exact h
    · cases h
  obtain ⟨T, hT, hpl⟩ := ht3 hrc
  obtain ⟨ca, ct, tls⟩ := C
  simp only at hT ha3
  subst hT ha3
  have hTok : T.Ok := hC3 T rfl
  obtain ⟨h4, T4, X4, rc4, out4, e4, hh4, -, hT4, ⟨al4, hr4, hal4⟩, hX4⟩ := fragment_ok (ok := MemDemo.always) (fun _ => rfl) (c := 1) (tls := tls)
    (F := optCell .tls tls ++ [(2, .ctx 0)]) T hTok (hh3.perm (by simp only [ConnV.cells, tableCells, tableAddr]; same_cells)) 0 0 false (zeros 8) 0 0
  obtain ⟨h5, T5, X5, rc5, out5, e5, hh5, -, hT5, ⟨al5, hr5, hal5⟩, hX5⟩ := fragment_ok (ok := MemDemo.always) (fun _ => rfl) (c := 1) (tls := tls)
    (F := X4 ++ (optCell .tls tls ++ [(2, .ctx 0)])) T4 hT4 hh4 0 24 true (zeros 8) 0 0
  obtain rfl : al4 = true := by
    rcases hal4 with h | ⟨k, h⟩
    · exact h
    · cases h
  obtain rfl : al5 = true := by
    rcases hal5 with h | ⟨k, h⟩
    · exact h
    · cases h
  have hgm := gap_made
  rw [hpl] at hr4
  rw [bind_some' _ hr4] at hgm
  simp only at hgm
  rw [bind_some' _ hr5] at hgm
  simp only [Option.some.injEq, Prod.mk.injEq] at hgm
  obtain ⟨hnum, hslot⟩ := hgm
  refine ⟨⟨h5, [(2, .ctx, true), (1, .conn, true)]⟩, ?_, rfl, T5, tls, X5 ++ X4, hT5, ?_, Nat.zero_le _, hh5.perm ?_⟩
  · have x1 : Sys.exec MemDemo.always Sys.init .newConn = some ⟨h1, [(1, .conn, true)]⟩ := by
      rw [Sys.exec, createConn, show Sys.init.heap = Heap.empty from rfl, e1]; rfl
    have x2 : Sys.exec MemDemo.always ⟨h1, [(1, .conn, true)]⟩ .newCtx = some ⟨h2, [(2, .ctx, true), (1, .conn, true)]⟩ := by
      rw [Sys.exec, createCtx]
      simp only
      rw [e2]; rfl
    rw [Sys.runFrom, bind_some' _ x1, Sys.runFrom, bind_some' _ x2, Sys.runFrom, Sys.exec, if_neg (by simp [Sys.has])]
    rw [bind_some' _ e3]
    rw [Option.bind_eq_bind, Option.bind_some, Sys.runFrom, Sys.exec, if_neg (by simp [Sys.has])]
    rw [bind_some' _ e4]
    rw [Option.bind_eq_bind, Option.bind_some, Sys.runFrom, Sys.exec, if_neg (by simp [Sys.has])]
    rw [bind_some' _ e5]
    rfl
  · cases hs : T5.plain.slot 0 with
    | none => rw [hs] at hslot; simp at hslot
    | some en =>
      rw [hs] at hslot
      simp at hslot
      exact ⟨en, _, _, by simpa [hnum] using hs, hslot.1, hslot.2, rfl, rfl, rfl⟩
  · simp only [ConnV.cells, tableCells, tableAddr, CtxV.cells, show optCell Block.tlsCtx 0 = [] from rfl]; same_cells

theorem runFrom_append (ok : Oracle) : ∀ (cs ds : List Call) (s s' : Sys), s.runFrom ok cs = some s' → s.runFrom ok (cs ++ ds) = s'.runFrom ok ds
  | [], _, _, _, h => by cases h; rfl
  | c :: cs, ds, s, s', h => by
    rw [Sys.runFrom] at h
    rw [List.cons_append, Sys.runFrom]
    cases hc : s.exec ok c with
    | none => rw [hc] at h; cases h
    | some s1 =>
      rw [hc] at h
      exact runFrom_append ok cs ds s1 s' h

/-- **C81 is false in general**: a peer that repeats an empty fragment makes the receiver allocate without bound, and what
is allocated stays allocated after the connection and the context are destroyed. -/
theorem C81_unbounded_growth (n : Nat) : ∃ (s : Sys) (l : List Addr), Sys.run MemDemo.always (MemDemo.flood n) = some s ∧ s.handles = [] ∧
    l.Nodup ∧ n ≤ l.length ∧ ∀ a ∈ l, (s.heap.at_ a).isSome = true := by
  obtain ⟨s1, e1, f1⟩ := flood_start
  obtain ⟨s2, e2, f2⟩ := f1.steps n
  obtain ⟨T, tls, X, hT, -, hX, hh⟩ := f2.heap
  obtain ⟨h3, e3, hh3, -⟩ := destroyConn_ok _ hh
  obtain ⟨h4, e4, hh4, -⟩ := destroyCtx_ok ⟨2, 0⟩ (hh3.perm (List.perm_append_comm))
  have hend : s2.runFrom MemDemo.always [.destroy 1 .conn, .destroy 2 .ctx] = some ⟨h4, []⟩ := by
    obtain ⟨hp, hd⟩ := s2
    have hd' : hd = [(2, .ctx, true), (1, .conn, true)] := f2.handles
    subst hd'
    have x1 : Sys.exec MemDemo.always ⟨hp, [(2, .ctx, true), (1, .conn, true)]⟩ (.destroy 1 .conn) = some ⟨h3, [(2, .ctx, true)]⟩ := by
      rw [Sys.exec.eq_def]
      simp only
      rw [if_neg (by simp [Sys.owns]), bind_some' _ (show destroyConn hp 1 = _ from e3)]
      rfl
    have x2 : Sys.exec MemDemo.always ⟨h3, [(2, .ctx, true)]⟩ (.destroy 2 .ctx) = some ⟨h4, []⟩ := by
      rw [Sys.exec.eq_def]
      simp only
      rw [if_neg (by simp [Sys.owns]), bind_some' _ (show destroyCtx h3 2 = _ from e4)]
      rfl
    rw [Sys.runFrom, bind_some' _ x1, Sys.runFrom, bind_some' _ x2, Sys.runFrom]
  refine ⟨⟨h4, []⟩, X.map (·.1), ?_, rfl, hh4.nodup, by simp; omega, fun a ha => ?_⟩
  · unfold Sys.run MemDemo.flood
    rw [List.append_assoc, runFrom_append _ _ _ _ _ e1, runFrom_append _ _ _ _ _ e2]
    exact hend
  · obtain ⟨x, hx, rfl⟩ := List.mem_map.1 ha
    rw [hh4.get (b := x.2) hx]; rfl

/-! ### The linked lists behave like lists -/

theorem feed_ok {ok : Oracle} (hok : ∀ w k, ok w k = true) : ∀ (fs : List Arrival) (h : Heap) (F : List Cell) (c tls : Addr) (T : TableV), T.Ok →
    Holds h ((c, .conn T.t tls) :: T.cells ++ F) → ∃ h' rs, Mem.feed ok c h fs = some (h', rs) ∧ T.plain.feed fs = some rs
  | [], h, _, _, _, _, _, _ => ⟨h, [], rfl, rfl⟩
  | x :: xs, h, F, c, tls, T, hT, hh => by
    obtain ⟨h1, T1, X, rc, out, e1, hh1, -, hT1, ⟨al, hr, hal⟩, -⟩ := fragment_ok (fun k => hok .node k) T hT hh x.id x.off x.last x.d x.t1 x.t2
    obtain rfl : al = true := by
      rcases hal with h | ⟨k, h⟩
      · exact h
      · rw [hok] at h; cases h
    obtain ⟨h2, rs, e2, hf⟩ := feed_ok hok xs h1 (X ++ F) c tls T1 hT1 hh1
    refine ⟨h2, (rc, out) :: rs, ?_, ?_⟩
    · rw [Mem.feed, bind_some' _ e1]
      simp only
      rw [bind_some' _ e2]
    · rw [FragTable.feed, hr]
      simp only
      rw [hf]

/-- **C82.** The pointer program - linked lists, table slots, allocation, release - delivers, fragment by fragment, the packets
and return codes of the list model: after any history, once a connection is connected, for any fragments that arrive. -/
theorem C82_lists_are_lists (ok : Oracle) (hok : ∀ w k, ok w k = true) (cs : List Call) (s : Sys) (hs : Sys.run ok cs = some s)
    (c : Addr) (hc : s.has c .conn = true) (num : Nat) :
    ∃ h, connect ok s.heap c num = some (h, .success) ∧
      ∀ fs, ∃ h' rs, Mem.feed ok c h fs = some (h', rs) ∧ (FragTable.create num).feed fs = some rs := by
  obtain ⟨s', os, Y, e, hi, -⟩ := runFrom_ok (hok .node) cs Sys.init [] [] SInv.init
  obtain rfl : s' = s := by
    unfold Sys.run at hs; rw [hs] at e; exact (Option.some.inj e).symm
  obtain ⟨C, R, hC, -, hh, -⟩ := hi.conn hc
  obtain ⟨h1, rc, C', X, e1, hh1, ha, hC', -, -, ht, -, hsc⟩ := connect_ok ok C hh num
  obtain rfl : rc = .success := by
    rcases hsc with h | ⟨w, k, h⟩
    · exact h
    · rw [hok] at h; cases h
  obtain ⟨T, hT, hpl⟩ := ht rfl
  rw [hC] at e1 ha
  refine ⟨h1, e1, fun fs => ?_⟩
  rw [← hpl]
  refine feed_ok hok fs h1 (optCell .tls C'.tls ++ (X ++ R)) c C'.tls T (hC' T hT) (hh1.perm ?_)
  simp only [ConnV.cells, hT, ha, tableCells, tableAddr]; same_cells

theorem fragApply_receive (env : Env) (c : Conn) (t : FragTable) (en : FragEntry) (he : EntryWf en) (hal : ∀ l, env.alloc l = true) (id off : Nat) (last : Bool) (d : Bytes) :
    ∃ (t2 : Int) (log : Log) (mid t' : FragTable) (rc : RC) (out : Option Bytes),
      (match (en.expire t2).update true d off last with
       | none => none
       | some (en, rc, full) =>
         if rc ≠ .success then some (t.set id en, rc, none)
         else if full then
           match en.nodes with
           | [] => none
           | hd :: _ =>
             match rd en.data 0 hd.e with
             | none => none
             | some p => some ((t.set id en).delete id, .success, some p)
         else some (t.set id en, .success, none)) = some (t', rc, out) ∧
      fragApply env c t en id off last d =
        (match out with
         | none => ({ c with log := log, fragTable := some t' }, rc)
         | some p =>
           let r := internalHandleData { c with log := log, fragTable := some mid } p
           ({ r.1 with fragTable := some t' }, r.2)) := by
  unfold fragApply
  simp only
  rw [hal, show (if env.now c.log - en.timestamp > 64 then { en.reset with timestamp := env.now c.log } else en) = en.expire (env.now c.log) from rfl]
  have hx := expire_wf (env.now c.log) he
  obtain ⟨w1, w2, w3⟩ := update_wf (al := true) (d := d) (off := off) (last := last) hx
  refine ⟨env.now c.log, .clock (env.now c.log) :: c.log, ?_⟩
  cases hu : (en.expire (env.now c.log)).update true d off last with
  | none => rw [hu] at w2; exact absurd (w2 rfl) (by simp)
  | some r =>
    obtain ⟨en', rc, full⟩ := r
    simp only
    have hen' := w1 _ _ _ hu
    by_cases hrc : rc = .success
    · have hno : ¬(rc ≠ .success) := by simpa using hrc
      rw [if_neg hno, if_neg hno]
      cases full with
      | false =>
        have hf : ¬(false = true) := by simp
        rw [if_neg hf, if_neg hf]
        exact ⟨t, _, _, _, rfl, rfl⟩
      | true =>
        have hf : true = true := rfl
        rw [if_pos hf, if_pos hf]
        cases hn : en'.nodes with
        | nil => exact absurd hn (w3 _ _ hu)
        | cons hd tl =>
          simp only
          have hrd : rd en'.data 0 hd.e = some ((en'.data.drop 0).take hd.e) := by
            unfold rd
            rw [if_pos]
            have h1 := (hen'.2 hd (by rw [hn]; simp)).2
            have h2 := hen'.1
            omega
          rw [hrd]
          simp only
          exact ⟨t.set id en', _, _, _, rfl, rfl⟩
    · have hno : rc ≠ .success := hrc
      rw [if_pos hno, if_pos hno]
      exact ⟨t, _, _, _, rfl, rfl⟩

/-- The list model is the one of the connection: a received fragment changes the connection's table as `FragTable.receive`
says, and hands the packet that is complete, if any, to the plugins and the host. -/
theorem C82_connection_uses_it (env : Env) (c : Conn) (t : FragTable) (ht : c.fragTable = some t) (hw : TableWf t)
    (hal : ∀ l, env.alloc l = true) (id off : Nat) (last : Bool) (d : Bytes) :
    ∃ (t1 t2 : Int) (log : Log) (mid t' : FragTable) (rc : RC) (out : Option Bytes),
      t.receive true t1 t2 id off last d = some (t', rc, out) ∧
      fragReceive env c id off last d =
        (match out with
         | none => ({ c with log := log, fragTable := some t' }, rc)
         | some p =>
           let r := internalHandleData { c with log := log, fragTable := some mid } p
           ({ r.1 with fragTable := some t' }, r.2)) := by
  unfold fragReceive FragTable.receive
  rw [ht]
  simp only
  have key : ∀ (log : Log) (tt : FragTable) (en : FragEntry), EntryWf en → ∃ (t2 : Int) (log' : Log) (mid t' : FragTable) (rc : RC) (out : Option Bytes),
      (match (en.expire t2).update true d off last with
       | none => none
       | some (en, rc, full) =>
         if rc ≠ .success then some (tt.set id en, rc, none)
         else if full then
           match en.nodes with
           | [] => none
           | hd :: _ =>
             match rd en.data 0 hd.e with
             | none => none
             | some p => some ((tt.set id en).delete id, .success, some p)
         else some (tt.set id en, .success, none)) = some (t', rc, out) ∧
      fragApply env { c with log := log, fragTable := some tt } tt en id off last d =
        (match out with
         | none => ({ c with log := log', fragTable := some t' }, rc)
         | some p =>
           let r := internalHandleData { c with log := log', fragTable := some mid } p
           ({ r.1 with fragTable := some t' }, r.2)) :=
    fun log tt en he => fragApply_receive env { c with log := log, fragTable := some tt } tt en he hal id off last d
  cases hs : t.slot (id % t.num) with
  | some en =>
    have hf : ∀ now, t.find true now id = (t, some en) := fun now => by unfold FragTable.find; rw [hs]
    obtain ⟨t2, log', mid, t', rc, out, h1, h2⟩ := key c.log t en (hw _ _ hs)
    refine ⟨env.now c.log, t2, log', mid, t', rc, out, ?_, ?_⟩
    · rw [hf]; exact h1
    · rw [hal, hf]; exact h2
  | none =>
    have hf : ∀ now, t.find true now id = (t.set id (FragEntry.fresh now), some (FragEntry.fresh now)) := fun now => by
      unfold FragTable.find; rw [hs]; rfl
    obtain ⟨t2, log', mid, t', rc, out, h1, h2⟩ := key (.clock (env.now (.alloc true :: c.log)) :: .alloc true :: c.log)
      (t.set id (FragEntry.fresh (env.now (.alloc true :: c.log)))) (FragEntry.fresh (env.now (.alloc true :: c.log))) (fresh_wf _)
    refine ⟨env.now (.alloc true :: c.log), t2, log', mid, t', rc, out, ?_, ?_⟩
    · rw [hf]; exact h1
    · rw [hal]
      simp only [Option.isNone_none, if_true, Bool.and_self]
      rw [hf]
      exact h2

end Lightway
