import Verif.Proofs.HeapP5

/-!
# Every call keeps the heap in order
-/

namespace Lightway.Mem

theorem blocks_ok : ∀ (f : Nat) (l : Nodes) (h : Heap) (F : List Cell), l.length < f →
    Holds h (nodeCells 0 l ++ F) → blocks f h (nextOf 0 l) = some (plain l)
  | 0, _, _, _, hf, _ => absurd hf (by omega)
  | f + 1, [], h, F, _, hh => by simp [blocks, nextOf, plain]
  | f + 1, (a, n) :: r, h, F, hf, hh => by
    have ha : a ≠ 0 := (hh.low (a, .node n (nextOf 0 r)) (by simp [nodeCells])).1
    have hn : h.node a = some (n, nextOf 0 r) := hh.node (by simp [nodeCells])
    have ih := blocks_ok f r h ((a, .node n (nextOf 0 r)) :: F) (by simp at hf; omega) (hh.perm (by simp only [nodeCells]; same_cells))
    rw [nextOf, blocks, if_neg ha, bind_some' _ hn]
    simp only
    rw [bind_some' _ ih]
    rfl

/-- Following the pointers shows what the list model holds. -/
theorem held_ok {h : Heap} {F : List Cell} (C : ConnV) {T : TableV} (hT : T.Ok) (hC : C.table = some T) (hh : Holds h (C.cells ++ F)) (id : Nat)
    {en : FragEntry} (he : T.plain.slot (id % T.plain.num) = some en) : held h C.a id = some (en.timestamp, en.nodes) := by
  obtain ⟨a, tb, tls⟩ := C
  obtain ⟨t, s, ents⟩ := T
  simp only at hC
  subst hC
  have hlen : 0 < ents.length := List.length_pos_iff.2 hT.1
  obtain ⟨A, x, B, rfl, hi⟩ := slot_split (Nat.mod_lt id hlen)
  have hsl : x.map EntryV.plain = some en := by
    rw [← he, ← plain_slot_at t s A B x]
    congr 1
  obtain ⟨E, rfl, rfl⟩ : ∃ E : EntryV, x = some E ∧ E.plain = en := by
    cases x with
    | none => cases hsl
    | some E => exact ⟨E, rfl, by simpa using hsl⟩
  have hconn := ConnV.read _ hh
  simp only [tableAddr] at hconn
  have hh1 : Holds h (TableV.cells ⟨t, s, A ++ some E :: B⟩ ++ ((a, .conn t tls) :: (optCell .tls tls ++ F))) :=
    hh.perm (by simp only [ConnV.cells, tableAddr, tableCells]; same_cells)
  obtain ⟨r1, r2, -⟩ := TableV.read _ hh1
  simp only at r1 r2
  have hh2 : Holds h (nodeCells 0 E.nodes ++ ((E.a, .entry E.data E.ts (nextOf 0 E.nodes)) :: (t, .table s (A ++ some E :: B).length) ::
      (s, .slots ((A ++ some E :: B).map slotAddr)) :: (A.flatMap slotCells ++ (B.flatMap slotCells ++ ((a, .conn t tls) :: (optCell .tls tls ++ F)))))) := by
    refine hh1.perm ?_
    simp only [TableV.cells, flat_split, slotCells, EntryV.cells]; same_cells
  have hb := blocks_ok h.brk E.nodes h _ (by have := hh2.length_lt; simp [nodeCells_length] at this; omega) hh2
  unfold held
  rw [bind_some' _ hconn]
  simp only
  rw [bind_some' _ r1]
  simp only
  rw [bind_some' _ r2]
  rw [bind_some' _ (show ((A ++ some E :: B).map slotAddr)[id % (A ++ some E :: B).length]? = some E.a by rw [← hi]; simp [slotAddr])]
  rw [bind_some' _ (hh2.entry (a := E.a) (d := E.data) (t := E.ts) (p := nextOf 0 E.nodes) (by simp))]
  simp only
  rw [bind_some' _ hb]
  rfl

theorem owned {s : Sys} {os : List Obj} {X : List Cell} (hi : SInv s os X) {a : Addr} {k : Kind} (h : s.owns a k = true) :
    ∃ (A : List Obj) (o : Obj) (B : List Obj), os = A ++ o :: B ∧ (a, k, true) ∈ o.handles := by
  have hm : (a, k, true) ∈ s.handles := by simpa [Sys.owns] using h
  obtain ⟨o, ho, hm⟩ := List.mem_flatMap.1 (hi.handles.mem_iff.1 hm)
  obtain ⟨A, B, rfl⟩ := List.append_of_mem ho
  exact ⟨A, o, B, rfl, hm⟩

theorem handles_front (A B : List Obj) (o : Obj) :
    ((A ++ o :: B).flatMap Obj.handles).Perm (o.handles ++ (A ++ B).flatMap Obj.handles) := by
  rw [List.flatMap_append, List.flatMap_cons, List.flatMap_append, ← List.append_assoc, ← List.append_assoc]
  exact List.Perm.append_right _ List.perm_append_comm

theorem rest_ok {s : Sys} {A B : List Obj} {o : Obj} {X : List Cell} (hi : SInv s (A ++ o :: B) X) : ∀ p ∈ A ++ B, p.Ok := by
  intro p hp
  refine hi.ok p ?_
  simp only [List.mem_append, List.mem_cons] at hp ⊢
  rcases hp with hp | hp
  · exact .inl hp
  · exact .inr (.inr hp)

/-- A new top-level object. -/
theorem SInv.push {s : Sys} {os : List Obj} {X : List Cell} (hi : SInv s os X) (o : Obj) (ho : o.Ok) {h' : Heap}
    (hh : Holds h' (o.cells ++ (os.flatMap Obj.cells ++ X))) : SInv { heap := h', handles := o.handles ++ s.handles } (o :: os) X := by
  refine ⟨by simpa using hh, ?_, ?_⟩
  · rw [List.flatMap_cons]
    exact List.Perm.append_left _ hi.handles
  · intro p hp
    rcases List.mem_cons.1 hp with rfl | hp
    · exact ho
    · exact hi.ok p hp

theorem SInv.heap {s : Sys} {os : List Obj} {X : List Cell} (hi : SInv s os X) {h' : Heap}
    (hh : Holds h' (os.flatMap Obj.cells ++ X)) : SInv { s with heap := h' } os X := ⟨hh, hi.handles, hi.ok⟩

/-- Every call is defined, keeps the heap in order, and loses nothing if it is a clean one. -/
theorem exec_ok {ok : Oracle} (hok : ∀ k, ok .node k = true) {s : Sys} {os : List Obj} {X : List Cell} (hi : SInv s os X) (c : Call) :
    ∃ (s' : Sys) (os' : List Obj) (Y : List Cell), s.exec ok c = some s' ∧ SInv s' os' (Y ++ X) ∧ (Clean s c → Y = []) := by
  cases c with
  | newCtx =>
    rw [Sys.exec]
    obtain ⟨h1, x, e1, hh1, -⟩ := createCtx_ok ok hi.holds
    rw [e1]
    simp only [Sys.add]
    cases x with
    | none => exact ⟨_, os, [], rfl, by rw [show octxAddr none = 0 from rfl, if_pos rfl]; exact hi.heap hh1, fun _ => rfl⟩
    | some C =>
      have hp := C.pos hh1
      refine ⟨_, .ctx C :: os, [], rfl, ?_, fun _ => rfl⟩
      rw [show octxAddr (some C) = C.a from rfl, if_neg hp]
      exact hi.push (.ctx C) trivial hh1
  | newConn =>
    rw [Sys.exec]
    obtain ⟨h1, x, e1, hh1, -, hx⟩ := createConn_ok ok hi.holds
    rw [e1]
    simp only [Sys.add]
    cases x with
    | none => exact ⟨_, os, [], rfl, by rw [show oconnAddr none = 0 from rfl, if_pos rfl]; exact hi.heap hh1, fun _ => rfl⟩
    | some C =>
      have hp := C.pos hh1
      refine ⟨_, .conn C :: os, [], rfl, ?_, fun _ => rfl⟩
      rw [show oconnAddr (some C) = C.a from rfl, if_neg hp]
      exact hi.push (.conn C) (hx C rfl) hh1
  | newChain =>
    rw [Sys.exec]
    obtain ⟨h1, l, e1, hh1, -⟩ := createChain_ok ok hi.holds
    rw [e1]
    simp only [Sys.add]
    cases l with
    | nil => exact ⟨_, os, [], rfl, by rw [show chainNext [] = 0 from rfl, if_pos rfl]; exact hi.heap hh1, fun _ => rfl⟩
    | cons y l =>
      obtain ⟨a, p⟩ := y
      have hp : chainNext ((a, p) :: l) ≠ 0 := (hh1.low (a, .chain p (chainNext l)) (by simp [chainCells])).1
      refine ⟨_, .chain ((a, p) :: l) :: os, [], rfl, ?_, fun _ => rfl⟩
      rw [if_neg hp]
      exact hi.push (.chain ((a, p) :: l)) (by simp [Obj.Ok]) hh1
  | newClient =>
    rw [Sys.exec]
    rcases createClient_ok ok hi.holds with ⟨h1, k, x, c, i, o, e1, hk, hh1, hc, hi1, ho1, -⟩ | ⟨h1, e1, hh1, -⟩
    · rw [bind_some' _ e1]
      simp only
      rw [if_neg hk, bind_some' _ (hh1.client (a := k) (x := x.a) (c := c.a) (i := chainNext i) (o := chainNext o) (by simp))]
      refine ⟨_, .client k x c i o :: os, [], rfl, ?_, fun _ => rfl⟩
      exact hi.push (.client k x c i o) ⟨hc, hi1, ho1⟩ (hh1.perm (by simp only [Obj.cells]; same_cells))
    · rw [bind_some' _ e1]
      simp only
      rw [if_pos True.intro]
      exact ⟨_, os, [], rfl, hi.heap hh1, fun _ => rfl⟩
  | register a p =>
    rw [Sys.exec]
    by_cases ha : s.has a .chain = true
    · rw [if_neg (by simp [ha])]
      obtain ⟨C, R, hC, hne, hh, hput⟩ := hi.chain ha
      obtain ⟨h1, rc, C', e1, hh1, hs, hne', -⟩ := registerPlugin_ok ok p s.heap.brk C s.heap R
        (by have := hh.length_lt; simp [chainCells_length] at this; omega) hne hh
      rw [hC] at e1
      rw [bind_some' _ e1]
      obtain ⟨os', h2⟩ := hput h1 C' [] (hs.trans hC) hne' hh1
      exact ⟨_, os', [], rfl, h2, fun _ => rfl⟩
    · rw [if_pos (by simp [ha])]
      exact ⟨s, os, [], rfl, hi, fun _ => rfl⟩
  | start a valid =>
    rw [Sys.exec]
    by_cases ha : s.has a .ctx = true ∧ valid = true
    · rw [if_neg (by simp [ha])]
      obtain ⟨C, R, hC, hh, hput⟩ := hi.ctx ha.1
      obtain ⟨h1, rc, C', e1, hh1, hs, -⟩ := start_ok ok C hh
      rw [hC] at e1
      rw [bind_some' _ e1]
      obtain ⟨os', h2⟩ := hput h1 C' _ (hs.trans hC) hh1
      refine ⟨_, os', _, rfl, h2, fun hcl => ?_⟩
      have h3 := hcl ha.1
      rw [← hC, hh.ctx (show (C.a, Block.ctx C.tls) ∈ _ by simp [CtxV.cells])] at h3
      have h4 : C.tls = 0 := by simpa using h3
      rw [h4]; rfl
    · rw [if_pos (by
        rcases Classical.not_and_iff_not_or_not.1 ha with h | h
        · simp [h]
        · simp [h])]
      exact ⟨s, os, [], rfl, hi, fun _ => rfl⟩
  | connect a x valid num =>
    rw [Sys.exec]
    by_cases ha : s.has a .conn = true ∧ s.has x .ctx = true ∧ valid = true
    · rw [if_neg (by simp [ha])]
      obtain ⟨C, R, hC, hok', hh, hput⟩ := hi.conn ha.1
      obtain ⟨h1, rc, C', Y, e1, hh1, hs, hok'', -, hY, -⟩ := connect_ok ok C hh num
      rw [hC] at e1
      rw [bind_some' _ e1]
      obtain ⟨os', h2⟩ := hput h1 C' _ (hs.trans hC) hok'' hh1
      refine ⟨_, os', _, rfl, h2, fun hcl => ?_⟩
      have h3 := hcl ha.1
      rw [← hC, C.read hh] at h3
      simp only [Option.some.injEq, Prod.mk.injEq] at h3
      refine hY ?_ h3.2
      cases hT : C.table with
      | none => rfl
      | some T =>
        rw [hT] at h3
        exact absurd h3.1 (hh.low (T.t, .table T.s T.ents.length) (by simp [ConnV.cells, hT, tableCells, TableV.cells])).1
    · rw [if_pos (by
        rcases Classical.not_and_iff_not_or_not.1 ha with h | h
        · simp [h]
        · rcases Classical.not_and_iff_not_or_not.1 h with h | h
          · simp [h]
          · simp [h])]
      exact ⟨s, os, [], rfl, hi, fun _ => rfl⟩
  | clientConnect k valid loaded connValid num =>
    rw [Sys.exec]
    by_cases ha : s.has k .client = true ∧ valid = true
    · rw [if_neg (by simp [ha])]
      obtain ⟨x, c, i, o, hr, hx, hc⟩ := hi.client ha.1
      rw [bind_some' _ hr]
      simp only
      obtain ⟨C, R, hC, hh, hput⟩ := hi.ctx hx
      obtain ⟨h1, rc, C', e1, hh1, hs, -⟩ := start_ok ok C hh
      rw [hC] at e1
      rw [bind_some' _ e1]
      obtain ⟨os1, hi1⟩ := hput h1 C' _ (hs.trans hC) hh1
      have hcl1 : Clean s (.clientConnect k valid loaded connValid num) → optCell .tlsCtx C.tls = [] ∧ s.heap.conn c = some (0, 0) := by
        intro hcl
        have h3 := hcl x c i o hr
        refine ⟨?_, h3.2⟩
        have h4 := h3.1
        rw [← hC, hh.ctx (show (C.a, Block.ctx C.tls) ∈ _ by simp [CtxV.cells])] at h4
        have h5 : C.tls = 0 := by simpa using h4
        rw [h5]; rfl
      by_cases hgo : rc ≠ .success ∨ (!loaded) = true ∨ (!connValid) = true
      · simp only
        rw [if_pos hgo]
        exact ⟨_, os1, _, rfl, hi1, fun h => (hcl1 h).1⟩
      · simp only
        rw [if_neg hgo]
        obtain ⟨N, R2, hN, hNok, hhN, hputN⟩ := hi1.conn (a := c) hc
        obtain ⟨h2, rc2, N', Y, e2, hh2, hs2, hok2, -, hY, -⟩ := connect_ok ok N hhN num
        rw [hN] at e2
        rw [bind_some' _ (show connect ok h1 c num = _ from e2)]
        obtain ⟨os2, hi2⟩ := hputN h2 N' _ (hs2.trans hN) hok2 hh2
        refine ⟨_, os2, Y ++ optCell .tlsCtx C.tls, rfl, by simpa using hi2, fun hcl => ?_⟩
        obtain ⟨hz, hcn⟩ := hcl1 hcl
        rw [hz, List.append_nil]
        -- the start did not touch the connection
        have hkeep : h1.conn c = s.heap.conn c := by
          obtain ⟨N0, R0, hN0, -, hh0, -⟩ := hi.conn hc
          have hstart := e1
          unfold start at hstart
          have hcx : s.heap.ctx x = some C.tls := by rw [← hC]; exact hh.ctx (by simp [CtxV.cells])
          rw [bind_some' _ hcx] at hstart
          have hcb : s.heap.at_ c = some (.conn (tableAddr N0.table) N0.tls) := by
            rw [← hN0]; exact hh0.get (by simp [ConnV.cells])
          have hxb : s.heap.at_ x = some (.ctx C.tls) := by
            rw [← hC]; exact hh.get (by simp [CtxV.cells])
          have hne : c ≠ x := by
            intro he; rw [he, hxb] at hcb; cases hcb
          have hlow := (hh0.low (N0.a, .conn (tableAddr N0.table) N0.tls) (by simp [ConnV.cells])).2
          rw [show (N0.a, Block.conn (tableAddr N0.table) N0.tls).1 = N0.a from rfl, hN0] at hlow
          unfold Heap.alloc at hstart
          unfold Heap.conn
          by_cases ho : ok .tlsCtx s.heap.asked = true
          · rw [if_pos ho] at hstart
            simp only at hstart
            unfold Heap.set at hstart
            have hxl : x ≠ s.heap.brk := by
              have h0 := (hh.low (C.a, .ctx C.tls) (by simp [CtxV.cells])).2
              rw [show (C.a, Block.ctx C.tls).1 = C.a from rfl, hC] at h0
              exact Nat.ne_of_lt h0
            simp only [if_neg hxl, hxb, Option.isSome_some, if_true, Option.bind_eq_bind, Option.bind_some, Option.some.injEq, Prod.mk.injEq] at hstart
            rw [← hstart.1]
            simp only [if_neg hne]
            rw [if_neg (Nat.ne_of_lt hlow)]
          · rw [if_neg ho] at hstart
            simp only at hstart
            unfold Heap.set at hstart
            simp only [hxb, Option.isSome_some, if_true, Option.bind_eq_bind, Option.bind_some, Option.some.injEq, Prod.mk.injEq] at hstart
            rw [← hstart.1]
            simp only [if_neg hne]
        rw [hcn] at hkeep
        rw [← hN, N.read hhN] at hkeep
        simp only [Option.some.injEq, Prod.mk.injEq] at hkeep
        refine hY ?_ hkeep.2
        cases hT : N.table with
        | none => rfl
        | some T =>
          rw [hT] at hkeep
          exact absurd hkeep.1 (hhN.low (T.t, .table T.s T.ents.length) (by simp [ConnV.cells, hT, tableCells, TableV.cells])).1
    · rw [if_pos (by
        rcases Classical.not_and_iff_not_or_not.1 ha with h | h
        · simp [h]
        · simp [h])]
      exact ⟨s, os, [], rfl, hi, fun _ => rfl⟩
  | fragment a id off last d t1 t2 =>
    rw [Sys.exec]
    by_cases ha : s.has a .conn = true
    · rw [if_neg (by simp [ha])]
      obtain ⟨C, R, hC, hok', hh, hput⟩ := hi.conn ha
      obtain ⟨h1, C', Y, rc, out, e1, hh1, hs, hok'', -, hY⟩ := fragment_conn hok C hok' hh id off last d t1 t2
      rw [hC] at e1
      rw [bind_some' _ e1]
      obtain ⟨os', h2⟩ := hput h1 C' _ (hs.trans hC) hok'' hh1
      refine ⟨_, os', _, rfl, h2, fun hcl => hY (fun T hT hd => ?_)⟩
      obtain ⟨en, he, hage, hdr⟩ := hd
      exact hcl _ _ (by rw [← hC]; exact held_ok C (hok' T hT) hT hh id he) hage hdr
    · rw [if_pos (by simp [ha])]
      exact ⟨s, os, [], rfl, hi, fun _ => rfl⟩
  | destroy a k =>
    rw [Sys.exec.eq_def]
    simp only
    by_cases ha : s.owns a k = true
    · rw [if_neg (by simp [ha])]
      obtain ⟨A, o, B, rfl, hm⟩ := owned hi ha
      have hs := hi.split
      have hp := hi.handles.trans (handles_front A B o)
      have hrest := rest_ok hi
      cases k with
      | ctx =>
        cases o with
        | ctx C =>
          obtain rfl : a = C.a := by simpa [Obj.handles] using hm
          obtain ⟨h1, e1, hh1, -⟩ := destroyCtx_ok C hs
          simp only
          rw [bind_some' _ e1]
          refine ⟨_, A ++ B, [], rfl, ⟨by simpa using hh1, ?_, hrest⟩, fun _ => rfl⟩
          simpa [Obj.handles] using hp.erase (C.a, .ctx, true)
        | _ => simp [Obj.handles] at hm
      | conn =>
        cases o with
        | conn C =>
          obtain rfl : a = C.a := by simpa [Obj.handles] using hm
          obtain ⟨h1, e1, hh1, -⟩ := destroyConn_ok C hs
          simp only
          rw [bind_some' _ e1]
          refine ⟨_, A ++ B, [], rfl, ⟨by simpa using hh1, ?_, hrest⟩, fun _ => rfl⟩
          simpa [Obj.handles] using hp.erase (C.a, .conn, true)
        | _ => simp [Obj.handles] at hm
      | chain =>
        cases o with
        | chain C =>
          obtain rfl : a = chainNext C := by simpa [Obj.handles] using hm
          obtain ⟨h1, e1, hh1, -⟩ := destroyChain_whole C hs
          simp only
          rw [bind_some' _ e1]
          refine ⟨_, A ++ B, [], rfl, ⟨by simpa using hh1, ?_, hrest⟩, fun _ => rfl⟩
          simpa [Obj.handles] using hp.erase (chainNext C, .chain, true)
        | _ => simp [Obj.handles] at hm
      | client =>
        cases o with
        | client k x c i o =>
          obtain rfl : a = k := by simpa [Obj.handles] using hm
          obtain ⟨h1, e1, hh1, -⟩ := destroyClient_ok (h := s.heap) (F := A.flatMap Obj.cells ++ B.flatMap Obj.cells ++ X) a (some x) (some c) i o (hs.perm (by simp only [Obj.cells, octxCells, oconnCells, octxAddr, oconnAddr]; same_cells))
          simp only
          rw [bind_some' _ (hs.client (a := a) (x := x.a) (c := c.a) (i := chainNext i) (o := chainNext o) (by simp [Obj.cells]))]
          simp only
          rw [bind_some' _ e1]
          refine ⟨_, A ++ B, [], rfl, ⟨by simpa using hh1, ?_, hrest⟩, fun _ => rfl⟩
          have h1 := ((((hp.erase (a, .client, true)).erase (x.a, .ctx, false)).erase (c.a, .conn, false)).erase (chainNext i, .chain, false)).erase
            (chainNext o, .chain, false)
          simpa [Obj.handles] using h1
        | _ => simp [Obj.handles] at hm
    · rw [if_pos (by simp [ha])]
      exact ⟨s, os, [], rfl, hi, fun _ => rfl⟩

theorem runFrom_ok {ok : Oracle} (hok : ∀ k, ok .node k = true) : ∀ (cs : List Call) (s : Sys) (os : List Obj) (X : List Cell), SInv s os X →
    ∃ (s' : Sys) (os' : List Obj) (Y : List Cell), s.runFrom ok cs = some s' ∧ SInv s' os' (Y ++ X) ∧ (CleanRun ok s cs → Y = [])
  | [], s, os, X, hi => ⟨s, os, [], rfl, hi, fun _ => rfl⟩
  | c :: cs, s, os, X, hi => by
    obtain ⟨s1, os1, Y1, e1, hi1, c1⟩ := exec_ok hok hi c
    obtain ⟨s2, os2, Y2, e2, hi2, c2⟩ := runFrom_ok hok cs s1 os1 _ hi1
    refine ⟨s2, os2, Y2 ++ Y1, ?_, by simpa using hi2, fun hcl => ?_⟩
    · rw [Sys.runFrom, bind_some' _ e1]; exact e2
    · rw [c1 hcl.1, c2 (hcl.2 s1 e1)]; rfl

theorem handles_nil {os : List Obj} (h : os.flatMap Obj.handles = []) : os = [] := by
  cases os with
  | nil => rfl
  | cons o os => cases o <;> simp [Obj.handles] at h

end Lightway.Mem
