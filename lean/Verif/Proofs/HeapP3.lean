import Verif.Proofs.HeapP2
import Verif.Model.Msg

/-!
# A received fragment in the heap
-/

namespace Lightway

/-- What a received fragment does to the table of the list model: the new table, the return code and the packet that is
complete now. `al` says whether a new entry can be allocated, `t1` and `t2` are the two readings of the clock. -/
def FragTable.receive (t : FragTable) (al : Bool) (t1 t2 : Int) (id off : Nat) (last : Bool) (d : Bytes) :
    Option (FragTable × RC × Option Bytes) :=
  match t.find al t1 id with
  | (t, none) => some (t, .noMemory, none)
  | (t, some en) =>
    match (en.expire t2).update true d off last with
    | none => none
    | some (en, rc, full) =>
      if rc ≠ .success then some (t.set id en, rc, none)
      else if full then
        match en.nodes with
        | [] => none
        | hd :: _ =>
          match rd en.data 0 hd.e with
          | none => none
          | some p => some ((t.set id en).delete id, .success, some p)
      else some (t.set id en, .success, none)

namespace Mem

/-- The fragment extends a block held for its packet and ends before another one (and the held data is not expired). -/
def DropsAt (t : FragTable) (id off len : Nat) (now : Int) : Prop :=
  ∃ en, t.slot (id % t.num) = some en ∧ now - en.timestamp ≤ 64 ∧ Drops en.nodes off len

theorem plain_at (t s : Addr) (A B : List (Option EntryV)) (x y : Option EntryV) :
    TableV.plain ⟨t, s, A ++ y :: B⟩ = FragTable.mk (A ++ x :: B).length
      (fun i => if i = A.length then y.map EntryV.plain else (TableV.plain ⟨t, s, A ++ x :: B⟩).slot i) := by
  unfold TableV.plain
  simp only
  congr 1
  · simp
  · funext i
    by_cases hi : i = A.length
    · subst hi; simp
    · rw [if_neg hi]
      rcases Nat.lt_or_gt_of_ne hi with h | h
      · rw [List.getElem?_append_left h, List.getElem?_append_left h]
      · obtain ⟨k, hk⟩ : ∃ k, i - A.length = k + 1 := ⟨i - A.length - 1, by omega⟩
        rw [List.getElem?_append_right (by omega), List.getElem?_append_right (by omega), hk]
        simp

theorem plain_slot_at (t s : Addr) (A B : List (Option EntryV)) (x : Option EntryV) :
    (TableV.plain ⟨t, s, A ++ x :: B⟩).slot A.length = x.map EntryV.plain := by
  rw [plain_at t s A B x x]; simp

/-- An expired entry is emptied first. -/
theorem expire_ok {h : Heap} {F : List Cell} (E : EntryV) (hE : E.Ok) (hh : Holds h (E.cells ++ F)) (now : Int) :
    ∃ (h' : Heap) (E' : EntryV), expireEntry h E.a E.ts now = some h' ∧ Holds h' (E'.cells ++ F) ∧ h'.brk = h.brk ∧ E'.a = E.a ∧ E'.Ok ∧ E'.plain = E.plain.expire now := by
  unfold FragEntry.expire expireEntry
  by_cases ht : now - E.ts > 64
  · rw [if_pos ht]
    obtain ⟨h1, e1, hh1, b1⟩ := resetEntry_ok E hh
    rw [bind_some' _ e1]
    obtain ⟨E1, hE1⟩ : ∃ E1 : EntryV, E1 = { E with data := zeros maxWireMtu, ts := 0, nodes := [] } := ⟨_, rfl⟩
    rw [← hE1] at hh1
    have hr := E1.read hh1
    have ha : E1.a = E.a := by rw [hE1]
    rw [ha] at hr
    rw [bind_some' _ hr]
    obtain ⟨h2, e2, hh2, b2⟩ := E1.set hh1 E1.data now
    rw [ha] at e2
    refine ⟨h2, { E1 with ts := now }, e2, hh2, by omega, ha, ?_, ?_⟩
    · rw [hE1]; exact reset_wf E.plain now
    · rw [if_pos (show now - E.plain.timestamp > 64 from ht), hE1]; rfl
  · rw [if_neg ht, if_neg (show ¬ now - E.plain.timestamp > 64 from ht)]
    exact ⟨h, E, rfl, hh, rfl, rfl, hE, rfl⟩

/-- A received fragment, for any fact `Q` about the blocks an update of the entry loses. -/
theorem fragment_gen {ok : Oracle} {Q : List Cell → Prop} {h : Heap} {F : List Cell} {c tls : Addr} (T : TableV) (hT : T.Ok)
    (hh : Holds h ((c, .conn T.t tls) :: T.cells ++ F)) (id off : Nat) (last : Bool) (d : Bytes) (t1 t2 : Int)
    (hupd : ∀ (h : Heap) (E : EntryV) (FF : List Cell), E.Ok → Holds h (E.cells ++ FF) →
      ((∃ en, T.plain.slot (id % T.plain.num) = some en ∧ E.plain = en.expire t2) ∨
        T.plain.slot (id % T.plain.num) = none ∧ E.plain = (FragEntry.fresh t1).expire t2) →
      ∃ (h' : Heap) (E' : EntryV) (X : List Cell) (rc : RC) (full : Bool), updateEntry ok h E.a d off last = some (h', rc, full) ∧
        Holds h' (E'.cells ++ (X ++ FF)) ∧ h.brk ≤ h'.brk ∧ E'.a = E.a ∧ E'.Ok ∧
        FragEntry.update true E.plain d off last = some (E'.plain, rc, full) ∧ Q X) :
    ∃ (h' : Heap) (T' : TableV) (X : List Cell) (rc : RC) (out : Option Bytes),
      fragment ok h c id off last d t1 t2 = some (h', rc, out) ∧ Holds h' ((c, .conn T'.t tls) :: T'.cells ++ (X ++ F)) ∧
      h.brk ≤ h'.brk ∧ T'.Ok ∧ 
      (∃ al, T.plain.receive al t1 t2 id off last d = some (T'.plain, rc, out) ∧ (al = true ∨ ∃ k, ok .entry k = false)) ∧
      (Q X ∨ T.plain.slot (id % T.plain.num) = none ∧ X = []) := by
  obtain ⟨t, s, ents⟩ := T
  have hlen : 0 < ents.length := List.length_pos_iff.2 hT.1
  have hpos : id % ents.length < ents.length := Nat.mod_lt _ hlen
  obtain ⟨A, x, B, rfl, hi⟩ := slot_split hpos
  have hnum : ∀ y, (TableV.plain ⟨t, s, A ++ y :: B⟩).num = (A ++ x :: B).length := fun y => by simp [TableV.plain]
  have hconn : h.conn c = some (t, tls) := hh.conn (by simp)
  have hh0 : Holds h (TableV.cells ⟨t, s, A ++ x :: B⟩ ++ ((c, .conn t tls) :: F)) := hh.perm (by simp only; same_cells)
  unfold fragment FragTable.receive
  rw [bind_some' _ hconn]
  simp only
  rcases findEntry_ok ok hh0 id hi t1 with ⟨h1, E, e1, hEa, hh1, b1, hx⟩ | ⟨hx, hno, h1, e1, hh1, b1⟩
  · rw [bind_some' _ e1]
    simp only
    rw [if_neg hEa]
    have hEok : E.Ok := by
      rcases hx with hx | ⟨hx, he⟩
      · exact hT.2 E (by rw [hx]; simp)
      · unfold EntryV.Ok; rw [he]; exact fresh_wf t1
    have hfind : (TableV.plain ⟨t, s, A ++ x :: B⟩).find true t1 id = (TableV.plain ⟨t, s, A ++ some E :: B⟩, some E.plain) := by
      unfold FragTable.find
      rw [hnum x, ← hi, plain_slot_at]
      rcases hx with hx | ⟨hx, he⟩
      · rw [hx]; rfl
      · rw [hx]
        simp only [Option.map_none, if_true]
        rw [plain_at t s A B none (some E)]
        simp only [Option.map_some, he]
    have hh2 : Holds h1 (E.cells ++ ((t, .table s (A ++ x :: B).length) :: (s, .slots ((A ++ some E :: B).map slotAddr)) ::
        (A.flatMap slotCells ++ (B.flatMap slotCells ++ ((c, .conn t tls) :: F))))) := by
      refine hh1.perm ?_
      have hl : (A ++ some E :: B).length = (A ++ x :: B).length := by simp
      simp only [TableV.cells, flat_split, slotCells, hl]; same_cells
    generalize hFF : ((t, Block.table s (A ++ x :: B).length) :: (s, Block.slots ((A ++ some E :: B).map slotAddr)) ::
        (A.flatMap slotCells ++ (B.flatMap slotCells ++ ((c, Block.conn t tls) :: F)))) = FF at hh2
    have hback : ∀ (h' : Heap) (E' : EntryV) (X : List Cell), E'.a = E.a → Holds h' (E'.cells ++ (X ++ FF)) →
        Holds h' (TableV.cells ⟨t, s, A ++ some E' :: B⟩ ++ ((c, .conn t tls) :: (X ++ F))) := by
      intro h' E' X ha hh'
      refine hh'.perm ?_
      have hl : (A ++ some E' :: B).length = (A ++ x :: B).length := by simp
      have hm : (A ++ some E' :: B).map slotAddr = (A ++ some E :: B).map slotAddr := by simp [slotAddr, ha]
      rw [← hFF]
      simp only [TableV.cells, flat_split, slotCells, hl, hm]; same_cells
    rw [bind_some' _ (E.read hh2)]
    simp only
    obtain ⟨h2, E1, e2, hh3, b2, ha1, hE1, hp1⟩ := expire_ok E hEok hh2 t2
    rw [bind_some' _ e2]
    obtain ⟨h3, E2, X, rc, full, e3, hh4, b3, ha2, hE2, hup, hX⟩ := hupd h2 E1 _ hE1 hh3 (by
      rw [hp1]
      rcases hx with hx | ⟨hx, he⟩
      · refine .inl ⟨E.plain, ?_, rfl⟩
        rw [hnum x, ← hi, plain_slot_at, hx]; rfl
      · refine .inr ⟨?_, by rw [he]⟩
        rw [hnum x, ← hi, plain_slot_at, hx]; rfl)
    rw [ha1] at e3 ha2
    rw [bind_some' _ e3]
    simp only
    have hh5 := hback h3 E2 X ha2 hh4
    have hset : (TableV.plain ⟨t, s, A ++ some E :: B⟩).set id E2.plain = TableV.plain ⟨t, s, A ++ some E2 :: B⟩ := by
      rw [plain_at t s A B (some E) (some E2)]
      unfold FragTable.set
      rw [hnum, ← hi]
      simp [TableV.plain]
    have hTok : ∀ y : Option EntryV, (∀ E', y = some E' → E'.Ok) → TableV.Ok ⟨t, s, A ++ y :: B⟩ := by
      intro y hy
      refine ⟨by simp, fun E' hm => ?_⟩
      simp only [List.mem_append, List.mem_cons] at hm
      rcases hm with hm | hm | hm
      · exact hT.2 E' (by simp [hm])
      · exact hy E' hm.symm
      · exact hT.2 E' (by simp [hm])
    by_cases hrc : rc = .success
    · subst hrc
      rw [if_neg (by simp)]
      cases full with
      | false =>
        rw [if_neg (by simp)]
        refine ⟨h3, ⟨t, s, A ++ some E2 :: B⟩, X, _, _, rfl, hh5.perm (by simp only; same_cells), by omega,
          hTok _ (fun E' he => by cases he; exact hE2), ⟨true, ?_, .inl rfl⟩, .inl hX⟩
        rw [hfind]
        simp only
        rw [← hp1, hup]
        simp only
        rw [if_neg (by simp), if_neg (by simp), hset]
      | true =>
        rw [if_pos rfl]
        have hne := (update_wf hE1).2.2 _ _ hup
        obtain ⟨hdp, hnp⟩ := hE2
        obtain ⟨⟨q, n⟩, L, hL⟩ : ∃ y L, E2.nodes = y :: L := by
          cases hn : E2.nodes with
          | nil => exact absurd (show E2.plain.nodes = [] by simp [EntryV.plain, plain, hn]) hne
          | cons y L => exact ⟨y, L, rfl⟩
        have hread := E2.read hh4
        rw [ha2] at hread
        rw [bind_some' _ hread]
        have hnode : h3.node (nextOf 0 E2.nodes) = some (n, nextOf 0 L) := by
          rw [hL]
          exact hh4.node (p := nextOf 0 L) (by simp only [EntryV.cells, hL, nodeCells]; exact List.mem_append_left _ (.tail _ (.head _)))
        simp only
        rw [bind_some' _ hnode]
        simp only
        have hpn : E2.plain.nodes = n :: plain L := by simp [EntryV.plain, plain, hL]
        have hrd : rd E2.data 0 n.e = some ((E2.data.drop 0).take n.e) := by
          unfold rd
          rw [if_pos]
          have h1 : n.e ≤ 1500 := (hnp n (by rw [hpn]; simp)).2
          have h2 : E2.data.length = 1500 := hdp
          omega
        rw [bind_some' _ hrd]
        obtain ⟨h4, e4, hh6, b4⟩ := dropEntry_ok hh5
        have hdel : deleteEntry h3 t id = some h4 := by
          unfold deleteEntry
          obtain ⟨r1, -, r3⟩ := TableV.read _ hh5
          simp only at r1 r3
          rw [if_neg r3, bind_some' _ r1]
          simp only
          have hl : (A ++ some E2 :: B).length = (A ++ x :: B).length := by simp
          rw [hl, ← hi]
          exact e4
        rw [bind_some' _ hdel]
        refine ⟨h4, ⟨t, s, A ++ none :: B⟩, X, _, _, rfl, hh6.perm (by simp only; same_cells), by omega,
          hTok _ (fun E' he => by cases he), ⟨true, ?_, .inl rfl⟩, .inl hX⟩
        rw [hfind]
        simp only
        rw [← hp1, hup]
        simp only
        rw [if_neg (by simp), if_pos True.intro, hpn]
        simp only
        rw [show rd E2.plain.data 0 n.e = _ from hrd]
        simp only
        rw [hset]
        congr 2
        rw [plain_at t s A B (some E2) none]
        unfold FragTable.delete
        rw [hnum, ← hi]
        simp [TableV.plain]
    · rw [if_pos (by simpa using hrc)]
      refine ⟨h3, ⟨t, s, A ++ some E2 :: B⟩, X, _, _, rfl, hh5.perm (by simp only; same_cells), by omega,
        hTok _ (fun E' he => by cases he; exact hE2), ⟨true, ?_, .inl rfl⟩, .inl hX⟩
      rw [hfind]
      simp only
      rw [← hp1, hup]
      simp only
      rw [if_pos (by simpa using hrc), hset]
  · rw [bind_some' _ e1]
    simp only
    rw [if_pos True.intro]
    refine ⟨h1, ⟨t, s, A ++ x :: B⟩, [], _, _, rfl, hh1.perm (by simp only; same_cells), b1, hT, ⟨false, ?_, .inr hno⟩,
      .inr ⟨by rw [hnum x, ← hi, plain_slot_at, hx]; rfl, rfl⟩⟩
    unfold FragTable.find
    rw [hnum x, ← hi, plain_slot_at, hx]
    rfl

theorem fragment_ok {ok : Oracle} (hok : ∀ k, ok .node k = true) {h : Heap} {F : List Cell} {c tls : Addr} (T : TableV) (hT : T.Ok)
    (hh : Holds h ((c, .conn T.t tls) :: T.cells ++ F)) (id off : Nat) (last : Bool) (d : Bytes) (t1 t2 : Int) :
    ∃ (h' : Heap) (T' : TableV) (X : List Cell) (rc : RC) (out : Option Bytes),
      fragment ok h c id off last d t1 t2 = some (h', rc, out) ∧ Holds h' ((c, .conn T'.t tls) :: T'.cells ++ (X ++ F)) ∧
      h.brk ≤ h'.brk ∧ T'.Ok ∧
      (∃ al, T.plain.receive al t1 t2 id off last d = some (T'.plain, rc, out) ∧ (al = true ∨ ∃ k, ok .entry k = false)) ∧
      (¬DropsAt T.plain id off d.length t2 → X = []) := by
  obtain ⟨h', T', X, rc, out, e, hh', b, hT', hr, hX⟩ := fragment_gen (ok := ok) (Q := fun X => ¬DropsAt T.plain id off d.length t2 → X = [])
    T hT hh id off last d t1 t2 (by
      intro h2 E FF hE hhE hplain
      obtain ⟨h3, E2, X, rc, full, e3, hh4, b3, ha2, hE2, hup, hX⟩ := updateEntry_ok hok E hE hhE d off last
      refine ⟨h3, E2, X, rc, full, e3, hh4, b3, ha2, hE2, hup, fun hd => hX (fun hdr => hd ?_)⟩
      rcases hplain with ⟨en, hen, hp⟩ | ⟨hen, hp⟩
      · rw [hp] at hdr
        unfold FragEntry.expire at hdr
        by_cases ht : t2 - en.timestamp > 64
        · rw [if_pos ht] at hdr
          obtain ⟨n, hn, -⟩ := hdr
          simp [FragEntry.reset] at hn
        · rw [if_neg ht] at hdr
          exact ⟨en, hen, by omega, hdr⟩
      · rw [hp] at hdr
        unfold FragEntry.expire at hdr
        obtain ⟨n, hn, -⟩ := hdr
        split at hn <;> simp [FragEntry.reset, FragEntry.fresh] at hn)
  refine ⟨h', T', X, rc, out, e, hh', b, hT', hr, fun hd => ?_⟩
  rcases hX with h | h
  · exact h hd
  · exact h.2

end Mem
end Lightway
