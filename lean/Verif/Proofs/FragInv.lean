import Verif.Proofs.Reasm
import Verif.Spec.Frag

/-!
# Which fragments the table holds, as an invariant of every execution
-/

namespace Lightway
open Spec

/-- Effects that concern neither table, nor chains, nor deliveries. -/
def FNeut : Effect → Prop
  | .table _ | .chains .. | .insideWrite _ => False
  | _ => True

theorem IoEff.fneut {c : Conn} {e : Effect} (h : IoEff c e) : FNeut e := by cases e <;> simp_all [IoEff, FNeut]
theorem PEff.fneut {c : Conn} {e : Effect} (h : PEff c e) : FNeut e := by cases e <;> simp_all [PEff, IoEff, FNeut]

theorem tableAt_fneut {x : Log} (l : Log) (h : ∀ e ∈ x, FNeut e) : tableAt (x ++ l) = tableAt l := by
  induction x with
  | nil => rfl
  | cons e x ih =>
    have he := h e (by simp)
    have ih := ih (fun y hy => h y (by simp [hy]))
    cases e <;> first | exact he.elim | exact ih

theorem insidePluginsAt_fneut {x : Log} (l : Log) (h : ∀ e ∈ x, FNeut e) :
    insidePluginsAt (x ++ l) = insidePluginsAt l := by
  induction x with
  | nil => rfl
  | cons e x ih =>
    have he := h e (by simp)
    have ih := ih (fun y hy => h y (by simp [hy]))
    cases e <;> first | exact he.elim | exact ih

theorem tableSize_eq {l l' : Log} (h : tableAt l' = tableAt l) : tableSize l' = tableSize l := by
  unfold tableSize; rw [h]

/-- What was held stays held when the addition neither creates a table nor delivers from the slot. -/
theorem held_extend {l : Log} {slot : Nat} {f : Fragment} {n x : Log} (h : Held l slot f n)
    (ht : ∀ k, Effect.table k ∉ x) (hs : tableAt (x ++ l) = tableAt l)
    (hd : ¬DeliveredIn slot (tableSize l) x l) : Held (x ++ l) slot f (x ++ n) := by
  obtain ⟨m, o, h1, h2, h3, h4, h5⟩ := h
  refine ⟨m, o, by rw [h1]; simp, h2, by rw [tableSize_eq hs]; exact h3, ?_, ?_⟩
  · intro k hk
    rcases List.mem_append.mp hk with hk | hk
    · exact ht k hk
    · exact h4 k hk
  · rw [tableSize_eq hs]
    rintro ⟨n1, q, n2, m', f', e1, e2, e3, e4⟩
    rcases List.append_eq_append_iff.1 e1 with ⟨as, rfl, e⟩ | ⟨bs, e, e6⟩
    · exact h5 ⟨as, q, n2, m', f', e, e2, e3, e4⟩
    · cases bs with
      | nil =>
        simp only [List.nil_append] at e6
        exact h5 ⟨[], q, n2, m', f', e6.symm, e2, e3, e4⟩
      | cons b bs =>
        simp only [List.cons_append, List.cons.injEq] at e6
        obtain ⟨rfl, e6⟩ := e6
        refine hd ⟨n1, q, bs, m', f', e, ?_, e3, e4⟩
        rw [e6] at e2
        rw [h1]
        simpa using e2

theorem not_deliveredIn_fneut {slot size : Nat} {x : Log} (l : Log) (h : ∀ e ∈ x, FNeut e) :
    ¬DeliveredIn slot size x l := by
  rintro ⟨n1, q, n2, m', f', e1, _⟩
  exact h (.insideWrite q) (by rw [e1]; simp)

theorem not_table_fneut {x : Log} (h : ∀ e ∈ x, FNeut e) (k : Nat) : Effect.table k ∉ x := fun hk => h _ hk

theorem clockMonotone_tail {x l : Log} (h : ClockMonotone (x ++ l)) : ClockMonotone l := by
  induction x with
  | nil => exact h
  | cons e x ih => exact ih h.2

theorem clockMonotone_le {x l : Log} (h : ClockMonotone (x ++ l)) {s t : Int} (hs : Effect.clock s ∈ l)
    (ht : Effect.clock t ∈ x) : s ≤ t := by
  induction x with
  | nil => cases ht
  | cons e x ih =>
    rcases List.mem_cons.mp ht with ht | ht
    · exact h.1 t ht.symm s (by simp [hs])
    · exact ih h.2 ht

/-- A fragment among those an entry was built from. -/
def Source (l : Log) (slot : Nat) (ts : Int) (f : Fragment) : Prop :=
  ∃ n t a, Held l slot f (n ++ .clock t :: a) ∧ (∀ m, Effect.message m ∉ a) ∧ (ClockMonotone l → ts ≤ t)

/-- What a slot holds. -/
def EntryFrom (l : Log) (slot : Nat) (en : FragEntry) : Prop :=
  (∃ life, Built en life ∧ ∀ f ∈ life, Source l slot en.timestamp f) ∧
  Effect.clock en.timestamp ∈ l ∧ ∃ f n, Held l slot f n

theorem EntryFrom.extend {l : Log} {slot : Nat} {en : FragEntry} {x : Log} (h : EntryFrom l slot en)
    (ht : ∀ k, Effect.table k ∉ x) (hs : tableAt (x ++ l) = tableAt l)
    (hd : ¬DeliveredIn slot (tableSize l) x l) : EntryFrom (x ++ l) slot en := by
  obtain ⟨⟨life, hb, hl⟩, hc, f0, n0, h0⟩ := h
  refine ⟨⟨life, hb, fun f hf => ?_⟩, by simp [hc], f0, _, held_extend h0 ht hs hd⟩
  obtain ⟨n, t, a, hn, ha, hm⟩ := hl f hf
  refine ⟨x ++ n, t, a, ?_, ha, fun hmono => hm (clockMonotone_tail hmono)⟩
  rw [List.append_assoc]
  exact held_extend hn ht hs hd

/-- The whole message payload, or a packet made from fresh fragments of one slot. -/
def Content (l : Log) (pkt p : Bytes) : Prop :=
  (pkt.head? = some 5 ∧ ∃ n, 3 + n ≤ pkt.length ∧ p = field pkt 3 n ∧
    (n = num (field pkt 1 2) ∨ n = rdLe (field pkt 1 2))) ∨
  (pkt.head? = some 13 ∧ 5 + num (field pkt 1 2) ≤ pkt.length ∧ p = field pkt 5 (num (field pkt 1 2))) ∨
  ∃ g life en hd tl now, carried pkt = some g ∧ Built en life ∧ en.nodes = hd :: tl ∧ hd.last = true ∧ hd.b = 0 ∧
    p = en.data.take hd.e ∧ lastClock l = some now ∧ ∀ f ∈ life, Fresh l (g.id % tableSize l) f now

/-- Every delivery is a valid IPv4 packet, and what it is made of. -/
def DelivOk (e : Effect) (l : Log) : Prop :=
  ∀ p, e = .insideWrite p → ipv4Valid p = true ∧
    ∃ pkt, lastMessage l = some pkt ∧ (insidePluginsAt l = 0 → Content l pkt p)

structure FInv (c : Conn) : Prop where
  num : ∀ t, c.fragTable = some t → t.num = tableSize c.log
  plug : insidePluginsAt c.log = c.insidePlugins.plugins
  ent : ∀ t s en, c.fragTable = some t → t.slot s = some en → EntryFrom c.log s en
  all : AllAt DelivOk c.log

theorem allAt_fneut {x l : Log} (h : ∀ e ∈ x, FNeut e) (hl : AllAt DelivOk l) : AllAt DelivOk (x ++ l) := by
  induction x with
  | nil => exact hl
  | cons e x ih =>
    refine ⟨?_, ih (fun y hy => h y (by simp [hy]))⟩
    intro p hp
    have := h e (by simp)
    rw [hp] at this; exact this.elim

theorem FInv.extend {c c' : Conn} (h : FInv c) {x : Log} (hl : c'.log = x ++ c.log) (hx : ∀ e ∈ x, FNeut e)
    (ht : c'.fragTable = c.fragTable) (hp : c'.insidePlugins = c.insidePlugins) : FInv c' := by
  have hta := tableAt_fneut c.log hx
  constructor
  · intro t h1
    rw [hl, tableSize_eq hta]
    exact h.num t (by rw [← ht]; exact h1)
  · rw [hl, hp, insidePluginsAt_fneut _ hx]; exact h.plug
  · intro t s en h1 h2
    rw [hl]
    exact (h.ent t s en (by rw [← ht]; exact h1) h2).extend (not_table_fneut hx) hta (not_deliveredIn_fneut _ hx)
  · rw [hl]; exact allAt_fneut hx h.all

theorem FInv.pFrame {c c' : Conn} (h : FInv c) (hf : PFrame c c') : FInv c' := by
  obtain ⟨l, ps, sl, we, pm, pn, rfl, hl⟩ := hf
  exact h.extend (x := l) rfl (fun x hx => (hl x hx).fneut) rfl rfl

theorem carried_not_head {m : Bytes} {f : Fragment} (h : carried m = some f) {k : UInt8} (hk : m.head? = some k)
    (hne : k ≠ 15) : False := by
  have := carried_head h
  rw [hk] at this; exact hne (by simpa using this)

theorem not_delivered_plain {slot size : Nat} {p pkt : Bytes} {l : Log} (hm : lastMessage l = some pkt) {k : UInt8}
    (hk : pkt.head? = some k) (hne : k ≠ 15) : ¬DeliveredIn slot size [.insideWrite p] l := by
  rintro ⟨n1, q, n2, m', f', e1, e2, e3, e4⟩
  cases n1 with
  | nil =>
    simp only [List.nil_append, List.cons.injEq] at e1
    rw [← e1.2, List.nil_append, hm] at e2
    cases e2
    exact carried_not_head e3 hk hne
  | cons a b =>
    simp at e1

/-- The slot of a table after one entry was set. -/
theorem set_cases {t : FragTable} {id s : Nat} {e en : FragEntry} (h : (t.set id e).slot s = some en) :
    (s = id % t.num ∧ en = e) ∨ (s ≠ id % t.num ∧ t.slot s = some en) := by
  simp only [FragTable.set] at h
  split at h
  · rename_i hs; cases h; exact .inl ⟨hs, rfl⟩
  · rename_i hs; exact .inr ⟨hs, h⟩

theorem delete_cases {t : FragTable} {id s : Nat} {en : FragEntry} (h : (t.delete id).slot s = some en) :
    s ≠ id % t.num ∧ t.slot s = some en := by
  simp only [FragTable.delete] at h
  split at h
  · cases h
  · rename_i hs; exact ⟨hs, h⟩

theorem fresh_built (now : Int) : Built (FragEntry.fresh now) [] := .empty _ rfl rfl

theorem expire_cases (en : FragEntry) (now : Int) :
    en.expire now = en ∨ (Built (en.expire now) [] ∧ (en.expire now).timestamp = now) := by
  unfold FragEntry.expire
  split
  · exact .inr ⟨.empty _ rfl rfl, rfl⟩
  · exact .inl rfl

theorem Micro.finv {env : Env} {a : Api} {c c' : Conn} (hm : Micro env a c c') (h : FInv c) : FInv c' := by
  cases hm with
  | io r => exact h.pFrame (ioStep_frame env c r).pFrame
  | probeAck id _ _ _ => exact h.pFrame (handleProbeAck_frame env c id)
  | probeTimeout _ => exact h.pFrame (handleProbeTimeout_frame env c)
  | startBase _ _ _ => exact h.pFrame (startBaseProbing_frame env c)
  | quiet e he => exact h.extend (x := [e]) rfl (by simp; cases e <;> simp_all [Quiet, FNeut]) rfl rfl
  | auth e u _ he _ _ _ _ _ => exact h.extend (x := [e]) rfl (by simp; cases e <;> simp_all [AuthEff, FNeut]) rfl rfl
  | state s hne _ =>
    have hf := setState_fields c s
    refine h.extend (x := [.state s c.cbs.stateChange]) (by simp [setState, hne]) (by simp [FNeut]) ?_ ?_ <;>
      simp [setState, hne]
  | insideWrite p ha hs hc hv hm =>
    obtain ⟨pkt, hl, hcon⟩ := hm
    have hnd : ∀ slot size, ¬DeliveredIn slot size [Effect.insideWrite p] c.log := by
      intro slot size
      rcases hcon with ⟨h5, _⟩ | ⟨h13, _⟩
      · exact not_delivered_plain hl h5 (by decide)
      · exact not_delivered_plain hl h13 (by decide)
    refine ⟨h.num, h.plug, ?_, ?_, h.all⟩
    · intro t s en h1 h2
      exact (h.ent t s en h1 h2).extend (x := [.insideWrite p]) (by simp) rfl (hnd _ _)
    · intro p' hp'
      cases hp'
      refine ⟨hv, pkt, hl, fun hz => ?_⟩
      rw [h.plug] at hz
      rcases hcon with ⟨h5, h6⟩ | ⟨h13, h6⟩
      · exact .inl ⟨h5, h6 hz⟩
      · exact .inr (.inl ⟨h13, h6 hz⟩)
  | insideFrag t pkt g en hd tl p ha hs hc hv ht hm hg hen hn hlast hb hclk hp =>
    have hnum := h.num t ht
    have he := h.ent t _ en ht hen
    refine ⟨?_, h.plug, ?_, ?_, h.all⟩
    · intro t' h1
      simp only [Option.some.injEq] at h1
      rw [← h1]
      exact hnum
    · intro t' s en' h1 h2
      simp only [Option.some.injEq] at h1
      subst h1
      obtain ⟨hne, h3⟩ := delete_cases h2
      refine (h.ent t s en' ht h3).extend (x := [.insideWrite p]) (by simp) rfl ?_
      rintro ⟨n1, q, n2, m', f', e1, e2, e3, e4⟩
      cases n1 with
      | nil =>
        simp only [List.nil_append, List.cons.injEq] at e1
        rw [← e1.2, List.nil_append, hm] at e2
        cases e2
        rw [hg] at e3
        cases e3
        rw [hnum] at hne
        exact hne e4.symm
      | cons a b => simp at e1
    · intro p' hp'
      cases hp'
      refine ⟨hv, pkt, hm, fun hz => ?_⟩
      rw [h.plug] at hz
      obtain ⟨now, hnow, hle⟩ := hclk
      obtain ⟨⟨life, hbu, hsrc⟩, hcl, _⟩ := he
      refine .inr (.inr ⟨g, life, en, hd, tl, now, hg, hbu, hn, hlast, hb, hp hz, hnow, fun f hf => ?_⟩)
      obtain ⟨n, t, a, hn, ht, hmo⟩ := hsrc f hf
      rw [hnum] at hn
      exact ⟨n, t, a, hn, ht, fun hmono => by have := hmo hmono; omega⟩
  | configure ctx ha =>
    obtain ⟨x, y, ok, ft, e, hft⟩ := configure_shape env c ctx
    rw [e]
    refine ⟨?_, h.plug, ?_, ?_⟩
    · intro t h1
      rcases hft with rfl | rfl
      · cases h1
      · simp only [Option.some.injEq] at h1
        rw [← h1]; rfl
    · intro t s en h1 h2
      rcases hft with rfl | rfl
      · cases h1
      · simp only [Option.some.injEq] at h1
        rw [← h1] at h2; cases h2
    · refine ⟨(by intro p hp; cases hp), (by intro p hp; cases hp), (by intro p hp; cases hp), h.all⟩
  | plugins i o ha =>
    refine ⟨h.num, rfl, ?_, (by intro p hp; cases hp), h.all⟩
    intro t s en h1 h2
    refine (h.ent t s en h1 h2).extend (x := [.chains i.plugins o.plugins]) (by simp) rfl ?_
    rintro ⟨n1, q, n2, m', f', e1, _⟩
    cases n1 with
    | nil => simp at e1
    | cons a b => simp at e1
  | fragNew t id now ha ht hn hl =>
    obtain ⟨pkt, g, rest, hg, rfl, hl⟩ := hl
    refine ⟨?_, h.plug, ?_, h.all⟩
    · intro t' h1
      simp only [Option.some.injEq] at h1
      rw [← h1]; exact h.num t ht
    · intro t' s en h1 h2
      simp only [Option.some.injEq] at h1
      subst h1
      rcases set_cases h2 with ⟨rfl, rfl⟩ | ⟨hne, h3⟩
      · refine ⟨⟨[], fresh_built now, by simp⟩, by rw [hl]; simp [FragEntry.fresh], g, [.clock now, .alloc true],
          pkt, rest, hl, hg, by rw [h.num t ht], by simp, ?_⟩
        exact not_deliveredIn_fneut _ (by simp [FNeut])
      · exact h.ent t s en ht h3
  | fragPut t g en en' now al rc asm ha ht hs hl hu =>
    obtain ⟨pkt, rest, hg, hl⟩ := hl
    refine ⟨?_, h.plug, ?_, h.all⟩
    · intro t' h1
      simp only [Option.some.injEq] at h1
      rw [← h1]; exact h.num t ht
    · intro t' s en2 h1 h2
      simp only [Option.some.injEq] at h1
      subst h1
      rcases set_cases h2 with ⟨rfl, rfl⟩ | ⟨hne, h3⟩
      · obtain ⟨⟨life, hb, hsrc⟩, hcl, _⟩ := h.ent t _ en ht hs
        have hheld : ∃ a, Held c.log (g.id % t.num) g ([] ++ .clock now :: a) ∧ ∀ m, Effect.message m ∉ a := by
          rcases hl with hl | hl
          · exact ⟨[], ⟨pkt, rest, hl, hg, by rw [h.num t ht], by simp, not_deliveredIn_fneut _ (by simp [FNeut])⟩,
              by simp⟩
          · exact ⟨[.clock en.timestamp, .alloc true], ⟨pkt, rest, hl, hg, by rw [h.num t ht], by simp,
              not_deliveredIn_fneut _ (by simp [FNeut])⟩, by simp⟩
        obtain ⟨a, hn, hct⟩ := hheld
        have hts : en2.timestamp = (en.expire now).timestamp := update_timestamp hu
        have hnowle : ClockMonotone c.log → en.timestamp ≤ now := by
          intro hmono
          rcases hl with hl | hl
          · rw [hl] at hcl hmono
            simp only [List.mem_cons, Effect.clock.injEq] at hcl
            rcases hcl with h | h | h
            · omega
            · cases h
            · exact hmono.1 now rfl en.timestamp (by simp [h])
          · rw [hl] at hmono
            exact hmono.1 now rfl en.timestamp (by simp)
        have hnow : Effect.clock now ∈ c.log := by rcases hl with hl | hl <;> rw [hl] <;> simp
        rcases expire_cases en now with hx | ⟨hx, hx2⟩
        · rw [hx] at hu hts
          refine ⟨⟨g :: life, hb.put g hu, ?_⟩, by rw [hts]; exact hcl, g, _, hn⟩
          intro f hf
          rw [hts]
          rcases List.mem_cons.mp hf with rfl | hf
          · exact ⟨[], now, a, hn, hct, hnowle⟩
          · exact hsrc f hf
        · rw [hx2] at hts
          refine ⟨⟨[g], hx.put g hu, ?_⟩, by rw [hts]; exact hnow, g, _, hn⟩
          intro f hf
          simp only [List.mem_singleton] at hf
          subst hf
          rw [hts]
          exact ⟨[], now, a, hn, hct, fun _ => Int.le_refl _⟩
      · exact h.ent t s en2 ht h3
  | fragDel t pkt g ha ht hm hg =>
    refine ⟨?_, h.plug, ?_, h.all⟩
    · intro t' h1
      simp only [Option.some.injEq] at h1
      rw [← h1]; exact h.num t ht
    · intro t' s en h1 h2
      simp only [Option.some.injEq] at h1
      subst h1
      exact h.ent t s en ht (delete_cases h2).2
  | err | dueOff | sessCfg | sessClient | sessServer | rotate | sessSet | creds
  | mtu | version | pingPending | fragNext => exact h.extend (x := []) rfl (by simp) rfl rfl
  | _ => exact h.extend (x := [_]) rfl (by simp [FNeut]) rfl rfl

theorem Star.finv {env : Env} {a : Api} {c c' : Conn} (hm : M env a c c') (h : FInv c) : FInv c' := by
  induction hm with
  | refl => exact h
  | tail _ s ih => exact s.finv ih

theorem step_finv (env : Env) {o : Option Api} {c : Conn} (op : Op) (hi : Inv env o c) (h : FInv c) :
    FInv (step env c op).1 := by
  have h0 : FInv (entry c op) := by
    cases op <;> exact h.extend (x := [.api _]) rfl (by simp [FNeut]) rfl rfl
  have h1 := (exec_star env o c op hi).finv h0
  exact h1.extend (x := [.ret (step env c op).2]) rfl (by simp [FNeut]) rfl rfl

theorem create_finv : FInv Conn.create :=
  ⟨(fun t h => by cases h), rfl, (fun t s en h => by cases h), trivial⟩

theorem run_finv (env : Env) (ops : List Op) : FInv (run env ops) := by
  suffices ∀ (ops : List Op) (c : Conn), (∃ o, Inv env o c) → FInv c →
      FInv (ops.foldl (fun c op => (step env c op).1) c) from this ops _ ⟨none, create_inv env⟩ create_finv
  intro ops
  induction ops with
  | nil => intro c _ h; exact h
  | cons op ops ih =>
    intro c ⟨o, hi⟩ h
    exact ih _ ⟨_, step_inv env o c op hi⟩ (step_finv env op hi h)

end Lightway
