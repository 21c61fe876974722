import Verif.Proofs.Link2
import Verif.Props.Reassembly

/-!
# Deliveries on the receiving side
-/

namespace Lightway
open Spec

/-- What a step adds to the history: no delivery, or one delivery. -/
theorem Micro.newDeliv {env : Env} {a : Api} {c c' : Conn} (h : Micro env a c c') :
    ∃ x, c'.log = x ++ c.log ∧ ((∀ p, Effect.insideWrite p ∉ x) ∨ ∃ p, x = [.insideWrite p] ∧ a = .outsideData ∧
      deliveredSince c.log = false ∧ (c.insidePlugins.plugins = 0 → ∀ m, lastMessage c.log = some m → m.head? = some 5 →
        p = field m 3 (if c.verMajor = 1 ∧ c.verMinor = 0 then rdLe (field m 1 2) else num (field m 1 2)))) := by
  have hp : ∀ {c' : Conn}, PFrame c c' → ∃ x, c'.log = x ++ c.log ∧ ((∀ p, Effect.insideWrite p ∉ x) ∨
      ∃ p, x = [.insideWrite p] ∧ a = .outsideData ∧ deliveredSince c.log = false ∧
      (c.insidePlugins.plugins = 0 → ∀ m, lastMessage c.log = some m → m.head? = some 5 →
        p = field m 3 (if c.verMajor = 1 ∧ c.verMinor = 0 then rdLe (field m 1 2) else num (field m 1 2)))) := by
    rintro c' ⟨l, ps, sl, we, pm, pn, rfl, hl⟩
    exact ⟨l, rfl, .inl (fun p hp => (hl _ hp).fneut)⟩
  cases h with
  | io r => exact hp (ioStep_frame env c r).pFrame
  | probeAck id h hs hm => exact hp (handleProbeAck_frame env c id)
  | probeTimeout h => exact hp (handleProbeTimeout_frame env c)
  | startBase h hs hd => exact hp (startBaseProbing_frame env c)
  | state s hne h => exact ⟨[.state s c.cbs.stateChange], by simp [setState, hne], .inl (by simp)⟩
  | configure ctx h =>
    obtain ⟨x, y, ok, ft, e, _⟩ := configure_shape env c ctx
    exact ⟨[.table ctx.maxFragEntries, .alloc ok, .callbacks ctx.cbs], by rw [e]; rfl, .inl (by simp)⟩
  | insideWrite p h hs hc hv hm hnv hver hone => exact ⟨[.insideWrite p], rfl, .inr ⟨p, rfl, h, hone, hver⟩⟩
  | insideFrag t pkt g en hd tl p h hs hc hv ht hm hg hen hn hlast hb hclk hp hnv hone =>
    refine ⟨[.insideWrite p], rfl, .inr ⟨p, rfl, h, hone, fun _ m h1 h5 => ?_⟩⟩
    rw [hm] at h1
    cases h1
    exact (carried_not_head hg h5 (by decide)).elim
  | quiet e he => exact ⟨[e], rfl, .inl (by cases e <;> simp_all [Quiet])⟩
  | auth e u _ he => exact ⟨[e], rfl, .inl (by cases e <;> simp_all [AuthEff])⟩
  | err | dueOff | sessCfg | sessClient | sessServer | rotate | sessSet | creds
  | mtu | version | pingPending | fragNext | fragNew | fragPut | fragDel => exact ⟨[], rfl, .inl (by simp)⟩
  | _ => exact ⟨[_], rfl, .inl (by simp)⟩

theorem Micro.keepVer {env : Env} {a : Api} {c c' : Conn} (h : Micro env a c c') (ha : a = .outsideData) :
    c'.verMajor = c.verMajor ∧ c'.verMinor = c.verMinor := by
  have hp : ∀ {c' : Conn}, PFrame c c' → c'.verMajor = c.verMajor ∧ c'.verMinor = c.verMinor := by
    rintro c' ⟨l, ps, sl, we, pm, pn, rfl, -⟩; exact ⟨rfl, rfl⟩
  cases h with
  | io r => exact hp (ioStep_frame env c r).pFrame
  | state s hne h => unfold setState; split <;> exact ⟨rfl, rfl⟩
  | configure ctx h => rw [ha] at h; rcases h with h | h <;> cases h
  | version x y h => rw [ha] at h; cases h
  | probeAck id h hs hm => exact hp (handleProbeAck_frame env c id)
  | probeTimeout h => exact hp (handleProbeTimeout_frame env c)
  | startBase h hs hd => exact hp (startBaseProbing_frame env c)
  | _ => exact ⟨rfl, rfl⟩

/-- Where in a list an element is, relative to a cut. -/
theorem cut_cases {α : Type} {a b n o : List α} {e : α} (h : a ++ b = n ++ e :: o) :
    (∃ o', a = n ++ e :: o' ∧ o = o' ++ b) ∨ (∃ n', n = a ++ n' ∧ b = n' ++ e :: o) := by
  rcases List.append_eq_append_iff.mp h with ⟨z, h1, h2⟩ | ⟨z, h1, h2⟩
  · exact .inr ⟨z, h1, h2⟩
  · cases z with
    | nil => exact .inr ⟨[], by simpa using h1.symm, by simpa using h2.symm⟩
    | cons w z =>
      simp only [List.cons_append, List.cons.injEq] at h2
      obtain ⟨rfl, rfl⟩ := h2
      exact .inl ⟨z, h1, rfl⟩

/-- Deliveries made by the steps from `c` to `c'`. -/
theorem Star.newDeliv {env : Env} {a : Api} {c c' : Conn} (h : M env a c c') (hf : FInv c) :
    ∃ x, c'.log = x ++ c.log ∧ FInv c' ∧ (a = .outsideData → c'.verMajor = c.verMajor ∧ c'.verMinor = c.verMinor) ∧
      ∀ n p o, x = n ++ .insideWrite p :: o → a = .outsideData ∧ deliveredSince (o ++ c.log) = false ∧
        (insidePluginsAt (o ++ c.log) = 0 → ∀ m, lastMessage (o ++ c.log) = some m → m.head? = some 5 →
          p = field m 3 (if c.verMajor = 1 ∧ c.verMinor = 0 then rdLe (field m 1 2) else num (field m 1 2))) := by
  induction h with
  | refl => exact ⟨[], rfl, hf, fun _ => ⟨rfl, rfl⟩, by simp⟩
  | @tail c1 c2 _ s ih =>
    obtain ⟨x, hx, hf1, hv1, hd⟩ := ih
    obtain ⟨y, hy, hc⟩ := s.newDeliv
    refine ⟨y ++ x, by rw [hy, hx, List.append_assoc], s.finv hf1, fun ha => ?_, ?_⟩
    · have h1 := hv1 ha
      have h2 := s.keepVer ha
      exact ⟨h2.1.trans h1.1, h2.2.trans h1.2⟩
    · intro n p o he
      rcases cut_cases he with ⟨o', h1, h2⟩ | ⟨n', h1, h2⟩
      · rcases hc with hc | ⟨p', rfl, ha, h3, h4⟩
        · exact absurd (by rw [h1]; simp) (hc p)
        · have : o' = [] ∧ p = p' := by
            cases n with
            | nil => simp at h1; exact ⟨h1.2, h1.1.symm⟩
            | cons z n => simp at h1
          obtain ⟨rfl, rfl⟩ := this
          have e : o ++ c.log = c1.log := by rw [h2, hx]; rfl
          rw [e]
          refine ⟨ha, h3, fun hz => ?_⟩
          rw [hf1.plug] at hz
          rw [← (hv1 ha).1, ← (hv1 ha).2]
          exact h4 hz
      · exact hd n' p o h2

/-- **Deliveries, located.**  Every delivery happens in a receive call; it is the first since the message being
processed arrived; and for a DATA message the packet is the payload, its length read in the byte order of the protocol
version in use. -/
theorem delivery_at (env : Env) (ops : List Op) : ∀ {newer older : Log} {p : Bytes},
    (run env ops).log = newer ++ .insideWrite p :: older →
    deliveredSince older = false ∧ ∃ pre buf rs, (pre ++ [.outsideData buf rs]) <+: ops ∧
      (insidePluginsAt older = 0 → ∀ m, lastMessage older = some m → m.head? = some 5 →
        p = field m 3 (if (run env pre).verMajor = 1 ∧ (run env pre).verMinor = 0 then rdLe (field m 1 2) else num (field m 1 2))) := by
  induction ops using snoc_induct with
  | h0 => intro newer older p h; simp [run, Conn.create] at h
  | h1 ops op ih =>
    intro newer older p h
    obtain ⟨o, hi⟩ := (run_good env ops).inv
    have hs := exec_star env o (run env ops) op hi
    have e2 : (entry (run env ops) op).log = .api op.api :: (run env ops).log := by cases op <;> rfl
    have hfe : FInv (entry (run env ops) op) := by
      refine (run_finv env ops).extend (x := [.api op.api]) e2 (by simp [FNeut]) ?_ ?_ <;> cases op <;> rfl
    obtain ⟨x, hx, -, -, hd⟩ := Star.newDeliv hs hfe
    have hlog : (run env (ops ++ [op])).log =
        (.ret (step env (run env ops) op).2 :: x ++ [.api op.api]) ++ (run env ops).log := by
      rw [run_snoc]
      show .ret _ :: (exec env ((run env ops).emit (.api op.api)) op).1.log = _
      rw [hx, e2]; simp only [List.cons_append, List.append_assoc]; rfl
    rw [hlog] at h
    rcases cut_cases h with ⟨o', h1, h2⟩ | ⟨n', h1, h2⟩
    · cases newer with
      | nil => simp at h1
      | cons z newer =>
        simp only [List.cons_append, List.cons.injEq] at h1
        rcases cut_cases h1.2 with ⟨o2, h3, h4⟩ | ⟨n2, h3, h4⟩
        · obtain ⟨ha, h5, h6⟩ := hd newer p o2 h3
          have e : older = o2 ++ (entry (run env ops) op).log := by rw [h2, h4, e2]; simp
          rw [e]
          refine ⟨h5, ?_⟩
          obtain ⟨buf, rs, rfl⟩ : ∃ buf rs, op = .outsideData buf rs := by
            cases op <;> first | exact ⟨_, _, rfl⟩ | (simp [Op.api] at ha)
          exact ⟨ops, buf, rs, List.prefix_refl _, h6⟩
        · cases n2 with
          | nil => simp at h4
          | cons z n2 => simp at h4
    · obtain ⟨h3, pre, buf, rs, h4, h5⟩ := ih h2
      exact ⟨h3, pre, buf, rs, prefix_snoc h4 _, h5⟩

/-! ### Received messages and their numbers -/

theorem lastMessage_split {l : Log} {m : Bytes} (h : lastMessage l = some m) :
    ∃ n o, l = n ++ .message m :: o ∧ (∀ k, Effect.message k ∉ n) ∧ ∀ k, Effect.api k ∉ n := by
  induction l with
  | nil => cases h
  | cons e l ih =>
    have key : lastMessage l = some m → (∀ k, e ≠ .message k) → (∀ k, e ≠ .api k) →
        ∃ n o, e :: l = n ++ .message m :: o ∧ (∀ k, Effect.message k ∉ n) ∧ ∀ k, Effect.api k ∉ n := by
      intro h h1 h2
      obtain ⟨n, o, rfl, h3, h4⟩ := ih h
      refine ⟨e :: n, o, rfl, ?_, ?_⟩
      · intro k hk
        rcases List.mem_cons.mp hk with hk | hk
        · exact h1 k hk.symm
        · exact h3 k hk
      · intro k hk
        rcases List.mem_cons.mp hk with hk | hk
        · exact h2 k hk.symm
        · exact h4 k hk
    cases e with
    | message m' =>
      simp only [lastMessage, Option.some.injEq] at h
      subst h
      exact ⟨[], l, rfl, by simp, by simp⟩
    | api a => cases h
    | _ => exact key h (by simp) (by simp)

theorem messages_nil {n : Log} (h : ∀ k, Effect.message k ∉ n) : messages n = [] := by
  induction n with
  | nil => rfl
  | cons e n ih =>
    have := ih (fun k hk => h k (by simp [hk]))
    cases e with
    | message m => exact absurd (by simp) (h m)
    | _ => exact this

theorem messages_at (n o : Log) (m : Bytes) : (messages (n ++ .message m :: o))[(messages o).length]? = some m := by
  rw [messages_append]
  show ((messages o ++ [m]) ++ messages n)[_]? = _
  simp

/-- A message is found at one place only. -/
theorem split_unique {n n' o o' : Log} {m m' : Bytes} (h : n ++ .message m :: o = n' ++ .message m' :: o')
    (hi : (messages o).length = (messages o').length) : n = n' ∧ m = m' ∧ o = o' := by
  rcases cut_cases (b := .message m :: o) h with ⟨z, h1, h2⟩ | ⟨z, h1, h2⟩
  · exfalso
    have := congrArg (fun l => (messages l).length) h2
    simp only [messages_append, messages, List.length_append, List.length_cons, List.length_nil] at this
    omega
  · cases z with
    | nil =>
      simp only [List.nil_append, List.cons.injEq, Effect.message.injEq] at h2
      exact ⟨by simpa using h1.symm, h2.1, h2.2⟩
    | cons w z =>
      exfalso
      simp only [List.cons_append, List.cons.injEq] at h2
      have := congrArg (fun l => (messages l).length) h2.2
      simp only [messages_append, messages, List.length_append, List.length_cons, List.length_nil] at this
      omega

theorem deliveredSince_skip {n : Log} (h1 : ∀ k, Effect.message k ∉ n) (h2 : ∀ k, Effect.api k ∉ n) (p : Bytes) (o : Log) :
    deliveredSince (n ++ .insideWrite p :: o) = true := by
  induction n with
  | nil => rfl
  | cons e n ih =>
    have := ih (fun k hk => h1 k (by simp [hk])) (fun k hk => h2 k (by simp [hk]))
    cases e with
    | message m => exact absurd (by simp) (h1 m)
    | api a => exact absurd (by simp) (h2 a)
    | insideWrite q => rfl
    | _ => exact this

theorem tableAt_skip {n : Log} (h : ∀ k, Effect.table k ∉ n) (l : Log) : tableAt (n ++ l) = tableAt l := by
  induction n with
  | nil => rfl
  | cons e n ih =>
    have := ih (fun k hk => h k (by simp [hk]))
    cases e with
    | table m => exact absurd (by simp) (h m)
    | _ => exact this

/-! ### The payload of a DATA message -/

theorem dataMsg_payload (c : Conn) (q : Bytes) (hq : q.length + 3 ≤ 1500) (b : Prop) [Decidable b]
    (hb : b ↔ (c.verMajor = 1 ∧ c.verMinor = 0)) :
    field (dataMsg c q) 3 (if b then rdLe (field (dataMsg c q) 1 2) else num (field (dataMsg c q) 1 2)) = q := by
  have h1 : field (dataMsg c q) 1 2 = (if c.verMajor = 1 ∧ c.verMinor = 0 then le16 q.length else be16 q.length) := by
    unfold dataMsg field
    split <;> simp [le16, be16]
  have h2 : ∀ k, field (dataMsg c q) 3 k = (q ++ zeros (dataPacketLength c.padding q.length - q.length)).take k := by
    intro k
    unfold dataMsg field
    split <;> simp [le16, be16]
  have h3 : (if b then rdLe (field (dataMsg c q) 1 2) else num (field (dataMsg c q) 1 2)) = q.length := by
    rw [h1]
    by_cases hv : c.verMajor = 1 ∧ c.verMinor = 0
    · rw [if_pos (hb.mpr hv), if_pos hv, ← rdLe16_rdLe (by simp [le16]), rdLe16_le16 (by omega)]
    · rw [if_neg (fun h => hv (hb.mp h)), if_neg hv, num_be16 (by omega)]
  rw [h3, h2]
  simp

/-- What is carried is what was put in. -/
theorem carried_eq {m : Bytes} {f g : Fragment} (h : decodeFrag m = some f) (hc : carried m = some g) : g = f := by
  unfold decodeFrag at h
  unfold carried at hc
  split at h
  · rename_i h1
    split at hc
    · cases h; cases hc
      congr 1
      show (m.drop 7).take (num (field m 1 2)) = m.drop 7
      rw [List.take_of_length_le (by rw [List.length_drop]; omega)]
    · cases hc
  · cases h

theorem mod_near {a b n : Nat} (h : a % n = b % n) (h1 : a < b + n) (h2 : b < a + n) : a = b := by
  have k1 := Nat.sub_mod_eq_zero_of_mod_eq h
  have k2 := Nat.sub_mod_eq_zero_of_mod_eq h.symm
  rw [Nat.mod_eq_of_lt (by omega)] at k1 k2
  omega

theorem serial_le (W : List Bytes) (k : Nat) : serial W k ≤ W.countP opens := by
  unfold serial
  exact List.Sublist.countP_le (List.take_sublist _ _)

/-- Two fragments in one slot belong to the same packet. -/
theorem same_serial {W : List Bytes} {l : Log} {org : Nat → Nat} {i j : Nat} {t now : Int} (hT : ToldApart W l org)
    (hr : ReadAt l i t) (hnow : lastClock l = some now) (hle : ClockMonotone l → now - t ≤ 64)
    (hj : j + 1 = (messages l).length) (h1 : 0 < serial W (org i)) (h2 : 0 < serial W (org j))
    (hs : (serial W (org i) - 1) % 65536 % tableSize l = (serial W (org j) - 1) % 65536 % tableSize l) :
    serial W (org i) = serial W (org j) := by
  have l1 := serial_le W (org i)
  have l2 := serial_le W (org j)
  have hmod : (serial W (org i) - 1) % tableSize l = (serial W (org j) - 1) % tableSize l := by
    rcases hT.1 with h | h
    · rw [Nat.mod_mod_of_dvd _ h, Nat.mod_mod_of_dvd _ h] at hs; exact hs
    · rw [Nat.mod_eq_of_lt (show serial W (org i) - 1 < 65536 by omega),
        Nat.mod_eq_of_lt (show serial W (org j) - 1 < 65536 by omega)] at hs
      exact hs
  have hnear : serial W (org i) < serial W (org j) + tableSize l ∧ serial W (org j) < serial W (org i) + tableSize l := by
    rcases hT.2 with h | ⟨hm, hw⟩
    · omega
    · exact hw i j t now hr hnow (hle hm) hj
  have := mod_near hmod (by omega) (by omega)
  omega

end Lightway
