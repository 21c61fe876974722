import Verif.Model.Msg
import Verif.Spec.History

/-!
# C strings and message fields
-/

namespace Lightway
open Spec

theorem num_rdBe16 {bs : Bytes} (h : bs.length = 2) : num bs = rdBe16 bs := by
  match bs, h with
  | [a, b], _ => simp [num, rdBe16]

theorem rdLe16_rdLe {bs : Bytes} (h : bs.length = 2) : rdLe16 bs = rdLe bs := by
  match bs, h with
  | [a, b], _ => simp [rdLe16, rdLe]; omega

theorem field_length {pkt : Bytes} {off len : Nat} (h : off + len ≤ pkt.length) :
    (field pkt off len).length = len := by simp [field]; omega

theorem cstr_nil : cstr [] = [] := rfl

theorem cstr_zero (bs : Bytes) : cstr (0 :: bs) = [] := by simp [cstr]

theorem cstr_cons {b : UInt8} (bs : Bytes) (h : b ≠ 0) : cstr (b :: bs) = b :: cstr bs := by
  simp [cstr, h]

theorem cstr_set (bs : Bytes) (i : Nat) (h : i < bs.length) :
    cstr (bs.set i 0) = (cstr bs).take i := by
  induction bs generalizing i with
  | nil => simp at h
  | cons b bs ih =>
    cases i with
    | zero => simp [cstr_zero]
    | succ i =>
      by_cases hb : b = 0
      · simp [hb, cstr_zero]
      · simp [cstr_cons _ hb, ih i (by simpa using h)]

theorem cstr_take (bs : Bytes) (n : Nat) : cstr (bs.take n) = (cstr bs).take n := by
  induction bs generalizing n with
  | nil => simp [cstr_nil]
  | cons b bs ih =>
    cases n with
    | zero => simp [cstr_nil]
    | succ n =>
      by_cases hb : b = 0
      · simp [hb, cstr_zero]
      · simp [cstr_cons _ hb, ih]

theorem cstr_append_zeros (bs : Bytes) (k : Nat) : cstr (bs ++ zeros k) = cstr bs := by
  induction bs with
  | nil => cases k <;> simp [cstr, zeros, List.replicate_succ]
  | cons b bs ih =>
    by_cases hb : b = 0
    · simp [hb, cstr_zero]
    · simp [cstr_cons _ hb, ih]

theorem cstr_nonzero (bs : Bytes) : ∀ b ∈ cstr bs, b ≠ 0 := by
  induction bs with
  | nil => simp [cstr]
  | cons a bs ih =>
    by_cases ha : a = 0
    · simp [ha, cstr_zero]
    · rw [cstr_cons _ ha]
      simp only [List.mem_cons]
      rintro b (rfl | hb)
      · exact ha
      · exact ih b hb

theorem cstr_of_nonzero {bs : Bytes} (h : ∀ b ∈ bs, b ≠ 0) : cstr bs = bs := by
  induction bs with
  | nil => rfl
  | cons a bs ih => rw [cstr_cons _ (h a (by simp)), ih (fun b hb => h b (by simp [hb]))]

theorem cstr_cstr (bs : Bytes) : cstr (cstr bs) = cstr bs := cstr_of_nonzero (cstr_nonzero bs)

theorem cstr_strncpy_zeros (src : Bytes) (n : Nat) : cstr (strncpy (zeros n) src n) = (cstr src).take n := by
  simp only [strncpy, zeros, List.drop_replicate, Nat.sub_self, List.replicate_zero, List.append_nil]
  rw [show List.replicate (n - (List.take n (cstr src)).length) (0 : UInt8) = zeros _ from rfl,
    cstr_append_zeros, cstr_take, cstr_cstr]

theorem cstr_copyIpField (s : Bytes) : cstr (copyIpField s) = (cstr s).take 23 := by
  have hl : (strncpy (zeros 24) s 24).length = 24 := by
    rw [strncpy_length _ _ _ (by simp)]; simp
  rw [copyIpField, setNul, cstr_set _ _ (by omega), cstr_strncpy_zeros, List.take_take]
  rfl

theorem decValue_eq (d : Bytes) : decValue d = decimal d := rfl

theorem isSpace_iff (b : UInt8) : isSpace b = true ↔ b ∈ ([9, 10, 11, 12, 13, 32] : Bytes) := by
  simp only [isSpace, Bool.or_eq_true, decide_eq_true_eq, Bool.and_eq_true, List.mem_cons, List.not_mem_nil, or_false, ← UInt8.toNat_inj]
  simp
  omega

theorem isDigit_iff (b : UInt8) : isDigit b = true ↔ (48 ≤ b.toNat ∧ b.toNat ≤ 57) := by
  simp [isDigit]

theorem digit_not_space {b : UInt8} (h : 48 ≤ b.toNat ∧ b.toNat ≤ 57) : isSpace b = false := by
  have h1 : b ≠ 32 := by intro e; rw [e] at h; simp at h
  simp [isSpace, h1]; omega

theorem dropWhile_append_of {p : UInt8 → Bool} {a l : Bytes} (ha : ∀ b ∈ a, p b = true) (hl : ∀ b, l.head? = some b → p b = false) :
    (a ++ l).dropWhile p = l := by
  induction a with
  | nil =>
    cases l with
    | nil => rfl
    | cons x t => rw [List.nil_append, List.dropWhile_cons_of_neg (by rw [hl x rfl]; exact fun e => nomatch e)]
  | cons x a ih =>
    rw [List.cons_append, List.dropWhile_cons_of_pos (ha x (by simp))]
    exact ih (fun b hb => ha b (by simp [hb]))

theorem takeWhile_append_of {p : UInt8 → Bool} {a l : Bytes} (ha : ∀ b ∈ a, p b = true) (hl : ∀ b, l.head? = some b → p b = false) :
    (a ++ l).takeWhile p = a := by
  induction a with
  | nil =>
    cases l with
    | nil => rfl
    | cons x t => rw [List.nil_append, List.takeWhile_cons_of_neg (by rw [hl x rfl]; exact fun e => nomatch e)]
  | cons x a ih =>
    rw [List.cons_append, List.takeWhile_cons_of_pos (ha x (by simp)), ih (fun b hb => ha b (by simp [hb]))]

theorem head_dropWhile (p : UInt8 → Bool) (l : Bytes) : ∀ b, (l.dropWhile p).head? = some b → p b = false := by
  induction l with
  | nil => intro b h; cases h
  | cons x t ih =>
    intro b h
    by_cases hx : p x = true
    · rw [List.dropWhile_cons_of_pos hx] at h; exact ih b h
    · rw [List.dropWhile_cons_of_neg hx] at h
      cases h; simpa using hx

theorem mem_takeWhile (p : UInt8 → Bool) (l : Bytes) : ∀ b ∈ l.takeWhile p, p b = true := by
  induction l with
  | nil => intro b h; cases h
  | cons x t ih =>
    intro b h
    by_cases hx : p x = true
    · rw [List.takeWhile_cons_of_pos hx] at h
      rcases List.mem_cons.mp h with e | e
      · rw [e]; exact hx
      · exact ih b e
    · rw [List.takeWhile_cons_of_neg hx] at h; cases h

/-- The three stages of reading a number. -/
theorem scan_stages {text d : Bytes} {neg : Bool} (h : ReadsNumber text neg d) :
    splitSign (text.dropWhile isSpace) = (neg, (splitSign (text.dropWhile isSpace)).2) ∧
      (splitSign (text.dropWhile isSpace)).2.takeWhile isDigit = d := by
  obtain ⟨white, sign, rest, ht, hw, hs, hne, hd, hr⟩ := h
  cases d with
  | nil => exact absurd rfl hne
  | cons x t =>
    have hx := hd x (by simp)
    have hsp := digit_not_space hx
    have e1 : text.dropWhile isSpace = sign ++ (x :: t ++ rest) := by
      rw [ht]
      refine dropWhile_append_of (fun b hb => (isSpace_iff b).mpr (hw b hb)) (fun b hb => ?_)
      rcases hs with ⟨e, -⟩ | ⟨e, -⟩ | ⟨e, -⟩ <;> subst e <;> cases hb
      · exact hsp
      · rfl
      · rfl
    have e2 : splitSign (sign ++ (x :: t ++ rest)) = (neg, x :: t ++ rest) := by
      rcases hs with ⟨e, e'⟩ | ⟨e, e'⟩ | ⟨e, e'⟩ <;> subst e e'
      · have h1 : x ≠ 45 := by intro h; rw [h] at hx; simp at hx
        have h2 : x ≠ 43 := by intro h; rw [h] at hx; simp at hx
        simp [splitSign, h1, h2]
      · rfl
      · rfl
    rw [e1, e2]
    refine ⟨rfl, takeWhile_append_of (fun b hb => (isDigit_iff b).mpr (hd b hb)) (fun b hb => ?_)⟩
    have := hr b hb
    rw [← isDigit_iff] at this
    simpa using this

/-- Where digits are found, a number is read. -/
theorem scan_reads {text : Bytes} (h : (splitSign (text.dropWhile isSpace)).2.takeWhile isDigit ≠ []) :
    ReadsNumber text (splitSign (text.dropWhile isSpace)).1 ((splitSign (text.dropWhile isSpace)).2.takeWhile isDigit) := by
  have hs : ∃ sign, text.dropWhile isSpace = sign ++ (splitSign (text.dropWhile isSpace)).2 ∧
      (sign = [] ∧ (splitSign (text.dropWhile isSpace)).1 = false ∨ sign = [43] ∧ (splitSign (text.dropWhile isSpace)).1 = false ∨
        sign = [45] ∧ (splitSign (text.dropWhile isSpace)).1 = true) := by
    cases text.dropWhile isSpace with
    | nil => exact ⟨[], rfl, Or.inl ⟨rfl, rfl⟩⟩
    | cons b t =>
      by_cases h1 : b = 45
      · subst h1; exact ⟨[45], rfl, Or.inr (Or.inr ⟨rfl, rfl⟩)⟩
      · by_cases h2 : b = 43
        · subst h2; exact ⟨[43], rfl, Or.inr (Or.inl ⟨rfl, rfl⟩)⟩
        · have e : splitSign (b :: t) = (false, b :: t) := by simp only [splitSign]; rw [if_neg h1, if_neg h2]
          rw [e]; exact ⟨[], rfl, Or.inl ⟨rfl, rfl⟩⟩
  obtain ⟨sign, e, hsign⟩ := hs
  refine ⟨text.takeWhile isSpace, sign, (splitSign (text.dropWhile isSpace)).2.dropWhile isDigit, ?_,
    fun b hb => (isSpace_iff b).mp (mem_takeWhile _ _ b hb), hsign, h, fun b hb => (isDigit_iff b).mp (mem_takeWhile _ _ b hb),
    fun b hb => ?_⟩
  · rw [List.takeWhile_append_dropWhile, ← e, List.takeWhile_append_dropWhile]
  · rw [← isDigit_iff, head_dropWhile _ _ b hb]; exact fun e => nomatch e

theorem configMtu_reads (s : Bytes) : MtuOf (cstr s) (configMtu s) := by
  constructor
  · intro neg d h
    obtain ⟨h1, h2⟩ := scan_stages h
    obtain ⟨-, -, -, -, -, -, hne, -⟩ := h
    have hi : d.isEmpty = false := by simpa using hne
    unfold configMtu scanU
    dsimp only
    rw [h1]
    simp only [h2, hi, Bool.false_eq_true, if_false, decValue_eq]
    have e : (if decimal d ≥ 2 ^ 64 then 2 ^ 64 - 1 else if neg = true then (2 ^ 64 - decimal d) % 2 ^ 64 else decimal d) % 4294967296 =
        low32 neg (decimal d) := by
      unfold low32
      cases neg with
      | true =>
        rw [if_pos rfl, if_pos rfl]
        split
        · rfl
        · omega
      | false => rfl
    rw [e]
    have hlt : low32 neg (decimal d) < 2 ^ 32 := Nat.mod_lt _ (by decide)
    generalize low32 neg (decimal d) = w at hlt ⊢
    simp only [maxMtu]
    split <;> split <;> split <;> omega
  · intro h
    unfold configMtu scanU
    have : ((splitSign ((cstr s).dropWhile isSpace)).2.takeWhile isDigit) = [] :=
      Classical.byContradiction fun hn => h _ _ (scan_reads hn)
    simp only [this, List.isEmpty_nil, if_true]
    rfl

theorem cfgOf_msg (pkt : Bytes) (hl : 105 ≤ pkt.length) : CfgOf pkt
    (NetCfg.mk (copyIpField (List.take 24 (List.drop 1 pkt)))
          (copyIpField (List.take 24 (List.drop 25 pkt))) (copyIpField (List.take 24 (List.drop 49 pkt)))
          (configMtu (setNul (List.take 24 (List.drop 73 pkt)) 23))) := by
  refine ⟨cstr_copyIpField _, cstr_copyIpField _, cstr_copyIpField _, ?_⟩
  have e : cstr (setNul (List.take 24 (List.drop 73 pkt)) 23) = cstr (field pkt 73 23) := by
    rw [setNul, cstr_set _ _ (by simp; omega), ← cstr_take, List.take_take]; rfl
  rw [← e]; exact configMtu_reads _

end Lightway
