import Verif.Props.Trace2

/-!
# C122: the MTU read from the text in the network configuration
-/

namespace Lightway
open Spec

/-- A text is read as at most one number. -/
theorem reads_unique {text d d' : Bytes} {neg neg' : Bool} (h : ReadsNumber text neg d) (h' : ReadsNumber text neg' d') :
    neg = neg' ∧ d = d' := by
  obtain ⟨a, b⟩ := scan_stages h
  obtain ⟨a', b'⟩ := scan_stages h'
  refine ⟨?_, b.symm.trans b'⟩
  have := a.symm.trans a'
  exact congrArg Prod.fst this

/-- A text announces exactly one MTU. -/
theorem C122_one_mtu (text : Bytes) : ∃ m, MtuOf text m ∧ ∀ m', MtuOf text m' → m' = m := by
  by_cases h : ∃ neg d, ReadsNumber text neg d
  · obtain ⟨neg, d, hr⟩ := h
    refine ⟨_, ⟨fun neg' d' hr' => ?_, fun hn => absurd hr (hn neg d)⟩, fun m' h' => h'.1 neg d hr⟩
    obtain ⟨rfl, rfl⟩ := reads_unique hr hr'
    rfl
  · have hn : ∀ neg d, ¬ReadsNumber text neg d := fun neg d hr => h ⟨neg, d, hr⟩
    exact ⟨1350, ⟨fun neg d hr => absurd hr (hn neg d), fun _ => rfl⟩, fun m' h' => h'.2 hn⟩

/-- C122: the MTU the host is given with a configuration is the one its text announces, for every text a server may send: there is
a CONFIG_IPV4 message just received, and the MTU is read from its first 23 characters. -/
theorem C122_mtu_of_text {env : Env} {ops : List Op} {newer older : Log} {cfg : NetCfg} {rc : RC}
    (h : (run env ops).log = newer ++ .netConfig cfg rc :: older) :
    ∃ n pkt rest, older = .state .configuring n :: .message pkt :: rest ∧ IsConfigMsg pkt ∧
      MtuOf (cstr (field pkt 73 23)) cfg.mtu := by
  obtain ⟨-, n, pkt, rest, h1, h2, -, -, -, h3⟩ := C50_config_sane h
  exact ⟨n, pkt, rest, h1, h2, h3⟩

/-- C122: a plain decimal number in range is taken as it is. -/
theorem C122_plain {text : Bytes} {m : Nat} (h : MtuOf text m) (hne : text ≠ []) (hd : ∀ b ∈ text, 48 ≤ b.toNat ∧ b.toNat ≤ 57)
    (h1 : 1 ≤ decimal text) (h2 : decimal text ≤ 1350) : m = decimal text := by
  have := h.1 false text ⟨[], [], [], by simp, fun b hb => (List.not_mem_nil hb).elim, Or.inl ⟨rfl, rfl⟩, hne, hd, fun b hb => nomatch hb⟩
  have e : low32 false (decimal text) = decimal text := by
    show (if 2 ^ 64 ≤ decimal text then 2 ^ 64 - 1 else if false = true then 2 ^ 64 - decimal text else decimal text) % 2 ^ 32 = _
    rw [if_neg (by omega), if_neg (by decide)]
    omega
  rw [e, if_pos ⟨h1, h2⟩] at this
  exact this

/-- C122: a number from 1351 to 2^32 is replaced by 1350. -/
theorem C122_too_large {text : Bytes} {m : Nat} (h : MtuOf text m) (hne : text ≠ []) (hd : ∀ b ∈ text, 48 ≤ b.toNat ∧ b.toNat ≤ 57)
    (h1 : 1350 < decimal text) (h2 : decimal text ≤ 2 ^ 32) : m = 1350 := by
  have := h.1 false text ⟨[], [], [], by simp, fun b hb => (List.not_mem_nil hb).elim, Or.inl ⟨rfl, rfl⟩, hne, hd, fun b hb => nomatch hb⟩
  rw [this]
  have e : low32 false (decimal text) = decimal text % 2 ^ 32 := by
    show (if 2 ^ 64 ≤ decimal text then 2 ^ 64 - 1 else if false = true then 2 ^ 64 - decimal text else decimal text) % 2 ^ 32 = _
    rw [if_neg (by omega), if_neg (by decide)]
  rw [e]
  split <;> omega

/-- C122: a text that does not begin with a number gives 1350. -/
theorem C122_no_number {text : Bytes} {m : Nat} (h : MtuOf text m)
    (hb : ∀ b ∈ text.head?, ¬(48 ≤ b.toNat ∧ b.toNat ≤ 57) ∧ b ∉ [9, 10, 11, 12, 13, 32, 43, 45]) : m = 1350 := by
  refine h.2 fun neg d hr => ?_
  obtain ⟨white, sign, rest, ht, hw, hs, hne, hd, -⟩ := hr
  cases white with
  | cons x t =>
    exact (hb x (by rw [ht]; rfl)).2 (List.mem_append_left [43, 45] (hw x (by simp)))
  | nil =>
    rcases hs with ⟨rfl, -⟩ | ⟨rfl, -⟩ | ⟨rfl, -⟩
    · cases d with
      | nil => exact hne rfl
      | cons x t => exact (hb x (by rw [ht]; rfl)).1 (hd x (by simp))
    · exact (hb 43 (by rw [ht]; rfl)).2 (by simp)
    · exact (hb 45 (by rw [ht]; rfl)).2 (by simp)

/-- C122, surprise: the upper half of the number is lost: "4294968296" is 2^32 + 1000, which is far out of range and is taken for 1000. -/
theorem C122_wraps {m : Nat} (h : MtuOf [52, 50, 57, 52, 57, 54, 56, 50, 57, 54] m) : m = 1000 := by
  have := h.1 false [52, 50, 57, 52, 57, 54, 56, 50, 57, 54] ⟨[], [], [], rfl, fun b hb => (List.not_mem_nil hb).elim,
    Or.inl ⟨rfl, rfl⟩, by decide, by decide, fun b hb => nomatch hb⟩
  exact this

/-- C122, surprise: a negative number can be taken for an MTU: "-4294966296" for 1000. -/
theorem C122_negative {m : Nat} (h : MtuOf [45, 52, 50, 57, 52, 57, 54, 54, 50, 57, 54] m) : m = 1000 := by
  have := h.1 true [52, 50, 57, 52, 57, 54, 54, 50, 57, 54] ⟨[], [45], [], rfl, fun b hb => (List.not_mem_nil hb).elim,
    Or.inr (Or.inr ⟨rfl, rfl⟩), by decide, by decide, fun b hb => nomatch hb⟩
  exact this

/-- "1300", " \t+042x" and "" are read as 1300, as 42 and as no number. -/
example : MtuOf [49, 51, 48, 48] 1300 ∧ MtuOf [32, 9, 43, 48, 52, 50, 120] 42 ∧ MtuOf [] 1350 :=
  ⟨configMtu_reads [49, 51, 48, 48], configMtu_reads [32, 9, 43, 48, 52, 50, 120], configMtu_reads []⟩

/-- The demonstration client is given the MTU its server announces. -/
example : Demo.occurs (fun e _ => match e with | .netConfig cfg _ => cfg.mtu == 1350 | _ => false)
    (run Demo.env Demo.clientOps).log = true := by decide +kernel

end Lightway
