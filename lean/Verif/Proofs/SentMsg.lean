import Verif.Proofs.Micro

/-!
# Shapes of the outgoing messages
-/

namespace Lightway
open Spec

theorem strnlen_le (bs : Bytes) (n : Nat) : strnlen bs n ≤ n ∧ strnlen bs n ≤ bs.length := by
  unfold strnlen cstr
  have h := List.Sublist.length_le (List.takeWhile_sublist (l := bs.take n) (fun b => decide (b ≠ 0)))
  rw [List.length_take] at h
  omega

theorem authUserPassMsg_shape (c : Conn) : (authUserPassMsg c).length = 104 ∧
    (authUserPassMsg c).head? = some 4 ∧ (authUserPassMsg c)[1]? = some 1 := by
  have h1 := strnlen_le c.username 50
  have h2 := strnlen_le c.password 50
  refine ⟨?_, rfl, rfl⟩
  simp only [authUserPassMsg, List.length_append, List.length_cons, List.length_nil, List.length_take, zeros,
    List.length_replicate]
  omega

theorem num_be16 {n : Nat} (h : n < 65536) : num (be16 n) = n := by
  simp only [num, be16, List.foldl, UInt8.toNat_ofNat']
  omega

theorem authBufMsg_shape (ty : UInt8) {buf : Bytes} (h : buf.length < 65536) :
    (authBufMsg ty buf).length = 4 + buf.length ∧ (authBufMsg ty buf).head? = some 4 ∧
    (authBufMsg ty buf)[1]? = some ty ∧ num (field (authBufMsg ty buf) 2 2) = buf.length := by
  refine ⟨by simp [authBufMsg, be16]; omega, rfl, rfl, ?_⟩
  have : field (authBufMsg ty buf) 2 2 = be16 buf.length := rfl
  rw [this, num_be16 h]

theorem fragMsg_shape (id off : Nat) (mf : Bool) {d : Bytes} (h : d.length + 7 ≤ 1500) :
    (fragMsg id off mf d).length ≤ 1500 ∧ (fragMsg id off mf d).head? = some 15 ∧
    (decodeFrag (fragMsg id off mf d)).isSome = true := by
  have hl : (fragMsg id off mf d).length = 7 + d.length := by simp [fragMsg, be16]; omega
  refine ⟨by omega, rfl, ?_⟩
  have e1 : field (fragMsg id off mf d) 1 2 = be16 d.length := rfl
  unfold decodeFrag
  rw [e1, num_be16 (by omega), if_pos ⟨rfl, by omega, hl⟩]
  rfl

theorem dataMsg_shape (c : Conn) {p : Bytes} (h : p.length + 3 ≤ 1500) :
    (dataMsg c p).length ≤ 1500 ∧ (dataMsg c p).head? = some 5 ∧
    ∃ n, (n = num (field (dataMsg c p) 1 2) ∨ n = numLe (field (dataMsg c p) 1 2)) ∧
      3 + n ≤ (dataMsg c p).length ∧ ∀ b ∈ (dataMsg c p).drop (3 + n), b = 0 := by
  have key : ∀ lf : Bytes, lf.length = 2 → (num lf = p.length ∨ numLe lf = p.length) →
      ∀ z, 3 + p.length + z ≤ 1500 → let m := [msgData] ++ lf ++ p ++ zeros z
      m.length ≤ 1500 ∧ m.head? = some 5 ∧ ∃ n, (n = num (field m 1 2) ∨ n = numLe (field m 1 2)) ∧
      3 + n ≤ m.length ∧ ∀ b ∈ m.drop (3 + n), b = 0 := by
    intro lf hlf hn z hz
    match lf, hlf with
    | [x, y], _ =>
      refine ⟨by simp [zeros]; omega, rfl, p.length, ?_, by simp [zeros]; omega, ?_⟩
      · have e : field ([msgData] ++ [x, y] ++ p ++ zeros z) 1 2 = [x, y] := rfl
        rw [e]; rcases hn with h | h
        · exact .inl h.symm
        · exact .inr h.symm
      · intro b hb
        have e : ([msgData] ++ [x, y] ++ p ++ zeros z).drop (3 + p.length) = zeros z := by
          rw [List.drop_append_of_le_length (by simp; omega), List.drop_of_length_le (by simp; omega)]; rfl
        rw [e] at hb
        exact (List.mem_replicate.mp hb).2
  have hp : p.length ≤ 1497 := by omega
  have hd : dataPacketLength c.padding p.length ≤ 1497 := by
    unfold dataPacketLength
    generalize p.length = k at hp ⊢
    by_cases hk : k ≥ maxMtu
    · rw [if_pos hk]; exact hp
    · rw [if_neg hk]
      simp only [maxMtu] at hk ⊢
      split
      · exact hp
      · omega
      · split
        · omega
        · split <;> omega
  unfold dataMsg
  split
  · refine key _ rfl (.inr ?_) _ (by omega)
    simp only [le16, numLe, UInt8.toNat_ofNat']
    omega
  · exact key _ rfl (.inl (num_be16 (by omega))) _ (by omega)

theorem serverConfigMsg_shape {b : Bytes} (h : b.length ≤ 1347) : (serverConfigMsg b).length ≤ 1500 ∧
    (serverConfigMsg b).head? = some 14 ∧
    (serverConfigMsg b).length = 3 + num (field (serverConfigMsg b) 1 2) := by
  have e : field (serverConfigMsg b) 1 2 = be16 b.length := rfl
  have hl : (serverConfigMsg b).length = 3 + b.length := by simp [serverConfigMsg, be16]; omega
  rw [e, num_be16 (by omega)]
  exact ⟨by omega, rfl, hl⟩

theorem copyIpField_length (s : Bytes) : (copyIpField s).length = 24 := by
  unfold copyIpField setNul strncpy
  simp only [List.length_set, List.length_append, List.length_drop, zeros, List.length_replicate, List.length_take]
  omega

theorem configIpv4Msg_shape (s : Nat) (cfg : NetCfg) : (configIpv4Msg s cfg).length = 105 ∧
    (configIpv4Msg s cfg).head? = some 6 := by
  refine ⟨?_, rfl⟩
  simp only [configIpv4Msg, List.length_append, copyIpField_length, List.length_cons, List.length_nil, zeros,
    List.length_replicate, le64, leN]

theorem configIpv4Msg_session (s : Nat) (cfg : NetCfg) : field (configIpv4Msg s cfg) 97 8 = le64 s := by
  unfold configIpv4Msg field
  have hl : ([msgConfigIpv4] ++ copyIpField cfg.localIp ++ copyIpField cfg.peerIp ++ copyIpField cfg.dnsIp ++
    ([49, 51, 53, 48] ++ zeros 20)).length = 97 := by
    simp only [List.length_append, copyIpField_length, List.length_cons, List.length_nil, zeros, List.length_replicate]
  rw [List.drop_left' hl]
  rfl

theorem pingMsg_shape (id : Nat) : (pingMsg id).length = 5 ∧ (pingMsg id).head? = some 2 ∧
    num (field (pingMsg id) 3 2) = 0 ∧ (pingMsg id).drop 5 = [] := ⟨rfl, rfl, rfl, rfl⟩

theorem probeMsg_shape (id : Nat) {mtu : Nat} (h : 512 ≤ mtu) (h2 : mtu ≤ 1416) :
    (probeMsg id mtu).length = mtu + 3 ∧ (probeMsg id mtu).head? = some 2 ∧
    num (field (probeMsg id mtu) 3 2) = mtu + 3 - 5 ∧ field (probeMsg id mtu) 1 2 = be16 id ∧
    (∀ b ∈ (probeMsg id mtu).drop 5, b = 0) := by
  have e : field (probeMsg id mtu) 3 2 = be16 (mtu + 3 - 5) := rfl
  have e2 : (probeMsg id mtu).drop 5 = zeros (mtu + 3 - 5) := rfl
  refine ⟨by simp [probeMsg, be16, zeros]; omega, rfl, by rw [e, num_be16 (by omega)], rfl, ?_⟩
  rw [e2]; intro b hb; exact (List.mem_replicate.mp hb).2

end Lightway
