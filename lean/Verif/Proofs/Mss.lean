import Verif.Model.Network

/-!
# MSS clamping stays inside the packet
-/

namespace Lightway

theorem rd_one {pkt : Bytes} {i : Nat} (h : i < pkt.length) : rd pkt i 1 = some [pkt[i]] := by
  rw [rd_isSome (by omega), List.drop_eq_getElem_cons h]; simp only [List.take_succ_cons, List.take_zero]

theorem rd_two {pkt : Bytes} {i : Nat} (h : i + 1 < pkt.length) :
    rd pkt i 2 = some [pkt[i], pkt[i + 1]] := by
  rw [rd_isSome (by omega), List.drop_eq_getElem_cons (by omega),
    List.drop_eq_getElem_cons (by omega)]; simp only [List.take_succ_cons, List.take_zero]

theorem wr_isSome {bs src : Bytes} {off : Nat} (h : off + src.length ≤ bs.length) :
    wr bs off src = some (bs.take off ++ src ++ bs.drop (off + src.length)) := by
  simp [wr, h]

/-- The single-word incremental checksum never overflows. -/
theorem diffChecksum_one (ck n o : Nat) (h1 : ck < 65536) (h2 : n < 65536) (h3 : o < 65536) :
    diffChecksum ck [n] [o] = some (ckFold ((ck : Int) - n + o)) := by
  simp only [diffChecksum, ckAccumulate]
  rw [if_neg (by omega)]
  simp only
  rw [if_neg (by omega)]

theorem ckFold_lt (acc : Int) : ckFold acc < 65536 := by
  unfold ckFold; simp only; split <;> omega

theorem clampLoop_isSome (pkt : Bytes) (mss tcpPos pos optLen : Nat)
    (h1 : pos + optLen ≤ pkt.length) (h2 : tcpPos + 18 ≤ pkt.length) :
    (clampLoop pkt mss tcpPos pos optLen).isSome = true := by
  induction optLen using Nat.strongRecOn generalizing pos with
  | _ optLen ih =>
  unfold clampLoop
  by_cases h4 : optLen < 4
  · simp [h4]
  · rw [if_neg h4, rd_one (by omega)]
    simp only
    split
    · rfl
    · split
      · exact ih (optLen - 1) (by omega) (pos + 1) (by omega)
      · rw [rd_one (by omega)]
        simp only
        split
        · split
          · rfl
          · rw [rd_two (by omega)]
            simp only
            split
            · rfl
            · rw [wr_isSome (by simp; omega)]
              simp only
              rw [rd_two (by simp; omega)]
              simp only
              rw [diffChecksum_one _ _ _ (rdLe16_lt _) (rdLe16_lt _) (rdLe16_lt _)]
              simp only
              rw [wr_isSome (by simp; omega)]
              rfl
        · split
          · rename_i h
            exact ih _ (by omega) _ (by omega)
          · rfl

theorem clampMss_isSome (pkt : Bytes) (mss : Nat) : (clampMss pkt mss).isSome = true := by
  unfold clampMss
  split
  · rfl
  · split
    · rfl
    · split
      · rfl
      · rename_i hv
        have hlen : 20 ≤ pkt.length := by
          unfold ipv4Valid at hv
          split at hv
          · simp at hv
          · simp at hv; simp; omega
        rw [rd_one (by omega), rd_two (by omega), rd_one (by omega)]
        simp only
        split
        · rfl
        · split
          · rfl
          · split
            · rfl
            · rename_i hb
              rw [rd_one (by omega), rd_one (by omega)]
              simp only
              split
              · rfl
              · split
                · rfl
                · rename_i ht
                  by_cases hge : 20 ≤ 4 * (UInt8.toNat (pkt[4 * (UInt8.toNat pkt[0] % 16) + 12]'(by omega)) / 16)
                  · exact clampLoop_isSome _ _ _ _ _ (by omega) (by omega)
                  · exact clampLoop_isSome _ _ _ _ _ (by omega) (by omega)

end Lightway
