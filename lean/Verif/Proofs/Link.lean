import Verif.Spec.Link
import Verif.Props.Data
import Verif.Props.Sent
import Verif.Props.Login
import Verif.Proofs.FragInv

/-!
# What a sender hands to TLS, over its whole life
-/

namespace Lightway
open Spec

/-! ### Fields that calls keep -/

theorem Micro.keepNext {env : Env} {a : Api} {c c' : Conn} (h : Micro env a c c') (ha : a ≠ .insidePacket) :
    c'.fragNextId = c.fragNextId := by
  have hp : ∀ {c' : Conn}, PFrame c c' → c'.fragNextId = c.fragNextId := by
    rintro c' ⟨l, ps, sl, we, pm, pn, rfl, -⟩; rfl
  cases h with
  | io r => exact hp (ioStep_frame env c r).pFrame
  | state s hne h => unfold setState; split <;> rfl
  | configure ctx h =>
    obtain ⟨x, y, ok, ft, e, _⟩ := configure_shape env c ctx
    rw [e]
  | probeAck id h hs hm => exact hp (handleProbeAck_frame env c id)
  | probeTimeout h => exact hp (handleProbeTimeout_frame env c)
  | startBase h hs hd => exact hp (startBaseProbing_frame env c)
  | fragNext n h => exact absurd h ha
  | _ => rfl

theorem Star.keepNext {env : Env} {a : Api} {c c' : Conn} (h : M env a c c') (ha : a ≠ .insidePacket) :
    c'.fragNextId = c.fragNextId := by
  induction h with
  | refl => rfl
  | tail _ s ih => exact (s.keepNext ha).trans ih

/-- Only he_conn_inside_packet_received uses up fragment identifiers. -/
theorem step_keepNext {env : Env} {c : Conn} (hg : Good env c) (op : Op) (ha : op.api ≠ .insidePacket) :
    (step env c op).1.fragNextId = c.fragNextId := by
  obtain ⟨o, hi⟩ := hg.inv
  have h := Star.keepNext (exec_star env o c op hi) ha
  have e : (entry c op).fragNextId = c.fragNextId := by cases op <;> rfl
  exact h.trans e

theorem fragLoop_keepNext (env : Env) (size id : Nat) (n : Nat) : ∀ (c : Conn) (off : Nat) (pkt : Bytes), pkt.length = n →
    (fragLoop env c size id off pkt).1.fragNextId = c.fragNextId := by
  induction n using Nat.strongRecOn with
  | ind n ih =>
    intro c off pkt hn
    unfold fragLoop
    split
    · rfl
    · split
      · rfl
      · simp only
        split
        · rfl
        · have hf := sendMessage_frame env c (fragMsg id off (decide (pkt.length > size)) (pkt.take size))
          have h1 : (sendMessage env c (fragMsg id off (decide (pkt.length > size)) (pkt.take size))).1.fragNextId = c.fragNextId := by
            obtain ⟨l, ps, sl, we, e, -⟩ := hf; rw [e]
          split
          · exact h1
          · exact (ih _ (by simp; omega) _ _ _ rfl).trans h1

/-- Everything he_conn_inside_packet_received can do when there are no inside plugins. -/
def LinkPost (c : Conn) (pkt : Bytes) (r : Conn × RC) : Prop :=
  (writes r.1.log = writes c.log ∧ r.1.fragNextId = c.fragNextId) ∨
  ∃ q, c.state = .online ∧ clampMss pkt (effectivePmtu c - 40) = some (q, .success) ∧
    ((q.length + 3 ≤ 1500 ∧ writes r.1.log = dataMsg c q :: writes c.log ∧ r.1.fragNextId = c.fragNextId) ∨
     ∃ (new : List Bytes) (frs rest : List Fragment), writes r.1.log = new.reverse ++ writes c.log ∧
        new.map decodeFrag = frs.map some ∧ frs ≠ [] ∧ Fragments c.fragNextId q (frs ++ rest) ∧
        r.1.fragNextId = (c.fragNextId + 1) % 65536)

theorem insidePacket_link (env : Env) (c : Conn) (pkt : Bytes) (hpm : PmRange c.pmtud) (hpl : c.insidePlugins.plugins = 0)
    (hid : c.fragNextId < 65536) (hcap : sizeSub c.outsideMtu packetOverhead < 65536) :
    LinkPost c pkt (insidePacket env c pkt) := by
  have hr := effectivePmtu_range hpm
  unfold insidePacket
  split
  · exact .inl ⟨rfl, rfl⟩
  rename_i hst
  split
  · exact .inl ⟨rfl, rfl⟩
  simp only
  split
  · exact .inl ⟨rfl, rfl⟩
  split
  · exact .inl ⟨rfl, rfl⟩
  split
  · exact .inl ⟨rfl, rfl⟩
  rename_i q rc hq
  split
  · exact .inl ⟨rfl, rfl⟩
  rename_i hrc
  have hrc : rc = .success := by simpa using hrc
  subst hrc
  rw [ingress_noPlugins hpl]
  simp only
  split
  · rename_i h; cases h
  split
  · exact .inl ⟨rfl, rfl⟩
  rename_i hpc
  split
  · split
    · exact .inl ⟨rfl, rfl⟩
    · rename_i hlen
      refine .inr ⟨q, by simpa using hst, hq, .inl ⟨?_, ?_, ?_⟩⟩
      · simp only [maxWireMtu] at hlen; omega
      · exact writes_sendMessage env c (dataMsg c q)
      · obtain ⟨l, ps, sl, we, e, -⟩ := sendMessage_frame env c (dataMsg c q)
        show (sendMessage env c (dataMsg c q)).1.fragNextId = _
        rw [e]
  · rename_i hsf
    simp only [shouldFragment, Bool.not_eq_true', Bool.and_eq_false_iff, decide_eq_false_iff_not,
      not_or, Decidable.not_not] at hsf
    have hgt : effectivePmtu c < q.length := by have := hsf.2; omega
    have hst : c.state = .online := by simpa using hst
    generalize hcapE : sizeSub c.outsideMtu packetOverhead = cap at hcap hpc
    refine .inr ⟨q, hst, hq, .inr ?_⟩
    generalize hpmE : effectivePmtu c = pm at hr hgt ⊢
    unfold fragAndSend
    simp only
    rw [if_neg (by omega)]
    obtain ⟨new, w1, w2, w3, frs, rest, w4, w5, w6, w7, w8, w9, w10⟩ :=
      fragLoop_writes env ((pm + 3 - 7) / 8 * 8) c.fragNextId (by omega) (by omega) (by omega) hid q.length
        { c with fragNextId := (c.fragNextId + 1) % 65536 } 0 q rfl (by omega) (by omega)
    exact ⟨new, frs, rest, w1, w6, w10 (by intro h; rw [h] at hgt; simp at hgt), ⟨w9 (by omega), w4, w5, w7⟩,
      fragLoop_keepNext env _ _ _ _ _ _ rfl⟩

end Lightway
