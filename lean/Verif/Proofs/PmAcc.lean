import Verif.Proofs.PmRun
import Verif.Spec.Path

/-!
# Accuracy of path-MTU discovery
-/

namespace Lightway
open Spec

/-- The size below the one being probed. -/
def Fits (L base n : Nat) : Prop := if base = 1250 ∧ L < 1250 then n = 1250 else n ≤ L

/-- A path that takes 512 never leads to ERROR; one that does not, to nothing else. -/
def Phase (L : Nat) (p : PmtudState) : Prop :=
  (512 ≤ L → p ≠ .error) ∧ (L < 512 → p = .base ∨ p = .error)

structure Acc (L : Nat) (s : PS) : Prop where
  pend : s.pm.pendingId ≠ 0 → sizeOfProbe s.pm.pendingId s.ev = some s.pm.probingSize
  last : ∀ t, lastTimer s.ev = some t → t < 60000 → lastProbed s.ev = some s.pm.probingSize
  wait : Probing s.pm.state → AwaitsAnswer s.ev
  low : s.pm.state = .base ∨ s.pm.state = .error → s.pm.base = 512 → s.pm.probingSize = 512
  se : s.pm.state = .searching → Fits L s.pm.base (s.pm.probingSize - stepOf s.pm)
  done : s.pm.state = .searchComplete → Settles L (searches s.ev) s.pm.effective
  cnt : 1 ≤ searches s.ev ∧ s.pm.base = if searches s.ev = 1 then 1250 else 512
  ph : Phase L s.pm.state

theorem probe_acc {L : Nat} {ok : Bool} {s : PS} {mtu : Nat} (h1 : 512 ≤ mtu) (h2 : mtu ≤ 1416)
    (hp : s.pm.pendingId ≠ 0 → sizeOfProbe s.pm.pendingId s.ev = some mtu)
    (hl : s.pm.state = .base ∨ s.pm.state = .error → s.pm.base = 512 → mtu = 512)
    (hse : s.pm.state = .searching → Fits L s.pm.base (mtu - stepOf s.pm))
    (hd : s.pm.state = .searchComplete → Settles L (searches s.ev) s.pm.effective)
    (hn : 1 ≤ searches s.ev ∧ s.pm.base = if searches s.ev = 1 then 1250 else 512)
    (hph : Phase L s.pm.state) : Acc L (s.probe true ok mtu) := by
  rw [probe_on h1 h2]
  refine ⟨?_, fun t _ _ => rfl, fun _ => ⟨_, rfl, ?_⟩, hl, hse, hd, hn, hph⟩
  · intro hne
    show (if s.nid = _ then some mtu else _) = some mtu
    by_cases h : s.nid = (if ok then s.nid else s.pm.pendingId)
    · exact if_pos h
    · rw [if_neg h]
      cases ok with
      | true => exact absurd rfl h
      | false => exact hp hne
  · split <;> omega

theorem complete_acc {L : Nat} {s : PS} (h0 : s.pm.pendingId = 0)
    (hd : Settles L (searches s.ev) (min s.pm.probingSize 1416))
    (hn : 1 ≤ searches s.ev ∧ s.pm.base = if searches s.ev = 1 then 1250 else 512) (h5 : 512 ≤ L) :
    Acc L s.complete := by
  refine ⟨fun h => absurd h0 h, ?_, ?_, ?_, ?_, fun _ => hd, hn, (fun _ => by simp [PS.complete, PS.retry, PS.chg]), fun h => by omega⟩
  · intro t ht hlt; have : (600000 : Nat) = t := Option.some.inj ht; omega
  · intro h; rcases h with h | h <;> cases h
  · intro h; rcases h with h | h <;> cases h
  · intro h; cases h

theorem confirmed_acc {L : Nat} {ok : Bool} {s : PS} (hb : s.pm.base = 512 ∨ s.pm.base = 1250) (h0 : s.pm.pendingId = 0)
    (hl : 512 ≤ L)
    (hn : 1 ≤ searches s.ev ∧ s.pm.base = if searches s.ev = 1 then 1250 else 512) :
    Acc L (s.confirmed true ok) := by
  unfold PS.confirmed PS.chg
  refine probe_acc (by omega) (by omega) (fun h => absurd h0 h) ?_ ?_ ?_ hn ⟨fun _ => by simp, fun h => by omega⟩
  · intro h; rcases h with h | h <;> cases h
  · intro _
    show Fits L s.pm.base (s.pm.base + 32 - 32)
    unfold Fits
    rcases hb with h | h
    · rw [if_neg (by omega)]; omega
    · split <;> omega
  · intro h; cases h

theorem start_acc {L : Nat} {ok : Bool} {s : PS} (h : s.pm = {}) (hi : searches s.ev = 0) : Acc L (s.start true ok) := by
  unfold PS.start PS.chg
  refine probe_acc (by omega) (by omega) ?_ ?_ ?_ ?_ ?_ ⟨fun _ => by simp, fun _ => .inl rfl⟩
  · intro hp; rw [h] at hp; exact absurd rfl hp
  · intro _ hb; exact absurd hb (by simp)
  · intro h; cases h
  · intro h; cases h
  · show 1 ≤ searches s.ev + 1 ∧ (1250 : Nat) = if searches s.ev + 1 = 1 then 1250 else 512
    rw [hi]; exact ⟨by omega, rfl⟩

theorem IdleEv.searches {ev : List PmEv} (h : IdleEv ev) : Spec.searches ev = 0 := by
  induction ev with
  | nil => rfl
  | cons e ev ih =>
    have := ih (fun x hx => h x (.tail _ hx))
    rcases h e (.head _) with ⟨id, rfl⟩ | rfl <;> exact this

theorem pong_acc {L : Nat} {s : PS} (id : Nat) (h : Acc L s) : Acc L { s with ev := .pong id :: s.ev } :=
  ⟨h.pend, h.last, h.wait, h.low, h.se, h.done, h.cnt, h.ph⟩

theorem ack_acc {L : Nat} {ok : Bool} {id : Nat} {s : PS} {rest : List PmEv} (hev : s.ev = .pong id :: rest)
    (hp : PmI true s) (h : Acc L s) (h0 : id ≠ 0) (hL : ∀ m, sizeOfProbe id rest = some m → m ≤ L) :
    Acc L (s.ack true ok id) := by
  unfold PS.ack
  split
  · exact h
  · rename_i hid
    obtain ⟨hb, hf | hf⟩ := hp
    case inr => exact absurd hf.1 (by simp)
    have hs := hf.sized
    have hid' : s.pm.pendingId = id := Classical.not_not.mp hid
    have hle : s.pm.probingSize ≤ L := by
      apply hL
      have := h.pend (by rw [hid']; exact h0)
      rw [hev, hid'] at this
      exact this
    have h5 : 512 ≤ L := Nat.le_trans hs.lo hle
    unfold PS.ackBody
    cases hst : s.pm.state with
    | disabled => exact absurd hst hb.act
    | base => exact confirmed_acc hs.base rfl h5 h.cnt
    | error => exact confirmed_acc hs.base rfl h5 h.cnt
    | searchComplete =>
      refine ⟨fun h => absurd rfl h, ?_, ?_, ?_, ?_, h.done, h.cnt, h.ph⟩
      · intro t ht hlt; have : (600000 : Nat) = t := Option.some.inj ht; omega
      · intro h; rcases h with h | h <;> exact absurd (hst.symm.trans h) (by simp)
      · intro h; rcases h with h | h <;> exact absurd (hst.symm.trans h) (by simp)
      · intro h; exact absurd (hst.symm.trans h) (by simp)
    | searching =>
      simp only
      split
      · rename_i hge
        replace hge : s.pm.probingSize ≥ 1416 := hge
        refine complete_acc rfl ?_ h.cnt ?_
        · show Settles L (searches s.ev) (min s.pm.probingSize 1416)
          unfold Settles
          rw [if_neg (by omega)]
          omega
        · exact h5
      · rename_i hlt
        replace hlt : ¬s.pm.probingSize ≥ 1416 := hlt
        have hlo := hs.lo
        show Acc L (PS.probe true ok _ (min (s.pm.probingSize + stepOf s.pm) 1416))
        have hk := stepOf_cases s.pm
        refine probe_acc (by omega) (by omega) (fun h => absurd rfl h) ?_ ?_ h.done h.cnt h.ph
        · intro h; rcases h with h | h <;> exact absurd (hst.symm.trans h) (by simp)
        · intro _
          show Fits L s.pm.base (min (s.pm.probingSize + stepOf s.pm) 1416 - stepOf s.pm)
          have hse := hs.se hst
          unfold Fits
          rw [if_neg (by omega)]
          omega

theorem timeout_acc {L : Nat} {ok : Bool} {s : PS} (hp : PmI true s) (h : Acc L s)
    (hL : AwaitsAnswer s.ev → ∀ m, lastProbed s.ev = some m → L < m) : Acc L (s.timeout true ok) := by
  obtain ⟨hb, hf | hf⟩ := hp
  case inr => exact absurd hf.1 (by simp)
  have hs := hf.sized
  have hlo := hs.lo
  have hhi := hs.hi
  unfold PS.timeout
  split
  · exact probe_acc hlo hhi h.pend h.low h.se h.done h.cnt h.ph
  · unfold PS.timeoutBody
    cases hst : s.pm.state with
    | disabled => exact absurd hst hb.act
    | base =>
      simp only
      split
      · refine probe_acc (by omega) (by omega) (fun h => absurd rfl h) (fun _ _ => rfl) ?_ h.done h.cnt h.ph
        intro h; exact absurd (hst.symm.trans h) (by simp)
      · refine ⟨fun h => absurd rfl h, ?_, ?_, fun _ hb5 => h.low (.inl hst) hb5, ?_, (fun h => by cases h), h.cnt, ?_, fun _ => .inr rfl⟩
        · intro t ht hlt; have : (60000 : Nat) = t := Option.some.inj ht; omega
        · intro h; rcases h with h | h <;> cases h
        · intro h; cases h
        · intro h5
          rename_i hne
          obtain ⟨t, ht, hlt⟩ := h.wait (.inl hst)
          have hgt := hL ⟨t, ht, hlt⟩ _ (h.last t ht hlt)
          replace hne : ¬s.pm.probingSize = 1250 := hne
          rcases hs.be (.inl hst) with h | h <;> omega
    | error =>
      refine ⟨fun h => absurd rfl h, ?_, ?_, fun _ hb5 => h.low (.inr hst) hb5, ?_, h.done, h.cnt, h.ph⟩
      · intro t ht hlt; have : (60000 : Nat) = t := Option.some.inj ht; omega
      · intro h; rcases h with h | h <;> exact absurd (hst.symm.trans h) (by simp)
      · intro h; exact absurd (hst.symm.trans h) (by simp)
    | searchComplete =>
      simp only
      refine probe_acc (by omega) (by omega) (fun h => absurd rfl h) (fun _ _ => rfl) ?_ (fun h => by cases h) ?_ ⟨fun _ => by simp, fun _ => .inl rfl⟩
      · intro h; cases h
      · show 1 ≤ searches s.ev + 1 ∧ (512 : Nat) = if searches s.ev + 1 = 1 then 1250 else 512
        have := h.cnt.1
        rw [if_neg (by omega)]
        exact ⟨by omega, rfl⟩
    | searching =>
      simp only
      have hse := hs.se hst
      have hba := hs.base
      have hfit := h.se hst
      split
      · rename_i hbig
        replace hbig : s.pm.bigStep = true := hbig
        have hk : stepOf s.pm = 32 := by unfold stepOf; rw [if_pos hbig]
        refine probe_acc (mtu := s.pm.probingSize - 32 + 8) (by omega) (by omega) (fun h => absurd rfl h) ?_ ?_ h.done h.cnt h.ph
        · intro h; rcases h with h | h <;> exact absurd (hst.symm.trans h) (by simp)
        · intro _
          show Fits L s.pm.base (s.pm.probingSize - 32 + 8 - 8)
          rw [hk] at hfit
          rw [Nat.add_sub_cancel]; exact hfit
      · rename_i hbig
        replace hbig : ¬s.pm.bigStep = true := hbig
        have hk : stepOf s.pm = 8 := by unfold stepOf; rw [if_neg hbig]
        split
        · rename_i hle
          replace hle : s.pm.probingSize ≤ s.pm.base := hle
          omega
        · refine complete_acc rfl ?_ h.cnt ?_
          · show Settles L (searches s.ev) (min (s.pm.probingSize - 8) 1416)
            obtain ⟨t, ht, hlt⟩ := h.wait (.inr hst)
            have hgt := hL ⟨t, ht, hlt⟩ _ (h.last t ht hlt)
            rw [hk] at hfit
            rw [show min (s.pm.probingSize - 8) 1416 = s.pm.probingSize - 8 from by omega]
            obtain ⟨hc1, hc2⟩ := h.cnt
            unfold Fits at hfit
            unfold Settles
            by_cases h1 : searches s.ev = 1
            · rw [if_pos h1] at hc2
              by_cases h2 : L < 1250
              · rw [if_pos ⟨hc2, h2⟩] at hfit
                rw [if_pos ⟨h1, h2⟩]; exact hfit
              · rw [if_neg (fun h => h2 h.2)] at hfit
                rw [if_neg (fun h => h2 h.2)]; omega
            · rw [if_neg h1] at hc2
              rw [if_neg (by omega)] at hfit
              rw [if_neg (fun h => h1 h.1)]; omega
          · rcases Nat.lt_or_ge L 512 with h5 | h5
            · rcases h.ph.2 h5 with h | h <;> exact absurd (hst.symm.trans h) (by simp)
            · exact h5

/-! ## Along a history -/

theorem Spec.HonestPongs.suffix {L : Nat} {a b : List PmEv} (h : HonestPongs L (a ++ b)) : HonestPongs L b :=
  fun newer id older e => h (a ++ newer) id older (by rw [e, List.append_assoc])

theorem pmEvents_ext (l l' : Log) : pmEvents (l ++ l') = pmEvents l ++ pmEvents l' := List.filterMap_append ..

def AccC (L : Nat) (c : Conn) : Prop := c.state = .online → c.pmtud.state ≠ .disabled → Acc L c.ps

theorem Acc.kept {L : Nat} {c c' : Conn} (h : Acc L c.ps) (hk : PmKeep c c') : Acc L c'.ps := by
  have e : c'.ps = { c.ps with nid := c'.pingNextId } := by
    show PS.mk _ _ _ = PS.mk _ _ _
    rw [hk.pm, hk.ev]; rfl
  rw [e]
  exact ⟨h.pend, h.last, h.wait, h.low, h.se, h.done, h.cnt, h.ph⟩

theorem PmC.pmI {c : Conn} (h : PmC c) (hon : c.state = .online) (hd : c.pmtud.state ≠ .disabled) :
    PmActive c ∧ PmI true c.ps := by
  rcases h with h | h
  · rw [h.pm] at hd; exact absurd rfl hd
  · refine ⟨h, ?_⟩
    have := h.ok
    rw [show (c.state == ConnState.online) = true from by simp [hon]] at this
    exact this

theorem Micro.accC {env : Env} {L : Nat} {a : Api} {c c' : Conn} (hm : Micro env a c c') (ha : ¬IsConnect a)
    (hat : a ≠ .pmtudTimeout) (hp : PmC c) (h : AccC L c) (hh : HonestPongs L (pmEvents c.log)) : AccC L c' := by
  intro hon' hd'
  rcases hp with hi | hac
  · rcases hm.pmKind.idle hi with h' | ⟨-, rfl, hs, hd, hc1, hc2⟩
    · rw [h'.pm] at hd'; exact absurd rfl hd'
    · obtain ⟨ok, e⟩ := start_sim env c hc2 hc1 hi.nid hd
      rw [e, show (c.state == ConnState.online) = true from by simp [hs]]
      exact start_acc hi.pm hi.ev.searches
  · have hon : c.state = .online := (hm.late ha hac.late).2 hon'
    have hact : c.pmtud.state ≠ .disabled := hac.ok.1.act
    have hacc := h hon hact
    have hpi := (PmC.pmI (.inr hac) hon hact).2
    cases hm.pmKind with
    | keep hk hc => exact hacc.kept hk
    | message p =>
      show Acc L { c.ps with ev := pmEvents (.message p :: c.log) }
      rcases pmEvents_message p c.log with e | ⟨id, e⟩ <;> rw [e]
      · exact hacc
      · exact pong_acc id hacc
    | ack id hs hev h =>
      obtain ⟨rest, hev⟩ := hev
      obtain ⟨ok, e⟩ := ack_sim env c id hac.cbs.1 hac.cbs.2 hac.ok.1.nid
      rw [e, show (c.state == ConnState.online) = true from by simp [hon]]
      obtain ⟨k1, k2⟩ := hh [] id rest hev
      exact ack_acc hev hpi hacc k1 k2
    | timeout h => exact absurd h hat
    | start h hs hd => exact absurd hd hact

theorem AccC.emit {L : Nat} {c : Conn} {e : Effect} (he : pmEv e = none) (h : AccC L c) : AccC L (c.emit e) :=
  fun h1 h2 => (h h1 h2).kept (.emit c he)

/-- One call. -/
theorem AccC.step {env : Env} {L : Nat} {c : Conn} (hg : Good env c) (op : Op) (ha : ¬IsConnect op.api) (hp : PmC c)
    (h : AccC L c) (hh : HonestPongs L (pmEvents (step env c op).1.log))
    (ht : op = .pmtudTimeout → AwaitsAnswer (pmEvents c.log) → ∀ m, lastProbed (pmEvents c.log) = some m → L < m) :
    AccC L (step env c op).1 := by
  obtain ⟨o, hi⟩ := hg.inv
  by_cases hop : op = .pmtudTimeout
  · subst hop
    have h0 : AccC L (c.emit (.api .pmtudTimeout)) := h.emit rfl
    have hp0 : PmC (c.emit (.api .pmtudTimeout)) := by
      rcases hp with h | h
      · exact .inl (h.kept (.emit _ rfl))
      · exact .inr (h.emit rfl)
    have hev : pmEvents (c.emit (.api .pmtudTimeout)).log = pmEvents c.log := rfl
    show AccC L ((handleProbeTimeout env (c.emit (.api .pmtudTimeout))).1.emit (.ret _))
    apply AccC.emit rfl
    have htt := ht rfl
    generalize c.emit (.api .pmtudTimeout) = d at h0 hp0 hev ⊢
    rw [← hev] at htt
    intro hon' hd'
    obtain ⟨s1, s2⟩ := PmSame.of_frame (handleProbeTimeout_frame env d)
    have hon : d.state = .online := by rw [← s1]; exact hon'
    rcases hp0 with hi0 | hac
    · rw [timeout_idle env d hi0.pm, hi0.pm] at hd'; exact absurd rfl hd'
    · have hact : d.pmtud.state ≠ .disabled := hac.ok.1.act
      obtain ⟨ok, e⟩ := timeout_sim env d hac.cbs.1 hac.cbs.2 hac.ok.1.nid
      rw [e, show (d.state == ConnState.online) = true from by simp [hon]]
      exact timeout_acc (PmC.pmI (.inr hac) hon hact).2 (h0 hon hact) htt
  · have hat : op.api ≠ .pmtudTimeout := by
      cases op <;> simp [Op.api] at hop ⊢
    obtain ⟨h1, h2, h3⟩ := entry_pmKeep c op
    have h0 : AccC L (entry c op) ∧ PmC (entry c op) := by
      constructor
      · intro k1 k2
        rw [h3] at k1
        rw [h1.pm] at k2
        exact (h k1 k2).kept h1
      · rcases hp with h | h
        · exact .inl (h.kept h1)
        · refine .inr ⟨by rw [h3]; exact h.late, by rw [h2.1, h2.2]; exact h.cbs, ?_⟩
          rw [h3]; exact h.ok.kept h1
    have hx := exec_star env o c op hi
    replace hh : HonestPongs L (pmEvents (exec env (c.emit (.api op.api)) op).1.log) := hh
    show AccC L ((exec env (c.emit (.api op.api)) op).1.emit (.ret _))
    apply AccC.emit rfl
    generalize (exec env (c.emit (.api op.api)) op).1 = q at hx hh
    suffices hq : AccC L q ∧ PmC q from hq.1
    induction hx with
    | refl => exact h0
    | tail _ s ih =>
      obtain ⟨l, e, -⟩ := s.logExt
      rw [e, pmEvents_ext] at hh
      obtain ⟨i1, i2⟩ := ih hh.suffix
      exact ⟨s.accC ha hat i2 i1 hh.suffix, s.pmC ha i2⟩

end Lightway
