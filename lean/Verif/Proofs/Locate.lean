import Verif.Proofs.Fine
import Verif.Proofs.Sizes
import Verif.Spec.Net

/-!
# Locating the network operations of a call
Every read or write of the network recorded in a history is part of one I/O request of the TLS library, made at a
moment of the call whose settings are those the call ends with.
-/

namespace Lightway
open Spec

/-- The settings that decide what is put on the wire. -/
structure SameWire (c c' : Conn) : Prop where
  ty : c'.connType = c.connType
  agg : c'.aggressive = c.aggressive
  roam : c'.disableRoaming = c.disableRoaming
  maj : c'.verMajor = c.verMajor
  min : c'.verMinor = c.verMinor
  out : c'.outsidePlugins = c.outsidePlugins

theorem SameWire.refl (c : Conn) : SameWire c c := ⟨rfl, rfl, rfl, rfl, rfl, rfl⟩
theorem SameWire.trans {a b c : Conn} (h : SameWire a b) (g : SameWire b c) : SameWire a c :=
  ⟨g.1.trans h.1, g.2.trans h.2, g.3.trans h.3, g.4.trans h.4, g.5.trans h.5, g.6.trans h.6⟩

theorem PFrame.sameWire {c c' : Conn} (h : PFrame c c') : SameWire c c' := by
  obtain ⟨l, ps, sl, we, pm, pn, rfl, -⟩ := h
  exact ⟨rfl, rfl, rfl, rfl, rfl, rfl⟩

theorem setState_wire (c : Conn) (s : ConnState) : SameWire c (setState c s) := by
  unfold setState
  split <;> exact ⟨rfl, rfl, rfl, rfl, rfl, rfl⟩

/-- Once a call has begun to work, the settings stay. -/
theorem Micro.sameWire {env : Env} {a : Api} {c c' : Conn} (h : Micro env a c c') (hp : ¬Preparing a c.log) :
    SameWire c c' := by
  cases h with
  | io r => exact (ioStep_frame env c r).pFrame.sameWire
  | state s hne h => exact setState_wire c s
  | configure ctx h hq => exact absurd hq hp
  | plugins i o h hq => exact absurd hq hp
  | version x y h hq => exact absurd hq hp
  | probeAck id h hs hm => exact (handleProbeAck_frame env c id).sameWire
  | probeTimeout h => exact (handleProbeTimeout_frame env c).sameWire
  | startBase h hs hd => exact (startBaseProbing_frame env c).sameWire
  | _ => exact ⟨rfl, rfl, rfl, rfl, rfl, rfl⟩

theorem preparing_ext {a : Api} {l x : Log} (hx : ∀ e ∈ x, NoMark e) (h : ¬Preparing a l) : ¬Preparing a (x ++ l) := by
  rintro ⟨y, old, e, hy⟩
  rcases List.append_eq_append_iff.mp e with ⟨z, h1, h2⟩ | ⟨z, h1, h2⟩
  · exact h ⟨z, old, h2, fun w hw => hy w (by rw [h1]; simp [hw])⟩
  · cases z with
    | nil => exact h ⟨[], old, h2.symm, by simp⟩
    | cons w z =>
      simp only [List.cons_append, List.cons.injEq] at h2
      have := hx w (by rw [h1]; simp)
      rw [← h2.1] at this
      exact this

/-- A network effect since the beginning of the call ends the preparation. -/
theorem not_preparing {a : Api} {n o : Log} {e : Effect} (hn : ∀ x ∈ n, NoMark x) (he : ¬SetupEff e) (hm : NoMark e) :
    ¬Preparing a (n ++ e :: o) := by
  refine preparing_ext hn ?_
  rintro ⟨y, old, h, hy⟩
  cases y with
  | nil => simp only [List.nil_append, List.cons.injEq] at h; rw [h.1] at hm; exact hm
  | cons w y => simp only [List.cons_append, List.cons.injEq] at h; exact he (h.1 ▸ hy w (by simp))

theorem NetEff.noSetup {e : Effect} (h : NetEff e) : ¬SetupEff e := by cases e <;> simp_all [NetEff, SetupEff]
theorem NetEff.noMark {e : Effect} (h : NetEff e) : NoMark e := by cases e <;> simp_all [NetEff, NoMark]

theorem Star.sameWire {env : Env} {a : Api} {c c' : Conn} (h : M env a c c') (hp : ¬Preparing a c.log) :
    SameWire c c' := by
  have : SameWire c c' ∧ ¬Preparing a c'.log := by
    induction h with
    | refl => exact ⟨.refl _, hp⟩
    | tail _ s ih =>
      obtain ⟨x, e, hx⟩ := s.logExt
      exact ⟨ih.1.trans (s.sameWire ih.2), by rw [e]; exact preparing_ext hx ih.2⟩
  exact this.1

/-- What one fine step adds. -/
theorem Fine.net {env : Env} {c c' : Conn} (h : Fine env c c') :
    (∃ l, c'.log = l ++ c.log ∧ ∀ x ∈ l, ¬NetEff x) ∨ ∃ r, c' = ioStep env c r := by
  cases h with
  | io r => exact .inr ⟨r, rfl⟩
  | err | pm => exact .inl ⟨[], rfl, by simp⟩
  | probe pm mtu ok => exact .inl ⟨[_], rfl, by simp [NetEff]⟩
  | note e h hn => exact .inl ⟨[e], rfl, by simpa using hn⟩

/-- Splitting a history that was extended by `l` at a marked effect. -/
theorem split_ext {α : Type} {n l o b : List α} {e : α} (h : n ++ e :: o = l ++ b) :
    (∃ k, l = n ++ e :: k ∧ o = k ++ b) ∨ ∃ k, n = l ++ k ∧ b = k ++ e :: o := by
  rcases List.append_eq_append_iff.mp h with ⟨z, h1, h2⟩ | ⟨z, h1, h2⟩
  · cases z with
    | nil => right; exact ⟨[], by simpa using h1.symm, by simpa using h2.symm⟩
    | cons w z =>
      simp only [List.cons_append, List.cons.injEq] at h2
      left; exact ⟨z, by rw [h1, h2.1], h2.2⟩
  · right; exact ⟨z, h1, h2⟩

theorem fine_locate {env : Env} {c c' : Conn} (h : Star (Fine env) c c') :
    ∀ {n o : Log} {e : Effect}, NetEff e → c'.log = n ++ e :: (o ++ c.log) →
    ∃ m r n1 o1 n2, Star (Fine env) c m ∧ Star (Fine env) (ioStep env m r) c' ∧
      (ioStep env m r).log = n1 ++ e :: (o1 ++ m.log) ∧ o ++ c.log = o1 ++ m.log ∧ n = n2 ++ n1 := by
  induction h with
  | refl =>
    intro n o e _ hl
    have := congrArg List.length hl
    simp at this
    omega
  | @tail b d hcb s ih =>
    intro n o e he hl
    obtain ⟨x, hx, -⟩ := s.pFrame.logExt
    rw [hx] at hl
    rcases split_ext hl.symm with ⟨k, h1, h2⟩ | ⟨k, h1, h2⟩
    · rcases s.net with ⟨l, e1, h3⟩ | ⟨r, rfl⟩
      · have : l = x := List.append_cancel_right (e1.symm.trans hx)
        exact absurd he (h3 e (by rw [this, h1]; simp))
      · exact ⟨b, r, n, k, [], hcb, .refl _, by rw [hx, h1]; simp, h2, rfl⟩
    · obtain ⟨m, r, n1, o1, n2, g1, g2, g3, g4, g5⟩ := ih he h2
      exact ⟨m, r, n1, o1, x ++ n2, g1, g2.tail s, g3, g4, by rw [h1, g5]; simp⟩

/-- Is this effect the acceptance of input? -/
def IsInput : Effect → Prop
  | .input .. => True
  | _ => False

/-- A step that does not touch the network: it keeps the pending input, or it accepts new input. -/
def Other (a : Api) (c c' : Conn) : Prop :=
  ∃ l, c'.log = l ++ c.log ∧ (∀ x ∈ l, ¬NetEff x) ∧
    (((∀ x ∈ l, ¬IsInput x) ∧ c'.incoming = c.incoming ∧ c'.packetSeen = c.packetSeen ∧ c'.streamLeft = c.streamLeft) ∨
     (a = .outsideData ∧ JustCalled a c.log ∧ c.connType = .datagram ∧ c'.connType = .datagram ∧ ∃ s body,
        l = [.input s body] ∧ c'.incoming = some body ∧ c'.packetSeen = false ∧ c'.streamLeft = c.streamLeft) ∨
     (a = .outsideData ∧ JustCalled a c.log ∧ c.connType = .stream ∧ c'.connType = .stream ∧ c.streamLeft = [] ∧ ∃ buf,
        l = [.input 0 buf] ∧ c'.incoming = some buf ∧ c'.packetSeen = c.packetSeen ∧ c'.streamLeft = buf))

/-- A micro step that touches the network consists of fine steps. -/
theorem Micro.net {env : Env} {a : Api} {c c' : Conn} (h : Micro env a c c') :
    Other a c c' ∨ Star (Fine env) c c' := by
  cases h with
  | io r hnv => exact .inr (.one (.io c r hnv))
  | dgram s body h hf ht =>
    exact .inl ⟨[.input s body], rfl, by simp [NetEff], .inr (.inl ⟨h, hf, ht, ht, s, body, rfl, rfl, rfl, rfl⟩)⟩
  | stream buf h hf hs ht =>
    exact .inl ⟨[.input 0 buf], rfl, by simp [NetEff], .inr (.inr ⟨h, hf, ht, ht, hs, buf, rfl, rfl, rfl, rfl⟩)⟩
  | state s hne h =>
    refine .inl ⟨[.state s c.cbs.stateChange], by simp [setState, hne], by simp [NetEff], .inl ⟨by simp [IsInput], ?_⟩⟩
    unfold setState; split <;> exact ⟨rfl, rfl, rfl⟩
  | configure ctx h =>
    obtain ⟨x, y, ok, ft, e, _⟩ := configure_shape env c ctx
    refine .inl ⟨[.table ctx.maxFragEntries, .alloc ok, .callbacks ctx.cbs], by rw [e]; rfl, by simp [NetEff], .inl ⟨by simp [IsInput], ?_⟩⟩
    rw [e]; exact ⟨rfl, rfl, rfl⟩
  | probeAck id h hs hm => exact .inr (handleProbeAck_fine env c id)
  | probeTimeout h => exact .inr (handleProbeTimeout_fine env c)
  | startBase h hs hd => exact .inr (startBaseProbing_fine env c)
  | quiet e h =>
    exact .inl ⟨[e], rfl, by cases e <;> simp_all [Quiet, NetEff], .inl ⟨by cases e <;> simp_all [Quiet, IsInput], rfl, rfl, rfl⟩⟩
  | auth e u _ he hc h hr hs hm =>
    exact .inl ⟨[e], rfl, by cases e <;> simp_all [AuthEff, NetEff], .inl ⟨by cases e <;> simp_all [AuthEff, IsInput], rfl, rfl, rfl⟩⟩
  | err | dueOff | sessCfg | sessClient | sessServer | rotate | sessSet | creds
  | mtu | version | pingPending | fragNext | fragNew | fragPut | fragDel =>
    exact .inl ⟨[], rfl, by simp, .inl ⟨by simp, rfl, rfl, rfl⟩⟩
  | _ => exact .inl ⟨[_], rfl, by simp [NetEff], .inl ⟨by simp [IsInput], rfl, rfl, rfl⟩⟩

/-- The moment of a network effect within a call. -/
theorem locate {env : Env} {a : Api} {c c' : Conn} (h : M env a c c') :
    ∀ {n o : Log} {e : Effect}, NetEff e → c'.log = n ++ e :: (o ++ c.log) →
    ∃ b m r n1 o1 n2, M env a c b ∧ PFrame b m ∧ SameWire m c' ∧
      (ioStep env m r).log = n1 ++ e :: (o1 ++ m.log) ∧ o ++ c.log = o1 ++ m.log ∧ n = n2 ++ n1 := by
  suffices H : ∀ {n o : Log} {e : Effect}, NetEff e → c'.log = n ++ e :: (o ++ c.log) →
    ∃ b m r n1 o1 n2 d, M env a c b ∧ PFrame b m ∧ PFrame (ioStep env m r) d ∧ M env a d c' ∧
      (ioStep env m r).log = n1 ++ e :: (o1 ++ m.log) ∧ o ++ c.log = o1 ++ m.log ∧ n = n2 ++ n1 by
    intro n o e he hl
    obtain ⟨b, m, r, n1, o1, n2, d, h1, h2, h3, h4, h5, h6, h7⟩ := H he hl
    refine ⟨b, m, r, n1, o1, n2, h1, h2, ?_, h5, h6, h7⟩
    have hf := (ioStep_frame env m r).pFrame
    have w := hf.sameWire.trans h3.sameWire
    obtain ⟨x, e1, hx⟩ := h3.logExt
    obtain ⟨y, e2, hy⟩ := hf.logExt
    have hny : ∀ x ∈ n1, NoMark x := by
      intro z hz
      have : y = n1 ++ e :: o1 := List.append_cancel_right (e2.symm.trans (h5.trans (by simp)))
      exact hy z (by rw [this]; simp [hz])
    refine w.trans (h4.sameWire ?_)
    rw [e1, h5]
    exact preparing_ext hx (not_preparing hny he.noSetup he.noMark)
  induction h with
  | refl =>
    intro n o e _ hl
    have := congrArg List.length hl
    simp at this
    omega
  | @tail b d hcb s ih =>
    intro n o e he hl
    obtain ⟨x, hx, -⟩ := s.logExt
    rw [hx] at hl
    rcases split_ext hl.symm with ⟨k, h1, h2⟩ | ⟨k, h1, h2⟩
    · rcases s.net with ⟨l, e1, h3, _⟩ | hf
      · have : l = x := List.append_cancel_right (e1.symm.trans hx)
        exact absurd he (h3 e (by rw [this, h1]; simp))
      · obtain ⟨m, r, n1, o1, n2, g1, g2, g3, g4, g5⟩ :=
          fine_locate hf (n := n) (o := k) he (by rw [hx, h1]; simp)
        exact ⟨b, m, r, n1, o1, n2, d, hcb, g1.fineFrame, g2.fineFrame, .refl _, g3, h2.trans g4, g5⟩
    · obtain ⟨b', m, r, n1, o1, n2, d', g1, g2, g3, g4, g5, g6, g7⟩ := ih he h2
      exact ⟨b', m, r, n1, o1, x ++ n2, d', g1, g2, g3, g4.tail s, g5, g6, by rw [h1, g7]; simp⟩

/-- Except by disconnecting, the callbacks stay as well. -/
theorem Micro.sameCbs {env : Env} {a : Api} {c c' : Conn} (h : Micro env a c c') (hp : ¬Preparing a c.log)
    (ha : a ≠ .disconnect) : c'.cbs = c.cbs := by
  cases h with
  | io r => have := (ioStep_frame env c r).fields; simp [this]
  | state s hne h => exact (setState_fields c s).2.2.1
  | configure ctx h hq => exact absurd hq hp
  | dropCbs h => exact absurd h ha
  | probeAck id h hs hm => have := (handleProbeAck_frame env c id).fields; simp [this]
  | probeTimeout h => have := (handleProbeTimeout_frame env c).fields; simp [this]
  | startBase h hs hd => have := (startBaseProbing_frame env c).fields; simp [this]
  | _ => rfl

theorem Star.sameCbs {env : Env} {a : Api} {c c' : Conn} (h : M env a c c') (hp : ¬Preparing a c.log)
    (ha : a ≠ .disconnect) : c'.cbs = c.cbs := by
  have : c'.cbs = c.cbs ∧ ¬Preparing a c'.log := by
    induction h with
    | refl => exact ⟨rfl, hp⟩
    | tail _ s ih =>
      obtain ⟨x, e, hx⟩ := s.logExt
      exact ⟨(s.sameCbs ih.2 ha).trans ih.1, by rw [e]; exact preparing_ext hx ih.2⟩
  exact this.1

/-- The callbacks at moment `m` of a call are those at its end, unless it is a disconnect. -/
def SameCbs (a : Api) (m c' : Conn) : Prop := a ≠ .disconnect → c'.cbs = m.cbs

/-- An I/O request records something. -/
theorem ioStep_net (env : Env) (m : Conn) (r : IoReq) : ∃ e o, (ioStep env m r).log = e :: o ∧ NetEff e := by
  cases r with
  | send rec => exact ⟨_, _, rfl, trivial⟩
  | recv sz => exact ⟨_, _, rfl, trivial⟩

theorem fine_walk {env : Env} {a : Api} {c c' d : Conn} {P : Conn → Prop} (h : Star (Fine env) c d) (hd : M env a d c')
    (hfine : ∀ b d, Fine env b d → (∃ l, d.log = l ++ b.log ∧ ∀ x ∈ l, PEff b x ∧ ¬NetEff x) →
      (d.streamLeft = b.streamLeft ∧ d.packetSeen = b.packetSeen ∧ d.incoming = b.incoming) → P b → P d)
    (hio : ∀ m r, SameWire m c' → SameCbs a m c' → P m → P (ioStep env m r)) (h0 : P c) : P d := by
  suffices H : ∀ b, Star (Fine env) c b → Star (Fine env) b d → P b from H d h (.refl _)
  intro b hb
  induction hb with
  | refl => exact fun _ => h0
  | @tail m e _ s ih =>
    intro hed
    have hm := ih ((Star.one s).trans hed)
    cases s with
    | io r =>
      obtain ⟨ef, o, hl, hne⟩ := ioStep_net env m r
      obtain ⟨x, hx, hxm⟩ := hed.fineFrame.logExt
      have hnp : ¬Preparing a d.log := by
        rw [hx, hl]; exact not_preparing hxm hne.noSetup hne.noMark
      have hf := (ioStep_frame env m r).pFrame.trans hed.fineFrame
      refine hio m r (hf.sameWire.trans (hd.sameWire hnp)) (fun ha => ?_) hm
      rw [hd.sameCbs hnp ha]
      exact hf.fields.2.2.1
    | err er => exact hfine _ _ (.err m er) ⟨[], rfl, by simp⟩ ⟨rfl, rfl, rfl⟩ hm
    | pm p => exact hfine _ _ (.pm m p) ⟨[], rfl, by simp⟩ ⟨rfl, rfl, rfl⟩ hm
    | probe p n ok h1 h2 h3 =>
      exact hfine _ _ (.probe m p n ok h1 h2 h3) ⟨[_], rfl, by simp [PEff, IoEff, NetEff]⟩ ⟨rfl, rfl, rfl⟩ hm
    | note ef hp hn hw hg => exact hfine _ _ (.note m ef hp hn hw hg) ⟨[ef], rfl, by simp [hp, hn]⟩ ⟨rfl, rfl, rfl⟩ hm

/-- Carrying a fact through a call: through its I/O requests, at which the settings are those the call ends with,
and through everything else. -/
theorem walk_call {env : Env} {a : Api} {c c' : Conn} {P : Conn → Prop} (h : M env a c c') (h0 : P c)
    (hmicro : ∀ b d, Micro env a b d → Other a b d →
      (¬Preparing a d.log → SameWire d c') → P b → P d)
    (hfine : ∀ b d, Fine env b d → (∃ l, d.log = l ++ b.log ∧ ∀ x ∈ l, PEff b x ∧ ¬NetEff x) →
      (d.streamLeft = b.streamLeft ∧ d.packetSeen = b.packetSeen ∧ d.incoming = b.incoming) → P b → P d)
    (hio : ∀ m r, SameWire m c' → SameCbs a m c' → P m → P (ioStep env m r)) : P c' := by
  suffices H : ∀ b, M env a c b → M env a b c' → P b from H c' h (.refl _)
  intro b hb
  induction hb with
  | refl => exact fun _ => h0
  | @tail m d _ s ih =>
    intro hdc
    have hm := ih ((Star.one s).trans hdc)
    rcases s.net with hl | hf
    · exact hmicro m d s hl (fun hp => hdc.sameWire hp) hm
    · exact fine_walk hf hdc hfine hio hm

/-- As `walk_call`, with the further knowledge that the final history extends the present one. -/
theorem walk_call' {env : Env} {a : Api} {c c' : Conn} {P : Conn → Prop} (h : M env a c c') (h0 : P c)
    (hmicro : ∀ b d, Micro env a b d → Other a b d →
      (¬Preparing a d.log → SameWire d c') → (∃ y, c'.log = y ++ d.log) → P b → P d)
    (hfine : ∀ b d, Fine env b d → (∃ l, d.log = l ++ b.log ∧ ∀ x ∈ l, PEff b x ∧ ¬NetEff x) →
      (d.streamLeft = b.streamLeft ∧ d.packetSeen = b.packetSeen ∧ d.incoming = b.incoming) → P b → P d)
    (hio : ∀ m r, SameWire m c' → SameCbs a m c' → (∃ y, c'.log = y ++ m.log) → P m → P (ioStep env m r)) : P c' := by
  have := walk_call (P := fun m => (∃ y, c'.log = y ++ m.log) → P m) h (fun _ => h0)
    (fun b d s o w hp hy => hmicro b d s o w hy (hp (by
      obtain ⟨y, hy⟩ := hy; obtain ⟨l, e, _⟩ := o; exact ⟨y ++ l, by rw [hy, e]; simp⟩)))
    (fun b d s l k hp hy => hfine b d s l k (hp (by
      obtain ⟨y, hy⟩ := hy; obtain ⟨l, e, _⟩ := l; exact ⟨y ++ l, by rw [hy, e]; simp⟩)))
    (fun m r w cb hp hy => by
      have hm : ∃ y, c'.log = y ++ m.log := by
        obtain ⟨y, hy⟩ := hy
        obtain ⟨l, e, _⟩ := (ioStep_frame env m r).pFrame.logExt
        exact ⟨y ++ l, by rw [hy, e]; simp⟩
      exact hio m r w cb hm (hp hm))
  exact this ⟨[], rfl⟩

end Lightway
