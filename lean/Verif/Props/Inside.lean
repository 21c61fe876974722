import Verif.Proofs.Link3
import Verif.Props.Record

/-!
# C110: what the host receives, with any inside plugins
-/

namespace Lightway
open Spec

/-- A slot's buffer has 1500 bytes. -/
theorem Built.dataLength {en : FragEntry} {life : List Fragment} (h1 : Built en life) : en.data.length = 1500 := by
  induction h1 with
  | empty en hd hn => rw [hd]; simp only [zeros, List.length_replicate, maxWireMtu]
  | @put en en' life al rc asm g h hu ih =>
    rcases update_cases hu with ⟨_, rfl, _⟩ | ⟨_, _, _, data, hw, _, _, rfl⟩ | ⟨_, _, ns, hwk, _, _, rfl⟩ | ⟨_, _, hd, tl, data, hwk, hw, _, _, rfl⟩
    · exact ih
    · have := wr_length hw; simp only; omega
    · exact ih
    · have := wr_length hw; simp only; omega

/-- What an inner packet `d` taken out of the message `m` in the history `l` is: the payload of a DATA message (its length
read in the byte order of the version), that of the other kind of data message, or a packet put together from fresh
fragments. -/
def DataIn (maj min : UInt8) (l : Log) (m d : Bytes) : Prop :=
  (m.head? = some 5 ∧ d = field m 3 (if maj = 1 ∧ min = 0 then rdLe (field m 1 2) else num (field m 1 2))) ∨
  (m.head? = some 13 ∧ d = field m 5 (num (field m 1 2))) ∨
  ∃ g life en hd tl now, carried m = some g ∧ Built en life ∧ en.nodes = hd :: tl ∧ hd.last = true ∧ hd.b = 0 ∧
    d = en.data.take hd.e ∧ lastClock l = some now ∧ ∀ f ∈ life, Fresh l (g.id % tableSize l) f now

/-- A delivery of `p` in the history `l` by a chain. -/
def PlugDeliv (ch : Chain) (maj min : UInt8) (l : Log) (p : Bytes) : Prop :=
  ∃ m d start, lastMessage l = some m ∧ DataIn maj min l m d ∧ ch.egress start d d.length = (l, p, .success) ∧
    p.length ≤ d.length

theorem Micro.plugDeliv {env : Env} {a : Api} {c c' : Conn} (h : Micro env a c c') (hf : FInv c) (ha : a = .outsideData) :
    c'.insidePlugins = c.insidePlugins ∧
    ∃ x, c'.log = x ++ c.log ∧ ((∀ p, Effect.insideWrite p ∉ x) ∨ ∃ p, x = [.insideWrite p] ∧
      PlugDeliv c.insidePlugins c.verMajor c.verMinor c.log p) := by
  have hp : ∀ {c' : Conn}, PFrame c c' → c'.insidePlugins = c.insidePlugins ∧ ∃ x, c'.log = x ++ c.log ∧ ((∀ p, Effect.insideWrite p ∉ x) ∨
      ∃ p, x = [.insideWrite p] ∧ PlugDeliv c.insidePlugins c.verMajor c.verMinor c.log p) := by
    rintro c' ⟨l, ps, sl, we, pm, pn, rfl, hl⟩
    exact ⟨rfl, l, rfl, .inl (fun p hp => (hl _ hp).fneut)⟩
  cases h with
  | io r => exact hp (ioStep_frame env c r).pFrame
  | probeAck id h hs hm => exact hp (handleProbeAck_frame env c id)
  | probeTimeout h => exact hp (handleProbeTimeout_frame env c)
  | startBase h hs hd => exact hp (startBaseProbing_frame env c)
  | state s hne h => exact ⟨by unfold setState; split <;> rfl, [.state s c.cbs.stateChange], by simp [setState, hne], .inl (by simp)⟩
  | configure ctx h => rw [ha] at h; rcases h with h | h <;> cases h
  | plugins i o h => rw [ha] at h; rcases h with h | h <;> cases h
  | insideWrite p h hs hc hv hm hnv hver hone hpl =>
    obtain ⟨d, start, h1, h2, h3⟩ := hpl
    obtain ⟨m, hl, hk⟩ := hm
    refine ⟨rfl, [.insideWrite p], rfl, .inr ⟨p, rfl, m, d, start, hl, ?_, h1, h2⟩⟩
    obtain ⟨h5, h13⟩ := h3 m hl
    rcases hk with ⟨hk, _⟩ | ⟨hk, _⟩
    · exact .inl ⟨hk, h5 hk⟩
    · exact .inr (.inl ⟨hk, h13 hk⟩)
  | insideFrag t pkt g en hd tl p h hs hc hv ht hm hg hen hn hlast hb hclk hp hnv hone hpl =>
    obtain ⟨start, h1, h2⟩ := hpl
    refine ⟨rfl, [.insideWrite p], rfl, .inr ⟨p, rfl, pkt, _, start, hm, ?_, h1, h2⟩⟩
    have hnum := hf.num t ht
    obtain ⟨now, hnow, hle⟩ := hclk
    obtain ⟨⟨life, hbu, hsrc⟩, hcl, _⟩ := hf.ent t _ en ht hen
    refine .inr (.inr ⟨g, life, en, hd, tl, now, hg, hbu, hn, hlast, hb, rfl, hnow, fun f hf' => ?_⟩)
    obtain ⟨n, t', a', hn', ht', hmo⟩ := hsrc f hf'
    rw [hnum] at hn'
    exact ⟨n, t', a', hn', ht', fun hmono => by have := hmo hmono; omega⟩
  | quiet e he => exact ⟨rfl, [e], rfl, .inl (by cases e <;> simp_all [Quiet])⟩
  | auth e u _ he => exact ⟨rfl, [e], rfl, .inl (by cases e <;> simp_all [AuthEff])⟩
  | err | dueOff | sessCfg | sessClient | sessServer | rotate | sessSet | creds
  | mtu | version | pingPending | fragNext | fragNew | fragPut | fragDel => exact ⟨rfl, [], rfl, .inl (by simp)⟩
  | _ => exact ⟨rfl, [_], rfl, .inl (by simp)⟩

theorem Star.plugDeliv {env : Env} {a : Api} {c c' : Conn} (h : M env a c c') (hf : FInv c) (ha : a = .outsideData) :
    c'.insidePlugins = c.insidePlugins ∧ c'.verMajor = c.verMajor ∧ c'.verMinor = c.verMinor ∧ FInv c' ∧
    ∃ x, c'.log = x ++ c.log ∧ ∀ n p o, x = n ++ .insideWrite p :: o →
      PlugDeliv c.insidePlugins c.verMajor c.verMinor (o ++ c.log) p := by
  induction h with
  | refl => exact ⟨rfl, rfl, rfl, hf, [], rfl, by simp⟩
  | @tail c1 c2 _ s ih =>
    obtain ⟨hi, hv1, hv2, hf1, x, hx, hd⟩ := ih
    obtain ⟨hi2, y, hy, hc⟩ := s.plugDeliv hf1 ha
    have hk := s.keepVer ha
    refine ⟨hi2.trans hi, hk.1.trans hv1, hk.2.trans hv2, s.finv hf1, y ++ x, by rw [hy, hx, List.append_assoc], ?_⟩
    intro n p o he
    rcases cut_cases he with ⟨o', h1, h2⟩ | ⟨n', h1, h2⟩
    · rcases hc with hc | ⟨p', rfl, h3⟩
      · exact absurd (by rw [h1]; simp) (hc p)
      · have : o' = [] ∧ p = p' := by
          cases n with
          | nil => simp at h1; exact ⟨h1.2, h1.1.symm⟩
          | cons z n => simp at h1
        obtain ⟨rfl, rfl⟩ := this
        have e : o ++ c.log = c1.log := by rw [h2, hx]; rfl
        rw [e, ← hi, ← hv1, ← hv2]
        exact h3
    · exact hd n' p o h2

/-- Every delivery in a call, with the chain the connection had before the call. -/
theorem plug_delivery (env : Env) (ops : List Op) (op : Op) {n o : Log} {p : Bytes}
    (h : (step env (run env ops) op).1.log = n ++ .insideWrite p :: (o ++ (run env ops).log)) :
    PlugDeliv (run env ops).insidePlugins (run env ops).verMajor (run env ops).verMinor (o ++ (run env ops).log) p := by
  obtain ⟨or, hi⟩ := (run_good env ops).inv
  have hs := exec_star env or (run env ops) op hi
  have e2 : (entry (run env ops) op).log = .api op.api :: (run env ops).log := by cases op <;> rfl
  have hfe : FInv (entry (run env ops) op) := by
    refine (run_finv env ops).extend (x := [.api op.api]) e2 (by simp [FNeut]) ?_ ?_ <;> cases op <;> rfl
  have hlog : ∀ {x}, (exec env ((run env ops).emit (.api op.api)) op).1.log = x ++ (entry (run env ops) op).log →
      n ++ .insideWrite p :: (o ++ (run env ops).log) =
      (.ret (step env (run env ops) op).2 :: (x ++ [.api op.api])) ++ (run env ops).log := by
    intro x hx
    rw [← h]
    show .ret _ :: (exec env ((run env ops).emit (.api op.api)) op).1.log = _
    rw [hx, e2]; simp only [List.cons_append, List.append_assoc]; rfl
  have key : ∀ {x}, n ++ .insideWrite p :: (o ++ (run env ops).log) =
      (.ret (step env (run env ops) op).2 :: (x ++ [.api op.api])) ++ (run env ops).log →
      ∃ n' o', x = n' ++ .insideWrite p :: o' ∧ o ++ (run env ops).log = o' ++ (entry (run env ops) op).log := by
    intro x he
    have h2 : n ++ .insideWrite p :: o = .ret (step env (run env ops) op).2 :: (x ++ [.api op.api]) := by
      apply List.append_cancel_right (bs := (run env ops).log)
      rw [← he]; simp
    cases n with
    | nil => simp at h2
    | cons z n =>
      simp only [List.cons_append, List.cons.injEq] at h2
      rcases cut_cases h2.2.symm with ⟨o2, h3, h4⟩ | ⟨n2, h3, h4⟩
      · exact ⟨n, o2, h3, by rw [h4, e2]; simp⟩
      · cases n2 with
        | nil => simp at h4
        | cons z n2 => simp at h4
  obtain ⟨x, hx, -, -, hd⟩ := Star.newDeliv hs hfe
  obtain ⟨n', o', h1, h2⟩ := key (hlog hx)
  obtain ⟨ha, -, -⟩ := hd n' p o' h1
  obtain ⟨-, -, -, -, y, hy, hd⟩ := Star.plugDeliv hs hfe ha
  obtain ⟨n', o', h1, h2⟩ := key (hlog hy)
  rw [h2]
  have e : (entry (run env ops) op).insidePlugins = (run env ops).insidePlugins ∧
      (entry (run env ops) op).verMajor = (run env ops).verMajor ∧
      (entry (run env ops) op).verMinor = (run env ops).verMinor := by cases op <;> exact ⟨rfl, rfl, rfl⟩
  rw [← e.1, ← e.2.1, ← e.2.2]
  exact hd n' p o' h1

/-- **C110.** Whatever inside plugins are registered, a packet handed to the host is what the plugins' egress functions,
last registered first, all reporting success and the buffer having room for exactly the inner packet, made of the inner
packet that came in the message being processed.  The inner packet `d` is: for a DATA message its payload (length in the byte
order of the protocol version); for the other kind of data message likewise; for a fragment a packet of at most 1500 bytes
of which every byte is zero or the byte at that place of a fragment that arrived for the slot since it was last emptied, and
all of `P` if the fresh fragments of the slot all belong to `P`.  The plugins cannot make the packet longer, and what the
host is handed is a valid IPv4 packet. -/
theorem C110_host_gets_what_plugins_made (env : Env) (ops : List Op) (op : Op) {n o : Log} {p : Bytes}
    (h : (step env (run env ops) op).1.log = n ++ .insideWrite p :: (o ++ (run env ops).log)) :
    ∃ m d start, lastMessage (o ++ (run env ops).log) = some m ∧
      runAll .pluginEgress d.length (egressOrder (run env ops).insidePlugins) start d =
        (o ++ (run env ops).log, p, .success) ∧
      p.length ≤ d.length ∧ 20 ≤ p.length ∧ (∃ b, p.head? = some b ∧ b.toNat / 16 = 4) ∧
      (m.head? = some 5 ∧ d = field m 3 (if (run env ops).verMajor = 1 ∧ (run env ops).verMinor = 0
            then rdLe (field m 1 2) else num (field m 1 2)) ∨
       m.head? = some 13 ∧ d = field m 5 (num (field m 1 2)) ∨
       ∃ g, carried m = some g ∧ d.length ≤ 1500 ∧
        (∀ i v, d[i]? = some v → v = 0 ∨ ∃ f n', Held (o ++ (run env ops).log)
            (g.id % tableSize (o ++ (run env ops).log)) f n' ∧ f.off ≤ i ∧ f.data[i - f.off]? = some v) ∧
        ∀ id P frs now, Fragments id P frs → lastClock (o ++ (run env ops).log) = some now →
          (∀ f, Fresh (o ++ (run env ops).log) (g.id % tableSize (o ++ (run env ops).log)) f now → f ∈ frs) → d = P) := by
  obtain ⟨m, d, start, hm, hd, he, hl⟩ := plug_delivery env ops op h
  have hv : ipv4Valid p = true := by
    have hr : (run env (ops ++ [op])).log = n ++ .insideWrite p :: (o ++ (run env ops).log) := by rw [run_snoc]; exact h
    exact ((run_finv env (ops ++ [op])).all.at hr p rfl).1
  have hip : 20 ≤ p.length ∧ ∃ b, p.head? = some b ∧ b.toNat / 16 = 4 := by
    cases p with
    | nil => simp [ipv4Valid] at hv
    | cons b t =>
      simp [ipv4Valid] at hv
      exact ⟨by simp; omega, b, rfl, hv.2⟩
  refine ⟨m, d, start, hm, ?_, hl, hip.1, hip.2, ?_⟩
  · rw [egress_order] at he
    generalize runAll .pluginEgress d.length (egressOrder (run env ops).insidePlugins) start d = r at he
    obtain ⟨l, q, v⟩ := r
    simp only [Prod.mk.injEq] at he
    obtain ⟨rfl, rfl, hv⟩ := he
    cases v <;> simp [verdict] at hv ⊢
  · rcases hd with h5 | h13 | ⟨g, life, en, hd, tl, now, h1, h2, h3, h4, h5, h6, h7, h8⟩
    · exact .inl h5
    · exact .inr (.inl h13)
    · refine .inr (.inr ⟨g, h1, ?_, ?_, ?_⟩)
      · rw [h6]
        have := h2.dataLength
        simp; omega
      · intro i v hv
        rw [h6] at hv
        have hi : i < hd.e := by
          rcases Nat.lt_or_ge i hd.e with hi | hi
          · exact hi
          · rw [List.getElem?_eq_none (by simp; omega)] at hv; cases hv
        rw [List.getElem?_take_of_lt hi] at hv
        rcases h2.bytes i v hv with h | ⟨f, hf, h9, h10⟩
        · exact .inl h
        · obtain ⟨n, t, a, hn, _⟩ := h8 f hf
          exact .inr ⟨f, _, hn, h9, h10⟩
      · intro id P frs now' hP hnow hall
        rw [h7] at hnow
        cases hnow
        rw [h6]
        exact h2.whole hP (fun f hf => hall f (h8 f hf)) h3 h4 h5

namespace Demo

/-- Turns the last byte of every packet it sees on its way to the host into `k`. -/
def mark (k : UInt8) : Plugin :=
  { ingress := none, egress := some (fun _ p _ => (.success, p.take (p.length - 1) ++ [k])) }

/-- A client with two inside plugins, online. -/
def markOps : List Op :=
  [ .setUsername [106, 111, 101], .setPassword [112, 119], .setOutsideMtu 1500,
    .clientConnect { ctx with connType := .stream } [some (mark 1), some (mark 2)] [],
    .outsideData [] [],
    .outsideData [9] [msg (configIpv4Msg 4242 netCfg)] ]

/-- A DATA message with the 28-byte packet, received. -/
def inData : Op := .outsideData [1] [msg ([5, 0, 28] ++ ipPkt)]

/-- A packet in two fragments of 24 and 4 bytes, received. -/
def inFrags : List Op :=
  [ .outsideData [1] [msg ([15, 0, 24, 0, 7, 32, 0] ++ ipPkt.take 24)],
    .outsideData [1] [msg ([15, 0, 4, 0, 7, 0, 3] ++ ipPkt.drop 24)] ]

/-- The packets handed to the host. -/
def handed (l : Log) : List Bytes := l.filterMap fun e => match e with | .insideWrite p => some p | _ => none

end Demo

/-- Not vacuous: the packet in a DATA message, and one that came in two fragments, are handed to the host with the mark of
the plugin registered first, which sees them last. -/
example : (run Demo.env Demo.markOps).state = .online ∧
    Demo.handed (Demo.newPart Demo.env (run Demo.env Demo.markOps) Demo.inData) = [Demo.ipPkt.take 27 ++ [1]] ∧
    Demo.handed (run Demo.env (Demo.markOps ++ Demo.inFrags)).log = [Demo.ipPkt.take 27 ++ [1]] := by
  refine ⟨by decide +kernel, by decide +kernel, by decide +kernel⟩

end Lightway
