import Verif.Props.Wire4
import Verif.Props.Plugins
import Verif.Props.Demo

/-!
# C109: what becomes of each TLS record, with any outside plugins
-/

namespace Lightway
open Spec

/-- The egress functions of a chain in the order in which they see an outgoing packet: the one registered last sees it
first. -/
def Spec.egressOrder (ch : Chain) : List PlugFn := ch.reverse.filterMap (fun n => n.bind (·.egress))

/-- What becomes of the packet made of a record: `fs` the plugin functions in order, `p` the packet they are given,
`dropped` and `sent` the figures reported for a record that was dropped and one that was sent, `cb` whether an outside-write
callback is registered, `n` the number of copies, `start` the history before, `before` the one after the plugins ran,
`copies` the transmissions made, `res` what TLS is told. -/
def Spec.Fate (fs : List PlugFn) (p : Bytes) (dropped sent : Nat) (cb : Bool) (n : Nat) (start before copies : Log)
    (res : Option Nat) : Prop :=
  match runAll .pluginEgress 1500 fs start p with
  | (l, _, .drop) => before = l ∧ copies = [] ∧ res = some dropped
  | (l, _, .fail) => before = l ∧ copies = [] ∧ res = none
  | (l, q, .success) => before = l ∧
      (if 1500 < q.length then copies = [] ∧ res = none
       else if cb = false then copies = [] ∧ res = some sent
       else Transmitted n q sent copies res)

/-- What becomes of a record of TLS. -/
def Spec.RecordFate (ty : ConnType) (fs : List PlugFn) (hdr rec : Bytes) (cb : Bool) (n : Nat)
    (start before copies : Log) (res : Option Nat) : Prop :=
  match ty with
  | .datagram =>
    if 1500 < 16 + rec.length then before = start ∧ copies = [] ∧ res = none
    else Fate fs (hdr ++ rec) rec.length rec.length cb n start before copies res
  | .stream => Fate fs (rec.take 1500) rec.length (min rec.length 1500) cb 1 start before copies res

/-- A chain runs its egress functions in that order. -/
theorem egress_order (ch : Chain) (log : Log) (pkt : Bytes) (cap : Nat) :
    Chain.egress ch log pkt cap =
      let r := runAll .pluginEgress cap (egressOrder ch) log pkt
      (r.1, r.2.1, verdict r.2.2) := by
  unfold egressOrder
  induction ch with
  | nil => rfl
  | cons p ps ih =>
    simp only [Chain.egress, ih, List.reverse_cons, List.filterMap_append, runAll_append]
    generalize runAll Effect.pluginEgress cap (List.filterMap (fun n => Option.bind n (·.egress)) ps.reverse) log pkt = r
    obtain ⟨l, q, v⟩ := r
    cases v
    · cases h : p.bind (·.egress) with
      | none => simp [verdict, h, runAll]
      | some f =>
        simp only [verdict, List.filterMap_cons, h, List.filterMap_nil, runAll]
        cases hf : f l q cap with
        | mk v q' => cases v <;> rfl
    · simp [verdict]
    · simp [verdict]

/-- The fate of the packet, read off the chain. -/
theorem fate_of {fs : List PlugFn} {p : Bytes} {dropped sent n : Nat} {cb : Bool} {start before copies : Log}
    {res : Option Nat} {q : Bytes} {v : PluginRet} (h : runAll .pluginEgress 1500 fs start p = (before, q, v))
    (hv : match (generalizing := false) v with
      | .drop => copies = [] ∧ res = some dropped
      | .fail => copies = [] ∧ res = none
      | .success => if 1500 < q.length then copies = [] ∧ res = none
          else if cb = false then copies = [] ∧ res = some sent
          else Transmitted n q sent copies res) :
    Fate fs p dropped sent cb n start before copies res := by
  unfold Fate
  rw [h]
  cases v
  · exact ⟨rfl, hv⟩
  · exact ⟨rfl, hv⟩
  · exact ⟨rfl, hv⟩

/-- One record, on either transport. -/
theorem send_fate (env : Env) (m : Conn) (rec : Bytes) :
    ∃ copies before res, (ioStep env m (.send rec)).log = .sslOut rec res :: (copies ++ before) ∧
      (∀ e ∈ copies, ∃ p r, e = .outsideWrite p r) ∧
      (∃ pl, before = pl ++ m.log ∧ ∀ e ∈ pl, ∃ p r, e = .pluginEgress p r) ∧
      RecordFate m.connType (egressOrder m.outsidePlugins) (wireHeader m) rec m.cbs.outsideWrite
        (if m.state = .online ∧ m.aggressive = false then 1 else 3) m.log before copies res := by
  have hlen : (wireHeader m ++ rec).length = 16 + rec.length := by
    simp only [List.length_append, wireHeader, le64, leN_length, List.length_cons, List.length_nil]
  have cb : ∀ c p, ∃ rc, outsideWriteCb env c p = (c.emit (.outsideWrite p rc), rc) := fun c p => ⟨_, rfl⟩
  cases hd : m.connType with
  | datagram =>
    simp only [ioStep, hd, RecordFate]
    unfold dtlsWrite
    by_cases h1 : rec.length + 16 > maxWireMtu
    · rw [if_pos h1]
      exact ⟨[], m.log, none, rfl, by simp, ⟨[], rfl, by simp⟩, by rw [if_pos (by simp only [maxWireMtu] at h1; omega)]; exact ⟨rfl, rfl, rfl⟩⟩
    rw [if_neg h1]
    have hshort : ¬1500 < 16 + rec.length := by simp only [maxWireMtu] at h1; omega
    simp only [if_neg hshort]
    obtain ⟨pl, hpl, hpe⟩ := Chain.egress_log m.outsidePlugins m.log (wireHeader m ++ rec) maxWireMtu
    have he := egress_order m.outsidePlugins m.log (wireHeader m ++ rec) maxWireMtu
    generalize hrun : runAll .pluginEgress maxWireMtu (egressOrder m.outsidePlugins) m.log (wireHeader m ++ rec) = r at he
    obtain ⟨l, q, v⟩ := r
    generalize Chain.egress m.outsidePlugins m.log (wireHeader m ++ rec) maxWireMtu = eg at he hpl ⊢
    cases v with
    | drop =>
      simp only [verdict] at he; subst he; simp only at hpl ⊢; subst hpl
      exact ⟨[], pl ++ m.log, _, rfl, by simp, ⟨pl, rfl, hpe⟩, fate_of hrun ⟨rfl, rfl⟩⟩
    | fail =>
      simp only [verdict] at he; subst he; simp only at hpl ⊢; subst hpl
      exact ⟨[], pl ++ m.log, _, rfl, by simp, ⟨pl, rfl, hpe⟩, fate_of hrun ⟨rfl, rfl⟩⟩
    | success =>
      simp only [verdict] at he; subst he; simp only at hpl ⊢; subst hpl
      rw [if_neg (show ¬(RC.success = RC.pluginDrop) by simp)]
      by_cases h3 : q.length > maxWireMtu
      · rw [if_pos (.inr h3)]
        exact ⟨[], pl ++ m.log, _, rfl, by simp, ⟨pl, rfl, hpe⟩, fate_of hrun (by rw [if_pos (show 1500 < q.length from h3)]; exact ⟨rfl, rfl⟩)⟩
      rw [if_neg (by simpa using h3)]
      by_cases h4 : m.cbs.outsideWrite = true
      case neg =>
        have h4 : m.cbs.outsideWrite = false := by simpa using h4
        simp only [h4, Bool.not_false, if_true]
        exact ⟨[], pl ++ m.log, _, rfl, by simp, ⟨pl, rfl, hpe⟩, fate_of hrun (by rw [if_neg (show ¬1500 < q.length from h3), if_pos rfl]; exact ⟨rfl, rfl⟩)⟩
      have fin : ∀ (copies : Log) (res : Option Nat), (∀ e ∈ copies, ∃ p r, e = Effect.outsideWrite p r) →
          Transmitted (if m.state = .online ∧ m.aggressive = false then 1 else 3) q rec.length copies res →
          ∃ copies' before res', Effect.sslOut rec res :: (copies ++ (pl ++ m.log)) = .sslOut rec res' :: (copies' ++ before) ∧
            (∀ e ∈ copies', ∃ p r, e = .outsideWrite p r) ∧
            (∃ pl, before = pl ++ m.log ∧ ∀ e ∈ pl, ∃ p r, e = .pluginEgress p r) ∧
            Fate (egressOrder m.outsidePlugins) (wireHeader m ++ rec) rec.length rec.length true
              (if m.state = .online ∧ m.aggressive = false then 1 else 3) m.log before copies' res' := by
        intro copies res hc ht
        exact ⟨copies, pl ++ m.log, res, rfl, hc, ⟨pl, rfl, hpe⟩, fate_of hrun (by rw [if_neg (show ¬1500 < q.length from h3), if_neg (by simp)]; exact ht)⟩
      simp only [h4, Bool.not_true, Bool.false_eq_true, if_false]
      obtain ⟨r1, hr1⟩ := cb { m with log := pl ++ m.log } q
      rw [hr1]
      simp only
      by_cases e1 : r1 = .success
      case neg =>
        simp only [e1, ne_eq, not_false_eq_true, if_true]
        exact fin [.outsideWrite q r1] none (by simp) (.inr ⟨0, r1, by split <;> omega, e1, rfl, rfl⟩)
      simp only [e1, ne_eq, not_true_eq_false, if_false]
      by_cases h5 : m.state = .online ∧ m.aggressive = false
      · rw [if_neg (by simp [Conn.emit, h5.1, h5.2])]
        refine fin [.outsideWrite q .success] (some rec.length) (by simp) (.inl ⟨?_, rfl⟩)
        rw [if_pos h5]; rfl
      rw [if_pos (by
        by_cases hs : m.state = .online
        · exact .inr (by show m.aggressive = true; simpa using fun hh => h5 ⟨hs, hh⟩)
        · exact .inl hs)]
      rw [if_neg h5] at fin ⊢
      obtain ⟨r2, hr2⟩ := cb ({ m with log := pl ++ m.log }.emit (.outsideWrite q .success)) q
      rw [hr2]
      simp only
      by_cases e2 : r2 = .success
      case neg =>
        simp only [e2, not_false_eq_true, if_true]
        exact fin [.outsideWrite q r2, .outsideWrite q .success] none (by simp) (.inr ⟨1, r2, by omega, e2, rfl, rfl⟩)
      simp only [e2, not_true_eq_false, if_false]
      obtain ⟨r3, hr3⟩ := cb (({ m with log := pl ++ m.log }.emit (.outsideWrite q .success)).emit (.outsideWrite q .success)) q
      rw [hr3]
      simp only
      by_cases e3 : r3 = .success
      case neg =>
        simp only [e3, not_false_eq_true, if_true]
        exact fin [.outsideWrite q r3, .outsideWrite q .success, .outsideWrite q .success] none (by simp)
          (.inr ⟨2, r3, by omega, e3, rfl, rfl⟩)
      simp only [e3, not_true_eq_false, if_false]
      exact fin [.outsideWrite q .success, .outsideWrite q .success, .outsideWrite q .success] (some rec.length) (by simp)
        (.inl ⟨rfl, rfl⟩)
  | stream =>
    simp only [ioStep, hd, RecordFate]
    unfold tlsWrite
    have hn : (if rec.length < maxWireMtu then rec.length else maxWireMtu) = min rec.length 1500 := by
      by_cases h : rec.length < maxWireMtu
      · rw [if_pos h]; simp only [maxWireMtu] at h; omega
      · rw [if_neg h]; simp only [maxWireMtu] at h ⊢; omega
    have htk : rec.take (min rec.length 1500) = rec.take 1500 := by
      by_cases h : rec.length < 1500
      · rw [Nat.min_eq_left (by omega), List.take_of_length_le (by omega), List.take_of_length_le (by omega)]
      · rw [Nat.min_eq_right (by omega)]
    rw [hn]
    simp only [htk]
    obtain ⟨pl, hpl, hpe⟩ := Chain.egress_log m.outsidePlugins m.log (rec.take 1500) maxWireMtu
    have he := egress_order m.outsidePlugins m.log (rec.take 1500) maxWireMtu
    generalize hrun : runAll .pluginEgress maxWireMtu (egressOrder m.outsidePlugins) m.log (rec.take 1500) = r at he
    obtain ⟨l, q, v⟩ := r
    generalize Chain.egress m.outsidePlugins m.log (rec.take 1500) maxWireMtu = eg at he hpl ⊢
    cases v with
    | drop =>
      simp only [verdict] at he; subst he; simp only at hpl ⊢; subst hpl
      exact ⟨[], pl ++ m.log, _, rfl, by simp, ⟨pl, rfl, hpe⟩, fate_of hrun ⟨rfl, rfl⟩⟩
    | fail =>
      simp only [verdict] at he; subst he; simp only at hpl ⊢; subst hpl
      exact ⟨[], pl ++ m.log, _, rfl, by simp, ⟨pl, rfl, hpe⟩, fate_of hrun ⟨rfl, rfl⟩⟩
    | success =>
      simp only [verdict] at he; subst he; simp only at hpl ⊢; subst hpl
      rw [if_neg (show ¬(RC.success = RC.pluginDrop) by simp)]
      by_cases h3 : q.length > maxWireMtu
      · rw [if_pos (.inr h3)]
        exact ⟨[], pl ++ m.log, _, rfl, by simp, ⟨pl, rfl, hpe⟩, fate_of hrun (by rw [if_pos (show 1500 < q.length from h3)]; exact ⟨rfl, rfl⟩)⟩
      rw [if_neg (by simpa using h3)]
      by_cases h4 : m.cbs.outsideWrite = true
      case neg =>
        have h4 : m.cbs.outsideWrite = false := by simpa using h4
        simp only [h4, Bool.not_false, if_true]
        exact ⟨[], pl ++ m.log, _, rfl, by simp, ⟨pl, rfl, hpe⟩, fate_of hrun (by rw [if_neg (show ¬1500 < q.length from h3), if_pos rfl]; exact ⟨rfl, rfl⟩)⟩
      simp only [h4, Bool.not_true, Bool.false_eq_true, if_false]
      obtain ⟨r1, hr1⟩ := cb { m with log := pl ++ m.log } q
      rw [hr1]
      simp only
      by_cases e1 : r1 = .success
      case neg =>
        simp only [e1, ne_eq, not_false_eq_true, if_true]
        exact ⟨[.outsideWrite q r1], pl ++ m.log, _, rfl, by simp, ⟨pl, rfl, hpe⟩, fate_of hrun (by
          rw [if_neg (show ¬1500 < q.length from h3), if_neg (by simp)]; exact .inr ⟨0, r1, by omega, e1, rfl, rfl⟩)⟩
      simp only [e1, ne_eq, not_true_eq_false, if_false]
      exact ⟨[.outsideWrite q .success], pl ++ m.log, _, rfl, by simp, ⟨pl, rfl, hpe⟩, fate_of hrun (by
          rw [if_neg (show ¬1500 < q.length from h3), if_neg (by simp)]; exact .inl ⟨rfl, rfl⟩)⟩

/-- **C109.** Whatever outside plugins are registered, every record TLS asks the connection to send during any call meets
exactly this fate.  On a datagram connection a record of more than 1484 bytes is refused before any plugin sees it; otherwise
the datagram - a 16-byte header that decodes to the connection's version, aggressive flag and advertised session id, followed
by the record - goes through the plugins' egress functions, last registered first; on a stream connection the first 1500
bytes of the record do.  If a plugin drops it nothing is transmitted and TLS is told the whole record was sent; if one fails,
or the result exceeds 1500 bytes, nothing is transmitted and TLS is told it failed; without an outside-write callback nothing
is transmitted and TLS is told it was sent; otherwise the result is transmitted: once on a stream and once on a datagram
connection that is ONLINE and not aggressive, else three times, stopping at the first transmission the callback refuses,
which TLS is told. -/
theorem C109_fate_of_a_record {env : Env} {c : Conn} (hg : Good env c) (op : Op) {n o : Log} {rec : Bytes} {res : Option Nat}
    (h : (step env c op).1.log = n ++ .sslOut rec res :: (o ++ c.log)) :
    ∃ copies before start hdr session pending, o ++ c.log = copies ++ before ∧
      RecordFate (step env c op).1.connType (egressOrder (step env c op).1.outsidePlugins) hdr rec
        (registered before).outsideWrite
        (if stateAt before = .online ∧ (step env c op).1.aggressive = false then 1 else 3) start before copies res ∧
      decodeDatagram (hdr ++ rec) = some
        ({ major := (step env c op).1.verMajor, minor := (step env c op).1.verMinor,
           aggressive := (step env c op).1.aggressive,
           session := advertised (step env c op).1.disableRoaming session pending }, rec) ∧
      (op.api ≠ .outsideData → op.api ≠ .serverConnect → op.api ≠ .rotateSession → op.api ≠ .setter →
        session = c.sessionId ∧ pending = c.pendingSessionId) := by
  obtain ⟨b, m, r, n1, o1, n2, h1, h2, h3, h4, h5, h6, h7, h8, h9, h10⟩ := step_locate hg op (by trivial) h
  cases r with
  | recv sz =>
    obtain ⟨res, e⟩ := recv_log env m sz
    rw [e] at h8
    have := (split_in h8).1
    cases this
  | send rec' =>
    obtain ⟨copies, before, res', e, hc, ⟨pl, hb, hpl⟩, hf⟩ := send_fate env m rec'
    rw [e, hb] at h8
    obtain ⟨_, hr, hs, ho⟩ := split_out h8 hc hpl
    subst hr hs
    have hn : ∀ x ∈ pl, Neutral x := by
      intro x hx; obtain ⟨p, r, rfl⟩ := hpl x hx; trivial
    refine ⟨copies, before, m.log, wireHeader m, m.sessionId, m.pendingSessionId, ?_, ?_, ?_, ?_⟩
    · rw [h9, ho, hb]; simp
    · rw [hb, registered_neutral _ hn, stateAt_neutral _ hn, h4, h5, h3.agg, h3.out, h3.ty, ← hb]
      exact hf
    · rw [decode_wire m rec h6 h7, h3.maj, h3.min, h3.agg, h3.roam]
    · intro a1 a2 a3 a4
      have hb : m.sessionId = b.sessionId ∧ m.pendingSessionId = b.pendingSessionId := by
        have := h2.fields; exact ⟨this.2.2.2.2.2.2.1, this.2.2.2.2.2.2.2.1⟩
      have he : (entry c op).sessionId = c.sessionId ∧ (entry c op).pendingSessionId = c.pendingSessionId := by
        cases op <;> exact ⟨rfl, rfl⟩
      have := h1.ids ⟨a1, a2, a3, a4⟩
      rw [hb.1, hb.2, this.1, this.2, he.1, he.2]
      exact ⟨rfl, rfl⟩

namespace Demo

/-- Appends a byte to every outgoing packet. -/
def stamp (k : UInt8) : Plugin := { ingress := none, egress := some (fun _ p _ => (.success, p ++ [k])) }

/-- A client with two outside plugins, online. -/
def stampOps (ty : ConnType) : List Op :=
  [ .setUsername [106, 111, 101], .setPassword [112, 119], .setOutsideMtu 1500,
    .clientConnect { ctx with connType := ty } [] [some (stamp 1), some (stamp 2)],
    .outsideData (dgram [1, 2, 3]) [],
    .outsideData (dgram [9]) [msg (configIpv4Msg 4242 netCfg)] ]

/-- The last two bytes of each buffer written to the network. -/
def tails (l : Log) : List Bytes :=
  l.filterMap fun e => match e with | .outsideWrite p _ => some (p.drop (p.length - 2)) | _ => none

end Demo

/-- Not vacuous: a keepalive of an ONLINE client is written once, with the stamp of the plugin registered last before the
one of the plugin registered first; the AUTH message sent before is written three times on a datagram connection. -/
example : (run Demo.env (Demo.stampOps .datagram)).state = .online ∧
    Demo.tails (Demo.newPart Demo.env (run Demo.env (Demo.stampOps .datagram)) .keepalive) = [[2, 1]] ∧
    (Demo.tails (run Demo.env (Demo.stampOps .datagram)).log).all (· == [2, 1]) = true ∧
    3 ≤ (Demo.tails (run Demo.env (Demo.stampOps .datagram)).log).length ∧
    egressOrder (run Demo.env (Demo.stampOps .datagram)).outsidePlugins ≠ [] := by
  refine ⟨by decide +kernel, by decide +kernel, by decide +kernel, by decide +kernel, ?_⟩
  have h : ((run Demo.env (Demo.stampOps .datagram)).outsidePlugins.map (fun n => (n.bind (·.egress)).isSome)) = [true, true] := by
    decide +kernel
  intro e
  unfold egressOrder at e
  generalize (run Demo.env (Demo.stampOps .datagram)).outsidePlugins = ch at h e
  cases ch with
  | nil => cases h
  | cons a t =>
    simp only [List.map_cons, List.cons.injEq] at h
    rw [List.reverse_cons, List.filterMap_append] at e
    cases hb : a.bind (·.egress) with
    | none => rw [hb] at h; cases h.1
    | some f => simp [hb] at e

end Lightway
