import Verif.Props.Data
import Verif.Props.MssP
import Verif.Props.Plugins

/-!
# Tunnel data from one connection to another (C09, C58)
-/

namespace Lightway
open Spec

theorem writes_tail {l : Log} (log : Log) (h : ∀ x ∈ l, TailEff x) : writes (l ++ log) = writes log := by
  induction l with
  | nil => rfl
  | cons e l ih =>
    have he := h e (by simp)
    have ih := ih (fun x hx => h x (by simp [hx]))
    cases e with
    | sslCall c b => cases c <;> first | exact he.elim | exact ih
    | _ => exact ih

theorem delivered_tail {l : Log} (log : Log) (h : ∀ x ∈ l, TailEff x) : delivered (l ++ log) = delivered log := by
  induction l with
  | nil => rfl
  | cons e l ih =>
    have he := h e (by simp)
    have ih := ih (fun x hx => h x (by simp [hx]))
    cases e <;> first | exact ih | exact he.elim

theorem RFrame.delivered {c d : Conn} (h : RFrame c d) : Spec.delivered d.log = Spec.delivered c.log := by
  obtain ⟨l, _, _, _, _, _, rfl, e⟩ := h; exact delivered_tail _ e

theorem TFrame.delivered {c d : Conn} (h : TFrame c d) : Spec.delivered d.log = Spec.delivered c.log := by
  obtain ⟨l, _, _, _, _, _, _, _, _, _, _, _, rfl, e⟩ := h; exact delivered_tail _ e

theorem RFrame.writes {c d : Conn} (h : RFrame c d) : Spec.writes d.log = Spec.writes c.log := by
  obtain ⟨l, _, _, _, _, _, rfl, e⟩ := h; exact writes_tail _ e

theorem TFrame.writes {c d : Conn} (h : TFrame c d) : Spec.writes d.log = Spec.writes c.log := by
  obtain ⟨l, _, _, _, _, _, _, _, _, _, _, _, rfl, e⟩ := h; exact writes_tail _ e

/-- Fields that receiving keeps until the message is processed. -/
theorem RFrame.fields {c d : Conn} (h : RFrame c d) :
    d.state = c.state ∧ d.isServer = c.isServer ∧ d.cbs = c.cbs ∧ d.verMajor = c.verMajor ∧ d.verMinor = c.verMinor ∧
    d.insidePlugins = c.insidePlugins ∧ d.fragTable = c.fragTable ∧ d.pmtud = c.pmtud ∧
    d.pingPendingId = c.pingPendingId ∧ d.sessionId = c.sessionId ∧ d.pingNextId = c.pingNextId ∧
    d.pendingSessionId = c.pendingSessionId ∧ d.wolfSet = c.wolfSet ∧ d.username = c.username ∧ d.connType = c.connType := by
  obtain ⟨l, _, _, _, _, _, rfl, e⟩ := h
  exact ⟨rfl, rfl, rfl, rfl, rfl, rfl, rfl, rfl, rfl, rfl, rfl, rfl, rfl, rfl, rfl⟩

/-- A reachable ONLINE connection reads messages. -/
theorem online_reading {env : Env} (hok : EnvOk env) {c : Conn} (hg : Good env c) (h : c.state = .online) : Reading c := by
  obtain ⟨o, hi⟩ := hg.inv
  refine ⟨?_, by simp [h], by simp [h], by simp [h]⟩
  cases hw : c.wolfSet with
  | true => rfl
  | false => have := (hi.wolf hok hw).1; simp [h] at this

/-- The receiver finds the payload of a data message of its own version. -/
theorem handleData_dataMsg (c d : Conn) (p : Bytes) (ho : d.state = .online) (hp : p.length < 65536)
    (hv : d.verMajor = c.verMajor ∧ d.verMinor = c.verMinor) :
    handleData d (dataMsg c p) = internalHandleData d p := by
  unfold handleData
  rw [if_neg (by simp [ho])]
  have hlen : (dataMsg c p).length = 3 + p.length + (dataPacketLength c.padding p.length - p.length) := by
    unfold dataMsg; split <;> simp <;> omega
  rw [if_neg (by omega)]
  have h1 : rd (dataMsg c p) 1 2 = some (if c.verMajor = 1 ∧ c.verMinor = 0 then le16 p.length else be16 p.length) := by
    rw [rd_isSome (by omega)]
    congr 1
    unfold dataMsg
    split <;> simp [le16, be16]
  have h3 : rd (dataMsg c p) 3 p.length = some p := by
    rw [rd_isSome (by omega)]
    congr 1
    unfold dataMsg
    split <;> simp [le16, be16]
  rw [h1]
  simp only
  rw [hv.1, hv.2]
  have hl : (if c.verMajor = 1 ∧ c.verMinor = 0 then
      rdLe16 (if c.verMajor = 1 ∧ c.verMinor = 0 then le16 p.length else be16 p.length)
      else rdBe16 (if c.verMajor = 1 ∧ c.verMinor = 0 then le16 p.length else be16 p.length)) = p.length := by
    split
    · exact rdLe16_le16 hp
    · exact rdBe16_be16 hp
  rw [hl, if_neg (by omega), h3]

theorem dataMsg_process (env : Env) (c d : Conn) (p : Bytes) :
    processMessage env d (dataMsg c p) = handleData d (dataMsg c p) := by
  unfold dataMsg processMessage
  simp [msgData, msgNoop, msgPing, msgPong, msgAuth]

/-- Delivery when the egress chain turns `p` into `q`. -/
theorem internalHandleData_delivers (d : Conn) (p q : Bytes) (l : Log) (hcb : d.cbs.insideWrite = true)
    (he : d.insidePlugins.egress d.log p p.length = (l, q, .success)) (hq : q.length ≤ p.length)
    (hv : ipv4Valid q = true) :
    internalHandleData d p = ({ d with log := .insideWrite q :: l }, .success) ∧
      delivered (internalHandleData d p).1.log = q :: delivered d.log := by
  have hd := (egress_cbExt d d.insidePlugins p p.length).delivered
  have : internalHandleData d p = ({ d with log := .insideWrite q :: l }, .success) := by
    unfold internalHandleData
    simp only [he]
    rw [if_neg (by simp), if_neg (by simp), if_neg (by omega), if_neg (by simp [hv]), if_pos hcb]
    rfl
  refine ⟨this, ?_⟩
  rw [this]
  rw [he] at hd
  simp only [Spec.delivered] at hd ⊢
  rw [hd]

theorem clampMss_valid {pkt q : Bytes} {mss : Nat} (h : clampMss pkt mss = some (q, .success)) :
    ipv4Valid pkt = true ∧ ipv4Valid q = true := by
  have hv : ipv4Valid pkt = true := by
    unfold clampMss at h
    split at h
    · cases h
    split at h
    · cases h
    split at h
    · cases h
    · rename_i h3; simpa using h3
  refine ⟨hv, ?_⟩
  obtain ⟨h1, h2, h3, h4, h5⟩ := C19_only_mss_and_checksum pkt q mss _ h
  rw [ipv4Valid_iff] at hv ⊢
  refine ⟨by omega, ?_⟩
  have : byteAt q 0 = byteAt pkt 0 := by
    apply Decidable.byContradiction
    intro hne
    obtain ⟨i, hi, _, hj⟩ := h2 0 hne
    have := MssAt.bounds hi
    omega
  rw [this]; exact hv.2

/-- The receiver's plugins undo the sender's: the packet that comes out of the sender's ingress chain is
turned back by the receiver's egress chain, which the library only allows to keep or shorten a packet. -/
def Undoes (receiver sender : Chain) : Prop :=
  ∀ l l' l1 pkt q cap, sender.ingress l pkt cap = (l1, q, .success) →
    pkt.length ≤ q.length ∧ ∃ l2, receiver.egress l' q q.length = (l2, pkt, .success)

/-- **C09.** Sender and receiver are any two connections in any reachable state, the receiver ONLINE with an
inside-write callback, the same protocol version and plugins that undo the sender's.  If an inside packet made
the sender hand one data message to its TLS layer, then a `he_conn_outside_data_received` call in which the
receiver's TLS layer yields that message delivers exactly one packet to the receiving host: the packet the
sender was given, with its MSS clamped. -/
theorem C09_round_trip (env env' : Env) (hok : EnvOk env') (ops ops' : List Op) (pkt m buf : Bytes) (r : ReadRes) :
    let c := run env ops
    let d := run env' ops'
    writes (step env c (.insidePacket pkt)).1.log = m :: writes c.log → m.head? = some 5 →
    d.state = .online → d.cbs.insideWrite = true →
    (d.verMajor = c.verMajor ∧ d.verMinor = c.verMinor) → Undoes d.insidePlugins c.insidePlugins →
    Accepts (d.emit (.api .outsideData)) buf → r.plain = m →
    ∃ q, clampMss pkt (effectivePmtu c - 40) = some (q, .success) ∧
      delivered (step env' d (.outsideData buf [r])).1.log = q :: delivered d.log := by
  intro c d hm h5 ho hcb hv hun hacc hr
  have hgc : Good env c := run_good env ops
  have hgd : Good env' d := run_good env' ops'
  obtain ⟨s1, s2, s3, s4, s5, s6, s7, s8⟩ := step_inside env hgc pkt
  have hs : c.state = .online := by
    apply Decidable.byContradiction
    intro hs
    rw [(inside_refused env c pkt).1 hs] at hm
    exact absurd (congrArg List.length hm) (by simp [Conn.emit, writes])
  rw [s6, ← s4] at hm
  have hpost := insidePacket_writes env (c.emit (.api .insidePacket)) pkt s1 s2 (s3 hs)
  -- the message is the unfragmented one
  obtain ⟨len, p', k, hmeq, _, _, hprep', _⟩ := padding_of_write env _ pkt m s1 s2 (s3 hs) h5 hm
  obtain ⟨_, ⟨h, _⟩ | ⟨p, hp, hpl, h⟩⟩ := hpost
  · rw [hm] at h; exact absurd (congrArg List.length h) (by simp)
  have hdm : m = dataMsg c p ∧ p.length + 3 ≤ 1500 := by
    rcases h with ⟨_, hl, hw⟩ | ⟨_, _, new, frs, rest, hw, _, hdec, hfr, _⟩
    · rw [hm] at hw
      exact ⟨(List.cons.inj hw).1, hl⟩
    · exfalso
      rw [hm] at hw
      have hnl : new.length = 1 := by
        have := congrArg List.length hw
        simp at this; omega
      match hn : new, hnl with
      | [x], _ =>
        simp at hw
        subst hw
        cases frs with
        | nil => simp at hdec
        | cons f fs =>
          simp at hdec
          have := hdec.1
          unfold decodeFrag at this
          split at this
          · rename_i h15; rw [h5] at h15; simp at h15
          · cases this
  obtain ⟨hdm, hl⟩ := hdm
  obtain ⟨q, lg, hq, hi⟩ := hp
  refine ⟨q, hq, ?_⟩
  have hmlen : m.length ≤ 1500 := by
    have := (C10_padding env ops pkt m h5 (by
      show writes (step env c (.insidePacket pkt)).1.log = _
      rw [s6]; exact hm))
    obtain ⟨_, _, _, _, _, _, _, _, h, _⟩ := this
    exact h
  obtain ⟨e, he, hpost⟩ := recv_one env' d buf r (online_reading hok hgd ho) hacc
    (by rw [hr, hdm]; unfold dataMsg; simp) (by rw [hr]; exact hmlen)
  rw [hr] at hpost
  have hef := he.fields
  have hproc : processMessage env' (e.emit (.message m)) m = internalHandleData (e.emit (.message m)) p := by
    rw [hdm, dataMsg_process, handleData_dataMsg c _ p (by show e.state = _; rw [hef.1]; exact ho) (by omega)
      ⟨by show e.verMajor = _; rw [hef.2.2.2.1]; exact hv.1, by show e.verMinor = _; rw [hef.2.2.2.2.1]; exact hv.2⟩]
  obtain ⟨hle, l2, heg⟩ := hun (c.emit (.api .insidePacket)).log (e.emit (.message m)).log lg q p _ hi
  have hdel := internalHandleData_delivers (e.emit (.message m)) p q l2
    (by show e.cbs.insideWrite = true; rw [hef.2.2.1]; exact hcb)
    (by show e.insidePlugins.egress _ _ _ = _; rw [hef.2.2.2.2.2.1]; exact heg) hle (clampMss_valid hq).2
  rw [hproc] at hpost
  rw [hpost.1.delivered, hdel.2]
  congr 1
  exact he.delivered

/-- Without plugins on either side there is nothing to undo. -/
theorem undoes_none : Undoes [] [] := by
  intro l l' l1 pkt q cap h
  simp [Chain.ingress] at h
  obtain ⟨_, rfl⟩ := h
  exact ⟨Nat.le_refl _, l', rfl⟩

/-- Mirroring plugins that do not shorten packets on the way in, registered alike on both sides. -/
theorem undoes_mirrors (ps : List Plugin) (h : ∀ p ∈ ps, Mirrors p)
    (hlen : ∀ l l1 pkt q cap, (registerAll Chain.create ps).ingress l pkt cap = (l1, q, .success) → pkt.length ≤ q.length) :
    Undoes (registerAll Chain.create ps) (registerAll Chain.create ps) := by
  intro l l' l1 pkt q cap hin
  exact ⟨hlen _ _ _ _ _ hin, C53_inverse ps h l l' l1 pkt q cap q.length hin⟩

/-- Without outside plugins, a datagram with the right header is accepted. -/
theorem accepts_plain (c : Conn) (buf : Bytes) (hp : c.outsidePlugins.isEmpty = true) (ht : c.connType = .datagram)
    (h : 16 ≤ buf.length ∧ buf.take 2 = [72, 101] ∧ field buf 2 2 = [c.verMajor, c.verMinor] ∧
        rdLe (field buf 8 8) ≠ 2 ^ 64 - 1) : Accepts c buf := by
  refine ⟨c.log, buf, ?_, Nat.le_refl _, ?_⟩
  · rw [List.isEmpty_iff.1 hp]; rfl
  · rw [ht]; exact h

/-- A client sends, a server receives: all hypotheses of C09 are met. -/
example : ∃ m, writes (step Demo.env (run Demo.env Demo.clientOps) (.insidePacket Demo.ipPkt)).1.log =
      m :: writes (run Demo.env Demo.clientOps).log ∧ m.head? = some 5 ∧
    (run Demo.env Demo.serverOps).state = .online ∧ (run Demo.env Demo.serverOps).cbs.insideWrite = true ∧
    (run Demo.env Demo.serverOps).verMajor = (run Demo.env Demo.clientOps).verMajor ∧
    (run Demo.env Demo.serverOps).verMinor = (run Demo.env Demo.clientOps).verMinor ∧
    Accepts ((run Demo.env Demo.serverOps).emit (.api .outsideData)) (Demo.dgram [9]) := by
  refine ⟨dataMsg (run Demo.env Demo.clientOps) Demo.ipPkt, by decide +kernel, by decide +kernel, by decide +kernel,
    by decide +kernel, by decide +kernel, by decide +kernel, ?_⟩
  exact accepts_plain _ _ (by decide +kernel) (by decide +kernel) (by decide +kernel)

end Lightway
