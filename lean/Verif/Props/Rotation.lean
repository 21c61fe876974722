import Verif.Props.Sent

/-!
# Session rotation between two parties over a lossy network: C32

Two connection objects, one a server, one a client, and the datagrams each has passed to its outside-write callback so far.
A delivery picks any datagram ever sent, any number of times and in any order, or never: that is loss, duplication, delay and
reordering.  Between deliveries the hosts make calls in any order.
-/

namespace Lightway
open Spec

namespace Spec

/-- What one call adds to the history. -/
def newPart (env : Env) (c : Conn) (op : Op) : Log :=
  (step env c op).1.log.take ((step env c op).1.log.length - c.log.length)

/-- The session id in a datagram's header. -/
def headerId (p : Bytes) : Nat := numLe (field p 8 8)

/-- Both ends and everything ever put on the network: `down` from the server, `up` from the client. -/
structure Net where
  server : Conn
  client : Conn
  down : List Bytes
  up : List Bytes

/-- What can happen. -/
inductive Act
  /-- the server's host makes a call other than receiving -/
  | server (op : Op)
  /-- the client's host makes a call other than receiving -/
  | client (op : Op)
  /-- a datagram reaches the client; the TLS library then delivers `reads` -/
  | toClient (buf : Bytes) (reads : List ReadRes)
  /-- a datagram reaches the server -/
  | toServer (buf : Bytes) (reads : List ReadRes)

/-- The datagrams passed to outside-write in a piece of history. -/
def written (l : Log) : List Bytes := l.filterMap (fun e => match e with | .outsideWrite p _ => some p | _ => none)

/-- The effect of one action; `envS`, `envC` are the environments of the two ends. -/
def Net.act (envS envC : Env) (s : Net) : Act → Net
  | .server op =>
    { s with server := (step envS s.server op).1, down := written (newPart envS s.server op) ++ s.down }
  | .client op =>
    { s with client := (step envC s.client op).1, up := written (newPart envC s.client op) ++ s.up }
  | .toClient buf reads =>
    { s with client := (step envC s.client (.outsideData buf reads)).1,
             up := written (newPart envC s.client (.outsideData buf reads)) ++ s.up }
  | .toServer buf reads =>
    { s with server := (step envS s.server (.outsideData buf reads)).1,
             down := written (newPart envS s.server (.outsideData buf reads)) ++ s.down }

/-- Which actions are considered: calls other than connecting and setting the id; only datagrams that were sent are delivered; and
the TLS channel is authentic: a configuration message delivered to the client is one the server wrote. -/
def Net.Allowed (envC : Env) (s : Net) : Act → Prop
  | .server op => Ordinary op ∧ op.api ≠ .outsideData
  | .client op => Ordinary op ∧ op.api ≠ .outsideData
  | .toClient buf reads => buf ∈ s.down ∧ ∀ m, .message m ∈ newPart envC s.client (.outsideData buf reads) → IsConfigMsg m →
      ∃ ok, .sslCall (.write m) ok ∈ s.server.log
  | .toServer buf _ => buf ∈ s.up

/-- Any number of allowed actions of the kinds `P`. -/
def Net.Path (envS envC : Env) (P : Act → Prop) : Net → Net → Prop :=
  Star (fun s t => ∃ a, P a ∧ s.Allowed envC a ∧ t = s.act envS envC a)

/-- Anything may happen. -/
def AnyAct (_ : Act) : Prop := True

/-- A datagram connection without outside plugins, with roaming. -/
structure Wired (c : Conn) : Prop where
  ty : c.connType = .datagram
  out : c.outsidePlugins.plugins = 0
  roam : c.disableRoaming = false

/-- An id the server has, or none. -/
def Net.Known (s : Net) (i : Nat) : Prop := i = 0 ∨ i = s.server.sessionId ∨ i = s.server.pendingSessionId

/-- Where to start: a server and a client that exist (in any phase of their lives), and no ids around but the server's. -/
structure Net.Start (envS envC : Env) (s : Net) : Prop where
  gs : Good envS s.server
  gc : Good envC s.client
  rs : s.server.isServer = true
  rc : s.client.isServer = false
  ws : Wired s.server
  wc : Wired s.client
  pc : s.client.pendingSessionId = 0
  cs : s.Known s.client.sessionId
  down : ∀ p ∈ s.down, s.Known (headerId p)
  up : ∀ p ∈ s.up, s.Known (headerId p)
  cfg : ∀ m ok, .sslCall (.write m) ok ∈ s.server.log → IsConfigMsg m → s.Known (numLe (field m 97 8))

/-- The server has had this id, as its current or its pending one, at some time between `s` and `t`. -/
def Net.ServerHad (envS envC : Env) (s t : Net) (i : Nat) : Prop :=
  ∃ a : Net, s.Path envS envC AnyAct a ∧ a.Path envS envC AnyAct t ∧
    (a.server.sessionId = i ∨ a.server.pendingSessionId = i)

/-- Between `s` and `t` a datagram with this id, sent by the server, reached the client and passed its header check. -/
def Net.ClientHeard (envS envC : Env) (s t : Net) (i : Nat) : Prop :=
  ∃ (a : Net) (buf : Bytes) (reads : List ReadRes), s.Path envS envC AnyAct a ∧ a.Allowed envC (.toClient buf reads) ∧
    headerId buf = i ∧ (∃ body, .input i body ∈ newPart envC a.client (.outsideData buf reads)) ∧
    (a.act envS envC (.toClient buf reads)).Path envS envC AnyAct t

end Spec

/-! ## One call -/

theorem newPart_log {env : Env} {c : Conn} (hg : Good env c) (op : Op) :
    (step env c op).1.log = newPart env c op ++ c.log := by
  obtain ⟨⟨ap, hi⟩, hs⟩ := hg
  obtain ⟨l, e, _⟩ := step_log env op hi
  have e' : (step env c op).1.log = (.ret (step env c op).2 :: l ++ [.api op.api]) ++ c.log := by rw [e]; simp
  unfold newPart
  rw [e', List.length_append, Nat.add_sub_cancel, List.take_left' rfl]

theorem newPart_mem {env : Env} {c : Conn} (hg : Good env c) (op : Op) {e : Effect} (h : e ∈ newPart env c op) :
    ∃ n o, (step env c op).1.log = n ++ e :: (o ++ c.log) := by
  obtain ⟨n, o, hn⟩ := List.append_of_mem h
  exact ⟨n, o, by rw [newPart_log hg, hn]; simp⟩

theorem mem_written {l : Log} {p : Bytes} (h : p ∈ written l) : ∃ rc, .outsideWrite p rc ∈ l := by
  unfold written at h
  obtain ⟨e, he, hp⟩ := List.mem_filterMap.mp h
  cases e <;> simp at hp
  subst hp
  exact ⟨_, he⟩

/-- Calls other than connects keep how the connection is wired. -/
theorem Micro.wired {env : Env} {a : Api} {c c' : Conn} (h : Micro env a c c') (ha : ¬IsConnect a) (hw : Wired c) : Wired c' := by
  obtain ⟨h1, h2, h3⟩ := hw
  have pf : ∀ {d : Conn}, PFrame c d → Wired d := by
    rintro d ⟨l, ps, sl, we, pm, pn, rfl, -⟩
    exact ⟨h1, h2, h3⟩
  cases h with
  | io r => exact pf (ioStep_frame env c r).pFrame
  | state s hne h => unfold setState; split <;> exact ⟨h1, h2, h3⟩
  | configure ctx h hq => exact absurd h ha
  | plugins i o h hq => exact absurd h ha
  | probeAck id h hs hm => exact pf (handleProbeAck_frame env c id)
  | probeTimeout h => exact pf (handleProbeTimeout_frame env c)
  | startBase h hs hd => exact pf (startBaseProbing_frame env c)
  | _ => exact ⟨h1, h2, h3⟩

theorem Ordinary.notConnect {op : Op} (h : Ordinary op) : ¬IsConnect op.api := fun g => g.elim h.1 h.2.1

theorem step_wired {env : Env} {c : Conn} (hg : Good env c) (op : Op) (ho : Ordinary op) (hw : Wired c) : Wired (step env c op).1 := by
  obtain ⟨⟨ap, hi⟩, hs⟩ := hg
  have key : ∀ {a : Api} {x y : Conn}, M env a x y → ¬IsConnect a → Wired x → Wired y := by
    intro a x y h ha hx
    induction h with
    | refl => exact hx
    | tail _ s ih => exact s.wired ha ih
  have h0 : Wired (entry c op) := by cases op <;> exact ⟨hw.1, hw.2, hw.3⟩
  have := key (exec_star env ap c op hi) ho.notConnect h0
  exact ⟨this.1, this.2, this.3⟩

theorem ordinary_recv (buf : Bytes) (reads : List ReadRes) : Ordinary (.outsideData buf reads) := by
  refine ⟨?_, ?_, ?_⟩ <;> simp [Op.api]

theorem decode_headerId {p b : Bytes} {h : Header} (e : decodeDatagram p = some (h, b)) : headerId p = h.session := by
  unfold decodeDatagram at e
  split at e
  · split at e
    · simp only [Option.some.injEq, Prod.mk.injEq] at e
      rw [← e.1]
      simp [headerId, field]
    · cases e
  · cases e

/-- Setters write nothing. -/
theorem setter_log (env : Env) (c : Conn) (op : Op) (h : op.api = .setter) :
    ∃ y, (exec env c op).1.log = y ++ c.log ∧ ∀ x ∈ y, ∃ s, x = .ub s := by
  cases op <;> simp only [Op.api, reduceCtorEq] at h
  all_goals
    simp only [exec, setUsername, setPassword, setAuthToken, setAuthBuffer, setOutsideMtu, setProtocolVersion, setSni,
      setSessionId]
    repeat' split
    all_goals first
      | exact ⟨[], rfl, by simp⟩
      | exact ⟨[_], rfl, by simp⟩

theorem newPart_setter {env : Env} {c : Conn} (op : Op) (h : op.api = .setter) {e : Effect} (he : e ∈ newPart env c op) :
    (∃ s, e = .ub s) ∨ e = .api .setter ∨ ∃ rc, e = .ret rc := by
  obtain ⟨y, hy, hu⟩ := setter_log env (c.emit (.api op.api)) op h
  have : (step env c op).1.log = (.ret (step env c op).2 :: y ++ [.api op.api]) ++ c.log := by
    show Effect.ret (step env c op).2 :: (exec env (c.emit (.api op.api)) op).1.log = _
    rw [hy]
    show Effect.ret (step env c op).2 :: (y ++ .api op.api :: c.log) = _
    simp
  unfold newPart at he
  rw [this, List.length_append, Nat.add_sub_cancel, List.take_left'  rfl] at he
  simp only [List.cons_append, List.mem_cons, List.mem_append, List.not_mem_nil, or_false] at he
  rcases he with he | he | he
  · exact .inr (.inr ⟨_, he⟩)
  · exact .inl (hu e he)
  · rw [h] at he; exact .inr (.inl he)

theorem newPart_rotate {env : Env} {c : Conn} (hg : Good env c) {e : Effect} (he : e ∈ newPart env c .rotateSession) :
    e = .api .rotateSession ∨ (∃ rc, e = .ret rc) ∨ ∃ v, e = .rng v := by
  have hl := newPart_log hg .rotateSession
  have key : ∀ x : Log, (step env c .rotateSession).1.log = x ++ c.log → e ∈ x := by
    intro x hx
    rw [hx] at hl
    rw [List.append_cancel_right hl]; exact he
  rcases step_rotate env c with ⟨_, h⟩ | ⟨_, _, ⟨_, _, _, h⟩ | ⟨v, _, _, _, h⟩⟩
  · have := key [.ret .invalidConnState, .api .rotateSession] (by rw [h]; rfl)
    simp at this
    rcases this with h | h <;> simp [h]
  · have := key [.ret .rngFailure, .rng none, .api .rotateSession] (by rw [h]; rfl)
    simp at this
    rcases this with h | h | h <;> simp [h]
  · have := key [.ret .success, .rng (some (v % 2 ^ 64)), .api .rotateSession] (by rw [h]; rfl)
    simp at this
    rcases this with h | h | h <;> simp [h]

/-- The ids in the datagrams of one call. -/
theorem written_id {env : Env} {c : Conn} (hg : Good env c) (op : Op) (ho : Ordinary op) (hw : Wired c) {p : Bytes}
    (h : p ∈ written (newPart env c op)) :
    (op.api ≠ .outsideData → headerId p = advertised false c.sessionId c.pendingSessionId) ∧
    (op.api = .outsideData → c.isServer = true → headerId p = advertised false c.sessionId c.pendingSessionId) ∧
    (op.api = .outsideData → c.isServer = false → c.pendingSessionId = 0 →
      headerId p = c.sessionId ∨ Learnt (headerId p) (newPart env c op)) := by
  obtain ⟨rc, h⟩ := mem_written h
  have hset : op.api ≠ .setter := by
    intro hs
    rcases newPart_setter op hs h with ⟨s, e⟩ | e | ⟨r, e⟩ <;> cases e
  have hrot : op.api ≠ .rotateSession := by
    intro hs
    have : op = .rotateSession := by cases op <;> simp_all [Op.api]
    subst this
    rcases newPart_rotate hg h with e | ⟨r, e⟩ | ⟨v, e⟩ <;> cases e
  obtain ⟨n, o, hl⟩ := newPart_mem hg op h
  have hw' := step_wired hg op ho hw
  obtain ⟨rec, res, newer, copies, session, pending, h1, h2, h3, h4, h5, h6⟩ := C23_header_round_trip hg op hw'.ty hw'.out hl
  have hid := decode_headerId h3
  rw [hw'.roam] at hid
  refine ⟨fun ha => ?_, fun ha hr => ?_, fun ha hr hp => ?_⟩
  · obtain ⟨e1, e2⟩ := h4 ha ho.2.1 hrot hset
    rw [hid, e1, e2]
  · rw [hid]; exact h5 ha hr false
  · obtain ⟨e1, e2⟩ := h6 ha hr
    rw [hp] at e1
    have hid : headerId p = session := by rw [hid, e1]; rfl
    rw [hid]
    rcases e2 with e2 | ⟨since, e2, e3⟩
    · exact .inl e2
    · right
      have hnp : newPart env c op = n ++ .outsideWrite p rc :: o := by
        have := newPart_log hg op
        rw [hl] at this
        have h' : (n ++ .outsideWrite p rc :: o) ++ c.log = newPart env c op ++ c.log := by rw [← this]; simp
        exact (List.append_cancel_right h').symm
      have ho : o = since ++ [.api .outsideData] := by
        have h' : o ++ c.log = (since ++ [.api .outsideData]) ++ c.log := by rw [e2]; simp
        exact List.append_cancel_right h'
      rcases e3 with ⟨pkt, m1, m2⟩ | ⟨body, m1⟩
      · exact .inl ⟨pkt, by rw [hnp, ho]; simp [m1], m2⟩
      · exact .inr ⟨body, by rw [hnp, ho]; simp [m1]⟩

/-! ## Configuration messages -/

/-- Configuration messages in this piece of history carry this id. -/
def CfgId (i : Nat) (l : Log) : Prop := ∀ m ok, Effect.sslCall (.write m) ok ∈ l → m.head? = some 6 → field m 97 8 = le64 i

theorem CfgId.noSend {i : Nat} {l : Log} (h : ∀ e ∈ l, NoSend e) : CfgId i l := fun _ _ hm _ => (h _ hm).elim

theorem CfgId.append {i : Nat} {l k : Log} (h : CfgId i l) (g : CfgId i k) : CfgId i (l ++ k) := fun m ok hm => by
  rcases List.mem_append.mp hm with hm | hm
  · exact h m ok hm
  · exact g m ok hm

theorem Fine.cfgId {env : Env} {c c' : Conn} (hf : Fine env c c') (hlt : c.pingNextId < 65536) (i : Nat) :
    c'.pingNextId < 65536 ∧ ∃ l, c'.log = l ++ c.log ∧ CfgId i l := by
  cases hf with
  | io r =>
    obtain ⟨x, e, hx⟩ := ioStep_noSend env c r
    exact ⟨by rw [ioStep_pingNext]; exact hlt, x, e, .noSend hx⟩
  | err | pm => exact ⟨hlt, [], rfl, .noSend (by simp)⟩
  | probe pm mtu ok hs h1 h2 =>
    obtain ⟨s1, s2, s3, s4, s5⟩ := probeMsg_shape c.pingNextId h1 h2
    refine ⟨Nat.mod_lt _ (by omega), [_], rfl, fun m k hm h6 => ?_⟩
    simp only [List.mem_singleton, Effect.sslCall.injEq, SslCall.write.injEq] at hm
    rw [hm.1, s2] at h6; cases h6
  | note e he hn hw =>
    refine ⟨hlt, [e], rfl, fun m k hm h6 => ?_⟩
    simp only [List.mem_singleton] at hm
    exact absurd hm.symm (hw _ _)

theorem fine_cfgId {env : Env} {c c' : Conn} (hf : Star (Fine env) c c') (hlt : c.pingNextId < 65536) (i : Nat) :
    c'.pingNextId < 65536 ∧ ∃ l, c'.log = l ++ c.log ∧ CfgId i l := by
  induction hf with
  | refl => exact ⟨hlt, [], rfl, .noSend (by simp)⟩
  | tail _ s ih =>
    obtain ⟨h1, l, e1, h2⟩ := ih
    obtain ⟨h3, k, e2, h4⟩ := s.cfgId h1 i
    exact ⟨h3, k ++ l, by rw [e2, e1]; simp, h4.append h2⟩

theorem Micro.cfgId {env : Env} {a : Api} {c c' : Conn} (hm : Micro env a c c') (hs : Sizes c) :
    ∃ l, c'.log = l ++ c.log ∧ CfgId c.sessionId l := by
  have one : ∀ e : Effect, NoSend e → CfgId c.sessionId [e] := fun e he => .noSend (by simpa using he)
  cases hm with
  | io r =>
    obtain ⟨x, e, hx⟩ := ioStep_noSend env c r
    exact ⟨x, e, .noSend hx⟩
  | state s hne _ => exact ⟨[.state s c.cbs.stateChange], by simp [setState, hne], one _ trivial⟩
  | configure ctx _ =>
    obtain ⟨x, y, ok, ft, e, _⟩ := configure_shape env c ctx
    rw [e]
    refine ⟨[_, _, _], rfl, fun m k hm h6 => ?_⟩
    simp at hm
  | quiet e he =>
    refine ⟨[e], rfl, one e ?_⟩
    cases e with
    | sslCall call ok => cases call <;> first | trivial | exact he.elim
    | table n => simp [Quiet] at he
    | _ => trivial
  | auth e u _ he => exact ⟨[e], rfl, one e (by cases e <;> simp_all [AuthEff, NoSend])⟩
  | write m ok hw hp ha hc =>
    refine ⟨[_], rfl, fun m' k hm h6 => ?_⟩
    simp only [List.mem_singleton, Effect.sslCall.injEq, SslCall.write.injEq] at hm
    rw [hm.1] at h6 ⊢
    exact hc h6
  | ping ok ha hst =>
    obtain ⟨s1, s2, s3, s4⟩ := pingMsg_shape c.pingNextId
    refine ⟨[_], rfl, fun m' k hm h6 => ?_⟩
    simp only [List.mem_singleton, Effect.sslCall.injEq, SslCall.write.injEq] at hm
    rw [hm.1, s2] at h6; cases h6
  | probeAck id ha hst hmsg => exact (fine_cfgId (handleProbeAck_fine env c id) hs.pingNext _).2
  | probeTimeout ha => exact (fine_cfgId (handleProbeTimeout_fine env c) hs.pingNext _).2
  | startBase ha => exact (fine_cfgId (startBaseProbing_fine env c) hs.pingNext _).2
  | err | dueOff | sessCfg | sessClient | sessServer | rotate | sessSet | creds
  | mtu | version | pingPending | fragNext | fragNew | fragPut | fragDel => exact ⟨[], rfl, .noSend (by simp)⟩
  | _ => exact ⟨[_], rfl, one _ trivial⟩

/-- Input since the call began. -/
theorem input_since {x z o old : Log} {a : Api} {i : Nat} {body : Bytes} (h : x ++ Effect.api a :: old = z ++ Effect.input i body :: o)
    (g : ∀ e ∈ z, NoMark e) : Effect.input i body ∈ x := by
  induction x generalizing z with
  | nil =>
    cases z with
    | nil => simp at h
    | cons w z =>
      simp only [List.nil_append, List.cons_append, List.cons.injEq] at h
      have := g w (by simp)
      rw [← h.1] at this
      exact this.elim
  | cons v x ih =>
    cases z with
    | nil =>
      simp only [List.nil_append, List.cons_append, List.cons.injEq] at h
      simp [h.1]
    | cons w z =>
      simp only [List.cons_append, List.cons.injEq] at h
      exact List.mem_cons_of_mem _ (ih h.2 (fun e he => g e (by simp [he])))

/-- Configuration messages written on a server while receiving: the session id or the pending one. -/
theorem Star.cfgRecv {env : Env} {c c' : Conn} {old : Log} (h : M env .outsideData c c') (hs : Sizes c) (hr : c.isServer = true)
    (hl : c.log = .api .outsideData :: old) :
    c'.isServer = true ∧ ∃ l, c'.log = l ++ c.log ∧ (∀ e ∈ l, NoMark e) ∧
      ((c'.sessionId = c.sessionId ∧ c'.pendingSessionId = c.pendingSessionId ∧ CfgId c.sessionId l) ∨
       (c'.sessionId = c.pendingSessionId ∧ c'.pendingSessionId = 0 ∧ (∃ body, .input c.pendingSessionId body ∈ l) ∧
        ∀ m ok, Effect.sslCall (.write m) ok ∈ l → m.head? = some 6 →
          field m 97 8 = le64 c.sessionId ∨ field m 97 8 = le64 c.pendingSessionId)) := by
  induction h with
  | refl => exact ⟨hr, [], rfl, by simp, .inl ⟨rfl, rfl, .noSend (by simp)⟩⟩
  | @tail b d h0 s ih =>
    obtain ⟨i1, x, i2, i3, i4⟩ := ih
    obtain ⟨h1, h2⟩ := s.idsRecv
    obtain ⟨y, e1, e2⟩ := s.logExt
    obtain ⟨y', e1', e3⟩ := s.cfgId (h0.sizes hs)
    have : y' = y := List.append_cancel_right (e1'.symm.trans e1)
    subst this
    have hm : ∀ e ∈ y' ++ x, NoMark e := by
      intro e he
      rcases List.mem_append.mp he with h | h
      · exact e2 e h
      · exact i3 e h
    refine ⟨h1.trans i1, y' ++ x, by rw [e1, i2]; simp, hm, ?_⟩
    rcases h2 with ⟨h2, h3⟩ | ⟨_, h2, h3, h4, z, body, o, g1, g2⟩ | ⟨h2, _⟩
    · rcases i4 with ⟨j1, j2, j3⟩ | ⟨j1, j2, ⟨body, j3⟩, j4⟩
      · exact .inl ⟨h2.trans j1, h3.trans j2, (by rw [j1] at e3; exact e3.append j3)⟩
      · refine .inr ⟨h2.trans j1, h3.trans j2, ⟨body, by simp [j3]⟩, fun m ok hm h6 => ?_⟩
        rcases List.mem_append.mp hm with hm | hm
        · right; rw [← j1]; exact e3 m ok hm h6
        · exact j4 m ok hm h6
    · rcases i4 with ⟨j1, j2, j3⟩ | ⟨j1, j2, ⟨body, j3⟩, j4⟩
      · refine .inr ⟨h3.trans j2, h4, ⟨body, ?_⟩, fun m ok hm h6 => ?_⟩
        · rw [i2, hl] at g1
          have : Effect.input d.sessionId body ∈ x := input_since g1 g2
          rw [h3, j2] at this
          exact List.mem_append_right _ this
        · rcases List.mem_append.mp hm with hm | hm
          · left; rw [← j1]; exact e3 m ok hm h6
          · left; exact j3 m ok hm h6
      · exact absurd j2 h2
    · rw [i1] at h2; cases h2

/-- Configuration messages written in other calls. -/
theorem Star.cfgKeep {env : Env} {a : Api} {c c' : Conn} (h : M env a c c') (hs : Sizes c) (h1 : ¬IsConnect a)
    (h2 : a ≠ .outsideData) (h3 : a ≠ .setter) : ∃ l, c'.log = l ++ c.log ∧ CfgId c.sessionId l := by
  induction h with
  | refl => exact ⟨[], rfl, .noSend (by simp)⟩
  | @tail b d h0 s ih =>
    obtain ⟨l, e, hl⟩ := ih
    obtain ⟨k, e', hk⟩ := s.cfgId (h0.sizes hs)
    rw [(h0.idsKeep h1 h2 h3).2.1] at hk
    exact ⟨k ++ l, by rw [e', e]; simp, hk.append hl⟩

/-- The id in a configuration message written by a server's call. -/
theorem step_cfg {env : Env} {c : Conn} (hg : Good env c) (op : Op) (ho : Ordinary op) (hr : c.isServer = true) {m : Bytes} {ok : Bool}
    (h : Effect.sslCall (.write m) ok ∈ newPart env c op) (h6 : m.head? = some 6) :
    numLe (field m 97 8) = c.sessionId ∨
    ∃ buf reads body, op = .outsideData buf reads ∧ numLe (field m 97 8) = c.pendingSessionId ∧
      .input c.pendingSessionId body ∈ newPart env c op := by
  have hn : ∀ i, i < 2 ^ 64 → field m 97 8 = le64 i → numLe (field m 97 8) = i := by
    intro i hi e
    rw [numLe_rdLe, e, rdLe_le64 hi]
  have hlog := newPart_log hg op
  have hs := hg.sizes
  have hs0 : Sizes (entry c op) := by cases op <;> exact ⟨hs.1, hs.2, hs.3, hs.4, hs.5, hs.6, hs.7, hs.8, hs.9, hs.10⟩
  obtain ⟨ap, hi⟩ := hg.inv
  have hnew : ∀ l, (exec env (c.emit (.api op.api)) op).1.log = l ++ (entry c op).log →
      newPart env c op = .ret (step env c op).2 :: (l ++ [.api op.api]) := by
    intro l e
    have e' : (step env c op).1.log = (.ret (step env c op).2 :: (l ++ [.api op.api])) ++ c.log := by
      rw [exec_to_step]
      show Effect.ret _ :: (exec env (c.emit (.api op.api)) op).1.log = _
      rw [e, entry_log]; simp
    exact List.append_cancel_right (hlog.symm.trans e')
  by_cases hset : op.api = .setter
  · rcases newPart_setter op hset h with ⟨s, e⟩ | e | ⟨r, e⟩ <;> cases e
  by_cases hrecv : op.api = .outsideData
  · cases op <;> simp only [Op.api, reduceCtorEq] at hrecv
    rename_i buf reads
    have hx : M env .outsideData (entry c (.outsideData buf reads)) _ := exec_star env ap c (.outsideData buf reads) hi
    obtain ⟨_, l, e, _, hc⟩ := hx.cfgRecv hs0 hr rfl
    have := hnew l e
    have hm : Effect.sslCall (.write m) ok ∈ l := by
      rw [this] at h; simpa using h
    rcases hc with ⟨_, _, hc⟩ | ⟨_, _, ⟨body, h1⟩, hc⟩
    · exact .inl (hn _ hs.sess (hc m ok hm h6))
    · rcases hc m ok hm h6 with hc | hc
      · exact .inl (hn _ hs.sess hc)
      · exact .inr ⟨buf, reads, body, rfl, hn _ hs.pend hc, by rw [this]; exact List.mem_cons_of_mem _ (List.mem_append_left _ h1)⟩
  · obtain ⟨l, e, hc⟩ := (exec_star env ap c op hi).cfgKeep hs0 ho.notConnect hrecv hset
    have := hnew l e
    have hm : Effect.sslCall (.write m) ok ∈ l := by
      rw [this] at h; simpa using h
    have e2 : (entry c op).sessionId = c.sessionId := by cases op <;> rfl
    rw [e2] at hc
    exact .inl (hn _ hs.sess (hc m ok hm h6))

/-! ## One receive call -/

/-- Input comes with the id of the header. -/
theorem input_headerId {env : Env} {c : Conn} (hg : Good env c) (hw : Wired c) {buf : Bytes} {reads : List ReadRes} {i : Nat} {b : Bytes}
    (h : Effect.input i b ∈ newPart env c (.outsideData buf reads)) : i = headerId buf := by
  obtain ⟨n, o, e⟩ := newPart_mem hg _ h
  exact (C26_input_is_payload hg buf reads hw.ty hw.out e).2.1

/-- A successful receive call passed the header check. -/
theorem recv_success {env : Env} {c : Conn} (hw : Wired c) {buf : Bytes} {reads : List ReadRes}
    (h : (step env c (.outsideData buf reads)).2 = .success) :
    (c.state ≠ .disconnecting ∧ c.state ≠ .disconnected) ∧ refusal c.verMajor c.verMinor buf = none := by
  have hst : c.state ≠ .disconnecting ∧ c.state ≠ .disconnected := by
    refine Classical.not_not.mp fun hn => ?_
    have hn : (c.emit (.api .outsideData)).state = .disconnecting ∨ (c.emit (.api .outsideData)).state = .disconnected := by
      by_cases h1 : c.state = .disconnecting
      · exact .inl h1
      · exact .inr (Classical.not_not.mp fun h2 => hn ⟨h1, h2⟩)
    rw [step_recv] at h
    unfold outsideData at h
    rw [if_pos hn] at h
    cases h
  refine ⟨hst, ?_⟩
  cases hr : refusal c.verMajor c.verMinor buf with
  | none => rfl
  | some rc =>
    rw [C24_unrecognised_dropped env c buf reads hst hw.ty hw.out hr] at h
    unfold refusal at hr
    have h : rc = .success := h
    subst h
    repeat' split at hr
    all_goals cases hr

/-- A client that successfully received a datagram with an id uses that id. -/
theorem client_adopts {env : Env} {c : Conn} (hw : Wired c) (hr : c.isServer = false) {buf : Bytes} {reads : List ReadRes}
    (h : (step env c (.outsideData buf reads)).2 = .success) (h0 : headerId buf ≠ 0) :
    (step env c (.outsideData buf reads)).1.sessionId = headerId buf := by
  obtain ⟨hst, href⟩ := recv_success hw h
  obtain ⟨d, rc, hd, e⟩ := outsideData_header env (c.emit (.api .outsideData)) buf reads hst hw.ty hw.out href
  rw [step_recv, e] at h ⊢
  by_cases hrc : rc = .success
  · rw [if_neg (by simpa using hrc)] at h ⊢
    have hrole : d.isServer = false := hd.role.trans hr
    unfold updateSessionIncoming
    rw [show numLe (field buf 8 8) = headerId buf from rfl, if_neg h0, if_neg (by simp [hrole])]
    rfl
  · rw [if_pos hrc] at h; exact absurd h hrc

/-- What a server's call does to its ids. -/
theorem server_ids {env : Env} {c : Conn} (hg : Good env c) (hw : Wired c) (hr : c.isServer = true) (op : Op) (ho : Ordinary op) :
    ((step env c op).1.sessionId = c.sessionId ∧ (op ≠ .rotateSession → (step env c op).1.pendingSessionId = c.pendingSessionId)) ∨
    (∃ buf reads, op = .outsideData buf reads ∧ (step env c op).2 = .success ∧ headerId buf = c.pendingSessionId ∧
      c.pendingSessionId ≠ 0 ∧ (step env c op).1.sessionId = c.pendingSessionId ∧ (step env c op).1.pendingSessionId = 0) := by
  obtain ⟨_, x, hx, h | ⟨buf, reads, body, rfl, h2, h3, h4, h5, h6, h7, h8, h9⟩⟩ := C30_server_session_changes hg op ho hr
  · exact .inl ⟨h.1, h.2.1⟩
  · right
    have : newPart env c (.outsideData buf reads) = x := List.append_cancel_right ((newPart_log hg _).symm.trans hx)
    rw [← this] at h4
    exact ⟨buf, reads, rfl, h2, (input_headerId hg hw h4).symm, h5, h7, h8⟩

/-- What a client's receive call does to its id. -/
theorem client_ids {env : Env} {c : Conn} (hg : Good env c) (hw : Wired c) (hr : c.isServer = false) (op : Op) (ho : Ordinary op) :
    (step env c op).1.sessionId = c.sessionId ∨
    ∃ buf reads, op = .outsideData buf reads ∧
      ((∃ m, .message m ∈ newPart env c op ∧ IsConfigMsg m ∧ (step env c op).1.sessionId = numLe (field m 97 8)) ∨
       ((step env c op).2 = .success ∧ (step env c op).1.sessionId = headerId buf ∧ ∃ body, .input (headerId buf) body ∈ newPart env c op)) := by
  rcases C31_client_session_changes hg op hr ho.2.1 with h | ⟨s, h, _⟩ | ⟨buf, reads, x, rfl, hx, h⟩
  · exact .inl h
  · exact absurd h (ho.2.2 s)
  · right
    have hn : newPart env c (.outsideData buf reads) = x := List.append_cancel_right ((newPart_log hg _).symm.trans hx)
    rw [hn]
    refine ⟨buf, reads, rfl, ?_⟩
    rcases h with ⟨m, h1, h2, h3, h4⟩ | ⟨h1, h2, h3, body, h4⟩
    · exact .inl ⟨m, h1, ⟨h2, h3⟩, h4⟩
    · right
      have := input_headerId hg hw (hn ▸ h4)
      exact ⟨h1, this, body, this ▸ h4⟩

theorem client_pending {env : Env} {c : Conn} (hg : Good env c) (hr : c.isServer = false) (op : Op) (ho : Ordinary op) :
    (step env c op).1.isServer = false ∧ (step env c op).1.pendingSessionId = c.pendingSessionId := by
  by_cases hrecv : op.api = .outsideData
  · cases op <;> simp only [Op.api, reduceCtorEq] at hrecv
    rename_i buf reads
    obtain ⟨ap, hi⟩ := hg.inv
    have hx : M env .outsideData (entry c (.outsideData buf reads)) _ := exec_star env ap c (.outsideData buf reads) hi
    obtain ⟨h1, h2, _⟩ := hx.idsClient hr rfl
    exact ⟨h1, h2⟩
  · obtain ⟨h1, _, h3, _⟩ := step_ids hg op ho hrecv
    refine ⟨h1.trans hr, ?_⟩
    by_cases h : op = .rotateSession
    · subst h
      rcases step_rotate env c with ⟨_, h⟩ | ⟨h, _⟩
      · rw [h]; rfl
      · rw [hr] at h; cases h
    · exact h3 h

/-! ## The network -/

/-- What holds of both ends throughout. -/
structure Spec.Net.Live (envS envC : Env) (s : Net) : Prop where
  gs : Good envS s.server
  gc : Good envC s.client
  rs : s.server.isServer = true
  rc : s.client.isServer = false
  ws : Wired s.server
  wc : Wired s.client
  pc : s.client.pendingSessionId = 0

theorem Spec.Net.Start.live {envS envC : Env} {s : Net} (h : s.Start envS envC) : s.Live envS envC :=
  ⟨h.gs, h.gc, h.rs, h.rc, h.ws, h.wc, h.pc⟩

/-- The call an action makes, on the server or on the client. -/
theorem act_cases (envS envC : Env) (s : Net) (a : Act) (h : s.Allowed envC a) :
    (∃ op, Ordinary op ∧ s.act envS envC a =
        { s with server := (step envS s.server op).1, down := written (newPart envS s.server op) ++ s.down } ∧
        (a = .server op ∧ op.api ≠ .outsideData ∨ ∃ buf reads, op = .outsideData buf reads ∧ a = .toServer buf reads)) ∨
    (∃ op, Ordinary op ∧ s.act envS envC a =
        { s with client := (step envC s.client op).1, up := written (newPart envC s.client op) ++ s.up } ∧
        (a = .client op ∧ op.api ≠ .outsideData ∨ ∃ buf reads, op = .outsideData buf reads ∧ a = .toClient buf reads)) := by
  cases a with
  | server op => exact .inl ⟨op, h.1, rfl, .inl ⟨rfl, h.2⟩⟩
  | client op => exact .inr ⟨op, h.1, rfl, .inl ⟨rfl, h.2⟩⟩
  | toServer buf reads => exact .inl ⟨_, ordinary_recv buf reads, rfl, .inr ⟨buf, reads, rfl, rfl⟩⟩
  | toClient buf reads => exact .inr ⟨_, ordinary_recv buf reads, rfl, .inr ⟨buf, reads, rfl, rfl⟩⟩

theorem Spec.Net.Live.act {envS envC : Env} {s : Net} (hl : s.Live envS envC) {a : Act} (h : s.Allowed envC a) :
    (s.act envS envC a).Live envS envC := by
  obtain ⟨h1, h2, h3, h4, h5, h6, h7⟩ := hl
  rcases act_cases envS envC s a h with ⟨op, ho, e, _⟩ | ⟨op, ho, e, _⟩ <;> rw [e]
  · exact ⟨h1.step op, h2, (C30_server_session_changes h1 op ho h3).1, h4, step_wired h1 op ho h5, h6, h7⟩
  · obtain ⟨g1, g2⟩ := client_pending h2 h4 op ho
    exact ⟨h1, h2.step op, h3, g1, h5, step_wired h2 op ho h6, g2.trans h7⟩

theorem Spec.Net.Live.path {envS envC : Env} {s t : Net} {P : Act → Prop} (hl : s.Live envS envC) (h : s.Path envS envC P t) :
    t.Live envS envC := by
  unfold Net.Path at h
  induction h with
  | refl => exact hl
  | tail _ s ih =>
    obtain ⟨a, _, ha, rfl⟩ := s
    exact ih.act ha

/-- Ids of the client, of its datagrams, and in configuration messages: where a new one comes from. -/
structure Spec.Net.Origin (envS envC : Env) (s : Net) (a : Act) : Prop where
  down : ∀ p ∈ (s.act envS envC a).down, p ∈ s.down ∨ headerId p = advertised false s.server.sessionId s.server.pendingSessionId
  cfg : ∀ m ok, .sslCall (.write m) ok ∈ (s.act envS envC a).server.log → IsConfigMsg m →
    .sslCall (.write m) ok ∈ s.server.log ∨ numLe (field m 97 8) = s.server.sessionId ∨
    ∃ buf reads, a = .toServer buf reads ∧ headerId buf = s.server.pendingSessionId ∧ numLe (field m 97 8) = s.server.pendingSessionId
  client : ∀ i, i = (s.act envS envC a).client.sessionId ∨ (∃ p ∈ (s.act envS envC a).up, p ∉ s.up ∧ headerId p = i) →
    i = s.client.sessionId ∨ ∃ buf reads, a = .toClient buf reads ∧
      ((∃ m, .message m ∈ newPart envC s.client (.outsideData buf reads) ∧ IsConfigMsg m ∧ i = numLe (field m 97 8)) ∨
       (i = headerId buf ∧ ∃ body, .input i body ∈ newPart envC s.client (.outsideData buf reads)))

theorem Spec.Net.Live.origin {envS envC : Env} {s : Net} (hl : s.Live envS envC) {a : Act} (h : s.Allowed envC a) :
    s.Origin envS envC a := by
  obtain ⟨h1, h2, h3, h4, h5, h6, h7⟩ := hl
  rcases act_cases envS envC s a h with ⟨op, ho, e, ha⟩ | ⟨op, ho, e, ha⟩
  · refine ⟨fun p hp => ?_, fun m ok hm hc => ?_, fun i hi => ?_⟩
    · rw [e] at hp
      rcases List.mem_append.mp hp with hp | hp
      · right
        obtain ⟨g1, g2, _⟩ := written_id h1 op ho h5 hp
        by_cases hr : op.api = .outsideData
        · exact g2 hr h3
        · exact g1 hr
      · exact .inl hp
    · rw [e] at hm
      have hm : Effect.sslCall (.write m) ok ∈ (step envS s.server op).1.log := hm
      rw [newPart_log h1 op] at hm
      rcases List.mem_append.mp hm with hm | hm
      · right
        rcases step_cfg h1 op ho h3 hm hc.1 with g | ⟨buf, reads, body, rfl, g2, g3⟩
        · exact .inl g
        · right
          rcases ha with ⟨_, ha⟩ | ⟨buf', reads', e1, ha⟩
          · exact absurd rfl ha
          · cases e1
            exact ⟨buf, reads, ha, (input_headerId h1 h5 g3).symm, g2⟩
      · exact .inl hm
    · left
      rw [e] at hi
      rcases hi with hi | ⟨p, hp, hn, _⟩
      · exact hi
      · exact absurd hp hn
  · refine ⟨fun p hp => ?_, fun m ok hm hc => ?_, fun i hi => ?_⟩
    · rw [e] at hp; exact .inl hp
    · rw [e] at hm; exact .inl hm
    · rw [e] at hi
      have src : Learnt i (newPart envC s.client op) → op.api = .outsideData → ∃ buf reads, a = .toClient buf reads ∧
          ((∃ m, .message m ∈ newPart envC s.client (.outsideData buf reads) ∧ IsConfigMsg m ∧ i = numLe (field m 97 8)) ∨
          (i = headerId buf ∧ ∃ body, .input i body ∈ newPart envC s.client (.outsideData buf reads))) := by
        intro hlt hr
        rcases ha with ⟨_, ha⟩ | ⟨buf, reads, e1, ha⟩
        · exact absurd hr ha
        · subst e1
          refine ⟨buf, reads, ha, ?_⟩
          rcases hlt with ⟨m, m1, m2, m3⟩ | ⟨body, m1⟩
          · exact .inl ⟨m, m1, m2, by rw [numLe_rdLe]; exact m3⟩
          · exact .inr ⟨input_headerId h2 h6 m1, body, m1⟩
      rcases hi with hi | ⟨p, hp, hn, hi⟩
      · rcases client_ids h2 h6 h4 op ho with g | ⟨buf, reads, rfl, g⟩
        · exact .inl (hi.trans g)
        · right
          have hi : i = (step envC s.client (.outsideData buf reads)).1.sessionId := hi
          refine src ?_ rfl
          rw [hi]
          rcases g with ⟨m, m1, m2, m3⟩ | ⟨_, m2, body, m3⟩
          · exact .inl ⟨m, m1, m2, by rw [← numLe_rdLe]; exact m3⟩
          · exact .inr ⟨body, m2 ▸ m3⟩
      · have hp : p ∈ written (newPart envC s.client op) := (List.mem_append.mp hp).resolve_right hn
        obtain ⟨g1, _, g3⟩ := written_id h2 op ho h6 hp
        by_cases hr : op.api = .outsideData
        · rcases g3 hr h4 h7 with g | g
          · exact .inl (hi ▸ g)
          · exact .inr (src (hi ▸ g) hr)
        · left
          rw [← hi, g1 hr, h7]
          simp [advertised]

theorem Path.snoc {envS envC : Env} {P : Act → Prop} {s t : Net} (h : s.Path envS envC P t) {a : Act} (hp : P a)
    (ha : t.Allowed envC a) : s.Path envS envC P (t.act envS envC a) := .tail h ⟨a, hp, ha, rfl⟩

theorem ServerHad.snoc {envS envC : Env} {s t : Net} {i : Nat} {a : Act} (h : s.ServerHad envS envC t i) (ha : t.Allowed envC a) :
    s.ServerHad envS envC (t.act envS envC a) i := by
  obtain ⟨b, h1, h2, h3⟩ := h
  exact ⟨b, h1, Path.snoc h2 trivial ha, h3⟩

theorem ServerHad.now {envS envC : Env} {s t : Net} (h : s.Path envS envC AnyAct t) :
    s.ServerHad envS envC t t.server.sessionId ∧ s.ServerHad envS envC t t.server.pendingSessionId :=
  ⟨⟨t, h, .refl _, .inl rfl⟩, ⟨t, h, .refl _, .inr rfl⟩⟩

/-- No id is around but the server's. -/
structure Clean (envS envC : Env) (s t : Net) : Prop where
  client : t.client.sessionId = 0 ∨ s.ServerHad envS envC t t.client.sessionId
  down : ∀ p ∈ t.down, headerId p = 0 ∨ s.ServerHad envS envC t (headerId p)
  up : ∀ p ∈ t.up, headerId p = 0 ∨ s.ServerHad envS envC t (headerId p)
  cfg : ∀ m ok, .sslCall (.write m) ok ∈ t.server.log → IsConfigMsg m →
    numLe (field m 97 8) = 0 ∨ s.ServerHad envS envC t (numLe (field m 97 8))

theorem start_clean {envS envC : Env} {s t : Net} (hs : s.Start envS envC) (h : s.Path envS envC AnyAct t) : Clean envS envC s t := by
  have hl := hs.live
  have h' := h
  unfold Net.Path at h
  induction h with
  | refl =>
    have hk : ∀ i, s.Known i → i = 0 ∨ s.ServerHad envS envC s i := by
      rintro i (rfl | rfl | rfl)
      · exact .inl rfl
      · exact .inr (ServerHad.now (.refl _)).1
      · exact .inr (ServerHad.now (.refl _)).2
    exact ⟨hk _ hs.cs, fun p hp => hk _ (hs.down p hp), fun p hp => hk _ (hs.up p hp), fun m ok hm hc => hk _ (hs.cfg m ok hm hc)⟩
  | @tail b t h0 st ih =>
    obtain ⟨a, _, ha, rfl⟩ := st
    obtain ⟨i1, i2, i3, i4⟩ := ih h0
    have up : ∀ i, (i = 0 ∨ s.ServerHad envS envC b i) → i = 0 ∨ s.ServerHad envS envC (b.act envS envC a) i :=
      fun i h => h.imp_right (fun h => ServerHad.snoc h ha)
    obtain ⟨o1, o2, o3⟩ := (hl.path h0).origin ha
    obtain ⟨n1, n2⟩ := ServerHad.now h0
    have hcl : ∀ i, (i = (b.act envS envC a).client.sessionId ∨ ∃ p ∈ (b.act envS envC a).up, p ∉ b.up ∧ headerId p = i) →
        i = 0 ∨ s.ServerHad envS envC (b.act envS envC a) i := by
      intro i hi
      refine up i ?_
      rcases o3 i hi with rfl | ⟨buf, reads, rfl, ⟨m, m1, m2, rfl⟩ | ⟨rfl, _⟩⟩
      · exact i1
      · obtain ⟨ok, hw⟩ := ha.2 m m1 m2
        exact i4 m ok hw m2
      · exact i2 buf ha.1
    refine ⟨hcl _ (.inl rfl), fun p hp => up _ ?_, fun p hp => ?_, fun m ok hm hc => up _ ?_⟩
    · rcases o1 p hp with hp | hp
      · exact i2 p hp
      · right
        rw [hp]
        unfold advertised
        simp only [Bool.false_eq_true, if_false]
        split
        · exact n2
        · exact n1
    · by_cases hb : p ∈ b.up
      · exact up _ (i3 p hb)
      · exact hcl _ (.inr ⟨p, hp, hb, rfl⟩)
    · rcases o2 m ok hm hc with h | h | ⟨_, _, _, _, h⟩
      · exact i4 m ok h hc
      · rw [h]; exact .inr n1
      · rw [h]; exact .inr n2

/-! ## The properties -/

/-- **C32** (no invented ids) However the calls of the two hosts and the deliveries interleave, and whatever is lost, duplicated,
delayed or reordered: the client's session id, and the id in every datagram either end ever sent, is 0 or an id the server had at
some time as its current or its pending one. -/
theorem C32_ids_are_the_servers {envS envC : Env} {s t : Net} (hs : s.Start envS envC) (h : s.Path envS envC AnyAct t) :
    (t.client.sessionId = 0 ∨ s.ServerHad envS envC t t.client.sessionId) ∧
    ∀ p, p ∈ t.up ∨ p ∈ t.down → headerId p = 0 ∨ s.ServerHad envS envC t (headerId p) := by
  obtain ⟨h1, h2, h3, _⟩ := start_clean hs h
  exact ⟨h1, fun p hp => hp.elim (h3 p) (h2 p)⟩

/-- **C32** (the server never moves first) If the server has come to use an id nobody used at the beginning, then a datagram of the
server with that id reached the client before. -/
theorem C32_acknowledged_means_heard {envS envC : Env} {s t : Net} {i : Nat} (hs : s.Start envS envC) (h : s.Path envS envC AnyAct t)
    (hi : s.server.sessionId ≠ i) (hc : s.client.sessionId ≠ i) (hu : ∀ p ∈ s.up, headerId p ≠ i)
    (hm : ∀ m ok, .sslCall (.write m) ok ∈ s.server.log → IsConfigMsg m → numLe (field m 97 8) ≠ i)
    (hn : t.server.sessionId = i) : s.ClientHeard envS envC t i := by
  suffices H : s.ClientHeard envS envC t i ∨ (t.server.sessionId ≠ i ∧ t.client.sessionId ≠ i ∧ (∀ p ∈ t.up, headerId p ≠ i) ∧
      ∀ m ok, .sslCall (.write m) ok ∈ t.server.log → IsConfigMsg m → numLe (field m 97 8) ≠ i) from
    H.resolve_right (fun g => g.1 hn)
  clear hn
  have hl := hs.live
  unfold Net.Path at h
  induction h with
  | refl => exact .inr ⟨hi, hc, hu, hm⟩
  | @tail b t h0 st ih =>
    obtain ⟨a, _, ha, rfl⟩ := st
    have hb := hl.path h0
    rcases ih with ⟨d, buf, reads, g1, g2, g3, g4, g5⟩ | ⟨i1, i2, i3, i4⟩
    · exact .inl ⟨d, buf, reads, g1, g2, g3, g4, Path.snoc g5 trivial ha⟩
    · obtain ⟨o1, o2, o3⟩ := hb.origin ha
      by_cases hear : ∃ buf reads, a = .toClient buf reads ∧ i = headerId buf ∧
          ∃ body, .input i body ∈ newPart envC b.client (.outsideData buf reads)
      · obtain ⟨buf, reads, rfl, e, body, hin⟩ := hear
        exact .inl ⟨b, buf, reads, h0, ha, e.symm, ⟨body, hin⟩, .refl _⟩
      · have hcl : ∀ j, (j = (b.act envS envC a).client.sessionId ∨ ∃ p ∈ (b.act envS envC a).up, p ∉ b.up ∧ headerId p = j) →
            j ≠ i := by
          rintro j hj rfl
          rcases o3 j hj with rfl | ⟨buf, reads, rfl, ⟨m, m1, m2, m3⟩ | ⟨m1, m2⟩⟩
          · exact i2 rfl
          · obtain ⟨ok, hw⟩ := ha.2 m m1 m2
            exact i4 m ok hw m2 m3.symm
          · exact hear ⟨buf, reads, rfl, m1, m2⟩
        refine .inr ⟨?_, hcl _ (.inl rfl), fun p hp => ?_, fun m ok hw hcf => ?_⟩
        · rcases act_cases envS envC b a ha with ⟨op, ho, e, hop⟩ | ⟨op, ho, e, hop⟩ <;> rw [e]
          · rcases server_ids hb.gs hb.ws hb.rs op ho with ⟨g, _⟩ | ⟨buf, reads, rfl, _, g1, _, g2, _⟩
            · show (step envS b.server op).1.sessionId ≠ i
              rw [g]; exact i1
            · show (step envS b.server (.outsideData buf reads)).1.sessionId ≠ i
              rw [g2]
              intro hp
              rcases hop with ⟨_, hop⟩ | ⟨buf', reads', e1, rfl⟩
              · exact hop rfl
              · cases e1
                exact i3 buf ha (g1.trans hp)
          · exact i1
        · by_cases hbu : p ∈ b.up
          · exact i3 p hbu
          · exact hcl _ (.inr ⟨p, hp, hbu, rfl⟩)
        · rcases o2 m ok hw hcf with g | g | ⟨buf, reads, rfl, g1, g2⟩
          · exact i4 m ok g hcf
          · rw [g]; exact i1
          · rw [g2, ← g1]; exact i3 buf ha

/-- The server's host does not rotate. -/
def NoRotation (a : Act) : Prop := a ≠ .server .rotateSession

/-- No rotation, and nothing reaches the client. -/
def Undisturbed (a : Act) : Prop := NoRotation a ∧ ∀ buf reads, a ≠ .toClient buf reads

/-- During a rotation from `o` to `i`: not acknowledged yet, or done. -/
def Rotating (o i : Nat) (c : Conn) : Prop :=
  (c.sessionId = o ∧ c.pendingSessionId = i) ∨ (c.sessionId = i ∧ c.pendingSessionId = 0)

theorem Rotating.act {envS envC : Env} {s : Net} {o i : Nat} (hl : s.Live envS envC) {a : Act} (ha : s.Allowed envC a)
    (hr : NoRotation a) (h : Rotating o i s.server) : Rotating o i (s.act envS envC a).server := by
  rcases act_cases envS envC s a ha with ⟨op, ho, e, hop⟩ | ⟨op, ho, e, hop⟩ <;> rw [e]
  · have hne : op ≠ .rotateSession := by
      rintro rfl
      rcases hop with ⟨rfl, _⟩ | ⟨_, _, h, _⟩
      · exact hr rfl
      · cases h
    show Rotating o i (step envS s.server op).1
    rcases server_ids hl.gs hl.ws hl.rs op ho with ⟨g1, g2⟩ | ⟨buf, reads, rfl, _, _, g1, g2, g3⟩
    · unfold Rotating; rw [g1, g2 hne]; exact h
    · unfold Rotating; rw [g2, g3]
      rcases h with ⟨_, h⟩ | ⟨_, h⟩
      · exact .inr ⟨h, rfl⟩
      · exact absurd h g1
  · exact h

theorem Rotating.path {envS envC : Env} {s t : Net} {o i : Nat} {P : Act → Prop} (hl : s.Live envS envC) (h : s.Path envS envC P t)
    (hr : ∀ a, P a → NoRotation a) (h0 : Rotating o i s.server) : Rotating o i t.server := by
  unfold Net.Path at h
  induction h with
  | refl => exact h0
  | tail g st ih =>
    obtain ⟨a, pa, ha, rfl⟩ := st
    exact ih.act (hl.path g) ha (hr a pa)

/-- Without deliveries to the client its id stays. -/
theorem client_stays {envS envC : Env} {s t : Net} (hl : s.Live envS envC) (h : s.Path envS envC Undisturbed t) :
    t.client.sessionId = s.client.sessionId := by
  unfold Net.Path at h
  induction h with
  | refl => rfl
  | tail g st ih =>
    obtain ⟨a, pa, ha, rfl⟩ := st
    obtain ⟨_, _, o3⟩ := (hl.path g).origin ha
    rcases o3 _ (.inl rfl) with h | ⟨buf, reads, h, _⟩
    · exact h.trans ih
    · exact absurd h (pa.2 buf reads)

/-- **C32** (convergence) A rotation to `i` is pending.  The server's host makes any call in which a datagram `d` is sent; later the
client successfully receives `d`; later, before anything else reaches the client, a call of the client's host sends a datagram `u`;
later the server successfully receives `u`.  Meanwhile anything else may happen, in any order, with any losses, duplicates and
delays, except a further rotation.  Then `d` and `u` carry the new id, the client used it from the receipt of `d` on, and in the end
the server uses it and no rotation is pending. -/
theorem C32_converges {envS envC : Env} {s a b c e : Net} {o i : Nat} {act : Act} {op : Op} {d u : Bytes} {r r' : List ReadRes}
    (hs : s.Start envS envC) (h0 : s.Path envS envC AnyAct a)
    (hp : a.server.sessionId = o ∧ a.server.pendingSessionId = i) (hi : i ≠ 0 ∧ i ≠ o)
    (h1 : a.Allowed envC act ∧ NoRotation act) (hd : d ∈ (a.act envS envC act).down ∧ d ∉ a.down)
    (h2 : (a.act envS envC act).Path envS envC NoRotation b)
    (h3 : b.Allowed envC (.toClient d r) ∧ (step envC b.client (.outsideData d r)).2 = .success)
    (h4 : (b.act envS envC (.toClient d r)).Path envS envC Undisturbed c)
    (h5 : c.Allowed envC (.client op)) (hu : u ∈ (c.act envS envC (.client op)).up ∧ u ∉ c.up)
    (h6 : (c.act envS envC (.client op)).Path envS envC NoRotation e)
    (h7 : e.Allowed envC (.toServer u r') ∧ (step envS e.server (.outsideData u r')).2 = .success) :
    headerId d = i ∧ (b.act envS envC (.toClient d r)).client.sessionId = i ∧ c.client.sessionId = i ∧ headerId u = i ∧
    (e.act envS envC (.toServer u r')).server.sessionId = i ∧ (e.act envS envC (.toServer u r')).server.pendingSessionId = 0 := by
  have la := hs.live.path h0
  have lb := (la.act h1.1).path h2
  have lb' := lb.act h3.1
  have lc := lb'.path h4
  have lc' := lc.act h5
  have le := lc'.path h6
  have nc : NoRotation (.client op) := by intro h; cases h
  have hdi : headerId d = i := by
    rcases (la.origin h1.1).down d hd.1 with h | h
    · exact absurd h hd.2
    · rw [h, hp.2]; unfold advertised; simp [hi.1]
  have hcb : (b.act envS envC (.toClient d r)).client.sessionId = i := by
    rw [← hdi]; exact client_adopts lb.wc lb.rc h3.2 (by rw [hdi]; exact hi.1)
  have hcc : c.client.sessionId = i := (client_stays lb' h4).trans hcb
  have hui : headerId u = i := by
    rcases (lc.origin h5).client _ (.inr ⟨u, hu.1, hu.2, rfl⟩) with h | ⟨buf, reads, h, _⟩
    · exact h.trans hcc
    · cases h
  have ra : Rotating o i a.server := .inl hp
  have re : Rotating o i e.server :=
    Rotating.path lc' h6 (fun _ h => h) (Rotating.act lc h5 nc
      (Rotating.path lb' h4 (fun _ h => h.1) (Rotating.act lb h3.1 (by intro h; cases h)
        (Rotating.path (la.act h1.1) h2 (fun _ h => h) (ra.act la h1.1 h1.2)))))
  obtain ⟨hst, href⟩ := recv_success le.ws h7.2
  have hfin : (e.act envS envC (.toServer u r')).server.sessionId = i ∧ (e.act envS envC (.toServer u r')).server.pendingSessionId = 0 := by
    rcases re with ⟨g1, g2⟩ | g
    · have := C30_pending_adopted envS e.server u r' le.rs hst le.ws.ty le.ws.out href (by rw [g2]; exact hi.1)
        (by rw [g1, g2]; exact hi.2) (by rw [g2]; exact hui) h7.2
      rw [g2] at this
      exact this
    · rcases Rotating.act le h7.1 (by intro h; cases h) (.inr g : Rotating o i e.server) with g' | g'
      · exact absurd g'.2 (by
          rcases server_ids le.gs le.ws le.rs (.outsideData u r') (ordinary_recv u r') with ⟨_, k⟩ | ⟨_, _, _, _, _, k, _⟩
          · have := k (by simp)
            show (step envS e.server (.outsideData u r')).1.pendingSessionId ≠ i
            rw [this, g.2]; exact hi.1.symm
          · exact absurd g.2 k)
      · exact g'
  exact ⟨hdi, hcb, hcc, hui, hfin⟩

/-! ## Concrete cases -/

namespace Demo

/-- An online client that was told the id of the demo server. -/
def netClient : List Op := clientOps.dropLast ++ [.outsideData (dgram [9]) [msg (configIpv4Msg 20077 netCfg)]]

/-- The two, with nothing in flight. -/
def net : Net := ⟨run env serverOps, run env netClient, [], []⟩

/-- An old datagram of the server is still in flight, and a rotation has begun. -/
def net1 : Net := net.act env env (.server .keepalive)
def net2 : Net := net1.act env env (.server .rotateSession)
/-- The server sends, the client receives and sends, the server receives. -/
def net3 : Net := net2.act env env (.server .keepalive)
def net4 : Net := net3.act env env (.toClient (net3.down.headD []) [])
def net5 : Net := net4.act env env (.client .keepalive)
def net6 : Net := net5.act env env (.toServer (net5.up.headD []) [])
/-- The old datagram reaches the client. -/
def net7 : Net := net6.act env env (.toClient (net1.down.headD []) [])
def net8 : Net := net7.act env env (.client .keepalive)

def isConfigWrite : Effect → Bool
  | .sslCall (.write m) _ => m.head? == some 6
  | _ => false

def isMessage : Effect → Bool
  | .message _ => true
  | _ => false

theorem cfg_of {l : Log} {i : Nat} (h : l.all (fun e => !isConfigWrite e || (match e with
    | .sslCall (.write m) _ => numLe (field m 97 8) == i
    | _ => false)) = true) : ∀ m ok, Effect.sslCall (.write m) ok ∈ l → IsConfigMsg m → numLe (field m 97 8) = i := by
  intro m ok hm hc
  have := List.all_eq_true.mp h _ hm
  simpa [isConfigWrite, hc.1] using this

theorem start : net.Start env env where
  gs := run_good env serverOps
  gc := run_good env netClient
  rs := by decide +kernel
  rc := by decide +kernel
  ws := ⟨by decide +kernel, by decide +kernel, by decide +kernel⟩
  wc := ⟨by decide +kernel, by decide +kernel, by decide +kernel⟩
  pc := by decide +kernel
  cs := .inr (.inl (by decide +kernel))
  down := by intro p hp; cases hp
  up := by intro p hp; cases hp
  cfg := by
    intro m ok hm hc
    have : numLe (field m 97 8) = net.server.sessionId := cfg_of (by decide +kernel) m ok hm hc
    exact .inr (.inl this)

theorem quiet_allowed {s : Net} {buf : Bytes} (h : buf ∈ s.down)
    (hq : (newPart env s.client (.outsideData buf [])).all (fun e => !isMessage e) = true) : s.Allowed env (.toClient buf []) := by
  refine ⟨h, fun m hm _ => ?_⟩
  have := List.all_eq_true.mp hq _ hm
  cases this

theorem ok1 : net.Allowed env (.server .keepalive) := by refine ⟨⟨?_, ?_, ?_⟩, ?_⟩ <;> simp [Op.api]
theorem ok2 : net1.Allowed env (.server .rotateSession) := by refine ⟨⟨?_, ?_, ?_⟩, ?_⟩ <;> simp [Op.api]
theorem ok3 : net2.Allowed env (.server .keepalive) := by refine ⟨⟨?_, ?_, ?_⟩, ?_⟩ <;> simp [Op.api]
theorem ok4 : net3.Allowed env (.toClient (net3.down.headD []) []) := quiet_allowed (by decide +kernel) (by decide +kernel)
theorem ok5 : net4.Allowed env (.client .keepalive) := by refine ⟨⟨?_, ?_, ?_⟩, ?_⟩ <;> simp [Op.api]
theorem ok6 : net5.Allowed env (.toServer (net5.up.headD []) []) := show _ ∈ _ by decide +kernel
theorem ok7 : net6.Allowed env (.toClient (net1.down.headD []) []) := quiet_allowed (by decide +kernel) (by decide +kernel)
theorem ok8 : net7.Allowed env (.client .keepalive) := by refine ⟨⟨?_, ?_, ?_⟩, ?_⟩ <;> simp [Op.api]

theorem path2 : net.Path env env AnyAct net2 := Path.snoc (Path.snoc (.refl _) trivial ok1) trivial ok2
theorem path6 : net.Path env env AnyAct net6 :=
  Path.snoc (Path.snoc (Path.snoc (Path.snoc path2 trivial ok3) trivial ok4) trivial ok5) trivial ok6
theorem path8 : net.Path env env AnyAct net8 := Path.snoc (Path.snoc path6 trivial ok7) trivial ok8

/-- C32: the hypotheses of convergence are met by this run. -/
example : net6.server.sessionId = net2.server.pendingSessionId ∧ net6.server.pendingSessionId = 0 := by
  have h := C32_converges (r := []) (r' := []) start path2 ⟨rfl, rfl⟩ (by decide +kernel) ⟨ok3, by simp [NoRotation]⟩
    (d := net3.down.headD []) (by decide +kernel) (.refl _) ⟨ok4, by decide +kernel⟩ (.refl _) ok5 (u := net5.up.headD []) (by decide +kernel)
    (.refl _) ⟨ok6, by decide +kernel⟩
  exact h.2.2.2.2

/-- C32: … and those of the claim that the client heard of the id. -/
example : net.ClientHeard env env net6 net6.server.sessionId :=
  C32_acknowledged_means_heard start path6 (by decide +kernel) (by decide +kernel) (by intro p hp; cases hp)
    (fun m ok hm hc => by
      have h : numLe (field m 97 8) = net.server.sessionId := cfg_of (by decide +kernel) m ok hm hc
      rw [h]; decide +kernel) rfl

end Demo

open Demo in
/-- **C32** (the limit of convergence) The two need not stay together: a datagram of the server from before the rotation that arrives
late makes the client go back to the old id, after which the server refuses its datagrams. -/
theorem C32_delayed_datagram_reverts : ∃ s t u : Net, ∃ p q, s.Start env env ∧ s.Path env env AnyAct t ∧
    t.server.sessionId = t.client.sessionId ∧ t.server.pendingSessionId = 0 ∧ t.server.sessionId ≠ s.server.sessionId ∧
    p ∈ t.down ∧ t.Allowed env (.toClient p []) ∧ (step env t.client (.outsideData p [])).2 = .success ∧
    u = t.act env env (.toClient p []) ∧ u.client.sessionId = s.server.sessionId ∧
    q ∈ (u.act env env (.client .keepalive)).up ∧ q ∉ u.up ∧
    (step env (u.act env env (.client .keepalive)).server (.outsideData q [])).2 = .unknownSession :=
  ⟨net, net6, net7, net1.down.headD [], net8.up.headD [], start, path6, by decide +kernel, by decide +kernel, by decide +kernel,
    by decide +kernel, ok7, by decide +kernel, rfl, by decide +kernel, by decide +kernel, by decide +kernel, by decide +kernel⟩

end Lightway
