import Verif.Props.Session

/-!
# Every message handed to the TLS layer
C70 (each message is well-formed and sent only in its circumstances) and the PING identifiers of C35.
-/

namespace Lightway
open Spec

namespace Spec

/-- A PING message. -/
def isPing (m : Bytes) : Bool := m.head? == some 2

/-- The identifier the next PING will carry: 1 after a connect, then one more each time (16 bits). -/
def nextPing : Log → Nat
  | [] => 0
  | .table _ :: _ => 1
  | .sslCall (.write m) _ :: l => if isPing m then (nextPing l + 1) % 65536 else nextPing l
  | _ :: l => nextPing l

/-- Every PING carries the next identifier. -/
def PingAt (e : Effect) (l : Log) : Prop :=
  match e with
  | .sslCall (.write m) _ => isPing m = true → num (field m 1 2) = nextPing l
  | _ => True

end Spec

/-! ## Histories extended without a message -/

/-- Not a message handed to the TLS layer, not a new connection. -/
def NoSend : Effect → Prop
  | .sslCall (.write _) _ | .table _ => False
  | _ => True

theorem NoSend.sentAt {e : Effect} (h : NoSend e) (l : Log) : SentAt e l := by
  unfold SentAt; split
  · exact h.elim
  · trivial

theorem NoSend.pingAt {e : Effect} (h : NoSend e) (l : Log) : PingAt e l := by
  unfold PingAt; split
  · exact h.elim
  · trivial

theorem NoSend.next {e : Effect} (h : NoSend e) (l : Log) : nextPing (e :: l) = nextPing l := by
  cases e with
  | sslCall call ok => cases call <;> first | rfl | exact h.elim
  | table n => exact h.elim
  | _ => rfl

/-- What is maintained: past messages, past PINGs, the next identifier. -/
structure SInv (c : Conn) : Prop where
  sent : AllAt SentAt c.log
  ping : AllAt PingAt c.log
  next : c.pingNextId = nextPing c.log

theorem SInv.extend {c c' : Conn} (h : SInv c) {x : Log} (he : c'.log = x ++ c.log) (hx : ∀ e ∈ x, NoSend e)
    (hn : c'.pingNextId = c.pingNextId) : SInv c' := by
  have key : ∀ x : Log, (∀ e ∈ x, NoSend e) → AllAt SentAt (x ++ c.log) ∧ AllAt PingAt (x ++ c.log) ∧
      nextPing (x ++ c.log) = nextPing c.log := by
    intro x hx
    induction x with
    | nil => exact ⟨h.sent, h.ping, rfl⟩
    | cons e x ih =>
      obtain ⟨h1, h2, h3⟩ := ih (fun e he => hx e (by simp [he]))
      have he := hx e (by simp)
      exact ⟨⟨he.sentAt _, h1⟩, ⟨he.pingAt _, h2⟩, (he.next _).trans h3⟩
  obtain ⟨h1, h2, h3⟩ := key x hx
  exact ⟨by rw [he]; exact h1, by rw [he]; exact h2, by rw [hn, he, h3]; exact h.next⟩

theorem SInv.emit {c : Conn} (h : SInv c) {e : Effect} (he : NoSend e) : SInv (c.emit e) :=
  h.extend (x := [e]) rfl (by simpa using he) rfl

theorem ioStep_noSend (env : Env) (c : Conn) (r : IoReq) :
    ∃ x, (ioStep env c r).log = x ++ c.log ∧ ∀ e ∈ x, NoSend e := by
  obtain ⟨x, e, hx⟩ := ioStep_cbExt env c r
  exact ⟨x, e, fun y hy => by have := hx y hy; revert this; cases y <;> simp [CbIo, NoSend]⟩

theorem ioStep_pingNext (env : Env) (c : Conn) (r : IoReq) : (ioStep env c r).pingNextId = c.pingNextId := by
  obtain ⟨l, ps, sl, we, e, -⟩ := ioStep_frame env c r
  rw [e]

/-- A PING of five bytes, or a probe. -/
theorem SInv.pinged {c : Conn} (h : SInv c) (m : Bytes) (ok : Bool) (hp : isPing m = true)
    (hid : num (field m 1 2) = c.pingNextId) (hs : SentOk m c.log) (pm : Pmtud) :
    SInv { c.emit (.sslCall (.write m) ok) with pmtud := pm, pingNextId := (c.pingNextId + 1) % 65536 } :=
  ⟨⟨hs, h.sent⟩, ⟨fun _ => by rw [hid]; exact h.next, h.ping⟩, by
    show _ = (if isPing m then _ else _)
    rw [if_pos hp, ← h.next]⟩

theorem num_be16_mod {n : Nat} (h : n < 65536) (m : Bytes) (he : field m 1 2 = be16 n) : num (field m 1 2) = n := by
  rw [he, num_be16 h]

theorem Fine.sinv {env : Env} {a : Api} {c c' : Conn} (hf : Fine env c c') (h : SInv c)
    (hst : stateAt c.log = c.state) (ha : lastApi c.log = some a) (hlt : c.pingNextId < 65536)
    (hk : a = .startPmtud ∨ a = .pmtudTimeout ∨ a = .outsideData) : SInv c' := by
  cases hf with
  | io r =>
    obtain ⟨x, e, hx⟩ := ioStep_noSend env c r
    exact h.extend e hx (ioStep_pingNext env c r)
  | err | pm => exact ⟨h.sent, h.ping, h.next⟩
  | probe pm mtu ok hs h1 h2 =>
    obtain ⟨s1, s2, s3, s4, s5⟩ := probeMsg_shape c.pingNextId h1 h2
    refine h.pinged _ ok (by simp [isPing, s2]) (num_be16_mod hlt _ s4) ⟨by omega, ?_⟩ pm
    rw [s2]
    refine ⟨by rw [hst]; exact hs, by rw [s1, s3]; omega, s5, fun h => by omega, fun _ => ⟨by omega, by omega, ?_⟩⟩
    rw [ha]; rcases hk with rfl | rfl | rfl <;> simp
  | note e he hn hw =>
    refine h.emit ?_
    cases e with
    | sslCall call ok =>
      cases call <;> first | trivial | exact absurd rfl (hw _ _)
    | table n => simp [PEff, IoEff] at he
    | _ => trivial

theorem fine_sinv {env : Env} {a : Api} {c c' : Conn} (hf : Star (Fine env) c c') (h : SInv c)
    (hst : stateAt c.log = c.state) (ha : lastApi c.log = some a) (hlt : c.pingNextId < 65536)
    (hk : a = .startPmtud ∨ a = .pmtudTimeout ∨ a = .outsideData) : SInv c' := by
  suffices H : SInv c' ∧ stateAt c'.log = c'.state ∧ lastApi c'.log = some a ∧ c'.pingNextId < 65536 from H.1
  induction hf with
  | refl => exact ⟨h, hst, ha, hlt⟩
  | @tail b d _ s ih =>
    obtain ⟨i1, i2, i3, i4⟩ := ih
    refine ⟨s.sinv i1 i2 i3 i4 hk, ?_⟩
    have hp : d.pingNextId < 65536 := by
      cases s with
      | io r => rw [ioStep_pingNext]; exact i4
      | err | pm => exact i4
      | probe => exact Nat.mod_lt _ (by omega)
      | note e he hn hw => exact i4
    obtain ⟨l, ps, sl, we, pm, pn, e, hl⟩ := s.pFrame
    have hn : ∀ x ∈ l, Neutral x := fun x hx => (hl x hx).neutral
    rw [e] at hp ⊢
    exact ⟨by simp only; rw [stateAt_neutral _ hn]; exact i2, by simp only; rw [lastApi_neutral _ hn]; exact i3, hp⟩

theorem Micro.sinv {env : Env} {a : Api} {c c' : Conn} (hm : Micro env a c c') (hi : Inv env (some a) c)
    (hs : Sizes c) (h : SInv c) : SInv c' := by
  cases hm with
  | io r =>
    obtain ⟨x, e, hx⟩ := ioStep_noSend env c r
    exact h.extend e hx (ioStep_pingNext env c r)
  | state s hne _ =>
    exact h.extend (x := [.state s c.cbs.stateChange]) (by simp [setState, hne]) (by simp [NoSend])
      (by unfold setState; split <;> rfl)
  | configure ctx _ =>
    obtain ⟨x, y, ok, ft, e, _⟩ := configure_shape env c ctx
    rw [e]
    exact ⟨⟨trivial, trivial, trivial, h.sent⟩, ⟨trivial, trivial, trivial, h.ping⟩, rfl⟩
  | quiet e he =>
    refine h.emit ?_
    cases e with
    | sslCall call ok => cases call <;> first | trivial | exact he.elim
    | table n => simp [Quiet] at he
    | _ => trivial
  | auth e u _ he => exact h.extend (x := [e]) rfl (by cases e <;> simp_all [AuthEff, NoSend]) rfl
  | write m ok hw hp _ =>
    refine ⟨⟨hw hi, h.sent⟩, ⟨fun hx => absurd (by simpa [isPing] using hx) hp, h.ping⟩, ?_⟩
    show _ = (if isPing m then _ else _)
    rw [if_neg (by simpa [isPing] using hp)]
    exact h.next
  | ping ok ha hst =>
    obtain ⟨s1, s2, s3, s4⟩ := pingMsg_shape c.pingNextId
    refine h.pinged (pingMsg c.pingNextId) ok (by simp [isPing, s2]) (num_be16_mod hs.pingNext _ rfl) ⟨by omega, ?_⟩ c.pmtud
    rw [s2]
    exact ⟨by rw [hi.st]; exact hst, by rw [s1, s3], by rw [s4]; simp, fun _ => by rw [hi.api, ha],
      fun hne => absurd s1 hne⟩
  | probeAck id ha hst hmsg =>
    exact fine_sinv (handleProbeAck_fine env c id) h hi.st hi.api hs.pingNext (.inr (.inr ha))
  | probeTimeout ha => exact fine_sinv (handleProbeTimeout_fine env c) h hi.st hi.api hs.pingNext (.inr (.inl ha))
  | startBase ha => exact fine_sinv (startBaseProbing_fine env c) h hi.st hi.api hs.pingNext (.inl ha)
  | err | dueOff | sessCfg | sessClient | sessServer | rotate | sessSet | creds
  | mtu | version | pingPending | fragNext | fragNew | fragPut | fragDel => exact ⟨h.sent, h.ping, h.next⟩
  | _ => exact h.extend (x := [_]) rfl (by simp [NoSend]) rfl

theorem Star.sinv {env : Env} {a : Api} {c c' : Conn} (hm : M env a c c') (hi : Inv env (some a) c)
    (hs : Sizes c) (h : SInv c) : SInv c' := by
  induction hm with
  | refl => exact h
  | tail h1 s ih => exact s.sinv (h1.inv hi) (h1.sizes hs) ih

theorem step_sinv {env : Env} {c : Conn} (hg : Good env c) (op : Op) (h : SInv c) : SInv (step env c op).1 := by
  obtain ⟨o, hi⟩ := hg.inv
  have h0 : SInv (entry c op) := by cases op <;> exact h.extend (x := [.api _]) rfl (by simp [NoSend]) rfl
  have hs0 : Sizes (entry c op) := by
    have hs := hg.sizes
    cases op <;> exact ⟨hs.1, hs.2, hs.3, hs.4, hs.5, hs.6, hs.7, hs.8, hs.9, hs.10⟩
  exact ((exec_star env o c op hi).sinv (entry_inv hi op) hs0 h0).emit trivial

theorem run_sinv (env : Env) (ops : List Op) : SInv (run env ops) :=
  run_induct (Q := fun _ => True) ⟨trivial, trivial, rfl⟩ (fun _ op _ hg h => step_sinv hg op h) ops (by simp)

/-! ## The properties -/

/-- **C70** Every message the library hands to the TLS layer is well-formed, at most 1500 bytes, and sent only in
the circumstances its type is for. -/
theorem C70_sent_in_order (env : Env) (ops : List Op) {newer older : Log} {m : Bytes} {ok : Bool}
    (h : (run env ops).log = newer ++ .sslCall (.write m) ok :: older) : SentOk m older :=
  (run_sinv env ops).sent.at h

/-- **C35** (identifiers) The PINGs sent after a connect carry 1, 2, 3, … (modulo 65536). -/
theorem C35_identifiers (env : Env) (ops : List Op) {newer older : Log} {m : Bytes} {ok : Bool}
    (h : (run env ops).log = newer ++ .sslCall (.write m) ok :: older) (hp : m.head? = some 2) :
    num (field m 1 2) = nextPing older :=
  (run_sinv env ops).ping.at h (by simp [isPing, hp])

/-- **C35** (probe sizes) Every PING is a keepalive of 5 bytes or a probe of a size between 512 and 1416 plus the
three bytes of a data header, with a zero payload of the announced length. -/
theorem C35_probe_size (env : Env) (ops : List Op) {newer older : Log} {m : Bytes} {ok : Bool}
    (h : (run env ops).log = newer ++ .sslCall (.write m) ok :: older) (hp : m.head? = some 2)
    (hk : lastApi older ≠ some .keepalive) :
    512 + 3 ≤ m.length ∧ m.length ≤ 1416 + 3 ∧ m.length = 5 + num (field m 3 2) ∧ ∀ b ∈ m.drop 5, b = 0 := by
  have := (C70_sent_in_order env ops h).2
  rw [hp] at this
  obtain ⟨h1, h2, h3, h4, h5⟩ := this
  by_cases hl : m.length = 5
  · exact absurd (h4 hl) hk
  · exact ⟨(h5 hl).1, (h5 hl).2.1, h2, h3⟩

/-- How many PINGs a stretch of history contains. -/
def Spec.pings (l : Log) : Nat :=
  l.countP (fun e => match e with | .sslCall (.write m) _ => isPing m | _ => false)

/-- No connect call set the connection up during a stretch of history. -/
def Spec.NoSetup (l : Log) : Prop := ∀ e ∈ l, ∀ n, e ≠ .table n

theorem pings_write (m : Bytes) (ok : Bool) (l : Log) :
    pings (.sslCall (.write m) ok :: l) = pings l + if isPing m then 1 else 0 :=
  List.countP_cons

theorem nextPing_append {l : Log} (old : Log) (h : NoSetup l) (hlt : nextPing old < 65536) :
    nextPing (l ++ old) = (nextPing old + pings l) % 65536 := by
  induction l with
  | nil => show nextPing old = _; simp [pings]; omega
  | cons e l ih =>
    have ih := ih (fun x hx => h x (by simp [hx]))
    have hn : ∀ e : Effect, NoSend e → nextPing (e :: l ++ old) = (nextPing old + pings (e :: l)) % 65536 := by
      intro e he
      rw [List.cons_append, he.next, ih]
      congr 2
      unfold pings
      rw [List.countP_cons_of_neg]
      cases e with
      | sslCall call ok => cases call <;> simp_all [NoSend]
      | _ => simp
    cases e with
    | sslCall call ok =>
      cases call with
      | write m =>
        show (if isPing m then (nextPing (l ++ old) + 1) % 65536 else nextPing (l ++ old)) = _
        by_cases hm : isPing m = true
        · rw [if_pos hm, ih, pings_write, if_pos hm]
          omega
        · rw [if_neg hm, ih, pings_write, if_neg hm, Nat.add_zero]
      | _ => exact hn _ trivial
    | table n => exact absurd rfl (h (.table n) (by simp) n)
    | _ => exact hn _ trivial

theorem nextPing_lt (l : Log) : nextPing l < 65536 := by
  induction l with
  | nil => show 0 < _; omega
  | cons e l ih =>
    unfold nextPing
    split
    · omega
    · omega
    · split
      · exact Nat.mod_lt _ (by omega)
      · rename_i h _; injection h with _ h; rw [← h]; exact ih
    · rename_i h; injection h with _ h; rw [← h]; exact ih

/-- **C35** (fresh identifiers) On one connection, two PINGs with fewer than 65535 others between them carry
different identifiers. -/
theorem C35_fresh (env : Env) (ops : List Op) {newer mid older : Log} {m1 m2 : Bytes} {ok1 ok2 : Bool}
    (h : (run env ops).log = newer ++ .sslCall (.write m2) ok2 :: (mid ++ .sslCall (.write m1) ok1 :: older))
    (h1 : m1.head? = some 2) (h2 : m2.head? = some 2) (hc : NoSetup mid) (hn : pings mid < 65535) :
    num (field m1 1 2) ≠ num (field m2 1 2) := by
  have e1 := C35_identifiers env ops (newer := newer ++ .sslCall (.write m2) ok2 :: mid) (m := m1) (ok := ok1)
    (older := older) (by rw [h]; simp) h1
  have e2 := C35_identifiers env ops h h2
  rw [nextPing_append _ hc (nextPing_lt _)] at e2
  have e3 : nextPing (.sslCall (.write m1) ok1 :: older) = (nextPing older + 1) % 65536 := by
    show (if isPing m1 then _ else _) = _
    rw [if_pos (by simp [isPing, h1])]
  have := nextPing_lt older
  rw [e3] at e2
  rw [e1, e2]
  omega

namespace Demo

/-- Was a message satisfying `P` handed to the TLS layer? -/
def sentP (P : Bytes → Bool) (l : Log) : Bool :=
  occurs (fun e _ => match e with | .sslCall (.write m) _ => P m | _ => false) l

end Demo

/-- Non-vacuity: a client that sends AUTH, a keepalive, DATA, a PONG, two probes and GOODBYE; a server that sends
CONFIG_IPV4 and SERVER_CONFIG. -/
example :
    let l := (run Demo.env (Demo.clientOps ++ [.keepalive, .insidePacket Demo.ipPkt,
      .outsideData (Demo.dgram [1]) [Demo.msg [2, 0, 9, 0, 0]], .startPmtud, .pmtudTimeout, .disconnect])).log
    Demo.sentP (fun m => m.head? == some 4) l = true ∧
    Demo.sentP (fun m => m == [2, 0, 1, 0, 0]) l = true ∧
    Demo.sentP (fun m => m.head? == some 5) l = true ∧
    Demo.sentP (fun m => m == [3, 0, 9, 0, 0]) l = true ∧
    Demo.sentP (fun m => m.length == 1253 && m.take 3 == [2, 0, 2]) l = true ∧
    Demo.sentP (fun m => m.length == 1253 && m.take 3 == [2, 0, 3]) l = true ∧
    Demo.sentP (fun m => m == [12]) l = true := by decide +kernel

example :
    let l := (run Demo.env (Demo.serverOps ++ [.sendServerConfig [7, 8]])).log
    Demo.sentP (fun m => m.head? == some 6) l = true ∧
    Demo.sentP (fun m => m == [14, 0, 2, 7, 8]) l = true := by decide +kernel

end Lightway
