import Verif.Model.Getters
import Verif.Props.Receive
import Verif.Props.SendResult

/-!
# C98: the detailed TLS error explains a TLS failure
-/

namespace Lightway
open Spec

namespace Spec

/-- The newest call into TLS of a history (newest first): the call, whether it succeeded, the history before it. -/
def lastTls : Log → Option (SslCall × Bool × Log)
  | [] => none
  | .sslCall call ok :: l => some (call, ok, l)
  | _ :: l => lastTls l

/-- The two result codes that say that TLS failed. -/
def TlsFailure (rc : RC) : Prop := rc = .sslError ∨ rc = .sslErrorNonfatal

/-- `e` is the error TLS gave for `call`, made after the history `l` on a connection that has a TLS object or not;
`reads` are the answers to the reads of this API call. -/
def ErrorOf (env : Env) (tls : Bool) (reads : List ReadRes) (l : Log) (call : SslCall) (e : SslErr) : Prop :=
  match tls, call with
  | false, _ => e = .badFuncArg
  | true, .read => ∃ r ∈ reads, r.plain = [] ∧ r.retZero = false ∧ r.err = e
  | true, call => (env.ssl l call).err = e

/-- The code came out of a callback of the host, which the call passes on. -/
def OfHost (x : Log) (rc : RC) : Prop := .populate rc ∈ x ∨ ∃ ms, .pmtudTime ms rc ∈ x

/-- The answers to the reads that come with a call. -/
def readsOf : Op → List ReadRes
  | .outsideData _ reads => reads
  | _ => []

end Spec

theorem lastTls_skip {x : Log} (l : Log) (h : ∀ call ok, Effect.sslCall call ok ∉ x) : lastTls (x ++ l) = lastTls l := by
  induction x with
  | nil => rfl
  | cons e x ih =>
    have ih := ih fun call ok hm => h call ok (.tail _ hm)
    cases e with
    | sslCall call ok => exact absurd (.head _) (h call ok)
    | _ => exact ih

/-- What is to be shown of the result of a part of a call. -/
def Diag (env : Env) (w : Bool) (reads : List ReadRes) (c d : Conn) (rc : RC) : Prop :=
  TlsFailure rc → (∃ x, d.log = x ++ c.log ∧ OfHost x rc) ∨
    ∃ call l x, lastTls d.log = some (call, false, l) ∧ l = x ++ c.log ∧ ErrorOf env w reads l call d.wolfError

theorem Diag.before {env : Env} {w : Bool} {reads : List ReadRes} {a c d : Conn} {rc : RC} (h : Diag env w reads c d rc)
    {y : Log} (hy : c.log = y ++ a.log) : Diag env w reads a d rc := by
  intro hf
  rcases h hf with ⟨x, hx, ho⟩ | ⟨call, l, x, h1, h2, h3⟩
  · refine .inl ⟨x ++ y, by rw [hx, hy]; simp, ?_⟩
    rcases ho with ho | ⟨ms, ho⟩
    · exact .inl (List.mem_append_left _ ho)
    · exact .inr ⟨ms, List.mem_append_left _ ho⟩
  · exact .inr ⟨call, l, x ++ y, h1, by rw [h2, hy]; simp, h3⟩

theorem Diag.more {env : Env} {w : Bool} {reads reads' : List ReadRes} {c d : Conn} {rc : RC} (h : Diag env w reads c d rc)
    (hs : ∀ r ∈ reads, r ∈ reads') : Diag env w reads' c d rc := by
  intro hf
  rcases h hf with h | ⟨call, l, x, h1, h2, h3⟩
  · exact .inl h
  · refine .inr ⟨call, l, x, h1, h2, ?_⟩
    cases w with
    | false => exact h3
    | true =>
      cases call with
      | read => obtain ⟨r, hr, h⟩ := h3; exact ⟨r, hs r hr, h⟩
      | _ => exact h3

theorem Diag.ok {env : Env} {w : Bool} {reads : List ReadRes} {c d : Conn} : Diag env w reads c d .success := by
  rintro (h | h) <;> cases h

theorem Diag.code {env : Env} {w : Bool} {reads : List ReadRes} {c d : Conn} {rc : RC} (h : ¬TlsFailure rc) : Diag env w reads c d rc :=
  fun h' => absurd h' h

theorem NetIo.notTls {l : Log} (h : ∀ x ∈ l, NetIo x) (call : SslCall) (ok : Bool) : Effect.sslCall call ok ∉ l := by
  intro hm
  exact (h _ hm).elim

/-- A failed TLS call whose error is recorded at once. -/
theorem Diag.failed (env : Env) (reads : List ReadRes) (c d : Conn) (call : SslCall) (rc : RC) (hr : call ≠ .read)
    (hok : (sslDo env c call).2.ok = false) {y : Log} (hd : d.log = y ++ (sslDo env c call).1.log)
    (hy : ∀ call ok, Effect.sslCall call ok ∉ y) (he : d.wolfError = (sslDo env c call).2.err) :
    Diag env c.wolfSet reads c d rc := by
  intro _
  obtain ⟨l, hl, hio⟩ := sslDo_says env c call
  refine .inr ⟨call, c.log, [], ?_, rfl, ?_⟩
  · rw [hd, lastTls_skip _ hy, hl, lastTls_skip _ (NetIo.notTls hio), hok]; rfl
  · rw [he]
    have h2 : (sslDo env c call).2 = if c.wolfSet then env.ssl c.log call else nullSslRes := rfl
    rw [h2]
    cases hw : c.wolfSet with
    | false => rfl
    | true =>
      cases call with
      | read => exact absurd rfl hr
      | _ => rfl

theorem sendMessage_diag (env : Env) (c : Conn) (m : Bytes) (reads : List ReadRes) :
    Diag env c.wolfSet reads c (sendMessage env c m).1 (sendMessage env c m).2 := by
  have key := Diag.failed env reads c
  unfold sendMessage
  generalize hq : sslDo env c (.write m) = q at ⊢
  have key := fun d rc hok y hd hy he => key d (.write m) rc (by simp) hok (y := y) hd hy he
  rw [hq] at key
  obtain ⟨c1, r⟩ := q
  simp only at key ⊢
  split
  · exact .ok
  · rename_i hok
    split
    · exact .ok
    · exact .code (by simp [TlsFailure])
    · exact .code (by simp [TlsFailure])
    · split
      · exact .code (by simp [TlsFailure])
      · exact key _ _ (by simpa using hok) [] rfl (by simp) rfl

theorem fragLoop_diag (env : Env) (size id : Nat) (c : Conn) (off : Nat) (pkt : Bytes) (reads : List ReadRes) :
    Diag env c.wolfSet reads c (fragLoop env c size id off pkt).1 (fragLoop env c size id off pkt).2 := by
  fun_induction fragLoop env c size id off pkt with
  | case1 => exact .ok
  | case2 => exact .code (by simp [TlsFailure])
  | case3 => exact .code (by simp [TlsFailure])
  | case4 c off pkt hz hs d hd c' rc he hrc =>
    have := sendMessage_diag env c (fragMsg id off (decide (pkt.length > size)) d) reads
    rw [he] at this
    exact this
  | case5 c off pkt hz hs d hd c' rc he hrc ih =>
    have h1 := (sendMessage_frame env c (fragMsg id off (decide (pkt.length > size)) d)).nFrame.wolfSet
    obtain ⟨l, ok, h2, _⟩ := sendMessage_log env c (fragMsg id off (decide (pkt.length > size)) d)
    rw [he] at h1 h2
    simp only at h1 h2
    rw [h1] at ih
    exact ih.before (y := l ++ [.sslCall (.write (fragMsg id off (decide (pkt.length > size)) d)) ok]) (by rw [h2]; simp)

theorem clampLoop_code (pkt : Bytes) (mss ip off len : Nat) {q : Bytes} {rc : RC}
    (h : clampLoop pkt mss ip off len = some (q, rc)) : ¬TlsFailure rc := by
  fun_induction clampLoop pkt mss ip off len
  all_goals first
    | contradiction
    | (simp only [Option.some.injEq, Prod.mk.injEq] at h; rw [← h.2]; simp [TlsFailure])
    | (rename_i ih; exact ih h)
    | skip

theorem clampMss_code (pkt : Bytes) (mss : Nat) {q : Bytes} {rc : RC} (h : clampMss pkt mss = some (q, rc)) : ¬TlsFailure rc := by
  unfold clampMss at h
  repeat' split at h
  all_goals first
    | contradiction
    | (simp only [Option.some.injEq, Prod.mk.injEq] at h; rw [← h.2]; simp [TlsFailure])
    | skip
  all_goals
    simp only at h
    repeat' split at h
    all_goals first
      | contradiction
      | (simp only [Option.some.injEq, Prod.mk.injEq] at h; rw [← h.2]; simp [TlsFailure])
      | exact clampLoop_code _ _ _ _ _ h

/-- `Diag` of a pair. -/
def DiagR (env : Env) (w : Bool) (reads : List ReadRes) (c : Conn) (r : Conn × RC) : Prop := Diag env w reads c r.1 r.2

theorem DiagR.code {env : Env} {w : Bool} {reads : List ReadRes} {c d : Conn} {rc : RC} (h : ¬TlsFailure rc) : DiagR env w reads c (d, rc) :=
  Diag.code h

theorem insidePacket_diag (env : Env) (c : Conn) (pkt : Bytes) (reads : List ReadRes) :
    DiagR env c.wolfSet reads c (insidePacket env c pkt) := by
  unfold insidePacket
  split
  · exact .code (by simp [TlsFailure])
  split
  · exact .code (by simp [TlsFailure])
  generalize sizeSub c.outsideMtu packetOverhead = capacity
  dsimp only
  split
  · exact .code (by simp [TlsFailure])
  split
  · exact .code (by simp [TlsFailure])
  split
  · exact .code (by simp [TlsFailure])
  rename_i p2 rc hcl
  split
  · exact .code (clampMss_code _ _ hcl)
  obtain ⟨l, hl, hp⟩ := Chain.ingress_log c.insidePlugins c.log p2 capacity
  generalize c.insidePlugins.ingress c.log p2 capacity = g at hl ⊢
  obtain ⟨lg, pk, prc⟩ := g
  simp only at hl ⊢
  split
  · exact .code (by simp [TlsFailure])
  split
  · exact .code (by simp [TlsFailure])
  split
  · exact .code (by simp [TlsFailure])
  split
  · split
    · exact .code (by simp [TlsFailure])
    · exact (sendMessage_diag env { c with log := lg } _ reads).before hl
  · unfold fragAndSend
    simp only
    split
    · exact .code (by simp [TlsFailure])
    · exact (fragLoop_diag env _ _ { c with log := lg, fragNextId := (c.fragNextId + 1) % 65536 } 0 pk reads).before hl

theorem keepalive_diag (env : Env) (c : Conn) (reads : List ReadRes) : DiagR env c.wolfSet reads c (keepalive env c) := by
  unfold keepalive
  split
  · exact .code (by simp [TlsFailure])
  · simp only
    have h := sendMessage_diag env { c with pingNextId := (c.pingNextId + 1) % 65536 } (pingMsg c.pingNextId) reads
    generalize sendMessage env { c with pingNextId := (c.pingNextId + 1) % 65536 } (pingMsg c.pingNextId) = q at h ⊢
    obtain ⟨c1, rc⟩ := q
    simp only at h ⊢
    split
    · rename_i hrc; rw [hrc]; exact Diag.ok
    · exact h

theorem sendServerConfig_diag (env : Env) (c : Conn) (buf : Bytes) (reads : List ReadRes) :
    DiagR env c.wolfSet reads c (sendServerConfig env c buf) := by
  unfold sendServerConfig
  split
  · exact .code (by simp [TlsFailure])
  split
  · exact .code (by simp [TlsFailure])
  split
  · exact .code (by simp [TlsFailure])
  · exact sendMessage_diag env c _ reads

/-! ## Path MTU discovery: a code may come from the host's timer callback -/

theorem retryProbe_diag (env : Env) (w : Bool) (c : Conn) (ms : Nat) (reads : List ReadRes) : DiagR env w reads c (retryProbe env c ms) := by
  unfold retryProbe pmtudTimeCb
  by_cases h : c.cbs.pmtudTime = true
  · rw [if_pos h]
    exact fun _ => .inl ⟨[.pmtudTime ms (env.pmtudTime c.log ms)], rfl, .inr ⟨ms, List.mem_singleton.mpr rfl⟩⟩
  · rw [if_neg h]
    exact .code (by simp [TlsFailure])

theorem sendProbe_diag (env : Env) (w : Bool) (c : Conn) (mtu : Nat) (reads : List ReadRes) : DiagR env w reads c (sendProbe env c mtu) := by
  unfold sendProbe
  split
  · exact .code (by simp [TlsFailure])
  split
  · exact .code (by simp [TlsFailure])
  · exact .code (by simp [TlsFailure])

theorem pmtudChangeState_ext (c : Conn) (s : PmtudState) : ∃ y, (pmtudChangeState c s).log = y ++ c.log := by
  unfold pmtudChangeState
  simp only
  split
  · exact ⟨[_], rfl⟩
  · exact ⟨[], rfl⟩

theorem DiagR.before {env : Env} {w : Bool} {reads : List ReadRes} {a c : Conn} {r : Conn × RC} (h : DiagR env w reads c r)
    {y : Log} (hy : c.log = y ++ a.log) : DiagR env w reads a r := Diag.before h hy

theorem confirmBaseFailed_diag (env : Env) (w : Bool) (c : Conn) (reads : List ReadRes) : DiagR env w reads c (confirmBaseFailed env c) := by
  unfold confirmBaseFailed
  by_cases h : c.pmtud.state = .base
  · rw [if_pos h]
    obtain ⟨y, hy⟩ := pmtudChangeState_ext c .error
    exact (retryProbe_diag env w _ _ reads).before hy
  · rw [if_neg h]
    exact .code (by simp [TlsFailure])

theorem searchCompleted_diag (env : Env) (w : Bool) (c : Conn) (reads : List ReadRes) : DiagR env w reads c (searchCompleted env c) := by
  unfold searchCompleted
  by_cases h : c.pmtud.state = .searching
  · rw [if_pos h]
    obtain ⟨y, hy⟩ := pmtudChangeState_ext { c with pmtud := { c.pmtud with effective := min c.pmtud.probingSize maxPlpmtu } } .searchComplete
    exact (retryProbe_diag env w _ _ reads).before hy
  · rw [if_neg h]
    exact .code (by simp [TlsFailure])

theorem blackholeDetected_diag (env : Env) (w : Bool) (c : Conn) (reads : List ReadRes) : DiagR env w reads c (blackholeDetected env c) := by
  unfold blackholeDetected
  by_cases h : c.pmtud.state = .searching ∨ c.pmtud.state = .searchComplete
  · rw [if_pos h]
    obtain ⟨y, hy⟩ := pmtudChangeState_ext c .base
    exact (sendProbe_diag env w _ _ reads).before hy
  · rw [if_neg h]
    exact .code (by simp [TlsFailure])

theorem pmtudTimeout_diag (env : Env) (w : Bool) (c : Conn) (reads : List ReadRes) : DiagR env w reads c (pmtudTimeout env c) := by
  unfold pmtudTimeout handleProbeTimeout
  by_cases h : c.pmtud.probeCount < 3
  · rw [if_pos h]
    exact sendProbe_diag env w c _ reads
  rw [if_neg h]
  have hl : ({ c with pmtud := { c.pmtud with pendingId := 0, probeCount := 0 } } : Conn).log = [] ++ c.log := rfl
  generalize ({ c with pmtud := { c.pmtud with pendingId := 0, probeCount := 0 } } : Conn) = d at hl ⊢
  refine DiagR.before ?_ hl
  simp only
  split
  · split
    · exact sendProbe_diag env w _ _ reads
    · exact confirmBaseFailed_diag env w d reads
  · split
    · exact (sendProbe_diag env w _ _ reads).before (y := []) rfl
    split
    · exact .code (by simp [TlsFailure])
    · exact (searchCompleted_diag env w _ reads).before (y := []) rfl
  · exact blackholeDetected_diag env w d reads
  · exact retryProbe_diag env w d _ reads
  · exact .code (by simp [TlsFailure])

theorem startPmtud_diag (env : Env) (w : Bool) (c : Conn) (reads : List ReadRes) : DiagR env w reads c (startPmtud env c) := by
  unfold startPmtud
  split
  · exact .code (by simp [TlsFailure])
  split
  · exact .code (by simp [TlsFailure])
  split
  · exact .code (by simp [TlsFailure])
  · unfold startBaseProbing
    split
    · exact .code (by simp [TlsFailure])
    · exact .code (by simp [TlsFailure])
    · obtain ⟨y, hy⟩ := pmtudChangeState_ext c .base
      exact (sendProbe_diag env w _ _ reads).before (y := y) hy

/-! ## Receiving -/

theorem screen_code {server : Bool} {st : ConnState} {cbs : Callbacks} {m : Bytes} {v : Verdict}
    (h : screen server st cbs m = some v) : ¬TlsFailure v.code := by
  unfold screen screenAuth whenOnline whenLong whenHolds at h
  repeat' split at h
  all_goals first
    | contradiction
    | (simp only [Option.some.injEq] at h; rw [← h]; simp [TlsFailure, Verdict.code])

theorem acted_code {cbs : Callbacks} {m : Bytes} {tail : Log} {rc : RC} (hf : TlsFailure rc) (hm : m.head? ≠ some 2)
    (h : ActedEnd cbs m tail rc) : OfHost tail rc := by
  have hd : ¬TlsFailure (denial cbs m) := by
    unfold denial
    repeat' split
    all_goals simp [TlsFailure]
  have hde : ∀ {t : Log}, DataEnd t rc → False := by
    intro t h
    rcases h with ⟨h, _⟩ | h <;> rw [h] at hf <;> simp [TlsFailure] at hf
  unfold ActedEnd at h
  split at h
  · exact absurd (by assumption) hm
  · rcases h with ⟨h, _⟩ | h
    · rw [h] at hf; exact absurd hf hd
    · exact .inl h
  · rcases h with h | ⟨h, _⟩
    · exact (hde h).elim
    · rw [h] at hf; simp [TlsFailure] at hf
  · exact (hde h).elim
  · rw [h.1] at hf; simp [TlsFailure] at hf
  · rw [h.1] at hf; simp [TlsFailure] at hf
  · rcases h with h | h | h | ⟨h, _⟩
    · exact (hde h).elim
    · rw [h] at hf; simp [TlsFailure] at hf
    · rw [h] at hf; simp [TlsFailure] at hf
    · rw [h] at hf; simp [TlsFailure] at hf
  · exact h.elim

theorem processMessage_diag (env : Env) (c : Conn) (m : Bytes) (reads : List ReadRes) (hne : m ≠ []) (hst : c.state ≠ .disconnecting) :
    DiagR env c.wolfSet reads c (processMessage env c m) := by
  have hcase : screen c.isServer c.state c.cbs m = none ∨ ∃ v, screen c.isServer c.state c.cbs m = some v := by
    cases screen c.isServer c.state c.cbs m with
    | none => exact .inl rfl
    | some v => exact .inr ⟨v, rfl⟩
  rcases hcase with hn | ⟨v, hv⟩
  · by_cases hm : m.head? = some 2
    · cases m with
      | nil => exact absurd rfl hne
      | cons id t =>
        have hid : id = 2 := by simpa using hm
        subst hid
        unfold processMessage
        simp only
        rw [if_neg (show ¬(2 : UInt8) = msgNoop by decide), if_pos (show (2 : UInt8) = msgPing from rfl)]
        unfold handlePing
        split
        · exact .code (by simp [TlsFailure])
        split
        · exact .code (by simp [TlsFailure])
        split
        · exact .code (by simp [TlsFailure])
        · exact sendMessage_diag env c _ reads
    · obtain ⟨tail, ht, ho⟩ := processMessage_out env c m hne hst hn
      intro hf
      refine .inl ⟨tail, ht, acted_code hf hm (ho ?_)⟩
      intro h
      rw [h] at hf
      simp [TlsFailure] at hf
  · rw [processMessage_screen env c m v hne hv]
    exact .code (screen_code hv)

theorem messageLoop_diag (env : Env) (c : Conn) (reads : List ReadRes) (hi : Inv env (some .outsideData) c) (hs : MsgState c.state) :
    ∀ rc, (messageLoop env c reads).2 = some rc → Diag env c.wolfSet reads c (messageLoop env c reads).1 rc := by
  have null : ∀ reads rc, c.wolfSet = false → Diag env c.wolfSet reads c { c.emit (.sslCall .read false) with wolfError := .badFuncArg } rc := by
    intro reads rc hw _
    exact .inr ⟨.read, c.log, [], rfl, rfl, by rw [hw]; rfl⟩
  induction reads generalizing c with
  | nil =>
    unfold messageLoop
    by_cases hw : c.wolfSet = true
    · rw [if_pos hw]; intro rc h; cases h
    · rw [if_neg hw]
      exact fun rc _ => null _ _ (by simpa using hw)
  | cons r rest ih =>
    unfold messageLoop
    by_cases hw : (!c.wolfSet) = true
    · rw [if_pos hw]
      exact fun rc _ => null _ _ (by simpa using hw)
    rw [if_neg hw]
    have hw : c.wolfSet = true := by simpa using hw
    have null' : ∀ (d : Conn), d.wolfSet = true → ∀ reads rc, d.wolfSet = false → Diag env d.wolfSet reads d { d.emit (.sslCall .read false) with wolfError := .badFuncArg } rc := by
      intro d h1 reads rc h2
      rw [h1] at h2
      cases h2
    simp only
    have hiff : r.plain.take maxWireMtu = [] ↔ r.plain = [] := by simp [maxWireMtu]
    generalize r.plain.take maxWireMtu = plain at hiff ⊢
    have h1 : MO env c (ioRun env (c.emit (.sslCall .read (!plain.isEmpty))) r.io) :=
      (Star.one (.quiet c _ trivial)).trans (ioRun_star env _ _ _ id)
    have n1 : NFrame c (ioRun env (c.emit (.sslCall .read (!plain.isEmpty))) r.io) :=
      (NFrame.emit c (e := .sslCall .read (!plain.isEmpty)) trivial).trans (ioRun_frame env _ _).nFrame
    obtain ⟨l1, e1, hio⟩ := ioRun_netIo env (c.emit (.sslCall .read (!plain.isEmpty))) r.io
    generalize ioRun env (c.emit (.sslCall .read (!plain.isEmpty))) r.io = c1 at h1 n1 e1 ⊢
    have i1 := h1.inv hi
    have hs1 : MsgState c1.state := by rw [n1.state]; exact hs
    have hk := MO.keeps h1
    have hw1 : c1.wolfSet = true := by rw [hk.1]; exact hw
    have e1' : c1.log = (l1 ++ [.sslCall .read (!plain.isEmpty)]) ++ c.log := by rw [e1]; simp [Conn.emit]
    by_cases hp : plain.isEmpty = true
    · rw [if_pos hp]
      have hp' : r.plain = [] := hiff.mp (by simpa using hp)
      split
      · intro rc h; cases h
      · intro rc h; cases h
      · intro rc h; cases h
      · intro rc h
        have := ih c1 i1 hs1 (null' c1 hw1) rc h
        rw [hk.1] at this
        exact (this.before e1').more fun r hr => .tail _ hr
      · split
        · intro rc h
          cases h
          exact .code (by simp [TlsFailure])
        · rename_i hz
          intro rc _ _
          refine .inr ⟨.read, c.log, [], ?_, rfl, ?_⟩
          · show lastTls c1.log = _
            rw [e1, lastTls_skip _ (NetIo.notTls hio), hp]
            rfl
          · rw [hw]
            exact ⟨r, .head _, hp', by simpa using hz, rfl⟩
    · rw [if_neg hp]
      have hpl : plain ≠ [] := by intro hh; rw [hh] at hp; exact hp rfl
      have h1 := h1.tail (.message c1 plain rfl hs1)
      have h2 := processMessage_star env (c1.emit (.message plain)) plain (h1.inv hi) hw1 hs1 ⟨_, rfl⟩
      obtain ⟨l2, e2, _⟩ := processMessage_noMsg env (c1.emit (.message plain)) plain
      have hd := processMessage_diag env (c1.emit (.message plain)) plain (r :: rest) hpl hs1.2.1
      generalize processMessage env (c1.emit (.message plain)) plain = q at h2 e2 hd ⊢
      obtain ⟨c2, rc2⟩ := q
      simp only at h2 e2 ⊢
      have h12 := h1.trans h2.1
      have hk2 := MO.keeps h12
      have e2' : c2.log = (l2 ++ .message plain :: (l1 ++ [.sslCall .read (!plain.isEmpty)])) ++ c.log := by
        rw [e2]; show l2 ++ .message plain :: c1.log = _; rw [e1']; simp
      by_cases hrc : rc2 = .success
      · rw [if_neg (by simp [hrc])]
        intro rc h
        have := ih c2 (h12.inv hi) (h2.2 hrc) (null' c2 (hk2.1.trans hw)) rc h
        rw [hk2.1] at this
        exact (this.before e2').more fun r hr => .tail _ hr
      · rw [if_pos hrc]
        intro rc h
        cases h
        have hd : Diag env c1.wolfSet (r :: rest) (c1.emit (.message plain)) c2 rc2 := hd
        rw [hk.1] at hd
        exact hd.before (y := .message plain :: (l1 ++ [.sslCall .read (!plain.isEmpty)])) (by
          show Effect.message plain :: c1.log = _
          rw [e1']; simp)

theorem sslDo_wolfSet (env : Env) (c : Conn) (call : SslCall) : (sslDo env c call).1.wolfSet = c.wolfSet :=
  (sslDo_frame env c call).nFrame.wolfSet

theorem sslVer_same (env : Env) (c : Conn) : (sslVer env c).1.wolfSet = c.wolfSet ∧ ∃ y, (sslVer env c).1.log = y ++ c.log := by
  unfold sslVer
  split
  · exact ⟨rfl, [], rfl⟩
  · exact ⟨rfl, [_], rfl⟩

theorem sslDo_ext (env : Env) (c : Conn) (call : SslCall) : ∃ y, (sslDo env c call).1.log = y ++ c.log := by
  obtain ⟨l, hl, _⟩ := sslDo_says env c call
  exact ⟨l ++ [_], by rw [hl]; simp; rfl⟩

/-- After the call that starts a renegotiation. -/
theorem renegGo_diag (env : Env) (c : Conn) (call : SslCall) (reads : List ReadRes) (hc : call ≠ .read) (go : Conn → SslRes → Conn × RC)
    (hgo : ∀ c r, go c r =
      let c := { c with renegInProgress := true }
      let c := generateEvent c .renegStarted
      if r.ok then (c, .success)
      else
        match r.err with
        | .none | .wantRead | .wantWrite | .appDataReady => (updateTimeout env c, .success)
        | .secureReneg => (c, .secureRenegotiationError)
        | e => ({ c with wolfError := e }, .sslError)) :
    DiagR env c.wolfSet reads c (go (sslDo env c call).1 (sslDo env c call).2) := by
  have key := fun d rc hok y hd hy he => Diag.failed env reads c d call rc hc hok (y := y) hd hy he
  rw [hgo]
  generalize sslDo env c call = q at key ⊢
  obtain ⟨c1, r⟩ := q
  simp only at key ⊢
  split
  · exact .code (by simp [TlsFailure])
  rename_i hok
  split
  · exact .code (by simp [TlsFailure])
  · exact .code (by simp [TlsFailure])
  · exact .code (by simp [TlsFailure])
  · exact .code (by simp [TlsFailure])
  · exact .code (by simp [TlsFailure])
  · exact key _ _ (by simpa using hok) [.event .renegStarted c1.cbs.event] rfl (by simp) rfl

theorem renegotiateSsl_diag (env : Env) (c : Conn) (reads : List ReadRes) : DiagR env c.wolfSet reads c (renegotiateSsl env c) := by
  unfold renegotiateSsl
  simp only
  split
  · exact .code (by simp [TlsFailure])
  have hv := sslVer_same env { c with renegDue := false }
  generalize sslVer env { c with renegDue := false } = q at hv ⊢
  obtain ⟨c1, v⟩ := q
  obtain ⟨hw, y, hy⟩ := hv
  simp only at hw hy ⊢
  rw [← hw]
  refine DiagR.before ?_ hy
  split
  · have h2 := sslDo_wolfSet env c1 .renegSupport
    obtain ⟨y2, hy2⟩ := sslDo_ext env c1 .renegSupport
    generalize sslDo env c1 .renegSupport = q at h2 hy2 ⊢
    obtain ⟨c2, r⟩ := q
    simp only at h2 hy2 ⊢
    split
    · exact .code (by simp [TlsFailure])
    · rw [← h2]
      exact (renegGo_diag env c2 .rehandshake reads (by simp) _ (fun _ _ => rfl)).before hy2
  · exact renegGo_diag env c1 .updateKeys reads (by simp) _ (fun _ _ => rfl)

theorem renegTail_diag (env : Env) (c : Conn) (reads : List ReadRes) : DiagR env c.wolfSet reads c (renegTail env c) := by
  unfold renegTail
  split
  · exact .code (by simp [TlsFailure])
  have hv := sslVer_same env c
  generalize sslVer env c = q at hv ⊢
  obtain ⟨c1, v⟩ := q
  obtain ⟨hw, y, hy⟩ := hv
  simp only at hw hy ⊢
  rw [← hw]
  refine DiagR.before ?_ hy
  split
  · exact .code (by simp [TlsFailure])
  · have key := fun d rc hok y hd hy he => Diag.failed env reads c1 d .keyUpdateResponse rc (by simp) hok (y := y) hd hy he
    generalize sslDo env c1 .keyUpdateResponse = q at key ⊢
    obtain ⟨c2, r⟩ := q
    simp only at key ⊢
    split
    · rename_i hok
      exact key _ _ (by simpa using hok) [] rfl (by simp) rfl
    · exact .code (by simp [TlsFailure])

theorem handleMessages_diag (env : Env) (c : Conn) (reads : List ReadRes) (hi : Inv env (some .outsideData) c) (hs : MsgState c.state) :
    DiagR env c.wolfSet reads c (handleMessages env c reads) := by
  have h1 := messageLoop_diag env c reads hi hs
  have hmo := messageLoop_star env c reads hi hs
  have hk := (MO.keeps hmo).1
  obtain ⟨y, hy, _⟩ := hmo.logExt
  unfold handleMessages
  generalize messageLoop env c reads = q at h1 hk hy ⊢
  obtain ⟨c1, o⟩ := q
  simp only at h1 hk hy ⊢
  cases o with
  | some rc => exact h1 rc rfl
  | none =>
    simp only
    rw [← hk]
    refine DiagR.before ?_ hy
    split
    · have h3 := renegotiateSsl_diag env c1 reads
      have f3 := renegotiateSsl_t env c1
      generalize renegotiateSsl env c1 = q3 at h3 f3 ⊢
      obtain ⟨c3, rc⟩ := q3
      simp only at f3 ⊢
      split
      · exact h3
      · have h4 := renegTail_diag env c3 reads
        obtain ⟨l, inc, ps, sl, we, fm, wt, nt, rip, rd, sid, psid, rfl, _⟩ := f3
        exact h4.before (y := l) rfl
    · exact renegTail_diag env c1 reads

theorem verifyConnection_diag (env : Env) (c : Conn) (reads : List ReadRes)
    (hi : Inv env (some .outsideData) c) (hs : c.state ≠ .disconnecting ∧ c.state ≠ .disconnected) :
    DiagR env c.wolfSet reads c (verifyConnection env c reads) := by
  unfold verifyConnection
  have key : ∃ c1, (if (!c.firstMessageReceived) = true then
      generateEvent { c with firstMessageReceived := true } .firstMessageReceived else c) = c1 ∧
      MO env c c1 ∧ c1.state = c.state ∧ ∃ y, c1.log = y ++ c.log := by
    split
    · rename_i hf
      exact ⟨_, rfl, .one (.first c rfl (by simpa using hf)), rfl, [_], rfl⟩
    · exact ⟨_, rfl, .refl c, rfl, [], rfl⟩
  obtain ⟨c1, he, h1, s1, y1, hy1⟩ := key
  rw [he]
  clear he
  have i1 := h1.inv hi
  have k1 := MO.keeps h1
  simp only
  rw [← k1.1]
  refine DiagR.before ?_ hy1
  split
  · rename_i hc
    have h2 : MO env c1 (sslDo env c1 .negotiate).1 := sslDo_star env _ c1 .negotiate
    have n2 := sslDo_n env c1 .negotiate
    have key := fun d rc hok y hd hy he => Diag.failed env reads c1 d .negotiate rc (by simp) hok (y := y) hd hy he
    obtain ⟨ln, hn, hnio⟩ := sslDo_says env c1 .negotiate
    generalize sslDo env c1 .negotiate = q at h2 n2 key hn ⊢
    obtain ⟨c2, r⟩ := q
    simp only at h2 n2 key hn ⊢
    have hc2 : c2.state = .connecting := by rw [n2.state]; exact hc
    split
    · rename_i hok
      split
      · split
        · exact .code (by simp [TlsFailure])
        · split
          · exact .code (by simp [TlsFailure])
          · exact key _ _ (by simpa using hok) [] rfl (by simp) rfl
      · exact .code (by simp [TlsFailure])
    · have h3 := changeState_linkUp_star env .outsideData c2 hc2 (.inr rfl) ⟨ln, c1.log, by rw [hn, show r.ok = true by simpa using ‹¬(!r.ok) = true›], hnio⟩
      have h23 := h2.trans h3.1
      have k3 := MO.keeps h23
      obtain ⟨y3, hy3, _⟩ := h23.logExt
      rw [← k3.1]
      refine DiagR.before (handleMessages_diag env _ reads (h23.inv i1) ?_) hy3
      rcases h3.2.2.2.2 with h | h <;> rw [h] <;> simp [MsgState]
  · rename_i hc
    refine handleMessages_diag env c1 reads i1 ⟨hc, ?_, ?_⟩
    · rw [s1]; exact hs.1
    · rw [s1]; exact hs.2

theorem updateSessionIncoming_code (c : Conn) (s : Nat) : ¬TlsFailure (updateSessionIncoming c s).2 := by
  unfold updateSessionIncoming
  repeat' split
  all_goals simp [TlsFailure]

/-- Bytes of an earlier call are still unread: nothing was asked of TLS, and there is no detailed error. -/
def Left (c : Conn) (r : Conn × RC) : Prop :=
  r.1.wolfError = .none ∧ c.connType = .stream ∧ c.streamLeft ≠ [] ∧ ∃ x, r.1.log = x ++ c.log ∧ ∀ call ok, Effect.sslCall call ok ∉ x

theorem Chain.ingress_code (ch : Chain) (log : Log) (pkt : Bytes) (cap : Nat) :
    (Chain.ingress ch log pkt cap).2.2 = .success ∨ (Chain.ingress ch log pkt cap).2.2 = .failed ∨
      (Chain.ingress ch log pkt cap).2.2 = .pluginDrop := by
  obtain ⟨_, _, h | ⟨p, r, _, _, _, h, _⟩⟩ := Chain.ingress_runs ch log pkt cap
  · exact .inl h.2
  · rw [h]; split <;> simp

theorem outsideData_diag (env : Env) (c : Conn) (buf : Bytes) (reads : List ReadRes)
    (hi : Inv env (some .outsideData) c) (hj : ∃ old, c.log = .api .outsideData :: old) :
    DiagR env c.wolfSet reads c (outsideData env c buf reads) ∨ Left c (outsideData env c buf reads) := by
  unfold outsideData
  split
  · exact .inl (.code (by simp [TlsFailure]))
  rename_i hs
  simp only [not_or] at hs
  simp only
  have h1 : MO env c { c with log := (c.outsidePlugins.ingress c.log buf buf.length).1 } := by
    obtain ⟨old, ho⟩ := hj
    exact ingress_star env _ c c.outsidePlugins buf buf.length ⟨[], old, ho, by simp⟩
  obtain ⟨l, hl, hp⟩ := Chain.ingress_log c.outsidePlugins c.log buf buf.length
  have hj1 : (c.outsidePlugins.ingress c.log buf buf.length).2.2 = .success →
      JustCalled .outsideData (c.outsidePlugins.ingress c.log buf buf.length).1 := by
    intro hok
    obtain ⟨l, e, hl⟩ := Chain.ingress_passed c.outsidePlugins c.log buf buf.length hok
    obtain ⟨old, ho⟩ := hj
    exact ⟨l, old, by rw [e, ho], hl⟩
  have hcode := Chain.ingress_code c.outsidePlugins c.log buf buf.length
  generalize c.outsidePlugins.ingress c.log buf buf.length = g at h1 hl hj1 hcode ⊢
  obtain ⟨lg, pk, prc⟩ := g
  simp only at h1 hl hj1 hcode ⊢
  split
  · exact .inl (.code (by simp [TlsFailure]))
  split
  · refine .inl (.code ?_)
    rcases hcode with h | h | h <;> rw [h] <;> simp [TlsFailure]
  rename_i hok
  replace hj1 := hj1 (by simpa using hok)
  split
  · exact .inl (.code (by simp [TlsFailure]))
  have i1 := h1.inv hi
  split
  · rename_i hct
    left
    unfold outsidePacket
    split
    · exact .code (by simp [TlsFailure])
    · rw [rd_isSome (by omega), rd_isSome (by omega), rd_isSome (by omega), rd_isSome (by omega)]
      simp only
      split
      · exact .code (by simp [TlsFailure])
      · split
        · exact .code (by simp [TlsFailure])
        · split
          · exact .code (by simp [TlsFailure])
          · generalize List.take _ (List.drop 16 pk) = body
            generalize rdLe (List.take 8 (List.drop 8 pk)) = sess
            have h2 : MO env { c with log := lg } { ({ c with log := lg } : Conn).emit (.input sess body) with incoming := some body, packetSeen := false } :=
              .one (.dgram { c with log := lg } sess body rfl hj1 hct)
            have w2 : ({ ({ c with log := lg } : Conn).emit (.input sess body) with incoming := some body, packetSeen := false } : Conn).wolfSet = c.wolfSet := rfl
            have s2 : ({ ({ c with log := lg } : Conn).emit (.input sess body) with incoming := some body, packetSeen := false } : Conn).state = c.state := rfl
            have l2 : ({ ({ c with log := lg } : Conn).emit (.input sess body) with incoming := some body, packetSeen := false } : Conn).log = (.input sess body :: l) ++ c.log := by
              show Effect.input sess body :: lg = _
              rw [hl]; rfl
            have i2 := h2.inv i1
            generalize ({ ({ c with log := lg } : Conn).emit (.input sess body) with incoming := some body, packetSeen := false } : Conn) = d at i2 w2 s2 l2 ⊢
            rw [← w2]
            refine DiagR.before ?_ l2
            have hv := verifyConnection_diag env d reads i2 (by rw [s2]; exact hs)
            generalize verifyConnection env d reads = q at hv ⊢
            obtain ⟨e, rc⟩ := q
            simp only
            split
            · exact hv
            · exact Diag.code (updateSessionIncoming_code e sess)
  · rename_i hct
    unfold outsideStream setupStreamState
    by_cases hsl : c.streamLeft.length = 0
    · simp only [hsl, ne_eq, not_true_eq_false, if_false]
      have h2 : MO env { c with log := lg } { ({ c with log := lg } : Conn).emit (.input 0 pk) with incoming := some pk, streamLeft := pk } :=
        .one (.stream { c with log := lg } pk rfl hj1 (List.length_eq_zero_iff.mp hsl) hct)
      left
      exact (verifyConnection_diag env _ reads (h2.inv i1) hs).before (y := .input 0 pk :: l) (by
        show Effect.input 0 pk :: lg = _
        rw [hl]; rfl)
    · simp only [hsl, ne_eq, not_false_eq_true, if_true]
      simp only [reduceCtorEq, not_false_eq_true, if_true]
      right
      refine ⟨rfl, hct, by intro h; rw [h] at hsl; exact hsl rfl, l, hl, fun call ok hm => ?_⟩
      obtain ⟨p, r, h⟩ := hp _ hm
      cases h

theorem setConfigString_code (b s : Bytes) : ¬TlsFailure (setConfigString b s).2 := by
  unfold setConfigString
  repeat' split
  all_goals simp [TlsFailure]

theorem exec_diag (env : Env) (c : Conn) (op : Op) (ho : ∀ ctx i o, op ≠ .clientConnect ctx i o ∧ op ≠ .serverConnect ctx i o)
    (hi : Inv env (some op.api) c) (hj : ∃ old, c.log = .api op.api :: old) :
    DiagR env c.wolfSet (readsOf op) c (exec env c op) ∨
      (∃ buf reads, op = .outsideData buf reads ∧ Left c (exec env c op)) := by
  cases op with
  | clientConnect ctx i o => exact absurd rfl (ho ctx i o).1
  | serverConnect ctx i o => exact absurd rfl (ho ctx i o).2
  | insidePacket p => exact .inl (insidePacket_diag env c p _)
  | outsideData b rs =>
    rcases outsideData_diag env c b rs hi hj with h | h
    · exact .inl h
    · exact .inr ⟨b, rs, rfl, h⟩
  | keepalive => exact .inl (keepalive_diag env c _)
  | sendServerConfig b => exact .inl (sendServerConfig_diag env c b _)
  | startPmtud => exact .inl (startPmtud_diag env _ c _)
  | pmtudTimeout => exact .inl (pmtudTimeout_diag env _ c _)
  | disconnect =>
    left
    show DiagR _ _ _ _ (disconnect env c)
    unfold disconnect
    repeat' split
    all_goals exact .code (by simp [TlsFailure])
  | nudge =>
    left
    show DiagR _ _ _ _ (nudge env c)
    unfold nudge
    simp only
    repeat' split
    all_goals exact .code (by simp [TlsFailure])
  | scheduleReneg => exact .inl (.code (by simp [TlsFailure]))
  | rotateSession =>
    left
    show DiagR _ _ _ _ (rotateSession env c)
    unfold rotateSession
    repeat' split
    all_goals exact .code (by simp [TlsFailure])
  | setUsername s => exact .inl (Diag.code (setConfigString_code _ _))
  | setPassword s => exact .inl (Diag.code (setConfigString_code _ _))
  | setSni s => exact .inl (.code (by simp [TlsFailure]))
  | setAuthToken t =>
    left
    show DiagR _ _ _ _ (setAuthToken c t)
    unfold setAuthToken
    repeat' split
    all_goals exact .code (by simp [TlsFailure])
  | setAuthBuffer b =>
    left
    show DiagR _ _ _ _ (setAuthBuffer c b)
    unfold setAuthBuffer
    repeat' split
    all_goals exact .code (by simp [TlsFailure])
  | setOutsideMtu m =>
    left
    show DiagR _ _ _ _ (setOutsideMtu c m)
    unfold setOutsideMtu
    repeat' split
    all_goals exact .code (by simp [TlsFailure])
  | setProtocolVersion a b =>
    left
    show DiagR _ _ _ _ (setProtocolVersion c a b)
    unfold setProtocolVersion
    repeat' split
    all_goals exact .code (by simp [TlsFailure])
  | setSessionId s =>
    left
    show DiagR _ _ _ _ (setSessionId c s)
    unfold setSessionId
    repeat' split
    all_goals exact .code (by simp [TlsFailure])

/-- **C98.**  Whatever the history, when any call but a connect returns one of the two codes that say that TLS failed,
the detailed error the connection then reports is the one TLS gave for the last call made into it, which failed and was
made during this very call: never a stale one.  There are two exceptions: a callback of the host (the network
configuration one or the path-MTU timer) returned the code, and it is passed on as it is; or, on a stream, bytes of an
earlier call are still unread, TLS was asked nothing, and the detailed error says "none". -/
theorem C98_diagnosis (env : Env) (ops : List Op) (op : Op)
    (ho : ∀ ctx i o, op ≠ .clientConnect ctx i o ∧ op ≠ .serverConnect ctx i o)
    (hf : TlsFailure (step env (run env ops) op).2) :
    (∃ call l x, lastTls (run env (ops ++ [op])).log = some (call, false, l) ∧ l = x ++ (run env ops).log ∧
      ErrorOf env (hasTls (run env ops).log) (readsOf op) l call (getSslError (run env (ops ++ [op])))) ∨
    (∃ x, (run env (ops ++ [op])).log = x ++ (run env ops).log ∧ OfHost x (step env (run env ops) op).2) ∨
    (∃ x, (run env (ops ++ [op])).log = x ++ (run env ops).log ∧ (∀ call ok, Effect.sslCall call ok ∉ x) ∧
      op.api = .outsideData ∧ (run env ops).connType = .stream ∧ (run env ops).streamLeft ≠ [] ∧
      getSslError (run env (ops ++ [op])) = .none) := by
  have hg := run_good env ops
  have htls := run_tls env ops
  rw [run_snoc]
  generalize run env ops = c at *
  obtain ⟨ap, hi⟩ := hg.inv
  have hent : (entry c op) = c.emit (.api op.api) ∨ op = .nudge ∨ op = .scheduleReneg := by
    cases op <;> first | exact .inl rfl | exact .inr (.inl rfl) | exact .inr (.inr rfl)
  have hnot : op ≠ .nudge ∧ op ≠ .scheduleReneg := by
    constructor
    · rintro rfl
      have : ¬TlsFailure (nudge env (c.emit (.api .nudge))).2 := by
        unfold nudge
        simp only
        repeat' split
        all_goals simp [TlsFailure]
      exact this hf
    · rintro rfl
      rcases hf with h | h <;> cases h
  have he : entry c op = c.emit (.api op.api) := by
    rcases hent with h | h | h
    · exact h
    · exact absurd h hnot.1
    · exact absurd h hnot.2
  have hi2 := entry_inv hi op
  rw [he] at hi2
  have hlog : (step env c op).1.log = .ret (step env c op).2 :: (exec env (c.emit (.api op.api)) op).1.log := rfl
  have herr : getSslError (step env c op).1 = (exec env (c.emit (.api op.api)) op).1.wolfError := rfl
  have hrc : (step env c op).2 = (exec env (c.emit (.api op.api)) op).2 := rfl
  rw [herr, hlog]
  rw [hrc] at hf ⊢
  rcases exec_diag env (c.emit (.api op.api)) op ho hi2 ⟨_, rfl⟩ with h | ⟨buf, reads, rfl, h1, h2, h3, x, h4, h5⟩
  · rcases h hf with ⟨x, hx, hh⟩ | ⟨call, l, x, h1, h2, h3⟩
    · refine .inr (.inl ⟨.ret (exec env (c.emit (.api op.api)) op).2 :: (x ++ [.api op.api]), ?_, ?_⟩)
      · rw [hx]; simp [Conn.emit]
      · rcases hh with hh | ⟨ms, hh⟩
        · exact .inl (.tail _ (List.mem_append_left _ hh))
        · exact .inr ⟨ms, .tail _ (List.mem_append_left _ hh)⟩
    · refine .inl ⟨call, l, x ++ [.api op.api], h1, by rw [h2]; simp [Conn.emit], ?_⟩
      rw [← htls]
      exact h3
  · refine .inr (.inr ⟨.ret (exec env (c.emit (.api .outsideData)) (.outsideData buf reads)).2 :: (x ++ [.api .outsideData]), ?_, ?_, rfl, h2, h3, h1⟩)
    · exact (congrArg (Effect.ret (exec env (c.emit (.api .outsideData)) (.outsideData buf reads)).2 :: ·) h4).trans
        (by simp [Conn.emit, Op.api])
    · intro call ok hm
      rcases List.mem_cons.mp hm with h | h
      · cases h
      · rcases List.mem_append.mp h with h | h
        · exact h5 call ok h
        · cases List.mem_singleton.mp h

/-! ## Connecting -/

theorem ioStep_wolfError (env : Env) (c : Conn) (r : IoReq) : (ioStep env c r).wolfError = c.wolfError := by
  cases r with
  | send rec =>
    show (match c.connType with | .datagram => dtlsWrite env c rec | .stream => tlsWrite env c rec).1.wolfError = _
    cases c.connType with
    | datagram =>
      unfold dtlsWrite outsideWriteCb
      simp only
      repeat' split
      all_goals rfl
    | stream =>
      unfold tlsWrite outsideWriteCb
      simp only
      repeat' split
      all_goals rfl
  | recv sz =>
    show (match c.connType with | .datagram => dtlsRead c sz | .stream => tlsRead c sz).1.wolfError = _
    cases c.connType with
    | datagram =>
      show (dtlsRead c sz).1.wolfError = _
      unfold dtlsRead
      repeat' split
      all_goals rfl
    | stream =>
      show (tlsRead c sz).1.wolfError = _
      unfold tlsRead
      simp only
      split <;> rfl

theorem sslDo_wolfError (env : Env) (c : Conn) (call : SslCall) : (sslDo env c call).1.wolfError = c.wolfError := by
  show (ioRun env (c.emit _) _).wolfError = _
  generalize (if c.wolfSet then env.ssl c.log call else nullSslRes).io = io
  generalize hq : c.emit _ = d
  have hd : d.wolfError = c.wolfError := by rw [← hq]; rfl
  clear hq
  induction io generalizing d with
  | nil => exact hd
  | cons r io ih => exact ih (ioStep env d r) ((ioStep_wolfError env d r).trans hd)

theorem setupType_silent (env : Env) (c : Conn) (ctx : SslCtx) (hw : c.wolfSet = true) {rc : RC}
    (h : (setupType env c ctx).2 = some rc) (hf : TlsFailure rc) :
    rc = .sslError ∧ ctx.connType = .stream ∧ c.isServer = false ∧
      (env.ssl c.log (.useSNI (cstr c.sniHostname))).err = .badFuncArg ∧
      lastTls (setupType env c ctx).1.log = some (.useSNI (cstr c.sniHostname), false, c.log) ∧
      (setupType env c ctx).1.wolfError = c.wolfError := by
  unfold setupType at h ⊢
  cases hct : ctx.connType with
  | datagram =>
    rw [hct] at h
    simp only at h
    repeat' split at h
    all_goals (cases h; try (rcases hf with hf | hf <;> cases hf))
  | stream =>
    rw [hct] at h
    simp only at h ⊢
    have he := sslDo_wolfError env c (.useSNI (cstr c.sniHostname))
    have hr : (sslDo env c (.useSNI (cstr c.sniHostname))).2 = env.ssl c.log (.useSNI (cstr c.sniHostname)) := by
      show (if c.wolfSet then _ else _) = _
      rw [hw]; rfl
    obtain ⟨l, hl, hio⟩ := sslDo_says env c (.useSNI (cstr c.sniHostname))
    by_cases h1 : (!c.isServer) = true ∧ cstr c.sniHostname ≠ []
    · rw [if_pos h1] at h ⊢
      generalize sslDo env c (.useSNI (cstr c.sniHostname)) = q at h he hr hl ⊢
      obtain ⟨c1, r⟩ := q
      simp only at h he hr hl ⊢
      by_cases h2 : (!r.ok) = true
      · rw [if_pos h2] at h ⊢
        have h2 : r.ok = false := by simpa using h2
        simp only [Option.some.injEq] at h
        rw [← hr]
        have hl2 : lastTls c1.log = some (.useSNI (cstr c.sniHostname), false, c.log) := by
          rw [hl, lastTls_skip _ (NetIo.notTls hio), h2]; rfl
        generalize r.err = e at h ⊢
        cases e
        case badFuncArg => exact ⟨h.symm, trivial, by simpa using h1.1, rfl, hl2, he⟩
        all_goals
          rw [← h] at hf
          rcases hf with hf | hf <;> cases hf
      · rw [if_neg h2] at h
        cases h
    · rw [if_neg h1] at h
      cases h

theorem setupDn_code (env : Env) (c : Conn) (ctx : SslCtx) :
    (setupDn env c ctx).2 = none ∨ (setupDn env c ctx).2 = some .initFailed := by
  unfold setupDn
  split
  · generalize sslDo env c _ = q
    obtain ⟨c1, r⟩ := q
    simp only
    split
    · exact .inr rfl
    · exact .inl rfl
  · exact .inl rfl

theorem setupPqc_code (env : Env) (c : Conn) :
    (setupPqc env c).2 = none ∨ (setupPqc env c).2 = some .initFailed := by
  unfold setupPqc
  split
  · generalize sslDo env c _ = q
    obtain ⟨c1, r⟩ := q
    simp only
    split
    · exact .inr rfl
    · exact .inl rfl
  · exact .inl rfl

theorem setupSsl_silent (env : Env) (c : Conn) (ctx : SslCtx) {rc : RC}
    (h : (setupSsl env c ctx).2 = some rc) (hf : TlsFailure rc) :
    rc = .sslError ∧ ctx.connType = .stream ∧ c.isServer = false ∧
      ∃ l x, l = x ++ c.log ∧ (env.ssl l (.useSNI (cstr c.sniHostname))).err = .badFuncArg ∧
      lastTls (setupSsl env c ctx).1.log = some (.useSNI (cstr c.sniHostname), false, l) ∧
      (setupSsl env c ctx).1.wolfError = c.wolfError := by
  unfold setupSsl at h ⊢
  cases hn : (env.ssl c.log .new).ok with
  | false =>
    simp only [hn, Bool.not_false, if_true] at h
    cases h
    rcases hf with hf | hf <;> cases hf
  | true =>
    simp only [hn, Bool.not_true, Bool.false_eq_true, if_false] at h ⊢
    have key := fun rc => @setupType_silent env { c.emit (.sslCall .new true) with wolfSet := true } ctx rfl rc
    generalize setupType env { c.emit (.sslCall .new true) with wolfSet := true } ctx = q at h key ⊢
    obtain ⟨c1, o⟩ := q
    cases o with
    | some rc' =>
      simp only [Option.some.injEq] at h
      subst h
      obtain ⟨h1, h2, h3, h4, h5, h6⟩ := key rc' rfl hf
      exact ⟨h1, h2, h3, _, [.sslCall .new true], rfl, h4, h5, h6⟩
    | none =>
      exfalso
      simp only at h
      have hd := setupDn_code env c1 ctx
      generalize setupDn env c1 ctx = q at h hd
      obtain ⟨c2, o2⟩ := q
      simp only at hd
      rcases hd with rfl | rfl
      · have := setupPqc_code env c2
        simp only at h
        rw [h] at this
        rcases this with h2 | h2
        · cases h2
        · cases h2
          rcases hf with hf | hf <;> cases hf
      · simp only [Option.some.injEq] at h
        rw [← h] at hf
        rcases hf with hf | hf <;> cases hf

theorem configure_code (env : Env) (c : Conn) (ctx : SslCtx) :
    (configure env c ctx).2 = .success ∨ ¬TlsFailure (configure env c ctx).2 := by
  unfold configure
  simp only
  generalize hq : env.alloc _ = q
  cases q
  · right; simp [TlsFailure]
  · exact .inl rfl

theorem internalConnect_silent (env : Env) (c : Conn) (ctx : SslCtx) (i o : Chain)
    (hf : TlsFailure (internalConnect env c ctx i o).2) :
    (internalConnect env c ctx i o).2 = .sslError ∧ ctx.connType = .stream ∧ c.isServer = false ∧
      ∃ l x, l = x ++ c.log ∧ (env.ssl l (.useSNI (cstr c.sniHostname))).err = .badFuncArg ∧
      lastTls (internalConnect env c ctx i o).1.log = some (.useSNI (cstr c.sniHostname), false, l) ∧
      (internalConnect env c ctx i o).1.wolfError = c.wolfError := by
  unfold internalConnect at hf ⊢
  have hcode := configure_code env c ctx
  obtain ⟨vx, vy, ok, ft, hs, _⟩ := configure_shape env c ctx
  generalize configure env c ctx = q at hf hcode hs ⊢
  obtain ⟨c1, rc⟩ := q
  simp only at hf hcode hs ⊢
  have e1 : c1.isServer = c.isServer ∧ c1.sniHostname = c.sniHostname ∧ c1.wolfError = c.wolfError ∧ ∃ y, c1.log = y ++ c.log := by
    rw [hs]; exact ⟨rfl, rfl, rfl, [_, _, _], rfl⟩
  clear hs
  obtain ⟨e1, e2, e3, y, e4⟩ := e1
  by_cases hrc : rc = .success
  · rw [if_neg (by simp [hrc])] at hf ⊢
    have key := @setupSsl_silent env { c1.emit (.chains i.plugins o.plugins) with insidePlugins := i, outsidePlugins := o } ctx
    generalize setupSsl env { c1.emit (.chains i.plugins o.plugins) with insidePlugins := i, outsidePlugins := o } ctx = q at hf key ⊢
    obtain ⟨c2, ro⟩ := q
    cases ro with
    | some rc2 =>
      simp only at hf ⊢
      obtain ⟨h1, h2, h3, l, x, h4, h5, h6, h7⟩ := key rfl hf
      refine ⟨h1, h2, e1 ▸ h3, l, x ++ .chains i.plugins o.plugins :: y, ?_, e2 ▸ h5, e2 ▸ h6, h7.trans e3⟩
      rw [h4]
      show x ++ (.chains i.plugins o.plugins :: c1.log) = _
      rw [e4]; simp
    | none =>
      exfalso
      simp only at hf
      repeat' split at hf
      all_goals (rcases hf with hf | hf <;> cases hf)
  · rw [if_pos hrc] at hf
    rcases hcode with h | h
    · exact absurd h hrc
    · exact absurd hf h

/-- **C98, connecting.**  The one exception among the calls: a client's connect over a stream whose server name TLS
refuses as a bad argument returns the TLS failure code without recording the error, so the detailed error the connection
reports afterwards is whatever it was before.  No other connect returns a TLS failure. -/
theorem C98_connect_silent (env : Env) (ops : List Op) (ctx : SslCtx) (i o : Chain) :
    ¬TlsFailure (step env (run env ops) (.serverConnect ctx i o)).2 ∧
    (TlsFailure (step env (run env ops) (.clientConnect ctx i o)).2 →
      (step env (run env ops) (.clientConnect ctx i o)).2 = .sslError ∧ ctx.connType = .stream ∧
      (∃ name l x, lastTls (run env (ops ++ [.clientConnect ctx i o])).log = some (.useSNI name, false, l) ∧
        l = x ++ (run env ops).log ∧ (env.ssl l (.useSNI name)).err = .badFuncArg) ∧
      getSslError (run env (ops ++ [.clientConnect ctx i o])) = getSslError (run env ops)) := by
  rw [run_snoc]
  generalize run env ops = c
  constructor
  · show ¬TlsFailure (serverConnect env (c.emit (.api .serverConnect)) ctx i o).2
    unfold serverConnect
    generalize hd : c.emit _ = d
    clear hd
    dsimp only
    split
    · unfold isValidServer
      repeat' split
      all_goals simp [TlsFailure]
    have key := internalConnect_silent env { d.emit (.role true) with isServer := true } ctx i o
    have hsv : ({ d.emit (.role true) with isServer := true } : Conn).isServer = true := rfl
    generalize ({ d.emit (.role true) with isServer := true } : Conn) = d' at key hsv ⊢
    rw [hsv] at key
    generalize internalConnect env d' ctx i o = q at key ⊢
    obtain ⟨c1, rc⟩ := q
    dsimp only at key ⊢
    split
    · exact fun hf => by cases (key hf).2.2.1
    · repeat' split
      all_goals simp [TlsFailure]
  · intro hf
    have e1 : (step env c (.clientConnect ctx i o)).2 = (clientConnect env (c.emit (.api .clientConnect)) ctx i o).2 := rfl
    have e2 : (step env c (.clientConnect ctx i o)).1.log = .ret (step env c (.clientConnect ctx i o)).2 ::
      (clientConnect env (c.emit (.api .clientConnect)) ctx i o).1.log := rfl
    have e3 : getSslError (step env c (.clientConnect ctx i o)).1 =
      (clientConnect env (c.emit (.api .clientConnect)) ctx i o).1.wolfError := rfl
    rw [e1] at hf
    rw [e3, e2, e1]
    unfold clientConnect at hf ⊢
    dsimp only at hf ⊢
    have hvc : ∀ d, ¬TlsFailure (isValidClient ctx d) := by
      intro d
      unfold isValidClient
      repeat' split
      all_goals simp [TlsFailure]
    have hvc := hvc (c.emit (.api .clientConnect))
    generalize isValidClient ctx (c.emit (.api .clientConnect)) = v at hf hvc ⊢
    by_cases hv : v ≠ .success
    · rw [if_pos hv] at hf
      exact absurd hf hvc
    · rw [if_neg hv] at hf ⊢
      obtain ⟨h1, h2, _, l, x, h4, h5, h6, h7⟩ := internalConnect_silent env _ ctx i o hf
      exact ⟨h1, h2, ⟨_, l, x ++ [.role false, .api .clientConnect], h6, by rw [h4]; simp [Conn.emit], h5⟩, h7⟩

/-! ## Concrete runs -/

namespace Demo

/-- As `Demo.env`, but writes of keepalives fail with error -155, server names are refused as a bad argument, and a
handshake over a stream reads one byte at a time. -/
def failing : Env :=
  { Demo.env with
    ssl := fun l c =>
      match c with
      | .write (2 :: _) => { ok := false, val := -1, err := .other (-155), io := [] }
      | .useSNI _ => { ok := false, val := -1, err := .badFuncArg, io := [] }
      | .negotiate => if negotiations l = 0 then Demo.ssl l .negotiate else
          { ok := true, val := 1, err := .none, io := [.recv 1] }
      | c => Demo.ssl2 l c }

/-- A read that fails with error -308. -/
def badRead : ReadRes := { plain := [], retZero := false, err := .other (-308), io := [.recv 2000] }

def diagCtx : SslCtx := { Demo.ctx with connType := .stream }

def diagOps : List Op :=
  [.setUsername [106, 111, 101], .setPassword [112, 119], .setOutsideMtu 1500, .clientConnect diagCtx [] [],
   .outsideData [1, 2, 3] []]

end Demo

/-- A datagram whose read fails: the code says TLS failed, and the detailed error is the one of the read. -/
example :
    TlsFailure (step Demo.env (run Demo.env Demo.clientOps) (.outsideData (Demo.dgram [9]) [Demo.badRead])).2 ∧
    getSslError (run Demo.env (Demo.clientOps ++ [.outsideData (Demo.dgram [9]) [Demo.badRead]])) = .other (-308) := by
  unfold TlsFailure
  decide +kernel

/-- A keepalive whose write fails, after the failed read: the newer error is the one reported. -/
example :
    TlsFailure (step Demo.failing (run Demo.failing (Demo.clientOps ++ [.outsideData (Demo.dgram [9]) [Demo.badRead]])) .keepalive).2 ∧
    getSslError (run Demo.failing (Demo.clientOps ++ [.outsideData (Demo.dgram [9]) [Demo.badRead], .keepalive])) = .other (-155) := by
  unfold TlsFailure
  decide +kernel

/-- Bytes over a stream while earlier ones are still unread. -/
example :
    (run Demo.failing Demo.diagOps).connType = .stream ∧ (run Demo.failing Demo.diagOps).streamLeft = [2, 3] ∧
    TlsFailure (step Demo.failing (run Demo.failing Demo.diagOps) (.outsideData [4] [])).2 ∧
    getSslError (run Demo.failing (Demo.diagOps ++ [.outsideData [4] []])) = .none := by
  unfold TlsFailure
  decide +kernel

/-- A connection that had a failed read is connected again over a stream with a server name that TLS refuses: the code
says that TLS failed, and the detailed error still is the one of the read. -/
example :
    TlsFailure (step Demo.failing (run Demo.failing (Demo.clientOps ++ [.outsideData (Demo.dgram [9]) [Demo.badRead], .setSni [97]]))
      (.clientConnect Demo.diagCtx [] [])).2 ∧
    getSslError (run Demo.failing (Demo.clientOps ++ [.outsideData (Demo.dgram [9]) [Demo.badRead], .setSni [97],
      .clientConnect Demo.diagCtx [] []])) = .other (-308) := by
  unfold TlsFailure
  decide +kernel

end Lightway
