import Verif.Spec.Pmtud
import Verif.Proofs.Sizes
import Verif.Proofs.Send
import Verif.Proofs.Locate

/-!
# Path-MTU discovery: a small machine the code follows
`PS` is what matters of a connection for discovery; `aAck`, `aTimeout`, `aStart` follow the handlers of pmtud.c
(lemmas `ack_sim`, `timeout_sim`, `start_sim`); `Full` is the invariant.
-/

namespace Lightway
open Spec

structure PS where
  pm : Pmtud
  nid : Nat
  ev : List PmEv

/-- The discovery part of a connection. -/
def Conn.ps (c : Conn) : PS := ⟨c.pmtud, c.pingNextId, pmEvents c.log⟩

namespace PS

def chg (s : PS) (st : PmtudState) : PS := { s with pm := { s.pm with state := st }, ev := .state st :: s.ev }
def time (s : PS) (ms : Nat) : PS := { s with ev := .timer ms :: s.ev }
def retry (s : PS) (ms : Nat) : PS := { s with pm := { s.pm with probeCount := 0 }, ev := .timer ms :: s.ev }

def probe (on ok : Bool) (s : PS) (mtu : Nat) : PS :=
  if on = false ∨ mtu < 512 ∨ mtu > 1416 then s
  else { pm := { s.pm with probeCount := (s.pm.probeCount + 1) % 256, probingSize := mtu,
                           pendingId := if ok then s.nid else s.pm.pendingId }
         nid := (s.nid + 1) % 65536
         ev := .timer (if ok then 5000 else 10) :: .probe s.nid mtu :: s.ev }

def start (on ok : Bool) (s : PS) : PS :=
  probe on ok { s.chg .base with pm := { s.pm with state := .base, base := 1250, probeCount := 0 } } 1250

def confirmed (on ok : Bool) (s : PS) : PS :=
  probe on ok { s.chg .searching with pm := { s.pm with state := .searching, probeCount := 0, bigStep := true } }
    (s.pm.base + 32)

def complete (s : PS) : PS :=
  ({ s with pm := { s.pm with effective := min s.pm.probingSize 1416 } }.chg .searchComplete).retry 600000

/-- After the acknowledgement was accepted. -/
def ackBody (on ok : Bool) (s : PS) : PS :=
  match s.pm.state with
  | .base => confirmed on ok s
  | .error => confirmed on ok s
  | .searching =>
    if s.pm.probingSize ≥ 1416 then complete s
    else probe on ok s (min (s.pm.probingSize + (if s.pm.bigStep then 32 else 8)) 1416)
  | .searchComplete => s.retry 600000
  | .disabled => s

def ack (on ok : Bool) (id : Nat) (s : PS) : PS :=
  if s.pm.pendingId ≠ id then s
  else ackBody on ok { s.time 0 with pm := { s.pm with pendingId := 0, probeCount := 0 } }

/-- After the third probe was given up. -/
def timeoutBody (on ok : Bool) (s : PS) : PS :=
  match s.pm.state with
  | .base => if s.pm.probingSize = 1250 then probe on ok s 512 else (s.chg .error).retry 60000
  | .searching =>
    if s.pm.bigStep then
      probe on ok { s with pm := { s.pm with bigStep := false } } (s.pm.probingSize - 32 + 8)
    else if s.pm.probingSize ≤ s.pm.base then s
    else complete { s with pm := { s.pm with probingSize := s.pm.probingSize - 8 } }
  | .searchComplete =>
    probe on ok { s.chg .base with pm := { s.pm with state := .base, base := 512, probeCount := 0 } } 512
  | .error => s.retry 60000
  | .disabled => s

def timeout (on ok : Bool) (s : PS) : PS :=
  if s.pm.probeCount < 3 then probe on ok s s.pm.probingSize
  else timeoutBody on ok { s with pm := { s.pm with pendingId := 0, probeCount := 0 } }

end PS

/-! ## The code follows the machine -/

theorem pmEvents_append (a b : Log) : pmEvents (a ++ b) = pmEvents a ++ pmEvents b := by
  simp [pmEvents]

theorem pmEvents_cons (e : Effect) (l : Log) :
    pmEvents (e :: l) = (match pmEv e with | some x => [x] | none => []) ++ pmEvents l := by
  unfold pmEvents
  rw [List.filterMap_cons]
  split <;> simp [*]

theorem pmEvents_silent {a : Log} (b : Log) (h : ∀ e ∈ a, pmEv e = none) : pmEvents (a ++ b) = pmEvents b := by
  have : a.filterMap pmEv = [] := List.filterMap_eq_nil_iff.mpr h
  rw [pmEvents_append, pmEvents, this]; rfl

theorem CbIo.pmSilent {e : Effect} (h : CbIo e) : pmEv e = none := by
  cases e <;> simp [CbIo] at h <;> rfl

theorem Conn.ps_upd (c : Conn) (pm : Pmtud) : ({ c with pmtud := pm } : Conn).ps = { c.ps with pm := pm } := rfl

theorem chg_sim (c : Conn) (s : PmtudState) (h : c.cbs.pmtudState = true) :
    (pmtudChangeState c s).ps = c.ps.chg s := by
  unfold pmtudChangeState
  simp only
  rw [if_pos h]
  rfl

theorem time_sim (env : Env) (c : Conn) (ms : Nat) : (pmtudTimeCb env c ms).1.ps = c.ps.time ms := rfl

theorem retry_sim (env : Env) (c : Conn) (ms : Nat) (h : c.cbs.pmtudTime = true) :
    (retryProbe env c ms).1.ps = c.ps.retry ms := by
  unfold retryProbe
  rw [if_pos h]
  rfl

theorem pmEv_probe {id mtu : Nat} (ok : Bool) (hid : id < 65536) (h1 : 512 ≤ mtu) (h2 : mtu ≤ 1416) :
    pmEv (.sslCall (.write (probeMsg id mtu)) ok) = some (.probe id mtu) := by
  obtain ⟨e1, e2, -, e4, -⟩ := probeMsg_shape id h1 h2
  show (if _ then _ else _) = _
  rw [if_pos ⟨e2, by omega⟩, e4, num_be16 hid, e1]
  rw [show mtu + 3 - 3 = mtu from by omega]

/-- What discovery keeps of a connection besides its own part. -/
def PmSame (c c' : Conn) : Prop := c'.state = c.state ∧ c'.cbs = c.cbs

theorem PmSame.refl (c : Conn) : PmSame c c := ⟨rfl, rfl⟩

theorem PmSame.of_frame {c c' : Conn} (h : PFrame c c') : PmSame c c' := by
  obtain ⟨l, ps, sl, we, pm, pn, rfl, -⟩ := h
  exact ⟨rfl, rfl⟩

theorem probe_sim (env : Env) (c : Conn) (mtu : Nat) (hc : c.cbs.pmtudTime = true) (hn : c.pingNextId < 65536) :
    ∃ ok, (sendProbe env c mtu).1.ps = c.ps.probe (c.state == .online) ok mtu := by
  unfold sendProbe
  by_cases hs : c.state = .online
  · rw [if_neg (by simpa using hs)]
    by_cases hm : mtu < 512 ∨ mtu > 1416
    · rw [if_pos (by exact hm)]
      exact ⟨true, (if_pos (.inr hm)).symm⟩
    · rw [if_neg (by exact hm)]
      have hr : 512 ≤ mtu ∧ mtu ≤ 1416 := by omega
      simp only
      generalize hc1 : ({ c with
        pmtud := { c.pmtud with probeCount := (c.pmtud.probeCount + 1) % 256, probingSize := mtu }
        pingNextId := (c.pingNextId + 1) % 65536 } : Conn) = c1
      obtain ⟨l, ok, hl, hcb⟩ := sendMessage_log env c1 (probeMsg c.pingNextId mtu)
      have h1 : (sendMessage env c1 (probeMsg c.pingNextId mtu)).1.pmtud = c1.pmtud := sendMessage_pmtud ..
      have h2 : (sendMessage env c1 (probeMsg c.pingNextId mtu)).1.cbs = c1.cbs := sendMessage_cbs ..
      have h3 : (sendMessage env c1 (probeMsg c.pingNextId mtu)).1.pingNextId = c1.pingNextId := by
        obtain ⟨l, ps, sl, we, e, -⟩ := sendMessage_frame env c1 (probeMsg c.pingNextId mtu)
        rw [e]
      generalize sendMessage env c1 (probeMsg c.pingNextId mtu) = q at hl h1 h2 h3 ⊢
      obtain ⟨c2, rc⟩ := q
      simp only at hl h1 h2 h3 ⊢
      have hev : pmEvents c2.log = .probe c.pingNextId mtu :: pmEvents c.log := by
        rw [hl, pmEvents_silent _ (fun e he => (hcb e he).pmSilent), pmEvents_cons, pmEv_probe ok hn hr.1 hr.2, ← hc1]
        rfl
      have hcb2 : c2.cbs.pmtudTime = true := by rw [h2, ← hc1]; exact hc
      by_cases hrc : rc = .success
      · refine ⟨true, ?_⟩
        simp only [hrc, ne_eq, not_true_eq_false, if_false, hcb2, if_true]
        unfold PS.probe
        rw [if_neg (by simp [hs]; omega)]
        show PS.mk _ _ _ = _
        have : pmEvents (pmtudTimeCb env { c2 with pmtud := { c2.pmtud with pendingId := c.pingNextId } } 5000).1.log =
          .timer 5000 :: pmEvents c2.log := rfl
        rw [this, hev]
        show PS.mk { c2.pmtud with pendingId := c.pingNextId } c2.pingNextId _ = _
        rw [h1, h3, ← hc1]
        rfl
      · refine ⟨false, ?_⟩
        simp only [hrc, ne_eq, not_false_eq_true, if_true, hcb2]
        unfold PS.probe
        rw [if_neg (by simp [hs]; omega)]
        show PS.mk _ _ _ = _
        have : pmEvents (pmtudTimeCb env c2 10).1.log = .timer 10 :: pmEvents c2.log := rfl
        rw [this, hev]
        show PS.mk c2.pmtud c2.pingNextId _ = _
        rw [h1, h3, ← hc1]
        rfl
  · rw [if_pos (by simpa using hs)]
    refine ⟨true, (if_pos (.inl ?_)).symm⟩
    simpa using hs

theorem chg_same (c : Conn) (s : PmtudState) : PmSame c (pmtudChangeState c s) := PmSame.of_frame (pmtudChangeState_frame c s)

theorem confirmed_sim (env : Env) (c : Conn) (hc : c.cbs.pmtudTime = true) (hc2 : c.cbs.pmtudState = true)
    (hn : c.pingNextId < 65536) (hs : c.pmtud.state = .base ∨ c.pmtud.state = .error) :
    ∃ ok, (baseConfirmed env c).1.ps = c.ps.confirmed (c.state == .online) ok := by
  unfold baseConfirmed
  rw [if_pos hs]
  simp only
  have h1 := chg_sim c .searching hc2
  obtain ⟨s1, s2⟩ := chg_same c .searching
  generalize pmtudChangeState c .searching = c1 at h1 s1 s2 ⊢
  have hnid : c1.pingNextId = c.pingNextId := congrArg PS.nid h1
  have hpm : c1.pmtud = { c.pmtud with state := .searching } := congrArg PS.pm h1
  obtain ⟨ok, h⟩ := probe_sim env { c1 with pmtud := { c1.pmtud with probeCount := 0, bigStep := true } }
    (c1.pmtud.base + 32) (by show c1.cbs.pmtudTime = true; rw [s2]; exact hc) (by show c1.pingNextId < _; omega)
  refine ⟨ok, h.trans ?_⟩
  show PS.probe (c1.state == .online) ok { c1.ps with pm := { c1.pmtud with probeCount := 0, bigStep := true } } _ = _
  rw [s1, h1, hpm]
  rfl

theorem complete_sim (env : Env) (c : Conn) (hc : c.cbs.pmtudTime = true) (hc2 : c.cbs.pmtudState = true)
    (hs : c.pmtud.state = .searching) : (searchCompleted env c).1.ps = c.ps.complete := by
  unfold searchCompleted
  rw [if_pos hs]
  simp only
  rw [retry_sim _ _ _ (by rw [(chg_same _ _).2]; exact hc), chg_sim _ _ (by exact hc2)]
  rfl

theorem start_sim (env : Env) (c : Conn) (hc : c.cbs.pmtudTime = true) (hc2 : c.cbs.pmtudState = true)
    (hn : c.pingNextId < 65536) (hs : c.pmtud.state = .disabled) :
    ∃ ok, (startBaseProbing env c).1.ps = c.ps.start (c.state == .online) ok := by
  unfold startBaseProbing
  rw [hs]
  simp only
  have h1 := chg_sim c .base hc2
  obtain ⟨s1, s2⟩ := chg_same c .base
  generalize pmtudChangeState c .base = c1 at h1 s1 s2 ⊢
  have hnid : c1.pingNextId = c.pingNextId := congrArg PS.nid h1
  have hpm : c1.pmtud = { c.pmtud with state := .base } := congrArg PS.pm h1
  obtain ⟨ok, h⟩ := probe_sim env { c1 with pmtud := { c1.pmtud with base := initialPlpmtu, probeCount := 0 } }
    1250 (by show c1.cbs.pmtudTime = true; rw [s2]; exact hc) (by show c1.pingNextId < _; omega)
  refine ⟨ok, Eq.trans h ?_⟩
  show PS.probe (c1.state == .online) ok { c1.ps with pm := { c1.pmtud with base := 1250, probeCount := 0 } } _ = _
  rw [s1, h1, hpm]
  rfl

theorem blackhole_sim (env : Env) (c : Conn) (hc : c.cbs.pmtudTime = true) (hc2 : c.cbs.pmtudState = true)
    (hn : c.pingNextId < 65536) (hs : c.pmtud.state = .searchComplete) :
    ∃ ok, (blackholeDetected env c).1.ps = PS.probe (c.state == .online) ok
      { c.ps.chg .base with pm := { c.ps.pm with state := .base, base := 512, probeCount := 0 } } 512 := by
  unfold blackholeDetected
  rw [if_pos (.inr hs)]
  simp only
  have h1 := chg_sim c .base hc2
  obtain ⟨s1, s2⟩ := chg_same c .base
  generalize pmtudChangeState c .base = c1 at h1 s1 s2 ⊢
  have hnid : c1.pingNextId = c.pingNextId := congrArg PS.nid h1
  have hpm : c1.pmtud = { c.pmtud with state := .base } := congrArg PS.pm h1
  obtain ⟨ok, h⟩ := probe_sim env { c1 with pmtud := { c1.pmtud with base := minPlpmtu, probeCount := 0 } }
    512 (by show c1.cbs.pmtudTime = true; rw [s2]; exact hc) (by show c1.pingNextId < _; omega)
  refine ⟨ok, Eq.trans h ?_⟩
  show PS.probe (c1.state == .online) ok { c1.ps with pm := { c1.pmtud with base := 512, probeCount := 0 } } _ = _
  rw [s1, h1, hpm]
  rfl

/-- The rest of `handleProbeAck`, once the identifier matched. -/
def ackRest (env : Env) (c : Conn) : Conn × RC :=
  match c.pmtud.state with
  | .base => baseConfirmed env c
  | .searching =>
    if c.pmtud.probingSize ≥ maxPlpmtu then searchCompleted env c
    else
      let sz := c.pmtud.probingSize + (if c.pmtud.bigStep then 32 else 8)
      ((sendProbe env c (min sz maxPlpmtu)).1, .success)
  | .error => baseConfirmed env c
  | .searchComplete => retryProbe env c 600000
  | .disabled => (c, .success)

/-- The rest of `handleProbeTimeout`, once three probes were given up. -/
def timeoutRest (env : Env) (c : Conn) : Conn × RC :=
  match c.pmtud.state with
  | .base =>
    if c.pmtud.probingSize = initialPlpmtu then sendProbe env c minPlpmtu
    else confirmBaseFailed env c
  | .searching =>
    if c.pmtud.bigStep then
      let c := { c with pmtud := { c.pmtud with bigStep := false } }
      sendProbe env c (c.pmtud.probingSize - 32 + 8)
    else if c.pmtud.probingSize ≤ c.pmtud.base then (c.ub "pmtud.c:184 assert", .failed)
    else
      let c := { c with pmtud := { c.pmtud with probingSize := c.pmtud.probingSize - 8 } }
      searchCompleted env c
  | .searchComplete => blackholeDetected env c
  | .error => retryProbe env c 60000
  | .disabled => (c, .success)

theorem ackRest_sim (env : Env) (c : Conn) (k1 : c.cbs.pmtudTime = true) (k2 : c.cbs.pmtudState = true)
    (hn : c.pingNextId < 65536) : ∃ ok, (ackRest env c).1.ps = c.ps.ackBody (c.state == .online) ok := by
  unfold ackRest PS.ackBody
  have hst : c.ps.pm.state = c.pmtud.state := rfl
  rw [hst]
  cases hst' : c.pmtud.state with
  | disabled => exact ⟨true, rfl⟩
  | base => exact confirmed_sim env c k1 k2 hn (.inl hst')
  | error => exact confirmed_sim env c k1 k2 hn (.inr hst')
  | searchComplete => exact ⟨true, retry_sim env c 600000 k1⟩
  | searching =>
    simp only
    by_cases hp : c.pmtud.probingSize ≥ maxPlpmtu
    · have hp' : c.ps.pm.probingSize ≥ 1416 := hp
      simp only [if_pos hp, if_pos hp']
      exact ⟨true, complete_sim env c k1 k2 hst'⟩
    · have hp' : ¬c.ps.pm.probingSize ≥ 1416 := hp
      simp only [if_neg hp, if_neg hp']
      exact probe_sim env c _ k1 hn

theorem timeoutRest_sim (env : Env) (c : Conn) (k1 : c.cbs.pmtudTime = true) (k2 : c.cbs.pmtudState = true)
    (hn : c.pingNextId < 65536) : ∃ ok, (timeoutRest env c).1.ps = c.ps.timeoutBody (c.state == .online) ok := by
  unfold timeoutRest PS.timeoutBody
  have hst : c.ps.pm.state = c.pmtud.state := rfl
  rw [hst]
  cases hst' : c.pmtud.state with
  | disabled => exact ⟨true, rfl⟩
  | base =>
    simp only
    by_cases hp : c.pmtud.probingSize = initialPlpmtu
    · have hp' : c.ps.pm.probingSize = 1250 := hp
      simp only [if_pos hp, if_pos hp']
      exact probe_sim env c _ k1 hn
    · have hp' : ¬c.ps.pm.probingSize = 1250 := hp
      simp only [if_neg hp, if_neg hp']
      unfold confirmBaseFailed
      rw [if_pos hst', retry_sim _ _ _ (by rw [(chg_same _ _).2]; exact k1), chg_sim _ _ k2]
      exact ⟨true, rfl⟩
  | error => exact ⟨true, retry_sim env c 60000 k1⟩
  | searchComplete => exact blackhole_sim env c k1 k2 hn hst'
  | searching =>
    simp only
    by_cases hb : c.pmtud.bigStep = true
    · have hb' : c.ps.pm.bigStep = true := hb
      simp only [if_pos hb, if_pos hb']
      exact probe_sim env { c with pmtud := { c.pmtud with bigStep := false } } _ k1 hn
    · have hb' : ¬c.ps.pm.bigStep = true := hb
      simp only [if_neg hb, if_neg hb']
      by_cases hp : c.pmtud.probingSize ≤ c.pmtud.base
      · have hp' : c.ps.pm.probingSize ≤ c.ps.pm.base := hp
        simp only [if_pos hp, if_pos hp']
        exact ⟨true, rfl⟩
      · have hp' : ¬c.ps.pm.probingSize ≤ c.ps.pm.base := hp
        simp only [if_neg hp, if_neg hp']
        exact ⟨true, complete_sim env { c with pmtud := { c.pmtud with probingSize := c.pmtud.probingSize - 8 } } k1 k2 hst'⟩

theorem ack_sim (env : Env) (c : Conn) (id : Nat) (hc : c.cbs.pmtudTime = true) (hc2 : c.cbs.pmtudState = true)
    (hn : c.pingNextId < 65536) :
    ∃ ok, (handleProbeAck env c id).1.ps = c.ps.ack (c.state == .online) ok id := by
  by_cases hid : c.pmtud.pendingId ≠ id
  · have e : handleProbeAck env c id = (c, .success) := if_pos hid
    rw [e]
    exact ⟨true, (if_pos hid).symm⟩
  · have e : handleProbeAck env c id =
        ackRest env { (if c.cbs.pmtudTime then (pmtudTimeCb env c 0).1 else c) with
          pmtud := { (if c.cbs.pmtudTime then (pmtudTimeCb env c 0).1 else c).pmtud with pendingId := 0, probeCount := 0 } } :=
      if_neg hid
    rw [e, if_pos hc]
    obtain ⟨ok, h⟩ := ackRest_sim env { (pmtudTimeCb env c 0).1 with
      pmtud := { (pmtudTimeCb env c 0).1.pmtud with pendingId := 0, probeCount := 0 } } hc hc2 hn
    exact ⟨ok, h.trans (if_neg hid).symm⟩

theorem timeout_sim (env : Env) (c : Conn) (hc : c.cbs.pmtudTime = true) (hc2 : c.cbs.pmtudState = true)
    (hn : c.pingNextId < 65536) :
    ∃ ok, (handleProbeTimeout env c).1.ps = c.ps.timeout (c.state == .online) ok := by
  by_cases hid : c.pmtud.probeCount < 3
  · have e : handleProbeTimeout env c = sendProbe env c c.pmtud.probingSize := if_pos hid
    rw [e]
    obtain ⟨ok, h⟩ := probe_sim env c c.pmtud.probingSize hc hn
    exact ⟨ok, h.trans (if_pos hid).symm⟩
  · have e : handleProbeTimeout env c =
        timeoutRest env { c with pmtud := { c.pmtud with pendingId := 0, probeCount := 0 } } := if_neg hid
    rw [e]
    obtain ⟨ok, h⟩ := timeoutRest_sim env { c with pmtud := { c.pmtud with pendingId := 0, probeCount := 0 } } hc hc2 hn
    exact ⟨ok, h.trans (if_neg hid).symm⟩

end Lightway
