import Verif.Model.ConnCore

/-!
# src/he/pmtud.c
`uint8_t probe_count` and `uint16_t` sizes never reach their wrap-around in this code; the counter is
written with explicit truncation where it is incremented.
-/

namespace Lightway

/-- `MIN_PLPMTU`, `MAX_PLPMTU` (1500-20-8-16-37-3), `INITIAL_PLPMTU`. src/he/pmtud.h:36-44 -/
def minPlpmtu : Nat := 512
def maxPlpmtu : Nat := 1416
def initialPlpmtu : Nat := 1250

/-- `he_internal_pmtud_change_state`. src/he/pmtud.c:37-45 -/
def pmtudChangeState (c : Conn) (s : PmtudState) : Conn :=
  let c := { c with pmtud := { c.pmtud with state := s } }
  if c.cbs.pmtudState then c.emit (.pmtudState s) else c

/-- One call of the PMTUD timer callback. -/
def pmtudTimeCb (env : Env) (c : Conn) (ms : Nat) : Conn × RC :=
  let rc := env.pmtudTime c.log ms
  (c.emit (.pmtudTime ms rc), rc)

/-- The probe message: PING header with id and payload size, then zeros. src/he/pmtud.c:60-77 -/
def probeMsg (id mtu : Nat) : Bytes :=
  let payload := mtu + 3 - 5
  [msgPing] ++ be16 id ++ be16 payload ++ zeros payload

/-- `he_internal_pmtud_send_probe`. src/he/pmtud.c:47-94 -/
def sendProbe (env : Env) (c : Conn) (mtu : Nat) : Conn × RC :=
  if c.state ≠ .online then (c, .invalidConnState)
  else if mtu < minPlpmtu ∨ mtu > maxPlpmtu then (c, .invalidMtuSize)
  else
    let id := c.pingNextId
    let c := { c with pingNextId := (id + 1) % 65536,
                      pmtud := { c.pmtud with probeCount := (c.pmtud.probeCount + 1) % 256,
                                              probingSize := mtu } }
    let (c, rc) := sendMessage env c (probeMsg id mtu)
    let ms := if rc ≠ .success then 10 else 5000
    let c := if rc ≠ .success then c else { c with pmtud := { c.pmtud with pendingId := id } }
    let c := if c.cbs.pmtudTime then (pmtudTimeCb env c ms).1 else c
    (c, .success)

/-- `he_internal_pmtud_retry_probe`. src/he/pmtud.c:329-339 -/
def retryProbe (env : Env) (c : Conn) (ms : Nat) : Conn × RC :=
  let (c, rc) := if c.cbs.pmtudTime then pmtudTimeCb env c ms else (c, .pmtudCallbacksNotSet)
  ({ c with pmtud := { c.pmtud with probeCount := 0 } }, rc)

/-- `he_internal_pmtud_start_base_probing`. src/he/pmtud.c:202-231 -/
def startBaseProbing (env : Env) (c : Conn) : Conn × RC :=
  match c.pmtud.state with
  | .base => (c, .success)
  | .error => (c, .invalidConnState)
  | _ =>
    let c := pmtudChangeState c .base
    let c := { c with pmtud := { c.pmtud with base := initialPlpmtu, probeCount := 0 } }
    sendProbe env c c.pmtud.base

/-- `he_internal_pmtud_base_confirmed`. src/he/pmtud.c:233-257 -/
def baseConfirmed (env : Env) (c : Conn) : Conn × RC :=
  if c.pmtud.state = .base ∨ c.pmtud.state = .error then
    let c := pmtudChangeState c .searching
    let c := { c with pmtud := { c.pmtud with probeCount := 0, bigStep := true } }
    sendProbe env c (c.pmtud.base + 32)
  else (c, .invalidConnState)

/-- `he_internal_pmtud_confirm_base_failed`. src/he/pmtud.c:259-277 -/
def confirmBaseFailed (env : Env) (c : Conn) : Conn × RC :=
  if c.pmtud.state = .base then
    retryProbe env (pmtudChangeState c .error) 60000
  else (c, .invalidConnState)

/-- `he_internal_pmtud_search_completed`. src/he/pmtud.c:279-301 -/
def searchCompleted (env : Env) (c : Conn) : Conn × RC :=
  if c.pmtud.state = .searching then
    let c := { c with pmtud := { c.pmtud with effective := min c.pmtud.probingSize maxPlpmtu } }
    retryProbe env (pmtudChangeState c .searchComplete) 600000
  else (c, .invalidConnState)

/-- `he_internal_pmtud_blackhole_detected`. src/he/pmtud.c:303-327 -/
def blackholeDetected (env : Env) (c : Conn) : Conn × RC :=
  if c.pmtud.state = .searching ∨ c.pmtud.state = .searchComplete then
    let c := pmtudChangeState c .base
    let c := { c with pmtud := { c.pmtud with base := minPlpmtu, probeCount := 0 } }
    sendProbe env c c.pmtud.base
  else (c, .invalidConnState)

/-- `he_internal_pmtud_handle_probe_ack`. src/he/pmtud.c:96-146 -/
def handleProbeAck (env : Env) (c : Conn) (id : Nat) : Conn × RC :=
  if c.pmtud.pendingId ≠ id then (c, .success)
  else
    let c := if c.cbs.pmtudTime then (pmtudTimeCb env c 0).1 else c
    let c := { c with pmtud := { c.pmtud with pendingId := 0, probeCount := 0 } }
    match c.pmtud.state with
    | .base => baseConfirmed env c
    | .searching =>
      if c.pmtud.probingSize ≥ maxPlpmtu then searchCompleted env c
      else
        let sz := c.pmtud.probingSize + (if c.pmtud.bigStep then 32 else 8)
        ((sendProbe env c (min sz maxPlpmtu)).1, .success)
    | .error => baseConfirmed env c
    | .searchComplete => retryProbe env c 600000
    | .disabled => (c, .success)

/-- `he_internal_pmtud_handle_probe_timeout`. src/he/pmtud.c:148-200.  The `assert` at 184
(`probing_size > base`) is recorded as undefined behaviour when it fails; the `uint16_t`
subtractions cannot go below zero under it and `probing_size` is at least 512 otherwise (proved). -/
def handleProbeTimeout (env : Env) (c : Conn) : Conn × RC :=
  if c.pmtud.probeCount < 3 then sendProbe env c c.pmtud.probingSize
  else
    let c := { c with pmtud := { c.pmtud with pendingId := 0, probeCount := 0 } }
    match c.pmtud.state with
    | .base =>
      if c.pmtud.probingSize = initialPlpmtu then sendProbe env c minPlpmtu
      else confirmBaseFailed env c
    | .searching =>
      if c.pmtud.bigStep then
        let c := { c with pmtud := { c.pmtud with bigStep := false } }
        sendProbe env c (c.pmtud.probingSize - 32 + 8)
      else if c.pmtud.probingSize ≤ c.pmtud.base then (c.ub "pmtud.c:184 assert", .failed)
      else
        let c := { c with pmtud := { c.pmtud with probingSize := c.pmtud.probingSize - 8 } }
        searchCompleted env c
    | .searchComplete => blackholeDetected env c
    | .error => retryProbe env c 60000
    | .disabled => (c, .success)

end Lightway
