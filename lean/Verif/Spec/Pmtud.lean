import Verif.Spec.Wire
import Verif.Spec.History

/-!
# Path-MTU discovery as the host and the peer see it
The part of a history that concerns discovery: announced discovery states, probes handed to the TLS layer,
requests made to the host's discovery timer, and PONGs received.
-/

namespace Lightway.Spec

inductive PmEv
  | state (s : PmtudState)
  | probe (id size : Nat)
  | timer (ms : Nat)
  | pong (id : Nat)
  deriving DecidableEq, Repr

/-- The discovery event in an effect.  A probe is a PING with a payload; its size is that of the data it could have
carried (the message without the three bytes of a DATA header). -/
def pmEv : Effect → Option PmEv
  | .pmtudState s => some (.state s)
  | .sslCall (.write m) _ =>
    if m.head? = some 2 ∧ 5 < m.length then some (.probe (num (field m 1 2)) (m.length - 3)) else none
  | .pmtudTime ms _ => some (.timer ms)
  | .message p => if p.head? = some 3 ∧ 5 ≤ p.length then some (.pong (num (field p 1 2))) else none
  | _ => none

/-- The discovery events of a history, latest first. -/
def pmEvents (l : Log) : List PmEv := l.filterMap pmEv

/-- The discovery state last announced. -/
def pmAt : List PmEv → PmtudState
  | [] => .disabled
  | .state s :: _ => s
  | _ :: l => pmAt l

/-- The last request to the host's timer. -/
def lastTimer : List PmEv → Option Nat
  | [] => none
  | .timer ms :: _ => some ms
  | _ :: l => lastTimer l

/-- An announced state, an acknowledged probe (the timer is cancelled: request 0) or a rest of a minute or more
begins a new burst of probes. -/
def isReset : PmEv → Bool
  | .state _ => true
  | .timer ms => ms == 0 || decide (60000 ≤ ms)
  | _ => false

/-- Number of probes of size `n` in the current burst. -/
def burst (n : Nat) : List PmEv → Nat
  | [] => 0
  | .probe _ m :: l => burst n l + if m = n then 1 else 0
  | e :: l => if isReset e then 0 else burst n l

/-- At every point of the history, at most three probes of a size in the burst. -/
def BurstsOk (ev : List PmEv) : Prop := ∀ newer older, ev = newer ++ older → ∀ n, burst n older ≤ 3

/-- The peer answered a probe of size at least `n`, after it was sent. -/
def Acked (ev : List PmEv) (n : Nat) : Prop := ∃ id m a b, n ≤ m ∧ ev = a ++ .pong id :: b ∧ .probe id m ∈ b

/-- Number of accepted acknowledgements. -/
def ackCount : List PmEv → Nat
  | [] => 0
  | .timer ms :: l => ackCount l + if ms = 0 then 1 else 0
  | _ :: l => ackCount l

/-- Discovery is probing: in the BASE or SEARCHING phase. -/
def Probing (s : PmtudState) : Prop := s = .base ∨ s = .searching

end Lightway.Spec
