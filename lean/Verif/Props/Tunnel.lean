import Verif.Props.Traffic

/-!
# C111: the packets that arrive show to nobody but the host

Two connections that make the same calls and receive the same messages, but for what is in the tunnelled packets – those handed
in and those that arrive, in DATA messages (either encoding) and in fragments; only the lengths, the IP version and the fragment
headers are the same – behave the same: same results, states, events, callbacks, the same datagrams sent, and the packets handed
to the host are of the same lengths, in the same places.  So nothing the peer puts into a packet can change what the library
does, nor can it come out anywhere but in the host's inside-write callback.  Hypothesis as in C107: the TLS library, the host's
callbacks and the outside plugins do not act on the contents (`Spec.Sealed`); no inside plugins, which would see the packets.
-/

namespace Lightway
open Spec
variable {env : Env}

theorem blankPkt_idem (p : Bytes) : blankPkt (blankPkt p) = blankPkt p := by
  cases p <;> simp [blankPkt, zeros]

theorem outsideTunnel_hide (l : Log) : outsideTunnel (hideLog .tunnel l) = outsideTunnel l := by
  induction l with
  | nil => rfl
  | cons e l ih =>
    unfold outsideTunnel hideLog at *
    rw [List.map_cons]
    cases e with
    | insideWrite p =>
      simp only [hideEff, List.filter_cons_of_pos, List.map_cons]
      rw [ih, show shade .tunnel p = blankPkt p from rfl, blankPkt_idem]
    | _ => simpa [hideEff, Watch.tunnel, Watch.both] using ih

theorem datagrams_outsideTunnel (l : Log) : datagrams (outsideTunnel l) = datagrams l := by
  induction l with
  | nil => rfl
  | cons e l ih =>
    unfold outsideTunnel datagrams at *
    cases e with
    | _ => simpa [List.filter_cons, List.filterMap_cons] using ih

/-- Two runs whose calls and received messages differ only in the contents of the tunnelled packets, in either direction (and in
the bytes of the credentials), have the same results, states, events, callbacks and datagrams; the packets handed to the host
have the same lengths. -/
theorem C111_arrivals_do_not_show (hE : Sealed .tunnel env) {ops ops' : List Op}
    (hc : ∀ op ∈ ops, CallOf .tunnel op) (hc' : ∀ op ∈ ops', CallOf .tunnel op)
    (same : ops.map (hideOp .tunnel) = ops'.map (hideOp .tunnel)) :
    outsideTunnel (run env ops).log = outsideTunnel (run env ops').log ∧
    datagrams (run env ops).log = datagrams (run env ops').log ∧
    (run env ops).state = (run env ops').state := by
  have h : mask .tunnel (run env ops) = mask .tunnel (run env ops') :=
    traffic_hidden (pad := .none) (n := 0) (inn := true) hE hc hc' same (fun _ _ _ _ h => absurd rfl h)
  have hl : hideLog .tunnel (run env ops).log = hideLog .tunnel (run env ops').log := congrArg Conn.log h
  have h1 : outsideTunnel (run env ops).log = outsideTunnel (run env ops').log := by
    rw [← outsideTunnel_hide, hl, outsideTunnel_hide]
  exact ⟨h1, by rw [← datagrams_outsideTunnel, h1, datagrams_outsideTunnel],
    (show (mask .tunnel (run env ops)).state = (mask .tunnel (run env ops')).state by rw [h])⟩

/-- And the whole histories are the same up to the contents of the packets: in the messages as they went into and came out of
the TLS library, and in the packets handed to the host. -/
theorem C111_only_to_the_host (hE : Sealed .tunnel env) {ops ops' : List Op}
    (hc : ∀ op ∈ ops, CallOf .tunnel op) (hc' : ∀ op ∈ ops', CallOf .tunnel op)
    (same : ops.map (hideOp .tunnel) = ops'.map (hideOp .tunnel)) :
    hideLog .tunnel (run env ops).log = hideLog .tunnel (run env ops').log :=
  congrArg Conn.log (traffic_hidden (pad := .none) (n := 0) (inn := true) hE hc hc' same (fun _ _ _ _ h => absurd rfl h))

/-! Concrete: a client receives a packet, then another in two fragments, and sends one. -/

namespace Demo

theorem yesEnv_tunnel : Sealed .tunnel yesEnv where
  ssl l call := by
    cases call with
    | write m => simp [yesEnv, secretEnv, ssl3, hideCall, hideOut_len]
    | negotiate => simp [yesEnv, secretEnv, ssl3, hideCall, ssl2, negotiations_hide, ssl]
    | _ => rfl
  sslVersion _ := rfl
  outsideWrite _ := rfl
  netConfig _ := rfl
  serverConfig _ := rfl
  pmtudTime _ := rfl
  rng l := by simp [yesEnv, secretEnv, env, hideLog]
  now _ := rfl
  alloc _ := rfl
  populate _ _ := rfl
  authUserPass _ _ _ _ := rfl
  authToken _ _ _ := rfl
  authBuf _ _ _ _ := rfl

/-- A 28-byte packet with the byte `b` all over. -/
def filled (b : UInt8) : Bytes := 69 :: List.replicate 27 b

/-- A client that comes ONLINE, receives a packet, then one in two fragments, and sends one: all made of `b`. -/
def arrivals (b : UInt8) : List Op :=
  before ++ [ connectOp false ctx [] [],
    .outsideData (dgram [1, 2, 3]) [], .outsideData (dgram [9]) [msg (configIpv4Msg 4242 netCfg)],
    .outsideData (dgram [7]) [msg ([5, 0, 28] ++ filled b)],
    .outsideData (dgram [7]) [msg ([15, 0, 24, 0, 7, 32, 0] ++ (filled b).take 24)],
    .outsideData (dgram [7]) [msg ([15, 0, 4, 0, 7, 0, 3] ++ (filled b).drop 24)],
    .insidePacket (filled b), .keepalive ]

theorem arrivals_calls (w : Watch) (b : UInt8) : ∀ op ∈ arrivals b, CallOf w op := by
  intro op h
  simp only [arrivals, before, connectOp, List.mem_append, List.mem_cons, List.not_mem_nil, or_false] at h
  rcases h with (rfl | rfl | rfl) | rfl | rfl | rfl | rfl | rfl | rfl | rfl | rfl <;>
    first | trivial | exact ⟨(by intro p h; cases h), (by intro p h; cases h), fun _ => rfl⟩

set_option maxRecDepth 4096 in
theorem arrivals_same (b b' : UInt8) : (arrivals b).map (hideOp .tunnel) = (arrivals b').map (hideOp .tunnel) := by
  have e : ∀ b, (arrivals b).map (hideOp .tunnel) = before.map (hideOp .tunnel) ++ [ connectOp false ctx [] [],
      .outsideData (dgram [1, 2, 3]) [], .outsideData (dgram [9]) [msg (configIpv4Msg 4242 netCfg)],
      .outsideData (dgram [7]) [msg ([5, 0, 28, 69] ++ zeros 27)],
      .outsideData (dgram [7]) [msg ([15, 0, 24, 0, 7, 32, 0, 69] ++ zeros 23)],
      .outsideData (dgram [7]) [msg ([15, 0, 4, 0, 7, 0, 3] ++ zeros 4)],
      .insidePacket (69 :: zeros 27), .keepalive ] := by
    intro b
    unfold arrivals
    rw [List.map_append]
    rfl
  rw [e, e]

/-- The packets handed to the host. -/
def gotten (l : Log) : List Bytes := l.filterMap fun e => match e with | .insideWrite p => some p | _ => none

/-- Both packets are handed to the host as they are, and the third is sent. -/
theorem arrivals_arrive : (run yesEnv (arrivals 3)).state = .online ∧
    gotten (run yesEnv (arrivals 3)).log = [filled 3, filled 3] ∧ gotten (run yesEnv (arrivals 4)).log = [filled 4, filled 4] ∧
    (datagrams (run yesEnv (arrivals 3)).log).length = 8 := by
  decide +kernel

example : datagrams (run yesEnv (arrivals 3)).log = datagrams (run yesEnv (arrivals 4)).log ∧
    outsideTunnel (run yesEnv (arrivals 3)).log = outsideTunnel (run yesEnv (arrivals 4)).log :=
  have h := C111_arrivals_do_not_show yesEnv_tunnel (arrivals_calls _ 3) (arrivals_calls _ 4) (arrivals_same 3 4)
  ⟨h.2.1, h.1⟩

end Demo

end Lightway
