import Verif.Model.Types

/-!
# src/he/network.c and src/he/mss.c
Results are `Option`: `none` is undefined behaviour (out-of-bounds access or `int32_t` overflow).
-/

namespace Lightway

/-- `he_internal_is_ipv4_packet_valid`. src/he/network.c:49-62 -/
def ipv4Valid (pkt : Bytes) : Bool :=
  match pkt with
  | [] => false
  | b :: _ => decide (20 ≤ pkt.length) && decide (b.toNat / 16 = 4)

/-- The accumulation loop of `he_internal_calculate_differential_checksum` with `int32_t` overflow
as undefined behaviour. src/he/network.c:28-35 -/
def ckAccumulate (acc : Int) : List Nat → List Nat → Option Int
  | [], _ => some acc
  | _, [] => some acc
  | n :: ns, o :: os =>
    let a1 := acc - n
    let a2 := a1 + o
    if a1 < -2147483648 ∨ 2147483647 < a2 then none else ckAccumulate a2 ns os

/-- Folding of the accumulator, src/he/network.c:37-46.  For a negative accumulator the absolute
value is folded and complemented (`(uint16_t)~x` is `65535 - x % 65536`). -/
def ckFold (acc : Int) : Nat :=
  let a := acc.natAbs
  let a := a / 65536 + a % 65536
  let a := a + a / 65536
  if acc < 0 then 65535 - a % 65536 else a % 65536

/-- `he_internal_calculate_differential_checksum`; words are 16-bit host-order loads.
src/he/network.c:22-47.  Negating the smallest `int32_t` (line 38) is undefined behaviour. -/
def diffChecksum (ck : Nat) (newW oldW : List Nat) : Option Nat :=
  match ckAccumulate ck newW oldW with
  | none => none
  | some acc => if acc = -2147483648 then none else some (ckFold acc)

/-- The option loop of `he_internal_clamp_mss`: `pos` is the offset of the `options` pointer in the
packet, `optLen` the value of `options_len` (a negative value never enters the loop and is
represented by 0), `tcpPos` the offset of the TCP header. src/he/mss.c:92-150 -/
def clampLoop (pkt : Bytes) (mss tcpPos : Nat) (pos optLen : Nat) : Option (Bytes × RC) :=
  if optLen < 4 then some (pkt, .success) else
  match rd pkt pos 1 with
  | some [kind] =>
    if kind = 0 then some (pkt, .success)
    else if kind = 1 then clampLoop pkt mss tcpPos (pos + 1) (optLen - 1)
    else
      match rd pkt (pos + 1) 1 with
      | some [size] =>
        if kind = 2 then
          if size ≠ 4 then some (pkt, .success)
          else
            match rd pkt (pos + 2) 2 with
            | none => none
            | some cur =>
              if rdBe16 cur ≤ mss then some (pkt, .success)
              else
                match wr pkt (pos + 2) (be16 mss) with
                | none => none
                | some pkt1 =>
                  match rd pkt1 (tcpPos + 16) 2 with
                  | none => none
                  | some ck =>
                    match diffChecksum (rdLe16 ck) [rdLe16 (be16 mss)] [rdLe16 cur] with
                    | none => none
                    | some ck' =>
                      match wr pkt1 (tcpPos + 16) (le16 ck') with
                      | none => none
                      | some pkt2 => some (pkt2, .success)
        else if _h : 0 < size.toNat ∧ size.toNat ≤ optLen then
          clampLoop pkt mss tcpPos (pos + size.toNat) (optLen - size.toNat)
        else some (pkt, .success)
      | _ => none
  | _ => none
termination_by optLen
decreasing_by all_goals omega

/-- `he_internal_clamp_mss(packet, length, mss)`. src/he/mss.c:23-151.  `length` is the length of
the packet buffer. -/
def clampMss (pkt : Bytes) (mss : Nat) : Option (Bytes × RC) :=
  if pkt.length = 0 then some (pkt, .zeroSize)
  else if mss < 512 ∨ mss > maxWireMtu then some (pkt, .failed)
  else if !ipv4Valid pkt then some (pkt, .badPacket)
  else
    match rd pkt 9 1, rd pkt 6 2, rd pkt 0 1 with
    | some [proto], some ff, some [vihl] =>
      if proto ≠ 6 then some (pkt, .success)
      -- flags_fo & ~(DF | MF) != 0: reserved bit or fragment offset present
      else if rdBe16 ff / 32768 ≠ 0 ∨ rdBe16 ff % 8192 ≠ 0 then some (pkt, .success)
      else
        let ipLen := 4 * (vihl.toNat % 16)
        if ipLen + 20 > pkt.length then some (pkt, .success)
        else
          match rd pkt (ipLen + 13) 1, rd pkt (ipLen + 12) 1 with
          | some [flags], some [doff] =>
            if flags.toNat / 2 % 2 = 0 then some (pkt, .success)
            else
              let tcpLen := 4 * (doff.toNat / 16)
              if ipLen + tcpLen > pkt.length then some (pkt, .success)
              else clampLoop pkt mss ipLen (ipLen + 20) (tcpLen - 20)
          | _, _ => none
    | _, _, _ => none

end Lightway
