import Verif.Spec.Net

/-!
# Outgoing messages
When may a message be handed to the TLS layer, and what does it look like?  Written from the message
structures in src/he/he_internal.h, without reference to the model's encoders.
-/

namespace Lightway.Spec

/-- Message `m` may be handed to the TLS layer after history `l`. -/
def SentOk (m : Bytes) (l : Log) : Prop :=
  m.length ≤ 1500 ∧
  match m.head? with
  /- PING (id, payload length, zero payload): a keepalive, or a probe, which is larger; ONLINE only -/
  | some 2 => stateAt l = .online ∧ m.length = 5 + num (field m 3 2) ∧ (∀ b ∈ m.drop 5, b = 0) ∧
      (m.length = 5 → lastApi l = some .keepalive) ∧
      (m.length ≠ 5 → 515 ≤ m.length ∧ m.length ≤ 1419 ∧
        (lastApi l = some .startPmtud ∨ lastApi l = some .pmtudTimeout ∨ lastApi l = some .outsideData))
  /- PONG: ONLINE, answers the PING just received, with its identifier and no payload -/
  | some 3 => stateAt l = .online ∧ lastApi l = some .outsideData ∧
      ∃ pkt rest, l = .message pkt :: rest ∧ pkt.head? = some 2 ∧ 5 ≤ pkt.length ∧
        m = 3 :: field pkt 1 2 ++ [0, 0]
  /- AUTH: only while AUTHENTICATING; user/password is 104 bytes, token and buffer carry their length -/
  | some 4 => stateAt l = .authenticating ∧
      (lastApi l = some .clientConnect ∨ lastApi l = some .serverConnect ∨ lastApi l = some .outsideData ∨
        lastApi l = some .nudge) ∧
      ((m[1]? = some 1 ∧ m.length = 104) ∨
       ((m[1]? = some 2 ∨ m[1]? = some 23) ∧ 4 ≤ m.length ∧ m.length = 4 + num (field m 2 2)))
  /- DATA: ONLINE, from an inside packet; zeros follow the announced length -/
  | some 5 => stateAt l = .online ∧ lastApi l = some .insidePacket ∧
      ∃ n, (n = num (field m 1 2) ∨ n = numLe (field m 1 2)) ∧ 3 + n ≤ m.length ∧
        ∀ b ∈ m.drop (3 + n), b = 0
  /- CONFIG_IPV4: by a server, directly after the host approved the credentials and supplied a
  configuration -/
  | some 6 => serverAt l = true ∧ lastApi l = some .outsideData ∧ m.length = 105 ∧
      ∃ e rest, l = .populate .success :: e :: rest ∧ AuthOk e
  /- AUTH_RESPONSE: by a server, directly after refused credentials, credentials of an unsupported kind,
  or a failed configuration -/
  | some 7 => serverAt l = true ∧ lastApi l = some .outsideData ∧ m.length = 53 ∧
      ∃ e rest, l = e :: rest ∧ (AuthNo e ∨ (∃ rc, e = .populate rc ∧ rc ≠ .success) ∨
        ∃ pkt, e = .message pkt ∧ pkt.head? = some 4)
  /- GOODBYE: by a disconnect call -/
  | some 12 => m = [12] ∧ lastApi l = some .disconnect ∧ stateAt l = .disconnecting
  /- SERVER_CONFIG: by a server, on request of the host, from LINK_UP on -/
  | some 14 => serverAt l = true ∧ lastApi l = some .sendServerConfig ∧
      (stateAt l = .linkUp ∨ stateAt l = .authenticating ∨ stateAt l = .configuring ∨
        stateAt l = .online) ∧ m.length = 3 + num (field m 1 2)
  /- DATA_WITH_FRAG: ONLINE, from an inside packet -/
  | some 15 => stateAt l = .online ∧ lastApi l = some .insidePacket ∧ (decodeFrag m).isSome = true
  | _ => False

/-- Every message handed to the TLS layer is in order. -/
def SentAt (e : Effect) (l : Log) : Prop :=
  match e with
  | .sslCall (.write m) _ => SentOk m l
  | _ => True

end Lightway.Spec
