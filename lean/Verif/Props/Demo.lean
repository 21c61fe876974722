import Verif.Proofs.Trav5

/-!
# Concrete runs used to show that hypotheses of the theorems are met
A cooperative environment and two sessions: a client and a server that come ONLINE.
-/

namespace Lightway.Demo

/-- Every TLS call succeeds; reads ask for up to 2000 bytes, writes send the message as one record. -/
def ssl : Log → SslCall → SslRes
  | _, .write m => { ok := true, val := 1, err := .none, io := [.send m] }
  | _, .negotiate => { ok := false, val := -1, err := .wantRead, io := [.send [22, 1]] }
  | _, .currentTimeout => { ok := true, val := 1, err := .none, io := [] }
  | _, .renegPending => { ok := true, val := 0, err := .none, io := [] }
  | _, .keyUpdateResponse => { ok := true, val := 0, err := .none, io := [] }
  | _, _ => { ok := true, val := 1, err := .none, io := [] }

/-- Number of `negotiate` calls in a history. -/
def negotiations (l : Log) : Nat := l.countP (fun e => match e with | .sslCall .negotiate _ => true | _ => false)

/-- As `ssl`, but the second handshake step succeeds. -/
def ssl2 (l : Log) (c : SslCall) : SslRes :=
  match c with
  | .negotiate => if negotiations l = 0 then ssl l .negotiate else
      { ok := true, val := 1, err := .none, io := [.recv 2000] }
  | c => ssl l c

def env : Env where
  ssl := ssl2
  sslVersion _ := .dtls12
  outsideWrite _ _ := .success
  netConfig _ _ := .success
  serverConfig _ _ := .success
  authUserPass _ u p := u.take 4 == [106, 111, 101, 0] && p.take 3 == [112, 119, 0]
  authToken _ _ := true
  authBuf _ _ _ := true
  populate _ := (.success, { localIp := [49, 48, 46, 48, 46, 48, 46, 49], peerIp := [49], dnsIp := [50], mtu := 1350 })
  pmtudTime _ _ := .success
  rng l := some (l.length * 1000 + 77)
  now _ := 1000
  alloc _ := true

def allCbs : Callbacks :=
  { stateChange := true, nudgeTime := true, insideWrite := true, outsideWrite := true, netConfig := true,
    serverConfig := true, event := true, auth := true, authToken := true, authBuf := true,
    populate := true, pmtudTime := true, pmtudState := true }

def ctx : SslCtx :=
  { caSet := true, certSet := true, keySet := true, cbs := allCbs,
    minMajor := 1, minMinor := 0, maxMajor := 1, maxMinor := 2, maxFragEntries := 16 }

/-- A datagram with header version 1.2 and session 0. -/
def dgram (body : Bytes) : Bytes := [72, 101, 1, 2, 0, 0, 0, 0] ++ zeros 8 ++ body

/-- One successful read. -/
def msg (m : Bytes) : ReadRes := { plain := m, retZero := false, err := .none, io := [.recv 2000] }

def netCfg : NetCfg := { localIp := [49, 48, 46, 49], peerIp := [49], dnsIp := [50], mtu := 1350 }

/-- An IPv4 packet of 28 bytes. -/
def ipPkt : Bytes := [69, 0, 0, 28] ++ zeros 24

/-- Client: configure, connect, handshake, receive the network configuration. -/
def clientOpsWith (ctx : SslCtx) : List Op :=
  [ .setUsername [106, 111, 101], .setPassword [112, 119], .setOutsideMtu 1500,
    .clientConnect ctx [] [],
    .outsideData (dgram [1, 2, 3]) [],
    .outsideData (dgram [9]) [msg (configIpv4Msg 4242 netCfg)] ]

def clientOps : List Op := clientOpsWith ctx

/-- Server: connect, handshake, receive the credentials. -/
def serverOpsWith (ctx : SslCtx) : List Op :=
  [ .setOutsideMtu 1500, .serverConnect ctx [] [],
    .outsideData (dgram [1, 2, 3]) [],
    .outsideData (dgram [9]) [msg (authUserPassMsg { username := [106, 111, 101] ++ zeros 48,
                                                      password := [112, 119] ++ zeros 49 })] ]

def serverOps : List Op := serverOpsWith ctx

theorem client_online : (run env clientOps).state = .online := by decide +kernel
theorem server_online : (run env serverOps).state = .online ∧ (run env serverOps).isServer = true := by
  decide +kernel

theorem envOk : EnvOk env := ⟨fun _ => rfl, fun _ => rfl⟩

/-- Some effect of the history, together with the history before it, satisfies `P`. -/
def occurs (P : Effect → Log → Bool) : Log → Bool
  | [] => false
  | e :: l => P e l || occurs P l

theorem occurs_split {P : Effect → Log → Bool} {l : Log} (h : occurs P l = true) :
    ∃ newer e older, l = newer ++ e :: older ∧ P e older = true := by
  induction l with
  | nil => cases h
  | cons e l ih =>
    simp only [occurs, Bool.or_eq_true] at h
    rcases h with h | h
    · exact ⟨[], e, l, rfl, h⟩
    · obtain ⟨n, e', o, rfl, h2⟩ := ih h
      exact ⟨e :: n, e', o, rfl, h2⟩

/-- A state change to `s`. -/
def toState (s : ConnState) : Effect → Bool
  | .state t _ => t == s
  | _ => false

end Lightway.Demo
