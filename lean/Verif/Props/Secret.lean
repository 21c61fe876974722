import Verif.Proofs.Secret4
import Verif.Spec.Budget
import Verif.Props.Demo

/-!
# C105, C106: credentials show nowhere but inside the AUTH message (and, on a server, to the authentication callback)

Two clients that make the same calls and differ in the credentials only (user name, password, token, buffer, of the same
lengths) behave the same: same return codes, states, events and callbacks, the same datagrams on the network, the same other
messages given to the TLS library.  The hypothesis is that the TLS library, the callbacks and the plugins do not look inside
an AUTH message (`Spec.Sealed`): that is what encryption is for.  On the server (C106) the verdicts of the authentication callback are a schedule: they may
depend on everything but the bytes of the credentials, so two servers are compared that gave the same verdicts.
-/

namespace Lightway
open Spec

variable {w : Watch}

theorem mask_create : mask w Conn.create = Conn.create := by
  have e : ∀ n, (zeros n).map hide = zeros n := zeros_hide
  unfold mask Conn.create
  simp [e, hideLog]

theorem shut_create : Shut w Conn.create := ⟨fun _ => rfl, (by intro p h; cases h), (by intro p h; cases h), fun _ => rfl⟩

theorem fold_par {env : Env} (hE : Sealed w env) (hw : w.pay = none) {ops : List Op} (hc : ∀ op ∈ ops, CallOf w op) {c : Conn} (h : Shut w c) :
    ParC w (ops.foldl (fun c op => (step env c op).1) c) ((ops.map (hideOp w)).foldl (fun c op => (step env c op).1) (mask w c)) := by
  induction ops generalizing c with
  | nil => exact parC h
  | cons op ops ih =>
    have k := (step_par hE (hc op (by simp)) (fun _ _ => hw) h).fst
    simp only [List.map_cons, List.foldl_cons]
    rw [k.1]
    exact ih (fun o ho => hc o (by simp [ho])) k.2

/-- The run with hidden credentials is the run, with the credentials hidden. -/
theorem run_par {env : Env} (hE : Sealed w env) (hw : w.pay = none) {ops : List Op} (hc : ∀ op ∈ ops, CallOf w op) :
    run env (ops.map (hideOp w)) = mask w (run env ops) := by
  have h := (fold_par hE hw hc shut_create).1
  rw [mask_create] at h
  exact h

theorem outsideTls_hide (l : Log) : outsideTls (hideLog .client l) = outsideTls l := by
  induction l with
  | nil => rfl
  | cons e l ih =>
    unfold outsideTls hideLog at *
    rw [List.map_cons]
    cases e with
    | sslCall call ok => simpa [hideEff, Watch.client, Watch.server, inMsg, shade] using ih
    | _ => simpa [hideEff, Watch.client, Watch.server, inMsg, shade] using ih

theorem datagrams_outside (l : Log) : datagrams (outsideTls l) = datagrams l := by
  induction l with
  | nil => rfl
  | cons e l ih =>
    unfold outsideTls datagrams at *
    cases e with
    | _ => simpa [List.filter_cons, List.filterMap_cons] using ih

/-- Two client runs that differ in the credentials only have the same history, up to the bytes of the credentials inside the
AUTH messages given to the TLS library. -/
theorem C105_credentials_only_in_auth {env : Env} (hE : Sealed .client env) {ops ops' : List Op} (hc : ∀ op ∈ ops, CallOf .client op)
    (hc' : ∀ op ∈ ops', CallOf .client op) (same : ops.map (hideOp .client) = ops'.map (hideOp .client)) :
    hideLog .client (run env ops).log = hideLog .client (run env ops').log := by
  have h := run_par hE rfl hc
  have h' := run_par hE rfl hc'
  rw [same, h'] at h
  exact (congrArg Conn.log h).symm

/-- In particular everything outside the TLS library is the same: what the calls return, the state, the events, every callback
and its argument, every packet delivered, and every datagram handed to the network. -/
theorem C105_nothing_shows {env : Env} (hE : Sealed .client env) {ops ops' : List Op} (hc : ∀ op ∈ ops, CallOf .client op)
    (hc' : ∀ op ∈ ops', CallOf .client op) (same : ops.map (hideOp .client) = ops'.map (hideOp .client)) :
    outsideTls (run env ops).log = outsideTls (run env ops').log ∧
    datagrams (run env ops).log = datagrams (run env ops').log ∧
    (run env ops).state = (run env ops').state := by
  have h := C105_credentials_only_in_auth hE hc hc' same
  have h1 : outsideTls (run env ops).log = outsideTls (run env ops').log := by
    rw [← outsideTls_hide, h, outsideTls_hide]
  refine ⟨h1, by rw [← datagrams_outside, h1, datagrams_outside], ?_⟩
  have a := run_par hE rfl hc
  have b := run_par hE rfl hc'
  rw [same, b] at a
  exact (congrArg Conn.state a).symm

/-! ## The server -/

theorem outsideAuth_hide (l : Log) : outsideAuth (hideLog .server l) = outsideAuth l := by
  induction l with
  | nil => rfl
  | cons e l ih =>
    unfold outsideAuth hideLog at *
    rw [List.map_cons]
    cases e with
    | _ => simpa [hideEff, Watch.client, Watch.server, inMsg, shade] using ih

theorem datagrams_outsideAuth (l : Log) : datagrams (outsideAuth l) = datagrams l := by
  induction l with
  | nil => rfl
  | cons e l ih =>
    unfold outsideAuth datagrams at *
    cases e with
    | _ => simpa [List.filter_cons, List.filterMap_cons] using ih

/-- Two runs (of a server or a client) whose calls and received messages differ only in the bytes of the credentials have the
same history up to those bytes – in the AUTH message as it arrived (or was sent) and in the arguments of the authentication callbacks. -/
theorem C106_credentials_only_to_the_callback {env : Env} (hE : Sealed .server env) {ops ops' : List Op}
    (hc : ∀ op ∈ ops, CallOf .server op) (hc' : ∀ op ∈ ops', CallOf .server op)
    (same : ops.map (hideOp .server) = ops'.map (hideOp .server)) :
    hideLog .server (run env ops).log = hideLog .server (run env ops').log := by
  have h := run_par hE rfl hc
  have h' := run_par hE rfl hc'
  rw [same, h'] at h
  exact (congrArg Conn.log h).symm

/-- In particular everything but the calls into the TLS library, the message as decrypted and the arguments of the
authentication callbacks is the same: results, states, events, every other callback, every datagram. -/
theorem C106_nothing_shows {env : Env} (hE : Sealed .server env) {ops ops' : List Op}
    (hc : ∀ op ∈ ops, CallOf .server op) (hc' : ∀ op ∈ ops', CallOf .server op)
    (same : ops.map (hideOp .server) = ops'.map (hideOp .server)) :
    outsideAuth (run env ops).log = outsideAuth (run env ops').log ∧
    datagrams (run env ops).log = datagrams (run env ops').log ∧
    (run env ops).state = (run env ops').state := by
  have h := C106_credentials_only_to_the_callback hE hc hc' same
  have h1 : outsideAuth (run env ops).log = outsideAuth (run env ops').log := by
    rw [← outsideAuth_hide, h, outsideAuth_hide]
  refine ⟨h1, by rw [← datagrams_outsideAuth, h1, datagrams_outsideAuth], ?_⟩
  have a := run_par hE rfl hc
  have b := run_par hE rfl hc'
  rw [same, b] at a
  exact (congrArg Conn.state a).symm

/-! A concrete pair: a TLS library whose records show the length of a message only, a client with user "joe" and one with "ann". -/

namespace Demo

/-- As `ssl2`, but the record of a message is as many zeros. -/
def ssl3 (l : Log) (c : SslCall) : SslRes :=
  match c with
  | .write m => { ok := true, val := 1, err := .none, io := [.send (zeros m.length)] }
  | c => ssl2 l c

def secretEnv : Env := { env with ssl := ssl3 }

theorem negotiations_hide (l : Log) : negotiations (hideLog w l) = negotiations l := by
  induction l with
  | nil => rfl
  | cons e l ih =>
    unfold negotiations hideLog at *
    rw [List.map_cons, List.countP_cons, List.countP_cons, ih]
    congr 1
    cases e with
    | sslCall call ok => cases call <;> rfl
    | _ => obtain ⟨srv, pay, inn⟩ := w; cases srv <;> rfl

theorem secretEnv_sealed : Sealed .client secretEnv where
  ssl l call := by
    cases call with
    | write m => simp [secretEnv, ssl3, hideCall, hideOut_len]
    | negotiate => simp [secretEnv, ssl3, hideCall, ssl2, negotiations_hide, ssl]
    | _ => rfl
  sslVersion _ := rfl
  outsideWrite _ := rfl
  netConfig _ := rfl
  serverConfig _ := rfl
  pmtudTime _ := rfl
  rng l := by simp [secretEnv, env, hideLog]
  now _ := rfl
  alloc _ := rfl
  populate h := by cases h
  authUserPass h := by cases h
  authToken h := by cases h
  authBuf h := by cases h

/-- "joe", "pw" and "ann", "xy". -/
def annOps : List Op :=
  [ .setUsername [97, 110, 110], .setPassword [120, 121], .setOutsideMtu 1500, .clientConnect ctx [] [],
    .outsideData (dgram [1, 2, 3]) [], .outsideData (dgram [9]) [msg (configIpv4Msg 4242 netCfg)] ]

theorem joe_calls : ∀ op ∈ clientOps, CallOf .client op := by
  intro op h
  simp only [clientOps, clientOpsWith, List.mem_cons, List.not_mem_nil, or_false] at h
  rcases h with rfl | rfl | rfl | rfl | rfl | rfl <;> first | trivial | exact ⟨(by intro p h; cases h), (by intro p h; cases h), fun _ => rfl⟩

theorem ann_calls : ∀ op ∈ annOps, CallOf .client op := by
  intro op h
  simp only [annOps, List.mem_cons, List.not_mem_nil, or_false] at h
  rcases h with rfl | rfl | rfl | rfl | rfl | rfl <;> first | trivial | exact ⟨(by intro p h; cases h), (by intro p h; cases h), fun _ => rfl⟩

theorem joe_ann : clientOps.map (hideOp .client) = annOps.map (hideOp .client) := rfl

/-- They come ONLINE, having sent different AUTH messages. -/
theorem joe_online : (run secretEnv clientOps).state = .online ∧
    (run secretEnv clientOps).log.contains (.sslCall (.write (authUserPassMsg { username := [106, 111, 101] ++ zeros 48, password := [112, 119] ++ zeros 49 })) true) = true ∧
    (run secretEnv annOps).log.contains (.sslCall (.write (authUserPassMsg { username := [106, 111, 101] ++ zeros 48, password := [112, 119] ++ zeros 49 })) true) = false := by
  decide +kernel

example : datagrams (run secretEnv clientOps).log = datagrams (run secretEnv annOps).log :=
  (C105_nothing_shows secretEnv_sealed joe_calls ann_calls joe_ann).2.1

/-- The hypothesis is needed: a library that sends the message in the clear shows the name. -/
theorem clear_shows : datagrams (run env clientOps).log ≠ datagrams (run env annOps).log := by decide +kernel

/-! And a pair of servers: the callback says yes to both; one is given "joe", the other "ann". -/

def yesEnv : Env := { secretEnv with authUserPass := fun _ _ _ => true }

theorem yesEnv_sealed : Sealed .server yesEnv where
  ssl l call := by
    cases call with
    | write m => simp [yesEnv, secretEnv, ssl3, hideCall, hideOut_len]
    | negotiate => simp [yesEnv, secretEnv, ssl3, hideCall, ssl2, negotiations_hide, ssl]
    | _ => rfl
  sslVersion _ := rfl
  outsideWrite _ := rfl
  netConfig _ := rfl
  serverConfig _ := rfl
  pmtudTime _ := rfl
  rng l := by simp [yesEnv, secretEnv, env, hideLog]
  now _ := rfl
  alloc _ := rfl
  populate _ _ := rfl
  authUserPass _ _ _ _ := rfl
  authToken _ _ _ := rfl
  authBuf _ _ _ _ := rfl

def annServer : List Op :=
  [ .setOutsideMtu 1500, .serverConnect ctx [] [],
    .outsideData (dgram [1, 2, 3]) [],
    .outsideData (dgram [9]) [msg (authUserPassMsg { username := [97, 110, 110] ++ zeros 48,
                                                      password := [120, 121] ++ zeros 49 })] ]

theorem joe_server_calls : ∀ op ∈ serverOps, CallOf .server op := by
  intro op h
  simp only [serverOps, serverOpsWith, List.mem_cons, List.not_mem_nil, or_false] at h
  rcases h with rfl | rfl | rfl | rfl <;> first | trivial | exact ⟨rfl, (by intro p h; cases h), (by intro p h; cases h), fun _ => rfl⟩

theorem ann_server_calls : ∀ op ∈ annServer, CallOf .server op := by
  intro op h
  simp only [annServer, List.mem_cons, List.not_mem_nil, or_false] at h
  rcases h with rfl | rfl | rfl | rfl <;> first | trivial | exact ⟨rfl, (by intro p h; cases h), (by intro p h; cases h), fun _ => rfl⟩

theorem joe_ann_server : serverOps.map (hideOp .server) = annServer.map (hideOp .server) := by rfl

/-- Both are ONLINE, and their callbacks were given different names. -/
theorem servers_online : (run yesEnv serverOps).state = .online ∧ (run yesEnv annServer).state = .online ∧
    (run yesEnv serverOps).log.contains (.authUserPass ([106, 111, 101] ++ zeros 47) ([112, 119] ++ zeros 48) true) = true ∧
    (run yesEnv annServer).log.contains (.authUserPass ([106, 111, 101] ++ zeros 47) ([112, 119] ++ zeros 48) true) = false ∧
    (datagrams (run yesEnv serverOps).log).length > 0 := by
  decide +kernel

example : datagrams (run yesEnv serverOps).log = datagrams (run yesEnv annServer).log :=
  (C106_nothing_shows yesEnv_sealed joe_server_calls ann_server_calls joe_ann_server).2.1

end Demo

end Lightway
