import Verif.Model.Utils
import Verif.Spec.Enums
import Verif.Props.Wire4

/-!
# Name tables and error classification: C54, C56
-/

namespace Lightway
open Spec

/-- What a name function owes a declared enumeration (a list of value and identifier): every declared value is given
its identifier, distinct values distinct identifiers, and every other integer the unknown name, which is no
declared identifier. -/
structure Spec.Names (decl : List (Int × String)) (unknown : String) (name : Int → String) : Prop where
  declared : ∀ n s, (n, s) ∈ decl → name n = s
  other : ∀ n, (∀ s, (n, s) ∉ decl) → name n = unknown
  distinct : ∀ n m s t, (n, s) ∈ decl → (m, t) ∈ decl → n ≠ m → name n ≠ name m
  known : ∀ n s, (n, s) ∈ decl → name n ≠ unknown

theorem switchName_mem {cases : List (Int × String)} {dflt : String} (hd : cases.Pairwise (fun a b => a.1 ≠ b.1))
    {n : Int} {s : String} (h : (n, s) ∈ cases) : switchName cases dflt n = s := by
  induction cases with
  | nil => cases h
  | cons p l ih =>
    unfold switchName
    rw [List.find?_cons]
    by_cases hp : p.1 = n
    · rw [show decide (p.1 = n) = true by simp [hp]]
      rcases List.mem_cons.mp h with h | h
      · rw [← h]
      · exact absurd hp ((List.pairwise_cons.mp hd).1 _ h)
    · rw [show decide (p.1 = n) = false by simp [hp]]
      rcases List.mem_cons.mp h with h | h
      · exact absurd (by rw [← h]) hp
      · exact ih (List.pairwise_cons.mp hd).2 h

theorem switchName_other {cases : List (Int × String)} {dflt : String} {n : Int} (h : ∀ s, (n, s) ∉ cases) :
    switchName cases dflt n = dflt := by
  unfold switchName
  rw [List.find?_eq_none.mpr]
  intro p hp hn
  simp only [decide_eq_true_eq] at hn
  exact h p.2 (by rw [← hn]; exact hp)

theorem names_of {cases decl : List (Int × String)} {dflt : String} (hd : cases.Pairwise (fun a b => a.1 ≠ b.1))
    (h1 : ∀ p ∈ decl, p ∈ cases) (h2 : ∀ p ∈ cases, p ∈ decl) (h3 : decl.Pairwise (fun a b => a.2 ≠ b.2))
    (h4 : ∀ p ∈ decl, p.2 ≠ dflt) : Spec.Names decl dflt (switchName cases dflt) := by
  have key : ∀ n s, (n, s) ∈ decl → switchName cases dflt n = s := fun n s h => switchName_mem hd (h1 _ h)
  refine ⟨key, fun n h => switchName_other (fun s hs => h s (h2 _ hs)), ?_, fun n s h => by rw [key n s h]; exact h4 _ h⟩
  intro n m s t hn hm hne
  rw [key n s hn, key m t hm]
  intro e
  subst e
  have : ∀ l : List (Int × String), l.Pairwise (fun a b => a.2 ≠ b.2) → (n, s) ∈ l → (m, s) ∈ l → False := by
    intro l
    induction l with
    | nil => intro _ h; cases h
    | cons p l ih =>
      intro hp a b
      have hp := List.pairwise_cons.mp hp
      rcases List.mem_cons.mp a with a | a <;> rcases List.mem_cons.mp b with b | b
      · rw [← a] at b; injection b with b; exact hne b.symm
      · exact hp.1 _ b (by rw [← a])
      · exact hp.1 _ a (by rw [← b])
      · exact ih hp.2 a b
  exact this _ h3 hn hm

/-- **C56.** The connection-state, event, protocol and PMTUD-state name functions are faithful on every integer. -/
theorem C56_names :
    Spec.Names connStateDecl "HE_STATE_UNKNOWN" connStateName ∧
    Spec.Names eventDecl "HE_EVENT_UNKNOWN" eventName ∧
    Spec.Names protocolDecl "HE_CONNECTION_PROTOCOL_UNKNOWN" protocolName ∧
    Spec.Names pmtudStateDecl "HE_STATE_UNKNOWN" pmtudStateName :=
  ⟨names_of (by decide +kernel) (by decide +kernel) (by decide +kernel) (by decide +kernel) (by decide +kernel),
   names_of (by decide +kernel) (by decide +kernel) (by decide +kernel) (by decide +kernel) (by decide +kernel),
   names_of (by decide +kernel) (by decide +kernel) (by decide +kernel) (by decide +kernel) (by decide +kernel),
   names_of (by decide +kernel) (by decide +kernel) (by decide +kernel) (by decide +kernel) (by decide +kernel)⟩

/-- **C56** (partial: without the value -62, see `C56_ch_frag_unnamed`) The return-code name function is faithful on
every other integer. -/
theorem C56_return_codes_partial :
    Spec.Names (rcDecl.filter (fun p => p.1 ≠ -62)) "HE_ERR_UNKNOWN" rcName :=
  names_of (by decide +kernel) (by decide +kernel) (by decide +kernel) (by decide +kernel) (by decide +kernel)

/-- **C56** is false of `HE_ERR_CANNOT_ENABLE_CH_FRAG`: it is declared, and named unknown. -/
theorem C56_ch_frag_unnamed :
    (-62, "HE_ERR_CANNOT_ENABLE_CH_FRAG") ∈ rcDecl ∧ rcName (-62) = "HE_ERR_UNKNOWN" ∧
    ¬Spec.Names rcDecl "HE_ERR_UNKNOWN" rcName := by
  have h1 : (-62, "HE_ERR_CANNOT_ENABLE_CH_FRAG") ∈ rcDecl := by decide +kernel
  have h2 : rcName (-62) = "HE_ERR_UNKNOWN" := by decide +kernel
  exact ⟨h1, h2, fun h => h.known _ _ h1 h2⟩

/-- Non-vacuity: a declared value and an undeclared one. -/
example : connStateName 7 = "HE_STATE_ONLINE" ∧ connStateName 3 = "HE_STATE_UNKNOWN" ∧
    rcName (-60) = "HE_ERR_BAD_FRAGMENT" ∧ rcName 5 = "HE_ERR_UNKNOWN" := by decide +kernel

/-- Codes after which a stream connection may go on. -/
def Spec.harmlessStream : List RC := [.success, .sslErrorNonfatal, .wantRead, .wantWrite, .notConnected]

/-- Codes after which a datagram connection may go on: also messages out of order or damaged. -/
def Spec.harmlessDatagram : List RC :=
  harmlessStream ++ [.invalidConnState, .secureRenegotiationError, .emptyPacket, .packetTooSmall, .notHePacket,
    .unsupportedPacketType, .badPacket, .badFragment, .unknownSession]

/-- **C54.** An error is non-fatal exactly if it is in the list for the connection type. -/
theorem C54_classification (ty : ConnType) (rc : RC) :
    isErrorFatal ty rc = false ↔
      rc ∈ (match ty with | .stream => harmlessStream | .datagram => harmlessDatagram) := by
  cases ty <;> cases rc <;> decide

/-- **C54.** What is harmless on a stream is harmless on a datagram connection. -/
theorem C54_stream_stricter (rc : RC) (h : isErrorFatal .stream rc = false) : isErrorFatal .datagram rc = false := by
  rw [C54_classification] at h ⊢
  exact List.mem_append_left _ h

/-- **C54.** No datagram the header check refuses makes the call return a fatal error, unless it carries another
protocol version or the reject session id: damaged or foreign datagrams never end a connection. -/
theorem C54_refused_datagrams (env : Env) (c : Conn) (buf : Bytes) (reads : List ReadRes)
    (hs : c.state ≠ .disconnecting ∧ c.state ≠ .disconnected) (ht : c.connType = .datagram)
    (hp : c.outsidePlugins.plugins = 0) {rc : RC} (h : refusal c.verMajor c.verMinor buf = some rc) :
    isErrorFatal c.connType (step env c (.outsideData buf reads)).2 = true ↔
      16 ≤ buf.length ∧ field buf 0 2 = [72, 101] ∧
        (field buf 2 2 ≠ [c.verMajor, c.verMinor] ∨ numLe (field buf 8 8) = 2 ^ 64 - 1) := by
  rw [C24_unrecognised_dropped env c buf reads hs ht hp h, ht]
  show isErrorFatal .datagram rc = true ↔ _
  unfold refusal at h
  by_cases h1 : buf.length < 16
  · rw [if_pos h1] at h; cases h
    exact ⟨fun h => (by cases h), fun h => (by omega)⟩
  · rw [if_neg h1] at h
    by_cases h2 : field buf 0 2 ≠ [72, 101]
    · rw [if_pos h2] at h; cases h
      exact ⟨fun h => by (cases h), fun h => absurd h.2.1 h2⟩
    · rw [if_neg h2] at h
      have h2 := Decidable.not_not.mp h2
      by_cases h3 : field buf 2 2 ≠ [c.verMajor, c.verMinor]
      · rw [if_pos h3] at h; cases h
        exact ⟨fun _ => ⟨by omega, h2, .inl h3⟩, fun _ => rfl⟩
      · rw [if_neg h3] at h
        by_cases h4 : numLe (field buf 8 8) = 2 ^ 64 - 1
        · rw [if_pos h4] at h; cases h
          exact ⟨fun _ => ⟨by omega, h2, .inr h4⟩, fun _ => rfl⟩
        · rw [if_neg h4] at h; cases h

/-- Non-vacuity: an online client receives a short datagram, one that is not of this protocol, and one of another
version. -/
example :
    let c := run Demo.env Demo.clientOps
    c.state = .online ∧ c.connType = .datagram ∧ c.outsidePlugins.plugins = 0 ∧
    refusal c.verMajor c.verMinor [1, 2] = some .packetTooSmall ∧
    refusal c.verMajor c.verMinor (List.replicate 20 0) = some .notHePacket ∧
    refusal c.verMajor c.verMinor ([72, 101, 9, 9] ++ List.replicate 20 0) = some .incorrectProtocolVersion := by
  decide +kernel

end Lightway
