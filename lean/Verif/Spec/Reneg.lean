import Verif.Spec.History

/-!
# Renegotiation, as the host and the TLS library see it
-/

namespace Lightway
namespace Spec

/-- The host was told that a renegotiation started. -/
def started (x : Log) : Prop := ∃ n, Effect.event .renegStarted n ∈ x

/-- The TLS library was asked to renew the keys, one way or the other. -/
def renewed (x : Log) : Prop := ∃ ok, Effect.sslCall .rehandshake ok ∈ x ∨ Effect.sslCall .updateKeys ok ∈ x

/-- The TLS library was asked for what was received. -/
def polled (x : Log) : Prop := ∃ ok, Effect.sslCall .read ok ∈ x

/-- The TLS library said that the peer does not support renegotiation. -/
def unsupported (x : Log) : Prop := Effect.sslCall .renegSupport false ∈ x

end Spec
end Lightway
