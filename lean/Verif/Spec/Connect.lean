import Verif.Spec.Sent

/-!
# What a connect call asks of the TLS library
-/

namespace Lightway.Spec

/-- The TLS calls of a (newest first) piece of history with their outcome, oldest first. -/
def tlsCalls : Log → List (SslCall × Bool)
  | [] => []
  | .sslCall k ok :: l => tlsCalls l ++ [(k, ok)]
  | _ :: l => tlsCalls l

/-- The calls that prepare a TLS object, in order: a datagram connection tells TLS its MTU (the outside
MTU less 114 bytes of overhead, plus 37 bytes of record overhead) and, on a server, accepts fragmented
greetings; a stream client names the host it wants, if configured; the server's name is checked if
configured; a client that was asked to uses a post-quantum key share. -/
def setupCalls (server : Bool) (ctx : SslCtx) (mtu : Nat) (sni : Bytes) : List SslCall :=
  [.new] ++
  (match ctx.connType with
    | .datagram => [.setMtu (mtu - 114 + 37)] ++ if server then [.allowChFrag] else []
    | .stream => if !server && sni ≠ [] then [.useSNI sni] else []) ++
  (if cstr ctx.serverDn ≠ [] then [.checkDomainName (cstr ctx.serverDn)] else []) ++
  (if !server && ctx.usePqc then [.useKeyShare] else [])

/-- The result of a connect call when call `k` of the preparation fails with `err`. -/
def setupFailure (k : SslCall) (err : SslErr) : RC :=
  match k, err with
  | .setMtu _, _ => .invalidMtuSize
  | .allowChFrag, _ => .cannotEnableChFrag
  | .useSNI _, .memory => .sslOutOfMemory
  | .useSNI _, .badFuncArg => .sslError
  | .useSNI _, _ => .failed
  | _, _ => .initFailed

/-- The TLS library wants to wait for the peer. -/
abbrev Wants (e : SslErr) : Prop := e = .wantRead ∨ e = .wantWrite

end Lightway.Spec
