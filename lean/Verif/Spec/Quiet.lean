import Verif.Model.Api

/-!
# Leaving out the callbacks that only inform the host
The state-change, event and nudge-time callbacks return nothing.  `hush` forgets that they were called.
-/

namespace Lightway.Spec

/-- The same callbacks without those three. -/
def quietCbs (cbs : Callbacks) : Callbacks := { cbs with stateChange := false, event := false, nudgeTime := false }

/-- The same context without them. -/
def quietCtx (ctx : SslCtx) : SslCtx := { ctx with cbs := quietCbs ctx.cbs }

/-- The same call with such a context. -/
def quietOp : Op → Op
  | .clientConnect ctx i o => .clientConnect (quietCtx ctx) i o
  | .serverConnect ctx i o => .serverConnect (quietCtx ctx) i o
  | op => op

/-- An effect without calls of those callbacks: that the state became `s` or an event took place is kept, not that the host was
told; a nudge-time call vanishes. -/
def hush : Effect → Option Effect
  | .state s _ => some (.state s false)
  | .event e _ => some (.event e false)
  | .nudgeTime _ => none
  | .callbacks cbs => some (.callbacks (quietCbs cbs))
  | e => some e

/-- A history without them. -/
def hushLog (l : Log) : Log := l.filterMap hush

/-- The rest of the world – the TLS library, the network, the clock, the other callbacks of the host – acts as it would if those
callbacks had not been called. -/
structure Deaf (env : Env) : Prop where
  ssl : ∀ l call, env.ssl (hushLog l) call = env.ssl l call
  sslVersion : ∀ l, env.sslVersion (hushLog l) = env.sslVersion l
  outsideWrite : ∀ l, env.outsideWrite (hushLog l) = env.outsideWrite l
  netConfig : ∀ l, env.netConfig (hushLog l) = env.netConfig l
  serverConfig : ∀ l, env.serverConfig (hushLog l) = env.serverConfig l
  pmtudTime : ∀ l, env.pmtudTime (hushLog l) = env.pmtudTime l
  rng : ∀ l, env.rng (hushLog l) = env.rng l
  now : ∀ l, env.now (hushLog l) = env.now l
  alloc : ∀ l, env.alloc (hushLog l) = env.alloc l
  populate : ∀ l, env.populate (hushLog l) = env.populate l
  authUserPass : ∀ l, env.authUserPass (hushLog l) = env.authUserPass l
  authToken : ∀ l, env.authToken (hushLog l) = env.authToken l
  authBuf : ∀ l, env.authBuf (hushLog l) = env.authBuf l

/-- So do the plugins. -/
def DeafChain (ch : Chain) : Prop :=
  ∀ p, some p ∈ ch → (∀ f, p.ingress = some f → ∀ l, f (hushLog l) = f l) ∧ (∀ f, p.egress = some f → ∀ l, f (hushLog l) = f l)

/-- Of all chains a host installs. -/
def DeafOp : Op → Prop
  | .clientConnect _ i o => DeafChain i ∧ DeafChain o
  | .serverConnect _ i o => DeafChain i ∧ DeafChain o
  | _ => True

end Lightway.Spec
