import Verif.Model.Types

/-!
# src/he/plugin_chain.c
-/

namespace Lightway

/-- `he_plugin_create_chain`: one node without a plugin. src/he/plugin_chain.c:23-25 -/
def Chain.create : Chain := [none]

/-- `he_plugin_register_plugin` (allocation assumed to succeed): the first empty node takes the
plugin, otherwise a node is appended. src/he/plugin_chain.c:34-54.  A NULL chain is refused. -/
def Chain.register : Chain → Plugin → Chain × RC
  | [], _ => ([], .nullPointer)
  | none :: rest, p => (some p :: rest, .success)
  | [some q], p => ([some q, some p], .success)
  | some q :: n :: rest, p =>
    let r := Chain.register (n :: rest) p
    (some q :: r.1, r.2)

/-- Number of plugins in a chain (used by a ghost marker only). -/
def Chain.plugins (ch : Chain) : Nat := ch.countP (·.isSome)

/-- `he_plugin_ingress`: new history, resulting packet, result.  src/he/plugin_chain.c:56-77.
The packet after a refusal is whatever the refusing plugin left. -/
def Chain.ingress (ch : Chain) (log : Log) (pkt : Bytes) (cap : Nat) : Log × Bytes × RC :=
  match ch with
  | [] => (log, pkt, .success)
  | node :: rest =>
    match node.bind (·.ingress) with
    | none => Chain.ingress rest log pkt cap
    | some f =>
      let r := f log pkt cap
      let log' := Effect.pluginIngress pkt r.1 :: log
      match r.1 with
      | .fail => (log', r.2, .failed)
      | .drop => (log', r.2, .pluginDrop)
      | .success => Chain.ingress rest log' r.2 cap

/-- `he_plugin_egress`: the rest of the chain runs first. src/he/plugin_chain.c:79-103 -/
def Chain.egress (ch : Chain) (log : Log) (pkt : Bytes) (cap : Nat) : Log × Bytes × RC :=
  match ch with
  | [] => (log, pkt, .success)
  | node :: rest =>
    let r := Chain.egress rest log pkt cap
    if r.2.2 ≠ .success then r
    else
      match node.bind (·.egress) with
      | none => r
      | some f =>
        let q := f r.1 r.2.1 cap
        let log' := Effect.pluginEgress r.2.1 q.1 :: r.1
        match q.1 with
        | .fail => (log', q.2, .failed)
        | .drop => (log', q.2, .pluginDrop)
        | .success => (log', q.2, .success)

end Lightway
