import Verif.Model.Plugin

/-!
# src/he/plugin_stats.c
The `double` fields are exact natural numbers here (lengths, their sum and their sum of squares);
floating-point rounding is not modelled.  The derived mean and standard deviation, which are only printed, are in
Props/Spread.lean, also in exact arithmetic.
-/

namespace Lightway

/-- `stats_t`. src/he/plugin_stats.h:38-44 -/
structure Stats where
  sum : Nat := 0
  sumsq : Nat := 0
  n : Nat := 0
  min : Nat := 0
  max : Nat := 0
  deriving DecidableEq, Repr

/-- `stats_sample`. src/he/plugin_stats.c:35-48 -/
def Stats.sample (st : Stats) (s : Nat) : Stats :=
  { sum := st.sum + s
    sumsq := st.sumsq + s * s
    n := st.n + 1
    min := if st.n = 0 then s else if st.min > s then s else st.min
    max := if st.n = 0 then s else if st.max < s then s else st.max }

/-- `packet_stats_t`. src/he/plugin_stats.h:46-49 -/
structure PacketStats where
  incoming : Stats := {}
  outgoing : Stats := {}
  deriving DecidableEq, Repr

/-- `stats_plugin_do_ingress`: result, packet, data.  `none` data is the NULL pointer.
src/he/plugin_stats.c:57-72 (the periodic dump to stderr is omitted) -/
def statsIngress (data : Option PacketStats) (pkt : Bytes) : PluginRet × Bytes × Option PacketStats :=
  match data with
  | none => (.fail, pkt, none)
  | some d => (.success, pkt, some { d with incoming := d.incoming.sample pkt.length })

/-- `stats_plugin_do_egress`. src/he/plugin_stats.c:74-89 -/
def statsEgress (data : Option PacketStats) (pkt : Bytes) : PluginRet × Bytes × Option PacketStats :=
  match data with
  | none => (.fail, pkt, none)
  | some d => (.success, pkt, some { d with outgoing := d.outgoing.sample pkt.length })

/-- The plugin installed by `stats_plugin_create` as a member of a chain: it returns the packet
unchanged. src/he/plugin_stats.c:91-102 -/
def statsPlugin : Plugin :=
  { ingress := some (fun _ p _ => ((statsIngress (some {}) p).1, (statsIngress (some {}) p).2.1))
    egress := some (fun _ p _ => ((statsEgress (some {}) p).1, (statsEgress (some {}) p).2.1)) }

end Lightway
