import Verif.Model.ConnCore

/-!
# Retransmission time, as the host sees it
-/

namespace Lightway

/-- The time, in milliseconds, TLS last said to wait: 100 times what it answered when last asked for its current
timeout, a quarter of that (rounded towards 0) if it also asked for a quick timeout; 0 if it was never asked.
`env.ssl older call` is the answer TLS gives after the history `older`. -/
def reportedTimer (env : Env) : Log → Int
  | [] => 0
  | .sslCall .currentTimeout _ :: older => (env.ssl older .currentTimeout).val * 100
  | .sslCall .quickTimeout true :: older => (reportedTimer env older).tdiv 4
  | _ :: older => reportedTimer env older

/-- The retransmission time last noted (0 initially). -/
def notedTimer : Log → Int
  | [] => 0
  | .timer ms :: _ => ms
  | _ :: older => notedTimer older

end Lightway
