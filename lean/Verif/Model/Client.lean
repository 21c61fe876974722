import Verif.Model.Api

/-!
# src/he/client.c
-/

namespace Lightway

/-- `he_client_t`. include/he.h:322-330 -/
structure Client where
  ctx : SslCtx
  conn : Conn
  inside : Chain
  outside : Chain

/-- `he_client_create` with every allocation successful. src/he/client.c:28-44 -/
def Client.create : Client :=
  { ctx := SslCtx.create, conn := Conn.create, inside := Chain.create, outside := Chain.create }

/-- The allocations of `he_client_create` in order; `none` is the NULL result, in which case
everything allocated so far was destroyed. src/he/client.c:28-44 -/
def Client.tryCreate (alloc : Nat → Bool) : Option Client :=
  if !alloc 0 then none
  else if alloc 1 && alloc 2 && alloc 3 && alloc 4 then some Client.create else none

/-- `he_client_connect`. src/he/client.c:59-83 -/
def Client.connect (env : Env) (cl : Client) (r : StartRes) : Client × RC :=
  let (ctx, rc) := ctxStart cl.ctx r
  let cl := { cl with ctx := ctx }
  if rc ≠ .success then (cl, rc)
  else
    let (conn, rc) := step env cl.conn (.clientConnect ctx cl.inside cl.outside)
    ({ cl with conn := conn }, rc)

/-- `he_client_disconnect`; `he_ssl_ctx_stop` always succeeds. src/he/client.c:85-96,
src/he/ssl_ctx.c:311-314 -/
def Client.disconnect (env : Env) (cl : Client) : Client × RC :=
  let (conn, rc) := step env cl.conn .disconnect
  ({ cl with conn := conn }, rc)

/-- `he_client_is_config_valid`. src/he/client.c:98-110 -/
def Client.isConfigValid (cl : Client) : RC :=
  if ctxValidClient cl.ctx ≠ .success then ctxValidClient cl.ctx
  else isValidClient cl.ctx cl.conn

end Lightway
