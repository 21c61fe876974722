import Verif.Model.Null

/-!
# NULL arguments: what the public header promises

Every pointer argument of a call, in the order of the parameter list: is it a real pointer?
-/

namespace Lightway.Spec

/-- The pointer arguments of a call on a connection besides the connection (plugin chains may be NULL, include/he.h). -/
def pointers : CallN → List Bool
  | .clientConnect ctx _ _ | .serverConnect ctx _ _ => [ctx.isSome]
  | .insidePacket p | .outsideData p _ | .sendServerConfig p | .setUsername p | .setPassword p | .setAuthToken p
  | .setAuthBuffer p | .setSni p => [p.isSome]
  | .setContext p => [p.isSome]
  | .disconnect | .nudge | .keepalive | .scheduleReneg | .rotateSession | .startPmtud | .pmtudTimeout | .setOutsideMtu _
  | .setProtocolVersion _ _ | .setSessionId _ => []

/-- Some pointer of the call is NULL. -/
def NullArg (h : Option HostConn) (call : CallN) : Prop := h.isSome = false ∨ false ∈ pointers call

/-- The pointer arguments of a call on a context besides the context. -/
def ctxPointers : CtxCallN → List Bool
  | .setServerDn s => [s.isSome]
  | .setCa b _ => [b.isSome]
  | .setCertKey c k => [c.isSome, k.isSome]
  | _ => []

/-- The context pointers a host has successfully set, newest first. -/
def contexts : List CallN → List Ptr
  | [] => []
  | .setContext (some p) :: calls => contexts calls ++ [p]
  | _ :: calls => contexts calls

/-- The calls of a history that had no NULL argument and are calls on the library's state, in order. -/
def realOps : List CallN → List Op
  | [] => []
  | call :: calls =>
    (match call with
      | .clientConnect (some ctx) i o => [Op.clientConnect ctx i o]
      | .serverConnect (some ctx) i o => [.serverConnect ctx i o]
      | .disconnect => [.disconnect]
      | .insidePacket (some p) => [.insidePacket p]
      | .outsideData (some p) r => [.outsideData p r]
      | .nudge => [.nudge]
      | .keepalive => [.keepalive]
      | .sendServerConfig (some b) => [.sendServerConfig b]
      | .scheduleReneg => [.scheduleReneg]
      | .rotateSession => [.rotateSession]
      | .startPmtud => [.startPmtud]
      | .pmtudTimeout => [.pmtudTimeout]
      | .setUsername (some s) => [.setUsername s]
      | .setPassword (some s) => [.setPassword s]
      | .setAuthToken (some s) => [.setAuthToken s]
      | .setAuthBuffer (some s) => [.setAuthBuffer s]
      | .setOutsideMtu m => [.setOutsideMtu m]
      | .setProtocolVersion a b => [.setProtocolVersion a b]
      | .setSessionId s => [.setSessionId s]
      | .setSni (some s) => [.setSni s]
      | _ => []) ++ realOps calls

/-- The calls of a context's history that had no NULL argument, in order (stopping it does nothing). -/
def realCtxOps : List CtxHostCall → List CtxOp
  | [] => []
  | .register k p :: calls => .setCb k p :: realCtxOps calls
  | .call c :: calls =>
    (match c with
      | .setMinVersion a b => [CtxOp.setMinVersion a b]
      | .setMaxVersion a b => [.setMaxVersion a b]
      | .setServerDn (some s) => [.setServerDn s]
      | .setUseChacha b => [.setUseChacha b]
      | .setCa (some buf) len => [.setCa buf len]
      | .setCertKey (some cert) (some key) => [.setCertKey cert key]
      | .setConnType n => [.setConnType n]
      | .disableRoaming => [.disableRoaming]
      | .setPadding p => [.setPadding p]
      | .aggressive => [.aggressive]
      | .setUsePqc b => [.setUsePqc b]
      | .setMaxFrag n => [.setMaxFrag n]
      | .start => [.start]
      | .startServer => [.startServer]
      | _ => []) ++ realCtxOps calls

/-- The numbers of the padding types. include/he.h:245-251 -/
def paddingNumber : Padding → Int
  | .none => 0
  | .full => 1
  | .pad450 => 2

end Lightway.Spec
