import Verif.Spec
/-!
# Vocabulary of C122
-/

namespace Verif

/-- A stretch of history in which `k` signs no instruction of the program. What else happens on the chain is not restricted. -/
inductive Unsigned (env : Env) (k : Key) (start : World) : World → Prop
  | start : Unsigned env k start start
  | ext {w w' : World} : Unsigned env k start w → ExtStep w w' → Unsigned env k start w'
  | exec {w w' : World} {o : Oracle} {ix : Ix} : Unsigned env k start w → o.Ok → ix.ctx.signer k = false →
      exec env o w ix = .ok w' → Unsigned env k start w'

end Verif
