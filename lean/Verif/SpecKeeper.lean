import Verif.Contract
/-!
# Vocabulary of C90: while a native stake does not change

Nothing here mentions a handler.
-/

namespace Verif

/-- Any number of steps of the chain during which the stake view program, whenever it is asked, reports `v` for the native stake
`n`. -/
inductive Unmoved (env : Env) (n : Key) (v : StakeView) : World → World → Prop
  | refl {w} : Unmoved env n v w w
  | ext {w w1 w2} : Unmoved env n v w w1 → ExtStep w1 w2 → Unmoved env n v w w2
  | exec {w w1 w2 o ix} : Unmoved env n v w w1 → o.Ok → o.view n = .ok v → exec env o w1 ix = .ok w2 → Unmoved env n v w w2

end Verif
