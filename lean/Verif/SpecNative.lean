import Verif.SpecSplit
/-!
# Vocabulary of C114: the native stake that is there

Nothing here mentions a handler.
-/

namespace Verif

/-- The effective native stake that the stake view program reports for an account; none if it reports an error. -/
def liveStake (o : Oracle) (native : Key) : Nat :=
  match o.view native with
  | .ok v => v.effective
  | .error _ => 0

/-- The recorded native stake of a SOL staker account is still there. -/
def UpToDate (o : Oracle) (s : SolStakerStake) : Prop := s.lamports ≤ liveStake o s.solStake

/-- A history of the chain during which all native stake together always is `n`, although it may move between accounts. -/
inductive SteadyStake (env : Env) (n : Nat) : World → Prop
  | genesis {w} : Genesis w → SteadyStake env n w
  | ext {w w'} : SteadyStake env n w → ExtStep w w' → SteadyStake env n w'
  | exec {w w' o ix} : SteadyStake env n w → o.Ok → TotalIs (liveStake o) n → exec env o w ix = .ok w' → SteadyStake env n w'

end Verif
