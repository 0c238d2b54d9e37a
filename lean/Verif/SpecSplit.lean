import Verif.Contract
/-!
# Vocabulary of C91: amounts held by several accounts together

Nothing here mentions a handler.
-/

namespace Verif

/-- Native lamports recorded for the SOL staker account `s` of config `c`. -/
def lamportsIn (w : World) (c s : Key) : Nat :=
  if belongs s c then ((solStakerAt w s).map (·.lamports)).getD 0 else 0

/-- The minimum that the config authority has set for the validator account `s` of config `c`. -/
def minimumIn (w : World) (c s : Key) : Nat :=
  if belongs s c then ((validatorAt w s).map (·.min)).getD 0 else 0

end Verif
