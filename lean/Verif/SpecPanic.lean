import Verif.Contract
/-!
# Vocabulary of the statements about panics
-/

namespace Verif

/-- The called programs report their failures as errors; a failure of theirs is not a panic of the stake program. -/
structure Oracle.Plain (o : Oracle) : Prop where
  view : ∀ k, o.view k ≠ .error .panic
  harvestRewards : ∀ w c, o.harvestRewards w c ≠ .error .panic
  deposit : ∀ w c, o.deposit w c ≠ .error .panic
  withdraw : ∀ w c, o.withdraw w c ≠ .error .panic

/-- The config `ck` does not hold what the stake accounts in the list would be paid now plus its rent minimum. -/
def Unfunded (env : Env) (w : World) (ck : Key) (l : List Key) : Prop :=
  (w ck).lamports < (l.map (accrued env w ck)).sum + env.rentMin configLen

end Verif
