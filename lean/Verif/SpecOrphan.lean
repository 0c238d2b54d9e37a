import Verif.SpecShortfall
import Verif.Props.History
/-!
# Vocabulary of C101: rewards earned by slashed tokens
-/

namespace Verif

open Verif.Props

/-- Any history in which the rewards program keeps its contract, with

* the tokens `s` of config `ck` that were slashed so far,
* the number `n` of payouts of holder rewards and the lamports `u` credited without cover, as in `ClaimHistory`,
* the holder rewards `x` that were paid for tokens after they had been slashed, in units of 1e-18 lamports: each time the accumulator of the
  vault's holder-rewards record rises, its rise for each token, times the tokens slashed until then. -/
inductive SlashHistory (env : Env) (ck : Key) : World → (s n u x : Nat) → Prop
  | genesis {w} : Genesis w → SlashHistory env ck w 0 0 0 0
  | ext {w w' s n u x} : SlashHistory env ck w s n u x → ExtStep w w' → KeepsRecord env ck w w' →
      SlashHistory env ck w' s (n + payout env ck w w') u (x + growth (holderAcc env ck w) (holderAcc env ck w') * s)
  | exec {w w' o ix s n u x} : SlashHistory env ck w s n u x → o.Ok → RewardsContract o → exec env o w ix = .ok w' →
      SlashHistory env ck w' (s + slashedBy w ck ix) (n + payout env ck w w') (u + overCredit env ck w ix w')
        (x + growth (holderAcc env ck w) (holderAcc env ck w') * s)

end Verif
