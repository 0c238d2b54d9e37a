import Verif.SpecOrphan
import Verif.SpecSettles
/-!
# Vocabulary of C108: histories that keep count of stranded lamports
-/

namespace Verif

open Verif.Props

/-- Any history in which the rewards program keeps its contract, with the totals of `SlashHistory` and the lamports `z` that were counted
while config `ck` had no effective stake. -/
inductive IdleHistory (env : Env) (ck : Key) : World → (s n u x z : Nat) → Prop
  | genesis {w} : Genesis w → IdleHistory env ck w 0 0 0 0 0
  | ext {w w' s n u x z} : IdleHistory env ck w s n u x z → ExtStep w w' → KeepsRecord env ck w w' →
      IdleHistory env ck w' s (n + payout env ck w w') u (x + growth (holderAcc env ck w) (holderAcc env ck w') * s) z
  | exec {w w' o ix s n u x z} : IdleHistory env ck w s n u x z → o.Ok → RewardsContract o → exec env o w ix = .ok w' →
      IdleHistory env ck w' (s + slashedBy w ck ix) (n + payout env ck w w') (u + overCredit env ck w ix w')
        (x + growth (holderAcc env ck w) (holderAcc env ck w') * s) (z + stranded ck w ix)

end Verif
