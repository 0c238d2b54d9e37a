import Verif.Contract
/-!
# Vocabulary of C94: rewards credited without cover
-/

namespace Verif

/-- An amount in units of 1e-18 lamports, rounded up to lamports. -/
def lamportsUp (x : Nat) : Nat := (x + 999999999999999999) / 1000000000000000000

/-- Lamports (rounded up) that an instruction credits to stakers without anybody having paid them:

* a stake of `n` tokens credits these tokens with the rise of the vault's holder rewards during the instruction, although they were not
  deposited before it;
* a HarvestSolStakerRewards may leave behind a stake reward for the account that it has just settled, computed with its new
  effective stake. -/
def overCredit (env : Env) (ck : Key) (w : World) (ix : Ix) (w' : World) : Nat :=
  if ix.config = some ck then
    match ix.decoded with
    | some (.validatorStakeTokens n) => lamportsUp (growth (holderAcc env ck w) (holderAcc env ck w') * n)
    | some (.solStakerStakeTokens n) => lamportsUp (growth (holderAcc env ck w) (holderAcc env ck w') * n)
    | some .harvestSolStakerRewards =>
      match configAt w' ck, (ix.acct 3).bind (stakeAt w') with
      | some c, some d => lamportsUp (growth d.lastStake c.acc * d.effective)
      | _, _ => 0
    | _ => 0
  else 0

/-- Any history in which the rewards program keeps its contract, with the number `n` of payouts of holder rewards to the vault authority of
config `ck` and the lamports `u` credited without cover. -/
inductive ClaimHistory (env : Env) (ck : Key) : World → Nat → Nat → Prop
  | genesis {w} : Genesis w → ClaimHistory env ck w 0 0
  | ext {w w' n u} : ClaimHistory env ck w n u → ExtStep w w' → KeepsRecord env ck w w' →
      ClaimHistory env ck w' (n + payout env ck w w') u
  | exec {w w' o ix n u} : ClaimHistory env ck w n u → o.Ok → RewardsContract o → exec env o w ix = .ok w' →
      ClaimHistory env ck w' (n + payout env ck w w') (u + overCredit env ck w ix w')

end Verif
