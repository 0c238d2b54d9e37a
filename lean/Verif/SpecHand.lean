import Verif.SpecErrors
/-!
# Vocabulary of C92: the accounts handed to other programs

The positions are those documented in `/repo/program/src/instruction.rs` 12-798 (and in the IDL). Nothing here mentions a handler.
-/

namespace Verif

/-- The positions of the accounts that an instruction which settles rewards hands to the token program and the rewards program
(staking, unstaking, slashing), or to the stake view program. -/
def StakeInstruction.handed : StakeInstruction → List Nat
  -- pool, pool token account, source token account and its authority, mint, vault authority, vault, record, token program
  | .validatorStakeTokens _ | .solStakerStakeTokens _ => [1, 2, 5, 6, 7, 8, 9, 10, 11]
  -- pool, pool token account, vault, vault authority, record, mint, destination token account, token program
  | .unstakeTokens _ => [1, 2, 5, 6, 7, 8, 9, 10]
  -- vault, vault authority, mint
  | .slashValidatorStake _ => [4, 6, 7]
  | .slashSolStakerStake _ => [4, 5, 7]
  -- native stake, stake history
  | .harvestSolStakerRewards => [5, 10]
  | _ => []

/-- The instruction hands the account `k` to another program. -/
def Ix.hands (ix : Ix) (k : Key) : Prop := ∃ i p, ix.decoded = some i ∧ p ∈ i.handed ∧ ix.acct p = some k

/-- The call takes place: a slash calls the token program only if there is something to burn. -/
def Ix.reaches (ix : Ix) (w : World) : Prop :=
  match ix.decoded with
  | some (.slashValidatorStake _) | some (.slashSolStakerStake _) => ∃ k d, ix.passes .stake k ∧ stakeAt w k = some d ∧ 0 < d.staked
  | _ => True

end Verif
