import Verif.SpecOrder
/-!
# Vocabulary of C89: how many accounts an instruction takes

Nothing here mentions a handler.
-/

namespace Verif

/-- How many accounts an instruction takes: the length of its account list in `/repo/program/src/instruction.rs` 12-798. The optional
keeper of `HarvestSolStakerRewards` counts: its place must be filled (with the program's id if there is no keeper). -/
def accountCount : StakeInstruction → Nat
  | .initializeConfig .. => 7
  | .initializeValidatorStake => 5
  | .validatorStakeTokens _ => 13
  | .harvestHolderRewards => 10
  | .harvestValidatorRewards => 4
  | .slashValidatorStake _ => 9
  | .setAuthority _ => 3
  | .updateConfig _ => 2
  | .initializeSolStakerStake => 9
  | .solStakerStakeTokens _ => 13
  | .harvestSolStakerRewards => 12
  | .unstakeTokens _ => 12
  | .slashSolStakerStake _ => 9
  | .solStakerMoveTokens _ => 5
  | .validatorOverrideStakedLamports _ => 5
  | .validatorSyncAuthority => 3

/-- Two requests give the same rights to the accounts `ks`. -/
def SameRights (ks : List Key) (c c' : Ctx) : Prop :=
  ∀ k ∈ ks, c.signer k = c'.signer k ∧ c.writable k = c'.writable k

end Verif
