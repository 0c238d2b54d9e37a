import Verif.Contract
import Verif.SpecLive
/-!
# Vocabulary of the footprint statements

Which accounts an instruction may change, by position in its account list. Nothing here mentions a handler.
-/

namespace Verif

/-- The positions of the accounts an instruction may change. The positions are those of
`/repo/program/src/instruction.rs` 12-798. -/
def footprint : StakeInstruction → List Nat
  | .initializeConfig .. => [0, 2]                                    -- config, vault authority
  | .initializeValidatorStake => [2]                                  -- validator stake
  | .initializeSolStakerStake => [2, 4]                               -- SOL staker stake, validator stake
  | .validatorStakeTokens _ | .solStakerStakeTokens _ =>
    [0, 3, 4, 5, 9, 1, 2, 8, 10]   -- config, stake, stake authority, source, vault; pool, its tokens, vault authority, record
  | .unstakeTokens _ => [0, 3, 4, 5, 9, 1, 2, 6, 7]                   -- the same with the destination instead of the source
  | .harvestHolderRewards => [0, 5, 1, 2, 4]                          -- config, vault authority; pool, its tokens, record
  | .harvestValidatorRewards => [0, 2, 3]                             -- config, stake, stake authority
  | .harvestSolStakerRewards => [1, 3, 4, 6, 7, 8, 9, 11]
    -- config, stake, its authority, previous and current validator stake with their authorities, keeper
  | .slashValidatorStake _ => [0, 1, 2, 4, 7]                         -- config, stake, stake authority, vault, mint
  | .slashSolStakerStake _ => [0, 1, 2, 5, 4]                         -- the same
  | .setAuthority _ | .updateConfig _ => [0]                          -- config
  | .solStakerMoveTokens _ => [0, 2, 3, 4]                            -- config, authority, source, destination
  | .validatorOverrideStakedLamports _ => [0, 2, 3]                   -- config, stake, stake authority
  | .validatorSyncAuthority => [1]                                    -- stake

/-- The rewards program changes nothing but the accounts it is called with (the runtime sees to that). -/
structure Oracle.Local (o : Oracle) : Prop where
  harvestRewards : ∀ {w c w'}, o.harvestRewards w c = .ok w' → ∀ k, k ∉ c.accounts → w' k = w k
  deposit : ∀ {w c w'}, o.deposit w c = .ok w' → ∀ k, k ∉ c.accounts → w' k = w k
  withdraw : ∀ {w c w'}, o.withdraw w c = .ok w' → ∀ k, k ∉ c.accounts → w' k = w k

end Verif
