import Verif.SpecCalls
import Verif.SpecClient
/-!
# Vocabulary of C115: what the runtime demands of a call

A program may call another only if the called program is among the accounts of the instruction, and so is every account handed on. An
account that the called program wants to write must be writable in the instruction, and one whose signature it wants must have signed
or be signed for by the caller.
-/

namespace Verif

/-- The accounts that the called program wants to write: for the system program and spl-token as their instruction constructors say
(`system_instruction::assign`, `allocate`, `spl_token::instruction::transfer_checked`, `burn_checked`, external). For the rewards program
(external) the most it can be given: everything that `Deposit` and `Withdraw` receive but the mint; the pool, the holder
rewards and the owner for `HarvestRewards`. -/
def Op.writes : Op → List Key
  | .assign k => [k]
  | .allocate k _ => [k]
  | .transfer source _ dest _ _ _ => [source, dest]
  | .burn account mint _ _ _ => [account, mint]
  | .deposit c => [c.pool, c.poolToken, c.holderRewards, c.owner, c.token]
  | .withdraw c => [c.pool, c.poolToken, c.holderRewards, c.owner, c.token]
  | .harvestRewards c => [c.pool, c.holderRewards, c.owner]
  | .view _ _ => []

/-- The runtime lets the call through. -/
structure Made.Permitted (m : Made) (ctx : Ctx) : Prop where
  /-- the called program is among the accounts -/
  program : m.program ∈ ctx.accts
  accounts : ∀ k ∈ m.op.accounts, k ∈ ctx.accts
  writable : ∀ k ∈ m.op.writes, ctx.writable k = true
  signed : m.signed ctx = true

namespace Client

/-- The accounts called "system program", "token program" and "rewards program" are these programs. -/
def Call.Standard : Call → Prop
  | .initializeConfig a _ => a.systemProgram = systemId
  | .initializeValidatorStake a => a.systemProgram = systemId
  | .initializeSolStakerStake a => a.systemProgram = systemId
  | .validatorStakeTokens a _ | .solStakerStakeTokens a _ => a.tokenProgram = tokenId ∧ a.rewardsProgram = rewardsId
  | .unstakeTokens a _ => a.tokenProgram = tokenId ∧ a.rewardsProgram = rewardsId
  | .harvestHolderRewards a => a.paladinRewardsProgram = rewardsId
  | _ => True

end Client

end Verif
