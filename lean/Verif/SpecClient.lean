import Verif.SpecFoot
import Verif.Model.Client
/-!
# Vocabulary of the client statements

What a call of the client is supposed to do, in terms of the program's instructions and handlers.
-/

namespace Verif.Client

open Verif

/-- The Rust types of the arguments: 32-byte keys and hash, 64-bit and 16-bit integers; the keeper, if given, is not the
program itself. -/
def Call.Typed : Call → Prop
  | .initializeConfig _ x =>
    x.slashAuthority.length = 32 ∧ x.configAuthority.length = 32 ∧ x.cooldownTimeSeconds < 2 ^ 64 ∧
      x.maxDeactivationBasisPoints < 2 ^ 16 ∧ x.syncRewardsLamports < 2 ^ 64 ∧ x.dunaDocumentHash.length = 32
  | .validatorStakeTokens _ n | .solStakerStakeTokens _ n | .unstakeTokens _ n | .slashValidatorStake _ n
  | .slashSolStakerStake _ n | .solStakerMoveTokens _ n | .validatorOverrideStakedLamports _ n => n < 2 ^ 64
  | .updateConfig _ (.cooldownTimeSeconds v) | .updateConfig _ (.syncRewardsLamports v) => v < 2 ^ 64
  | .updateConfig _ (.maxDeactivationBasisPoints v) => v < 2 ^ 16
  | .harvestSolStakerRewards a => a.keeperRecipient ≠ some progId
  | _ => True

def AuthorityType.meaning : AuthorityType → Verif.AuthorityType
  | .config => .config
  | .slash => .slash

def ConfigField.meaning : ConfigField → Verif.ConfigField
  | .cooldownTimeSeconds v => .cooldownTimeSeconds v
  | .maxDeactivationBasisPoints v => .maxDeactivationBasisPoints v
  | .syncRewardsLamports v => .syncRewardsLamports v

/-- The instruction of the program a call stands for. -/
def Call.meaning : Call → StakeInstruction
  | .initializeConfig _ x =>
    .initializeConfig x.slashAuthority x.configAuthority x.cooldownTimeSeconds x.maxDeactivationBasisPoints
      x.syncRewardsLamports x.dunaDocumentHash
  | .initializeValidatorStake _ => .initializeValidatorStake
  | .initializeSolStakerStake _ => .initializeSolStakerStake
  | .validatorStakeTokens _ n => .validatorStakeTokens n
  | .solStakerStakeTokens _ n => .solStakerStakeTokens n
  | .unstakeTokens _ n => .unstakeTokens n
  | .harvestHolderRewards _ => .harvestHolderRewards
  | .harvestValidatorRewards _ => .harvestValidatorRewards
  | .harvestSolStakerRewards _ => .harvestSolStakerRewards
  | .slashValidatorStake _ n => .slashValidatorStake n
  | .slashSolStakerStake _ n => .slashSolStakerStake n
  | .setAuthority _ t => .setAuthority t.meaning
  | .updateConfig _ f => .updateConfig f.meaning
  | .solStakerMoveTokens _ n => .solStakerMoveTokens n
  | .validatorOverrideStakedLamports _ n => .validatorOverrideStakedLamports n
  | .validatorSyncAuthority _ => .validatorSyncAuthority

/-- The handler a call is meant for, run on the accounts as they are named in the call. -/
def Call.run (env : Env) (o : Oracle) (ctx : Ctx) (w : World) : Call → Res World
  | .initializeConfig a x =>
    Verif.initializeConfig env ctx w a
      { slashAuthority := env.keyOfBytes x.slashAuthority, configAuthority := env.keyOfBytes x.configAuthority
        cooldownTime := x.cooldownTimeSeconds, maxBps := x.maxDeactivationBasisPoints
        syncRewards := x.syncRewardsLamports, dunaHash := x.dunaDocumentHash }
  | .initializeValidatorStake a => Verif.initializeValidatorStake env ctx w a
  | .initializeSolStakerStake a => Verif.initializeSolStakerStake env o ctx w a
  | .validatorStakeTokens a n => Verif.validatorStakeTokens env o ctx w a n
  | .solStakerStakeTokens a n => Verif.solStakerStakeTokens env o ctx w a n
  | .unstakeTokens a n => Verif.unstakeTokens env o ctx w a n
  | .harvestHolderRewards a => Verif.harvestHolderRewards env o w a
  | .harvestValidatorRewards a => Verif.harvestValidatorRewards env w a
  | .harvestSolStakerRewards a => Verif.harvestSolStakerRewards env o w a
  | .slashValidatorStake a n => Verif.slashValidatorStake env ctx w a n
  | .slashSolStakerStake a n => Verif.slashSolStakerStake env ctx w a n
  | .setAuthority a t => Verif.setAuthority ctx w a t.meaning
  | .updateConfig a f => Verif.updateConfig ctx w a f.meaning
  | .solStakerMoveTokens a n => Verif.solStakerMoveTokens env ctx w a n
  | .validatorOverrideStakedLamports a n => Verif.validatorOverrideStakedLamports env ctx w a n
  | .validatorSyncAuthority a => Verif.validatorSyncAuthority w a

/-- The accounts whose signature a call asks for, besides the fee payer's. -/
def Call.signers : Call → List Key
  | .validatorStakeTokens a _ | .solStakerStakeTokens a _ => [a.sourceTokenAccountAuthority]
  | .unstakeTokens a _ => [a.stakeAuthority]
  | .slashValidatorStake a _ | .slashSolStakerStake a _ => [a.slashAuthority]
  | .setAuthority a _ => [a.authority]
  | .updateConfig a _ => [a.configAuthority]
  | .solStakerMoveTokens a _ => [a.solStakerAuthority]
  | .validatorOverrideStakedLamports a _ => [a.configAuthority]
  | _ => []

/-- Accounts that a call passes read-only although the instruction may change them: the validator's authority in
`ValidatorStakeTokens`, the staker's authority in `SolStakerMoveTokens`, and the pool's token account in
`HarvestHolderRewards` (if the rewards program changes it). -/
def Call.unflagged : Call → List Key
  | .validatorStakeTokens a _ => [a.stakeAuthority]
  | .solStakerMoveTokens a _ => [a.solStakerAuthority]
  | .harvestHolderRewards a => [a.holderRewardsPoolTokenAccount]
  | _ => []

/-- The same instruction with every account signing and writable. -/
def _root_.Verif.Ix.unrestricted (ix : Ix) : Ix :=
  { ix with ctx := { ix.ctx with signer := fun _ => true, writable := fun _ => true } }

end Verif.Client
