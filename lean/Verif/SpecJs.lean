import Verif.SpecBuild
import Verif.Model.Js
import Verif.Model.Layout
/-!
# Vocabulary of the statements about the JavaScript client
-/

namespace Verif.Client

open Verif

/-- The accounts that must consent to an instruction, by name. -/
def Kind.signing : Kind → List Field
  | .validatorStakeTokens => [.sourceTokenAccountAuthority]
  | .solStakerStakeTokens => [.sourceTokenAccountAuthority]
  | .unstakeTokens => [.stakeAuthority]
  | .slashValidatorStake => [.slashAuthority]
  | .slashSolStakerStake => [.slashAuthority]
  | .setAuthority => [.authority]
  | .updateConfig => [.configAuthority]
  | .solStakerMoveTokens => [.solStakerAuthority]
  | .validatorOverrideStakedLamports => [.configAuthority]
  | _ => []

/-- The first byte of the instruction's data. -/
def Kind.number : Kind → UInt8
  | .initializeConfig => 0
  | .initializeValidatorStake => 1
  | .validatorStakeTokens => 2
  | .harvestHolderRewards => 3
  | .harvestValidatorRewards => 4
  | .slashValidatorStake => 5
  | .setAuthority => 6
  | .updateConfig => 7
  | .initializeSolStakerStake => 8
  | .solStakerStakeTokens => 9
  | .harvestSolStakerRewards => 10
  | .unstakeTokens => 11
  | .slashSolStakerStake => 12
  | .solStakerMoveTokens => 13
  | .validatorOverrideStakedLamports => 14
  | .validatorSyncAuthority => 15

namespace Js

/-- The address of an account given as an address or as a signer. -/
def Value.key : Value → Key
  | .address k | .signer k => k

/-- The account was given as a signer. -/
def Value.signs : Value → Prop
  | .address _ => False
  | .signer _ => True

/-- The JavaScript value stands for this value. -/
def Means : (a : Arg) → a.JsVal → a.Val → Prop
  | .slashAuthority, v, x | .configAuthority, v, x | .dunaDocumentHash, v, x => (show List UInt8 from v) = x
  | .cooldownTimeSeconds, v, x | .maxDeactivationBasisPoints, v, x | .syncRewardsLamports, v, x | .amount, v, x
  | .amountMin, v, x => (show Int from v) = ((show Nat from x : Nat) : Int)
  | .authorityType, v, x => ((show Int from v) = 0 ∧ x = AuthorityType.config) ∨ ((show Int from v) = 1 ∧ x = AuthorityType.slash)
  | .configField, .cooldownTimeSeconds v, x => ∃ n : Nat, v = n ∧ x = ConfigField.cooldownTimeSeconds n
  | .configField, .maxDeactivationBasisPoints v, x => ∃ n : Nat, v = n ∧ x = ConfigField.maxDeactivationBasisPoints n
  | .configField, .syncRewardsLamports v, x => ∃ n : Nat, v = n ∧ x = ConfigField.syncRewardsLamports n

/-- The encoder takes the value without throwing: addresses have 32 bytes, numbers fit, and an authority type is one of the two;
a hash may have any length. -/
def Accepts : (a : Arg) → a.JsVal → Prop
  | .slashAuthority, v | .configAuthority, v => (show List UInt8 from v).length = 32
  | .dunaDocumentHash, _ => True
  | .maxDeactivationBasisPoints, v => 0 ≤ (show Int from v) ∧ (show Int from v) < 2 ^ 16
  | .cooldownTimeSeconds, v | .syncRewardsLamports, v | .amount, v | .amountMin, v =>
    0 ≤ (show Int from v) ∧ (show Int from v) < 2 ^ 64
  | .authorityType, v => (show Int from v) = 0 ∨ (show Int from v) = 1
  | .configField, .cooldownTimeSeconds v | .configField, .syncRewardsLamports v => 0 ≤ v ∧ v < 2 ^ 64
  | .configField, .maxDeactivationBasisPoints v => 0 ≤ v ∧ v < 2 ^ 16

/-! ## Accounts -/

/-- A byte as a JavaScript number. -/
def jsByte (x : UInt8) : Int := x.toNat

/-- What the decoder returned, as the encoder takes it. -/
def Delegation.asArgs (d : Delegation) : DelegationArgs :=
  { stakedAmount := d.stakedAmount, effectiveAmount := d.effectiveAmount, unstakeCooldown := d.unstakeCooldown
    authority := d.authority, validatorVote := d.validatorVote
    lastSeenHolderRewardsPerToken := d.lastSeenHolderRewardsPerToken
    lastSeenStakeRewardsPerToken := d.lastSeenStakeRewardsPerToken }

/-- What the decoder returned, as the encoder takes it. -/
def Config.asArgs (r : Config) : ConfigArgs :=
  { discriminator := r.discriminator.map jsByte, authority := r.authority, slashAuthority := r.slashAuthority
    vault := r.vault, cooldownTimeSeconds := r.cooldownTimeSeconds, tokenAmountEffective := r.tokenAmountEffective
    syncRewardsLamports := r.syncRewardsLamports, lamportsLast := r.lamportsLast, dunaDocumentHash := r.dunaDocumentHash
    accumulatedStakeRewardsPerToken := r.accumulatedStakeRewardsPerToken
    maxDeactivationBasisPoints := r.maxDeactivationBasisPoints, vaultAuthorityBump := r.vaultAuthorityBump
    padding := r.padding.map jsByte }

/-- What the decoder returned, as the encoder takes it. -/
def ValidatorStake.asArgs (r : ValidatorStake) : ValidatorStakeArgs :=
  { discriminator := r.discriminator.map jsByte, delegation := r.delegation.asArgs
    totalStakedLamportsAmount := r.totalStakedLamportsAmount
    totalStakedLamportsAmountMin := r.totalStakedLamportsAmountMin }

/-- What the decoder returned, as the encoder takes it. -/
def SolStakerStake.asArgs (r : SolStakerStake) : SolStakerStakeArgs :=
  { discriminator := r.discriminator.map jsByte, delegation := r.delegation.asArgs, lamportsAmount := r.lamportsAmount
    solStake := r.solStake }

/-- An authority on chain, as the client shows it: the address of 32 zero bytes means there is none. -/
def shown (k : List UInt8) : Option (List UInt8) := if k = List.replicate 32 0 then none else some k

/-- The delegation the program stores, as this client shows it. -/
def showDelegation (d : Layout.RawDelegation) : Delegation :=
  { stakedAmount := d.staked, effectiveAmount := d.effective, unstakeCooldown := d.cooldown, authority := d.authority
    validatorVote := d.vote, lastSeenHolderRewardsPerToken := d.lastHolder, lastSeenStakeRewardsPerToken := d.lastStake }

/-- The config the program stores, as this client shows it. -/
def showConfig (r : Layout.RawConfig) : Config :=
  { discriminator := Layout.configDisc, authority := shown r.authority, slashAuthority := shown r.slashAuthority
    vault := r.vault, cooldownTimeSeconds := r.cooldownTime, tokenAmountEffective := r.effTotal
    syncRewardsLamports := r.syncRewards, lamportsLast := r.lamportsLast, dunaDocumentHash := r.dunaHash
    accumulatedStakeRewardsPerToken := r.acc, maxDeactivationBasisPoints := r.maxBps, vaultAuthorityBump := r.bump
    padding := r.padding }

/-- The validator stake the program stores, as this client shows it. -/
def showValidatorStake (r : Layout.RawValidator) : ValidatorStake :=
  { discriminator := Layout.validatorDisc, delegation := showDelegation r.del, totalStakedLamportsAmount := r.total
    totalStakedLamportsAmountMin := r.min }

/-- The SOL staker stake the program stores, as this client shows it. -/
def showSolStakerStake (r : Layout.RawSolStaker) : SolStakerStake :=
  { discriminator := Layout.solStakerDisc, delegation := showDelegation r.del, lamportsAmount := r.lamports
    solStake := r.solStake }

end Js
end Verif.Client
