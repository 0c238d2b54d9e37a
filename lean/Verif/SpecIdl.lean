import Verif.SpecBuild
import Verif.Model.Idl
import Verif.Model.Layout
/-!
# Vocabulary of C88: what is given to a tool driven by the IDL, and what it is expected to return
-/

namespace Verif.Idl

open Verif Verif.Client Verif.Layout

/-- A struct value from the values of its fields. -/
def record : List Value → Value
  | [] => .unit
  | v :: vs => .pair v (record vs)

/-- The enum value for an authority type. -/
def authorityTypeValue : Client.AuthorityType → Value
  | .config => .here .unit
  | .slash => .there (.here .unit)

/-- The enum value for a config field. -/
def configFieldValue : Client.ConfigField → Value
  | .cooldownTimeSeconds v => .here (record [.num v])
  | .maxDeactivationBasisPoints v => .there (.here (record [.num v]))
  | .syncRewardsLamports v => .there (.there (.here (record [.num v])))

/-- The arguments of a call, by name. -/
def arguments : Call → List (String × Value)
  | .initializeConfig _ x =>
    [("slashAuthority", .bytes x.slashAuthority), ("configAuthority", .bytes x.configAuthority),
      ("cooldownTimeSeconds", .num x.cooldownTimeSeconds),
      ("maxDeactivationBasisPoints", .num x.maxDeactivationBasisPoints),
      ("syncRewardsLamports", .num x.syncRewardsLamports), ("dunaDocumentHash", .bytes x.dunaDocumentHash)]
  | .validatorStakeTokens _ n | .solStakerStakeTokens _ n | .unstakeTokens _ n | .slashValidatorStake _ n
  | .slashSolStakerStake _ n | .solStakerMoveTokens _ n => [("amount", .num n)]
  | .validatorOverrideStakedLamports _ n => [("amountMin", .num n)]
  | .setAuthority _ t => [("authorityType", authorityTypeValue t)]
  | .updateConfig _ f => [("configField", configFieldValue f)]
  | _ => []

/-- The fields of a delegation. -/
def delegationValue (d : RawDelegation) : Value :=
  record [.num d.staked, .num d.effective, .num d.cooldown, .bytes d.authority, .bytes d.vote, .num d.lastHolder,
    .num d.lastStake]

/-- The fields of a config. -/
def configValue (r : RawConfig) : Value :=
  record [.bytes configDisc, .bytes r.authority, .bytes r.slashAuthority, .bytes r.vault, .num r.cooldownTime,
    .num r.effTotal, .num r.syncRewards, .num r.lamportsLast, .bytes r.dunaHash, .num r.acc, .num r.maxBps, .num r.bump,
    .bytes r.padding]

/-- The fields of a validator stake. -/
def validatorValue (r : RawValidator) : Value :=
  record [.bytes validatorDisc, delegationValue r.del, .num r.total, .num r.min]

/-- The fields of a SOL staker stake. -/
def solStakerValue (r : RawSolStaker) : Value :=
  record [.bytes solStakerDisc, delegationValue r.del, .num r.lamports, .bytes r.solStake]

end Verif.Idl
