import Verif.SpecErrors
import Verif.SpecExtra
/-!
# Vocabulary of C104: what a standard error code says

Solana's own error codes (`ProgramError`), as opposed to those of the stake program (`Verif/SpecErrors.lean`). The roles and positions
are those of `Verif/SpecErrors.lean`. Nothing here mentions a handler.
-/

namespace Verif

/-- What an account can hold. -/
inductive Content where
  | config | validatorStake | solStakerStake | tokenAccount | mint | voteAccount | rewardsRecord

/-- The data is an initialised account of this kind. -/
def Content.initialised : Content → Data → Prop
  | .config, .config _ | .validatorStake, .validator _ | .solStakerStake, .solStaker _ | .tokenAccount, .token _
  | .mint, .mint _ | .voteAccount, .vote _ | .rewardsRecord, .holder _ => True
  | _, _ => False

/-- The data could be an account of this kind but is not initialised: for the accounts of the stake program it has the right length,
for token accounts and mints it is what the token program takes for an uninitialised one. -/
def Content.blank : Content → Data → Prop
  | .config, d => d.len = 192 ∧ ¬ Content.initialised .config d
  | .validatorStake, d => d.len = 144 ∧ ¬ Content.initialised .validatorStake d
  | .solStakerStake, d => d.len = 168 ∧ ¬ Content.initialised .solStakerStake d
  | .tokenAccount, d => d.blankToken = true
  | .mint, d => d.blankMint = true
  | _, _ => False

/-- The kinds of content that the instruction accepts in the account passed for a role; none if it does not read the account. -/
def StakeInstruction.reads (i : StakeInstruction) : Role → List Content
  | .config => match i with
    | .initializeConfig _ _ _ _ _ _ => []
    | _ => [.config]
  | .stake => match i with
    | .validatorStakeTokens _ | .harvestValidatorRewards | .slashValidatorStake _ | .validatorOverrideStakedLamports _ =>
      [.validatorStake]
    | .solStakerStakeTokens _ | .harvestSolStakerRewards | .slashSolStakerStake _ | .solStakerMoveTokens _ => [.solStakerStake]
    | .unstakeTokens _ => [.validatorStake, .solStakerStake]
    | _ => []
  | .destinationStake => [.solStakerStake]
  | .validator | .previousValidator | .currentValidator => [.validatorStake]
  | .vault => [.tokenAccount]
  | .mint => match i with
    | .harvestHolderRewards => []
    | _ => [.mint]
  | .vote => [.voteAccount]
  | .record => match i with
    | .initializeConfig _ _ _ _ _ _ | .harvestHolderRewards => []
    | _ => [.rewardsRecord]
  | _ => []

/-- The program that must own the account passed for a role. -/
def StakeInstruction.ownerOf (i : StakeInstruction) : Role → Option Key
  | .config | .destinationStake | .validator | .previousValidator => some progId
  | .stake => match i with
    | .initializeValidatorStake | .initializeSolStakerStake | .validatorSyncAuthority => none
    | _ => some progId
  | .vote => some voteId
  | .record => match i with
    | .harvestHolderRewards => some rewardsId
    | _ => none
  | _ => none

/-- The roles whose account must sign. -/
def StakeInstruction.signs (i : StakeInstruction) : Role → Bool
  | .configAuthority | .slashAuthority => true
  | .stakeAuthority => match i with
    | .unstakeTokens _ | .solStakerMoveTokens _ => true
    | _ => false
  | _ => false

/-- The account that the instruction initialises, with its length. -/
def StakeInstruction.creates : StakeInstruction → Option (Role × Nat)
  | .initializeConfig _ _ _ _ _ _ => some (.config, 192)
  | .initializeValidatorStake => some (.stake, 144)
  | .initializeSolStakerStake => some (.stake, 168)
  | _ => none

/-- What the stake view program reports about the native stake account passed. -/
def Ix.views (ix : Ix) (o : Oracle) (v : StakeView) : Prop := ∃ n, ix.passes .nativeStake n ∧ o.view n = .ok v

/-- `a` is the right address for the role, in an instruction on config `ck`. -/
def Ix.rightAddress (ix : Ix) (env : Env) (o : Oracle) (w : World) (ck : Key) : Role → Key → Prop
  | .stake, a =>
    if ix.decoded = some .initializeValidatorStake ∨ ix.decoded = some .validatorSyncAuthority then
      ∃ v, ix.passes .vote v ∧ a = .validatorPda v ck
    else if ix.decoded = some .initializeSolStakerStake then ∃ n, ix.passes .nativeStake n ∧ a = .solStakerPda n ck
    else belongs a ck
  | .destinationStake, a => belongs a ck
  | .validator, a | .currentValidator, a => ∃ v, ix.views o v ∧ a = .validatorPda v.delegatedVote ck
  | .previousValidator, a => ∃ k s, ix.passes .stake k ∧ solStakerAt w k = some s ∧ a = .validatorPda s.del.vote ck
  | .document, a => ∃ c signer, configAt w ck = some c ∧ a = .dunaPda signer c.dunaHash ∧
      ((∃ k, ix.passes .vote k ∧ (w k).data = .vote signer) ∨ ∃ v, ix.views o v ∧ v.withdrawer = signer)
  | .overrideAccount, a => ∃ v, ix.views o v ∧ a = .overridePda v.withdrawer ck
  | .record, a => a = vaultRecord env ck
  | _, _ => True

/-- What is wrong when the instruction fails with the given code. (Nothing is said about the stake program's own errors, which are the subject
of C86, about panics, arithmetic overflow, failures of called programs, and three rules of the runtime.) -/
def Fault (env : Env) (o : Oracle) (w : World) (ix : Ix) : Err → Prop
  | .invalidInstructionData => ix.decoded = none
  | .notEnoughAccountKeys =>
    (∃ i, ix.decoded = some i ∧ ix.ctx.accts.length < accountCount i) ∨
    (ix.decoded = some .harvestSolStakerRewards ∧ ix.acct 11 = some progId ∧
      ∃ k s v, ix.passes .stake k ∧ solStakerAt w k = some s ∧ ix.views o v ∧
        (v.effective ≠ s.lamports ∨ v.delegatedVote ≠ s.del.vote))
  | .missingRequiredSignature =>
    ∃ i r k, ix.decoded = some i ∧ ix.passes r k ∧ i.signs r = true ∧ ix.ctx.signer k = false
  | .invalidAccountOwner =>
    ∃ i r k p, ix.decoded = some i ∧ ix.passes r k ∧ i.ownerOf r = some p ∧ (w k).owner ≠ p
  | .uninitializedAccount =>
    ∃ i r k C, ix.decoded = some i ∧ ix.passes r k ∧ C ∈ i.reads r ∧ C.blank (w k).data
  | .invalidAccountData =>
    (∃ i r k, ix.decoded = some i ∧ ix.passes r k ∧ i.reads r ≠ [] ∧
      ∀ C ∈ i.reads r, ¬ C.initialised (w k).data ∧ ¬ C.blank (w k).data) ∨
    (ix.decoded = some .initializeSolStakerStake ∧ ∃ v, ix.views o v ∧ v.withdrawer = .default)
  | .borshIo =>
    ∃ i k, ix.decoded = some i ∧ ix.passes .record k ∧ .rewardsRecord ∈ i.reads .record ∧
      ¬ Content.initialised .rewardsRecord (w k).data
  | .accountAlreadyInitialized =>
    (ix.createsConfig ∧ ∃ k, ix.passes .vaultAuthority k ∧ (w k).data ≠ .bytes []) ∨
    (ix.createsConfig ∧ ∃ k, ix.passes .config k ∧ ¬ ∃ b, (w k).data = .bytes (List.replicate 8 0 ++ b)) ∨
    (∃ i n k, ix.decoded = some i ∧ i.creates = some (.stake, n) ∧ ix.passes .stake k ∧ (w k).data ≠ .bytes [])
  | .accountNotRentExempt =>
    ∃ i r n k, ix.decoded = some i ∧ i.creates = some (r, n) ∧ ix.passes r k ∧ (w k).lamports < env.rentMin n
  | .invalidSeeds =>
    ∃ ck r k, ix.passes .config ck ∧ ix.passes r k ∧ ¬ ix.rightAddress env o w ck r k
  | .incorrectProgramId =>
    (∃ k, ix.passes .viewProgram k ∧ k ≠ viewId) ∨ ∃ k, ix.passes .tokenProgram k ∧ k ≠ tokenId
  | .invalidArgument =>
    (∃ s c t b y h, ix.decoded = some (.initializeConfig s c t b y h) ∧ 10000 < b) ∨
    ∃ b, ix.decoded = some (.updateConfig (.maxDeactivationBasisPoints b)) ∧ 10000 < b
  | .insufficientFunds =>
    ix.decoded = some .harvestHolderRewards ∧ ∃ k, ix.passes .vaultAuthority k ∧ (w k).lamports < env.rentMin (w k).data.len
  | .accountBorrowFailed =>
    ∃ p q k, p ≠ q ∧ ix.acct p = some k ∧ ix.acct q = some k ∧ (ix.passes .config k ∨ ix.passes .stake k)
  | .readonlyModified => ∃ k ∈ ix.ctx.accts, ix.ctx.writable k = false
  | .stake _ | .panic | .arithmeticOverflow | .cpi | .externalDataModified | .externalLamportSpend | .unbalanced => True

/-- A failure of a called program counts as such. (Its code passes through the stake program, and a client cannot tell it from one of the
stake program.) -/
structure Oracle.FailsAsCall (o : Oracle) : Prop where
  view : ∀ k e, o.view k = .error e → e = .cpi
  harvestRewards : ∀ w c e, o.harvestRewards w c = .error e → e = .cpi
  deposit : ∀ w c e, o.deposit w c = .error e → e = .cpi
  withdraw : ∀ w c e, o.withdraw w c = .error e → e = .cpi

end Verif
