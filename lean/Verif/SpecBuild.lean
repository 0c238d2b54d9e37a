import Verif.Model.ClientBuild
/-!
# Vocabulary of the statements about the client's builders

What a builder has been told, and how the runtime treats an invocation by another program.
-/

namespace Verif.Client

open Verif

/-- The builder a call belongs to. -/
def Call.kind : Call → Kind
  | .initializeConfig _ _ => .initializeConfig
  | .initializeValidatorStake _ => .initializeValidatorStake
  | .initializeSolStakerStake _ => .initializeSolStakerStake
  | .validatorStakeTokens _ _ => .validatorStakeTokens
  | .solStakerStakeTokens _ _ => .solStakerStakeTokens
  | .unstakeTokens _ _ => .unstakeTokens
  | .harvestHolderRewards _ => .harvestHolderRewards
  | .harvestValidatorRewards _ => .harvestValidatorRewards
  | .harvestSolStakerRewards _ => .harvestSolStakerRewards
  | .slashValidatorStake _ _ => .slashValidatorStake
  | .slashSolStakerStake _ _ => .slashSolStakerStake
  | .setAuthority _ _ => .setAuthority
  | .updateConfig _ _ => .updateConfig
  | .solStakerMoveTokens _ _ => .solStakerMoveTokens
  | .validatorOverrideStakedLamports _ _ => .validatorOverrideStakedLamports
  | .validatorSyncAuthority _ => .validatorSyncAuthority

/-- The accounts of each instruction, by name and in order. -/
def Kind.fields : Kind → List Field
  | .initializeConfig =>
    [.config, .mint, .vaultPda, .vault, .vaultHolderRewards, .systemProgram, .rewardsProgram]
  | .initializeValidatorStake =>
    [.config, .dunaDocumentPda, .validatorStake, .validatorVote, .systemProgram]
  | .initializeSolStakerStake =>
    [.config, .dunaDocumentPda, .solStakerStake, .solStakerAuthorityOverride, .validatorStake, .solStakerNativeStake,
      .sysvarStakeHistory, .systemProgram, .solStakeViewProgram]
  | .validatorStakeTokens =>
    [.config, .holderRewardsPool, .holderRewardsPoolTokenAccount, .validatorStake, .validatorStakeAuthority,
      .sourceTokenAccount, .sourceTokenAccountAuthority, .mint, .vaultPda, .vault, .vaultHolderRewards, .tokenProgram,
      .rewardsProgram]
  | .solStakerStakeTokens =>
    [.config, .holderRewardsPool, .holderRewardsPoolTokenAccount, .solStakerStake, .solStakerStakeAuthority,
      .sourceTokenAccount, .sourceTokenAccountAuthority, .mint, .vaultPda, .vault, .vaultHolderRewards, .tokenProgram,
      .rewardsProgram]
  | .unstakeTokens =>
    [.config, .holderRewardsPool, .holderRewardsPoolTokenAccount, .stake, .stakeAuthority, .vault, .vaultPda,
      .vaultHolderRewards, .mint, .destinationTokenAccount, .tokenProgram, .rewardsProgram]
  | .harvestHolderRewards =>
    [.config, .holderRewardsPool, .holderRewardsPoolTokenAccount, .vault, .vaultHolderRewards, .vaultPda, .mint,
      .tokenProgram, .paladinRewardsProgram, .systemProgram]
  | .harvestValidatorRewards =>
    [.config, .vaultHolderRewards, .validatorStake, .validatorStakeAuthority]
  | .harvestSolStakerRewards =>
    [.solStakeViewProgram, .config, .vaultHolderRewards, .solStakerStake, .solStakerStakeAuthority, .solStakerNativeStake,
      .previousValidatorStake, .previousValidatorStakeAuthority, .currentValidatorStake, .currentValidatorStakeAuthority,
      .sysvarStakeHistory, .keeperRecipient]
  | .slashValidatorStake =>
    [.config, .validatorStake, .validatorStakeAuthority, .slashAuthority, .vault, .vaultHolderRewards, .vaultAuthority,
      .mint, .tokenProgram]
  | .slashSolStakerStake =>
    [.config, .solStakerStake, .solStakerStakeAuthority, .slashAuthority, .mint, .vault, .vaultHolderRewards,
      .vaultAuthority, .tokenProgram]
  | .setAuthority =>
    [.account, .authority, .newAuthority]
  | .updateConfig =>
    [.config, .configAuthority]
  | .solStakerMoveTokens =>
    [.config, .vaultHolderRewards, .solStakerAuthority, .sourceSolStakerStake, .destinationSolStakerStake]
  | .validatorOverrideStakedLamports =>
    [.config, .configAuthority, .validatorStake, .validatorStakeAuthority, .vaultHolderRewards]
  | .validatorSyncAuthority =>
    [.config, .validatorStake, .validatorVote]

/-- The arguments of each instruction. -/
def Kind.arguments : Kind → List Arg
  | .initializeConfig =>
    [.slashAuthority, .configAuthority, .cooldownTimeSeconds, .maxDeactivationBasisPoints, .syncRewardsLamports,
      .dunaDocumentHash]
  | .validatorStakeTokens =>
    [.amount]
  | .solStakerStakeTokens =>
    [.amount]
  | .unstakeTokens =>
    [.amount]
  | .slashValidatorStake =>
    [.amount]
  | .slashSolStakerStake =>
    [.amount]
  | .setAuthority =>
    [.authorityType]
  | .updateConfig =>
    [.configField]
  | .solStakerMoveTokens =>
    [.amount]
  | .validatorOverrideStakedLamports =>
    [.amountMin]
  | _ => []

/-- The account a call gives for a name. -/
def Call.account : Call → Field → Option Key
  | .initializeConfig a _, .config => some a.config
  | .initializeConfig a _, .mint => some a.mint
  | .initializeConfig a _, .vaultPda => some a.vaultPda
  | .initializeConfig a _, .vault => some a.vault
  | .initializeConfig a _, .vaultHolderRewards => some a.vaultHolderRewards
  | .initializeConfig a _, .systemProgram => some a.systemProgram
  | .initializeConfig a _, .rewardsProgram => some a.rewardsProgram
  | .initializeValidatorStake a, .config => some a.config
  | .initializeValidatorStake a, .dunaDocumentPda => some a.dunaDocumentPda
  | .initializeValidatorStake a, .validatorStake => some a.validatorStake
  | .initializeValidatorStake a, .validatorVote => some a.validatorVote
  | .initializeValidatorStake a, .systemProgram => some a.systemProgram
  | .initializeSolStakerStake a, .config => some a.config
  | .initializeSolStakerStake a, .dunaDocumentPda => some a.dunaDocumentPda
  | .initializeSolStakerStake a, .solStakerStake => some a.solStakerStake
  | .initializeSolStakerStake a, .solStakerAuthorityOverride => some a.solStakerAuthorityOverride
  | .initializeSolStakerStake a, .validatorStake => some a.validatorStake
  | .initializeSolStakerStake a, .solStakerNativeStake => some a.solStakerNativeStake
  | .initializeSolStakerStake a, .sysvarStakeHistory => some a.sysvarStakeHistory
  | .initializeSolStakerStake a, .systemProgram => some a.systemProgram
  | .initializeSolStakerStake a, .solStakeViewProgram => some a.solStakeViewProgram
  | .validatorStakeTokens a _, .config => some a.config
  | .validatorStakeTokens a _, .holderRewardsPool => some a.holderRewardsPool
  | .validatorStakeTokens a _, .holderRewardsPoolTokenAccount => some a.holderRewardsPoolTokenAccount
  | .validatorStakeTokens a _, .validatorStake => some a.stake
  | .validatorStakeTokens a _, .validatorStakeAuthority => some a.stakeAuthority
  | .validatorStakeTokens a _, .sourceTokenAccount => some a.sourceTokenAccount
  | .validatorStakeTokens a _, .sourceTokenAccountAuthority => some a.sourceTokenAccountAuthority
  | .validatorStakeTokens a _, .mint => some a.mint
  | .validatorStakeTokens a _, .vaultPda => some a.vaultPda
  | .validatorStakeTokens a _, .vault => some a.vault
  | .validatorStakeTokens a _, .vaultHolderRewards => some a.vaultHolderRewards
  | .validatorStakeTokens a _, .tokenProgram => some a.tokenProgram
  | .validatorStakeTokens a _, .rewardsProgram => some a.rewardsProgram
  | .solStakerStakeTokens a _, .config => some a.config
  | .solStakerStakeTokens a _, .holderRewardsPool => some a.holderRewardsPool
  | .solStakerStakeTokens a _, .holderRewardsPoolTokenAccount => some a.holderRewardsPoolTokenAccount
  | .solStakerStakeTokens a _, .solStakerStake => some a.stake
  | .solStakerStakeTokens a _, .solStakerStakeAuthority => some a.stakeAuthority
  | .solStakerStakeTokens a _, .sourceTokenAccount => some a.sourceTokenAccount
  | .solStakerStakeTokens a _, .sourceTokenAccountAuthority => some a.sourceTokenAccountAuthority
  | .solStakerStakeTokens a _, .mint => some a.mint
  | .solStakerStakeTokens a _, .vaultPda => some a.vaultPda
  | .solStakerStakeTokens a _, .vault => some a.vault
  | .solStakerStakeTokens a _, .vaultHolderRewards => some a.vaultHolderRewards
  | .solStakerStakeTokens a _, .tokenProgram => some a.tokenProgram
  | .solStakerStakeTokens a _, .rewardsProgram => some a.rewardsProgram
  | .unstakeTokens a _, .config => some a.config
  | .unstakeTokens a _, .holderRewardsPool => some a.holderRewardsPool
  | .unstakeTokens a _, .holderRewardsPoolTokenAccount => some a.holderRewardsPoolTokenAccount
  | .unstakeTokens a _, .stake => some a.stake
  | .unstakeTokens a _, .stakeAuthority => some a.stakeAuthority
  | .unstakeTokens a _, .vault => some a.vault
  | .unstakeTokens a _, .vaultPda => some a.vaultPda
  | .unstakeTokens a _, .vaultHolderRewards => some a.vaultHolderRewards
  | .unstakeTokens a _, .mint => some a.mint
  | .unstakeTokens a _, .destinationTokenAccount => some a.destinationTokenAccount
  | .unstakeTokens a _, .tokenProgram => some a.tokenProgram
  | .unstakeTokens a _, .rewardsProgram => some a.rewardsProgram
  | .harvestHolderRewards a, .config => some a.config
  | .harvestHolderRewards a, .holderRewardsPool => some a.holderRewardsPool
  | .harvestHolderRewards a, .holderRewardsPoolTokenAccount => some a.holderRewardsPoolTokenAccount
  | .harvestHolderRewards a, .vault => some a.vault
  | .harvestHolderRewards a, .vaultHolderRewards => some a.vaultHolderRewards
  | .harvestHolderRewards a, .vaultPda => some a.vaultPda
  | .harvestHolderRewards a, .mint => some a.mint
  | .harvestHolderRewards a, .tokenProgram => some a.tokenProgram
  | .harvestHolderRewards a, .paladinRewardsProgram => some a.paladinRewardsProgram
  | .harvestHolderRewards a, .systemProgram => some a.systemProgram
  | .harvestValidatorRewards a, .config => some a.config
  | .harvestValidatorRewards a, .vaultHolderRewards => some a.vaultHolderRewards
  | .harvestValidatorRewards a, .validatorStake => some a.validatorStake
  | .harvestValidatorRewards a, .validatorStakeAuthority => some a.validatorStakeAuthority
  | .harvestSolStakerRewards a, .solStakeViewProgram => some a.solStakeViewProgram
  | .harvestSolStakerRewards a, .config => some a.config
  | .harvestSolStakerRewards a, .vaultHolderRewards => some a.vaultHolderRewards
  | .harvestSolStakerRewards a, .solStakerStake => some a.solStakerStake
  | .harvestSolStakerRewards a, .solStakerStakeAuthority => some a.solStakerStakeAuthority
  | .harvestSolStakerRewards a, .solStakerNativeStake => some a.solStakerNativeStake
  | .harvestSolStakerRewards a, .previousValidatorStake => some a.previousValidatorStake
  | .harvestSolStakerRewards a, .previousValidatorStakeAuthority => some a.previousValidatorStakeAuthority
  | .harvestSolStakerRewards a, .currentValidatorStake => some a.currentValidatorStake
  | .harvestSolStakerRewards a, .currentValidatorStakeAuthority => some a.currentValidatorStakeAuthority
  | .harvestSolStakerRewards a, .sysvarStakeHistory => some a.sysvarStakeHistory
  | .harvestSolStakerRewards a, .keeperRecipient => a.keeperRecipient
  | .slashValidatorStake a _, .config => some a.config
  | .slashValidatorStake a _, .validatorStake => some a.stake
  | .slashValidatorStake a _, .validatorStakeAuthority => some a.stakeAuthority
  | .slashValidatorStake a _, .slashAuthority => some a.slashAuthority
  | .slashValidatorStake a _, .vault => some a.vault
  | .slashValidatorStake a _, .vaultHolderRewards => some a.vaultHolderRewards
  | .slashValidatorStake a _, .vaultAuthority => some a.vaultAuthority
  | .slashValidatorStake a _, .mint => some a.mint
  | .slashValidatorStake a _, .tokenProgram => some a.tokenProgram
  | .slashSolStakerStake a _, .config => some a.config
  | .slashSolStakerStake a _, .solStakerStake => some a.stake
  | .slashSolStakerStake a _, .solStakerStakeAuthority => some a.stakeAuthority
  | .slashSolStakerStake a _, .slashAuthority => some a.slashAuthority
  | .slashSolStakerStake a _, .mint => some a.mint
  | .slashSolStakerStake a _, .vault => some a.vault
  | .slashSolStakerStake a _, .vaultHolderRewards => some a.vaultHolderRewards
  | .slashSolStakerStake a _, .vaultAuthority => some a.vaultAuthority
  | .slashSolStakerStake a _, .tokenProgram => some a.tokenProgram
  | .setAuthority a _, .account => some a.account
  | .setAuthority a _, .authority => some a.authority
  | .setAuthority a _, .newAuthority => some a.newAuthority
  | .updateConfig a _, .config => some a.config
  | .updateConfig a _, .configAuthority => some a.configAuthority
  | .solStakerMoveTokens a _, .config => some a.config
  | .solStakerMoveTokens a _, .vaultHolderRewards => some a.vaultHolderRewards
  | .solStakerMoveTokens a _, .solStakerAuthority => some a.solStakerAuthority
  | .solStakerMoveTokens a _, .sourceSolStakerStake => some a.sourceSolStakerStake
  | .solStakerMoveTokens a _, .destinationSolStakerStake => some a.destinationSolStakerStake
  | .validatorOverrideStakedLamports a _, .config => some a.config
  | .validatorOverrideStakedLamports a _, .configAuthority => some a.configAuthority
  | .validatorOverrideStakedLamports a _, .validatorStake => some a.validatorStake
  | .validatorOverrideStakedLamports a _, .validatorStakeAuthority => some a.validatorStakeAuthority
  | .validatorOverrideStakedLamports a _, .vaultHolderRewards => some a.vaultHolderRewards
  | .validatorSyncAuthority a, .config => some a.config
  | .validatorSyncAuthority a, .validatorStake => some a.validatorStake
  | .validatorSyncAuthority a, .validatorVote => some a.validatorVote
  | _, _ => none

/-- The argument a call gives for a name. -/
def Call.argument : Call → (a : Arg) → Option a.Val
  | .initializeConfig _ x, .slashAuthority => some x.slashAuthority
  | .initializeConfig _ x, .configAuthority => some x.configAuthority
  | .initializeConfig _ x, .cooldownTimeSeconds => some x.cooldownTimeSeconds
  | .initializeConfig _ x, .maxDeactivationBasisPoints => some x.maxDeactivationBasisPoints
  | .initializeConfig _ x, .syncRewardsLamports => some x.syncRewardsLamports
  | .initializeConfig _ x, .dunaDocumentHash => some x.dunaDocumentHash
  | .validatorStakeTokens _ x, .amount => some x
  | .solStakerStakeTokens _ x, .amount => some x
  | .unstakeTokens _ x, .amount => some x
  | .slashValidatorStake _ x, .amount => some x
  | .slashSolStakerStake _ x, .amount => some x
  | .setAuthority _ x, .authorityType => some x
  | .updateConfig _ x, .configField => some x
  | .solStakerMoveTokens _ x, .amount => some x
  | .validatorOverrideStakedLamports _ x, .amountMin => some x
  | _, _ => none

/-! ## What a builder has been told -/

/-- The account last given for a name; for the keeper it may be "none". -/
def accountGiven (steps : List Setter) (f : Field) : Option Key :=
  (steps.reverse.findSome? fun
    | .account g k => if g = f then some (some k) else none
    | .keeper k => if f = .keeperRecipient then some k else none
    | _ => none).join

/-- The argument last given for a name. -/
def argumentGiven (steps : List Setter) (a : Arg) : Option a.Val :=
  steps.reverse.findSome? fun
    | .arg b v => if h : b = a then some (h ▸ v) else none
    | _ => none

/-- All remaining accounts given, in order. -/
def remainingGiven (steps : List Setter) : List Meta :=
  steps.flatMap fun
    | .remaining ms => ms
    | _ => []

/-- The documented defaults: the token program, the system program and the stake history sysvar. -/
def Field.default : Field → Option Key
  | .tokenProgram => some tokenId
  | .systemProgram => some systemId
  | .sysvarStakeHistory => some historyId
  | _ => none

/-- Accounts that must be given: all but the keeper and those with a default. -/
def Field.required (f : Field) : Prop := f ≠ .keeperRecipient ∧ f.default = none

/-- A step in the builder of a CPI, as a step of the plain builder, with the flags of remaining accounts as documented:
"a `bool` indicating whether the account is writable or not, and a `bool` indicating whether the account is a signer or not". -/
def CpiSetter.documented : CpiSetter → Setter
  | .account f k => .account f k
  | .keeper k => .keeper k
  | .arg a v => .arg a v
  | .remainingAccount k isWritable isSigner => .remaining [{ key := k, signer := isSigner, writable := isWritable }]
  | .remainingAccounts rs => .remaining (rs.map fun r => { key := r.1, signer := r.2.2, writable := r.2.1 })

/-- A meta with its two flags exchanged. -/
def Meta.swapped (m : Meta) : Meta := { m with signer := m.writable, writable := m.signer }

/-! ## Invocations (runtime, external) -/

/-- The runtime lets a program running in context `caller` make an invocation: every account of the instruction is handed
over, a signer has signed for the caller or has an address derived from the given seeds, and what is writable is writable for
the caller. `derived` gives the address that the calling program derives from seeds. -/
def Invocation.allowed (v : Invocation) (caller : Ctx) (derived : List (List UInt8) → Option Key) : Prop :=
  v.instruction.program ∈ v.infos ∧
    ∀ m ∈ v.instruction.metas, m.key ∈ v.infos ∧
      (m.signer = true → caller.signer m.key = true ∨ ∃ s ∈ v.seeds, derived s = some m.key) ∧
      (m.writable = true → caller.writable m.key = true)

/-- The instruction the stake program sees. -/
def Invocation.ix (v : Invocation) : Ix where
  data := v.instruction.data
  ctx :=
    { accts := v.instruction.metas.map (·.key)
      signer := fun k => v.instruction.metas.any fun m => m.key = k && m.signer
      writable := fun k => v.instruction.metas.any fun m => m.key = k && m.writable }

end Verif.Client
