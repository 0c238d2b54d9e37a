import Mathlib.Logic.Function.Basic
import Verif.Model.Client
/-!
# The builders of the generated Rust client

Models the rest of `/repo/clients/rust/src/generated/instructions/*.rs`: the fluent `…Builder`s, the `…Cpi` structures
that invoke the stake program from another program, and the fluent `…CpiBuilder`s.

The sixteen files follow one template with different fields. A builder is modelled as one structure with a cell for every
name that occurs; the methods of a particular file touch the cells of its own fields, and only those are ever read. The calls
that collect the fields (`instruction()`, `invoke_signed`) and the lists of metas and accounts are written out file by file.

An `AccountInfo` is represented by its key.
-/

namespace Verif.Client

open Verif

/-- `SysvarStakeHistory1111111111111111111111111`. -/
abbrev historyId : Key := .raw 6

/-- The sixteen files of `generated/instructions`. -/
inductive Kind where
  | initializeConfig
  | initializeValidatorStake
  | initializeSolStakerStake
  | validatorStakeTokens
  | solStakerStakeTokens
  | unstakeTokens
  | harvestHolderRewards
  | harvestValidatorRewards
  | harvestSolStakerRewards
  | slashValidatorStake
  | slashSolStakerStake
  | setAuthority
  | updateConfig
  | solStakerMoveTokens
  | validatorOverrideStakedLamports
  | validatorSyncAuthority
  deriving DecidableEq, Repr

/-- The names of account fields of the builders. -/
inductive Field where
  | config
  | mint
  | vaultPda
  | vault
  | vaultHolderRewards
  | systemProgram
  | rewardsProgram
  | dunaDocumentPda
  | validatorStake
  | validatorVote
  | solStakerStake
  | solStakerAuthorityOverride
  | solStakerNativeStake
  | sysvarStakeHistory
  | solStakeViewProgram
  | holderRewardsPool
  | holderRewardsPoolTokenAccount
  | validatorStakeAuthority
  | sourceTokenAccount
  | sourceTokenAccountAuthority
  | tokenProgram
  | solStakerStakeAuthority
  | stake
  | stakeAuthority
  | destinationTokenAccount
  | paladinRewardsProgram
  | previousValidatorStake
  | previousValidatorStakeAuthority
  | currentValidatorStake
  | currentValidatorStakeAuthority
  | keeperRecipient
  | slashAuthority
  | vaultAuthority
  | account
  | authority
  | newAuthority
  | configAuthority
  | solStakerAuthority
  | sourceSolStakerStake
  | destinationSolStakerStake
  deriving DecidableEq, Repr

/-- The names of argument fields of the builders. -/
inductive Arg where
  | slashAuthority
  | configAuthority
  | cooldownTimeSeconds
  | maxDeactivationBasisPoints
  | syncRewardsLamports
  | dunaDocumentHash
  | amount
  | authorityType
  | configField
  | amountMin
  deriving DecidableEq, Repr

/-- Their types: keys and the hash are 32-byte strings. -/
def Arg.Val : Arg → Type
  | .slashAuthority => List UInt8
  | .configAuthority => List UInt8
  | .cooldownTimeSeconds => Nat
  | .maxDeactivationBasisPoints => Nat
  | .syncRewardsLamports => Nat
  | .dunaDocumentHash => List UInt8
  | .amount => Nat
  | .authorityType => AuthorityType
  | .configField => ConfigField
  | .amountMin => Nat

/-! ## `…Builder` -/

/-- The state of a builder: fields not yet set are `None`. -/
structure Builder where
  accounts : Field → Option Key
  args : (a : Arg) → Option a.Val
  remaining : List Meta

/-- `new()`, i.e. `Default`. -/
def Builder.new : Builder := ⟨fun _ => none, fun _ => none, []⟩

/-- A call of a builder's method. -/
inductive Setter where
  /-- `.config(key)` and so on. -/
  | account (f : Field) (k : Key)
  /-- `.keeper_recipient(Option<key>)`, `harvest_sol_staker_rewards.rs` 269-277. -/
  | keeper (k : Option Key)
  /-- `.amount(n)` and so on. -/
  | arg (a : Arg) (v : a.Val)
  /-- `.add_remaining_account(m)`, `.add_remaining_accounts(&[m, …])`. -/
  | remaining (ms : List Meta)

/-- The setters: `self.f = Some(f)`, `self.keeper_recipient = keeper_recipient`,
`self.__remaining_accounts.extend_from_slice(accounts)`. -/
def Builder.step (b : Builder) : Setter → Builder
  | .account f k => { b with accounts := Function.update b.accounts f (some k) }
  | .keeper k => { b with accounts := Function.update b.accounts .keeperRecipient k }
  | .arg a v => { b with args := Function.update b.args a (some v) }
  | .remaining ms => { b with remaining := b.remaining ++ ms }

/-- The accounts and arguments that `instruction()` collects; `none` is a panic of one of the `expect`s. An account marked
"optional account, default to" is `unwrap_or`ed with its default. -/
def Builder.call (b : Builder) : Kind → Option Call
  -- initialize_config.rs 140-288
  | .initializeConfig => do
    let config ← b.accounts .config
    let mint ← b.accounts .mint
    let vaultPda ← b.accounts .vaultPda
    let vault ← b.accounts .vault
    let vaultHolderRewards ← b.accounts .vaultHolderRewards
    let systemProgram := (b.accounts .systemProgram).getD systemId
    let rewardsProgram ← b.accounts .rewardsProgram
    let slashAuthority ← b.args .slashAuthority
    let configAuthority ← b.args .configAuthority
    let cooldownTimeSeconds ← b.args .cooldownTimeSeconds
    let maxDeactivationBasisPoints ← b.args .maxDeactivationBasisPoints
    let syncRewardsLamports ← b.args .syncRewardsLamports
    let dunaDocumentHash ← b.args .dunaDocumentHash
    return .initializeConfig
      { config, mint, vaultPda, vault, vaultHolderRewards, systemProgram, rewardsProgram }
      { slashAuthority, configAuthority, cooldownTimeSeconds, maxDeactivationBasisPoints, syncRewardsLamports,
        dunaDocumentHash }
  -- initialize_validator_stake.rs 104-179
  | .initializeValidatorStake => do
    let config ← b.accounts .config
    let dunaDocumentPda ← b.accounts .dunaDocumentPda
    let validatorStake ← b.accounts .validatorStake
    let validatorVote ← b.accounts .validatorVote
    let systemProgram := (b.accounts .systemProgram).getD systemId
    return .initializeValidatorStake
      { config, dunaDocumentPda, validatorStake, validatorVote, systemProgram }
  -- initialize_sol_staker_stake.rs 136-263
  | .initializeSolStakerStake => do
    let config ← b.accounts .config
    let dunaDocumentPda ← b.accounts .dunaDocumentPda
    let solStakerStake ← b.accounts .solStakerStake
    let solStakerAuthorityOverride ← b.accounts .solStakerAuthorityOverride
    let validatorStake ← b.accounts .validatorStake
    let solStakerNativeStake ← b.accounts .solStakerNativeStake
    let sysvarStakeHistory := (b.accounts .sysvarStakeHistory).getD historyId
    let systemProgram := (b.accounts .systemProgram).getD systemId
    let solStakeViewProgram ← b.accounts .solStakeViewProgram
    return .initializeSolStakerStake
      { config, dunaDocumentPda, solStakerStake, solStakerAuthorityOverride, validatorStake, solStakerNativeStake,
        sysvarStakeHistory, systemProgram, solStakeViewProgram }
  -- validator_stake_tokens.rs 179-346
  | .validatorStakeTokens => do
    let config ← b.accounts .config
    let holderRewardsPool ← b.accounts .holderRewardsPool
    let holderRewardsPoolTokenAccount ← b.accounts .holderRewardsPoolTokenAccount
    let validatorStake ← b.accounts .validatorStake
    let validatorStakeAuthority ← b.accounts .validatorStakeAuthority
    let sourceTokenAccount ← b.accounts .sourceTokenAccount
    let sourceTokenAccountAuthority ← b.accounts .sourceTokenAccountAuthority
    let mint ← b.accounts .mint
    let vaultPda ← b.accounts .vaultPda
    let vault ← b.accounts .vault
    let vaultHolderRewards ← b.accounts .vaultHolderRewards
    let tokenProgram := (b.accounts .tokenProgram).getD tokenId
    let rewardsProgram ← b.accounts .rewardsProgram
    let amount ← b.args .amount
    return .validatorStakeTokens
      { config, holderRewardsPool, holderRewardsPoolTokenAccount, stake := validatorStake,
        stakeAuthority := validatorStakeAuthority, sourceTokenAccount, sourceTokenAccountAuthority, mint, vaultPda, vault,
        vaultHolderRewards, tokenProgram, rewardsProgram } amount
  -- sol_staker_stake_tokens.rs 179-346
  | .solStakerStakeTokens => do
    let config ← b.accounts .config
    let holderRewardsPool ← b.accounts .holderRewardsPool
    let holderRewardsPoolTokenAccount ← b.accounts .holderRewardsPoolTokenAccount
    let solStakerStake ← b.accounts .solStakerStake
    let solStakerStakeAuthority ← b.accounts .solStakerStakeAuthority
    let sourceTokenAccount ← b.accounts .sourceTokenAccount
    let sourceTokenAccountAuthority ← b.accounts .sourceTokenAccountAuthority
    let mint ← b.accounts .mint
    let vaultPda ← b.accounts .vaultPda
    let vault ← b.accounts .vault
    let vaultHolderRewards ← b.accounts .vaultHolderRewards
    let tokenProgram := (b.accounts .tokenProgram).getD tokenId
    let rewardsProgram ← b.accounts .rewardsProgram
    let amount ← b.args .amount
    return .solStakerStakeTokens
      { config, holderRewardsPool, holderRewardsPoolTokenAccount, stake := solStakerStake,
        stakeAuthority := solStakerStakeAuthority, sourceTokenAccount, sourceTokenAccountAuthority, mint, vaultPda, vault,
        vaultHolderRewards, tokenProgram, rewardsProgram } amount
  -- unstake_tokens.rs 168-318
  | .unstakeTokens => do
    let config ← b.accounts .config
    let holderRewardsPool ← b.accounts .holderRewardsPool
    let holderRewardsPoolTokenAccount ← b.accounts .holderRewardsPoolTokenAccount
    let stake ← b.accounts .stake
    let stakeAuthority ← b.accounts .stakeAuthority
    let vault ← b.accounts .vault
    let vaultPda ← b.accounts .vaultPda
    let vaultHolderRewards ← b.accounts .vaultHolderRewards
    let mint ← b.accounts .mint
    let destinationTokenAccount ← b.accounts .destinationTokenAccount
    let tokenProgram := (b.accounts .tokenProgram).getD tokenId
    let rewardsProgram ← b.accounts .rewardsProgram
    let amount ← b.args .amount
    return .unstakeTokens
      { config, holderRewardsPool, holderRewardsPoolTokenAccount, stake, stakeAuthority, vault, vaultPda, vaultHolderRewards,
        mint, destinationTokenAccount, tokenProgram, rewardsProgram } amount
  -- harvest_holder_rewards.rs 142-267
  | .harvestHolderRewards => do
    let config ← b.accounts .config
    let holderRewardsPool ← b.accounts .holderRewardsPool
    let holderRewardsPoolTokenAccount ← b.accounts .holderRewardsPoolTokenAccount
    let vault ← b.accounts .vault
    let vaultHolderRewards ← b.accounts .vaultHolderRewards
    let vaultPda ← b.accounts .vaultPda
    let mint ← b.accounts .mint
    let tokenProgram := (b.accounts .tokenProgram).getD tokenId
    let paladinRewardsProgram ← b.accounts .paladinRewardsProgram
    let systemProgram := (b.accounts .systemProgram).getD systemId
    return .harvestHolderRewards
      { config, holderRewardsPool, holderRewardsPoolTokenAccount, vault, vaultHolderRewards, vaultPda, mint, tokenProgram,
        paladinRewardsProgram, systemProgram }
  -- harvest_validator_rewards.rs 96-166
  | .harvestValidatorRewards => do
    let config ← b.accounts .config
    let vaultHolderRewards ← b.accounts .vaultHolderRewards
    let validatorStake ← b.accounts .validatorStake
    let validatorStakeAuthority ← b.accounts .validatorStakeAuthority
    return .harvestValidatorRewards
      { config, vaultHolderRewards, validatorStake, validatorStakeAuthority }
  -- harvest_sol_staker_rewards.rs 167-333
  | .harvestSolStakerRewards => do
    let solStakeViewProgram ← b.accounts .solStakeViewProgram
    let config ← b.accounts .config
    let vaultHolderRewards ← b.accounts .vaultHolderRewards
    let solStakerStake ← b.accounts .solStakerStake
    let solStakerStakeAuthority ← b.accounts .solStakerStakeAuthority
    let solStakerNativeStake ← b.accounts .solStakerNativeStake
    let previousValidatorStake ← b.accounts .previousValidatorStake
    let previousValidatorStakeAuthority ← b.accounts .previousValidatorStakeAuthority
    let currentValidatorStake ← b.accounts .currentValidatorStake
    let currentValidatorStakeAuthority ← b.accounts .currentValidatorStakeAuthority
    let sysvarStakeHistory := (b.accounts .sysvarStakeHistory).getD historyId
    let keeperRecipient := b.accounts .keeperRecipient
    return .harvestSolStakerRewards
      { solStakeViewProgram, config, vaultHolderRewards, solStakerStake, solStakerStakeAuthority, solStakerNativeStake,
        previousValidatorStake, previousValidatorStakeAuthority, currentValidatorStake, currentValidatorStakeAuthority,
        sysvarStakeHistory, keeperRecipient }
  -- slash_validator_stake.rs 147-269
  | .slashValidatorStake => do
    let config ← b.accounts .config
    let validatorStake ← b.accounts .validatorStake
    let validatorStakeAuthority ← b.accounts .validatorStakeAuthority
    let slashAuthority ← b.accounts .slashAuthority
    let vault ← b.accounts .vault
    let vaultHolderRewards ← b.accounts .vaultHolderRewards
    let vaultAuthority ← b.accounts .vaultAuthority
    let mint ← b.accounts .mint
    let tokenProgram := (b.accounts .tokenProgram).getD tokenId
    let amount ← b.args .amount
    return .slashValidatorStake
      { config, stake := validatorStake, stakeAuthority := validatorStakeAuthority, slashAuthority, vault,
        vaultHolderRewards, vaultAuthority, mint, tokenProgram } amount
  -- slash_sol_staker_stake.rs 147-269
  | .slashSolStakerStake => do
    let config ← b.accounts .config
    let solStakerStake ← b.accounts .solStakerStake
    let solStakerStakeAuthority ← b.accounts .solStakerStakeAuthority
    let slashAuthority ← b.accounts .slashAuthority
    let mint ← b.accounts .mint
    let vault ← b.accounts .vault
    let vaultHolderRewards ← b.accounts .vaultHolderRewards
    let vaultAuthority ← b.accounts .vaultAuthority
    let tokenProgram := (b.accounts .tokenProgram).getD tokenId
    let amount ← b.args .amount
    return .slashSolStakerStake
      { config, stake := solStakerStake, stakeAuthority := solStakerStakeAuthority, slashAuthority, mint, vault,
        vaultHolderRewards, vaultAuthority, tokenProgram } amount
  -- set_authority.rs 100-161
  | .setAuthority => do
    let account ← b.accounts .account
    let authority ← b.accounts .authority
    let newAuthority ← b.accounts .newAuthority
    let authorityType ← b.args .authorityType
    return .setAuthority
      { account, authority, newAuthority } authorityType
  -- update_config.rs 92-146
  | .updateConfig => do
    let config ← b.accounts .config
    let configAuthority ← b.accounts .configAuthority
    let configField ← b.args .configField
    return .updateConfig
      { config, configAuthority } configField
  -- sol_staker_move_tokens.rs 117-209
  | .solStakerMoveTokens => do
    let config ← b.accounts .config
    let vaultHolderRewards ← b.accounts .vaultHolderRewards
    let solStakerAuthority ← b.accounts .solStakerAuthority
    let sourceSolStakerStake ← b.accounts .sourceSolStakerStake
    let destinationSolStakerStake ← b.accounts .destinationSolStakerStake
    let amount ← b.args .amount
    return .solStakerMoveTokens
      { config, vaultHolderRewards, solStakerAuthority, sourceSolStakerStake, destinationSolStakerStake } amount
  -- validator_override_staked_lamports.rs 117-205
  | .validatorOverrideStakedLamports => do
    let config ← b.accounts .config
    let configAuthority ← b.accounts .configAuthority
    let validatorStake ← b.accounts .validatorStake
    let validatorStakeAuthority ← b.accounts .validatorStakeAuthority
    let vaultHolderRewards ← b.accounts .vaultHolderRewards
    let amountMin ← b.args .amountMin
    return .validatorOverrideStakedLamports
      { config, configAuthority, validatorStake, validatorStakeAuthority, vaultHolderRewards } amountMin
  -- validator_sync_authority.rs 88-141
  | .validatorSyncAuthority => do
    let config ← b.accounts .config
    let validatorStake ← b.accounts .validatorStake
    let validatorVote ← b.accounts .validatorVote
    return .validatorSyncAuthority
      { config, validatorStake, validatorVote }

/-- `instruction()`: `accounts.instruction_with_remaining_accounts(args, &self.__remaining_accounts)`. -/
def Builder.instruction (b : Builder) (kind : Kind) : Option Request := do
  let c ← b.call kind
  return { program := progId, metas := c.metas ++ b.remaining, data := c.data }

/-! ## `…Cpi` -/

/-- What is handed to `invoke_signed`: the instruction, the accounts and the seeds of addresses that sign. -/
structure Invocation where
  instruction : Request
  infos : List Key
  seeds : List (List (List UInt8))

/-- `(&AccountInfo, bool, bool)`, a remaining account of an `…Cpi` structure. -/
abbrev Extra := Key × Bool × Bool

/-- The state of an `…CpiBuilder`. -/
structure CpiBuilder where
  program : Key
  accounts : Field → Option Key
  args : (a : Arg) → Option a.Val
  remaining : List Extra

/-- `new(program)`. -/
def CpiBuilder.new (program : Key) : CpiBuilder := ⟨program, fun _ => none, fun _ => none, []⟩

/-- The metas an `…Cpi` structure writes, `invoke_signed_with_remaining_accounts` of the same files. -/
def Call.cpiMetas : Call → List Meta
  -- initialize_config.rs 330-445
  | .initializeConfig a _ =>
    [writes a.config, reads a.mint, writes a.vaultPda, reads a.vault, writes a.vaultHolderRewards, reads a.systemProgram,
      reads a.rewardsProgram]
  -- initialize_validator_stake.rs 211-312
  | .initializeValidatorStake a =>
    [reads a.config, reads a.dunaDocumentPda, writes a.validatorStake, reads a.validatorVote, reads a.systemProgram]
  -- initialize_sol_staker_stake.rs 311-436
  | .initializeSolStakerStake a =>
    [reads a.config, reads a.dunaDocumentPda, writes a.solStakerStake, reads a.solStakerAuthorityOverride,
      writes a.validatorStake, reads a.solStakerNativeStake, reads a.sysvarStakeHistory, reads a.systemProgram,
      reads a.solStakeViewProgram]
  -- validator_stake_tokens.rs 412-565
  | .validatorStakeTokens a _ =>
    [writes a.config, writes a.holderRewardsPool, writes a.holderRewardsPoolTokenAccount, writes a.stake,
      reads a.stakeAuthority, writes a.sourceTokenAccount, signs a.sourceTokenAccountAuthority, reads a.mint,
      writes a.vaultPda, writes a.vault, writes a.vaultHolderRewards, reads a.tokenProgram, reads a.rewardsProgram]
  -- sol_staker_stake_tokens.rs 412-565
  | .solStakerStakeTokens a _ =>
    [writes a.config, writes a.holderRewardsPool, writes a.holderRewardsPoolTokenAccount, writes a.stake,
      writes a.stakeAuthority, writes a.sourceTokenAccount, signs a.sourceTokenAccountAuthority, reads a.mint,
      writes a.vaultPda, writes a.vault, writes a.vaultHolderRewards, reads a.tokenProgram, reads a.rewardsProgram]
  -- unstake_tokens.rs 380-525
  | .unstakeTokens a _ =>
    [writes a.config, writes a.holderRewardsPool, writes a.holderRewardsPoolTokenAccount, writes a.stake,
      signsWrites a.stakeAuthority, writes a.vault, writes a.vaultPda, writes a.vaultHolderRewards, reads a.mint,
      writes a.destinationTokenAccount, reads a.tokenProgram, reads a.rewardsProgram]
  -- harvest_holder_rewards.rs 319-450
  | .harvestHolderRewards a =>
    [writes a.config, writes a.holderRewardsPool, reads a.holderRewardsPoolTokenAccount, writes a.vault,
      writes a.vaultHolderRewards, writes a.vaultPda, reads a.mint, reads a.tokenProgram, reads a.paladinRewardsProgram,
      reads a.systemProgram]
  -- harvest_validator_rewards.rs 194-289
  | .harvestValidatorRewards a =>
    [writes a.config, reads a.vaultHolderRewards, writes a.validatorStake, writes a.validatorStakeAuthority]
  -- harvest_sol_staker_rewards.rs 393-545
  | .harvestSolStakerRewards a =>
    [reads a.solStakeViewProgram, writes a.config, reads a.vaultHolderRewards, writes a.solStakerStake,
      writes a.solStakerStakeAuthority, reads a.solStakerNativeStake, writes a.previousValidatorStake,
      writes a.previousValidatorStakeAuthority, writes a.currentValidatorStake, writes a.currentValidatorStakeAuthority,
      reads a.sysvarStakeHistory, match a.keeperRecipient with | some k => writes k | none => reads progId]
  -- slash_validator_stake.rs 319-448
  | .slashValidatorStake a _ =>
    [writes a.config, writes a.stake, writes a.stakeAuthority, signs a.slashAuthority, writes a.vault,
      reads a.vaultHolderRewards, reads a.vaultAuthority, writes a.mint, reads a.tokenProgram]
  -- slash_sol_staker_stake.rs 319-448
  | .slashSolStakerStake a _ =>
    [writes a.config, writes a.stake, writes a.stakeAuthority, signs a.slashAuthority, writes a.mint, writes a.vault,
      reads a.vaultHolderRewards, reads a.vaultAuthority, reads a.tokenProgram]
  -- set_authority.rs 187-278
  | .setAuthority a _ =>
    [writes a.account, signs a.authority, reads a.newAuthority]
  -- update_config.rs 168-253
  | .updateConfig a _ =>
    [writes a.config, signs a.configAuthority]
  -- sol_staker_move_tokens.rs 243-348
  | .solStakerMoveTokens a _ =>
    [writes a.config, reads a.vaultHolderRewards, signs a.solStakerAuthority, writes a.sourceSolStakerStake,
      writes a.destinationSolStakerStake]
  -- validator_override_staked_lamports.rs 239-344
  | .validatorOverrideStakedLamports a _ =>
    [writes a.config, signs a.configAuthority, writes a.validatorStake, writes a.validatorStakeAuthority,
      writes a.vaultHolderRewards]
  -- validator_sync_authority.rs 165-254
  | .validatorSyncAuthority a =>
    [writes a.config, writes a.validatorStake, writes a.validatorVote]

/-- The accounts an `…Cpi` structure hands over with the instruction, after the program's own account (same lines). -/
def Call.cpiInfos : Call → List Key
  | .initializeConfig a _ =>
    [a.config, a.mint, a.vaultPda, a.vault, a.vaultHolderRewards, a.systemProgram, a.rewardsProgram]
  | .initializeValidatorStake a =>
    [a.config, a.dunaDocumentPda, a.validatorStake, a.validatorVote, a.systemProgram]
  | .initializeSolStakerStake a =>
    [a.config, a.dunaDocumentPda, a.solStakerStake, a.solStakerAuthorityOverride, a.validatorStake, a.solStakerNativeStake,
      a.sysvarStakeHistory, a.systemProgram, a.solStakeViewProgram]
  | .validatorStakeTokens a _ =>
    [a.config, a.holderRewardsPool, a.holderRewardsPoolTokenAccount, a.stake, a.stakeAuthority, a.sourceTokenAccount,
      a.sourceTokenAccountAuthority, a.mint, a.vaultPda, a.vault, a.vaultHolderRewards, a.tokenProgram, a.rewardsProgram]
  | .solStakerStakeTokens a _ =>
    [a.config, a.holderRewardsPool, a.holderRewardsPoolTokenAccount, a.stake, a.stakeAuthority, a.sourceTokenAccount,
      a.sourceTokenAccountAuthority, a.mint, a.vaultPda, a.vault, a.vaultHolderRewards, a.tokenProgram, a.rewardsProgram]
  | .unstakeTokens a _ =>
    [a.config, a.holderRewardsPool, a.holderRewardsPoolTokenAccount, a.stake, a.stakeAuthority, a.vault, a.vaultPda,
      a.vaultHolderRewards, a.mint, a.destinationTokenAccount, a.tokenProgram, a.rewardsProgram]
  | .harvestHolderRewards a =>
    [a.config, a.holderRewardsPool, a.holderRewardsPoolTokenAccount, a.vault, a.vaultHolderRewards, a.vaultPda, a.mint,
      a.tokenProgram, a.paladinRewardsProgram, a.systemProgram]
  | .harvestValidatorRewards a =>
    [a.config, a.vaultHolderRewards, a.validatorStake, a.validatorStakeAuthority]
  | .harvestSolStakerRewards a =>
    [a.solStakeViewProgram, a.config, a.vaultHolderRewards, a.solStakerStake, a.solStakerStakeAuthority,
      a.solStakerNativeStake, a.previousValidatorStake, a.previousValidatorStakeAuthority, a.currentValidatorStake,
      a.currentValidatorStakeAuthority, a.sysvarStakeHistory] ++ a.keeperRecipient.toList
  | .slashValidatorStake a _ =>
    [a.config, a.stake, a.stakeAuthority, a.slashAuthority, a.vault, a.vaultHolderRewards, a.vaultAuthority, a.mint,
      a.tokenProgram]
  | .slashSolStakerStake a _ =>
    [a.config, a.stake, a.stakeAuthority, a.slashAuthority, a.mint, a.vault, a.vaultHolderRewards, a.vaultAuthority,
      a.tokenProgram]
  | .setAuthority a _ =>
    [a.account, a.authority, a.newAuthority]
  | .updateConfig a _ =>
    [a.config, a.configAuthority]
  | .solStakerMoveTokens a _ =>
    [a.config, a.vaultHolderRewards, a.solStakerAuthority, a.sourceSolStakerStake, a.destinationSolStakerStake]
  | .validatorOverrideStakedLamports a _ =>
    [a.config, a.configAuthority, a.validatorStake, a.validatorStakeAuthority, a.vaultHolderRewards]
  | .validatorSyncAuthority a =>
    [a.config, a.validatorStake, a.validatorVote]

/-- What an `…CpiBuilder` collects in `invoke_signed`: no account has a default, only the keeper is optional. -/
def CpiBuilder.call (b : CpiBuilder) : Kind → Option Call
  -- initialize_config.rs 463-679
  | .initializeConfig => do
    let config ← b.accounts .config
    let mint ← b.accounts .mint
    let vaultPda ← b.accounts .vaultPda
    let vault ← b.accounts .vault
    let vaultHolderRewards ← b.accounts .vaultHolderRewards
    let systemProgram ← b.accounts .systemProgram
    let rewardsProgram ← b.accounts .rewardsProgram
    let slashAuthority ← b.args .slashAuthority
    let configAuthority ← b.args .configAuthority
    let cooldownTimeSeconds ← b.args .cooldownTimeSeconds
    let maxDeactivationBasisPoints ← b.args .maxDeactivationBasisPoints
    let syncRewardsLamports ← b.args .syncRewardsLamports
    let dunaDocumentHash ← b.args .dunaDocumentHash
    return .initializeConfig
      { config, mint, vaultPda, vault, vaultHolderRewards, systemProgram, rewardsProgram }
      { slashAuthority, configAuthority, cooldownTimeSeconds, maxDeactivationBasisPoints, syncRewardsLamports,
        dunaDocumentHash }
  -- initialize_validator_stake.rs 328-457
  | .initializeValidatorStake => do
    let config ← b.accounts .config
    let dunaDocumentPda ← b.accounts .dunaDocumentPda
    let validatorStake ← b.accounts .validatorStake
    let validatorVote ← b.accounts .validatorVote
    let systemProgram ← b.accounts .systemProgram
    return .initializeValidatorStake
      { config, dunaDocumentPda, validatorStake, validatorVote, systemProgram }
  -- initialize_sol_staker_stake.rs 456-645
  | .initializeSolStakerStake => do
    let config ← b.accounts .config
    let dunaDocumentPda ← b.accounts .dunaDocumentPda
    let solStakerStake ← b.accounts .solStakerStake
    let solStakerAuthorityOverride ← b.accounts .solStakerAuthorityOverride
    let validatorStake ← b.accounts .validatorStake
    let solStakerNativeStake ← b.accounts .solStakerNativeStake
    let sysvarStakeHistory ← b.accounts .sysvarStakeHistory
    let systemProgram ← b.accounts .systemProgram
    let solStakeViewProgram ← b.accounts .solStakeViewProgram
    return .initializeSolStakerStake
      { config, dunaDocumentPda, solStakerStake, solStakerAuthorityOverride, validatorStake, solStakerNativeStake,
        sysvarStakeHistory, systemProgram, solStakeViewProgram }
  -- validator_stake_tokens.rs 589-834
  | .validatorStakeTokens => do
    let config ← b.accounts .config
    let holderRewardsPool ← b.accounts .holderRewardsPool
    let holderRewardsPoolTokenAccount ← b.accounts .holderRewardsPoolTokenAccount
    let validatorStake ← b.accounts .validatorStake
    let validatorStakeAuthority ← b.accounts .validatorStakeAuthority
    let sourceTokenAccount ← b.accounts .sourceTokenAccount
    let sourceTokenAccountAuthority ← b.accounts .sourceTokenAccountAuthority
    let mint ← b.accounts .mint
    let vaultPda ← b.accounts .vaultPda
    let vault ← b.accounts .vault
    let vaultHolderRewards ← b.accounts .vaultHolderRewards
    let tokenProgram ← b.accounts .tokenProgram
    let rewardsProgram ← b.accounts .rewardsProgram
    let amount ← b.args .amount
    return .validatorStakeTokens
      { config, holderRewardsPool, holderRewardsPoolTokenAccount, stake := validatorStake,
        stakeAuthority := validatorStakeAuthority, sourceTokenAccount, sourceTokenAccountAuthority, mint, vaultPda, vault,
        vaultHolderRewards, tokenProgram, rewardsProgram } amount
  -- sol_staker_stake_tokens.rs 589-834
  | .solStakerStakeTokens => do
    let config ← b.accounts .config
    let holderRewardsPool ← b.accounts .holderRewardsPool
    let holderRewardsPoolTokenAccount ← b.accounts .holderRewardsPoolTokenAccount
    let solStakerStake ← b.accounts .solStakerStake
    let solStakerStakeAuthority ← b.accounts .solStakerStakeAuthority
    let sourceTokenAccount ← b.accounts .sourceTokenAccount
    let sourceTokenAccountAuthority ← b.accounts .sourceTokenAccountAuthority
    let mint ← b.accounts .mint
    let vaultPda ← b.accounts .vaultPda
    let vault ← b.accounts .vault
    let vaultHolderRewards ← b.accounts .vaultHolderRewards
    let tokenProgram ← b.accounts .tokenProgram
    let rewardsProgram ← b.accounts .rewardsProgram
    let amount ← b.args .amount
    return .solStakerStakeTokens
      { config, holderRewardsPool, holderRewardsPoolTokenAccount, stake := solStakerStake,
        stakeAuthority := solStakerStakeAuthority, sourceTokenAccount, sourceTokenAccountAuthority, mint, vaultPda, vault,
        vaultHolderRewards, tokenProgram, rewardsProgram } amount
  -- unstake_tokens.rs 548-772
  | .unstakeTokens => do
    let config ← b.accounts .config
    let holderRewardsPool ← b.accounts .holderRewardsPool
    let holderRewardsPoolTokenAccount ← b.accounts .holderRewardsPoolTokenAccount
    let stake ← b.accounts .stake
    let stakeAuthority ← b.accounts .stakeAuthority
    let vault ← b.accounts .vault
    let vaultPda ← b.accounts .vaultPda
    let vaultHolderRewards ← b.accounts .vaultHolderRewards
    let mint ← b.accounts .mint
    let destinationTokenAccount ← b.accounts .destinationTokenAccount
    let tokenProgram ← b.accounts .tokenProgram
    let rewardsProgram ← b.accounts .rewardsProgram
    let amount ← b.args .amount
    return .unstakeTokens
      { config, holderRewardsPool, holderRewardsPoolTokenAccount, stake, stakeAuthority, vault, vaultPda, vaultHolderRewards,
        mint, destinationTokenAccount, tokenProgram, rewardsProgram } amount
  -- harvest_holder_rewards.rs 471-661
  | .harvestHolderRewards => do
    let config ← b.accounts .config
    let holderRewardsPool ← b.accounts .holderRewardsPool
    let holderRewardsPoolTokenAccount ← b.accounts .holderRewardsPoolTokenAccount
    let vault ← b.accounts .vault
    let vaultHolderRewards ← b.accounts .vaultHolderRewards
    let vaultPda ← b.accounts .vaultPda
    let mint ← b.accounts .mint
    let tokenProgram ← b.accounts .tokenProgram
    let paladinRewardsProgram ← b.accounts .paladinRewardsProgram
    let systemProgram ← b.accounts .systemProgram
    return .harvestHolderRewards
      { config, holderRewardsPool, holderRewardsPoolTokenAccount, vault, vaultHolderRewards, vaultPda, mint, tokenProgram,
        paladinRewardsProgram, systemProgram }
  -- harvest_validator_rewards.rs 304-418
  | .harvestValidatorRewards => do
    let config ← b.accounts .config
    let vaultHolderRewards ← b.accounts .vaultHolderRewards
    let validatorStake ← b.accounts .validatorStake
    let validatorStakeAuthority ← b.accounts .validatorStakeAuthority
    return .harvestValidatorRewards
      { config, vaultHolderRewards, validatorStake, validatorStakeAuthority }
  -- harvest_sol_staker_rewards.rs 568-802
  | .harvestSolStakerRewards => do
    let solStakeViewProgram ← b.accounts .solStakeViewProgram
    let config ← b.accounts .config
    let vaultHolderRewards ← b.accounts .vaultHolderRewards
    let solStakerStake ← b.accounts .solStakerStake
    let solStakerStakeAuthority ← b.accounts .solStakerStakeAuthority
    let solStakerNativeStake ← b.accounts .solStakerNativeStake
    let previousValidatorStake ← b.accounts .previousValidatorStake
    let previousValidatorStakeAuthority ← b.accounts .previousValidatorStakeAuthority
    let currentValidatorStake ← b.accounts .currentValidatorStake
    let currentValidatorStakeAuthority ← b.accounts .currentValidatorStakeAuthority
    let sysvarStakeHistory ← b.accounts .sysvarStakeHistory
    let keeperRecipient := b.accounts .keeperRecipient
    return .harvestSolStakerRewards
      { solStakeViewProgram, config, vaultHolderRewards, solStakerStake, solStakerStakeAuthority, solStakerNativeStake,
        previousValidatorStake, previousValidatorStakeAuthority, currentValidatorStake, currentValidatorStakeAuthority,
        sysvarStakeHistory, keeperRecipient }
  -- slash_validator_stake.rs 468-655
  | .slashValidatorStake => do
    let config ← b.accounts .config
    let validatorStake ← b.accounts .validatorStake
    let validatorStakeAuthority ← b.accounts .validatorStakeAuthority
    let slashAuthority ← b.accounts .slashAuthority
    let vault ← b.accounts .vault
    let vaultHolderRewards ← b.accounts .vaultHolderRewards
    let vaultAuthority ← b.accounts .vaultAuthority
    let mint ← b.accounts .mint
    let tokenProgram ← b.accounts .tokenProgram
    let amount ← b.args .amount
    return .slashValidatorStake
      { config, stake := validatorStake, stakeAuthority := validatorStakeAuthority, slashAuthority, vault,
        vaultHolderRewards, vaultAuthority, mint, tokenProgram } amount
  -- slash_sol_staker_stake.rs 468-655
  | .slashSolStakerStake => do
    let config ← b.accounts .config
    let solStakerStake ← b.accounts .solStakerStake
    let solStakerStakeAuthority ← b.accounts .solStakerStakeAuthority
    let slashAuthority ← b.accounts .slashAuthority
    let mint ← b.accounts .mint
    let vault ← b.accounts .vault
    let vaultHolderRewards ← b.accounts .vaultHolderRewards
    let vaultAuthority ← b.accounts .vaultAuthority
    let tokenProgram ← b.accounts .tokenProgram
    let amount ← b.args .amount
    return .slashSolStakerStake
      { config, stake := solStakerStake, stakeAuthority := solStakerStakeAuthority, slashAuthority, mint, vault,
        vaultHolderRewards, vaultAuthority, tokenProgram } amount
  -- set_authority.rs 292-402
  | .setAuthority => do
    let account ← b.accounts .account
    let authority ← b.accounts .authority
    let newAuthority ← b.accounts .newAuthority
    let authorityType ← b.args .authorityType
    return .setAuthority
      { account, authority, newAuthority } authorityType
  -- update_config.rs 266-364
  | .updateConfig => do
    let config ← b.accounts .config
    let configAuthority ← b.accounts .configAuthority
    let configField ← b.args .configField
    return .updateConfig
      { config, configAuthority } configField
  -- sol_staker_move_tokens.rs 364-503
  | .solStakerMoveTokens => do
    let config ← b.accounts .config
    let vaultHolderRewards ← b.accounts .vaultHolderRewards
    let solStakerAuthority ← b.accounts .solStakerAuthority
    let sourceSolStakerStake ← b.accounts .sourceSolStakerStake
    let destinationSolStakerStake ← b.accounts .destinationSolStakerStake
    let amount ← b.args .amount
    return .solStakerMoveTokens
      { config, vaultHolderRewards, solStakerAuthority, sourceSolStakerStake, destinationSolStakerStake } amount
  -- validator_override_staked_lamports.rs 360-503
  | .validatorOverrideStakedLamports => do
    let config ← b.accounts .config
    let configAuthority ← b.accounts .configAuthority
    let validatorStake ← b.accounts .validatorStake
    let validatorStakeAuthority ← b.accounts .validatorStakeAuthority
    let vaultHolderRewards ← b.accounts .vaultHolderRewards
    let amountMin ← b.args .amountMin
    return .validatorOverrideStakedLamports
      { config, configAuthority, validatorStake, validatorStakeAuthority, vaultHolderRewards } amountMin
  -- validator_sync_authority.rs 268-367
  | .validatorSyncAuthority => do
    let config ← b.accounts .config
    let validatorStake ← b.accounts .validatorStake
    let validatorVote ← b.accounts .validatorVote
    return .validatorSyncAuthority
      { config, validatorStake, validatorVote }

/-- `invoke_signed_with_remaining_accounts`: the flags of a remaining account are taken as `is_signer: .1, is_writable: .2`
(e.g. `harvest_sol_staker_rewards.rs` 503-509). With no seeds `invoke` is called, which is `invoke_signed` with none. -/
def Call.invoke (c : Call) (program : Key) (seeds : List (List (List UInt8))) (remaining : List Extra) : Invocation where
  instruction :=
    { program := progId, metas := c.cpiMetas ++ remaining.map fun r => { key := r.1, signer := r.2.1, writable := r.2.2 }
      data := c.data }
  infos := program :: c.cpiInfos ++ remaining.map (·.1)
  seeds := seeds

/-! ## `…CpiBuilder` -/

/-- A call of a method of an `…CpiBuilder`. -/
inductive CpiSetter where
  | account (f : Field) (k : Key)
  | keeper (k : Option Key)
  | arg (a : Arg) (v : a.Val)
  /-- `.add_remaining_account(account, is_writable, is_signer)` pushes `(account, is_writable, is_signer)`, e.g.
  `harvest_sol_staker_rewards.rs` 699-711. -/
  | remainingAccount (k : Key) (isWritable isSigner : Bool)
  /-- `.add_remaining_accounts(&[…])`. -/
  | remainingAccounts (rs : List Extra)

/-- The setters, as those of `Builder`. -/
def CpiBuilder.step (b : CpiBuilder) : CpiSetter → CpiBuilder
  | .account f k => { b with accounts := Function.update b.accounts f (some k) }
  | .keeper k => { b with accounts := Function.update b.accounts .keeperRecipient k }
  | .arg a v => { b with args := Function.update b.args a (some v) }
  | .remainingAccount k isWritable isSigner => { b with remaining := b.remaining ++ [(k, isWritable, isSigner)] }
  | .remainingAccounts rs => { b with remaining := b.remaining ++ rs }

/-- `invoke_signed(seeds)`; `invoke()` is `invoke_signed(&[])`. -/
def CpiBuilder.invoke (b : CpiBuilder) (kind : Kind) (seeds : List (List (List UInt8))) : Option Invocation := do
  let c ← b.call kind
  return c.invoke b.program seeds b.remaining

end Verif.Client
