import Verif.Model.Exec
import Verif.Model.Layout
/-!
# The generated Rust client

Models `/repo/clients/rust/src`: the instruction constructors of `generated/instructions/*.rs`
(`instruction_with_remaining_accounts` with no remaining accounts), the argument types of `generated/types/*.rs`, the account
decoders of `generated/accounts/*.rs` and `hooked/nullable_address.rs`.

The `…Builder` and `…Cpi` wrappers of the same files are in `Model/ClientBuild.lean`, `generated/errors` is in
`Model/Errors.lean`, serialising accounts and `hooked/nullable_u64.rs` in `Model/ClientAccounts.lean`. Not modelled: the `anchor`
and `serde` features.
-/

namespace Verif.Client

open Verif

/-! ## Requests -/

/-- `solana_program::instruction::AccountMeta` (external). -/
structure Meta where
  key : Key
  signer : Bool
  writable : Bool
  deriving DecidableEq, Repr

/-- `AccountMeta::new(k, false)`. -/
def writes (k : Key) : Meta := ⟨k, false, true⟩
/-- `AccountMeta::new_readonly(k, false)`. -/
def reads (k : Key) : Meta := ⟨k, false, false⟩
/-- `AccountMeta::new(k, true)`. -/
def signsWrites (k : Key) : Meta := ⟨k, true, true⟩
/-- `AccountMeta::new_readonly(k, true)`. -/
def signs (k : Key) : Meta := ⟨k, true, false⟩

/-- `solana_program::instruction::Instruction` (external). -/
structure Request where
  program : Key
  metas : List Meta
  data : List UInt8

/-- The instruction the program sees when the request is sent in a transaction of its own with fee payer `payer` and all
signatures it asks for: an address signs or is writable if some mention of it says so, and the fee payer is both (message
compilation in the Solana SDK, external). -/
def Request.ix (r : Request) (payer : Key) : Ix where
  data := r.data
  ctx :=
    { accts := r.metas.map (·.key)
      signer := fun k => k = payer || r.metas.any fun m => m.key = k && m.signer
      writable := fun k => k = payer || r.metas.any fun m => m.key = k && m.writable }

/-! ## Borsh (external): integers little-endian, arrays and keys as they are, enums as one byte and the payload -/

def borshU8 (n : Nat) : List UInt8 := leBytes 1 n
def borshU16 (n : Nat) : List UInt8 := leBytes 2 n
def borshU64 (n : Nat) : List UInt8 := leBytes 8 n
def borshEnum (index : Nat) (payload : List UInt8) : List UInt8 := leBytes 1 index ++ payload

/-! ## Instructions -/

/-- `InitializeConfigInstructionArgs`, `initialize_config.rs` 102-109. Keys and the hash are 32-byte strings. -/
structure InitializeConfigInstructionArgs where
  slashAuthority : List UInt8
  configAuthority : List UInt8
  cooldownTimeSeconds : Nat
  maxDeactivationBasisPoints : Nat
  syncRewardsLamports : Nat
  dunaDocumentHash : List UInt8

/-- `AuthorityType`, `types/authority_type.rs` 25-28. -/
inductive AuthorityType where
  | config
  | slash

/-- Derived `BorshSerialize`: the variants are numbered in order. -/
def AuthorityType.borsh : AuthorityType → List UInt8
  | .config => borshEnum 0 []
  | .slash => borshEnum 1 []

/-- `ConfigField`, `types/config_field.rs` 13-17. -/
inductive ConfigField where
  | cooldownTimeSeconds (v : Nat)
  | maxDeactivationBasisPoints (v : Nat)
  | syncRewardsLamports (v : Nat)

def ConfigField.borsh : ConfigField → List UInt8
  | .cooldownTimeSeconds v => borshEnum 0 (borshU64 v)
  | .maxDeactivationBasisPoints v => borshEnum 1 (borshU16 v)
  | .syncRewardsLamports v => borshEnum 2 (borshU64 v)

/-- A call of one of the client's constructors. The structures of accounts have the same fields in the client as in the
program (`instruction.rs` 12-798), so they are reused. -/
inductive Call where
  | initializeConfig (a : InitializeConfigAccts) (args : InitializeConfigInstructionArgs)
  | initializeValidatorStake (a : InitializeValidatorStakeAccts)
  | initializeSolStakerStake (a : InitializeSolStakerStakeAccts)
  | validatorStakeTokens (a : StakeTokensAccts) (amount : Nat)
  | solStakerStakeTokens (a : StakeTokensAccts) (amount : Nat)
  | unstakeTokens (a : UnstakeTokensAccts) (amount : Nat)
  | harvestHolderRewards (a : HarvestHolderRewardsAccts)
  | harvestValidatorRewards (a : HarvestValidatorRewardsAccts)
  | harvestSolStakerRewards (a : HarvestSolStakerRewardsAccts)
  | slashValidatorStake (a : SlashAccts) (amount : Nat)
  | slashSolStakerStake (a : SlashAccts) (amount : Nat)
  | setAuthority (a : SetAuthorityAccts) (authorityType : AuthorityType)
  | updateConfig (a : UpdateConfigAccts) (field : ConfigField)
  | solStakerMoveTokens (a : SolStakerMoveTokensAccts) (amount : Nat)
  | validatorOverrideStakedLamports (a : ValidatorOverrideStakedLamportsAccts) (amountMin : Nat)
  | validatorSyncAuthority (a : ValidatorSyncAuthorityAccts)

/-- The account metas, in order. -/
def Call.metas : Call → List Meta
  -- initialize_config.rs 44-69
  | .initializeConfig a _ =>
    [writes a.config, reads a.mint, writes a.vaultPda, reads a.vault, writes a.vaultHolderRewards, reads a.systemProgram,
      reads a.rewardsProgram]
  -- initialize_validator_stake.rs 35-54
  | .initializeValidatorStake a =>
    [reads a.config, reads a.dunaDocumentPda, writes a.validatorStake, reads a.validatorVote, reads a.systemProgram]
  -- initialize_sol_staker_stake.rs 43-78
  | .initializeSolStakerStake a =>
    [reads a.config, reads a.dunaDocumentPda, writes a.solStakerStake, reads a.solStakerAuthorityOverride,
      writes a.validatorStake, reads a.solStakerNativeStake, reads a.sysvarStakeHistory, reads a.systemProgram,
      reads a.solStakeViewProgram]
  -- validator_stake_tokens.rs 55-104
  | .validatorStakeTokens a _ =>
    [writes a.config, writes a.holderRewardsPool, writes a.holderRewardsPoolTokenAccount, writes a.stake,
      reads a.stakeAuthority, writes a.sourceTokenAccount, signs a.sourceTokenAccountAuthority, reads a.mint,
      writes a.vaultPda, writes a.vault, writes a.vaultHolderRewards, reads a.tokenProgram, reads a.rewardsProgram]
  -- sol_staker_stake_tokens.rs 55-104
  | .solStakerStakeTokens a _ =>
    [writes a.config, writes a.holderRewardsPool, writes a.holderRewardsPoolTokenAccount, writes a.stake,
      writes a.stakeAuthority, writes a.sourceTokenAccount, signs a.sourceTokenAccountAuthority, reads a.mint,
      writes a.vaultPda, writes a.vault, writes a.vaultHolderRewards, reads a.tokenProgram, reads a.rewardsProgram]
  -- unstake_tokens.rs 53-97
  | .unstakeTokens a _ =>
    [writes a.config, writes a.holderRewardsPool, writes a.holderRewardsPoolTokenAccount, writes a.stake,
      signsWrites a.stakeAuthority, writes a.vault, writes a.vaultPda, writes a.vaultHolderRewards, reads a.mint,
      writes a.destinationTokenAccount, reads a.tokenProgram, reads a.rewardsProgram]
  -- harvest_holder_rewards.rs 45-82
  | .harvestHolderRewards a =>
    [writes a.config, writes a.holderRewardsPool, reads a.holderRewardsPoolTokenAccount, writes a.vault,
      writes a.vaultHolderRewards, writes a.vaultPda, reads a.mint, reads a.tokenProgram, reads a.paladinRewardsProgram,
      reads a.systemProgram]
  -- harvest_validator_rewards.rs 33-48
  | .harvestValidatorRewards a =>
    [writes a.config, reads a.vaultHolderRewards, writes a.validatorStake, writes a.validatorStakeAuthority]
  -- harvest_sol_staker_rewards.rs 49-103
  | .harvestSolStakerRewards a =>
    [reads a.solStakeViewProgram, writes a.config, reads a.vaultHolderRewards, writes a.solStakerStake,
      writes a.solStakerStakeAuthority, reads a.solStakerNativeStake, writes a.previousValidatorStake,
      writes a.previousValidatorStakeAuthority, writes a.currentValidatorStake, writes a.currentValidatorStakeAuthority,
      reads a.sysvarStakeHistory, match a.keeperRecipient with | some k => writes k | none => reads progId]
  -- slash_validator_stake.rs 47-80
  | .slashValidatorStake a _ =>
    [writes a.config, writes a.stake, writes a.stakeAuthority, signs a.slashAuthority, writes a.vault,
      reads a.vaultHolderRewards, reads a.vaultAuthority, writes a.mint, reads a.tokenProgram]
  -- slash_sol_staker_stake.rs 47-80
  | .slashSolStakerStake a _ =>
    [writes a.config, writes a.stake, writes a.stakeAuthority, signs a.slashAuthority, writes a.mint, writes a.vault,
      reads a.vaultHolderRewards, reads a.vaultAuthority, reads a.tokenProgram]
  -- set_authority.rs 36-47
  | .setAuthority a _ => [writes a.account, signs a.authority, reads a.newAuthority]
  -- update_config.rs 34-41
  | .updateConfig a _ => [writes a.config, signs a.configAuthority]
  -- sol_staker_move_tokens.rs 39-58
  | .solStakerMoveTokens a _ =>
    [writes a.config, reads a.vaultHolderRewards, signs a.solStakerAuthority, writes a.sourceSolStakerStake,
      writes a.destinationSolStakerStake]
  -- validator_override_staked_lamports.rs 39-58
  | .validatorOverrideStakedLamports a _ =>
    [writes a.config, signs a.configAuthority, writes a.validatorStake, writes a.validatorStakeAuthority,
      writes a.vaultHolderRewards]
  -- validator_sync_authority.rs 31-42
  | .validatorSyncAuthority a => [writes a.config, writes a.validatorStake, writes a.validatorVote]

/-- The instruction data: `…InstructionData::new()` (the discriminator) followed by the arguments, in the same files. -/
def Call.data : Call → List UInt8
  | .initializeConfig _ x =>
    borshU8 0 ++ (x.slashAuthority ++ (x.configAuthority ++ (borshU64 x.cooldownTimeSeconds ++
      (borshU16 x.maxDeactivationBasisPoints ++ (borshU64 x.syncRewardsLamports ++ x.dunaDocumentHash)))))
  | .initializeValidatorStake _ => borshU8 1
  | .validatorStakeTokens _ amount => borshU8 2 ++ borshU64 amount
  | .harvestHolderRewards _ => borshU8 3
  | .harvestValidatorRewards _ => borshU8 4
  | .slashValidatorStake _ amount => borshU8 5 ++ borshU64 amount
  | .setAuthority _ t => borshU8 6 ++ t.borsh
  | .updateConfig _ f => borshU8 7 ++ f.borsh
  | .initializeSolStakerStake _ => borshU8 8
  | .solStakerStakeTokens _ amount => borshU8 9 ++ borshU64 amount
  | .harvestSolStakerRewards _ => borshU8 10
  | .unstakeTokens _ amount => borshU8 11 ++ borshU64 amount
  | .slashSolStakerStake _ amount => borshU8 12 ++ borshU64 amount
  | .solStakerMoveTokens _ amount => borshU8 13 ++ borshU64 amount
  | .validatorOverrideStakedLamports _ amountMin => borshU8 14 ++ borshU64 amountMin
  | .validatorSyncAuthority _ => borshU8 15

/-- `instruction(…)`. `PALADIN_STAKE_PROGRAM_ID`, `programs.rs` 11-12, is the program's id (`/repo/program/src/lib.rs` 8). -/
def Call.request (c : Call) : Request := { program := progId, metas := c.metas, data := c.data }

/-! ## Accounts

`from_bytes`, i.e. derived `BorshDeserialize`: the fields are read one after the other from the front of the data; bytes left
over are ignored, and the discriminator is read but not compared with anything. -/

/-- A Borsh reader: a value and the remaining bytes, or `none` (`UnexpectedEof`). -/
abbrev Reader (α : Type) := List UInt8 → Option (α × List UInt8)

/-- `[u8; n]` and `Pubkey`. -/
def readBytes (n : Nat) : Reader (List UInt8) := fun b =>
  if n ≤ b.length then some (b.take n, b.drop n) else none

/-- `u8`, `u16`, `u64`, `u128` of `n` bytes. -/
def readInt (n : Nat) : Reader Nat := fun b =>
  if n ≤ b.length then some (leNat (b.take n), b.drop n) else none

/-- `NullableAddress::value`, `hooked/nullable_address.rs` 8-16: 32 zero bytes stand for `None`. -/
def nullable (key : List UInt8) : Option (List UInt8) :=
  if key = List.replicate 32 0 then none else some key

/-- `Delegation`, `types/delegation.rs` 14-30. -/
structure ClientDelegation where
  stakedAmount : Nat
  effectiveAmount : Nat
  unstakeCooldown : Nat
  authority : List UInt8
  validatorVote : List UInt8
  lastSeenHolderRewardsPerToken : Nat
  lastSeenStakeRewardsPerToken : Nat

/-- `Config`, `accounts/config.rs` 15-33. -/
structure ClientConfig where
  discriminator : List UInt8
  authority : List UInt8
  slashAuthority : List UInt8
  vault : List UInt8
  cooldownTimeSeconds : Nat
  tokenAmountEffective : Nat
  syncRewardsLamports : Nat
  lamportsLast : Nat
  dunaDocumentHash : List UInt8
  accumulatedStakeRewardsPerToken : Nat
  maxDeactivationBasisPoints : Nat
  vaultAuthorityBump : Nat
  padding : List UInt8

/-- `ValidatorStake`, `accounts/validator_stake.rs` 14-19. -/
structure ClientValidatorStake where
  discriminator : List UInt8
  delegation : ClientDelegation
  totalStakedLamportsAmount : Nat
  totalStakedLamportsAmountMin : Nat

/-- `SolStakerStake`, `accounts/sol_staker_stake.rs` 15-24. -/
structure ClientSolStakerStake where
  discriminator : List UInt8
  delegation : ClientDelegation
  lamportsAmount : Nat
  solStake : List UInt8

def readDelegation : Reader ClientDelegation := fun b => do
  let (stakedAmount, b) ← readInt 8 b
  let (effectiveAmount, b) ← readInt 8 b
  let (unstakeCooldown, b) ← readInt 8 b
  let (authority, b) ← readBytes 32 b
  let (validatorVote, b) ← readBytes 32 b
  let (lastHolder, b) ← readInt 16 b
  let (lastStake, b) ← readInt 16 b
  return ({ stakedAmount, effectiveAmount, unstakeCooldown, authority, validatorVote
            lastSeenHolderRewardsPerToken := lastHolder, lastSeenStakeRewardsPerToken := lastStake }, b)

/-- `Config::from_bytes`, `accounts/config.rs` 39-42. -/
def configFromBytes (b : List UInt8) : Option ClientConfig := do
  let (discriminator, b) ← readBytes 8 b
  let (authority, b) ← readBytes 32 b
  let (slashAuthority, b) ← readBytes 32 b
  let (vault, b) ← readBytes 32 b
  let (cooldownTimeSeconds, b) ← readInt 8 b
  let (tokenAmountEffective, b) ← readInt 8 b
  let (syncRewardsLamports, b) ← readInt 8 b
  let (lamportsLast, b) ← readInt 8 b
  let (dunaDocumentHash, b) ← readBytes 32 b
  let (accumulatedStakeRewardsPerToken, b) ← readInt 16 b
  let (maxDeactivationBasisPoints, b) ← readInt 2 b
  let (vaultAuthorityBump, b) ← readInt 1 b
  let (padding, _) ← readBytes 5 b
  return { discriminator, authority, slashAuthority, vault, cooldownTimeSeconds, tokenAmountEffective, syncRewardsLamports
           lamportsLast, dunaDocumentHash, accumulatedStakeRewardsPerToken, maxDeactivationBasisPoints, vaultAuthorityBump
           padding }

/-- `ValidatorStake::from_bytes`, `accounts/validator_stake.rs` 25-28. -/
def validatorStakeFromBytes (b : List UInt8) : Option ClientValidatorStake := do
  let (discriminator, b) ← readBytes 8 b
  let (delegation, b) ← readDelegation b
  let (total, b) ← readInt 8 b
  let (min, _) ← readInt 8 b
  return { discriminator, delegation, totalStakedLamportsAmount := total, totalStakedLamportsAmountMin := min }

/-- `SolStakerStake::from_bytes`, `accounts/sol_staker_stake.rs` 30-33. -/
def solStakerStakeFromBytes (b : List UInt8) : Option ClientSolStakerStake := do
  let (discriminator, b) ← readBytes 8 b
  let (delegation, b) ← readDelegation b
  let (lamportsAmount, b) ← readInt 8 b
  let (solStake, _) ← readBytes 32 b
  return { discriminator, delegation, lamportsAmount, solStake }

end Verif.Client
