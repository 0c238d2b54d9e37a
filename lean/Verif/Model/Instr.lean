import Verif.Model.Shared
/-!
# The sixteen instruction handlers

Models `/repo/program/src/processor/*.rs` one file at a time. Account structures list the accounts in the
order of `/repo/program/src/instruction.rs` 12-798.

A handler that has borrowed the data of an account mutably cannot borrow it a second time through another position of the account
list: `try_borrow_data` and `try_borrow_mut_data` then fail with `AccountBorrowFailed`. This is checked wherever it can happen, that is,
unless the checks made before rule out that the two accounts are the same.
-/

namespace Verif

/-! ## initialize_config.rs -/

/-- Accounts of `InitializeConfig`, `instruction.rs` 13-52. -/
structure InitializeConfigAccts where
  config : Key
  mint : Key
  vaultPda : Key
  vault : Key
  vaultHolderRewards : Key
  systemProgram : Key
  rewardsProgram : Key

/-- Arguments of `InitializeConfig`, `instruction.rs` 53-60. -/
structure InitializeConfigArgs where
  slashAuthority : Key
  configAuthority : Key
  cooldownTime : Nat
  maxBps : Nat
  syncRewards : Nat
  dunaHash : List UInt8
  deriving DecidableEq, Repr

/-- The config account must hold exactly `Config::LEN` bytes whose first eight are zero,
`initialize_config.rs` 117-127. -/
def checkConfigUninit (d : Data) : Res Unit :=
  if d.len ≠ configLen then .error (.stake .invalidAccountDataLength)
  else match d with
    | .bytes b => require (b.take 8 = List.replicate 8 0) .accountAlreadyInitialized
    | _ => .error .accountAlreadyInitialized

/-- `process_initialize_config`, `initialize_config.rs` 20-160. -/
def initializeConfig (env : Env) (ctx : Ctx) (w : World) (a : InitializeConfigAccts)
    (x : InitializeConfigArgs) : Res World := do
  -- 35-36
  let _ ← unpackMint w a.mint
  -- 39-48
  require (a.vaultPda = env.vaultAuth a.config) (.stake .incorrectVaultPdaAccount)
  -- 51-55
  require ((w a.vaultPda).data.isEmpty = true) .accountAlreadyInitialized
  -- 57-61
  let w ← systemAssign ctx w a.vaultPda
  -- 64-69
  require (a.vaultHolderRewards = .holderRewardsPda a.vaultPda) (.stake .invalidVaultHolderRewardsSeeds)
  -- 78-104
  let vault ← unpackToken w a.vault
  require (vault.owner = env.vaultAuth a.config) (.stake .invalidTokenOwner)
  require (vault.closeAuthority = none) (.stake .closeAuthorityNotNone)
  require (vault.delegate = none) (.stake .delegateNotNone)
  require (vault.mint = a.mint) (.stake .invalidMint)
  require (vault.amount = 0) (.stake .amountGreaterThanZero)
  -- 111
  require (a.config ≠ a.mint ∧ a.config ≠ a.vault) .accountBorrowFailed
  -- 112-116
  require ((w a.config).owner = progId) .invalidAccountOwner
  -- 117-127
  checkConfigUninit (w a.config).data
  -- 128-132
  require (env.rentMin configLen ≤ (w a.config).lamports) .accountNotRentExempt
  -- 135-140
  require (x.maxBps ≤ maxBasisPoints) .invalidArgument
  -- 143-157
  setData w a.config (.config
    { authority := x.configAuthority
      slashAuthority := x.slashAuthority
      vault := a.vault
      cooldownTime := x.cooldownTime
      effTotal := 0
      lamportsLast := (w a.config).lamports
      acc := 0
      maxBps := x.maxBps
      dunaHash := x.dunaHash
      syncRewards := x.syncRewards
      bump := env.vaultBump a.config })

/-! ## initialize_validator_stake.rs -/

/-- Accounts of `InitializeValidatorStake`, `instruction.rs` 67-91. -/
structure InitializeValidatorStakeAccts where
  config : Key
  dunaDocumentPda : Key
  validatorStake : Key
  validatorVote : Key
  systemProgram : Key

/-- `process_initialize_validator_stake`, `initialize_validator_stake.rs` 28-142. -/
def initializeValidatorStake (env : Env) (ctx : Ctx) (w : World) (a : InitializeValidatorStakeAccts) :
    Res World := do
  -- 37-49
  require ((w a.config).owner = progId) .invalidAccountOwner
  let c ← unpackConfig w a.config
  -- 54-65
  let withdrawAuthority ← unpackVote w a.validatorVote
  -- 67-71
  checkDuna w withdrawAuthority a.dunaDocumentPda c.dunaHash
  -- 79-93
  require (a.validatorStake = .validatorPda a.validatorVote a.config) .invalidSeeds
  require ((w a.validatorStake).data.isEmpty = true) .accountAlreadyInitialized
  -- 96-101
  require (env.rentMin validatorLen ≤ (w a.validatorStake).lamports) .accountNotRentExempt
  -- 110-119
  let w ← systemAllocate ctx w a.validatorStake validatorLen
  let w ← systemAssign ctx w a.validatorStake
  -- 122-139
  setData w a.validatorStake (.validator
    { del :=
        { staked := 0
          effective := 0
          cooldown := 0
          authority := withdrawAuthority
          vote := a.validatorVote
          lastHolder := 0
          lastStake := 0 }
      total := 0
      min := 0 })

/-! ## initialize_sol_staker_stake.rs -/

/-- Accounts of `InitializeSolStakerStake`, `instruction.rs` 371-416. -/
structure InitializeSolStakerStakeAccts where
  config : Key
  dunaDocumentPda : Key
  solStakerStake : Key
  solStakerAuthorityOverride : Key
  validatorStake : Key
  solStakerNativeStake : Key
  sysvarStakeHistory : Key
  systemProgram : Key
  solStakeViewProgram : Key

/-- The authority override, `initialize_sol_staker_stake.rs` 145-154: `None` when the account is empty,
otherwise its first 32 bytes (`array_ref!` panics when there are fewer). -/
def readOverride (env : Env) (d : Data) : Res (Option Key) :=
  if d.isEmpty = true then .ok none
  else if d.len < 32 then .error .panic
  else .ok (some (env.keyPrefix d))

/-- `process_initialize_sol_staker_stake`, `initialize_sol_staker_stake.rs` 38-212. -/
def initializeSolStakerStake (env : Env) (o : Oracle) (ctx : Ctx) (w : World)
    (a : InitializeSolStakerStakeAccts) : Res World := do
  -- 47-54
  require ((w a.config).owner = progId) .invalidAccountOwner
  let c ← unpackConfig w a.config
  -- 58-70
  require (a.solStakeViewProgram = viewId) .incorrectProgramId
  let v ← o.view a.solStakerNativeStake
  -- 71-83
  require (v.delegatedVote ≠ .default) (.stake .undelegatedSolStakeAccount)
  require (v.withdrawer ≠ .default) .invalidAccountData
  -- 85-89
  checkDuna w v.withdrawer a.dunaDocumentPda c.dunaHash
  -- 95-111
  require ((w a.validatorStake).owner = progId) .invalidAccountOwner
  require (a.validatorStake = .validatorPda v.delegatedVote a.config) .invalidSeeds
  let vs ← unpackValidator w a.validatorStake
  -- 119-133
  require (a.solStakerStake = .solStakerPda a.solStakerNativeStake a.config) .invalidSeeds
  require ((w a.solStakerStake).data.isEmpty = true) .accountAlreadyInitialized
  -- 138-154
  require (a.solStakerAuthorityOverride = .overridePda v.withdrawer a.config) .invalidSeeds
  let override ← readOverride env (w a.solStakerAuthorityOverride).data
  -- 157-162
  require (env.rentMin solStakerLen ≤ (w a.solStakerStake).lamports) .accountNotRentExempt
  -- 171-183
  let w ← systemAllocate ctx w a.solStakerStake solStakerLen
  let w ← systemAssign ctx w a.solStakerStake
  -- 186-203
  let w ← setData w a.solStakerStake (.solStaker
    { del :=
        { staked := 0
          effective := 0
          cooldown := 0
          authority := override.getD v.withdrawer
          vote := v.delegatedVote
          lastHolder := 0
          lastStake := 0 }
      lamports := v.effective
      solStake := a.solStakerNativeStake })
  -- 206-209
  let total ← addU64 vs.total v.effective
  setData w a.validatorStake (.validator { vs with total := total })

/-! ## validator_stake_tokens.rs and sol_staker_stake_tokens.rs -/

/-- Accounts of `ValidatorStakeTokens` and `SolStakerStakeTokens`, `instruction.rs` 101-173 and 426-499
(the same thirteen positions). `stake` and `stakeAuthority` are the validator's or the SOL staker's. -/
structure StakeTokensAccts where
  config : Key
  holderRewardsPool : Key
  holderRewardsPoolTokenAccount : Key
  stake : Key
  stakeAuthority : Key
  sourceTokenAccount : Key
  sourceTokenAccountAuthority : Key
  mint : Key
  vaultPda : Key
  vault : Key
  vaultHolderRewards : Key
  tokenProgram : Key
  rewardsProgram : Key

/-- The arguments of the rewards program's `Deposit`, `validator_stake_tokens.rs` 163-184. -/
def StakeTokensAccts.call (a : StakeTokensAccts) (amount : Nat) : RewardsCall :=
  { pool := a.holderRewardsPool
    poolToken := a.holderRewardsPoolTokenAccount
    holderRewards := a.vaultHolderRewards
    mint := a.mint
    owner := a.vaultPda
    token := a.vault
    amount := amount }

/-- The accounts handed to `TransferChecked`, `validator_stake_tokens.rs` 143-160. -/
def StakeTokensAccts.toToken (a : StakeTokensAccts) : List Key :=
  [a.sourceTokenAccount, a.mint, a.vault, a.sourceTokenAccountAuthority]

/-- The accounts handed to `Deposit`, `validator_stake_tokens.rs` 163-183. -/
def StakeTokensAccts.toRewards (a : StakeTokensAccts) : List Key :=
  [a.holderRewardsPool, a.holderRewardsPoolTokenAccount, a.vaultHolderRewards, a.vault, a.mint, a.vaultPda, a.tokenProgram]

/-- `process_validator_stake_tokens`, `validator_stake_tokens.rs` 36-187. -/
def validatorStakeTokens (env : Env) (o : Oracle) (ctx : Ctx) (w0 : World) (a : StakeTokensAccts)
    (amount : Nat) : Res World := do
  -- 46-52
  require ((w0 a.config).owner = progId) .invalidAccountOwner
  let c ← unpackConfig w0 a.config
  -- 58-74
  require ((w0 a.stake).owner = progId) .invalidAccountOwner
  require (a.stake ≠ a.config) .accountBorrowFailed
  let s ← unpackValidator w0 a.stake
  require (a.stake = .validatorPda s.del.vote a.config) .invalidSeeds
  -- 77-88
  let w ← harvest env w0 a.config a.vaultHolderRewards a.stakeAuthority (env.vaultAuth a.config) a.stake none
  -- 95-99
  require (a.vaultPda = env.vaultAuth a.config) (.stake .incorrectVaultPdaAccount)
  -- 103-119
  require (a.vault = c.vault) (.stake .incorrectVaultAccount)
  require (a.vault ≠ a.config ∧ a.vault ≠ a.stake) .accountBorrowFailed
  let vault ← unpackToken w a.vault
  require (vault.mint = a.mint) (.stake .invalidMint)
  require (a.mint ≠ a.config ∧ a.mint ≠ a.stake) .accountBorrowFailed
  let m ← unpackMint w a.mint
  -- 122-127
  require (0 < amount) (.stake .invalidAmount)
  let d ← readDel w a.stake
  let staked ← addU64 d.staked amount
  -- 130-138
  let w ← writeDel w a.stake { d with staked := staked }
  let w ← syncEffective w a.config a.stake s.total s.min
  -- 143-160
  callOut w0 w [a.config, a.stake] a.toToken
  let w ← tokenTransfer ctx w a.sourceTokenAccount a.mint a.vault a.sourceTokenAccountAuthority
    (ctx.signer a.sourceTokenAccountAuthority) amount m.decimals
  -- 163-184
  callOut (w0.known w a.toToken) w [a.config, a.stake] a.toRewards
  o.deposit w (a.call amount)

/-- `process_sol_staker_stake_tokens`, `sol_staker_stake_tokens.rs` 42-196. -/
def solStakerStakeTokens (env : Env) (o : Oracle) (ctx : Ctx) (w0 : World) (a : StakeTokensAccts)
    (amount : Nat) : Res World := do
  -- 52-58
  require ((w0 a.config).owner = progId) .invalidAccountOwner
  let c ← unpackConfig w0 a.config
  -- 64-80
  require ((w0 a.stake).owner = progId) .invalidAccountOwner
  require (a.stake ≠ a.config) .accountBorrowFailed
  let s ← unpackSolStaker w0 a.stake
  require (a.stake = .solStakerPda s.solStake a.config) .invalidSeeds
  -- 83-94
  let w ← harvest env w0 a.config a.vaultHolderRewards a.stakeAuthority (env.vaultAuth a.config) a.stake none
  -- 101-105
  require (a.vaultPda = env.vaultAuth a.config) (.stake .incorrectVaultPdaAccount)
  -- 109-131
  require (a.vault = c.vault) (.stake .incorrectVaultAccount)
  require (a.vault ≠ a.config ∧ a.vault ≠ a.stake) .accountBorrowFailed
  let vault ← unpackToken w a.vault
  require (vault.owner = a.vaultPda) (.stake .invalidVaultPdaOwner)
  require (vault.mint = a.mint) (.stake .invalidMint)
  require (a.mint ≠ a.config ∧ a.mint ≠ a.stake) .accountBorrowFailed
  let m ← unpackMint w a.mint
  -- 134-139
  require (0 < amount) (.stake .invalidAmount)
  let d ← readDel w a.stake
  let staked ← addU64 d.staked amount
  -- 142-147
  let w ← writeDel w a.stake { d with staked := staked }
  let w ← syncEffective w a.config a.stake s.lamports 0
  -- 152-169
  callOut w0 w [a.config, a.stake] a.toToken
  let w ← tokenTransfer ctx w a.sourceTokenAccount a.mint a.vault a.sourceTokenAccountAuthority
    (ctx.signer a.sourceTokenAccountAuthority) amount m.decimals
  -- 172-193
  callOut (w0.known w a.toToken) w [a.config, a.stake] a.toRewards
  o.deposit w (a.call amount)

/-! ## harvest_holder_rewards.rs -/

/-- Accounts of `HarvestHolderRewards`, `instruction.rs` 186-239. -/
structure HarvestHolderRewardsAccts where
  config : Key
  holderRewardsPool : Key
  holderRewardsPoolTokenAccount : Key
  vault : Key
  vaultHolderRewards : Key
  vaultPda : Key
  mint : Key
  tokenProgram : Key
  paladinRewardsProgram : Key
  systemProgram : Key

/-- `process_harvest_holder_rewards`, `harvest_holder_rewards.rs` 37-132. -/
def harvestHolderRewards (env : Env) (o : Oracle) (w : World) (a : HarvestHolderRewardsAccts) :
    Res World := do
  -- 46-52
  require ((w a.config).owner = progId) .invalidAccountOwner
  let c ← unpackConfig w a.config
  -- 56-69
  require (a.vault = c.vault) (.stake .incorrectVaultAccount)
  require (a.vault ≠ a.config) .accountBorrowFailed
  let vault ← unpackToken w a.vault
  require (vault.mint = a.mint) (.stake .invalidMint)
  -- 73-80
  let vaultSigner ← env.createVaultPda a.config c.bump
  require (a.vaultPda = vaultSigner) (.stake .invalidAuthority)
  -- 85-95
  require ((w a.vaultHolderRewards).owner = rewardsId) .invalidAccountOwner
  require (a.vaultHolderRewards = .holderRewardsPda a.vaultPda) .invalidSeeds
  -- 98
  let c ← syncConfigLamports (w a.config).lamports c
  let w ← setData w a.config (.config c)
  -- 103-121 (`token` and `amount` are not part of this call)
  let w ← o.harvestRewards w
    { pool := a.holderRewardsPool
      poolToken := a.holderRewardsPoolTokenAccount
      holderRewards := a.vaultHolderRewards
      mint := a.mint
      owner := a.vaultPda
      token := a.holderRewardsPoolTokenAccount
      amount := 0 }
  -- 124
  let w ← transferExcess env w a.vaultPda a.config
  -- 127-129
  let c ← unpackConfig w a.config
  setData w a.config (.config { c with lamportsLast := (w a.config).lamports })

/-! ## harvest_validator_rewards.rs -/

/-- Accounts of `HarvestValidatorRewards`, `instruction.rs` 248-270. -/
structure HarvestValidatorRewardsAccts where
  config : Key
  vaultHolderRewards : Key
  validatorStake : Key
  validatorStakeAuthority : Key

/-- `process_harvest_validator_rewards`, `harvest_validator_rewards.rs` 22-93. -/
def harvestValidatorRewards (env : Env) (w : World) (a : HarvestValidatorRewardsAccts) :
    Res World := do
  -- 31-37
  require ((w a.config).owner = progId) .invalidAccountOwner
  let _ ← unpackConfig w a.config
  -- 43-59
  require ((w a.validatorStake).owner = progId) .invalidAccountOwner
  require (a.validatorStake ≠ a.config) .accountBorrowFailed
  let s ← unpackValidator w a.validatorStake
  require (a.validatorStake = .validatorPda s.del.vote a.config) .invalidSeeds
  -- 63-67
  require (a.validatorStakeAuthority = s.del.authority) (.stake .invalidAuthority)
  -- 71-77
  require (a.vaultHolderRewards = .holderRewardsPda (env.vaultAuth a.config)) .invalidSeeds
  -- 80-90
  harvest env w a.config a.vaultHolderRewards a.validatorStakeAuthority (env.vaultAuth a.config)
    a.validatorStake none

/-! ## harvest_sol_staker_rewards.rs -/

/-- Accounts of `HarvestSolStakerRewards`, `instruction.rs` 508-576. The keeper is optional: shank's context treats
the program's own id in that position as "absent". -/
structure HarvestSolStakerRewardsAccts where
  solStakeViewProgram : Key
  config : Key
  vaultHolderRewards : Key
  solStakerStake : Key
  solStakerStakeAuthority : Key
  solStakerNativeStake : Key
  previousValidatorStake : Key
  previousValidatorStakeAuthority : Key
  currentValidatorStake : Key
  currentValidatorStakeAuthority : Key
  sysvarStakeHistory : Key
  keeperRecipient : Option Key

/-- The part of `process_harvest_sol_staker_rewards` that removes the staker's old lamports from the
previous validator, `harvest_sol_staker_rewards.rs` 153-213. `s` is the staker's state. -/
def leaveValidator (env : Env) (w : World) (a : HarvestSolStakerRewardsAccts)
    (s : SolStakerStake) : Res World := do
  if s.del.vote ≠ .default then do
    -- 161-175
    require ((w a.previousValidatorStake).owner = progId) .invalidAccountOwner
    require (a.previousValidatorStake = .validatorPda s.del.vote a.config) .invalidSeeds
    -- 180-181
    let _ ← unpackValidator w a.previousValidatorStake
    -- 184-194
    let w ← harvest env w a.config a.vaultHolderRewards a.previousValidatorStakeAuthority
      (env.vaultAuth a.config) a.previousValidatorStake none
    -- 197-200
    let v ← unpackValidator w a.previousValidatorStake
    let total ← subU64 v.total s.lamports
    let w ← setData w a.previousValidatorStake (.validator { v with total := total })
    -- 203-210
    syncEffective w a.config a.previousValidatorStake total v.min
  else do
    -- 212
    require (s.lamports = 0) .panic
    return w

/-- The part of `process_harvest_sol_staker_rewards` that credits the staker's current lamports to the
current validator, `harvest_sol_staker_rewards.rs` 215-270. Returns the world and the delegation and stake that end
up recorded for the staker (both reset when the validator has no stake account of this program). -/
def joinValidator (env : Env) (w : World) (a : HarvestSolStakerRewardsAccts)
    (currentDelegation : Key) (currentStake : Nat) : Res (World × Key × Nat) := do
  if currentDelegation ≠ .default then do
    -- 223-229
    require (a.currentValidatorStake = .validatorPda currentDelegation a.config) .invalidSeeds
    -- 232
    if (w a.currentValidatorStake).owner = progId then do
      -- 235-236
      let _ ← unpackValidator w a.currentValidatorStake
      -- 239-249
      let w ← harvest env w a.config a.vaultHolderRewards a.currentValidatorStakeAuthority
        (env.vaultAuth a.config) a.currentValidatorStake none
      -- 252-255
      let v ← unpackValidator w a.currentValidatorStake
      let total ← addU64 v.total currentStake
      let w ← setData w a.currentValidatorStake (.validator { v with total := total })
      -- 258-265
      let w ← syncEffective w a.config a.currentValidatorStake total v.min
      return (w, currentDelegation, currentStake)
    else
      -- 266-269
      return (w, .default, 0)
  else return (w, currentDelegation, currentStake)

/-- `process_harvest_sol_staker_rewards`, `harvest_sol_staker_rewards.rs` 40-278. -/
def harvestSolStakerRewards (env : Env) (o : Oracle) (w : World)
    (a : HarvestSolStakerRewardsAccts) : Res World := do
  -- 49-55
  require ((w a.config).owner = progId) .invalidAccountOwner
  let _ ← unpackConfig w a.config
  -- 61-77
  require ((w a.solStakerStake).owner = progId) .invalidAccountOwner
  require (a.solStakerStake ≠ a.config) .accountBorrowFailed
  let s ← unpackSolStaker w a.solStakerStake
  require (a.solStakerStake = .solStakerPda s.solStake a.config) .invalidSeeds
  -- 81-85
  require (a.solStakerStakeAuthority = s.del.authority) (.stake .invalidAuthority)
  -- 89-93
  require (a.solStakerNativeStake = s.solStake) (.stake .incorrectSolStakeAccount)
  -- 97-103
  require (a.vaultHolderRewards = .holderRewardsPda (env.vaultAuth a.config)) .invalidSeeds
  -- 107-122
  require (a.solStakeViewProgram = viewId) .incorrectProgramId
  callOut w w [a.config, a.solStakerStake] [a.solStakerNativeStake, a.sysvarStakeHistory]
  let v ← o.view a.solStakerNativeStake
  -- 123-126
  let requiresSync : Bool := v.effective ≠ s.lamports ∨ v.delegatedVote ≠ s.del.vote
  -- 138-145
  require (requiresSync = true → a.keeperRecipient.isSome = true) .notEnoughAccountKeys
  let keeper := if requiresSync then a.keeperRecipient else none
  -- 129-146
  let w ← harvest env w a.config a.vaultHolderRewards a.solStakerStakeAuthority
    (env.vaultAuth a.config) a.solStakerStake keeper
  -- 149-151
  if requiresSync = false then return w
  else do
    -- 153-213
    let w ← leaveValidator env w a s
    -- 215-270
    let (w, vote, lamports) ← joinValidator env w a v.delegatedVote v.effective
    -- 273-274
    let s ← unpackSolStaker w a.solStakerStake
    let w ← setData w a.solStakerStake
      (.solStaker { s with lamports := lamports, del := { s.del with vote := vote } })
    -- 275
    syncEffective w a.config a.solStakerStake lamports 0

/-! ## slash_validator_stake.rs and slash_sol_staker_stake.rs -/

/-- Accounts of `SlashValidatorStake` and `SlashSolStakerStake`, `instruction.rs` 279-328 and 664-713. The two
instructions list the same accounts in a different order, see `Model/Exec.lean`. -/
structure SlashAccts where
  config : Key
  stake : Key
  stakeAuthority : Key
  slashAuthority : Key
  vault : Key
  vaultHolderRewards : Key
  vaultAuthority : Key
  mint : Key
  tokenProgram : Key

/-- `process_slash_validator_stake`, `slash_validator_stake.rs` 37-162. -/
def slashValidatorStake (env : Env) (ctx : Ctx) (w0 : World) (a : SlashAccts) (amount : Nat) : Res World := do
  -- 47-53
  require ((w0 a.config).owner = progId) .invalidAccountOwner
  let c ← unpackConfig w0 a.config
  -- 60-76
  require ((w0 a.stake).owner = progId) .invalidAccountOwner
  require (a.stake ≠ a.config) .accountBorrowFailed
  let s ← unpackValidator w0 a.stake
  require (a.stake = .validatorPda s.del.vote a.config) .invalidSeeds
  -- 80-87
  let derivation ← env.createVaultPda a.config c.bump
  require (a.vaultAuthority = derivation) (.stake .invalidAuthority)
  -- 90-100
  let w ← harvest env w0 a.config a.vaultHolderRewards a.stakeAuthority a.vaultAuthority a.stake none
  -- 108-120
  require (c.slashAuthority ≠ .default) (.stake .authorityNotSet)
  require (a.slashAuthority = c.slashAuthority) (.stake .invalidAuthority)
  require (ctx.signer a.slashAuthority = true) .missingRequiredSignature
  -- 124-137
  require (a.vault = c.vault) (.stake .incorrectVaultAccount)
  require (a.vault ≠ a.config ∧ a.vault ≠ a.stake) .accountBorrowFailed
  let vault ← unpackToken w a.vault
  require (vault.mint = a.mint) (.stake .invalidMint)
  -- 141-149
  let w ← slashDelegation ctx w0 w a.config a.stake a.mint a.vault a.vaultAuthority a.tokenProgram amount
  -- 152-159
  syncEffective w a.config a.stake s.total s.min

/-- `process_slash_sol_staker_stake`, `slash_sol_staker_stake.rs` 37-162. -/
def slashSolStakerStake (env : Env) (ctx : Ctx) (w0 : World) (a : SlashAccts) (amount : Nat) : Res World := do
  -- 47-53
  require ((w0 a.config).owner = progId) .invalidAccountOwner
  let c ← unpackConfig w0 a.config
  -- 60-76
  require ((w0 a.stake).owner = progId) .invalidAccountOwner
  require (a.stake ≠ a.config) .accountBorrowFailed
  let s ← unpackSolStaker w0 a.stake
  require (a.stake = .solStakerPda s.solStake a.config) .invalidSeeds
  -- 80-87
  let derivation ← env.createVaultPda a.config c.bump
  require (a.vaultAuthority = derivation) (.stake .invalidAuthority)
  -- 90-100
  let w ← harvest env w0 a.config a.vaultHolderRewards a.stakeAuthority a.vaultAuthority a.stake none
  -- 108-120
  require (c.slashAuthority ≠ .default) (.stake .authorityNotSet)
  require (a.slashAuthority = c.slashAuthority) (.stake .invalidAuthority)
  require (ctx.signer a.slashAuthority = true) .missingRequiredSignature
  -- 124-137
  require (a.vault = c.vault) (.stake .incorrectVaultAccount)
  require (a.vault ≠ a.config ∧ a.vault ≠ a.stake) .accountBorrowFailed
  let vault ← unpackToken w a.vault
  require (vault.mint = a.mint) (.stake .invalidMint)
  -- 144-152
  let w ← slashDelegation ctx w0 w a.config a.stake a.mint a.vault a.vaultAuthority a.tokenProgram amount
  -- 155-159
  syncEffective w a.config a.stake s.lamports 0

/-! ## set_authority.rs and update_config.rs -/

/-- `AuthorityType`, `instruction.rs` 1013-1016. -/
inductive AuthorityType where
  | config
  | slash
  deriving DecidableEq, Repr

/-- Accounts of `SetAuthority`, `instruction.rs` 333-348. -/
structure SetAuthorityAccts where
  account : Key
  authority : Key
  newAuthority : Key

/-- `process_set_authority`, `set_authority.rs` 22-78. -/
def setAuthority (ctx : Ctx) (w : World) (a : SetAuthorityAccts) (t : AuthorityType) : Res World := do
  -- 32-36
  require (ctx.signer a.authority = true) .missingRequiredSignature
  -- 43-47
  require ((w a.account).owner = progId) .invalidAccountOwner
  match t with
  | .config => do
    -- 52-61
    let c ← unpackConfig w a.account
    require (c.authority ≠ .default) (.stake .authorityNotSet)
    require (a.authority = c.authority) (.stake .invalidAuthority)
    setData w a.account (.config { c with authority := a.newAuthority })
  | .slash => do
    -- 64-73
    let c ← unpackConfig w a.account
    require (c.slashAuthority ≠ .default) (.stake .authorityNotSet)
    require (a.authority = c.slashAuthority) (.stake .invalidAuthority)
    setData w a.account (.config { c with slashAuthority := a.newAuthority })

/-- `ConfigField`, `instruction.rs` 1020-1027. -/
inductive ConfigField where
  | cooldownTimeSeconds (v : Nat)
  | maxDeactivationBasisPoints (v : Nat)
  | syncRewardsLamports (v : Nat)
  deriving DecidableEq, Repr

/-- Accounts of `UpdateConfig`, `instruction.rs` 353-364. -/
structure UpdateConfigAccts where
  config : Key
  configAuthority : Key

/-- `process_update_config`, `update_config.rs` 21-79. -/
def updateConfig (ctx : Ctx) (w : World) (a : UpdateConfigAccts) (f : ConfigField) : Res World := do
  -- 31-37
  require ((w a.config).owner = progId) .invalidAccountOwner
  let c ← unpackConfig w a.config
  -- 39-40, 74-76
  require (c.authority ≠ .default) (.stake .authorityNotSet)
  -- 44-53
  require (a.configAuthority = c.authority) (.stake .invalidAuthority)
  require (ctx.signer a.configAuthority = true) .missingRequiredSignature
  -- 56-73
  match f with
  | .cooldownTimeSeconds v => setData w a.config (.config { c with cooldownTime := v })
  | .maxDeactivationBasisPoints v => do
    require (v ≤ maxBasisPoints) .invalidArgument
    setData w a.config (.config { c with maxBps := v })
  | .syncRewardsLamports v => setData w a.config (.config { c with syncRewards := v })

/-! ## unstake_tokens.rs -/

/-- Accounts of `UnstakeTokens`, `instruction.rs` 586-654. -/
structure UnstakeTokensAccts where
  config : Key
  holderRewardsPool : Key
  holderRewardsPoolTokenAccount : Key
  stake : Key
  stakeAuthority : Key
  vault : Key
  vaultPda : Key
  vaultHolderRewards : Key
  mint : Key
  destinationTokenAccount : Key
  tokenProgram : Key
  rewardsProgram : Key

/-- The arguments of the rewards program's `Withdraw`, `unstake_tokens.rs` 187-208. -/
def UnstakeTokensAccts.call (a : UnstakeTokensAccts) (amount : Nat) : RewardsCall :=
  { pool := a.holderRewardsPool
    poolToken := a.holderRewardsPoolTokenAccount
    holderRewards := a.vaultHolderRewards
    mint := a.mint
    owner := a.vaultPda
    token := a.vault
    amount := amount }

/-- The accounts handed to `Withdraw`, `unstake_tokens.rs` 187-207. -/
def UnstakeTokensAccts.toRewards (a : UnstakeTokensAccts) : List Key :=
  [a.holderRewardsPool, a.holderRewardsPoolTokenAccount, a.vaultHolderRewards, a.vault, a.mint, a.vaultPda, a.tokenProgram]

/-- The accounts handed to `TransferChecked`, `unstake_tokens.rs` 210-229. -/
def UnstakeTokensAccts.toToken (a : UnstakeTokensAccts) : List Key :=
  [a.vault, a.mint, a.destinationTokenAccount, a.vaultPda]

/-- The match on the length of the stake account data, `unstake_tokens.rs` 76-103: the expected address,
lamports and lamports minimum. -/
def unstakeView (w : World) (stakeK configK : Key) : Res (Key × Nat × Nat) :=
  if (w stakeK).data.len = validatorLen then do
    let s ← unpackValidator w stakeK
    return (.validatorPda s.del.vote configK, s.total, s.min)
  else if (w stakeK).data.len = solStakerLen then do
    let s ← unpackSolStaker w stakeK
    return (.solStakerPda s.solStake configK, s.lamports, 0)
  else .error .invalidAccountData

/-- `Clock::get()?.unix_timestamp as u64`, `unstake_tokens.rs` 149: two's complement reinterpretation of an `i64`. -/
def Oracle.now (o : Oracle) : Nat := (o.unixTimestamp % (U64 : Int)).toNat

/-- `u64::saturating_add`. -/
def satAdd (a b : Nat) : Nat := min (a + b) (U64 - 1)

/-- `process_unstake_tokens`, `unstake_tokens.rs` 21-232. -/
def unstakeTokens (env : Env) (o : Oracle) (ctx : Ctx) (w0 : World) (a : UnstakeTokensAccts)
    (amount : Nat) : Res World := do
  -- 31-37
  require ((w0 a.config).owner = progId) .invalidAccountOwner
  let c ← unpackConfig w0 a.config
  -- 41-51
  require (a.vault = c.vault) (.stake .incorrectVaultAccount)
  require (a.vault ≠ a.destinationTokenAccount) (.stake .invalidDestinationAccount)
  require (a.vault ≠ a.config) .accountBorrowFailed
  let vault ← unpackToken w0 a.vault
  -- 54-63
  require (a.vaultPda = env.vaultAuth a.config) (.stake .incorrectVaultPdaAccount)
  -- 70-108
  require ((w0 a.stake).owner = progId) .invalidAccountOwner
  require (a.stake ≠ a.config ∧ a.stake ≠ a.vault) .accountBorrowFailed
  let (derivation, lamports, lamportsMin) ← unstakeView w0 a.stake a.config
  require (a.stake = derivation) .invalidSeeds
  let d ← readDel w0 a.stake
  -- 113-122
  require (ctx.signer a.stakeAuthority = true) .missingRequiredSignature
  require (a.stakeAuthority = d.authority) (.stake .invalidAuthority)
  -- 126-133
  require (vault.mint = a.mint) (.stake .invalidMint)
  require (a.mint ≠ a.config ∧ a.mint ≠ a.stake) .accountBorrowFailed
  let m ← unpackMint w0 a.mint
  -- 136-146
  let w ← harvest env w0 a.config a.vaultHolderRewards a.stakeAuthority (env.vaultAuth a.config) a.stake none
  let d ← readDel w a.stake
  -- 149-153
  require (d.cooldown ≤ o.now) (.stake .activeUnstakeCooldown)
  -- 156-171
  require (amount ≤ d.staked) (.stake .insufficientStakeAmount)
  let maxDeactivation ← mulDivU64 d.staked c.maxBps maxBasisPoints
  require (amount ≤ maxDeactivation) (.stake .maximumDeactivationAmountExceeded)
  -- 174-179
  let staked ← subU64 d.staked amount
  let w ← writeDel w a.stake { d with staked := staked, cooldown := satAdd o.now c.cooldownTime }
  -- 181
  let w ← syncEffective w a.config a.stake lamports lamportsMin
  -- 187-208
  callOut w0 w [a.config, a.stake] a.toRewards
  let w ← o.withdraw w (a.call amount)
  -- 210-229
  callOut (w0.known w a.toRewards) w [a.config, a.stake] a.toToken
  tokenTransfer ctx w a.vault a.mint a.destinationTokenAccount a.vaultPda true amount m.decimals

/-! ## sol_staker_move_tokens.rs -/

/-- Accounts of `SolStakerMoveTokens`, `instruction.rs` 718-745. -/
structure SolStakerMoveTokensAccts where
  config : Key
  vaultHolderRewards : Key
  solStakerAuthority : Key
  sourceSolStakerStake : Key
  destinationSolStakerStake : Key

/-- `process_sol_staker_move_tokens`, `sol_staker_move_tokens.rs` 11-156. -/
def solStakerMoveTokens (env : Env) (ctx : Ctx) (w : World) (a : SolStakerMoveTokensAccts)
    (amount : Nat) : Res World := do
  -- 19-25
  require ((w a.config).owner = progId) .invalidAccountOwner
  let _ ← unpackConfig w a.config
  -- 30-34
  require (ctx.signer a.solStakerAuthority = true) .missingRequiredSignature
  -- 40-63
  require ((w a.sourceSolStakerStake).owner = progId) .invalidAccountOwner
  require (a.sourceSolStakerStake ≠ a.config) .accountBorrowFailed
  let s ← unpackSolStaker w a.sourceSolStakerStake
  require (a.sourceSolStakerStake = .solStakerPda s.solStake a.config) .invalidSeeds
  require (s.del.authority = a.solStakerAuthority) (.stake .invalidAuthority)
  -- 66-76
  let w ← harvest env w a.config a.vaultHolderRewards a.solStakerAuthority (env.vaultAuth a.config)
    a.sourceSolStakerStake none
  -- 82-102; the mutable borrow of the destination fails when it is the config or the source account
  require ((w a.destinationSolStakerStake).owner = progId) .invalidAccountOwner
  require (a.destinationSolStakerStake ≠ a.config) .accountBorrowFailed
  require (a.destinationSolStakerStake ≠ a.sourceSolStakerStake) .accountBorrowFailed
  let t ← unpackSolStaker w a.destinationSolStakerStake
  require (a.destinationSolStakerStake = .solStakerPda t.solStake a.config) .invalidSeeds
  -- 104-114
  let w ← harvest env w a.config a.vaultHolderRewards a.solStakerAuthority (env.vaultAuth a.config)
    a.destinationSolStakerStake none
  let ds ← readDel w a.sourceSolStakerStake
  let dt ← readDel w a.destinationSolStakerStake
  -- 117-120
  require (ds.authority = dt.authority) .panic
  -- 123-134
  let srcStaked ← subU64 ds.staked amount
  let dstStaked ← addU64 dt.staked amount
  -- 123-141
  let w ← writeDel w a.sourceSolStakerStake { ds with staked := srcStaked }
  let w ← writeDel w a.destinationSolStakerStake
    { dt with staked := dstStaked, cooldown := max ds.cooldown dt.cooldown }
  -- 144-153
  let w ← syncEffective w a.config a.sourceSolStakerStake s.lamports 0
  syncEffective w a.config a.destinationSolStakerStake t.lamports 0

/-! ## validator_override_staked_lamports.rs and validator_sync_authority.rs -/

/-- Accounts of `ValidatorOverrideStakedLamports`, `instruction.rs` 748-777. -/
structure ValidatorOverrideStakedLamportsAccts where
  config : Key
  configAuthority : Key
  validatorStake : Key
  validatorStakeAuthority : Key
  vaultHolderRewards : Key

/-- `process_validator_override_staked_lamports`, `validator_override_staked_lamports.rs` 12-96. -/
def validatorOverrideStakedLamports (env : Env) (ctx : Ctx) (w : World)
    (a : ValidatorOverrideStakedLamportsAccts) (amountMin : Nat) : Res World := do
  -- 20-26
  require ((w a.config).owner = progId) .invalidAccountOwner
  let c ← unpackConfig w a.config
  -- 31-44
  require (c.authority ≠ .default) (.stake .authorityNotSet)
  require (a.configAuthority = c.authority) (.stake .invalidAuthority)
  require (ctx.signer a.configAuthority = true) .missingRequiredSignature
  -- 50-66
  require ((w a.validatorStake).owner = progId) .invalidAccountOwner
  require (a.validatorStake ≠ a.config) .accountBorrowFailed
  let s ← unpackValidator w a.validatorStake
  require (a.validatorStake = .validatorPda s.del.vote a.config) .invalidSeeds
  -- 69-80
  let w ← harvest env w a.config a.vaultHolderRewards a.validatorStakeAuthority (env.vaultAuth a.config)
    a.validatorStake none
  -- 83
  let s ← unpackValidator w a.validatorStake
  let w ← setData w a.validatorStake (.validator { s with min := amountMin })
  -- 86-93
  syncEffective w a.config a.validatorStake s.total amountMin

/-- Accounts of `ValidatorSyncAuthority`, `instruction.rs` 780-797. -/
structure ValidatorSyncAuthorityAccts where
  config : Key
  validatorStake : Key
  validatorVote : Key

/-- `process_validator_sync_authority`, `validator_sync_authority.rs` 13-70. -/
def validatorSyncAuthority (w : World) (a : ValidatorSyncAuthorityAccts) : Res World := do
  -- 20-32
  require ((w a.config).owner = progId) .invalidAccountOwner
  let _ ← unpackConfig w a.config
  -- 37-46
  require (a.validatorStake = .validatorPda a.validatorVote a.config) .invalidSeeds
  -- 47-48: `.unwrap()` panics
  match (w a.validatorStake).data with
  | .validator s => do
    -- 53-64
    let withdrawAuthority ← unpackVote w a.validatorVote
    -- 67
    setData w a.validatorStake (.validator { s with del := { s.del with authority := withdrawAuthority } })
  | _ => .error .panic

end Verif
