import Verif.Model.ClientBuild
/-!
# The generated JavaScript client

Models `/repo/clients/js/src`: the instruction functions `get…Instruction` and `parse…Instruction` of
`generated/instructions/*.ts`, `getAccountMetaFactory` of `generated/shared/index.ts`,
`identifyPaladinStakeProgramInstruction` of `generated/programs/paladinStakeProgram.ts`, the codecs of `generated/types/*.ts`,
`generated/accounts/*.ts` and `hooked/*.ts`. (`generated/pdas/vault.ts` is in `Model/Pda.lean`.)

Exceptions are `none`. A `number | bigint` is an integer (fractions, NaN and loss of precision above 2^53 are not
represented). An address is the byte string it denotes. The codecs of `@solana/web3.js` 2.0.0-preview.3 are external: their
assumed behaviour is stated where they are defined. TypeScript's types are not enforced at run time; accounts may therefore be
missing, arguments are assumed to be present.

Not modelled: the network, and the TypeScript types themselves. The fetch functions are in `JsFetch.lean`.
-/

namespace Verif.Client.Js

open Verif Verif.Client

/-! ## Codecs of `@solana/web3.js` (external) -/

/-- `getU8Encoder`, `getU16Encoder`, `getU64Encoder`, `getU128Encoder`: little-endian; throws when out of range. -/
def encodeInt (n : Nat) (v : Int) : Option (List UInt8) :=
  if 0 ≤ v ∧ v < 256 ^ n then some (leBytes n v.toNat) else none

/-- `getAddressEncoder`: throws unless the string denotes 32 bytes. -/
def encodeAddress (b : List UInt8) : Option (List UInt8) := if b.length = 32 then some b else none

/-- `fixEncoderSize(getBytesEncoder(), n)`: longer values are cut off, shorter ones filled up with zeros. -/
def fixSize (n : Nat) (b : List UInt8) : List UInt8 := b.take n ++ List.replicate (n - b.length) 0

/-- `getArrayEncoder(getU8Encoder(), { size: n })`: throws unless there are `n` items, each a byte. -/
def encodeArray (n : Nat) (v : List Int) : Option (List UInt8) :=
  if v.length = n then (v.mapM (encodeInt 1)).map List.flatten else none

/-- `ConfigFieldArgs`, `types/configField.ts` 33-36. -/
inductive FieldArgs where
  | cooldownTimeSeconds (v : Int)
  | maxDeactivationBasisPoints (v : Int)
  | syncRewardsLamports (v : Int)

/-- `getConfigFieldEncoder`, `types/configField.ts` 38-53: a discriminated union is one byte, the index of the variant, followed
by the fields. -/
def encodeConfigField : FieldArgs → Option (List UInt8)
  | .cooldownTimeSeconds v => do return (← encodeInt 1 0) ++ (← encodeInt 8 v)
  | .maxDeactivationBasisPoints v => do return (← encodeInt 1 1) ++ (← encodeInt 2 v)
  | .syncRewardsLamports v => do return (← encodeInt 1 2) ++ (← encodeInt 8 v)

/-- `getAuthorityTypeEncoder`, `types/authorityType.ts` 18-27: an enum is one byte; throws for values that are not in it. -/
def encodeAuthorityType (v : Int) : Option (List UInt8) := if v = 0 ∨ v = 1 then encodeInt 1 v else none

/-! ## Instructions -/

/-- The types of the arguments. -/
def _root_.Verif.Client.Arg.JsVal : Arg → Type
  | .slashAuthority | .configAuthority | .dunaDocumentHash => List UInt8
  | .cooldownTimeSeconds | .maxDeactivationBasisPoints | .syncRewardsLamports | .amount | .amountMin => Int
  | .authorityType => Int
  | .configField => FieldArgs

/-- The value of an account: `Address` or `TransactionSigner`. -/
inductive Value where
  | address (k : Key)
  | signer (k : Key)

/-- The argument of `get…Instruction`: accounts (`null` or `undefined` when missing) and arguments by name. -/
structure Input where
  accounts : Field → Option Value
  args : (a : Arg) → a.JsVal

/-- `getAccountMetaFactory(programAddress, 'programId')`, `shared/index.ts` 124-150: a missing account becomes the program's
address, read-only. -/
def accountMeta (isWritable : Bool) : Option Value → Meta
  | none => { key := progId, signer := false, writable := false }
  | some (.address k) => { key := k, signer := false, writable := isWritable }
  | some (.signer k) => { key := k, signer := true, writable := isWritable }

abbrev writableMeta (v : Option Value) : Meta := accountMeta true v
abbrev readonlyMeta (v : Option Value) : Meta := accountMeta false v

/-- "Resolve default values": `if (!accounts.f.value) accounts.f.value = k`. -/
def Input.orElse (i : Input) (f : Field) (k : Key) : Option Value :=
  match i.accounts f with
  | none => some (.address k)
  | some v => some v

/-- The account metas of `get…Instruction`, in order. -/
def Input.metas (i : Input) : Kind → List Meta
  -- initializeConfig.ts 175-260
  | .initializeConfig =>
    [writableMeta (i.accounts .config), readonlyMeta (i.accounts .mint), writableMeta (i.accounts .vaultPda),
      readonlyMeta (i.accounts .vault), writableMeta (i.accounts .vaultHolderRewards),
      readonlyMeta (i.orElse .systemProgram systemId), readonlyMeta (i.accounts .rewardsProgram)]
  -- initializeValidatorStake.ts 116-184
  | .initializeValidatorStake =>
    [readonlyMeta (i.accounts .config), readonlyMeta (i.accounts .dunaDocumentPda),
      writableMeta (i.accounts .validatorStake), readonlyMeta (i.accounts .validatorVote),
      readonlyMeta (i.orElse .systemProgram systemId)]
  -- initializeSolStakerStake.ts 148-256
  | .initializeSolStakerStake =>
    [readonlyMeta (i.accounts .config), readonlyMeta (i.accounts .dunaDocumentPda),
      writableMeta (i.accounts .solStakerStake), readonlyMeta (i.accounts .solStakerAuthorityOverride),
      writableMeta (i.accounts .validatorStake), readonlyMeta (i.accounts .solStakerNativeStake),
      readonlyMeta (i.orElse .sysvarStakeHistory historyId), readonlyMeta (i.orElse .systemProgram systemId),
      readonlyMeta (i.accounts .solStakeViewProgram)]
  -- validatorStakeTokens.ts 196-332
  | .validatorStakeTokens =>
    [writableMeta (i.accounts .config), writableMeta (i.accounts .holderRewardsPool),
      writableMeta (i.accounts .holderRewardsPoolTokenAccount), writableMeta (i.accounts .validatorStake),
      readonlyMeta (i.accounts .validatorStakeAuthority), writableMeta (i.accounts .sourceTokenAccount),
      readonlyMeta (i.accounts .sourceTokenAccountAuthority), readonlyMeta (i.accounts .mint),
      writableMeta (i.accounts .vaultPda), writableMeta (i.accounts .vault), writableMeta (i.accounts .vaultHolderRewards),
      readonlyMeta (i.orElse .tokenProgram tokenId), readonlyMeta (i.accounts .rewardsProgram)]
  -- solStakerStakeTokens.ts 196-332
  | .solStakerStakeTokens =>
    [writableMeta (i.accounts .config), writableMeta (i.accounts .holderRewardsPool),
      writableMeta (i.accounts .holderRewardsPoolTokenAccount), writableMeta (i.accounts .solStakerStake),
      writableMeta (i.accounts .solStakerStakeAuthority), writableMeta (i.accounts .sourceTokenAccount),
      readonlyMeta (i.accounts .sourceTokenAccountAuthority), readonlyMeta (i.accounts .mint),
      writableMeta (i.accounts .vaultPda), writableMeta (i.accounts .vault), writableMeta (i.accounts .vaultHolderRewards),
      readonlyMeta (i.orElse .tokenProgram tokenId), readonlyMeta (i.accounts .rewardsProgram)]
  -- unstakeTokens.ts 182-306
  | .unstakeTokens =>
    [writableMeta (i.accounts .config), writableMeta (i.accounts .holderRewardsPool),
      writableMeta (i.accounts .holderRewardsPoolTokenAccount), writableMeta (i.accounts .stake),
      writableMeta (i.accounts .stakeAuthority), writableMeta (i.accounts .vault), writableMeta (i.accounts .vaultPda),
      writableMeta (i.accounts .vaultHolderRewards), readonlyMeta (i.accounts .mint),
      writableMeta (i.accounts .destinationTokenAccount), readonlyMeta (i.orElse .tokenProgram tokenId),
      readonlyMeta (i.accounts .rewardsProgram)]
  -- harvestHolderRewards.ts 155-266
  | .harvestHolderRewards =>
    [writableMeta (i.accounts .config), writableMeta (i.accounts .holderRewardsPool),
      readonlyMeta (i.accounts .holderRewardsPoolTokenAccount), writableMeta (i.accounts .vault),
      writableMeta (i.accounts .vaultHolderRewards), writableMeta (i.accounts .vaultPda), readonlyMeta (i.accounts .mint),
      readonlyMeta (i.orElse .tokenProgram tokenId), readonlyMeta (i.accounts .paladinRewardsProgram),
      readonlyMeta (i.orElse .systemProgram systemId)]
  -- harvestValidatorRewards.ts 109-168
  | .harvestValidatorRewards =>
    [writableMeta (i.accounts .config), readonlyMeta (i.accounts .vaultHolderRewards),
      writableMeta (i.accounts .validatorStake), writableMeta (i.accounts .validatorStakeAuthority)]
  -- harvestSolStakerRewards.ts 171-305
  | .harvestSolStakerRewards =>
    [readonlyMeta (i.accounts .solStakeViewProgram), writableMeta (i.accounts .config),
      readonlyMeta (i.accounts .vaultHolderRewards), writableMeta (i.accounts .solStakerStake),
      writableMeta (i.accounts .solStakerStakeAuthority), readonlyMeta (i.accounts .solStakerNativeStake),
      writableMeta (i.accounts .previousValidatorStake), writableMeta (i.accounts .previousValidatorStakeAuthority),
      writableMeta (i.accounts .currentValidatorStake), writableMeta (i.accounts .currentValidatorStakeAuthority),
      readonlyMeta (i.orElse .sysvarStakeHistory historyId), writableMeta (i.accounts .keeperRecipient)]
  -- slashValidatorStake.ts 164-264
  | .slashValidatorStake =>
    [writableMeta (i.accounts .config), writableMeta (i.accounts .validatorStake),
      writableMeta (i.accounts .validatorStakeAuthority), readonlyMeta (i.accounts .slashAuthority),
      writableMeta (i.accounts .vault), readonlyMeta (i.accounts .vaultHolderRewards),
      readonlyMeta (i.accounts .vaultAuthority), writableMeta (i.accounts .mint),
      readonlyMeta (i.orElse .tokenProgram tokenId)]
  -- slashSolStakerStake.ts 164-264
  | .slashSolStakerStake =>
    [writableMeta (i.accounts .config), writableMeta (i.accounts .solStakerStake),
      writableMeta (i.accounts .solStakerStakeAuthority), readonlyMeta (i.accounts .slashAuthority),
      writableMeta (i.accounts .mint), writableMeta (i.accounts .vault), readonlyMeta (i.accounts .vaultHolderRewards),
      readonlyMeta (i.accounts .vaultAuthority), readonlyMeta (i.orElse .tokenProgram tokenId)]
  -- setAuthority.ts 119-171
  | .setAuthority =>
    [writableMeta (i.accounts .account), readonlyMeta (i.accounts .authority), readonlyMeta (i.accounts .newAuthority)]
  -- updateConfig.ts 109-155
  | .updateConfig =>
    [writableMeta (i.accounts .config), readonlyMeta (i.accounts .configAuthority)]
  -- solStakerMoveTokens.ts 134-210
  | .solStakerMoveTokens =>
    [writableMeta (i.accounts .config), readonlyMeta (i.accounts .vaultHolderRewards),
      readonlyMeta (i.accounts .solStakerAuthority), writableMeta (i.accounts .sourceSolStakerStake),
      writableMeta (i.accounts .destinationSolStakerStake)]
  -- validatorOverrideStakedLamports.ts 135-208
  | .validatorOverrideStakedLamports =>
    [writableMeta (i.accounts .config), readonlyMeta (i.accounts .configAuthority),
      writableMeta (i.accounts .validatorStake), writableMeta (i.accounts .validatorStakeAuthority),
      writableMeta (i.accounts .vaultHolderRewards)]
  -- validatorSyncAuthority.ts 99-146
  | .validatorSyncAuthority =>
    [writableMeta (i.accounts .config), writableMeta (i.accounts .validatorStake),
      writableMeta (i.accounts .validatorVote)]

/-- `get…InstructionDataEncoder().encode(args)`; `none` when it throws. -/
def Input.data (i : Input) : Kind → Option (List UInt8)
  -- initializeConfig.ts 107-120
  | .initializeConfig => do
    let discriminator ← encodeInt 1 0
    let slashAuthority ← encodeAddress (i.args .slashAuthority)
    let configAuthority ← encodeAddress (i.args .configAuthority)
    let cooldownTimeSeconds ← encodeInt 8 (i.args .cooldownTimeSeconds)
    let maxDeactivationBasisPoints ← encodeInt 2 (i.args .maxDeactivationBasisPoints)
    let syncRewardsLamports ← encodeInt 8 (i.args .syncRewardsLamports)
    let dunaDocumentHash := fixSize 32 (i.args .dunaDocumentHash)
    return discriminator ++ (slashAuthority ++ (configAuthority ++ (cooldownTimeSeconds ++ (maxDeactivationBasisPoints ++ (syncRewardsLamports ++ dunaDocumentHash)))))
  -- initializeValidatorStake.ts 73-81
  | .initializeValidatorStake => do
    let discriminator ← encodeInt 1 1
    return discriminator
  -- initializeSolStakerStake.ts 93-101
  | .initializeSolStakerStake => do
    let discriminator ← encodeInt 1 8
    return discriminator
  -- validatorStakeTokens.ts 122-133
  | .validatorStakeTokens => do
    let discriminator ← encodeInt 1 2
    let amount ← encodeInt 8 (i.args .amount)
    return discriminator ++ amount
  -- solStakerStakeTokens.ts 122-133
  | .solStakerStakeTokens => do
    let discriminator ← encodeInt 1 9
    let amount ← encodeInt 8 (i.args .amount)
    return discriminator ++ amount
  -- unstakeTokens.ts 114-122
  | .unstakeTokens => do
    let discriminator ← encodeInt 1 11
    let amount ← encodeInt 8 (i.args .amount)
    return discriminator ++ amount
  -- harvestHolderRewards.ts 97-105
  | .harvestHolderRewards => do
    let discriminator ← encodeInt 1 3
    return discriminator
  -- harvestValidatorRewards.ts 69-77
  | .harvestValidatorRewards => do
    let discriminator ← encodeInt 1 4
    return discriminator
  -- harvestSolStakerRewards.ts 107-115
  | .harvestSolStakerRewards => do
    let discriminator ← encodeInt 1 10
    return discriminator
  -- slashValidatorStake.ts 102-113
  | .slashValidatorStake => do
    let discriminator ← encodeInt 1 5
    let amount ← encodeInt 8 (i.args .amount)
    return discriminator ++ amount
  -- slashSolStakerStake.ts 102-113
  | .slashSolStakerStake => do
    let discriminator ← encodeInt 1 12
    let amount ← encodeInt 8 (i.args .amount)
    return discriminator ++ amount
  -- setAuthority.ts 78-86
  | .setAuthority => do
    let discriminator ← encodeInt 1 6
    let authorityType ← encodeAuthorityType (i.args .authorityType)
    return discriminator ++ authorityType
  -- updateConfig.ts 71-79
  | .updateConfig => do
    let discriminator ← encodeInt 1 7
    let configField ← encodeConfigField (i.args .configField)
    return discriminator ++ configField
  -- solStakerMoveTokens.ts 84-95
  | .solStakerMoveTokens => do
    let discriminator ← encodeInt 1 13
    let amount ← encodeInt 8 (i.args .amount)
    return discriminator ++ amount
  -- validatorOverrideStakedLamports.ts 85-96
  | .validatorOverrideStakedLamports => do
    let discriminator ← encodeInt 1 14
    let amountMin ← encodeInt 8 (i.args .amountMin)
    return discriminator ++ amountMin
  -- validatorSyncAuthority.ts 62-70
  | .validatorSyncAuthority => do
    let discriminator ← encodeInt 1 15
    return discriminator

/-- `get…Instruction(input)`. -/
def Input.instruction (i : Input) (kind : Kind) : Option Request := do
  let data ← i.data kind
  return { program := progId, metas := i.metas kind, data }

/-! ## Parsing -/

/-- `containsBytes(data, bytes, 0)` (external): the slice of that length equals the bytes. -/
def startsWith (data bytes : List UInt8) : Bool := data.take bytes.length = bytes

/-- `identifyPaladinStakeProgramInstruction`, `programs/paladinStakeProgram.ts` 62-117. -/
def identify (data : List UInt8) : Option Kind :=
  if startsWith data [0] then some .initializeConfig
  else if startsWith data [1] then some .initializeValidatorStake
  else if startsWith data [2] then some .validatorStakeTokens
  else if startsWith data [3] then some .harvestHolderRewards
  else if startsWith data [4] then some .harvestValidatorRewards
  else if startsWith data [5] then some .slashValidatorStake
  else if startsWith data [6] then some .setAuthority
  else if startsWith data [7] then some .updateConfig
  else if startsWith data [8] then some .initializeSolStakerStake
  else if startsWith data [9] then some .solStakerStakeTokens
  else if startsWith data [10] then some .harvestSolStakerRewards
  else if startsWith data [11] then some .unstakeTokens
  else if startsWith data [12] then some .slashSolStakerStake
  else if startsWith data [13] then some .solStakerMoveTokens
  else if startsWith data [14] then some .validatorOverrideStakedLamports
  else if startsWith data [15] then some .validatorSyncAuthority
  else none

/-- `getAuthorityTypeDecoder`, `types/authorityType.ts` 29-31: throws for values that are not in the enum. -/
def readAuthorityType : Reader AuthorityType := fun b => do
  let (v, b) ← readInt 1 b
  if v = 0 then some (.config, b) else if v = 1 then some (.slash, b) else none

/-- `getConfigFieldDecoder`, `types/configField.ts` 55-70: throws for an unknown variant. -/
def readConfigField : Reader ConfigField := fun b => do
  let (v, b) ← readInt 1 b
  if v = 0 then do let (n, b) ← readInt 8 b; return (.cooldownTimeSeconds n, b)
  else if v = 1 then do let (n, b) ← readInt 2 b; return (.maxDeactivationBasisPoints n, b)
  else if v = 2 then do let (n, b) ← readInt 8 b; return (.syncRewardsLamports n, b)
  else none

/-- The names under which `parse…Instruction` returns the accounts, in order; at least as many accounts are needed. -/
def parseOrder : Kind → List Field
  -- initializeConfig.ts 286-317
  | .initializeConfig =>
    [.config, .mint, .vaultPda, .vault, .vaultHolderRewards, .systemProgram, .rewardsProgram]
  -- initializeValidatorStake.ts 206-237
  | .initializeValidatorStake =>
    [.config, .dunaDocumentPda, .validatorStake, .validatorVote, .systemProgram]
  -- initializeSolStakerStake.ts 286-321
  | .initializeSolStakerStake =>
    [.config, .dunaDocumentPda, .solStakerStake, .solStakerAuthorityOverride, .validatorStake, .solStakerNativeStake,
      .sysvarStakeHistory, .systemProgram, .solStakeViewProgram]
  -- validatorStakeTokens.ts 370-409
  | .validatorStakeTokens =>
    [.config, .holderRewardsPool, .holderRewardsPoolTokenAccount, .validatorStake, .validatorStakeAuthority,
      .sourceTokenAccount, .sourceTokenAccountAuthority, .mint, .vaultPda, .vault, .vaultHolderRewards, .tokenProgram,
      .rewardsProgram]
  -- solStakerStakeTokens.ts 370-409
  | .solStakerStakeTokens =>
    [.config, .holderRewardsPool, .holderRewardsPoolTokenAccount, .solStakerStake, .solStakerStakeAuthority,
      .sourceTokenAccount, .sourceTokenAccountAuthority, .mint, .vaultPda, .vault, .vaultHolderRewards, .tokenProgram,
      .rewardsProgram]
  -- unstakeTokens.ts 342-378
  | .unstakeTokens =>
    [.config, .holderRewardsPool, .holderRewardsPoolTokenAccount, .stake, .stakeAuthority, .vault, .vaultPda,
      .vaultHolderRewards, .mint, .destinationTokenAccount, .tokenProgram, .rewardsProgram]
  -- harvestHolderRewards.ts 298-334
  | .harvestHolderRewards =>
    [.config, .holderRewardsPool, .holderRewardsPoolTokenAccount, .vault, .vaultHolderRewards, .vaultPda, .mint,
      .tokenProgram, .paladinRewardsProgram, .systemProgram]
  -- harvestValidatorRewards.ts 188-218
  | .harvestValidatorRewards =>
    [.config, .vaultHolderRewards, .validatorStake, .validatorStakeAuthority]
  -- harvestSolStakerRewards.ts 341-385
  | .harvestSolStakerRewards =>
    [.solStakeViewProgram, .config, .vaultHolderRewards, .solStakerStake, .solStakerStakeAuthority, .solStakerNativeStake,
      .previousValidatorStake, .previousValidatorStakeAuthority, .currentValidatorStake, .currentValidatorStakeAuthority,
      .sysvarStakeHistory, .keeperRecipient]
  -- slashValidatorStake.ts 294-329
  | .slashValidatorStake =>
    [.config, .validatorStake, .validatorStakeAuthority, .slashAuthority, .vault, .vaultHolderRewards, .vaultAuthority,
      .mint, .tokenProgram]
  -- slashSolStakerStake.ts 294-329
  | .slashSolStakerStake =>
    [.config, .solStakerStake, .solStakerStakeAuthority, .slashAuthority, .mint, .vault, .vaultHolderRewards,
      .vaultAuthority, .tokenProgram]
  -- setAuthority.ts 189-216
  | .setAuthority =>
    [.account, .authority, .newAuthority]
  -- updateConfig.ts 171-197
  | .updateConfig =>
    [.config, .configAuthority]
  -- solStakerMoveTokens.ts 232-263
  | .solStakerMoveTokens =>
    [.config, .vaultHolderRewards, .solStakerAuthority, .sourceSolStakerStake, .destinationSolStakerStake]
  -- validatorOverrideStakedLamports.ts 230-261
  | .validatorOverrideStakedLamports =>
    [.config, .configAuthority, .validatorStake, .validatorStakeAuthority, .vaultHolderRewards]
  -- validatorSyncAuthority.ts 164-193
  | .validatorSyncAuthority =>
    [.config, .validatorStake, .validatorVote]

/-- `get…InstructionDataDecoder().decode(data)`: the discriminator is read but not compared with anything, and bytes left over
are ignored. -/
def decodeData : Kind → List UInt8 → Option ((a : Arg) → Option a.Val)
  -- initializeConfig.ts 122-132
  | .initializeConfig, b => do
    let (_, b) ← readInt 1 b
    let (slashAuthority, b) ← readBytes 32 b
    let (configAuthority, b) ← readBytes 32 b
    let (cooldownTimeSeconds, b) ← readInt 8 b
    let (maxDeactivationBasisPoints, b) ← readInt 2 b
    let (syncRewardsLamports, b) ← readInt 8 b
    let (dunaDocumentHash, _) ← readBytes 32 b
    return fun
      | .slashAuthority => some slashAuthority
      | .configAuthority => some configAuthority
      | .cooldownTimeSeconds => some cooldownTimeSeconds
      | .maxDeactivationBasisPoints => some maxDeactivationBasisPoints
      | .syncRewardsLamports => some syncRewardsLamports
      | .dunaDocumentHash => some dunaDocumentHash
      | _ => none
  -- initializeValidatorStake.ts 83-85
  | .initializeValidatorStake, b => do
    let (_, _) ← readInt 1 b
    return fun _ => none
  -- initializeSolStakerStake.ts 103-105
  | .initializeSolStakerStake, b => do
    let (_, _) ← readInt 1 b
    return fun _ => none
  -- validatorStakeTokens.ts 135-140
  | .validatorStakeTokens, b => do
    let (_, b) ← readInt 1 b
    let (amount, _) ← readInt 8 b
    return fun
      | .amount => some amount
      | _ => none
  -- solStakerStakeTokens.ts 135-140
  | .solStakerStakeTokens, b => do
    let (_, b) ← readInt 1 b
    let (amount, _) ← readInt 8 b
    return fun
      | .amount => some amount
      | _ => none
  -- unstakeTokens.ts 124-129
  | .unstakeTokens, b => do
    let (_, b) ← readInt 1 b
    let (amount, _) ← readInt 8 b
    return fun
      | .amount => some amount
      | _ => none
  -- harvestHolderRewards.ts 107-109
  | .harvestHolderRewards, b => do
    let (_, _) ← readInt 1 b
    return fun _ => none
  -- harvestValidatorRewards.ts 79-81
  | .harvestValidatorRewards, b => do
    let (_, _) ← readInt 1 b
    return fun _ => none
  -- harvestSolStakerRewards.ts 117-119
  | .harvestSolStakerRewards, b => do
    let (_, _) ← readInt 1 b
    return fun _ => none
  -- slashValidatorStake.ts 115-120
  | .slashValidatorStake, b => do
    let (_, b) ← readInt 1 b
    let (amount, _) ← readInt 8 b
    return fun
      | .amount => some amount
      | _ => none
  -- slashSolStakerStake.ts 115-120
  | .slashSolStakerStake, b => do
    let (_, b) ← readInt 1 b
    let (amount, _) ← readInt 8 b
    return fun
      | .amount => some amount
      | _ => none
  -- setAuthority.ts 88-93
  | .setAuthority, b => do
    let (_, b) ← readInt 1 b
    let (authorityType, _) ← readAuthorityType b
    return fun
      | .authorityType => some authorityType
      | _ => none
  -- updateConfig.ts 81-86
  | .updateConfig, b => do
    let (_, b) ← readInt 1 b
    let (configField, _) ← readConfigField b
    return fun
      | .configField => some configField
      | _ => none
  -- solStakerMoveTokens.ts 97-102
  | .solStakerMoveTokens, b => do
    let (_, b) ← readInt 1 b
    let (amount, _) ← readInt 8 b
    return fun
      | .amount => some amount
      | _ => none
  -- validatorOverrideStakedLamports.ts 98-103
  | .validatorOverrideStakedLamports, b => do
    let (_, b) ← readInt 1 b
    let (amountMin, _) ← readInt 8 b
    return fun
      | .amountMin => some amountMin
      | _ => none
  -- validatorSyncAuthority.ts 72-74
  | .validatorSyncAuthority, b => do
    let (_, _) ← readInt 1 b
    return fun _ => none

/-- The result of `parse…Instruction`: metas and arguments by name. -/
structure Parsed where
  program : Key
  accounts : Field → Option Meta
  args : (a : Arg) → Option a.Val

/-- `parse…Instruction(instruction)`: `getNextAccount()` in order; the keeper is `getNextOptionalAccount()`, absent when the
account is the program's own address. -/
def parse (kind : Kind) (r : Request) : Option Parsed := do
  if r.metas.length < (parseOrder kind).length then none
  let args ← decodeData kind r.data
  let found := fun f => ((parseOrder kind).zip r.metas).lookup f
  return { program := r.program, accounts := fun f => if f = .keeperRecipient then (found f).filter (·.key ≠ progId) else found f
           args }

/-! ## Accounts -/

/-- `getNullableAddressEncoder`, `hooked/nullableAddress.ts` 14-25. -/
def encodeNullable : Option (List UInt8) → Option (List UInt8)
  | none => encodeAddress (List.replicate 32 0)
  | some b => encodeAddress b

/-- `getNullableAddressDecoder`, `hooked/nullableAddress.ts` 27-37. -/
def readNullable : Reader (Option (List UInt8)) := fun b => do
  let (k, b) ← readBytes 32 b
  return (if k = List.replicate 32 0 then none else some k, b)

/-- `Delegation`, `types/delegation.ts` 25-33. -/
structure Delegation where
  stakedAmount : Nat
  effectiveAmount : Nat
  unstakeCooldown : Nat
  authority : List UInt8
  validatorVote : List UInt8
  lastSeenHolderRewardsPerToken : Nat
  lastSeenStakeRewardsPerToken : Nat

/-- `getDelegationDecoder`, `types/delegation.ts` 57-67. -/
def readDelegation : Reader Delegation := fun b => do
  let (stakedAmount, b) ← readInt 8 b
  let (effectiveAmount, b) ← readInt 8 b
  let (unstakeCooldown, b) ← readInt 8 b
  let (authority, b) ← readBytes 32 b
  let (validatorVote, b) ← readBytes 32 b
  let (lastSeenHolderRewardsPerToken, b) ← readInt 16 b
  let (lastSeenStakeRewardsPerToken, b) ← readInt 16 b
  return ({ stakedAmount, effectiveAmount, unstakeCooldown, authority, validatorVote, lastSeenHolderRewardsPerToken
            lastSeenStakeRewardsPerToken }, b)

/-- `Config`, `accounts/config.ts` 53-67. -/
structure Config where
  discriminator : List UInt8
  authority : Option (List UInt8)
  slashAuthority : Option (List UInt8)
  vault : List UInt8
  cooldownTimeSeconds : Nat
  tokenAmountEffective : Nat
  syncRewardsLamports : Nat
  lamportsLast : Nat
  dunaDocumentHash : List UInt8
  accumulatedStakeRewardsPerToken : Nat
  maxDeactivationBasisPoints : Nat
  vaultAuthorityBump : Nat
  padding : List UInt8

/-- `getConfigDecoder().decode(bytes)`, `accounts/config.ts` 103-119. -/
def decodeConfig (b : List UInt8) : Option Config := do
  let (discriminator, b) ← readBytes 8 b
  let (authority, b) ← readNullable b
  let (slashAuthority, b) ← readNullable b
  let (vault, b) ← readBytes 32 b
  let (cooldownTimeSeconds, b) ← readInt 8 b
  let (tokenAmountEffective, b) ← readInt 8 b
  let (syncRewardsLamports, b) ← readInt 8 b
  let (lamportsLast, b) ← readInt 8 b
  let (dunaDocumentHash, b) ← readBytes 32 b
  let (accumulatedStakeRewardsPerToken, b) ← readInt 16 b
  let (maxDeactivationBasisPoints, b) ← readInt 2 b
  let (vaultAuthorityBump, b) ← readInt 1 b
  let (padding, _) ← readBytes 5 b
  return { discriminator, authority, slashAuthority, vault, cooldownTimeSeconds, tokenAmountEffective, syncRewardsLamports
           lamportsLast, dunaDocumentHash, accumulatedStakeRewardsPerToken, maxDeactivationBasisPoints, vaultAuthorityBump
           padding }

/-- `ValidatorStake`, `accounts/validatorStake.ts` 42-47. -/
structure ValidatorStake where
  discriminator : List UInt8
  delegation : Delegation
  totalStakedLamportsAmount : Nat
  totalStakedLamportsAmountMin : Nat

/-- `getValidatorStakeDecoder().decode(bytes)`, `accounts/validatorStake.ts` 65-72. -/
def decodeValidatorStake (b : List UInt8) : Option ValidatorStake := do
  let (discriminator, b) ← readBytes 8 b
  let (delegation, b) ← readDelegation b
  let (totalStakedLamportsAmount, b) ← readInt 8 b
  let (totalStakedLamportsAmountMin, _) ← readInt 8 b
  return { discriminator, delegation, totalStakedLamportsAmount, totalStakedLamportsAmountMin }

/-- `SolStakerStake`, `accounts/solStakerStake.ts` 44-49. -/
structure SolStakerStake where
  discriminator : List UInt8
  delegation : Delegation
  lamportsAmount : Nat
  solStake : List UInt8

/-- `getSolStakerStakeDecoder().decode(bytes)`, `accounts/solStakerStake.ts` 67-74. -/
def decodeSolStakerStake (b : List UInt8) : Option SolStakerStake := do
  let (discriminator, b) ← readBytes 8 b
  let (delegation, b) ← readDelegation b
  let (lamportsAmount, b) ← readInt 8 b
  let (solStake, _) ← readBytes 32 b
  return { discriminator, delegation, lamportsAmount, solStake }

/-- `DelegationArgs`, `types/delegation.ts` 35-43. -/
structure DelegationArgs where
  stakedAmount : Int
  effectiveAmount : Int
  unstakeCooldown : Int
  authority : List UInt8
  validatorVote : List UInt8
  lastSeenHolderRewardsPerToken : Int
  lastSeenStakeRewardsPerToken : Int

/-- `getDelegationEncoder`, `types/delegation.ts` 45-55. -/
def encodeDelegation (v : DelegationArgs) : Option (List UInt8) := do
  return (← encodeInt 8 v.stakedAmount) ++ ((← encodeInt 8 v.effectiveAmount) ++ ((← encodeInt 8 v.unstakeCooldown) ++
    ((← encodeAddress v.authority) ++ ((← encodeAddress v.validatorVote) ++
      ((← encodeInt 16 v.lastSeenHolderRewardsPerToken) ++ (← encodeInt 16 v.lastSeenStakeRewardsPerToken))))))

/-- `ConfigArgs`, `accounts/config.ts` 69-83. -/
structure ConfigArgs where
  discriminator : List Int
  authority : Option (List UInt8)
  slashAuthority : Option (List UInt8)
  vault : List UInt8
  cooldownTimeSeconds : Int
  tokenAmountEffective : Int
  syncRewardsLamports : Int
  lamportsLast : Int
  dunaDocumentHash : List UInt8
  accumulatedStakeRewardsPerToken : Int
  maxDeactivationBasisPoints : Int
  vaultAuthorityBump : Int
  padding : List Int

/-- `getConfigEncoder().encode(args)`, `accounts/config.ts` 85-101. -/
def encodeConfig (v : ConfigArgs) : Option (List UInt8) := do
  return (← encodeArray 8 v.discriminator) ++ ((← encodeNullable v.authority) ++ ((← encodeNullable v.slashAuthority) ++
    ((← encodeAddress v.vault) ++ ((← encodeInt 8 v.cooldownTimeSeconds) ++ ((← encodeInt 8 v.tokenAmountEffective) ++
      ((← encodeInt 8 v.syncRewardsLamports) ++ ((← encodeInt 8 v.lamportsLast) ++ (fixSize 32 v.dunaDocumentHash ++
        ((← encodeInt 16 v.accumulatedStakeRewardsPerToken) ++ ((← encodeInt 2 v.maxDeactivationBasisPoints) ++
          ((← encodeInt 1 v.vaultAuthorityBump) ++ (← encodeArray 5 v.padding))))))))))))

/-- `ValidatorStakeArgs`, `accounts/validatorStake.ts` 49-54. -/
structure ValidatorStakeArgs where
  discriminator : List Int
  delegation : DelegationArgs
  totalStakedLamportsAmount : Int
  totalStakedLamportsAmountMin : Int

/-- `getValidatorStakeEncoder().encode(args)`, `accounts/validatorStake.ts` 56-63. -/
def encodeValidatorStake (v : ValidatorStakeArgs) : Option (List UInt8) := do
  return (← encodeArray 8 v.discriminator) ++ ((← encodeDelegation v.delegation) ++
    ((← encodeInt 8 v.totalStakedLamportsAmount) ++ (← encodeInt 8 v.totalStakedLamportsAmountMin)))

/-- `SolStakerStakeArgs`, `accounts/solStakerStake.ts` 51-56. -/
structure SolStakerStakeArgs where
  discriminator : List Int
  delegation : DelegationArgs
  lamportsAmount : Int
  solStake : List UInt8

/-- `getSolStakerStakeEncoder().encode(args)`, `accounts/solStakerStake.ts` 58-65. -/
def encodeSolStakerStake (v : SolStakerStakeArgs) : Option (List UInt8) := do
  return (← encodeArray 8 v.discriminator) ++ ((← encodeDelegation v.delegation) ++
    ((← encodeInt 8 v.lamportsAmount) ++ (← encodeAddress v.solStake)))

/-- `getConfigSize`, `accounts/config.ts` 178-180. -/
def configSize : Nat := 192
/-- `getValidatorStakeSize`, `accounts/validatorStake.ts` 142-144. -/
def validatorStakeSize : Nat := 144
/-- `getSolStakerStakeSize`, `accounts/solStakerStake.ts` 144-146. -/
def solStakerStakeSize : Nat := 168

/-! ## `hooked/nullableU64.ts`, which no account or instruction uses -/

/-- `combineCodec(encoder, decoder)` (external): throws when the fixed sizes differ. -/
def combineCodec (encoderSize decoderSize : Nat) : Option Unit := if encoderSize = decoderSize then some () else none

/-- `getNullableU64Encoder`, 9-20: `fixedSize: 8`. -/
def encodeNullableU64 : Option Int → Option (List UInt8)
  | none => encodeInt 8 0
  | some v => encodeInt 8 v

/-- `getNullableU64Decoder`, 22-32. -/
def readNullableU64 : Reader (Option Nat) := fun b => do
  let (v, b) ← readInt 8 b
  return (if v = 0 then none else some v, b)

/-- `getNullableU64Codec()`, 34-35: the encoder is declared with size 8, the decoder with size 32 (line 24). -/
def nullableU64Codec : Option Unit := combineCodec 8 32

end Verif.Client.Js
