import Verif.Model.Basic
/-!
# Error codes and their texts

`/repo/program/src/error.rs`, `/repo/program/idl.json` ("errors"), and the generated error modules of the two clients.

An error travels from the program to a client as the number in `ProgramError::Custom`. Omitted: the log line that `print` writes
(`entrypoint.rs` 14-16, `error.rs` 119-123) is the text below.
-/

namespace Verif

/-- The texts of `#[error(..)]`, `error.rs` 14-117. -/
def StakeError.message : StakeError → String
  | .amountGreaterThanZero => "Amount cannot be greater than zero"
  | .invalidTokenOwner => "Invalid token owner"
  | .invalidTransferHookProgramId => "Invalid transfer hook program id"
  | .invalidAccountDataLength => "Invalid account data length"
  | .invalidMint => "Invalid mint"
  | .missingTransferHook => "Missing transfer hook"
  | .closeAuthorityNotNone => "Close authority must be none"
  | .delegateNotNone => "Delegate must be none"
  | .invalidTokenAccountExtension => "Invalid token account extension"
  | .invalidAuthority => "Invalid authority"
  | .authorityNotSet => "Authority is not set"
  | .insufficientStakeAmount => "Amount greater than stake amount"
  | .invalidAmount => "Amount should be greater than 0"
  | .maximumDeactivationAmountExceeded => "Amount exeeds maximum deactivation amount"
  | .activeUnstakeCooldown => "Active unstake cooldown"
  | .incorrectVaultAccount => "Incorrect vault account"
  | .invalidDestinationAccount => "Invalid destination account"
  | .invalidSlashAmount => "Invalid slash amount"
  | .undelegatedSolStakeAccount => "Undelegated SOL stake account"
  | .totalStakeAmountExceedsSolLimit => "Total stake amount exceeds SOL limit"
  | .incorrectSolStakeAccount => "Incorrect SOL stake account"
  | .invalidHolderRewards => "Invalid holder rewards"
  | .dunaDocumentNotInitialized => "DUNA document is not initialized"
  | .incorrectVaultPdaAccount => "Incorrect vault PDA account"
  | .invalidVaultPdaOwner => "Invalid vault pda owner"
  | .invalidVaultHolderRewardsSeeds => "Invalid vault holder rewards seeds"

/-- The identifiers of the variants, `error.rs` 14-117. -/
def StakeError.name : StakeError → String
  | .amountGreaterThanZero => "AmountGreaterThanZero"
  | .invalidTokenOwner => "InvalidTokenOwner"
  | .invalidTransferHookProgramId => "InvalidTransferHookProgramId"
  | .invalidAccountDataLength => "InvalidAccountDataLength"
  | .invalidMint => "InvalidMint"
  | .missingTransferHook => "MissingTransferHook"
  | .closeAuthorityNotNone => "CloseAuthorityNotNone"
  | .delegateNotNone => "DelegateNotNone"
  | .invalidTokenAccountExtension => "InvalidTokenAccountExtension"
  | .invalidAuthority => "InvalidAuthority"
  | .authorityNotSet => "AuthorityNotSet"
  | .insufficientStakeAmount => "InsufficientStakeAmount"
  | .invalidAmount => "InvalidAmount"
  | .maximumDeactivationAmountExceeded => "MaximumDeactivationAmountExceeded"
  | .activeUnstakeCooldown => "ActiveUnstakeCooldown"
  | .incorrectVaultAccount => "IncorrectVaultAccount"
  | .invalidDestinationAccount => "InvalidDestinationAccount"
  | .invalidSlashAmount => "InvalidSlashAmount"
  | .undelegatedSolStakeAccount => "UndelegatedSolStakeAccount"
  | .totalStakeAmountExceedsSolLimit => "TotalStakeAmountExceedsSolLimit"
  | .incorrectSolStakeAccount => "IncorrectSolStakeAccount"
  | .invalidHolderRewards => "InvalidHolderRewards"
  | .dunaDocumentNotInitialized => "DunaDocumentNotInitialized"
  | .incorrectVaultPdaAccount => "IncorrectVaultPdaAccount"
  | .invalidVaultPdaOwner => "InvalidVaultPdaOwner"
  | .invalidVaultHolderRewardsSeeds => "InvalidVaultHolderRewardsSeeds"

/-- `e as u32` in `From<StakeError> for ProgramError`, `error.rs` 125-129: the position in the declaration of the enum,
`error.rs` 13-117, which gives no explicit discriminants. -/
def StakeError.code : StakeError → Nat := StakeError.ctorIdx

/-- One error of a client or of the IDL. -/
structure ErrorEntry where
  name : String
  code : Nat
  message : String
  deriving DecidableEq

/-- "errors" of `/repo/program/idl.json` 1441-1572. -/
def idlErrors : List ErrorEntry := [
  ⟨"AmountGreaterThanZero", 0, "Amount cannot be greater than zero"⟩,
  ⟨"InvalidTokenOwner", 1, "Invalid token owner"⟩,
  ⟨"InvalidTransferHookProgramId", 2, "Invalid transfer hook program id"⟩,
  ⟨"InvalidAccountDataLength", 3, "Invalid account data length"⟩,
  ⟨"InvalidMint", 4, "Invalid mint"⟩,
  ⟨"MissingTransferHook", 5, "Missing transfer hook"⟩,
  ⟨"CloseAuthorityNotNone", 6, "Close authority must be none"⟩,
  ⟨"DelegateNotNone", 7, "Delegate must be none"⟩,
  ⟨"InvalidTokenAccountExtension", 8, "Invalid token account extension"⟩,
  ⟨"InvalidAuthority", 9, "Invalid authority"⟩,
  ⟨"AuthorityNotSet", 10, "Authority is not set"⟩,
  ⟨"InsufficientStakeAmount", 11, "Amount greater than stake amount"⟩,
  ⟨"InvalidAmount", 12, "Amount should be greater than 0"⟩,
  ⟨"MaximumDeactivationAmountExceeded", 13, "Amount exeeds maximum deactivation amount"⟩,
  ⟨"ActiveUnstakeCooldown", 14, "Active unstake cooldown"⟩,
  ⟨"IncorrectVaultAccount", 15, "Incorrect vault account"⟩,
  ⟨"InvalidDestinationAccount", 16, "Invalid destination account"⟩,
  ⟨"InvalidSlashAmount", 17, "Invalid slash amount"⟩,
  ⟨"UndelegatedSolStakeAccount", 18, "Undelegated SOL stake account"⟩,
  ⟨"TotalStakeAmountExceedsSolLimit", 19, "Total stake amount exceeds SOL limit"⟩,
  ⟨"IncorrectSolStakeAccount", 20, "Incorrect SOL stake account"⟩,
  ⟨"InvalidHolderRewards", 21, "Invalid holder rewards"⟩,
  ⟨"DunaDocumentNotInitialized", 22, "DUNA document is not initialized"⟩,
  ⟨"IncorrectVaultPdaAccount", 23, "Incorrect vault PDA account"⟩,
  ⟨"InvalidVaultPdaOwner", 24, "Invalid vault pda owner"⟩,
  ⟨"InvalidVaultHolderRewardsSeeds", 25, "Invalid vault holder rewards seeds"⟩]

/-- `PaladinStakeProgramError`, `/repo/clients/rust/src/generated/errors/paladin_stake_program.rs` 11-91. -/
def rustErrors : List ErrorEntry := [
  ⟨"AmountGreaterThanZero", 0x0, "Amount cannot be greater than zero"⟩,
  ⟨"InvalidTokenOwner", 0x1, "Invalid token owner"⟩,
  ⟨"InvalidTransferHookProgramId", 0x2, "Invalid transfer hook program id"⟩,
  ⟨"InvalidAccountDataLength", 0x3, "Invalid account data length"⟩,
  ⟨"InvalidMint", 0x4, "Invalid mint"⟩,
  ⟨"MissingTransferHook", 0x5, "Missing transfer hook"⟩,
  ⟨"CloseAuthorityNotNone", 0x6, "Close authority must be none"⟩,
  ⟨"DelegateNotNone", 0x7, "Delegate must be none"⟩,
  ⟨"InvalidTokenAccountExtension", 0x8, "Invalid token account extension"⟩,
  ⟨"InvalidAuthority", 0x9, "Invalid authority"⟩,
  ⟨"AuthorityNotSet", 0xa, "Authority is not set"⟩,
  ⟨"InsufficientStakeAmount", 0xb, "Amount greater than stake amount"⟩,
  ⟨"InvalidAmount", 0xc, "Amount should be greater than 0"⟩,
  ⟨"MaximumDeactivationAmountExceeded", 0xd, "Amount exeeds maximum deactivation amount"⟩,
  ⟨"ActiveUnstakeCooldown", 0xe, "Active unstake cooldown"⟩,
  ⟨"IncorrectVaultAccount", 0xf, "Incorrect vault account"⟩,
  ⟨"InvalidDestinationAccount", 0x10, "Invalid destination account"⟩,
  ⟨"InvalidSlashAmount", 0x11, "Invalid slash amount"⟩,
  ⟨"UndelegatedSolStakeAccount", 0x12, "Undelegated SOL stake account"⟩,
  ⟨"TotalStakeAmountExceedsSolLimit", 0x13, "Total stake amount exceeds SOL limit"⟩,
  ⟨"IncorrectSolStakeAccount", 0x14, "Incorrect SOL stake account"⟩,
  ⟨"InvalidHolderRewards", 0x15, "Invalid holder rewards"⟩,
  ⟨"DunaDocumentNotInitialized", 0x16, "DUNA document is not initialized"⟩,
  ⟨"IncorrectVaultPdaAccount", 0x17, "Incorrect vault PDA account"⟩,
  ⟨"InvalidVaultPdaOwner", 0x18, "Invalid vault pda owner"⟩,
  ⟨"InvalidVaultHolderRewardsSeeds", 0x19, "Invalid vault holder rewards seeds"⟩]

/-- The derived `FromPrimitive::from_u32`: the variant with the discriminant. -/
def rustFromU32 (code : Nat) : Option ErrorEntry := rustErrors.find? fun x => x.code == code

/-- The exported constants `PALADIN_STAKE_PROGRAM_ERROR__*`, `/repo/clients/js/src/generated/errors/paladinStakeProgram.ts` 17-68. -/
def jsErrorCodes : List (String × Nat) := [
  ("AMOUNT_GREATER_THAN_ZERO", 0x0),
  ("INVALID_TOKEN_OWNER", 0x1),
  ("INVALID_TRANSFER_HOOK_PROGRAM_ID", 0x2),
  ("INVALID_ACCOUNT_DATA_LENGTH", 0x3),
  ("INVALID_MINT", 0x4),
  ("MISSING_TRANSFER_HOOK", 0x5),
  ("CLOSE_AUTHORITY_NOT_NONE", 0x6),
  ("DELEGATE_NOT_NONE", 0x7),
  ("INVALID_TOKEN_ACCOUNT_EXTENSION", 0x8),
  ("INVALID_AUTHORITY", 0x9),
  ("AUTHORITY_NOT_SET", 0xa),
  ("INSUFFICIENT_STAKE_AMOUNT", 0xb),
  ("INVALID_AMOUNT", 0xc),
  ("MAXIMUM_DEACTIVATION_AMOUNT_EXCEEDED", 0xd),
  ("ACTIVE_UNSTAKE_COOLDOWN", 0xe),
  ("INCORRECT_VAULT_ACCOUNT", 0xf),
  ("INVALID_DESTINATION_ACCOUNT", 0x10),
  ("INVALID_SLASH_AMOUNT", 0x11),
  ("UNDELEGATED_SOL_STAKE_ACCOUNT", 0x12),
  ("TOTAL_STAKE_AMOUNT_EXCEEDS_SOL_LIMIT", 0x13),
  ("INCORRECT_SOL_STAKE_ACCOUNT", 0x14),
  ("INVALID_HOLDER_REWARDS", 0x15),
  ("DUNA_DOCUMENT_NOT_INITIALIZED", 0x16),
  ("INCORRECT_VAULT_PDA_ACCOUNT", 0x17),
  ("INVALID_VAULT_PDA_OWNER", 0x18),
  ("INVALID_VAULT_HOLDER_REWARDS_SEEDS", 0x19)]

/-- `paladinStakeProgramErrorMessages`, lines 101-129: an object literal whose keys are the constants. -/
def jsErrorMessages : List (String × String) := [
  ("ACTIVE_UNSTAKE_COOLDOWN", "Active unstake cooldown"),
  ("AMOUNT_GREATER_THAN_ZERO", "Amount cannot be greater than zero"),
  ("AUTHORITY_NOT_SET", "Authority is not set"),
  ("CLOSE_AUTHORITY_NOT_NONE", "Close authority must be none"),
  ("DELEGATE_NOT_NONE", "Delegate must be none"),
  ("DUNA_DOCUMENT_NOT_INITIALIZED", "DUNA document is not initialized"),
  ("INCORRECT_SOL_STAKE_ACCOUNT", "Incorrect SOL stake account"),
  ("INCORRECT_VAULT_ACCOUNT", "Incorrect vault account"),
  ("INCORRECT_VAULT_PDA_ACCOUNT", "Incorrect vault PDA account"),
  ("INSUFFICIENT_STAKE_AMOUNT", "Amount greater than stake amount"),
  ("INVALID_ACCOUNT_DATA_LENGTH", "Invalid account data length"),
  ("INVALID_AMOUNT", "Amount should be greater than 0"),
  ("INVALID_AUTHORITY", "Invalid authority"),
  ("INVALID_DESTINATION_ACCOUNT", "Invalid destination account"),
  ("INVALID_HOLDER_REWARDS", "Invalid holder rewards"),
  ("INVALID_MINT", "Invalid mint"),
  ("INVALID_SLASH_AMOUNT", "Invalid slash amount"),
  ("INVALID_TOKEN_ACCOUNT_EXTENSION", "Invalid token account extension"),
  ("INVALID_TOKEN_OWNER", "Invalid token owner"),
  ("INVALID_TRANSFER_HOOK_PROGRAM_ID", "Invalid transfer hook program id"),
  ("INVALID_VAULT_HOLDER_REWARDS_SEEDS", "Invalid vault holder rewards seeds"),
  ("INVALID_VAULT_PDA_OWNER", "Invalid vault pda owner"),
  ("MAXIMUM_DEACTIVATION_AMOUNT_EXCEEDED", "Amount exeeds maximum deactivation amount"),
  ("MISSING_TRANSFER_HOOK", "Missing transfer hook"),
  ("TOTAL_STAKE_AMOUNT_EXCEEDS_SOL_LIMIT", "Total stake amount exceeds SOL limit"),
  ("UNDELEGATED_SOL_STAKE_ACCOUNT", "Undelegated SOL stake account")]

/-- `getPaladinStakeProgramErrorMessage`, lines 132-145. `production` is `process.env.NODE_ENV === 'production'`; `none` is
`undefined`. In an object literal the last of several equal keys counts. -/
def jsErrorMessage (production : Bool) (code : Nat) : Option String :=
  if production then some "Error message not available in production bundles."
  else (jsErrorMessages.reverse.find? fun x => jsErrorCodes.lookup x.1 == some code).map Prod.snd

end Verif
