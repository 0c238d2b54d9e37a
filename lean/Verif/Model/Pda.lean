/-!
# Program derived addresses as bytes

The rest of the model takes addresses from a free algebra (`Key`). This file models how the addresses are computed: the
seeds of `/repo/program/src/state/mod.rs` 37-154 and 214-221, of the Rust client `/repo/clients/rust/src/pdas.rs` and of the
JavaScript client `/repo/clients/js/src/generated/pdas/vault.ts`, and `Pubkey::create_program_address` and
`find_program_address` of the Solana SDK. SHA-256 and the curve test are parameters.
-/

namespace Verif.Pda

abbrev Bytes := List UInt8

/-- The bytes of an ASCII string literal. -/
def str (s : String) : Bytes := s.toList.map fun c => UInt8.ofNat c.toNat

/-- SHA-256 and the test whether 32 bytes are a point of the curve. -/
structure Crypto where
  sha256 : Bytes → Bytes
  onCurve : Bytes → Bool

inductive PubkeyError where
  | maxSeedLengthExceeded
  | invalidSeeds
  deriving DecidableEq

/-- What is hashed: all seeds one after the other, without separators or lengths, then the program id and a marker
(`Pubkey::create_program_address` of the Solana SDK). -/
def preimage (seeds : List Bytes) (program : Bytes) : Bytes := seeds.flatten ++ program ++ str "ProgramDerivedAddress"

/-- `Pubkey::create_program_address`: at most 16 seeds of at most 32 bytes; the hash must not be on the curve. -/
def createProgramAddress (x : Crypto) (seeds : List Bytes) (program : Bytes) : Except PubkeyError Bytes :=
  if 16 < seeds.length ∨ ∃ s ∈ seeds, 32 < s.length then .error .maxSeedLengthExceeded
  else
    let h := x.sha256 (preimage seeds program)
    if x.onCurve h then .error .invalidSeeds else .ok h

/-- The loop of `Pubkey::try_find_program_address` from bump `n` down to 1. -/
def tryFrom (x : Crypto) (seeds : List Bytes) (program : Bytes) : Nat → Option (Bytes × Nat)
  | 0 => none
  | n + 1 =>
    match createProgramAddress x (seeds ++ [[UInt8.ofNat (n + 1)]]) program with
    | .ok a => some (a, n + 1)
    | .error .invalidSeeds => tryFrom x seeds program n
    | .error .maxSeedLengthExceeded => none

/-- `Pubkey::find_program_address`; `none` is a panic. -/
def findProgramAddress (x : Crypto) (seeds : List Bytes) (program : Bytes) : Option (Bytes × Nat) :=
  tryFrom x seeds program 255

/-! ## The program: `/repo/program/src/state/mod.rs` -/

/-- Lines 124-127 (`get_vault_pda_signer_seeds`). -/
def getVaultPdaSignerSeeds (config bump : Bytes) : List Bytes := [str "token-owner", config, bump]

/-- Lines 38-45 (`create_vault_pda`). -/
def createVaultPda (x : Crypto) (config bump programId : Bytes) : Except PubkeyError Bytes :=
  createProgramAddress x (getVaultPdaSignerSeeds config bump) programId

/-- Lines 47-50 (`find_vault_pda`). -/
def findVaultPda (x : Crypto) (config programId : Bytes) : Option (Bytes × Nat) :=
  findProgramAddress x [str "token-owner", config] programId

/-- Lines 52-55 (`find_config_pda`). -/
def findConfigPda (x : Crypto) (programId : Bytes) : Option (Bytes × Nat) :=
  findProgramAddress x [str "config"] programId

/-- Lines 57-60 (`get_config_pda_signer_seeds`). -/
def getConfigPdaSignerSeeds (bump : Bytes) : List Bytes := [str "config", bump]

/-- Lines 62-76 (`find_sol_staker_stake_pda`). -/
def findSolStakerStakePda (x : Crypto) (stakeState config programId : Bytes) : Option (Bytes × Nat) :=
  findProgramAddress x [str "sol_staker_stake", stakeState, config] programId

/-- Lines 129-141 (`get_sol_staker_stake_pda_signer_seeds`). -/
def getSolStakerStakePdaSignerSeeds (stakeState config bump : Bytes) : List Bytes :=
  [str "sol_staker_stake", stakeState, config, bump]

/-- Lines 78-92 (`find_sol_staker_authority_override_pda`). -/
def findSolStakerAuthorityOverridePda (x : Crypto) (originalAuthority config programId : Bytes) : Option (Bytes × Nat) :=
  findProgramAddress x [str "sol_staker_authority_override", originalAuthority, config] programId

/-- Lines 94-106 (`get_sol_staker_authority_override_pda_signer_seeds`). -/
def getSolStakerAuthorityOverridePdaSignerSeeds (originalAuthority config bump : Bytes) : List Bytes :=
  [str "sol_staker_authority_override", originalAuthority, config, bump]

/-- Lines 108-122 (`find_validator_stake_pda`). -/
def findValidatorStakePda (x : Crypto) (validatorVote config programId : Bytes) : Option (Bytes × Nat) :=
  findProgramAddress x [str "validator_stake", validatorVote, config] programId

/-- Lines 143-154 (`get_validator_stake_pda_signer_seeds`). -/
def getValidatorStakePdaSignerSeeds (validatorVote config bump : Bytes) : List Bytes :=
  [str "validator_stake", validatorVote, config, bump]

/-- Lines 214-221 (`find_duna_document_pda`); the spelling of the seed is that of the source. -/
def findDunaDocumentPda (x : Crypto) (signer docHash dunaProgramId : Bytes) : Option (Bytes × Nat) :=
  findProgramAddress x [str "consitution", signer, docHash] dunaProgramId

/-! ## The Rust client: `/repo/clients/rust/src/pdas.rs` -/

namespace RustClient

/-- Lines 3-5. -/
def findVaultPda (x : Crypto) (id config : Bytes) : Option (Bytes × Nat) :=
  findProgramAddress x [str "token-owner", config] id

/-- Lines 7-16. -/
def findSolStakerStakePda (x : Crypto) (id stakeState config : Bytes) : Option (Bytes × Nat) :=
  findProgramAddress x [str "sol_staker_stake", stakeState, config] id

/-- Lines 18-30. -/
def findSolStakerAuthorityOverridePda (x : Crypto) (id originalAuthority config : Bytes) : Option (Bytes × Nat) :=
  findProgramAddress x [str "sol_staker_authority_override", originalAuthority, config] id

/-- Lines 32-41. -/
def findValidatorStakePda (x : Crypto) (id validatorVote config : Bytes) : Option (Bytes × Nat) :=
  findProgramAddress x [str "validator_stake", validatorVote, config] id

end RustClient

/-! ## The JavaScript client: `/repo/clients/js/src/generated/pdas/vault.ts` -/

namespace JsClient

/-- Lines 22-36 (`findVaultPda`). The only seed besides the constant is called the config authority. -/
def findVaultPda (x : Crypto) (programAddress authority : Bytes) : Option (Bytes × Nat) :=
  findProgramAddress x [str "token-vault", authority] programAddress

end JsClient

end Verif.Pda
