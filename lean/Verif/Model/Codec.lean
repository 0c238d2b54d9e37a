import Verif.Model.Instr
/-!
# Instruction encoding

Models `StakeInstruction`, `pack` and `unpack`, `/repo/program/src/instruction.rs` 12-1027.
-/

namespace Verif

/-- `to_le_bytes` of a `len`-byte integer. -/
def leBytes : (len : Nat) → Nat → List UInt8
  | 0, _ => []
  | len + 1, n => UInt8.ofNat (n % 256) :: leBytes len (n / 256)

/-- `from_le_bytes`. -/
def leNat : List UInt8 → Nat
  | [] => 0
  | b :: bs => b.toNat + 256 * leNat bs

/-- `StakeInstruction`, `instruction.rs` 12-799. Keys and the document hash are 32-byte strings. -/
inductive StakeInstruction where
  | initializeConfig (slashAuthority configAuthority : List UInt8)
      (cooldownTimeSeconds maxDeactivationBasisPoints syncRewardsLamports : Nat) (dunaDocumentHash : List UInt8)
  | initializeValidatorStake
  | validatorStakeTokens (amount : Nat)
  | harvestHolderRewards
  | harvestValidatorRewards
  | slashValidatorStake (amount : Nat)
  | setAuthority (t : AuthorityType)
  | updateConfig (f : ConfigField)
  | initializeSolStakerStake
  | solStakerStakeTokens (amount : Nat)
  | harvestSolStakerRewards
  | unstakeTokens (amount : Nat)
  | slashSolStakerStake (amount : Nat)
  | solStakerMoveTokens (amount : Nat)
  | validatorOverrideStakedLamports (amountMin : Nat)
  | validatorSyncAuthority
  deriving DecidableEq, Repr

/-- `StakeInstruction::pack`, `instruction.rs` 803-900. -/
def StakeInstruction.pack : StakeInstruction → List UInt8
  | .initializeConfig s c t b y h =>
    [0] ++ s ++ c ++ leBytes 8 t ++ leBytes 2 b ++ leBytes 8 y ++ h
  | .initializeValidatorStake => [1]
  | .validatorStakeTokens a => [2] ++ leBytes 8 a
  | .harvestHolderRewards => [3]
  | .harvestValidatorRewards => [4]
  | .slashValidatorStake a => [5] ++ leBytes 8 a
  | .setAuthority .config => [6, 0]
  | .setAuthority .slash => [6, 1]
  | .updateConfig (.cooldownTimeSeconds v) => [7, 0] ++ leBytes 8 v
  | .updateConfig (.maxDeactivationBasisPoints v) => [7, 1] ++ leBytes 2 v
  | .updateConfig (.syncRewardsLamports v) => [7, 2] ++ leBytes 8 v
  | .initializeSolStakerStake => [8]
  | .solStakerStakeTokens a => [9] ++ leBytes 8 a
  | .harvestSolStakerRewards => [10]
  | .unstakeTokens a => [11] ++ leBytes 8 a
  | .slashSolStakerStake a => [12] ++ leBytes 8 a
  | .solStakerMoveTokens a => [13] ++ leBytes 8 a
  | .validatorOverrideStakedLamports a => [14] ++ leBytes 8 a
  | .validatorSyncAuthority => [15]

/-- `array_ref![rest, start, len]` once the length is known. -/
def slice (b : List UInt8) (start len : Nat) : List UInt8 := (b.drop start).take len

/-- The arms of `unpack` that carry one `u64`. -/
def unpackU64 (rest : List UInt8) (f : Nat → StakeInstruction) : Res StakeInstruction :=
  if rest.length = 8 then .ok (f (leNat (slice rest 0 8))) else .error .invalidInstructionData

/-- `ConfigField` part of `unpack`, `instruction.rs` 949-966. -/
def unpackField : List UInt8 → Res StakeInstruction
  | [] => .error .invalidInstructionData
  | t :: rest =>
    match t.toNat with
    | 0 => if rest.length = 8 then .ok (.updateConfig (.cooldownTimeSeconds (leNat (slice rest 0 8))))
           else .error .invalidInstructionData
    | 1 => if rest.length = 2 then .ok (.updateConfig (.maxDeactivationBasisPoints (leNat (slice rest 0 2))))
           else .error .invalidInstructionData
    | 2 => if rest.length = 8 then .ok (.updateConfig (.syncRewardsLamports (leNat (slice rest 0 8))))
           else .error .invalidInstructionData
    | _ => .error .invalidInstructionData

/-- `AuthorityType` part of `unpack`, `instruction.rs` 942-946. -/
def unpackAuthorityType : List UInt8 → Res StakeInstruction
  | [b] =>
    match b.toNat with
    | 0 => .ok (.setAuthority .config)
    | 1 => .ok (.setAuthority .slash)
    | _ => .error .invalidInstructionData
  | _ => .error .invalidInstructionData

/-- `StakeInstruction::unpack`, `instruction.rs` 903-1008. -/
def StakeInstruction.unpack : List UInt8 → Res StakeInstruction
  | [] => .error .invalidInstructionData
  | tag :: rest =>
    match tag.toNat with
    | 0 =>
      if rest.length = 32 + 32 + 8 + 2 + 8 + 32 then
        .ok (.initializeConfig (slice rest 0 32) (slice rest 32 32) (leNat (slice rest 64 8))
          (leNat (slice rest 72 2)) (leNat (slice rest 74 8)) (slice rest 82 32))
      else .error .invalidInstructionData
    | 1 => .ok .initializeValidatorStake
    | 2 => unpackU64 rest .validatorStakeTokens
    | 3 => .ok .harvestHolderRewards
    | 4 => .ok .harvestValidatorRewards
    | 5 => unpackU64 rest .slashValidatorStake
    | 6 => unpackAuthorityType rest
    | 7 => unpackField rest
    | 8 => .ok .initializeSolStakerStake
    | 9 => unpackU64 rest .solStakerStakeTokens
    | 10 => .ok .harvestSolStakerRewards
    | 11 => unpackU64 rest .unstakeTokens
    | 12 => unpackU64 rest .slashSolStakerStake
    | 13 => unpackU64 rest .solStakerMoveTokens
    | 14 => unpackU64 rest .validatorOverrideStakedLamports
    | 15 => .ok .validatorSyncAuthority
    | _ => .error .invalidInstructionData

end Verif
