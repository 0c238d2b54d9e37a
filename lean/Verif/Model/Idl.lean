import Verif.Model.ClientBuild
/-!
# The IDL and tools driven by it

`/repo/program/idl.json` describes the instructions, accounts and types of the program for tools that are not written for it;
the two clients are generated from it by `/repo/scripts/generate-clients.mjs`. Modelled here: the description as data
(transcribed by a script), the transformations the script applies to it, and a generic tool that reads it: an encoder and a
decoder for its types (Borsh), and a builder of requests.

Account names are represented by `Field`, which has the same names. The "errors" are in `Model/Errors.lean`. Omitted: "docs",
"metadata", and the default values of accounts that the script adds (`generate-clients.mjs` 42-61; the defaults of the clients are
modelled in `Model/ClientBuild.lean` and `Model/Js.lean`).
-/

namespace Verif.Idl

open Verif Verif.Client

/-! ## Types -/

/-- The types of the IDL. A struct is a sequence of fields, an enum a sequence of variants. -/
inductive Ty where
  /-- `u8`, `u16`, `u64`, `u128`, by the number of bytes. -/
  | int (width : Nat)
  /-- `publicKey` and `{"array": ["u8", n]}`. -/
  | bytes (n : Nat)
  /-- `{"defined": name}` where the IDL has no type of that name. -/
  | named (name : String)
  /-- The end of a struct. -/
  | unit
  /-- A field of a struct in front of the others. -/
  | field (name : String) (type rest : Ty)
  /-- The end of an enum. -/
  | never
  /-- A variant of an enum in front of the others. -/
  | variant (name : String) (payload rest : Ty)
  deriving DecidableEq, Repr

/-- The rest of a struct is a struct, and the rest of an enum is an enum. -/
def Ty.wf : Ty → Bool
  | .field _ t (.field n u r) => t.wf && Ty.wf (.field n u r)
  | .field _ t .unit => t.wf
  | .variant _ p (.variant n q r) => p.wf && Ty.wf (.variant n q r)
  | .variant _ p .never => p.wf
  | .field _ _ _ | .variant _ _ _ => false
  | _ => true

/-- Values of these types. -/
inductive Value where
  | num (n : Nat)
  | bytes (b : List UInt8)
  | unit
  | pair (value rest : Value)
  /-- The first of the variants. -/
  | here (payload : Value)
  /-- One of the other variants. -/
  | there (v : Value)
  deriving DecidableEq, Repr

/-- Borsh encoding; `k` counts the variants passed over. `none` if the value is not of the type. -/
def encode : Ty → Nat → Value → Option (List UInt8)
  | .int width, _, .num n => if n < 256 ^ width then some (leBytes width n) else none
  | .bytes m, _, .bytes b => if b.length = m then some b else none
  | .unit, _, .unit => some []
  | .field _ t rest, _, .pair v vs => do return (← encode t 0 v) ++ (← encode rest 0 vs)
  | .variant _ p _, k, .here v => do
    let b ← encode p 0 v
    if k < 256 then some (leBytes 1 k ++ b) else none
  | .variant _ _ rest, k, .there v => encode rest (k + 1) v
  | _, _, _ => none

/-- Borsh decoding from the front of a byte string; `tag` is the index of the variant, once it has been read. -/
def decode : Ty → Option Nat → Reader Value
  | .int width, _, b => do
    let (n, b) ← readInt width b
    return (.num n, b)
  | .bytes m, _, b => do
    let (x, b) ← readBytes m b
    return (.bytes x, b)
  | .named _, _, _ => none
  | .unit, _, b => some (.unit, b)
  | .field _ t rest, _, b => do
    let (v, b) ← decode t none b
    let (vs, b) ← decode rest none b
    return (.pair v vs, b)
  | .never, _, _ => none
  | .variant _ p rest, tag, b => do
    let (i, b) ← match tag with
      | some i => some (i, b)
      | none => readInt 1 b
    if i = 0 then
      let (v, b) ← decode p none b
      return (.here v, b)
    else
      let (v, b) ← decode rest (some (i - 1)) b
      return (.there v, b)

/-! ## The transformations of the generator script -/

/-- "Add missing types from the IDL", `generate-clients.mjs` 64-120: fields with certain names and a type the IDL does not
define get a known one. The third of the transformations (`deactivationTimestamp`) matches no field. -/
def addMissing : Ty → Ty
  | .field name (.named t) rest =>
    .field name
      (if name ∈ ["authority", "slashAuthority"] ∧ t = "OptionalNonZeroPubkey" then .bytes 32
       else if name ∈ ["lastSeenHolderRewardsPerToken", "lastSeenStakeRewardsPerToken",
          "accumulatedStakeRewardsPerToken"] ∧ t = "PodU128" then .int 16
       else .named t)
      (addMissing rest)
  | .field name t rest => .field name (addMissing t) (addMissing rest)
  | .variant name p rest => .variant name (addMissing p) (addMissing rest)
  | t => t

/-- "Rename instruction arguments", `generate-clients.mjs` 122-209. The other three of the seven transformations name instructions
that do not exist. -/
def rename (kind : Kind) (name : String) : String :=
  if name = "args" ∧
      kind ∈ [.slashSolStakerStake, .slashValidatorStake, .solStakerStakeTokens, .validatorStakeTokens] then "amount"
  else name

/-- "Update accounts", `generate-clients.mjs` 211-224: the sizes of the accounts. -/
def configSize : Nat := 192
def validatorStakeSize : Nat := 144
def solStakerStakeSize : Nat := 168

/-! ## The description -/

/-- `Delegation`, `idl.json` 1360-1399. -/
def delegation : Ty :=
  .field "stakedAmount" (.int 8) <|
  .field "effectiveAmount" (.int 8) <|
  .field "unstakeCooldown" (.int 8) <|
  .field "authority" (.bytes 32) <|
  .field "validatorVote" (.bytes 32) <|
  .field "lastSeenHolderRewardsPerToken" (.named "PodU128") <|
  .field "lastSeenStakeRewardsPerToken" (.named "PodU128") <|
  .unit

/-- `AuthorityType`, `idl.json` 1400-1413. -/
def authorityType : Ty :=
  .variant "Config" .unit <|
  .variant "Slash" .unit <|
  .never

/-- `ConfigField`, `idl.json` 1414-1439. -/
def configField : Ty :=
  .variant "CooldownTimeSeconds" (.field "0" (.int 8) .unit) <|
  .variant "MaxDeactivationBasisPoints" (.field "0" (.int 2) .unit) <|
  .variant "SyncRewardsLamports" (.field "0" (.int 8) .unit) <|
  .never

/-- `Config`, `idl.json` 1215-1295. -/
def config : Ty :=
  .field "discriminator" (.bytes 8) <|
  .field "authority" (.named "OptionalNonZeroPubkey") <|
  .field "slashAuthority" (.named "OptionalNonZeroPubkey") <|
  .field "vault" (.bytes 32) <|
  .field "cooldownTimeSeconds" (.int 8) <|
  .field "tokenAmountEffective" (.int 8) <|
  .field "syncRewardsLamports" (.int 8) <|
  .field "lamportsLast" (.int 8) <|
  .field "dunaDocumentHash" (.bytes 32) <|
  .field "accumulatedStakeRewardsPerToken" (.named "PodU128") <|
  .field "maxDeactivationBasisPoints" (.int 2) <|
  .field "vaultAuthorityBump" (.int 1) <|
  .field "padding" (.bytes 5) <|
  .unit

/-- `SolStakerStake`, `idl.json` 1296-1326. -/
def solStakerStake : Ty :=
  .field "discriminator" (.bytes 8) <|
  .field "delegation" delegation <|
  .field "lamportsAmount" (.int 8) <|
  .field "solStake" (.bytes 32) <|
  .unit

/-- `ValidatorStake`, `idl.json` 1327-1357. -/
def validatorStake : Ty :=
  .field "discriminator" (.bytes 8) <|
  .field "delegation" delegation <|
  .field "totalStakedLamportsAmount" (.int 8) <|
  .field "totalStakedLamportsAmountMin" (.int 8) <|
  .unit

/-- An account of an instruction. -/
structure AccountDesc where
  name : Field
  isMut : Bool
  isSigner : Bool
  isOptional : Bool

/-- An instruction. -/
structure InstructionDesc where
  discriminant : Nat
  accounts : List AccountDesc
  args : List (String × Ty)

/-- "instructions" of `idl.json` 3-1211. -/
def instruction : Kind → InstructionDesc
  -- InitializeConfig, 5-100
  | .initializeConfig =>
    { discriminant := 0
      accounts := [
        ⟨.config, true, false, false⟩, ⟨.mint, false, false, false⟩, ⟨.vaultPda, true, false, false⟩,
        ⟨.vault, false, false, false⟩, ⟨.vaultHolderRewards, true, false, false⟩,
        ⟨.systemProgram, false, false, false⟩, ⟨.rewardsProgram, false, false, false⟩]
      args := [("slashAuthority", .bytes 32), ("configAuthority", .bytes 32), ("cooldownTimeSeconds", .int 8),
        ("maxDeactivationBasisPoints", .int 2), ("syncRewardsLamports", .int 8), ("dunaDocumentHash", .bytes 32)] }
  -- InitializeValidatorStake, 101-150
  | .initializeValidatorStake =>
    { discriminant := 1
      accounts := [
        ⟨.config, false, false, false⟩, ⟨.dunaDocumentPda, false, false, false⟩,
        ⟨.validatorStake, true, false, false⟩, ⟨.validatorVote, false, false, false⟩,
        ⟨.systemProgram, false, false, false⟩]
      args := [] }
  -- ValidatorStakeTokens, 151-269
  | .validatorStakeTokens =>
    { discriminant := 2
      accounts := [
        ⟨.config, true, false, false⟩, ⟨.holderRewardsPool, true, false, false⟩,
        ⟨.holderRewardsPoolTokenAccount, true, false, false⟩, ⟨.validatorStake, true, false, false⟩,
        ⟨.validatorStakeAuthority, false, false, false⟩, ⟨.sourceTokenAccount, true, false, false⟩,
        ⟨.sourceTokenAccountAuthority, false, true, false⟩, ⟨.mint, false, false, false⟩,
        ⟨.vaultPda, true, false, false⟩, ⟨.vault, true, false, false⟩, ⟨.vaultHolderRewards, true, false, false⟩,
        ⟨.tokenProgram, false, false, false⟩, ⟨.rewardsProgram, false, false, false⟩]
      args := [("args", .int 8)] }
  -- HarvestHolderRewards, 270-359
  | .harvestHolderRewards =>
    { discriminant := 3
      accounts := [
        ⟨.config, true, false, false⟩, ⟨.holderRewardsPool, true, false, false⟩,
        ⟨.holderRewardsPoolTokenAccount, false, false, false⟩, ⟨.vault, true, false, false⟩,
        ⟨.vaultHolderRewards, true, false, false⟩, ⟨.vaultPda, true, false, false⟩, ⟨.mint, false, false, false⟩,
        ⟨.tokenProgram, false, false, false⟩, ⟨.paladinRewardsProgram, false, false, false⟩,
        ⟨.systemProgram, false, false, false⟩]
      args := [] }
  -- HarvestValidatorRewards, 360-401
  | .harvestValidatorRewards =>
    { discriminant := 4
      accounts := [
        ⟨.config, true, false, false⟩, ⟨.vaultHolderRewards, false, false, false⟩,
        ⟨.validatorStake, true, false, false⟩, ⟨.validatorStakeAuthority, true, false, false⟩]
      args := [] }
  -- SlashValidatorStake, 402-488
  | .slashValidatorStake =>
    { discriminant := 5
      accounts := [
        ⟨.config, true, false, false⟩, ⟨.validatorStake, true, false, false⟩,
        ⟨.validatorStakeAuthority, true, false, false⟩, ⟨.slashAuthority, false, true, false⟩,
        ⟨.vault, true, false, false⟩, ⟨.vaultHolderRewards, false, false, false⟩,
        ⟨.vaultAuthority, false, false, false⟩, ⟨.mint, true, false, false⟩, ⟨.tokenProgram, false, false, false⟩]
      args := [("args", .int 8)] }
  -- SetAuthority, 489-529
  | .setAuthority =>
    { discriminant := 6
      accounts := [
        ⟨.account, true, false, false⟩, ⟨.authority, false, true, false⟩, ⟨.newAuthority, false, false, false⟩]
      args := [("authorityType", authorityType)] }
  -- UpdateConfig, 530-562
  | .updateConfig =>
    { discriminant := 7
      accounts := [
        ⟨.config, true, false, false⟩, ⟨.configAuthority, false, true, false⟩]
      args := [("configField", configField)] }
  -- InitializeSolStakerStake, 563-644
  | .initializeSolStakerStake =>
    { discriminant := 8
      accounts := [
        ⟨.config, false, false, false⟩, ⟨.dunaDocumentPda, false, false, false⟩,
        ⟨.solStakerStake, true, false, false⟩, ⟨.solStakerAuthorityOverride, false, false, false⟩,
        ⟨.validatorStake, true, false, false⟩, ⟨.solStakerNativeStake, false, false, false⟩,
        ⟨.sysvarStakeHistory, false, false, false⟩, ⟨.systemProgram, false, false, false⟩,
        ⟨.solStakeViewProgram, false, false, false⟩]
      args := [] }
  -- SolStakerStakeTokens, 645-763
  | .solStakerStakeTokens =>
    { discriminant := 9
      accounts := [
        ⟨.config, true, false, false⟩, ⟨.holderRewardsPool, true, false, false⟩,
        ⟨.holderRewardsPoolTokenAccount, true, false, false⟩, ⟨.solStakerStake, true, false, false⟩,
        ⟨.solStakerStakeAuthority, true, false, false⟩, ⟨.sourceTokenAccount, true, false, false⟩,
        ⟨.sourceTokenAccountAuthority, false, true, false⟩, ⟨.mint, false, false, false⟩,
        ⟨.vaultPda, true, false, false⟩, ⟨.vault, true, false, false⟩, ⟨.vaultHolderRewards, true, false, false⟩,
        ⟨.tokenProgram, false, false, false⟩, ⟨.rewardsProgram, false, false, false⟩]
      args := [("args", .int 8)] }
  -- HarvestSolStakerRewards, 764-870
  | .harvestSolStakerRewards =>
    { discriminant := 10
      accounts := [
        ⟨.solStakeViewProgram, false, false, false⟩, ⟨.config, true, false, false⟩,
        ⟨.vaultHolderRewards, false, false, false⟩, ⟨.solStakerStake, true, false, false⟩,
        ⟨.solStakerStakeAuthority, true, false, false⟩, ⟨.solStakerNativeStake, false, false, false⟩,
        ⟨.previousValidatorStake, true, false, false⟩, ⟨.previousValidatorStakeAuthority, true, false, false⟩,
        ⟨.currentValidatorStake, true, false, false⟩, ⟨.currentValidatorStakeAuthority, true, false, false⟩,
        ⟨.sysvarStakeHistory, false, false, false⟩, ⟨.keeperRecipient, true, false, true⟩]
      args := [] }
  -- UnstakeTokens, 871-981
  | .unstakeTokens =>
    { discriminant := 11
      accounts := [
        ⟨.config, true, false, false⟩, ⟨.holderRewardsPool, true, false, false⟩,
        ⟨.holderRewardsPoolTokenAccount, true, false, false⟩, ⟨.stake, true, false, false⟩,
        ⟨.stakeAuthority, true, true, false⟩, ⟨.vault, true, false, false⟩, ⟨.vaultPda, true, false, false⟩,
        ⟨.vaultHolderRewards, true, false, false⟩, ⟨.mint, false, false, false⟩,
        ⟨.destinationTokenAccount, true, false, false⟩, ⟨.tokenProgram, false, false, false⟩,
        ⟨.rewardsProgram, false, false, false⟩]
      args := [("amount", .int 8)] }
  -- SlashSolStakerStake, 982-1068
  | .slashSolStakerStake =>
    { discriminant := 12
      accounts := [
        ⟨.config, true, false, false⟩, ⟨.solStakerStake, true, false, false⟩,
        ⟨.solStakerStakeAuthority, true, false, false⟩, ⟨.slashAuthority, false, true, false⟩,
        ⟨.mint, true, false, false⟩, ⟨.vault, true, false, false⟩, ⟨.vaultHolderRewards, false, false, false⟩,
        ⟨.vaultAuthority, false, false, false⟩, ⟨.tokenProgram, false, false, false⟩]
      args := [("args", .int 8)] }
  -- SolStakerMoveTokens, 1069-1123
  | .solStakerMoveTokens =>
    { discriminant := 13
      accounts := [
        ⟨.config, true, false, false⟩, ⟨.vaultHolderRewards, false, false, false⟩,
        ⟨.solStakerAuthority, false, true, false⟩, ⟨.sourceSolStakerStake, true, false, false⟩,
        ⟨.destinationSolStakerStake, true, false, false⟩]
      args := [("amount", .int 8)] }
  -- ValidatorOverrideStakedLamports, 1124-1178
  | .validatorOverrideStakedLamports =>
    { discriminant := 14
      accounts := [
        ⟨.config, true, false, false⟩, ⟨.configAuthority, false, true, false⟩, ⟨.validatorStake, true, false, false⟩,
        ⟨.validatorStakeAuthority, true, false, false⟩, ⟨.vaultHolderRewards, true, false, false⟩]
      args := [("amountMin", .int 8)] }
  -- ValidatorSyncAuthority, 1179-1212
  | .validatorSyncAuthority =>
    { discriminant := 15
      accounts := [
        ⟨.config, true, false, false⟩, ⟨.validatorStake, true, false, false⟩, ⟨.validatorVote, true, false, false⟩]
      args := [] }

/-! ## A tool driven by the description -/

/-- The meta of an account: a missing optional account is represented by the program's id, read-only; any other missing account
is an error. -/
def AccountDesc.meta (a : AccountDesc) (given : Field → Option Key) : Option Meta :=
  match given a.name with
  | some k => some { key := k, signer := a.isSigner, writable := a.isMut }
  | none => if a.isOptional then some { key := progId, signer := false, writable := false } else none

/-- The encoded arguments, in order. -/
def encodeArgs (kind : Kind) (given : String → Option Value) : List (String × Ty) → Option (List UInt8)
  | [] => some []
  | (name, t) :: rest => do
    let v ← given (rename kind name)
    return (← encode (addMissing t) 0 v) ++ (← encodeArgs kind given rest)

/-- The request for an instruction, from accounts and arguments given by name. -/
def request (kind : Kind) (accounts : Field → Option Key) (args : String → Option Value) : Option Request := do
  let d := instruction kind
  let metas ← d.accounts.mapM (·.meta accounts)
  let data ← encodeArgs kind args d.args
  return { program := progId, metas, data := leBytes 1 d.discriminant ++ data }

end Verif.Idl
