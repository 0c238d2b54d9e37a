/-!
# Addresses, accounts, worlds, errors

Models the account types of `/repo/program/src/state/*.rs` and the parts of the Solana account model
that the handlers of `/repo/program/src/processor/*.rs` rely on.
-/

namespace Verif

/-- Account addresses.

`raw n` is an ordinary address; `raw 0` is `Pubkey::default()` (32 zero bytes, also the id of the system
program). The other forms are program derived addresses, one per seed schema:

* `vaultPda config bump`: `/repo/program/src/state/mod.rs` 38-50, 124-127 (`create_vault_pda`, `find_vault_pda`)
* `solStakerPda stake config`: lines 62-76 (`find_sol_staker_stake_pda`)
* `overridePda authority config`: lines 78-92 (`find_sol_staker_authority_override_pda`)
* `validatorPda vote config`: lines 108-122 (`find_validator_stake_pda`)
* `dunaPda signer hash`: lines 215-221 (`find_duna_document_pda`)
* `holderRewardsPda owner`: `HolderRewards::find_pda` of the rewards program client.

Simplification: addresses form a free algebra, so derived addresses are injective in their seeds and
different from ordinary addresses (collision resistance of SHA-256, idealised). Derived addresses other than
the vault authority are always derived with `find_program_address`, so they carry no bump. -/
inductive Key where
  | raw (n : Nat)
  | vaultPda (config : Key) (bump : Nat)
  | solStakerPda (stake config : Key)
  | overridePda (authority config : Key)
  | validatorPda (vote config : Key)
  | dunaPda (signer : Key) (hash : List UInt8)
  | holderRewardsPda (owner : Key)
  deriving DecidableEq, Repr

/-- `Pubkey::default()`. -/
abbrev Key.default : Key := .raw 0
/-- The system program's id is 32 zero bytes, i.e. `Pubkey::default()`. -/
abbrev systemId : Key := .raw 0
/-- Id of the stake program (`/repo/program/Cargo.toml` `program-id`, `crate::ID`). -/
abbrev progId : Key := .raw 1
/-- `spl_token::ID`. -/
abbrev tokenId : Key := .raw 2
/-- `paladin_rewards_program_client::ID`. -/
abbrev rewardsId : Key := .raw 3
/-- `solana_program::vote::program::ID`. -/
abbrev voteId : Key := .raw 4
/-- `paladin_sol_stake_view_program_client::ID`. -/
abbrev viewId : Key := .raw 5

/-- Addresses derived from the stake program's own id: only this program can sign for them. -/
def Key.ofProgram : Key → Bool
  | .vaultPda _ _ | .solStakerPda _ _ | .overridePda _ _ | .validatorPda _ _ => true
  | .raw _ | .dunaPda _ _ | .holderRewardsPda _ => false

/-- `Delegation`, `/repo/program/src/state/mod.rs` 227-252. -/
structure Delegation where
  staked : Nat
  effective : Nat
  cooldown : Nat
  authority : Key
  vote : Key
  lastHolder : Nat
  lastStake : Nat
  deriving DecidableEq, Repr

/-- `Config`, `/repo/program/src/state/config.rs` 11-61 (discriminator and padding omitted: a `Config` value
stands for initialised data). `authority` and `slashAuthority` are `OptionalNonZeroPubkey`: `Key.default` is "not set". -/
structure Config where
  authority : Key
  slashAuthority : Key
  vault : Key
  cooldownTime : Nat
  effTotal : Nat
  syncRewards : Nat
  lamportsLast : Nat
  dunaHash : List UInt8
  acc : Nat
  maxBps : Nat
  bump : Nat
  deriving DecidableEq, Repr

/-- `ValidatorStake`, `/repo/program/src/state/validator_stake.rs` 17-39. -/
structure ValidatorStake where
  del : Delegation
  total : Nat
  min : Nat
  deriving DecidableEq, Repr

/-- `SolStakerStake`, `/repo/program/src/state/sol_staker_stake.rs` 18-40. -/
structure SolStakerStake where
  del : Delegation
  lamports : Nat
  solStake : Key
  deriving DecidableEq, Repr

/-- spl-token `Account` (the fields the handlers and the modelled token instructions look at). -/
structure TokenAccount where
  mint : Key
  owner : Key
  amount : Nat
  delegate : Option Key
  delegatedAmount : Nat
  closeAuthority : Option Key
  frozen : Bool
  deriving DecidableEq, Repr

/-- spl-token `Mint` (the fields the handlers look at). -/
structure Mint where
  supply : Nat
  decimals : Nat
  deriving DecidableEq, Repr

/-- `HolderRewards` of the rewards program client: `last_accumulated_rewards_per_token` and `deposited`. -/
structure HolderRewards where
  lastAcc : Nat
  deposited : Nat
  deriving DecidableEq, Repr

/-- Account data. A constructor other than `bytes` stands for the byte string that decodes to that value;
`bytes` stands for every other byte string. Simplification: byte layouts are treated in `Model/Layout.lean`. -/
inductive Data where
  | bytes (b : List UInt8)
  | config (c : Config)
  | validator (v : ValidatorStake)
  | solStaker (s : SolStakerStake)
  | token (t : TokenAccount)
  | mint (m : Mint)
  /-- a vote account of correct size and initialised, with its withdraw authority (bytes 36..68) -/
  | vote (withdrawer : Key)
  | holder (h : HolderRewards)
  deriving DecidableEq, Repr

/-- `Config::LEN`, `/repo/program/src/state/config.rs` 64 (8+32+32+32+8+8+8+8+32+16+2+1+5). -/
abbrev configLen : Nat := 192
/-- `ValidatorStake::LEN`, `/repo/program/src/state/validator_stake.rs` 42. -/
abbrev validatorLen : Nat := 144
/-- `SolStakerStake::LEN`, `/repo/program/src/state/sol_staker_stake.rs` 43. -/
abbrev solStakerLen : Nat := 168

/-- `AccountInfo::data_len`. Lengths of external account types: token account 165, mint 82, vote account 3762,
holder rewards 72 (only the three program types and `bytes` matter to the handlers). -/
def Data.len : Data → Nat
  | .bytes b => b.length
  | .config _ => configLen
  | .validator _ => validatorLen
  | .solStaker _ => solStakerLen
  | .token _ => 165
  | .mint _ => 82
  | .vote _ => 3762
  | .holder _ => 72

/-- `AccountInfo::data_is_empty`. -/
def Data.isEmpty (d : Data) : Bool := d = .bytes []

/-- Four bytes at an offset are the tag of a spl-token `COption` (`None` or `Some`). -/
def coptionTag (b : List UInt8) (i : Nat) : Bool :=
  (b.drop i).take 4 == [0, 0, 0, 0] || (b.drop i).take 4 == [1, 0, 0, 0]

/-- Data that spl-token's `Account::unpack` can read but finds uninitialised: 165 bytes, valid option tags
(delegate at 72, native at 109, close authority at 129) and state byte 108 zero. -/
def Data.blankToken : Data → Bool
  | .bytes b => b.length == 165 && coptionTag b 72 && coptionTag b 109 && coptionTag b 129 && b[108]? == some 0
  | _ => false

/-- Data that spl-token's `Mint::unpack` can read but finds uninitialised: 82 bytes, valid option tags
(mint authority at 0, freeze authority at 46) and flag byte 45 zero. -/
def Data.blankMint : Data → Bool
  | .bytes b => b.length == 82 && coptionTag b 0 && coptionTag b 46 && b[45]? == some 0
  | _ => false

/-- All-zero data of some length. -/
def Data.zeroed (d : Data) : Prop := ∃ n, d = .bytes (List.replicate n 0)

/-- An account as the runtime stores it. -/
structure Account where
  lamports : Nat
  owner : Key
  data : Data
  deriving DecidableEq, Repr

/-- The state of all accounts. -/
abbrev World := Key → Account

/-- Replace one account. -/
def World.set (w : World) (k : Key) (a : Account) : World := fun k' => if k' = k then a else w k'

@[simp] theorem World.set_same (w : World) (k : Key) (a : Account) : w.set k a k = a := by
  simp [World.set]

theorem World.set_other (w : World) {k k' : Key} (a : Account) (h : k' ≠ k) : w.set k a k' = w k' := by
  simp [World.set, h]

theorem World.set_apply (w : World) (k k' : Key) (a : Account) :
    w.set k a k' = if k' = k then a else w k' := rfl

/-- `StakeError`, `/repo/program/src/error.rs` 13-117. -/
inductive StakeError where
  | amountGreaterThanZero
  | invalidTokenOwner
  | invalidTransferHookProgramId
  | invalidAccountDataLength
  | invalidMint
  | missingTransferHook
  | closeAuthorityNotNone
  | delegateNotNone
  | invalidTokenAccountExtension
  | invalidAuthority
  | authorityNotSet
  | insufficientStakeAmount
  | invalidAmount
  | maximumDeactivationAmountExceeded
  | activeUnstakeCooldown
  | incorrectVaultAccount
  | invalidDestinationAccount
  | invalidSlashAmount
  | undelegatedSolStakeAccount
  | totalStakeAmountExceedsSolLimit
  | incorrectSolStakeAccount
  | invalidHolderRewards
  | dunaDocumentNotInitialized
  | incorrectVaultPdaAccount
  | invalidVaultPdaOwner
  | invalidVaultHolderRewardsSeeds
  deriving DecidableEq, Repr

/-- Failures: `ProgramError` variants, `StakeError`, a panic, failures of called programs and runtime rejections. -/
inductive Err where
  | stake (e : StakeError)
  | invalidAccountOwner
  | invalidAccountData
  | uninitializedAccount
  | accountAlreadyInitialized
  | accountNotRentExempt
  | accountBorrowFailed
  | invalidSeeds
  | invalidArgument
  | invalidInstructionData
  | incorrectProgramId
  | missingRequiredSignature
  | notEnoughAccountKeys
  | arithmeticOverflow
  | insufficientFunds
  /-- `BorshIoError`: an account of another program cannot be deserialised -/
  | borshIo
  /-- a Rust panic -/
  | panic
  /-- a called program (token, system, rewards, view) returned an error -/
  | cpi
  /-- runtime: data or lamports of a read-only account changed -/
  | readonlyModified
  /-- runtime: data of an account not owned by the program changed -/
  | externalDataModified
  /-- runtime: lamports of an account not owned by the program lowered -/
  | externalLamportSpend
  /-- runtime: the instruction does not conserve lamports -/
  | unbalanced
  deriving DecidableEq, Repr

/-- Result of a handler. -/
abbrev Res := Except Err

/-- `require!`, `/repo/program/src/processor/mod.rs` 195-211. -/
def require (p : Prop) [Decidable p] (e : Err) : Res Unit := if p then .ok () else .error e

/-- What the running instruction was given besides the account list: which addresses signed and which are writable.
Simplification: flags are per address (the runtime merges flags of duplicate accounts). -/
structure Ctx where
  accts : List Key
  signer : Key → Bool
  writable : Key → Bool

/-- Chain constants that the handlers depend on. -/
structure Env where
  /-- canonical bump of `find_program_address(["token-owner", config])` -/
  vaultBump : Key → Nat
  /-- whether `create_program_address(["token-owner", config, bump])` succeeds (the address is off the curve) -/
  offCurve : Key → Nat → Bool
  /-- `Rent::get()?.minimum_balance(len)` -/
  rentMin : Nat → Nat
  /-- `Pubkey::new_from_array` on 32 bytes -/
  keyOfBytes : List UInt8 → Key
  /-- first 32 bytes of some account data, as a key -/
  keyPrefix : Data → Key
  vaultBump_lt : ∀ c, vaultBump c < 256
  offCurve_bump : ∀ c, offCurve c (vaultBump c) = true
  rentMin_pos : ∀ n, 0 < rentMin n

/-- The vault authority of a config: `find_vault_pda(config).0`, `/repo/program/src/state/mod.rs` 47-50. -/
def Env.vaultAuth (env : Env) (config : Key) : Key := .vaultPda config (env.vaultBump config)

/-- `create_vault_pda`, `/repo/program/src/state/mod.rs` 38-45 (`PubkeyError` becomes `InvalidSeeds`). -/
def Env.createVaultPda (env : Env) (config : Key) (bump : Nat) : Res Key :=
  if env.offCurve config bump then .ok (.vaultPda config bump) else .error .invalidSeeds

/-- What the stake view program reports about a native stake account
(`GetStakeActivatingAndDeactivatingReturnData`, the fields used). `Key.default` is `None` for both keys. -/
structure StakeView where
  delegatedVote : Key
  withdrawer : Key
  effective : Nat
  deriving DecidableEq, Repr

/-- Accounts handed to a call of the rewards program. -/
structure RewardsCall where
  pool : Key
  poolToken : Key
  holderRewards : Key
  mint : Key
  owner : Key
  /-- token account (Deposit and Withdraw) -/
  token : Key
  /-- amount (Deposit and Withdraw) -/
  amount : Nat
  deriving DecidableEq, Repr

/-- Everything outside the program that one instruction observes. -/
structure Oracle where
  /-- `Clock::get()?.unix_timestamp` (an `i64`) -/
  unixTimestamp : Int
  /-- result of the stake view program for a native stake account -/
  view : Key → Res StakeView
  /-- effect of rewards program `HarvestRewards` -/
  harvestRewards : World → RewardsCall → Res World
  /-- effect of rewards program `Deposit` -/
  deposit : World → RewardsCall → Res World
  /-- effect of rewards program `Withdraw` -/
  withdraw : World → RewardsCall → Res World

end Verif
