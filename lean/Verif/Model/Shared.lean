import Verif.Model.Arith
/-!
# Shared handler code and called programs

Models `/repo/program/src/processor/mod.rs` 195-552, the runtime rules for writing accounts, and the
instructions of the token and system programs that the handlers call.
-/

namespace Verif

/-! ## Runtime rules for direct writes -/

/-- Write the lamports of an account (`**info.try_borrow_mut_lamports()? = n`).
Runtime rule: only the owner of an account may lower its lamports. The rule that the account must be writable is
checked by the runtime at the end of the instruction, see `exec` in `Model/Exec.lean`.
Simplification: ownership is checked at the write rather than at the end of the instruction. (No handler lowers and
then restores the lamports of an account it does not own, so the result is the same.) -/
def setLamports (w : World) (k : Key) (n : Nat) : Res World := do
  require ((w k).lamports ≤ n ∨ (w k).owner = progId) .externalLamportSpend
  return w.set k { w k with lamports := n }

/-- Write the data of an account through a mutable borrow.
Runtime rule: only the owner of an account may change its data; writability as for `setLamports`.
Simplification: ownership is checked at the write rather than at the end of the instruction. -/
def setData (w : World) (k : Key) (d : Data) : Res World := do
  require (d = (w k).data ∨ (w k).owner = progId) .externalDataModified
  return w.set k { w k with data := d }

/-! ## Unpacking -/

/-- `unpack_initialized(_mut)::<Config>`, `processor/mod.rs` 213-235. -/
def unpackConfig (w : World) (k : Key) : Res Config :=
  match (w k).data with
  | .config c => .ok c
  | d => .error (if d.len = configLen then .uninitializedAccount else .invalidAccountData)

/-- `unpack_initialized_mut::<ValidatorStake>`, `processor/mod.rs` 225-235. -/
def unpackValidator (w : World) (k : Key) : Res ValidatorStake :=
  match (w k).data with
  | .validator v => .ok v
  | d => .error (if d.len = validatorLen then .uninitializedAccount else .invalidAccountData)

/-- `unpack_initialized_mut::<SolStakerStake>`, `processor/mod.rs` 225-235. -/
def unpackSolStaker (w : World) (k : Key) : Res SolStakerStake :=
  match (w k).data with
  | .solStaker s => .ok s
  | d => .error (if d.len = solStakerLen then .uninitializedAccount else .invalidAccountData)

/-- spl-token `Account::unpack`. -/
def unpackToken (w : World) (k : Key) : Res TokenAccount :=
  match (w k).data with
  | .token t => .ok t
  | d => .error (if d.blankToken = true then .uninitializedAccount else .invalidAccountData)

/-- spl-token `Mint::unpack`. -/
def unpackMint (w : World) (k : Key) : Res Mint :=
  match (w k).data with
  | .mint m => .ok m
  | d => .error (if d.blankMint = true then .uninitializedAccount else .invalidAccountData)

/-- `HolderRewards::try_from(&AccountInfo)` of the rewards client. -/
def unpackHolder (w : World) (k : Key) : Res HolderRewards :=
  match (w k).data with
  | .holder h => .ok h
  | _ => .error .borshIo

/-- The owner, size, initialisation and withdraw authority checks on a vote account, as in
`initialize_validator_stake.rs` 54-65 and `validator_sync_authority.rs` 53-64. -/
def unpackVote (w : World) (k : Key) : Res Key := do
  require ((w k).owner = voteId) .invalidAccountOwner
  match (w k).data with
  | .vote withdrawer => return withdrawer
  | _ => .error .invalidAccountData

/-- The delegation inside a stake account of either type (`&mut stake.delegation`). -/
def Data.del? : Data → Option Delegation
  | .validator v => some v.del
  | .solStaker s => some s.del
  | _ => none

/-- Replace the delegation inside a stake account of either type. -/
def Data.setDel (d : Data) (x : Delegation) : Data :=
  match d with
  | .validator v => .validator { v with del := x }
  | .solStaker s => .solStaker { s with del := x }
  | d => d

/-- Read the delegation of a stake account that the handler has already unpacked. -/
def readDel (w : World) (k : Key) : Res Delegation :=
  match (w k).data.del? with
  | some d => .ok d
  | none => .error .invalidAccountData

/-- Write the delegation of a stake account that the handler holds mutably. -/
def writeDel (w : World) (k : Key) (d : Delegation) : Res World :=
  setData w k ((w k).data.setDel d)

/-! ## Rewards -/

/-- `sync_config_lamports`, `processor/mod.rs` 274-291, as a function of the config account's lamports. -/
def syncConfigLamports (lamports : Nat) (c : Config) : Res Config := do
  let delta ← subU64 lamports c.lamportsLast
  let rpt ← rewardsPerToken delta c.effTotal
  return { c with acc := wrapAdd c.acc rpt, lamportsLast := lamports }

/-- The keeper's part of a settlement, `processor/mod.rs` 356-368: its reward, and the payment. -/
def keeperReward (keeper : Option Key) (total syncRewards : Nat) : Nat :=
  match keeper with
  | some _ => min total syncRewards
  | none => 0

/-- See `keeperReward`. -/
def payKeeper (w : World) (keeper : Option Key) (reward : Nat) : Res World :=
  match keeper with
  | some k => do
    let n ← addU64 (w k).lamports reward
    setLamports w k n
  | none => .ok w

/-- `harvest`, `processor/mod.rs` 299-386. `stakeK` is the account holding `delegation`; config and delegation
are read from and written back to the world because the Rust code mutates them in place. -/
def harvest (env : Env) (w : World) (configK holderK authorityK vaultAuth stakeK : Key)
    (keeper : Option Key) : Res World := do
  let c ← unpackConfig w configK
  let d ← readDel w stakeK
  -- 306-311
  require (authorityK = d.authority) (.stake .invalidAuthority)
  -- 314
  let c ← syncConfigLamports (w configK).lamports c
  -- 317-321
  let stakingReward ← eligibleRewards c.acc d.lastStake d.effective
  -- 324-330
  require (holderK = .holderRewardsPda vaultAuth) (.stake .invalidVaultHolderRewardsSeeds)
  let h ← unpackHolder w holderK
  -- 331-335
  let holderReward ← eligibleRewards h.lastAcc d.lastHolder d.staked
  -- 338-340
  let total ← addU64 stakingReward holderReward
  -- 347-353
  let configLamports ← subU64 (w configK).lamports total
  require (env.rentMin configLen ≤ configLamports) .panic
  -- 356-368
  let toKeeper := keeperReward keeper total c.syncRewards
  let w ← payKeeper w keeper toKeeper
  -- 371-378
  let delegatorReward ← subU64 total toKeeper
  let recipientLamports ← addU64 (w authorityK).lamports delegatorReward
  -- 381-383
  let w ← setLamports w configK configLamports
  let w ← setLamports w authorityK recipientLamports
  -- 341-344, 381: the in-place updates of config and delegation
  let w ← setData w configK (.config { c with lamportsLast := configLamports })
  writeDel w stakeK { d with lastStake := c.acc, lastHolder := h.lastAcc }

/-- `sync_effective`, `processor/mod.rs` 388-407. `lamports` and `lamportsMin` are the pair argument. -/
def syncEffective (w : World) (configK stakeK : Key) (lamports lamportsMin : Nat) : Res World := do
  let c ← unpackConfig w configK
  let d ← readDel w stakeK
  let limit ← maxStake (max lamports lamportsMin)
  let newEffective := min d.staked limit
  let t ← subU64 c.effTotal d.effective
  let t ← addU64 t newEffective
  let w ← setData w configK (.config { c with effTotal := t })
  writeDel w stakeK { d with effective := newEffective }

/-! ## Called programs: token and system -/

/-- A token account as the token program reads it. Its own failures, like those of every called program, are `.cpi` here. -/
def tokenData (w : World) (k : Key) : Res TokenAccount :=
  match (w k).data with
  | .token t => .ok t
  | _ => .error .cpi

/-- A mint as the token program reads it. -/
def mintData (w : World) (k : Key) : Res Mint :=
  match (w k).data with
  | .mint m => .ok m
  | _ => .error .cpi

/-- spl-token `TransferChecked` (external, not in /repo). `signed` says whether the authority's signature is present.
Simplifications: no wrapped-SOL accounts; a multisig owner always fails because no signers are passed. -/
def tokenTransfer (ctx : Ctx) (w : World) (source mint dest authority : Key) (signed : Bool)
    (amount decimals : Nat) : Res World := do
  let s ← tokenData w source
  let d ← tokenData w dest
  let m ← mintData w mint
  require (s.frozen = false ∧ d.frozen = false) .cpi
  require (amount ≤ s.amount) .cpi
  require (s.mint = d.mint ∧ s.mint = mint ∧ m.decimals = decimals) .cpi
  require (signed = true) .cpi
  require (if s.delegate = some authority then amount ≤ s.delegatedAmount else authority = s.owner) .cpi
  require ((w source).owner = tokenId ∧ (w dest).owner = tokenId) .cpi
  require (ctx.writable source = true ∧ ctx.writable dest = true) .cpi
  if source = dest then return w
  else do
    require (d.amount + amount < U64) .cpi
    let s' : TokenAccount :=
      if s.delegate = some authority then
        { s with amount := s.amount - amount, delegatedAmount := s.delegatedAmount - amount
                 delegate := if s.delegatedAmount - amount = 0 then none else s.delegate }
      else { s with amount := s.amount - amount }
    let w := w.set source { w source with data := .token s' }
    return w.set dest { w dest with data := .token { d with amount := d.amount + amount } }

/-- spl-token `BurnChecked` (external, not in /repo); `authority` signs. Simplifications as for `tokenTransfer`. -/
def tokenBurn (ctx : Ctx) (w : World) (account mint authority : Key) (amount decimals : Nat) : Res World := do
  let s ← tokenData w account
  let m ← mintData w mint
  require (s.frozen = false) .cpi
  require (amount ≤ s.amount) .cpi
  require (s.mint = mint ∧ m.decimals = decimals) .cpi
  require (if s.delegate = some authority then amount ≤ s.delegatedAmount else authority = s.owner) .cpi
  require ((w account).owner = tokenId ∧ (w mint).owner = tokenId) .cpi
  require (ctx.writable account = true ∧ ctx.writable mint = true) .cpi
  require (amount ≤ m.supply) .cpi
  let s' : TokenAccount :=
    if s.delegate = some authority then
      { s with amount := s.amount - amount, delegatedAmount := s.delegatedAmount - amount
               delegate := if s.delegatedAmount - amount = 0 then none else s.delegate }
    else { s with amount := s.amount - amount }
  let w := w.set account { w account with data := .token s' }
  return w.set mint { w mint with data := .mint { m with supply := m.supply - amount } }

/-- System program `Allocate` of an account that signs (external, not in /repo). -/
def systemAllocate (ctx : Ctx) (w : World) (k : Key) (len : Nat) : Res World := do
  require ((w k).data.isEmpty = true ∧ (w k).owner = systemId) .cpi
  require (ctx.writable k = true) .cpi
  return w.set k { w k with data := .bytes (List.replicate len 0) }

/-- System program `Assign` of an account that signs, to this program (external, not in /repo).
Assigning to the current owner is a no-op. -/
def systemAssign (ctx : Ctx) (w : World) (k : Key) : Res World := do
  if (w k).owner = progId then return w
  else do
    require ((w k).owner = systemId) .cpi
    require (ctx.writable k = true) .cpi
    return w.set k { w k with owner := progId }

/-! ## Handing accounts to another program -/

/-- Lamports held by a list of accounts, each address counted once. -/
def lamportSum (w : World) (ks : List Key) : Nat := ((ks.eraseDups).map fun k => (w k).lamports).sum

/-- The checks made when a handler hands the accounts `passed` to another program (external, not in /repo):

* `invoke_signed` of the SDK fails with `AccountBorrowFailed` when the data of one of them is still borrowed mutably. `held`
  are the accounts whose data the handler holds that way.
* The runtime takes the lamports of the accounts passed on from the handler, who may have written them (`w`), and keeps those of all
  other accounts as it knows them (`view`). It fails with `UnbalancedInstruction` when this changes the sum.

Left out: calls before which no lamports were written and no conflicting borrow is possible, because the accounts differ by the checks
made before. These are all calls of the three initialising instructions and of `HarvestHolderRewards`. -/
def callOut (view w : World) (held passed : List Key) : Res Unit := do
  require (∀ k ∈ passed, k ∉ held) .accountBorrowFailed
  require (lamportSum w passed = lamportSum view passed) .unbalanced

/-- The runtime's view of the accounts after a call to which `passed` were handed. -/
def World.known (view w : World) (passed : List Key) : World := fun k => if k ∈ passed then w k else view k

/-! ## Slashing, excess lamports, the governing document -/

/-- `process_slash_for_delegation`, `processor/mod.rs` 421-496. `view` are the accounts before the instruction; the caller holds the data of
`configK` and `stakeK`. -/
def slashDelegation (ctx : Ctx) (view w : World) (configK stakeK mintK vaultK vaultAuthK tokenProgramK : Key)
    (amount : Nat) : Res World := do
  -- 432-436
  require (tokenProgramK = tokenId) .incorrectProgramId
  -- 450-454
  require (0 < amount) (.stake .invalidAmount)
  -- 457-465
  let d ← readDel w stakeK
  let actual := min amount d.staked
  let staked ← subU64 d.staked actual
  let w ← writeDel w stakeK { d with staked := staked }
  -- 468-493
  if 0 < actual then do
    require (mintK ≠ configK ∧ mintK ≠ stakeK) .accountBorrowFailed
    let m ← unpackMint w mintK
    callOut view w [configK, stakeK] [vaultK, mintK, vaultAuthK]
    tokenBurn ctx w vaultK mintK vaultAuthK actual m.decimals
  else return w

/-- `transfer_excess_lamports`, `processor/mod.rs` 498-525. The final `+=` is unchecked 64-bit addition
(no `overflow-checks` in `/repo/Cargo.toml`), so it wraps.
Simplification: an execution in which two accounts together hold 2^64 lamports is treated as failing. The total supply
of lamports is below 2^64, so it cannot happen, and the wrap is never reached. -/
def transferExcess (env : Env) (w : World) (source dest : Key) : Res World := do
  let sourceLamports := (w source).lamports
  let minRent := env.rentMin (w source).data.len
  require (minRent ≤ sourceLamports) .insufficientFunds
  require (source = dest ∨ sourceLamports + (w dest).lamports < U64) .unbalanced
  let excess := sourceLamports - minRent
  let w ← setLamports w source ((w source).lamports - excess)
  setLamports w dest (((w dest).lamports + excess) % U64)

/-- `check_duna_document_signed`, `processor/mod.rs` 528-552.
Simplification: data of one of the typed forms does not count as a signed document. -/
def checkDuna (w : World) (signer doc : Key) (hash : List UInt8) : Res Unit := do
  require (doc = .dunaPda signer hash) .invalidSeeds
  match (w doc).data with
  | .bytes (1 :: _) => return ()
  | _ => .error (.stake .dunaDocumentNotInitialized)

end Verif
