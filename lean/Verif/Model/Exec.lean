import Verif.Model.Codec
/-!
# Dispatch, runtime rules and histories

Models `process_instruction`, `/repo/program/src/processor/mod.rs` 50-193, and the part of the Solana runtime that
decides what the rest of the chain can do to this program's accounts.
-/

namespace Verif

/-- One instruction sent to the program: raw data, account list, signers and writable accounts. -/
structure Ix where
  data : List UInt8
  ctx : Ctx

/-- Run the handler of a decoded instruction on the given accounts. The account positions are those of
`/repo/program/src/instruction.rs` 12-798; too few accounts fail with `NotEnoughAccountKeys` (shank context). Extra
accounts are ignored. -/
def dispatch (env : Env) (o : Oracle) (ctx : Ctx) (w : World) (i : StakeInstruction) : Res World :=
  match i, ctx.accts with
  | .initializeConfig s c t b y h, k0 :: k1 :: k2 :: k3 :: k4 :: k5 :: k6 :: _ =>
    initializeConfig env ctx w
      { config := k0, mint := k1, vaultPda := k2, vault := k3, vaultHolderRewards := k4, systemProgram := k5,
        rewardsProgram := k6 }
      { slashAuthority := env.keyOfBytes s, configAuthority := env.keyOfBytes c, cooldownTime := t, maxBps := b,
        syncRewards := y, dunaHash := h }
  | .initializeValidatorStake, k0 :: k1 :: k2 :: k3 :: k4 :: _ =>
    initializeValidatorStake env ctx w
      { config := k0, dunaDocumentPda := k1, validatorStake := k2, validatorVote := k3, systemProgram := k4 }
  | .validatorStakeTokens amount,
      k0 :: k1 :: k2 :: k3 :: k4 :: k5 :: k6 :: k7 :: k8 :: k9 :: k10 :: k11 :: k12 :: _ =>
    validatorStakeTokens env o ctx w
      { config := k0, holderRewardsPool := k1, holderRewardsPoolTokenAccount := k2, stake := k3, stakeAuthority := k4,
        sourceTokenAccount := k5, sourceTokenAccountAuthority := k6, mint := k7, vaultPda := k8, vault := k9,
        vaultHolderRewards := k10, tokenProgram := k11, rewardsProgram := k12 } amount
  | .harvestHolderRewards, k0 :: k1 :: k2 :: k3 :: k4 :: k5 :: k6 :: k7 :: k8 :: k9 :: _ =>
    harvestHolderRewards env o w
      { config := k0, holderRewardsPool := k1, holderRewardsPoolTokenAccount := k2, vault := k3,
        vaultHolderRewards := k4, vaultPda := k5, mint := k6, tokenProgram := k7, paladinRewardsProgram := k8,
        systemProgram := k9 }
  | .harvestValidatorRewards, k0 :: k1 :: k2 :: k3 :: _ =>
    harvestValidatorRewards env w
      { config := k0, vaultHolderRewards := k1, validatorStake := k2, validatorStakeAuthority := k3 }
  | .slashValidatorStake amount, k0 :: k1 :: k2 :: k3 :: k4 :: k5 :: k6 :: k7 :: k8 :: _ =>
    slashValidatorStake env ctx w
      { config := k0, stake := k1, stakeAuthority := k2, slashAuthority := k3, vault := k4, vaultHolderRewards := k5,
        vaultAuthority := k6, mint := k7, tokenProgram := k8 } amount
  | .setAuthority t, k0 :: k1 :: k2 :: _ =>
    setAuthority ctx w { account := k0, authority := k1, newAuthority := k2 } t
  | .updateConfig f, k0 :: k1 :: _ => updateConfig ctx w { config := k0, configAuthority := k1 } f
  | .initializeSolStakerStake, k0 :: k1 :: k2 :: k3 :: k4 :: k5 :: k6 :: k7 :: k8 :: _ =>
    initializeSolStakerStake env o ctx w
      { config := k0, dunaDocumentPda := k1, solStakerStake := k2, solStakerAuthorityOverride := k3,
        validatorStake := k4, solStakerNativeStake := k5, sysvarStakeHistory := k6, systemProgram := k7,
        solStakeViewProgram := k8 }
  | .solStakerStakeTokens amount,
      k0 :: k1 :: k2 :: k3 :: k4 :: k5 :: k6 :: k7 :: k8 :: k9 :: k10 :: k11 :: k12 :: _ =>
    solStakerStakeTokens env o ctx w
      { config := k0, holderRewardsPool := k1, holderRewardsPoolTokenAccount := k2, stake := k3, stakeAuthority := k4,
        sourceTokenAccount := k5, sourceTokenAccountAuthority := k6, mint := k7, vaultPda := k8, vault := k9,
        vaultHolderRewards := k10, tokenProgram := k11, rewardsProgram := k12 } amount
  | .harvestSolStakerRewards,
      k0 :: k1 :: k2 :: k3 :: k4 :: k5 :: k6 :: k7 :: k8 :: k9 :: k10 :: k11 :: _ =>
    harvestSolStakerRewards env o w
      { solStakeViewProgram := k0, config := k1, vaultHolderRewards := k2, solStakerStake := k3,
        solStakerStakeAuthority := k4, solStakerNativeStake := k5, previousValidatorStake := k6,
        previousValidatorStakeAuthority := k7, currentValidatorStake := k8, currentValidatorStakeAuthority := k9,
        sysvarStakeHistory := k10, keeperRecipient := if k11 = progId then none else some k11 }
  | .unstakeTokens amount,
      k0 :: k1 :: k2 :: k3 :: k4 :: k5 :: k6 :: k7 :: k8 :: k9 :: k10 :: k11 :: _ =>
    unstakeTokens env o ctx w
      { config := k0, holderRewardsPool := k1, holderRewardsPoolTokenAccount := k2, stake := k3, stakeAuthority := k4,
        vault := k5, vaultPda := k6, vaultHolderRewards := k7, mint := k8, destinationTokenAccount := k9,
        tokenProgram := k10, rewardsProgram := k11 } amount
  | .slashSolStakerStake amount, k0 :: k1 :: k2 :: k3 :: k4 :: k5 :: k6 :: k7 :: k8 :: _ =>
    slashSolStakerStake env ctx w
      { config := k0, stake := k1, stakeAuthority := k2, slashAuthority := k3, mint := k4, vault := k5,
        vaultHolderRewards := k6, vaultAuthority := k7, tokenProgram := k8 } amount
  | .solStakerMoveTokens amount, k0 :: k1 :: k2 :: k3 :: k4 :: _ =>
    solStakerMoveTokens env ctx w
      { config := k0, vaultHolderRewards := k1, solStakerAuthority := k2, sourceSolStakerStake := k3,
        destinationSolStakerStake := k4 } amount
  | .validatorOverrideStakedLamports amountMin, k0 :: k1 :: k2 :: k3 :: k4 :: _ =>
    validatorOverrideStakedLamports env ctx w
      { config := k0, configAuthority := k1, validatorStake := k2, validatorStakeAuthority := k3,
        vaultHolderRewards := k4 } amountMin
  | .validatorSyncAuthority, k0 :: k1 :: k2 :: _ =>
    validatorSyncAuthority w { config := k0, validatorStake := k1, validatorVote := k2 }
  | _, _ => .error .notEnoughAccountKeys

/-- `process_instruction`, `processor/mod.rs` 50-193. -/
def processInstruction (env : Env) (o : Oracle) (w : World) (ix : Ix) : Res World := do
  let i ← StakeInstruction.unpack ix.data
  dispatch env o ix.ctx w i

/-- Execution of an instruction by the runtime: the handler, then the runtime's checks that no read-only account
changed and that the instruction conserves lamports over its accounts. An error means no effect at all. -/
def exec (env : Env) (o : Oracle) (w : World) (ix : Ix) : Res World := do
  let w' ← processInstruction env o w ix
  require (∀ k ∈ ix.ctx.accts, ix.ctx.writable k = true ∨ w' k = w k) .readonlyModified
  require (lamportSum w' ix.ctx.accts = lamportSum w ix.ctx.accts) .unbalanced
  return w'

/-! ## The rest of the chain -/

/-- Machine ranges of a delegation's fields. -/
def Delegation.WF (d : Delegation) : Prop :=
  d.staked < U64 ∧ d.effective < U64 ∧ d.cooldown < U64 ∧ d.lastHolder < U128 ∧ d.lastStake < U128

/-- Machine ranges of a config's fields. -/
def Config.WF (c : Config) : Prop :=
  c.cooldownTime < U64 ∧ c.effTotal < U64 ∧ c.syncRewards < U64 ∧ c.lamportsLast < U64 ∧ c.acc < U128 ∧
    c.maxBps < 2 ^ 16 ∧ c.bump < 2 ^ 8

/-- Machine ranges of the numbers inside account data. -/
def Data.WF : Data → Prop
  | .bytes _ | .vote _ => True
  | .config c => c.WF
  | .validator v => v.del.WF ∧ v.total < U64 ∧ v.min < U64
  | .solStaker s => s.del.WF ∧ s.lamports < U64
  | .token t => t.amount < U64 ∧ t.delegatedAmount < U64
  | .mint m => m.supply < U64
  | .holder h => h.lastAcc < U128 ∧ h.deposited < U64

/-- All numbers are within their machine ranges, and the system program's address is not a vote account. -/
def World.WF (w : World) : Prop := (∀ k, (w k).lamports < U64 ∧ (w k).data.WF) ∧ (w systemId).owner ≠ voteId

/-- What any activity of other programs may do, as guaranteed by the Solana runtime (external, not in /repo):

* accounts owned by the stake program keep their owner and data and do not lose lamports, except that an
  account with zero lamports may be removed;
* an account can be handed to the stake program only with all-zero data;
* an address derived from the stake program's id can only receive lamports (nobody else can sign for it). -/
def ExtStep (w w' : World) : Prop :=
  w'.WF ∧ ∀ k,
    ((w k).owner = progId →
      ((w' k).owner = progId ∧ (w' k).data = (w k).data ∧ (w k).lamports ≤ (w' k).lamports) ∨
      ((w k).lamports = 0 ∧ (w' k).owner = systemId ∧ (w' k).data = .bytes [])) ∧
    ((w k).owner ≠ progId →
      (k.ofProgram = true →
        (w' k).owner = (w k).owner ∧ (w' k).data = (w k).data ∧ (w k).lamports ≤ (w' k).lamports) ∧
      (k.ofProgram = false → (w' k).owner = progId → (w' k).data.zeroed))

/-- The called programs obey the runtime rules, and the stake view program returns a 64-bit amount. For the rewards
program, which is called with the vault authority's signature, this includes that it does not pass that signature on
to spend from or reassign the vault authority's account.-/
structure Oracle.Ok (o : Oracle) : Prop where
  harvestRewards : ∀ {w c w'}, w.WF → o.harvestRewards w c = .ok w' → ExtStep w w'
  deposit : ∀ {w c w'}, w.WF → o.deposit w c = .ok w' → ExtStep w w'
  withdraw : ∀ {w c w'}, w.WF → o.withdraw w c = .ok w' → ExtStep w w'
  view : ∀ {k v}, o.view k = .ok v → v.effective < U64

/-- A world before the program has initialised anything. -/
structure Genesis (w : World) : Prop where
  wf : w.WF
  owned : ∀ k, (w k).owner = progId → (w k).data.zeroed
  derived : ∀ k, k.ofProgram = true → (w k).owner = systemId ∧ (w k).data = .bytes []

/-- Worlds reachable by any interleaving of successful instructions and activity of other programs. -/
inductive Reachable (env : Env) : World → Prop
  | genesis {w} : Genesis w → Reachable env w
  | ext {w w'} : Reachable env w → ExtStep w w' → Reachable env w'
  | exec {w w' o ix} : Reachable env w → o.Ok → exec env o w ix = .ok w' → Reachable env w'

end Verif
