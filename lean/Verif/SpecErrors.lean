import Verif.SpecAccounts
/-!
# Vocabulary of C86 (and C104): what an error code says

The positions of the accounts are those documented in `/repo/program/src/instruction.rs` 12-798 (and in the IDL). Nothing here
mentions a handler.
-/

namespace Verif

/-- What an account is passed for. -/
inductive Role where
  | config | mint | vault | vaultAuthority | record | document | nativeStake | receiver
  | configAuthority | slashAuthority
  | stake | stakeAuthority | destinationStake
  | previousValidator | previousAuthority | currentValidator | currentAuthority
  | vote | validator | overrideAccount | viewProgram | tokenProgram
  deriving DecidableEq

/-- At which position the instruction expects the account. -/
def StakeInstruction.position : StakeInstruction → Role → Option Nat
  | .initializeConfig _ _ _ _ _ _, r =>
    [(.config, 0), (.mint, 1), (.vaultAuthority, 2), (.vault, 3), (.record, 4)].lookup r
  | .initializeValidatorStake, r => [(.config, 0), (.document, 1), (.stake, 2), (.vote, 3)].lookup r
  | .validatorStakeTokens _, r | .solStakerStakeTokens _, r =>
    [(.config, 0), (.stake, 3), (.stakeAuthority, 4), (.mint, 7), (.vaultAuthority, 8), (.vault, 9), (.record, 10)].lookup r
  | .harvestHolderRewards, r =>
    [(.config, 0), (.vault, 3), (.record, 4), (.vaultAuthority, 5), (.mint, 6)].lookup r
  | .harvestValidatorRewards, r => [(.config, 0), (.record, 1), (.stake, 2), (.stakeAuthority, 3)].lookup r
  | .slashValidatorStake _, r =>
    [(.config, 0), (.stake, 1), (.stakeAuthority, 2), (.slashAuthority, 3), (.vault, 4), (.record, 5), (.vaultAuthority, 6),
      (.mint, 7), (.tokenProgram, 8)].lookup r
  | .slashSolStakerStake _, r =>
    [(.config, 0), (.stake, 1), (.stakeAuthority, 2), (.slashAuthority, 3), (.mint, 4), (.vault, 5), (.record, 6),
      (.vaultAuthority, 7), (.tokenProgram, 8)].lookup r
  | .setAuthority .config, r => [(.config, 0), (.configAuthority, 1)].lookup r
  | .setAuthority .slash, r => [(.config, 0), (.slashAuthority, 1)].lookup r
  | .updateConfig _, r => [(.config, 0), (.configAuthority, 1)].lookup r
  | .initializeSolStakerStake, r =>
    [(.config, 0), (.document, 1), (.stake, 2), (.overrideAccount, 3), (.validator, 4), (.nativeStake, 5), (.viewProgram, 8)].lookup r
  | .harvestSolStakerRewards, r =>
    [(.viewProgram, 0), (.config, 1), (.record, 2), (.stake, 3), (.stakeAuthority, 4), (.nativeStake, 5), (.previousValidator, 6),
      (.previousAuthority, 7), (.currentValidator, 8), (.currentAuthority, 9)].lookup r
  | .unstakeTokens _, r =>
    [(.config, 0), (.stake, 3), (.stakeAuthority, 4), (.vault, 5), (.vaultAuthority, 6), (.record, 7), (.mint, 8),
      (.receiver, 9)].lookup r
  | .solStakerMoveTokens _, r =>
    [(.config, 0), (.record, 1), (.stakeAuthority, 2), (.stake, 3), (.destinationStake, 4)].lookup r
  | .validatorOverrideStakedLamports _, r =>
    [(.config, 0), (.configAuthority, 1), (.stake, 2), (.stakeAuthority, 3), (.record, 4)].lookup r
  | .validatorSyncAuthority, r => [(.config, 0), (.stake, 1), (.vote, 2)].lookup r

/-- The account passed for a role. -/
def Ix.passes (ix : Ix) (r : Role) (k : Key) : Prop :=
  ∃ i p, ix.decoded = some i ∧ i.position r = some p ∧ ix.acct p = some k

/-- The instruction passes config `ck` with content `c`. -/
def Ix.uses (ix : Ix) (w : World) (ck : Key) (c : Config) : Prop := ix.passes .config ck ∧ configAt w ck = some c

/-- The instruction passes a vault with content `t`. -/
def Ix.usesVault (ix : Ix) (w : World) (t : TokenAccount) : Prop := ∃ k, ix.passes .vault k ∧ (w k).data = .token t

/-- The account passed as the authority of a stake account is not its authority. -/
def Ix.wrongAuthority (ix : Ix) (w : World) (stake authority : Role) : Prop :=
  ∃ k d a, ix.passes stake k ∧ stakeAt w k = some d ∧ ix.passes authority a ∧ a ≠ d.authority

/-- The instruction creates a config. -/
def Ix.createsConfig (ix : Ix) : Prop := ∃ s c t b y h, ix.decoded = some (.initializeConfig s c t b y h)

/-- What is wrong when the instruction fails with the given error. -/
def Reason (env : Env) (o : Oracle) (w : World) (ix : Ix) : StakeError → Prop
  | .amountGreaterThanZero => ix.createsConfig ∧ ∃ t, ix.usesVault w t ∧ 0 < t.amount
  | .invalidTokenOwner =>
    ix.createsConfig ∧ ∃ ck t, ix.passes .config ck ∧ ix.usesVault w t ∧ t.owner ≠ env.vaultAuth ck
  | .closeAuthorityNotNone => ix.createsConfig ∧ ∃ t, ix.usesVault w t ∧ t.closeAuthority ≠ none
  | .delegateNotNone => ix.createsConfig ∧ ∃ t, ix.usesVault w t ∧ t.delegate ≠ none
  | .invalidAccountDataLength => ix.createsConfig ∧ ∃ ck, ix.passes .config ck ∧ (w ck).data.len ≠ 192
  | .invalidMint => ∃ t m, ix.usesVault w t ∧ ix.passes .mint m ∧ t.mint ≠ m
  | .invalidAuthority =>
    (∃ ck c, ix.uses w ck c ∧
      ((∃ a, ix.passes .configAuthority a ∧ a ≠ c.authority) ∨ (∃ a, ix.passes .slashAuthority a ∧ a ≠ c.slashAuthority) ∨
        ∃ a, ix.passes .vaultAuthority a ∧ a ≠ env.vaultAuth ck)) ∨
    ix.wrongAuthority w .stake .stakeAuthority ∨ ix.wrongAuthority w .destinationStake .stakeAuthority ∨
    ix.wrongAuthority w .previousValidator .previousAuthority ∨ ix.wrongAuthority w .currentValidator .currentAuthority
  | .authorityNotSet =>
    ∃ ck c, ix.uses w ck c ∧
      (((∃ a, ix.passes .configAuthority a) ∧ c.authority = .default) ∨
        ((∃ a, ix.passes .slashAuthority a) ∧ c.slashAuthority = .default))
  | .insufficientStakeAmount =>
    ∃ n k d, ix.decoded = some (.unstakeTokens n) ∧ ix.passes .stake k ∧ stakeAt w k = some d ∧ d.staked < n
  | .invalidAmount =>
    ix.decoded = some (.validatorStakeTokens 0) ∨ ix.decoded = some (.solStakerStakeTokens 0) ∨
    ix.decoded = some (.slashValidatorStake 0) ∨ ix.decoded = some (.slashSolStakerStake 0)
  | .maximumDeactivationAmountExceeded =>
    ∃ n k d ck c, ix.decoded = some (.unstakeTokens n) ∧ ix.passes .stake k ∧ stakeAt w k = some d ∧ ix.uses w ck c ∧
      n ≤ d.staked ∧ d.staked * c.maxBps / 10000 < n
  | .activeUnstakeCooldown =>
    ∃ n k d, ix.decoded = some (.unstakeTokens n) ∧ ix.passes .stake k ∧ stakeAt w k = some d ∧ o.now < d.cooldown
  | .incorrectVaultAccount => ∃ ck c k, ix.uses w ck c ∧ ix.passes .vault k ∧ k ≠ c.vault
  | .invalidDestinationAccount => ∃ ck c, ix.uses w ck c ∧ ix.passes .receiver c.vault
  | .undelegatedSolStakeAccount =>
    ix.decoded = some .initializeSolStakerStake ∧ ∃ k v, ix.passes .nativeStake k ∧ o.view k = .ok v ∧
      v.delegatedVote = .default
  | .incorrectSolStakeAccount =>
    ix.decoded = some .harvestSolStakerRewards ∧ ∃ k s n, ix.passes .stake k ∧ solStakerAt w k = some s ∧
      ix.passes .nativeStake n ∧ n ≠ s.solStake
  | .dunaDocumentNotInitialized =>
    ∃ ck c signer, ix.uses w ck c ∧ ix.passes .document (.dunaPda signer c.dunaHash) ∧
      ¬ Accepted w signer (.dunaPda signer c.dunaHash) c.dunaHash
  | .incorrectVaultPdaAccount => ∃ ck a, ix.passes .config ck ∧ ix.passes .vaultAuthority a ∧ a ≠ env.vaultAuth ck
  | .invalidVaultPdaOwner =>
    (∃ n, ix.decoded = some (.solStakerStakeTokens n)) ∧
      ∃ ck t, ix.passes .config ck ∧ ix.usesVault w t ∧ t.owner ≠ env.vaultAuth ck
  | .invalidVaultHolderRewardsSeeds => ∃ ck k, ix.passes .config ck ∧ ix.passes .record k ∧ k ≠ vaultRecord env ck
  | .invalidTransferHookProgramId | .missingTransferHook | .invalidTokenAccountExtension | .invalidSlashAmount
  | .totalStakeAmountExceedsSolLimit | .invalidHolderRewards => False

/-- The called programs do not fail with an error of the stake program. (A failure of a called program is reported under that
program's own number.) -/
structure Oracle.Foreign (o : Oracle) : Prop where
  view : ∀ k e, o.view k ≠ .error (.stake e)
  harvestRewards : ∀ w c e, o.harvestRewards w c ≠ .error (.stake e)
  deposit : ∀ w c e, o.deposit w c ≠ .error (.stake e)
  withdraw : ∀ w c e, o.withdraw w c ≠ .error (.stake e)

end Verif
