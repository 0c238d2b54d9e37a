import Verif.Model.ClientBuild
import Verif.WitnessTwo
import Verif.WitnessLive
/-!
# The repository's own tests, replayed in the model

`/repo/clients/rust/tests/*.rs` run the compiled program in `solana-program-test`. They cannot be run here, but their
fixtures, inputs and expected results are plain numbers, so they can be evaluated against the model: a check that the
model does what the real program was observed to do. Every `example` names the test it replays. The fixture follows
`tests/setup/*.rs`: a config with a cooldown of one second, 500 basis points, a sync reward of 1 000 000 lamports and
one key for both authorities; as in the tests, account fields are then set directly.

These are evidence for the model, not proofs of properties; no theorem depends on this file.

Differences that do not matter to what is checked: the tests' random keys are the fixed keys below; the rewards program is
the reference program of `Verif.Witness`; what the stake view program reports is given as `lookup`; errors returned by
another program (`Custom(1)` of the token program, `BorshIoError` of the view program) are the model's `.cpi`.
-/

namespace Verif.Replay

open Verif Verif.Witness

/-! ## Fixture -/

abbrev rent (n : Nat) : Nat := (128 + n) * 6960
/-- A key nobody uses. -/
abbrev fake : Key := .raw 190
abbrev vote3 : Key := .raw 112
abbrev val3 : Key := .validatorPda vote3 cfg
abbrev fakeVault : Key := .raw 191
/-- `Config::default()`-like data that no discriminator matches: `vec![5; len]`. -/
abbrev fives (n : Nat) : Data := .bytes (List.replicate n 5)

/-- Accounts that exist before the program is used (`tests/setup/config.rs`, `validator_stake.rs`,
`sol_staker_stake.rs`, `rewards.rs`). -/
def accounts : List (Key × Account) :=
  [ (cfg, ⟨rent 192, progId, .bytes (List.replicate 192 0)⟩),
    (mint, ⟨rent 82, tokenId, .mint { supply := 1000000000000, decimals := 0 }⟩),
    (vault, ⟨rent 165, tokenId, tokens vaultAuth 0⟩),
    (vaultAuth, ⟨rent 0, systemId, .bytes []⟩),
    (holder, ⟨rent 72, rewardsId, .holder { lastAcc := 0, deposited := 0 }⟩),
    (cfgB, ⟨rent 192, progId, .bytes (List.replicate 192 0)⟩),
    (vaultB, ⟨rent 165, tokenId, tokens vaultAuthB 0⟩),
    (vaultAuthB, ⟨rent 0, systemId, .bytes []⟩),
    (holderB, ⟨rent 72, rewardsId, .holder { lastAcc := 0, deposited := 0 }⟩),
    (vote1, ⟨30000000, voteId, .vote auth1⟩),
    (vote2, ⟨30000000, voteId, .vote auth2⟩),
    (source, ⟨rent 165, tokenId, tokens holderOwner 0⟩),
    (pool, ⟨1000000000000, rewardsId, .bytes [1]⟩),
    (poolToken, ⟨rent 165, tokenId, tokens pool 0⟩),
    (.dunaPda auth1 hash, ⟨100000000, .raw 7, .bytes [1]⟩),
    (.dunaPda auth2 hash, ⟨100000000, .raw 7, .bytes [1]⟩),
    (.dunaPda staker hash, ⟨100000000, .raw 7, .bytes [1]⟩),
    (val1, ⟨rent 144, systemId, .bytes []⟩),
    (val2, ⟨rent 144, systemId, .bytes []⟩),
    (sol1, ⟨rent 168, systemId, .bytes []⟩),
    (sol2, ⟨rent 168, systemId, .bytes []⟩) ]

def start : World := look accounts

def initConfig : Ix :=
  ix (.initializeConfig (bytes32 150) (bytes32 150) 1 500 1000000 hash)
    [cfg, mint, vaultAuth, vault, holder, systemId, rewardsId] []
def initConfigB : Ix :=
  ix (.initializeConfig (bytes32 150) (bytes32 150) 1 500 1000000 hash)
    [cfgB, mint, vaultAuthB, vaultB, holderB, systemId, rewardsId] []

/-- Native stakes delegated to a vote account with some effective lamports. -/
def lookup (vote : Key) (n : Nat) (k : Key) : Res StakeView :=
  if k = native1 ∨ k = native2 then .ok { delegatedVote := vote, withdrawer := staker, effective := n } else .error .cpi
/-- A native stake that was closed. -/
def closed (k : Key) : Res StakeView :=
  if k = native1 then .ok { delegatedVote := .default, withdrawer := .default, effective := 0 } else .error .cpi

/-- The outside world at time 5 000, delegated to the first validator. -/
def out (n : Nat) : Oracle := oracle 5000 (lookup vote1 n) 0
/-- The outside world when holders have rewards coming. -/
def outPay (n pay : Nat) : Oracle := oracle 5000 (lookup vote1 n) pay

/-- `ConfigManager::new` and `ValidatorStakeManager::new`, twice each. -/
def base : World :=
  after (out 0) (after (out 0) (after (out 0) (after (out 0) start initConfig) initConfigB) ixInitVal1) ixInitVal2
/-- `SolStakerStakeManager::new`: two native stakes of `n` lamports. -/
def stakers (n : Nat) : World := after (out n) (after (out n) base ixInitSol1) ixInitSol2
/-- `SolStakerStakeManager::new`: one native stake of `n` lamports. -/
def oneStaker (n : Nat) : World := after (out n) base ixInitSol1

def onConfig (w : World) (k : Key) (f : Config → Config) : World :=
  w.set k { w k with data := .config (f (cfgOf w k)) }
def onVal (w : World) (k : Key) (f : ValidatorStake → ValidatorStake) : World :=
  w.set k { w k with data := .validator (f (valOf w k)) }
def onSol (w : World) (k : Key) (f : SolStakerStake → SolStakerStake) : World :=
  w.set k { w k with data := .solStaker (f (solOf w k)) }
def onToken (w : World) (k : Key) (f : TokenAccount → TokenAccount) : World :=
  w.set k { w k with data := .token (f (tokOf w k)) }
/-- `staked_amount` and `effective_amount` of a delegation. -/
def amounts (s e : Nat) (d : Delegation) : Delegation := { d with staked := s, effective := e }
def putLamports (w : World) (k : Key) (n : Nat) : World := w.set k { w k with lamports := n }
/-- `context.set_account(key, { lamports: 100_000_000, data, owner: program })`. -/
def putJunk (w : World) (k : Key) (n : Nat) : World := w.set k ⟨100000000, progId, fives n⟩
/-- The config gets `n` lamports which it has already accounted for. -/
def funded (w : World) (k : Key) (n : Nat) : World :=
  let w := credit w k n
  onConfig w k fun c => { c with lamportsLast := (w k).lamports }

/-! The managers leave the states that the tests start from. -/

example : cfgOf base cfg = ⟨configAuth, configAuth, vault, 1, 0, 1000000, rent 192, hash, 0, 500, 255⟩ := by decide +kernel
example : valOf base val1 = ⟨freshDel auth1 vote1, 0, 0⟩ := by decide +kernel
example : solOf (oneStaker 50) sol1 = ⟨freshDel staker vote1, 50, native1⟩ ∧ (valOf (oneStaker 50) val1).total = 50 := by
  decide +kernel
example : (solOf (stakers 50) sol2).lamports = 50 ∧ (valOf (stakers 50) val1).total = 100 := by decide +kernel

/-! ## initialize_config.rs -/

/-- `initialize_config_with_mint_and_token` -/
example : (after (out 0) start initConfig cfg).data.len = 192 ∧ (cfgOf (after (out 0) start initConfig) cfg).acc = 0 ∧
    (cfgOf (after (out 0) start initConfig) cfg).effTotal = 0 ∧ okB (out 0) start initConfig = true := by decide +kernel
/-- `fail_initialize_config_with_wrong_vault_pda` -/
example : errOf (out 0) start (ix (.initializeConfig (bytes32 150) (bytes32 150) 1 500 1000000 hash)
    [cfg, mint, vaultAuthB, vaultB, holderB, systemId, rewardsId] []) = some (.stake .incorrectVaultPdaAccount) := by
  decide +kernel
/-- `fail_initialize_config_with_non_empty_token` -/
example : errOf (out 0) (creditTokens start vault 1) initConfig = some (.stake .amountGreaterThanZero) := by decide +kernel
/-- `fail_initialize_config_with_unitialized_mint` -/
example : errOf (out 0) (start.set fake ⟨rent 82, tokenId, .bytes (List.replicate 82 0)⟩)
    (ix (.initializeConfig (bytes32 150) (bytes32 150) 1 500 1000000 hash)
      [cfg, fake, vaultAuth, vault, holder, systemId, rewardsId] []) = some .uninitializedAccount := by decide +kernel
/-- `fail_initialize_config_with_wrong_account_length` -/
example : errOf (out 0) (start.set cfg ⟨rent 292, progId, .bytes (List.replicate 292 0)⟩) initConfig =
    some (.stake .invalidAccountDataLength) := by decide +kernel
/-- `fail_initialize_config_with_initialized_account` -/
example : errOf (out 0) (after (out 0) start initConfig) initConfig = some .accountAlreadyInitialized := by decide +kernel
/-- `fail_initialize_config_with_token_delegate` -/
example : errOf (out 0) (onToken start vault fun t => { t with delegate := some mint, delegatedAmount := 1 }) initConfig =
    some (.stake .delegateNotNone) := by decide +kernel
/-- `fail_initialize_config_with_token_close_authority` -/
example : errOf (out 0) (onToken start vault fun t => { t with closeAuthority := some mint }) initConfig =
    some (.stake .closeAuthorityNotNone) := by decide +kernel
/-- `fail_initialize_config_with_invalid_max_deactivation_basis_points` -/
example : errOf (out 0) start (ix (.initializeConfig (bytes32 150) (bytes32 150) 1 20000 1000000 hash)
    [cfg, mint, vaultAuth, vault, holder, systemId, rewardsId] []) = some .invalidArgument := by decide +kernel

/-! ## initialize_validator_stake.rs and duna_document.rs -/

/-- `initialize_stake_with_validator_vote` -/
example : (base val1).data.len = 144 ∧ (valOf base val1).del = ⟨0, 0, 0, auth1, vote1, 0, 0⟩ := by decide +kernel
/-- `fail_initialize_stake_with_initialized_account` -/
example : errOf (out 0) base ixInitVal1 = some .accountAlreadyInitialized := by decide +kernel
/-- `fail_initialize_stake_with_invalid_derivation` -/
example : errOf (out 0) base (ix .initializeValidatorStake [cfg, .dunaPda auth1 hash, val3, vote1, systemId] []) =
    some .invalidSeeds := by decide +kernel
/-- `fail_initialize_stake_with_invalid_vote_account` -/
example : errOf (out 0) (base.set vote3 ⟨30000000, systemId, .vote auth1⟩)
    (ix .initializeValidatorStake [cfg, .dunaPda auth1 hash, val3, vote3, systemId] []) = some .invalidAccountOwner := by
  decide +kernel
/-- `fail_initialize_stake_with_uninitialized_config_account` -/
example : errOf (out 0) ((base.set vote3 ⟨30000000, systemId, .vote auth1⟩).set cfg
      ⟨rent 192, progId, .bytes (List.replicate 192 0)⟩)
    (ix .initializeValidatorStake [cfg, .dunaPda auth1 hash, val3, vote3, systemId] []) = some .uninitializedAccount := by
  decide +kernel
/-- `fail_initialize_validator_stake_unintialized_duna_pda` (the test expects custom error 22) -/
example : errOf (out 0) ((base.set vote3 ⟨30000000, voteId, .vote fake⟩).set (.dunaPda fake hash)
      ⟨100000000, .raw 7, .bytes [0]⟩)
    (ix .initializeValidatorStake [cfg, .dunaPda fake hash, val3, vote3, systemId] []) =
    some (.stake .dunaDocumentNotInitialized) := by decide +kernel
/-- `fail_initialize_sol_staker_unintialized_duna_pda` -/
example : errOf (out 1000000000) (base.set (.dunaPda staker hash) ⟨100000000, .raw 7, .bytes [0]⟩) ixInitSol1 =
    some (.stake .dunaDocumentNotInitialized) := by decide +kernel

/-! ## initialize_sol_staker_stake.rs -/

/-- `initialize_sol_staker_stake_base` -/
example : (oneStaker 1000000000 sol1).data.len = 168 ∧
    solOf (oneStaker 1000000000) sol1 = ⟨⟨0, 0, 0, staker, vote1, 0, 0⟩, 1000000000, native1⟩ ∧
    (valOf (oneStaker 1000000000) val1).total = 1000000000 := by decide +kernel
/-- `fail_initialize_sol_staker_stake_with_initialized_account` -/
example : errOf (out 1000000000) (oneStaker 1000000000) ixInitSol1 = some .accountAlreadyInitialized := by decide +kernel
/-- `fail_initialize_sol_staker_stake_with_invalid_derivation` -/
example : errOf (out 1000000000) base (ix .initializeSolStakerStake
    [cfg, .dunaPda staker hash, .solStakerPda fake cfg, .overridePda staker cfg, val1, native1, Client.historyId, systemId,
      viewId] []) = some .invalidSeeds := by decide +kernel
/-- `fail_initialize_stake_with_invalid_stake_state` -/
example : errOf (out 1000000000) base (ix .initializeSolStakerStake
    [cfg, .dunaPda staker hash, .solStakerPda fake cfg, .overridePda staker cfg, val1, fake, Client.historyId, systemId,
      viewId] []) = some .cpi := by decide +kernel
/-- `fail_initialize_sol_staker_stake_with_uninitialized_config` -/
example : errOf (out 1000000000) (putJunk base cfg 192) ixInitSol1 = some .uninitializedAccount := by decide +kernel
/-- `fail_initialize_sol_staker_stake_with_invalid_sol_stake_view_program` -/
example : errOf (out 1000000000) base (ix .initializeSolStakerStake
    [cfg, .dunaPda staker hash, sol1, .overridePda staker cfg, val1, native1, Client.historyId, systemId, fake] []) =
    some .incorrectProgramId := by decide +kernel

/-! ## set_authority.rs and update_config.rs -/

def setAuth (t : AuthorityType) (signer : Key) : Ix := ix (.setAuthority t) [cfg, signer, fake] [signer]
def update (f : ConfigField) (signer : Key) : Ix := ix (.updateConfig f) [cfg, signer] [signer]

/-- `set_config_authority_on_config` -/
example : (cfgOf (after (out 0) base (setAuth .config configAuth)) cfg).authority = fake := by decide +kernel
/-- `set_slash_authority_on_config` -/
example : (cfgOf (after (out 0) base (setAuth .slash configAuth)) cfg).slashAuthority = fake := by decide +kernel
/-- `fail_set_config_authority_with_wrong_authority` -/
example : errOf (out 0) base (setAuth .config keeper) = some (.stake .invalidAuthority) := by decide +kernel
/-- `fail_set_slash_authority_with_wrong_authority` -/
example : errOf (out 0) base (setAuth .slash keeper) = some (.stake .invalidAuthority) := by decide +kernel
/-- `fail_set_config_authority_when_authority_none` -/
example : errOf (out 0) (onConfig base cfg fun c => { c with authority := .default }) (setAuth .config configAuth) =
    some (.stake .authorityNotSet) := by decide +kernel
/-- `fail_set_slash_authority_when_authority_none` -/
example : errOf (out 0) (onConfig base cfg fun c => { c with slashAuthority := .default }) (setAuth .slash configAuth) =
    some (.stake .authorityNotSet) := by decide +kernel
/-- `update_cooldown_time_config` -/
example : (cfgOf (after (out 0) base (update (.cooldownTimeSeconds 10) configAuth)) cfg).cooldownTime = 10 ∧
    (cfgOf (after (out 0) base (update (.cooldownTimeSeconds 10) configAuth)) cfg).maxBps = 500 := by decide +kernel
/-- `update_max_deactivation_basis_points_config` -/
example : (cfgOf (after (out 0) base (update (.maxDeactivationBasisPoints 1000) configAuth)) cfg).cooldownTime = 1 ∧
    (cfgOf (after (out 0) base (update (.maxDeactivationBasisPoints 1000) configAuth)) cfg).maxBps = 1000 := by
  decide +kernel
/-- `update_sync_rewards_lamports` -/
example : (cfgOf (after (out 0) base (update (.syncRewardsLamports 200000000) configAuth)) cfg).cooldownTime = 1 ∧
    (cfgOf (after (out 0) base (update (.syncRewardsLamports 200000000) configAuth)) cfg).maxBps = 500 ∧
    (cfgOf (after (out 0) base (update (.syncRewardsLamports 200000000) configAuth)) cfg).syncRewards = 200000000 := by
  decide +kernel
/-- `fail_update_max_deactivation_basis_points_config_with_invalid_value` -/
example : errOf (out 0) base (update (.maxDeactivationBasisPoints 20000) configAuth) = some .invalidArgument := by
  decide +kernel
/-- `fail_update_config_with_wrong_authority` -/
example : errOf (out 0) base (update (.cooldownTimeSeconds 10) keeper) = some (.stake .invalidAuthority) := by decide +kernel
/-- `fail_update_config_non_existing` -/
example : errOf (out 0) (base.set cfg nothing) (update (.cooldownTimeSeconds 10) configAuth) =
    some .invalidAccountOwner := by decide +kernel
/-- `fail_update_with_uninitialized_config` -/
example : errOf (out 0) start (update (.cooldownTimeSeconds 10) configAuth) = some .uninitializedAccount := by decide +kernel
/-- `fail_update_config_with_no_authority_set` -/
example : errOf (out 0) (onConfig base cfg fun c => { c with authority := .default })
    (update (.cooldownTimeSeconds 10) configAuth) = some (.stake .authorityNotSet) := by decide +kernel

/-! ## validator_sync_authority.rs and validator_override_staked_lamports.rs -/

/-- The withdraw authority of the vote account has changed. -/
def reissued : World := base.set vote1 ⟨30000000, voteId, .vote fake⟩

/-- `update_validator_authority_ok` -/
example : (valOf (after (out 0) reissued ixSync) val1).del.authority = fake := by decide +kernel
/-- `update_validator_authority_err_invalid_config` -/
example : errOf (out 0) reissued (ix .validatorSyncAuthority [fake, val1, vote1] []) = some .invalidAccountOwner := by
  decide +kernel
/-- `update_validator_authority_err_vote_mismatch` -/
example : errOf (out 0) reissued (ix .validatorSyncAuthority [cfg, val1, vote2] []) = some .invalidSeeds := by decide +kernel
/-- `update_validator_authority_err_stake_mismatch` -/
example : errOf (out 0) reissued (ix .validatorSyncAuthority [cfg, val2, vote1] []) = some .invalidSeeds := by decide +kernel

def twoBillion : World := onVal base val1 fun v => { v with del := amounts 2000000000 0 v.del }
def lift (c signer v : Key) : Ix :=
  ix (.validatorOverrideStakedLamports 10000000000) [c, signer, v, auth1, holder] [signer]

/-- `validator_override_staked_lamports_ok` -/
example : (valOf (after (out 0) twoBillion (lift cfg configAuth val1)) val1).total = 0 ∧
    (valOf (after (out 0) twoBillion (lift cfg configAuth val1)) val1).min = 10000000000 ∧
    (valOf (after (out 0) twoBillion (lift cfg configAuth val1)) val1).del.staked = 2000000000 ∧
    (valOf (after (out 0) twoBillion (lift cfg configAuth val1)) val1).del.effective = 2000000000 := by decide +kernel
/-- `validator_override_staked_lamports_err_config` -/
example : errOf (out 0) twoBillion (lift fake configAuth val1) = some .invalidAccountOwner := by decide +kernel
/-- `validator_override_staked_lamports_err_config_authority` -/
example : errOf (out 0) twoBillion (lift cfg keeper val1) = some (.stake .invalidAuthority) := by decide +kernel
/-- `validator_override_staked_lamports_err_validator_stake_owner` -/
example : errOf (out 0) twoBillion (lift cfg configAuth fake) = some .invalidAccountOwner := by decide +kernel

/-! ## harvest_validator_rewards.rs -/

def harvestVal (c h v a : Key) : Ix := ix .harvestValidatorRewards [c, h, v, a] []
/-- The validator has `n` of the config's `t` effective tokens and last saw `seen`; the accumulator stands at `acc`, the
config has `extra` lamports and the authority 100 000 000. -/
def valWorld (n t acc seen extra : Nat) : World :=
  putLamports (onConfig (funded (onVal base val1 fun v =>
    { v with del := { amounts n n v.del with lastStake := seen }, total := 50 }) cfg extra) cfg fun c =>
    { c with effTotal := t, acc := acc }) auth1 100000000

/-- `harvest_validator_rewards` -/
example : (after (out 0) (valWorld 65 130 (26 * scale / 130) 0 26) (harvestVal cfg holder val1 auth1) auth1).lamports =
      100000000 + 13 ∧
    (valOf (after (out 0) (valWorld 65 130 (26 * scale / 130) 0 26) (harvestVal cfg holder val1 auth1)) val1).del.lastStake =
      200000000000000000 := by decide +kernel
/-- `harvest_validator_rewards_wrapped` -/
example : (after (out 0) (valWorld 65 130 (26 * scale / 130) (U128 - 1) 26) (harvestVal cfg holder val1 auth1)
      auth1).lamports = 100000000 + 13 ∧
    (valOf (after (out 0) (valWorld 65 130 (26 * scale / 130) (U128 - 1) 26)
      (harvestVal cfg holder val1 auth1)) val1).del.lastStake = 200000000000000000 := by decide +kernel
/-- `harvest_validator_rewards_with_no_rewards_available` -/
example : okB (out 0) (valWorld 50 100 0 0 0) (harvestVal cfg holder val1 auth1) = true ∧
    (after (out 0) (valWorld 50 100 0 0 0) (harvestVal cfg holder val1 auth1) auth1).lamports = 100000000 := by
  decide +kernel
/-- `harvest_validator_rewards_after_harvesting` -/
example : okB (out 0) (valWorld 50 100 (4000000000 * scale / 100) (4000000000 * scale / 100) 2000000000)
      (harvestVal cfg holder val1 auth1) = true ∧
    (after (out 0) (valWorld 50 100 (4000000000 * scale / 100) (4000000000 * scale / 100) 2000000000)
      (harvestVal cfg holder val1 auth1) auth1).lamports = 100000000 ∧
    (after (out 0) (valWorld 50 100 (4000000000 * scale / 100) (4000000000 * scale / 100) 2000000000)
      (harvestVal cfg holder val1 auth1) cfg).lamports = 2000000000 + rent 192 := by decide +kernel
/-- `fail_harvest_validator_rewards_with_wrong_authority` -/
example : errOf (out 0) (valWorld 50 100 (4000000000 * scale / 100) 0 4000000000) (harvestVal cfg holder val1 fake) =
    some (.stake .invalidAuthority) := by decide +kernel
/-- `fail_harvest_validator_rewards_with_uninitialized_config_account` -/
example : errOf (out 0) (putJunk base cfg 192) (harvestVal cfg holder val1 auth1) = some .uninitializedAccount := by
  decide +kernel
/-- `fail_harvest_validator_rewards_with_uninitialized_stake_account` -/
example : errOf (out 0) (putJunk base val3 144) (harvestVal cfg holder val3 auth1) = some .uninitializedAccount := by
  decide +kernel
/-- `fail_harvest_validator_rewards_with_wrong_config_account` -/
example : errOf (out 0) (valWorld 50 100 (4000000000 * scale / 100) 0 4000000000) (harvestVal cfgB holderB val1 auth1) =
    some .invalidSeeds := by decide +kernel
/-- `fail_harvest_validator_rewards_with_wrong_holder_rewards` -/
example : errOf (out 0) ((valWorld 50 100 (4000000000 * scale / 100) 0 4000000000).set (.holderRewardsPda fake)
      ⟨rent 72, rewardsId, .holder { lastAcc := 0, deposited := 0 }⟩)
    (harvestVal cfg (.holderRewardsPda fake) val1 auth1) = some .invalidSeeds := by decide +kernel

/-! ## harvest_sol_staker_rewards.rs -/

/-- The harvest of the first staker's stake; the current validator and the keeper are given. -/
def harvestSol (cur ca : Key) (keeper : Key) : Ix :=
  ix .harvestSolStakerRewards
    [viewId, cfg, holder, sol1, staker, native1, val1, auth1, cur, ca, Client.historyId, keeper] []
/-- No keeper. -/
def harvestPlain : Ix := harvestSol val1 auth1 progId
/-- A staker with `lam` lamports of native stake, `s` staked and `e` effective tokens, `seen` last seen. -/
def solWorld (lam s e t acc seen extra : Nat) : World :=
  putLamports (putLamports (onConfig (funded (onSol (oneStaker lam) sol1 fun x =>
    { x with del := { amounts s e x.del with lastStake := seen } }) cfg extra) cfg fun c =>
    { c with effTotal := t, acc := acc }) staker 100000000) keeper 100000000

abbrev giga : Nat := 1000000000
def sol50 (seen : Nat) : World := solWorld (50 * giga) (65 * giga) (65 * giga) (130 * giga) (26 * scale / 130) seen (26 * giga)

/-- `harvest_sol_staker_rewards` -/
example : (after (out (50 * giga)) (sol50 0) harvestPlain staker).lamports = 100000000 + 13 * giga ∧
    (solOf (after (out (50 * giga)) (sol50 0) harvestPlain) sol1).del.lastStake = 200000000000000000 := by decide +kernel
/-- `harvest_sol_staker_rewards_wrapped` -/
example : (after (out (50 * giga)) (sol50 (U128 - 1)) harvestPlain staker).lamports = 100000000 + 13 * giga ∧
    (solOf (after (out (50 * giga)) (sol50 (U128 - 1)) harvestPlain) sol1).del.lastStake = 200000000000000000 := by
  decide +kernel
/-- `harvest_sol_staker_rewards_with_no_rewards_available` -/
example : okB (out giga) (solWorld giga 50 50 100 0 0 0) harvestPlain = true ∧
    (after (out giga) (solWorld giga 50 50 100 0 0 0) harvestPlain staker).lamports = 100000000 := by decide +kernel
/-- `harvest_sol_staker_rewards_after_harvesting` -/
example : okB (out giga) (solWorld giga 50 50 100 (4 * giga * scale / 100) (4 * giga * scale / 100) (2 * giga))
      harvestPlain = true ∧
    (after (out giga) (solWorld giga 50 50 100 (4 * giga * scale / 100) (4 * giga * scale / 100) (2 * giga)) harvestPlain
      staker).lamports = 100000000 ∧
    (after (out giga) (solWorld giga 50 50 100 (4 * giga * scale / 100) (4 * giga * scale / 100) (2 * giga)) harvestPlain
      cfg).lamports = 2 * giga + rent 192 := by decide +kernel
/-- `fail_harvest_sol_staker_rewards_with_wrong_authority` -/
example : errOf (out (50 * giga)) (sol50 0) (ix .harvestSolStakerRewards
    [viewId, cfg, holder, sol1, fake, native1, val1, auth1, val1, auth1, Client.historyId, progId] []) =
    some (.stake .invalidAuthority) := by decide +kernel
/-- `fail_harvest_sol_staker_rewards_with_wrong_config_account` -/
example : errOf (out (50 * giga)) (sol50 0) (ix .harvestSolStakerRewards
    [viewId, cfgB, holderB, sol1, staker, native1, val1, auth1, val1, auth1, Client.historyId, progId] []) =
    some .invalidSeeds := by decide +kernel
/-- `fail_harvest_sol_staker_rewards_with_uninitialized_stake_account` -/
example : errOf (out (50 * giga)) (putJunk (sol50 0) sol1 168) harvestPlain = some .uninitializedAccount := by decide +kernel
/-- `fail_sync_sol_stake_with_uninitialized_config` -/
example : errOf (out (50 * giga)) (putJunk (sol50 0) cfg 192) harvestPlain = some .uninitializedAccount := by decide +kernel

/-- Five SOL, no tokens. -/
def sol5 : World := solWorld (5 * giga) 0 0 0 0 0 0

/-- `harvest_sol_stake_when_deactivating`, `harvest_sol_stake_when_inactive`: the lamports leave the staker and the
validator -/
example : okB (out 0) sol5 (harvestSol val1 auth1 keeper) = true ∧
    (solOf (after (out 0) sol5 (harvestSol val1 auth1 keeper)) sol1).lamports = 0 ∧
    (valOf (after (out 0) sol5 (harvestSol val1 auth1 keeper)) val1).total = 0 := by decide +kernel
/-- `sync_sol_stake_when_effective`, `sync_sol_stake_when_activating` -/
example : (solOf (after (out (5 * giga)) sol5 (harvestSol val1 auth1 keeper)) sol1).lamports = 5 * giga ∧
    (valOf (after (out (5 * giga)) sol5 (harvestSol val1 auth1 keeper)) val1).total = 5 * giga := by decide +kernel
/-- `fail_sync_sol_stake_with_wrong_config_account`, `fail_harvest_sync_rewards_with_wrong_config_account` -/
example : errOf (out (5 * giga)) sol5 (ix .harvestSolStakerRewards
    [viewId, cfgB, holder, sol1, staker, native1, val1, auth1, val1, auth1, Client.historyId, keeper] []) =
    some .invalidSeeds := by decide +kernel
/-- `fail_sync_sol_stake_with_wrong_sol_stake_account`, `fail_harvest_sync_rewards_with_wrong_sol_stake_account` -/
example : errOf (out (5 * giga)) sol5 (ix .harvestSolStakerRewards
    [viewId, cfg, holder, sol1, staker, native2, val1, auth1, val1, auth1, Client.historyId, keeper] []) =
    some (.stake .incorrectSolStakeAccount) := by decide +kernel
/-- `fail_sync_sol_stake_with_wrong_validator_stake` -/
example : errOf (out 0) sol5 (ix .harvestSolStakerRewards
    [viewId, cfg, holder, sol1, staker, native1, val2, auth2, val2, auth2, Client.historyId, keeper] []) =
    some .invalidSeeds := by decide +kernel
/-- `fail_harvest_sync_rewards_with_wrong_previous_validator_stake_account` -/
example : errOf (oracle 5000 (lookup vote2 (5 * giga)) 0) sol5 (ix .harvestSolStakerRewards
    [viewId, cfg, holder, sol1, staker, native1, val2, auth1, val2, auth2, Client.historyId, keeper] []) =
    some .invalidSeeds := by decide +kernel
/-- `fail_sync_sol_stake_with_uninitialized_validator_stake` -/
example : errOf (out 0) (putJunk sol5 val1 144) (harvestSol val1 auth1 keeper) = some .uninitializedAccount := by decide +kernel
/-- `fail_sync_sol_stake_with_invalid_sol_stake_view_program`,
`fail_harvest_sync_rewards_with_invalid_sol_stake_view_program` -/
example : errOf (out 0) sol5 (ix .harvestSolStakerRewards
    [fake, cfg, holder, sol1, staker, native1, val1, auth1, val1, auth1, Client.historyId, keeper] []) =
    some .incorrectProgramId := by decide +kernel
/-- `sync_sol_stake_sol_stake_redelegate_to_non_pal`: redelegated to a validator without a stake account -/
example : (solOf (after (oracle 5000 (lookup vote3 (5 * giga)) 0) sol5 (harvestSol val3 fake keeper)) sol1).lamports = 0 ∧
    (valOf (after (oracle 5000 (lookup vote3 (5 * giga)) 0) sol5 (harvestSol val3 fake keeper)) val1).total = 0 ∧
    (cfgOf (after (oracle 5000 (lookup vote3 (5 * giga)) 0) sol5 (harvestSol val3 fake keeper)) cfg).effTotal = 0 ∧
    okB (oracle 5000 (lookup vote3 (5 * giga)) 0) sol5 (harvestSol val3 fake keeper) = true := by decide +kernel

/-- One SOL, 1.3 SOL worth of tokens, 1.3 SOL of rewards. -/
def sync (s seen : Nat) : World := solWorld giga s 1300000000 1300000000 scale seen 1300000000
/-- After the harvest of a deactivated stake. -/
def synced (s seen : Nat) : World := after (out 0) (sync s seen) (harvestSol val1 auth1 keeper)

/-- `harvest_sync_rewards_base` -/
example : (synced 1300000000 0 keeper).lamports = 100000000 + 1000000 ∧
    (synced 1300000000 0 staker).lamports = 100000000 + 1299000000 ∧ (valOf (synced 1300000000 0) val1).total = 0 ∧
    (solOf (synced 1300000000 0) sol1).lamports = 0 ∧
    (solOf (synced 1300000000 0) sol1).del.lastStake = (cfgOf (synced 1300000000 0) cfg).acc := by decide +kernel
/-- `harvest_sync_rewards_wrapped` -/
example : (synced 0 (U128 - 1) keeper).lamports = 100000000 + 1000000 ∧
    (synced 0 (U128 - 1) staker).lamports = 100000000 + 1299000000 ∧ (valOf (synced 0 (U128 - 1)) val1).total = 0 ∧
    (solOf (synced 0 (U128 - 1)) sol1).lamports = 0 := by decide +kernel
/-- `harvest_sync_rewards_without_rewards` -/
example : okB (out 0) (solWorld giga 0 0 0 0 0 0) (harvestSol val1 auth1 keeper) = true ∧
    (after (out 0) (solWorld giga 0 0 0 0 0 0) (harvestSol val1 auth1 keeper) keeper).lamports = 100000000 ∧
    (after (out 0) (solWorld giga 0 0 0 0 0 0) (harvestSol val1 auth1 keeper) cfg).lamports = rent 192 := by decide +kernel
/-- `harvest_sync_rewards_with_closed_sol_stake_account` -/
example : (after (oracle 5000 closed 0) (sync 1300000000 0) (harvestSol val1 auth1 keeper) keeper).lamports =
      100000000 + 1000000 ∧
    (after (oracle 5000 closed 0) (sync 1300000000 0) (harvestSol val1 auth1 keeper) staker).lamports =
      100000000 + 1299000000 ∧
    (valOf (after (oracle 5000 closed 0) (sync 1300000000 0) (harvestSol val1 auth1 keeper)) val1).total = 0 ∧
    (valOf (after (oracle 5000 closed 0) (sync 1300000000 0) (harvestSol val1 auth1 keeper)) val1).del.lastStake =
      scale := by decide +kernel
/-- `harvest_sync_rewards_with_capped_sync_rewards` -/
def capped : World :=
  onConfig (solWorld giga 1300000000 1300000000 1300000000 (scale + 200000000) 200000000 1300000000) cfg fun c =>
    { c with syncRewards := 1300000001 }
example : (after (out 0) capped (harvestSol val1 auth1 keeper) keeper).lamports = 100000000 + 1300000000 ∧
    (after (out 0) capped (harvestSol val1 auth1 keeper) staker).lamports = 100000000 := by decide +kernel
/-- `fail_harvest_sync_rewards_with_wrong_current_validator_stake_account` -/
example : errOf (oracle 5000 (lookup vote2 giga) 0) (sync 1300000000 0) (harvestSol val1 auth1 keeper) =
    some .invalidSeeds := by decide +kernel
/-- `fail_harvest_sync_rewards_with_wrong_vault_holder_rewards` -/
example : errOf (out 0) (sync 1300000000 0) (ix .harvestSolStakerRewards
    [viewId, cfg, holderB, sol1, staker, native1, val1, auth1, val1, auth1, Client.historyId, keeper] []) =
    some .invalidSeeds := by decide +kernel

/-! ## validator_stake_tokens.rs -/

/-- The first validator stakes `n` tokens of the source account. -/
def stakeVal (n : Nat) : Ix :=
  ix (.validatorStakeTokens n)
    [cfg, pool, poolToken, val1, auth1, source, holderOwner, mint, vaultAuth, vault, holder, tokenId, rewardsId]
    [holderOwner]
/-- The same with another config, stake, vault authority, vault and holder rewards account. -/
def stakeValAt (c v va t h : Key) (n : Nat) : Ix :=
  ix (.validatorStakeTokens n)
    [c, pool, poolToken, v, auth1, source, holderOwner, mint, va, t, h, tokenId, rewardsId] [holderOwner]
/-- The source holds `n` tokens and the validator has `lam` lamports delegated to it. -/
def rich (n lam : Nat) : World := creditTokens (onVal base val1 fun v => { v with total := lam }) source n

/-- `validator_stake_tokens_simple` -/
example : (valOf (after (out 0) (rich 100 50) (stakeVal 65)) val1).del.staked = 65 ∧
    (tokOf (after (out 0) (rich 100 50) (stakeVal 65)) vault).amount = 0 ∧
    (cfgOf (after (out 0) (rich 100 50) (stakeVal 65)) cfg).effTotal = 65 ∧
    (tokOf (after (out 0) (rich 100 50) (stakeVal 65)) poolToken).amount = 65 ∧
    (recOf (after (out 0) (rich 100 50) (stakeVal 65)) holder).deposited = 65 := by decide +kernel
/-- `fail_validator_stake_tokens_with_wrong_vault_holder_rewards_account` -/
example : errOf (out 0) (((rich 100 50).set fakeVault ⟨rent 165, tokenId, tokens fake 0⟩).set (.holderRewardsPda fake)
      ⟨rent 72, rewardsId, .holder { lastAcc := 0, deposited := 0 }⟩)
    (stakeValAt cfg val1 fake fakeVault (.holderRewardsPda fake) 50) =
    some (.stake .invalidVaultHolderRewardsSeeds) := by decide +kernel
/-- `fail_validator_stake_tokens_with_wrong_vault_pda_account` -/
example : errOf (out 0) (rich 100 50) (stakeValAt cfg val1 fake vault holder 50) =
    some (.stake .incorrectVaultPdaAccount) := by decide +kernel
/-- `fail_validator_stake_tokens_with_wrong_vault_token_account` -/
example : errOf (out 0) ((rich 100 50).set fakeVault ⟨rent 165, tokenId, tokens fake 0⟩)
    (stakeValAt cfg val1 vaultAuth fakeVault holder 50) = some (.stake .incorrectVaultAccount) := by decide +kernel
/-- `fail_validator_stake_tokens_with_wrong_config_account` -/
example : errOf (out 0) (rich 100 50) (stakeValAt cfgB val1 vaultAuth vault holder 50) = some .invalidSeeds := by
  decide +kernel
/-- `fail_validator_stake_tokens_with_zero_amount` -/
example : errOf (out 0) (rich 100 50) (stakeVal 0) = some (.stake .invalidAmount) := by decide +kernel
/-- `fail_validator_stake_tokens_with_uninitialized_stake_account` -/
example : errOf (out 0) (putJunk (rich 100 50) val3 144) (stakeValAt cfg val3 vaultAuth vault holder 50) =
    some .uninitializedAccount := by decide +kernel
/-- `fail_validator_stake_tokens_without_staked_sol` -/
example : (valOf (after (out 0) (rich 100 0) (stakeVal 50)) val1).total = 0 ∧
    (valOf (after (out 0) (rich 100 0) (stakeVal 50)) val1).del.effective = 0 ∧
    (valOf (after (out 0) (rich 100 0) (stakeVal 50)) val1).del.staked = 50 := by decide +kernel
/-- `validator_stake_tokens_with_insufficient_staked_sol_effective_capped` -/
example : (valOf (after (out 0) (rich 2600000001 2000000000) (stakeVal 2600000001)) val1).total = 2000000000 ∧
    (valOf (after (out 0) (rich 2600000001 2000000000) (stakeVal 2600000001)) val1).del.effective = 2600000000 ∧
    (valOf (after (out 0) (rich 2600000001 2000000000) (stakeVal 2600000001)) val1).del.staked = 2600000001 := by
  decide +kernel

/-! ## sol_staker_stake_tokens.rs -/

def stakeSolAt (c s va t h : Key) (n : Nat) : Ix :=
  ix (.solStakerStakeTokens n)
    [c, pool, poolToken, s, staker, source, holderOwner, mint, va, t, h, tokenId, rewardsId] [holderOwner]
def stakeSol (n : Nat) : Ix := stakeSolAt cfg sol1 vaultAuth vault holder n
def richSol (n : Nat) : World := creditTokens (oneStaker 5000000000) source n

/-- `sol_staker_stake_tokens_simple` -/
example : (solOf (after (out 5000000000) (richSol 6500000000) (stakeSol 6500000000)) sol1).del.staked = 6500000000 ∧
    (tokOf (after (out 5000000000) (richSol 6500000000) (stakeSol 6500000000)) vault).amount = 0 ∧
    (cfgOf (after (out 5000000000) (richSol 6500000000) (stakeSol 6500000000)) cfg).effTotal = 6500000000 ∧
    (tokOf (after (out 5000000000) (richSol 6500000000) (stakeSol 6500000000)) poolToken).amount = 6500000000 ∧
    (recOf (after (out 5000000000) (richSol 6500000000) (stakeSol 6500000000)) holder).deposited = 6500000000 := by
  decide +kernel
/-- `fail_sol_staker_stake_tokens_with_wrong_vault_account` -/
example : errOf (out 5000000000) (((richSol 6500000000).set fakeVault ⟨rent 165, tokenId, tokens fake 0⟩).set
      (.holderRewardsPda fakeVault) ⟨rent 72, rewardsId, .holder { lastAcc := 0, deposited := 0 }⟩)
    (stakeSolAt cfg sol1 vaultAuth fakeVault (.holderRewardsPda fakeVault) 6500000000) =
    some (.stake .invalidVaultHolderRewardsSeeds) := by decide +kernel
/-- `fail_sol_staker_stake_tokens_with_wrong_config_account` -/
example : errOf (out 5000000000) (richSol 6500000000) (stakeSolAt cfgB sol1 vaultAuth vault holder 6500000000) =
    some .invalidSeeds := by decide +kernel
/-- `fail_sol_staker_stake_tokens_with_zero_amount` -/
example : errOf (out 5000000000) (richSol 6500000000) (stakeSol 0) = some (.stake .invalidAmount) := by decide +kernel
/-- `fail_sol_staker_stake_tokens_with_uninitialized_stake_account` -/
example : errOf (out 5000000000) (putJunk (richSol 6500000000) sol1 168) (stakeSol 6500000000) =
    some .uninitializedAccount := by decide +kernel
/-- `sol_staker_stake_tokens_with_insufficient_staked_sol_reduces_effective` -/
example : (solOf (after (out 5000000000) (richSol 6500000001) (stakeSol 6500000001)) sol1).del.staked = 6500000001 ∧
    (solOf (after (out 5000000000) (richSol 6500000001) (stakeSol 6500000001)) sol1).del.effective = 6500000000 ∧
    (cfgOf (after (out 5000000000) (richSol 6500000001) (stakeSol 6500000001)) cfg).effTotal = 6500000000 := by
  decide +kernel

/-! ## sol_staker_move_tokens.rs

The tests set only `staked_amount`; the effective amount is found by the instruction. -/

def moveIx (who : Key) (n : Nat) : Ix := ix (.solStakerMoveTokens n) [cfg, holder, who, sol1, sol2] [who]
def moveWorld (s d cs cd : Nat) : World :=
  onSol (onSol (stakers 5000000000) sol1 fun x => { x with del := { x.del with staked := s, cooldown := cs } }) sol2 fun x =>
    { x with del := { x.del with staked := d, cooldown := cd } }
def moved (s d cs cd n : Nat) : World := after (out 5000000000) (moveWorld s d cs cd) (moveIx staker n)
/-- Staked, effective and cooldown of both sides, accumulator and effective total of the config. -/
def sides (w : World) : (Nat × Nat × Nat) × (Nat × Nat × Nat) × (Nat × Nat) :=
  (((solOf w sol1).del.staked, (solOf w sol1).del.effective, (solOf w sol1).del.cooldown),
    ((solOf w sol2).del.staked, (solOf w sol2).del.effective, (solOf w sol2).del.cooldown),
    ((cfgOf w cfg).acc, (cfgOf w cfg).effTotal))

/-- `transfer_to_empty` -/
example : sides (moved 10 0 0 0 3) = ((7, 7, 0), (3, 3, 0), (0, 10)) := by decide +kernel
/-- `transfer_to_not_empty` -/
example : sides (moved 10 10 0 0 5) = ((5, 5, 0), (15, 15, 0), (0, 20)) := by decide +kernel
/-- `transfer_from_account_with_cooldown` -/
example : sides (moved 10 10 42 0 5) = ((5, 5, 42), (15, 15, 42), (0, 20)) := by decide +kernel
/-- `transfer_to_account_with_cooldown` -/
example : sides (moved 10 10 0 42 5) = ((5, 5, 0), (15, 15, 42), (0, 20)) := by decide +kernel
/-- `transfer_without_authority_signature_err` -/
example : errOf (out 5000000000) (moveWorld 10 10 0 0) (ix (.solStakerMoveTokens 5) [cfg, holder, staker, sol1, sol2] []) =
    some .missingRequiredSignature := by decide +kernel
/-- `transfer_with_wrong_authority_err` -/
example : errOf (out 5000000000) (moveWorld 10 10 0 0) (moveIx fake 5) = some (.stake .invalidAuthority) := by
  decide +kernel
/-- `transfer_to_account_with_different_authority_err` -/
example : errOf (out 5000000000) (onSol (moveWorld 10 10 0 0) sol2 fun x => { x with del := { x.del with authority := fake } })
    (moveIx staker 5) = some (.stake .invalidAuthority) := by decide +kernel

/-! ## slash_validator_stake.rs and slash_sol_staker_stake.rs

Here the vault itself holds the tokens. -/

def slashVal (c v who t h va : Key) (n : Nat) : Ix :=
  ix (.slashValidatorStake n) [c, v, auth1, who, t, h, va, mint, tokenId] [who]
def slashV (n : Nat) : Ix := slashVal cfg val1 configAuth vault holder vaultAuth n
/-- The validator has staked `s` of `t` effective tokens and the vault holds `n`. -/
def slashable (s t n : Nat) : World :=
  creditTokens (onConfig (onVal base val1 fun v => { v with del := amounts s s v.del, total := s }) cfg fun c =>
    { c with effTotal := t }) vault n

/-- `slash_validator_stake` -/
example : (tokOf (after (out 0) (slashable 50 100 100) (slashV 50)) vault).amount = 50 ∧
    (cfgOf (after (out 0) (slashable 50 100 100) (slashV 50)) cfg).effTotal = 50 ∧
    (valOf (after (out 0) (slashable 50 100 100) (slashV 50)) val1).del.staked = 0 := by decide +kernel
/-- `fail_slash_validator_stake_with_zero_amount` -/
example : errOf (out 0) (slashable 50 100 100) (slashV 0) = some (.stake .invalidAmount) := by decide +kernel
/-- `slash_validator_stake_with_no_staked_amount` -/
example : okB (out 0) (slashable 0 100 100) (slashV 50) = true ∧
    (tokOf (after (out 0) (slashable 0 100 100) (slashV 50)) vault).amount = 100 := by decide +kernel
/-- `fail_slash_validator_stake_with_invalid_slash_authority` -/
example : errOf (out 0) (slashable 50 100 100) (slashVal cfg val1 fake vault holder vaultAuth 50) =
    some (.stake .invalidAuthority) := by decide +kernel
/-- `fail_slash_validator_stake_with_incorrect_vault_account` -/
example : errOf (out 0) ((slashable 50 100 100).set fakeVault ⟨rent 165, tokenId, tokens cfg 100⟩)
    (slashVal cfg val1 configAuth fakeVault holder vaultAuth 50) = some (.stake .incorrectVaultAccount) := by decide +kernel
/-- `fail_slash_validator_stake_with_uninitialized_stake_account` -/
example : errOf (out 0) (putJunk (slashable 50 100 100) val3 144) (slashVal cfg val3 configAuth vault holder vaultAuth 50) =
    some .uninitializedAccount := by decide +kernel
/-- `fail_slash_validator_stake_with_uninitialized_config_account` -/
example : errOf (out 0) (putJunk (slashable 50 100 100) cfg 192) (slashV 50) = some .uninitializedAccount := by decide +kernel
/-- `fail_slash_validator_stake_with_wrong_config_account` -/
example : errOf (out 0) (slashable 50 100 100) (slashVal cfgB val1 configAuth vaultB holderB vaultAuthB 50) =
    some .invalidSeeds := by decide +kernel
/-- `fail_slash_validator_stake_with_insufficient_total_amount_delegated` (the test expects `Custom(1)` of the token
program) -/
example : errOf (out 0) (slashable 100 50 50) (slashV 100) = some .cpi := by decide +kernel
/-- `slash_validator_stake_with_insufficient_stake_amount` -/
example : (tokOf (after (out 0) (slashable 500 900 1000) (slashV 600)) vault).amount = 500 ∧
    (cfgOf (after (out 0) (slashable 500 900 1000) (slashV 600)) cfg).effTotal = 400 ∧
    (valOf (after (out 0) (slashable 500 900 1000) (slashV 600)) val1).del.staked = 0 := by decide +kernel

def slashSol (c s who t h va : Key) (n : Nat) : Ix :=
  ix (.slashSolStakerStake n) [c, s, staker, who, mint, t, h, va, tokenId] [who]
def slashS (n : Nat) : Ix := slashSol cfg sol1 configAuth vault holder vaultAuth n
def slashableSol (s t n : Nat) : World :=
  creditTokens (onConfig (onSol (oneStaker giga) sol1 fun x => { x with del := amounts s s x.del }) cfg fun c =>
    { c with effTotal := t }) vault n

/-- `slash_sol_staker_stake` -/
example : (tokOf (after (out 0) (slashableSol 50 100 100) (slashS 50)) vault).amount = 50 ∧
    (cfgOf (after (out 0) (slashableSol 50 100 100) (slashS 50)) cfg).effTotal = 50 ∧
    (solOf (after (out 0) (slashableSol 50 100 100) (slashS 50)) sol1).del.staked = 0 ∧
    (solOf (after (out 0) (slashableSol 50 100 100) (slashS 50)) sol1).del.effective = 0 := by decide +kernel
/-- `fail_slash_sol_staker_stake_with_zero_amount` -/
example : errOf (out 0) (slashableSol 50 100 100) (slashS 0) = some (.stake .invalidAmount) := by decide +kernel
/-- `slash_sol_staker_stake_with_no_staked_amount` -/
example : okB (out 0) (slashableSol 0 100 100) (slashS 50) = true ∧
    (tokOf (after (out 0) (slashableSol 0 100 100) (slashS 50)) vault).amount = 100 := by decide +kernel
/-- `fail_slash_sol_staker_stake_with_invalid_slash_authority` -/
example : errOf (out 0) (slashableSol 50 100 100) (slashSol cfg sol1 fake vault holder vaultAuth 50) =
    some (.stake .invalidAuthority) := by decide +kernel
/-- `fail_slash_sol_staker_stake_with_incorrect_vault_account` -/
example : errOf (out 0) ((slashableSol 50 100 100).set fakeVault ⟨rent 165, tokenId, tokens cfg 100⟩)
    (slashSol cfg sol1 configAuth fakeVault holder vaultAuth 50) = some (.stake .incorrectVaultAccount) := by decide +kernel
/-- `fail_slash_sol_staker_stake_with_uninitialized_stake_account` -/
example : errOf (out 0) (putJunk (slashableSol 50 100 100) sol1 168) (slashS 50) = some .uninitializedAccount := by
  decide +kernel
/-- `fail_slash_sol_staker_stake_with_uninitialized_config_account` -/
example : errOf (out 0) (putJunk (slashableSol 50 100 100) cfg 192) (slashS 50) = some .uninitializedAccount := by
  decide +kernel
/-- `fail_slash_validator_stake_with_wrong_config_account` -/
example : errOf (out 0) (slashableSol 50 100 100) (slashSol cfgB sol1 configAuth vaultB holderB vaultAuthB 50) =
    some .invalidSeeds := by decide +kernel
/-- `fail_slash_sol_staker_stake_with_insufficient_total_amount_delegated` -/
example : errOf (out 0) (slashableSol 200 100 100) (slashS 200) = some .cpi := by decide +kernel
/-- `slash_sol_staker_stake_with_insufficient_stake_amount` -/
example : (tokOf (after (out 0) (slashableSol 500 900 1000) (slashS 600)) vault).amount = 500 ∧
    (cfgOf (after (out 0) (slashableSol 500 900 1000) (slashS 600)) cfg).effTotal = 400 ∧
    (solOf (after (out 0) (slashableSol 500 900 1000) (slashS 600)) sol1).del.staked = 0 ∧
    (solOf (after (out 0) (slashableSol 500 900 1000) (slashS 600)) sol1).del.effective = 0 := by decide +kernel

/-! ## inactivate_validator_stake.rs and inactivate_sol_staker_stake.rs -/

def unstakeAt (c s who t va h : Key) (n : Nat) : Ix :=
  ix (.unstakeTokens n) [c, pool, poolToken, s, who, t, va, h, mint, source, tokenId, rewardsId] [who]
def unstakeV (n : Nat) : Ix := unstakeAt cfg val1 auth1 vault vaultAuth holder n
/-- 100 tokens staked; the cooldown ends at `cd`. -/
def stakedVal (cd : Nat) : World :=
  onVal (after (out 0) (rich 100 0) (stakeVal 100)) val1 fun v =>
    { v with del := { v.del with cooldown := cd }, total := giga }

/-- `inactivate_validator_stake` -/
example : (valOf (after (out 0) (stakedVal 0) (unstakeV 5)) val1).del.staked = 95 ∧
    (valOf (after (out 0) (stakedVal 0) (unstakeV 5)) val1).del.effective = 95 ∧
    (valOf (after (out 0) (stakedVal 0) (unstakeV 5)) val1).del.cooldown = 5000 + 1 ∧
    (cfgOf (after (out 0) (stakedVal 0) (unstakeV 5)) cfg).effTotal = 95 ∧
    (tokOf (after (out 0) (stakedVal 0) (unstakeV 5)) source).amount = 5 := by decide +kernel
/-- `fail_inactivate_validator_stake_with_cooldown`, `fail_inactivate_validator_stake_with_active_cooldown` -/
example : errOf (out 0) (stakedVal (5000 + 1)) (unstakeV 50) = some (.stake .activeUnstakeCooldown) := by decide +kernel
/-- `fail_inactivate_validator_stake_with_wrong_config_for_vault` -/
example : errOf (out 0) (stakedVal 0) (unstakeAt cfgB val1 auth1 vault vaultAuth holder 50) =
    some (.stake .incorrectVaultAccount) := by decide +kernel
/-- `fail_inactivate_validator_stake_with_wrong_config_for_stake` -/
example : errOf (out 0) (stakedVal 0) (unstakeAt cfgB val1 auth1 vaultB vaultAuthB holderB 50) = some .invalidSeeds := by
  decide +kernel
/-- `fail_inactivate_validator_stake_with_uninitialized_stake_account` -/
example : errOf (out 0) (putJunk (stakedVal 0) val1 144) (unstakeV 50) = some .uninitializedAccount := by decide +kernel
/-- `fail_validator_stake_deactivate_stake_with_amount_greater_than_stake_amount` -/
example : errOf (out 0) (stakedVal 0) (unstakeV 150) = some (.stake .insufficientStakeAmount) := by decide +kernel
/-- `fail_validator_stake_deactivate_stake_with_maximum_deactivation_amount_exceeded` -/
example : errOf (out 0) (stakedVal 0) (unstakeV 100) = some (.stake .maximumDeactivationAmountExceeded) := by decide +kernel

def unstakeS (n : Nat) : Ix := unstakeAt cfg sol1 staker vault vaultAuth holder n
def stakedSol (cd : Nat) : World :=
  onSol (after (out giga) (creditTokens (oneStaker giga) source 100) (stakeSol 100)) sol1 fun x =>
    { x with del := { x.del with cooldown := cd } }

/-- `inactivate_sol_staker_stake_base` -/
example : (solOf (after (out giga) (stakedSol 0) (unstakeS 5)) sol1).del.staked = 95 ∧
    (solOf (after (out giga) (stakedSol 0) (unstakeS 5)) sol1).del.effective = 95 ∧
    (solOf (after (out giga) (stakedSol 0) (unstakeS 5)) sol1).del.cooldown = 5000 + 1 ∧
    (tokOf (after (out giga) (stakedSol 0) (unstakeS 5)) source).amount = 5 ∧
    (cfgOf (after (out giga) (stakedSol 0) (unstakeS 5)) cfg).effTotal = 95 := by decide +kernel
/-- `fail_inactivate_sol_staker_stake_with_wrong_config_for_vault` -/
example : errOf (out giga) (stakedSol 0) (unstakeAt cfgB sol1 staker vault vaultAuth holder 5) =
    some (.stake .incorrectVaultAccount) := by decide +kernel
/-- `fail_inactivate_sol_staker_stake_with_wrong_config_for_stake` -/
example : errOf (out giga) (stakedSol 0) (unstakeAt cfgB sol1 staker vaultB vaultAuthB holderB 5) =
    some .invalidSeeds := by decide +kernel
/-- `fail_inactivate_sol_stake_stake_with_uninitialized_stake_account` -/
example : errOf (out giga) (putJunk (stakedSol 0) sol1 168) (unstakeS 5) = some .uninitializedAccount := by decide +kernel
/-- `fail_inactivate_sol_staker_stake_with_active_cooldown` -/
example : errOf (out giga) (stakedSol (5000 + 1)) (unstakeS 5) = some (.stake .activeUnstakeCooldown) := by decide +kernel

/-! ## harvest_holder_rewards.rs

Each test harvests the holder rewards and then one stake, in one transaction. -/

def holderIx (c t h va : Key) : Ix :=
  ix .harvestHolderRewards [c, pool, poolToken, t, h, va, mint, tokenId, rewardsId, systemId] []
/-- The validator stakes `v` tokens and the staker `s`. -/
def bothStaked (v s : Nat) : World :=
  let w := creditTokens (onVal (oneStaker giga) val1 fun x => { x with total := giga }) source 1000
  onVal (after (out giga) (after (out giga) w (stakeVal v)) (stakeSol s)) val1 fun x => { x with total := giga }
/-- The two harvests, with `pay` lamports coming from the rewards program. -/
def twice (pay : Nat) (w : World) (i : Ix) : World :=
  after (outPay giga pay) (after (outPay giga pay) w (holderIx cfg vault holder vaultAuth)) i

/-- `validator_stake_harvest_holder_rewards` -/
example : (twice (200 * giga) (bothStaked 100 100) (harvestVal cfg holder val1 auth1) auth1).lamports = 100 * giga ∧
    (twice (200 * giga) (bothStaked 100 100) (harvestVal cfg holder val1 auth1) cfg).lamports = 100 * giga + rent 192 ∧
    (valOf (twice (200 * giga) (bothStaked 100 100) (harvestVal cfg holder val1 auth1)) val1).del.lastHolder =
      1000000000 * scale ∧
    (twice (200 * giga) (bothStaked 100 100) (harvestVal cfg holder val1 auth1) vaultAuth).lamports = rent 0 := by
  decide +kernel
/-- `validator_stake_harvest_holder_rewards_wrapped`: both last seen values are set to `u128::MAX`. (The rewards program
measures from the pool's accumulator, which starts at zero, so the record is left at 40 000 000 per token.) -/
def wrappedHolder : World :=
  let w := after (outPay giga (4 * giga)) (bothStaked 50 50) (holderIx cfg vault holder vaultAuth)
  onVal w val1 fun x => { x with del := { x.del with lastHolder := U128 - 1 } }
example : (after (out giga) wrappedHolder (harvestVal cfg holder val1 auth1) auth1).lamports = 2000000000 ∧
    (after (out giga) wrappedHolder (harvestVal cfg holder val1 auth1) cfg).lamports =
      4000000000 - 2000000000 + rent 192 ∧
    (valOf (after (out giga) wrappedHolder (harvestVal cfg holder val1 auth1)) val1).del.lastHolder =
      40000000 * scale := by decide +kernel
/-- `validator_stake_harvest_holder_rewards_with_no_rewards_available` -/
example : (twice (4 * giga) (onVal (bothStaked 50 50) val1 fun x =>
      { x with del := { x.del with lastHolder := 40000000 * scale } }) (harvestVal cfg holder val1 auth1) auth1).lamports = 0 ∧
    (twice (4 * giga) (onVal (bothStaked 50 50) val1 fun x =>
      { x with del := { x.del with lastHolder := 40000000 * scale } }) (harvestVal cfg holder val1 auth1) cfg).lamports =
      4 * giga + rent 192 := by decide +kernel
/-- `validator_stake_harvest_holder_rewards_after_harvesting` -/
example : (twice 0 (twice (4 * giga) (bothStaked 50 50) (harvestVal cfg holder val1 auth1))
      (harvestVal cfg holder val1 auth1) auth1).lamports = 2000000000 ∧
    (twice 0 (twice (4 * giga) (bothStaked 50 50) (harvestVal cfg holder val1 auth1))
      (harvestVal cfg holder val1 auth1) cfg).lamports = 4 * giga - 2000000000 + rent 192 ∧
    (valOf (twice 0 (twice (4 * giga) (bothStaked 50 50) (harvestVal cfg holder val1 auth1))
      (harvestVal cfg holder val1 auth1)) val1).del.lastHolder = 40000000 * scale := by decide +kernel
/-- `validator_stake_fail_harvest_holder_rewards_with_wrong_authority` -/
example : errOf (outPay giga 0) (after (outPay giga (4 * giga)) (bothStaked 50 50) (holderIx cfg vault holder vaultAuth))
    (harvestVal cfg holder val1 fake) = some (.stake .invalidAuthority) := by decide +kernel
/-- `fail_harvest_holder_rewards_with_uninitialized_config` -/
example : errOf (out 0) (putJunk base cfg 192) (holderIx cfg vault holder vaultAuth) = some .uninitializedAccount := by
  decide +kernel
/-- `fail_harvest_holder_rewards_with_uninitialized_stake` -/
example : errOf (out 0) (after (out 0) (putJunk base val1 144) (holderIx cfg vault holder vaultAuth))
    (harvestVal cfg holder val1 auth1) = some .uninitializedAccount := by decide +kernel
/-- `fail_harvest_holder_rewards_with_wrong_config` -/
example : errOf (outPay giga (4 * giga)) (bothStaked 50 50) (holderIx cfgB vault holderB vaultAuthB) =
    some (.stake .incorrectVaultAccount) := by decide +kernel
/-- `sol_staker_stake_harvest_holder_rewards` -/
example : (twice (4 * giga) (bothStaked 60 40) harvestPlain staker).lamports = 1600000000 ∧
    (twice (4 * giga) (bothStaked 60 40) harvestPlain cfg).lamports = 4 * giga - 1600000000 + rent 192 ∧
    (solOf (twice (4 * giga) (bothStaked 60 40) harvestPlain) sol1).del.lastHolder = 40000000 * scale ∧
    (twice (4 * giga) (bothStaked 60 40) harvestPlain vaultAuth).lamports = rent 0 := by decide +kernel
/-- `sol_staker_stake_harvest_holder_rewards_with_no_rewards_available` -/
example : (twice 0 (bothStaked 50 50) harvestPlain staker).lamports = 0 ∧
    (twice 0 (bothStaked 50 50) harvestPlain cfg).lamports = rent 192 := by decide +kernel
/-- `sol_staker_stake_harvest_holder_rewards_after_harvesting` -/
example : (twice 0 (twice (4 * giga) (bothStaked 50 50) harvestPlain) harvestPlain staker).lamports = 2000000000 ∧
    (twice 0 (twice (4 * giga) (bothStaked 50 50) harvestPlain) harvestPlain cfg).lamports =
      4 * giga - 2000000000 + rent 192 ∧
    (solOf (twice 0 (twice (4 * giga) (bothStaked 50 50) harvestPlain) harvestPlain) sol1).del.lastHolder =
      40000000 * scale := by decide +kernel
/-- `sol_staker_stake_fail_harvest_holder_rewards_with_wrong_authority` -/
example : errOf (outPay giga 0) (after (outPay giga (4 * giga)) (bothStaked 50 50) (holderIx cfg vault holder vaultAuth))
    (ix .harvestSolStakerRewards [viewId, cfg, holder, sol1, fake, native1, val1, auth1, val1, auth1, Client.historyId, progId]
      []) = some (.stake .invalidAuthority) := by decide +kernel

/-! ## The unit tests of `/repo/program/src/state/mod.rs` 255-380 -/

/-- `BENCH_TOKEN_SUPPLY` -/
def benchSupply : Nat := 1000000000 * 1000000000

/-- The value computed, if there is one. -/
def valueOf (r : Res Nat) : Option Nat := match r with | .ok n => some n | .error _ => none

/-- `minimum_stake_rewards_per_token` -/
example : valueOf (rewardsPerToken 1 benchSupply) = some 1 ∧ valueOf (rewardsPerToken 0 benchSupply) = some 0 := by
  decide +kernel
/-- `maximum_stake_rewards_per_token` -/
example : (valueOf (rewardsPerToken (2 ^ 64 - 1) benchSupply)).isSome = true := by decide +kernel
/-- `minimum_eligible_rewards` -/
example : valueOf (eligibleRewards 1 0 benchSupply) = some 1 ∧ valueOf (eligibleRewards 0 0 benchSupply) = some 0 := by
  decide +kernel
/-- `minimum_eligible_rewards_with_one_token` -/
example : valueOf (eligibleRewards 1000000000 0 (benchSupply / 1000000000)) = some 1 ∧
    valueOf (eligibleRewards 999999999 0 (benchSupply / 1000000000)) = some 0 := by decide +kernel
/-- `minimum_eligible_rewards_with_smallest_fractional_token` -/
example : valueOf (eligibleRewards 1000000000000000000 0 (benchSupply / 1000000000000000000)) = some 1 ∧
    valueOf (eligibleRewards 999999999999999999 0 (benchSupply / 1000000000000000000)) = some 0 := by decide +kernel
/-- `maximum_eligible_rewards` -/
example : valueOf (eligibleRewards scale 0 benchSupply) = some benchSupply := by decide +kernel
/-- `wrapping_eligible_rewards` -/
example : valueOf (eligibleRewards 1000000000000000000 (2 ^ 128 - 1 - 1000000000000000000) benchSupply) =
      some 2000000000000000001 ∧
    valueOf (eligibleRewards 0 (2 ^ 128 - 1) benchSupply) = some 1 := by decide +kernel

end Verif.Replay
