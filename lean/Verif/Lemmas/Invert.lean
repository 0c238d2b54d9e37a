import Verif.Lemmas.Dispatch
/-!
# Which handler ran, by decoded instruction
-/

namespace Verif

variable {env : Env} {o : Oracle} {w w' : World} {ix : Ix}

/-- Close every case of `Ran` but the one of the decoded instruction. -/
macro "ran_cases" h:ident hi:ident : tactic =>
  `(tactic| (cases exec_ran $h <;> first
    | (rename_i h1 h2 h3; rw [$hi:ident] at h1; cases h1; done)
    | (rename_i h1 h2 h3 h4; rw [$hi:ident] at h1; cases h1; done)
    | (rename_i h1 h2 h3; rw [$hi:ident] at h1; cases h1; exact ⟨_, _, h2, h3⟩)
    | (rename_i h1 h2 h3 h4; rw [$hi:ident] at h1; cases h1; exact ⟨_, _, _, h2, h3, h4⟩)))

theorem ran_initializeConfig {s c d : List UInt8} {t b y : Nat} (h : exec env o w ix = .ok w')
    (hi : ix.decoded = some (.initializeConfig s c t b y d)) :
    ∃ (a : InitializeConfigAccts) (rest : List Key), ix.ctx.accts = a.list ++ rest ∧
      initializeConfig env ix.ctx w a
        { slashAuthority := env.keyOfBytes s, configAuthority := env.keyOfBytes c, cooldownTime := t, maxBps := b,
          syncRewards := y, dunaHash := d } = .ok w' := by
  ran_cases h hi

theorem ran_harvestSolStakerRewards (h : exec env o w ix = .ok w') (hi : ix.decoded = some .harvestSolStakerRewards) :
    ∃ (a : HarvestSolStakerRewardsAccts) (keeper : Key) (rest : List Key), ix.ctx.accts = a.list keeper ++ rest ∧
      a.keeperRecipient = (if keeper = progId then none else some keeper) ∧
      harvestSolStakerRewards env o w a = .ok w' := by
  ran_cases h hi

theorem ran_initializeValidatorStake (h : exec env o w ix = .ok w')
    (hi : ix.decoded = some .initializeValidatorStake) :
    ∃ (a : InitializeValidatorStakeAccts) (rest : List Key), ix.ctx.accts = a.list ++ rest ∧ initializeValidatorStake env ix.ctx w a = .ok w' := by
  ran_cases h hi

theorem ran_validatorStakeTokens {n : Nat} (h : exec env o w ix = .ok w')
    (hi : ix.decoded = some (.validatorStakeTokens n)) :
    ∃ (a : StakeTokensAccts) (rest : List Key), ix.ctx.accts = a.list ++ rest ∧ validatorStakeTokens env o ix.ctx w a n = .ok w' := by
  ran_cases h hi

theorem ran_harvestHolderRewards (h : exec env o w ix = .ok w')
    (hi : ix.decoded = some .harvestHolderRewards) :
    ∃ (a : HarvestHolderRewardsAccts) (rest : List Key), ix.ctx.accts = a.list ++ rest ∧ harvestHolderRewards env o w a = .ok w' := by
  ran_cases h hi

theorem ran_harvestValidatorRewards (h : exec env o w ix = .ok w')
    (hi : ix.decoded = some .harvestValidatorRewards) :
    ∃ (a : HarvestValidatorRewardsAccts) (rest : List Key), ix.ctx.accts = a.list ++ rest ∧ harvestValidatorRewards env w a = .ok w' := by
  ran_cases h hi

theorem ran_slashValidatorStake {n : Nat} (h : exec env o w ix = .ok w')
    (hi : ix.decoded = some (.slashValidatorStake n)) :
    ∃ (a : SlashAccts) (rest : List Key), ix.ctx.accts = a.listValidator ++ rest ∧ slashValidatorStake env ix.ctx w a n = .ok w' := by
  ran_cases h hi

theorem ran_setAuthority {t : AuthorityType} (h : exec env o w ix = .ok w')
    (hi : ix.decoded = some (.setAuthority t)) :
    ∃ (a : SetAuthorityAccts) (rest : List Key), ix.ctx.accts = a.list ++ rest ∧ setAuthority ix.ctx w a t = .ok w' := by
  ran_cases h hi

theorem ran_updateConfig {f : ConfigField} (h : exec env o w ix = .ok w')
    (hi : ix.decoded = some (.updateConfig f)) :
    ∃ (a : UpdateConfigAccts) (rest : List Key), ix.ctx.accts = a.list ++ rest ∧ updateConfig ix.ctx w a f = .ok w' := by
  ran_cases h hi

theorem ran_initializeSolStakerStake (h : exec env o w ix = .ok w')
    (hi : ix.decoded = some .initializeSolStakerStake) :
    ∃ (a : InitializeSolStakerStakeAccts) (rest : List Key), ix.ctx.accts = a.list ++ rest ∧ initializeSolStakerStake env o ix.ctx w a = .ok w' := by
  ran_cases h hi

theorem ran_solStakerStakeTokens {n : Nat} (h : exec env o w ix = .ok w')
    (hi : ix.decoded = some (.solStakerStakeTokens n)) :
    ∃ (a : StakeTokensAccts) (rest : List Key), ix.ctx.accts = a.list ++ rest ∧ solStakerStakeTokens env o ix.ctx w a n = .ok w' := by
  ran_cases h hi

theorem ran_unstakeTokens {n : Nat} (h : exec env o w ix = .ok w')
    (hi : ix.decoded = some (.unstakeTokens n)) :
    ∃ (a : UnstakeTokensAccts) (rest : List Key), ix.ctx.accts = a.list ++ rest ∧ unstakeTokens env o ix.ctx w a n = .ok w' := by
  ran_cases h hi

theorem ran_slashSolStakerStake {n : Nat} (h : exec env o w ix = .ok w')
    (hi : ix.decoded = some (.slashSolStakerStake n)) :
    ∃ (a : SlashAccts) (rest : List Key), ix.ctx.accts = a.listSolStaker ++ rest ∧ slashSolStakerStake env ix.ctx w a n = .ok w' := by
  ran_cases h hi

theorem ran_solStakerMoveTokens {n : Nat} (h : exec env o w ix = .ok w')
    (hi : ix.decoded = some (.solStakerMoveTokens n)) :
    ∃ (a : SolStakerMoveTokensAccts) (rest : List Key), ix.ctx.accts = a.list ++ rest ∧ solStakerMoveTokens env ix.ctx w a n = .ok w' := by
  ran_cases h hi

theorem ran_validatorOverrideStakedLamports {n : Nat} (h : exec env o w ix = .ok w')
    (hi : ix.decoded = some (.validatorOverrideStakedLamports n)) :
    ∃ (a : ValidatorOverrideStakedLamportsAccts) (rest : List Key), ix.ctx.accts = a.list ++ rest ∧ validatorOverrideStakedLamports env ix.ctx w a n = .ok w' := by
  ran_cases h hi

theorem ran_validatorSyncAuthority (h : exec env o w ix = .ok w')
    (hi : ix.decoded = some .validatorSyncAuthority) :
    ∃ (a : ValidatorSyncAuthorityAccts) (rest : List Key), ix.ctx.accts = a.list ++ rest ∧ validatorSyncAuthority w a = .ok w' := by
  ran_cases h hi

/-- Either stake instruction, in one statement. -/
theorem exec_staked {n : Nat} (h : exec env o w ix = .ok w')
    (hi : ix.decoded = some (.validatorStakeTokens n) ∨ ix.decoded = some (.solStakerStakeTokens n)) :
    ∃ (a : StakeTokensAccts) (rest : List Key), ix.ctx.accts = a.list ++ rest ∧
      ∃ c d hr rs rh w1 w2 w3 D' c1 d1 d2 ts td,
        StakedOk env o ix.ctx w w' a n c d hr rs rh w1 w2 w3 D' c1 d1 d2 ts td := by
  rcases hi with hi | hi
  · obtain ⟨a, rest, hl, h⟩ := ran_validatorStakeTokens h hi
    obtain ⟨c, s, hr, rs, rh, w1, w2, w3, c1, ts, td, _, _, S⟩ := validatorStakeTokens_ok h
    exact ⟨a, rest, hl, _, _, _, _, _, _, _, _, _, _, _, _, _, _, S⟩
  · obtain ⟨a, rest, hl, h⟩ := ran_solStakerStakeTokens h hi
    obtain ⟨c, s, hr, rs, rh, w1, w2, w3, c1, ts, td, _, _, S⟩ := solStakerStakeTokens_ok h
    exact ⟨a, rest, hl, _, _, _, _, _, _, _, _, _, _, _, _, _, _, S⟩

theorem StakedOk.data_w2 {ctx : Ctx} {a : StakeTokensAccts} {n : Nat} {c : Config} {d : Delegation} {hr : HolderRewards}
    {rs rh : Nat} {w1 w2 w3 : World} {D' : Data} {c1 : Config} {d1 d2 : Delegation} {ts td : TokenAccount}
    (S : StakedOk env o ctx w w' a n c d hr rs rh w1 w2 w3 D' c1 d1 d2 ts td) {k : Key} (h1 : k ≠ a.config)
    (h2 : k ≠ a.stake) : (w2 k).data = (w k).data := by
  rw [S.adj.data' k h1 h2, S.harv.data' k h1 h2]

theorem StakedOk.token {ctx : Ctx} {a : StakeTokensAccts} {n : Nat} {c : Config} {d : Delegation} {hr : HolderRewards}
    {rs rh : Nat} {w1 w2 w3 : World} {D' : Data} {c1 : Config} {d1 d2 : Delegation} {ts td : TokenAccount}
    (S : StakedOk env o ctx w w' a n c d hr rs rh w1 w2 w3 D' c1 d1 d2 ts td) {k : Key} {t : TokenAccount}
    (h : (w2 k).data = .token t) : (w k).data = .token t := by
  rw [← S.data_w2 ?_ ?_]; exact h
  · rintro rfl; rw [S.adj.config'] at h; simp at h
  · rintro rfl
    have := S.adj.del'
    rw [← S.adj.stake', h] at this; simp [Data.del?] at this

/-- Either slash instruction, in one statement. -/
theorem exec_slashed {n : Nat} (h : exec env o w ix = .ok w')
    (hi : ix.decoded = some (.slashValidatorStake n) ∨ ix.decoded = some (.slashSolStakerStake n)) :
    ∃ a : SlashAccts, ix.acct 0 = some a.config ∧ ix.acct 1 = some a.stake ∧ ix.acct 3 = some a.slashAuthority ∧
      a.mint ∈ ix.ctx.accts ∧
      ∃ c d hr rs rh w1 w2 D' c1 d1 d2, SlashedOk env ix.ctx w w' a n c d hr rs rh w1 w2 D' c1 d1 d2 := by
  rcases hi with hi | hi
  · obtain ⟨a, rest, hl, h⟩ := ran_slashValidatorStake h hi
    obtain ⟨c, s, hr, rs, rh, w1, w2, c1, _, _, S⟩ := slashValidatorStake_ok h
    refine ⟨a, ?_, ?_, ?_, ?_, _, _, _, _, _, _, _, _, _, _, _, S⟩ <;>
      simp [Ix.acct, hl, SlashAccts.listValidator]
  · obtain ⟨a, rest, hl, h⟩ := ran_slashSolStakerStake h hi
    obtain ⟨c, s, hr, rs, rh, w1, w2, c1, _, _, S⟩ := slashSolStakerStake_ok h
    refine ⟨a, ?_, ?_, ?_, ?_, _, _, _, _, _, _, _, _, _, _, _, S⟩ <;>
      simp [Ix.acct, hl, SlashAccts.listSolStaker]

/-- An unstake. -/
theorem exec_unstaked {n : Nat} (h : exec env o w ix = .ok w') (hi : ix.decoded = some (.unstakeTokens n)) :
    ∃ (a : UnstakeTokensAccts) (rest : List Key), ix.ctx.accts = a.list ++ rest ∧
      ∃ c d hr rs rh w1 w2 w3 D' c1 d1 d2 call ts td,
        UnstakedOk env o ix.ctx w w' a n c d hr rs rh w1 w2 w3 D' c1 d1 d2 call ts td := by
  obtain ⟨a, rest, hl, h⟩ := ran_unstakeTokens h hi
  obtain ⟨c, d, hr, rs, rh, w1, w2, w3, c1, D', call, ts, td, lam, S, _⟩ := unstakeTokens_ok h
  exact ⟨a, rest, hl, _, _, _, _, _, _, _, _, _, _, _, _, _, _, _, S⟩

end Verif
