import Verif.Lemmas.Balance
/-!
# Who can lose lamports, and the instructions as chains of steps
-/

namespace Verif

variable {env : Env} {o : Oracle} {w w' : World} {ix : Ix}

/-- An account that other programs cannot debit. -/
def Guarded (w : World) (k : Key) : Prop := k.ofProgram = true ∨ (w k).owner = progId

theorem ext_lamports (E : ExtStep w w') {k : Key} (h : Guarded w k) : (w k).lamports ≤ (w' k).lamports := by
  obtain ⟨h1, h2⟩ := E.2 k
  by_cases ho : (w k).owner = progId
  · rcases h1 ho with ⟨_, _, h⟩ | ⟨h, _⟩
    · exact h
    · omega
  · rcases h with h | h
    · exact ((h2 ho).1 h).2.2
    · exact absurd h ho

/-! ## Instructions as chains of steps -/

theorem exec_stake_steps (I : Inv env w) (O : o.Ok) {n : Nat} (h : exec env o w ix = .ok w')
    (hi : ix.decoded = some (.validatorStakeTokens n) ∨ ix.decoded = some (.solStakerStakeTokens n)) :
    ∃ (a : StakeTokensAccts) (rest : List Key) (c : Config) (d : Delegation) (hr : HolderRewards) (rs rh : Nat)
      (w1 w2 w3 : World) (D' : Data) (c1 : Config) (d1 d2 : Delegation) (ts td : TokenAccount),
      ix.ctx.accts = a.list ++ rest ∧ StakedOk env o ix.ctx w w' a n c d hr rs rh w1 w2 w3 D' c1 d1 d2 ts td ∧
      Inv env w1 ∧ Inv env w2 ∧ Inv env w3 ∧ ExtStep w2 w3 ∧ ExtStep w3 w' := by
  rcases hi with hi | hi
  · obtain ⟨a, rest, hl, hr⟩ := ran_validatorStakeTokens h hi
    obtain ⟨c, s, hr, rs, rh, w1, w2, w3, c1, ts, td, hs, hk, S⟩ := validatorStakeTokens_ok hr
    obtain ⟨I1, I2, I3, e3, e4, _⟩ := validatorStakeTokens_inv I O hs S
    exact ⟨a, rest, c, _, hr, rs, rh, w1, w2, w3, _, c1, _, _, ts, td, hl, S, I1, I2, I3, e3, e4⟩
  · obtain ⟨a, rest, hl, hr⟩ := ran_solStakerStakeTokens h hi
    obtain ⟨c, s, hr, rs, rh, w1, w2, w3, c1, ts, td, hs, hk, S⟩ := solStakerStakeTokens_ok hr
    obtain ⟨I1, I2, I3, e3, e4, _⟩ := solStakerStakeTokens_inv I O hs S
    exact ⟨a, rest, c, _, hr, rs, rh, w1, w2, w3, _, c1, _, _, ts, td, hl, S, I1, I2, I3, e3, e4⟩

theorem exec_slash_steps (I : Inv env w) {n : Nat} (h : exec env o w ix = .ok w')
    (hi : ix.decoded = some (.slashValidatorStake n) ∨ ix.decoded = some (.slashSolStakerStake n)) :
    ∃ (a : SlashAccts) (c : Config) (d : Delegation) (hr : HolderRewards) (rs rh : Nat)
      (w1 w2 : World) (D' : Data) (c1 : Config) (d1 d2 : Delegation),
      ix.acct 0 = some a.config ∧ ix.acct 1 = some a.stake ∧
      SlashedOk env ix.ctx w w' a n c d hr rs rh w1 w2 D' c1 d1 d2 ∧
      Inv env w1 ∧ ExtStep w1 w2 ∧ Inv env w2 := by
  rcases hi with hi | hi
  · obtain ⟨a, rest, hl, hr⟩ := ran_slashValidatorStake h hi
    obtain ⟨c, s, hr, rs, rh, w1, w2, c1, hs, hk, S⟩ := slashValidatorStake_ok hr
    obtain ⟨I1, e, I2, _⟩ := slashValidatorStake_inv I hs S
    exact ⟨a, c, _, hr, rs, rh, w1, w2, _, c1, _, _, by simp [Ix.acct, hl, SlashAccts.listValidator],
      by simp [Ix.acct, hl, SlashAccts.listValidator], S, I1, e, I2⟩
  · obtain ⟨a, rest, hl, hr⟩ := ran_slashSolStakerStake h hi
    obtain ⟨c, s, hr, rs, rh, w1, w2, c1, hs, hk, S⟩ := slashSolStakerStake_ok hr
    obtain ⟨I1, e, I2, _⟩ := slashSolStakerStake_inv I hs S
    exact ⟨a, c, _, hr, rs, rh, w1, w2, _, c1, _, _, by simp [Ix.acct, hl, SlashAccts.listSolStaker],
      by simp [Ix.acct, hl, SlashAccts.listSolStaker], S, I1, e, I2⟩

theorem exec_unstake_steps (I : Inv env w) (O : o.Ok) {n : Nat} (h : exec env o w ix = .ok w')
    (hi : ix.decoded = some (.unstakeTokens n)) :
    ∃ (a : UnstakeTokensAccts) (rest : List Key) (c : Config) (d : Delegation) (hr : HolderRewards) (rs rh : Nat)
      (w1 w2 w3 : World) (D' : Data) (c1 : Config) (d1 d2 : Delegation) (call : RewardsCall) (ts td : TokenAccount),
      ix.ctx.accts = a.list ++ rest ∧ UnstakedOk env o ix.ctx w w' a n c d hr rs rh w1 w2 w3 D' c1 d1 d2 call ts td ∧
      Inv env w1 ∧ Inv env w2 ∧ Inv env w3 ∧ ExtStep w2 w3 ∧ ExtStep w3 w' := by
  obtain ⟨a, rest, hl, hr⟩ := ran_unstakeTokens h hi
  obtain ⟨c, d, hr, rs, rh, w1, w2, w3, c1, D', call, ts, td, lam, S, K⟩ := unstakeTokens_ok hr
  obtain ⟨I1, I2, I3, e3, e4, _⟩ := unstakeTokens_inv I O S K
  exact ⟨a, rest, c, _, hr, rs, rh, w1, w2, w3, _, c1, _, _, call, ts, td, hl, S, I1, I2, I3, e3, e4⟩

/-! ## Lamports -/

theorem Retotaled.lamports_mono {ck hk auth sk : Key} {v : ValidatorStake} {total : Nat} {c : Config}
    {hr : HolderRewards} {rs rh : Nat} {w1 : World} {c1 : Config} {d1 d2 : Delegation}
    (R : Retotaled env w w' ck hk auth sk v total c hr rs rh w1 c1 d1 d2) (k : Key) (h : k ≠ ck) :
    (w k).lamports ≤ (w' k).lamports := by
  rw [R.adj.lamports]; exact R.harv.lamports_mono k h

theorem Left.lamports_mono {a : HarvestSolStakerRewardsAccts} {s : SolStakerStake} (L : Left env w w' a s)
    (k : Key) (h : k ≠ a.config) : (w k).lamports ≤ (w' k).lamports := by
  cases L with
  | stay _ _ e => rw [e]
  | leave _ _ _ R => exact R.lamports_mono k h

theorem Joined.lamports_mono {a : HarvestSolStakerRewardsAccts} {dv vote : Key} {ds l : Nat}
    (J : Joined env w w' a dv ds vote l) (k : Key) (h : k ≠ a.config) : (w k).lamports ≤ (w' k).lamports := by
  cases J with
  | undelegated _ e => rw [e]
  | absent _ _ _ e => rw [e]
  | join _ _ R => exact R.lamports_mono k h

/-- The instructions that call the rewards program. -/
def CallsRewards (i : StakeInstruction) : Prop :=
  (∃ n, i = .validatorStakeTokens n) ∨ (∃ n, i = .solStakerStakeTokens n) ∨ (∃ n, i = .unstakeTokens n) ∨
    i = .harvestHolderRewards

/-- Only the config and, in HarvestHolderRewards, its vault authority can lose lamports. -/
theorem exec_debit (I : Inv env w) (O : o.Ok) (h : exec env o w ix = .ok w') {ck : Key} (hck : ix.config = some ck) {k : Key}
    (h1 : k ≠ ck) (h2 : ix.decoded = some .harvestHolderRewards → k ≠ env.vaultAuth ck)
    (h3 : Guarded w k ∨ (∀ i, ix.decoded = some i → ¬ CallsRewards i) ∨ o.Spares k) : (w k).lamports ≤ (w' k).lamports := by
  cases exec_ran h with
  | initializeConfig a s c hh t b y rest hi hl hr =>
    obtain ⟨w1, bb, t', _, _, hw1, _, _, _, _, _, _, _, hb, _, _, _, _, rfl⟩ := initializeConfig_ok hr
    rcases hw1 with ⟨_, rfl⟩ | ⟨_, rfl⟩ <;> simp
  | initializeValidatorStake a rest hi hl hr =>
    obtain ⟨c, wd, _, _, _, _, _, _, hb, _, _, rfl⟩ := initializeValidatorStake_ok hr
    simp
  | initializeSolStakerStake a rest hi hl hr =>
    obtain ⟨c, v, vs, au, _, _, _, _, _, _, _, _, hk1, hvs, hk2, hb, _, _, _, _, _, rfl⟩ := initializeSolStakerStake_ok hr
    simp
  | setAuthority a t rest hi hl hr =>
    obtain ⟨c, c', _, _, hc, rfl, _⟩ := setAuthority_ok hr
    simp
  | updateConfig a f rest hi hl hr =>
    obtain ⟨c, _, hc, _, _, _, _, rfl⟩ := updateConfig_ok hr
    simp
  | validatorSyncAuthority a rest hi hl hr =>
    obtain ⟨s, wd, _, _, _, hs, _, _, _, rfl⟩ := validatorSyncAuthority_ok hr
    simp
  | validatorStakeTokens a n rest hi hl hr =>
    have hg : Guarded w k ∨ o.Spares k := h3.imp_right fun h => h.resolve_left fun h => h _ hi (Or.inl ⟨n, rfl⟩)
    have hc : a.config = ck := by simpa [Ix.config, hi, Ix.acct, hl, StakeTokensAccts.list] using hck
    obtain ⟨c, s, hr, rs, rh, w1, w2, w3, c1, ts, td, hs, _, S⟩ := validatorStakeTokens_ok hr
    obtain ⟨I1, I2, I3, e3, e4, _⟩ := validatorStakeTokens_inv I O hs S
    have := hg.elim (fun hg => ext_lamports e4 (k := k)
      (hg.imp id fun ho => by rw [S.transfer.owner, S.adj.owner, S.harv.owner]; exact ho)) fun P => P.deposit S.deposit
    rw [S.transfer.lamports, S.adj.lamports] at this
    exact (S.harv.lamports_mono k (hc ▸ h1)).trans this
  | solStakerStakeTokens a n rest hi hl hr =>
    have hg : Guarded w k ∨ o.Spares k := h3.imp_right fun h => h.resolve_left fun h => h _ hi (Or.inr (Or.inl ⟨n, rfl⟩))
    have hc : a.config = ck := by simpa [Ix.config, hi, Ix.acct, hl, StakeTokensAccts.list] using hck
    obtain ⟨c, s, hr, rs, rh, w1, w2, w3, c1, ts, td, hs, _, S⟩ := solStakerStakeTokens_ok hr
    obtain ⟨I1, I2, I3, e3, e4, _⟩ := solStakerStakeTokens_inv I O hs S
    have := hg.elim (fun hg => ext_lamports e4 (k := k)
      (hg.imp id fun ho => by rw [S.transfer.owner, S.adj.owner, S.harv.owner]; exact ho)) fun P => P.deposit S.deposit
    rw [S.transfer.lamports, S.adj.lamports] at this
    exact (S.harv.lamports_mono k (hc ▸ h1)).trans this
  | unstakeTokens a n rest hi hl hr =>
    have hg : Guarded w k ∨ o.Spares k := h3.imp_right fun h => h.resolve_left fun h => h _ hi (Or.inr (Or.inr (Or.inl ⟨n, rfl⟩)))
    have hc : a.config = ck := by simpa [Ix.config, hi, Ix.acct, hl, UnstakeTokensAccts.list] using hck
    obtain ⟨c, d, hr, rs, rh, w1, w2, w3, c1, D', call, ts, td, lam, S, K⟩ := unstakeTokens_ok hr
    obtain ⟨I1, I2, I3, e3, e4, _⟩ := unstakeTokens_inv I O S K
    have := hg.elim (fun hg => ext_lamports e3 (k := k)
      (hg.imp id fun ho => by rw [S.adj.owner, S.harv.owner]; exact ho)) fun P => P.withdraw S.withdraw
    rw [S.adj.lamports] at this
    rw [S.transfer.lamports]
    exact (S.harv.lamports_mono k (hc ▸ h1)).trans this
  | slashValidatorStake a n rest hi hl hr =>
    have hc : a.config = ck := by simpa [Ix.config, hi, Ix.acct, hl, SlashAccts.listValidator] using hck
    obtain ⟨c, s, hr, rs, rh, w1, w2, c1, _, _, S⟩ := slashValidatorStake_ok hr
    rw [S.adj.lamports]
    refine (S.harv.lamports_mono k (hc ▸ h1)).trans (Nat.le_of_eq ?_)
    rcases S.burn with ⟨_, e⟩ | ⟨_, t, m, B⟩
    · rw [e]
    · rw [B.eq]; simp
  | slashSolStakerStake a n rest hi hl hr =>
    have hc : a.config = ck := by simpa [Ix.config, hi, Ix.acct, hl, SlashAccts.listSolStaker] using hck
    obtain ⟨c, s, hr, rs, rh, w1, w2, c1, _, _, S⟩ := slashSolStakerStake_ok hr
    rw [S.adj.lamports]
    refine (S.harv.lamports_mono k (hc ▸ h1)).trans (Nat.le_of_eq ?_)
    rcases S.burn with ⟨_, e⟩ | ⟨_, t, m, B⟩
    · rw [e]
    · rw [B.eq]; simp
  | harvestHolderRewards a rest hi hl hr =>
    have hg : Guarded w k ∨ o.Spares k := h3.imp_right fun h => h.resolve_left fun h => h _ hi (Or.inr (Or.inr (Or.inr rfl)))
    have hc : a.config = ck := by simpa [Ix.config, hi, Ix.acct, hl, HarvestHolderRewardsAccts.list] using hck
    subst hc
    obtain ⟨c, w1, w2, c2, call, hcO, hc, hvault, hcurve, hpda, hhO, hhk, hlast, hw1, hcall, _, _, hc2, hrent, hown, ho',
      hc', hd', hl', _⟩ := harvestHolderRewards_ok hr
    have hb : c.bump = env.vaultBump a.config := (I.config _ c (configAt_eq.2 ⟨hcO, hc⟩)).bump
    have hp : a.vaultPda = env.vaultAuth a.config := by rw [hpda, hb]; rfl
    rw [hl', if_neg h1, if_neg (by rw [hp]; exact h2 hi)]
    have W1 : w1.WF := by
      rw [hw1]
      refine ⟨fun k => ⟨by simpa using (I.wf.1 k).1, ?_⟩, by simpa using I.wf.2⟩
      rw [World.setD_data]
      split_ifs
      · obtain ⟨q1, q2, q3, q4, q5, q6, q7⟩ := wf_config I hc
        have := (I.wf.1 a.config).1
        exact ⟨q1, q2, q3, by simp only [Config.settled]; omega, accNow_lt _ _, q6, q7⟩
      · exact (I.wf.1 k).2
    have := hg.elim (fun hg => ext_lamports (O.harvestRewards W1 hcall) (k := k)
      (hg.imp id fun ho => by rw [hw1]; simpa using ho)) fun P => P.harvestRewards hcall
    rw [hw1] at this
    simpa using this
  | harvestValidatorRewards a rest hi hl hr =>
    have hc : a.config = ck := by simpa [Ix.config, hi, Ix.acct, hl, HarvestValidatorRewardsAccts.list] using hck
    obtain ⟨c, s, hr, rs, rh, _, _, _, _, H⟩ := harvestValidatorRewards_ok hr
    exact H.lamports_mono k (hc ▸ h1)
  | harvestSolStakerRewards a keeper rest hi hl hk hr =>
    have hc : a.config = ck := by simpa [Ix.config, hi, Ix.acct, hl, HarvestSolStakerRewardsAccts.list] using hck
    obtain ⟨s, v, c, hr, rs, rh, w1, B, H⟩ := harvestSolStakerRewards_ok I.wf hr
    have hne : k ≠ a.config := hc ▸ h1
    cases H with
    | noSync _ _ H hw => subst hw; exact H.lamports_mono k hne
    | sync _ _ H L J hd1 hd2 A =>
      rw [A.lamports]
      exact (H.lamports_mono k hne).trans ((L.lamports_mono k hne).trans (J.lamports_mono k hne))
  | solStakerMoveTokens a n rest hi hl hr =>
    have hc : a.config = ck := by simpa [Ix.config, hi, Ix.acct, hl, SolStakerMoveTokensAccts.list] using hck
    obtain ⟨c, c', s, t, hr, rs, rh, rs', rh', w1, w2, wx, cs, ct, ds, dt, ds', dt', M⟩ := solStakerMoveTokens_ok hr
    have hne : k ≠ a.config := hc ▸ h1
    rw [M.adjT.lamports, M.adjS.lamports]
    exact (M.harvS.lamports_mono k hne).trans (M.harvT.lamports_mono k hne)
  | validatorOverrideStakedLamports a n rest hi hl hr =>
    have hc : a.config = ck := by
      simpa [Ix.config, hi, Ix.acct, hl, ValidatorOverrideStakedLamportsAccts.list] using hck
    obtain ⟨c, s, hr, rs, rh, w1, c1, hcO, hsO, hs, hk, _, _, _, H, A⟩ := validatorOverrideStakedLamports_ok hr
    rw [A.lamports]
    exact H.lamports_mono k (hc ▸ h1)

end Verif
