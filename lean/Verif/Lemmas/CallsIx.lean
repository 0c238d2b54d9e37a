import Verif.Lemmas.Calls
/-!
# Lemmas of C112: the calls of each instruction
-/

namespace Verif

variable {env : Env} {o : Oracle} {ctx : Ctx} {w w' : World}

/-- The calls `ms` lead from one state to the other, and are about accounts that were handed to the instruction. -/
def Does (o : Oracle) (ctx : Ctx) (w : World) (l : List Key) (ms : List Made) (w' : World) : Prop :=
  Trace o ctx w ms w' ∧ ∀ m ∈ ms, ∀ k ∈ m.op.accounts, k ∈ l

theorem Trace.own {ms : List Made} {w1 : World} (h : Own w w1) (t : Trace o ctx w1 ms w') : Trace o ctx w ms w' := by
  cases t with
  | done h' => exact .done (h.trans h')
  | call h1 h2 h3 => exact .call (h.trans h1) h2 h3

theorem performs {program : Key} {op : Op} {lent : Bool} {r : Res World} (h : r = .ok w')
    (hs : (Made.mk program op lent).signed ctx = true)
    (hr : (Made.mk program op lent).perform o ctx w = if (Made.mk program op lent).signed ctx then r else .error .cpi) :
    (Made.mk program op lent).perform o ctx w = .ok w' := by
  rw [hr, if_pos hs, h]

theorem stake_does {a : StakeTokensAccts} {amount dec : Nat} {w2 w3 : World} (h1 : Own w w2)
    (h2 : tokenTransfer ctx w2 a.sourceTokenAccount a.mint a.vault a.sourceTokenAccountAuthority
      (ctx.signer a.sourceTokenAccountAuthority) amount dec = .ok w3)
    (h3 : o.deposit w3 (a.call amount) = .ok w') :
    Does o ctx w a.list
      [⟨tokenId, .transfer a.sourceTokenAccount a.mint a.vault a.sourceTokenAccountAuthority amount dec, false⟩,
        ⟨rewardsId, .deposit (a.call amount), true⟩] w' := by
  have hs : ctx.signer a.sourceTokenAccountAuthority = true := by
    simp only [tokenTransfer, bind_ok, require_ok, exists_unit] at h2
    obtain ⟨_, _, _, _, _, _, _, _, _, hs, _⟩ := h2
    exact hs
  rw [hs] at h2
  refine ⟨.call h1 (performs h2 ?_ rfl) (.call (.refl _) (performs h3 rfl rfl) (.done (.refl _))), ?_⟩
  · simp [Made.signed, Op.signer, hs]
  · simp [Op.accounts, StakeTokensAccts.call, StakeTokensAccts.list]

theorem validatorStakeTokens_does {a : StakeTokensAccts} {amount : Nat} (h : validatorStakeTokens env o ctx w a amount = .ok w') :
    ∃ c dec, configAt w a.config = some c ∧ a.vault = c.vault ∧ a.vaultPda = env.vaultAuth a.config ∧
      a.vaultHolderRewards = .holderRewardsPda (env.vaultAuth a.config) ∧ Does o ctx w a.list
      [⟨tokenId, .transfer a.sourceTokenAccount a.mint a.vault a.sourceTokenAccountAuthority amount dec, false⟩,
        ⟨rewardsId, .deposit (a.call amount), true⟩] w' := by
  simp only [validatorStakeTokens, bind_ok, require_ok, exists_unit, unpackConfig_ok, writeDel] at h
  obtain ⟨hcO, c, hc, hsO, _, s, hs, hsk, w1, hw1, hpda, hvault, _, tv, htv, hmint, _, m, hm, hpos, d, hd, _, _,
    wx, hx, w2, hw2, ho1, w3, hw3, ho2, hdep⟩ := h
  obtain ⟨_, _, _, _, _, H⟩ := harvest_ok hw1
  exact ⟨c, _, configAt_eq.2 ⟨hcO, hc⟩, hvault, hpda, H.hk_eq,
    stake_does ((harvest_own hw1).trans <| (setData_own hx).trans (syncEffective_own hw2)) hw3 hdep⟩

theorem solStakerStakeTokens_does {a : StakeTokensAccts} {amount : Nat} (h : solStakerStakeTokens env o ctx w a amount = .ok w') :
    ∃ c dec, configAt w a.config = some c ∧ a.vault = c.vault ∧ a.vaultPda = env.vaultAuth a.config ∧
      a.vaultHolderRewards = .holderRewardsPda (env.vaultAuth a.config) ∧ Does o ctx w a.list
      [⟨tokenId, .transfer a.sourceTokenAccount a.mint a.vault a.sourceTokenAccountAuthority amount dec, false⟩,
        ⟨rewardsId, .deposit (a.call amount), true⟩] w' := by
  simp only [solStakerStakeTokens, bind_ok, require_ok, exists_unit, unpackConfig_ok, writeDel] at h
  obtain ⟨hcO, c, hc, hsO, _, s, hs, hsk, w1, hw1, hpda, hvault, _, tv, htv, _, hmint, _, m, hm, hpos, d, hd, _, _,
    wx, hx, w2, hw2, ho1, w3, hw3, ho2, hdep⟩ := h
  obtain ⟨_, _, _, _, _, H⟩ := harvest_ok hw1
  exact ⟨c, _, configAt_eq.2 ⟨hcO, hc⟩, hvault, hpda, H.hk_eq,
    stake_does ((harvest_own hw1).trans <| (setData_own hx).trans (syncEffective_own hw2)) hw3 hdep⟩

theorem unstakeTokens_does {a : UnstakeTokensAccts} {amount : Nat} (h : unstakeTokens env o ctx w a amount = .ok w') :
    ∃ c dec, configAt w a.config = some c ∧ a.vault = c.vault ∧ a.vaultPda = env.vaultAuth a.config ∧
      a.vaultHolderRewards = .holderRewardsPda (env.vaultAuth a.config) ∧ Does o ctx w a.list
      [⟨rewardsId, .withdraw (a.call amount), true⟩,
        ⟨tokenId, .transfer a.vault a.mint a.destinationTokenAccount a.vaultPda amount dec, true⟩] w' := by
  simp only [unstakeTokens, bind_ok, require_ok, exists_unit, unpackConfig_ok, writeDel, Prod.exists] at h
  obtain ⟨hcO, c, hc, hvault, hdest, _, tv, htv, hpda, hsO, _, k, l, lmin, hview, hsk, d, hd, hsig, hauth, hmint, _, m, hm, w1, hw1,
    d', hd', hcool, hle, _, _, hlim, _, _, wx, hx, w2, hw2, ho1, w3, hw3, ho2, hw'⟩ := h
  obtain ⟨_, _, _, _, _, H⟩ := harvest_ok hw1
  refine ⟨c, _, configAt_eq.2 ⟨hcO, hc⟩, hvault, hpda, H.hk_eq,
    .call ((harvest_own hw1).trans <| (setData_own hx).trans (syncEffective_own hw2)) (performs hw3 rfl rfl)
      (.call (.refl _) (performs hw' rfl rfl) (.done (.refl _))), ?_⟩
  simp [Op.accounts, UnstakeTokensAccts.call, UnstakeTokensAccts.list]

/-- What slashing asks of the token program. -/
theorem slashDelegation_does {view : World} {ck sk mk vk ak tk : Key} {amount : Nat} {d : Delegation}
    (hd : (w sk).data.del? = some d) (h : slashDelegation ctx view w ck sk mk vk ak tk amount = .ok w') :
    tk = tokenId ∧ ∃ ms, Trace o ctx w ms w' ∧
      ((d.staked = 0 ∧ ms = []) ∨
        (0 < d.staked ∧ ∃ dec, ms = [⟨tokenId, .burn vk mk ak (min amount d.staked) dec, true⟩])) := by
  simp only [slashDelegation, bind_ok, require_ok, exists_unit, readDel_ok, writeDel, ite_ok, pure_ok] at h
  obtain ⟨htk, hpos, d', hd', _, _, w1, hw1, h⟩ := h
  rw [hd] at hd'; cases hd'
  refine ⟨htk, ?_⟩
  rcases h with ⟨hp, _, m, hm, ho, hb⟩ | ⟨hp, rfl⟩
  · exact ⟨_, .call (setData_own hw1) (performs hb rfl rfl) (.done (.refl _)), .inr ⟨by omega, _, rfl⟩⟩
  · exact ⟨_, .done (setData_own hw1), .inl ⟨by omega, rfl⟩⟩

theorem Trace.end_own {ms : List Made} {w1 : World} (t : Trace o ctx w ms w1) (h : Own w1 w') : Trace o ctx w ms w' := by
  induction t with
  | done h' => exact .done (h'.trans h)
  | call h1 h2 _ ih => exact .call h1 h2 (ih h)

theorem slashValidatorStake_does {a : SlashAccts} {amount : Nat} (h : slashValidatorStake env ctx w a amount = .ok w') :
    ∃ c d ms, configAt w a.config = some c ∧ a.vault = c.vault ∧ a.vaultAuthority = .vaultPda a.config c.bump ∧
      a.tokenProgram = tokenId ∧ stakeAt w a.stake = some d ∧ Trace o ctx w ms w' ∧
      ((d.staked = 0 ∧ ms = []) ∨ (0 < d.staked ∧ ∃ dec,
        ms = [⟨tokenId, .burn a.vault a.mint a.vaultAuthority (min amount d.staked) dec, true⟩])) := by
  simp only [slashValidatorStake, bind_ok, require_ok, exists_unit, unpackConfig_ok, unpackValidator_ok, createVaultPda_ok] at h
  obtain ⟨hcO, c, hc, hsO, _, s, hs, hsk, _, ⟨hcurve, rfl⟩, hva, w1, hw1, hset, hauth, hsig, hvault, _, tv, htv, hmint,
    wx, hwx, hw'⟩ := h
  obtain ⟨c0, d0, hr, rs, rh, H⟩ := harvest_ok hw1
  obtain ⟨rfl, hv'⟩ := H.validator' hs
  obtain ⟨htk, ms, T, hms⟩ := slashDelegation_does (o := o) H.del' hwx
  exact ⟨c, s.del, ms, configAt_eq.2 ⟨hcO, hc⟩, hvault, hva, htk, stakeAt_eq.2 ⟨hsO, by rw [hs]; rfl⟩,
    (T.own (harvest_own hw1)).end_own (syncEffective_own hw'), hms⟩

theorem slashSolStakerStake_does {a : SlashAccts} {amount : Nat} (h : slashSolStakerStake env ctx w a amount = .ok w') :
    ∃ c d ms, configAt w a.config = some c ∧ a.vault = c.vault ∧ a.vaultAuthority = .vaultPda a.config c.bump ∧
      a.tokenProgram = tokenId ∧ stakeAt w a.stake = some d ∧ Trace o ctx w ms w' ∧
      ((d.staked = 0 ∧ ms = []) ∨ (0 < d.staked ∧ ∃ dec,
        ms = [⟨tokenId, .burn a.vault a.mint a.vaultAuthority (min amount d.staked) dec, true⟩])) := by
  simp only [slashSolStakerStake, bind_ok, require_ok, exists_unit, unpackConfig_ok, unpackSolStaker_ok, createVaultPda_ok] at h
  obtain ⟨hcO, c, hc, hsO, _, s, hs, hsk, _, ⟨hcurve, rfl⟩, hva, w1, hw1, hset, hauth, hsig, hvault, _, tv, htv, hmint,
    wx, hwx, hw'⟩ := h
  obtain ⟨c0, d0, hr, rs, rh, H⟩ := harvest_ok hw1
  obtain ⟨rfl, hv'⟩ := H.solStaker' hs
  obtain ⟨htk, ms, T, hms⟩ := slashDelegation_does (o := o) H.del' hwx
  exact ⟨c, s.del, ms, configAt_eq.2 ⟨hcO, hc⟩, hvault, hva, htk, stakeAt_eq.2 ⟨hsO, by rw [hs]; rfl⟩,
    (T.own (harvest_own hw1)).end_own (syncEffective_own hw'), hms⟩

theorem harvestHolderRewards_does {a : HarvestHolderRewardsAccts} (h : harvestHolderRewards env o w a = .ok w') :
    ∃ c r, configAt w a.config = some c ∧ a.vaultPda = .vaultPda a.config c.bump ∧ r.owner = a.vaultPda ∧
      r.holderRewards = .holderRewardsPda a.vaultPda ∧ (r.pool = a.holderRewardsPool ∧ r.poolToken = a.holderRewardsPoolTokenAccount ∧
        r.holderRewards = a.vaultHolderRewards ∧ r.mint = a.mint) ∧ Does o ctx w a.list [⟨rewardsId, .harvestRewards r, true⟩] w' := by
  simp only [harvestHolderRewards, bind_ok, require_ok, exists_unit, unpackConfig_ok, createVaultPda_ok] at h
  obtain ⟨hcO, c, hc, hvault, _, tv, htv, _, vs, ⟨hcurve, rfl⟩, hpda, hhO, hhk, c1, hc1, w1, hw1, w2, hw2, w4,
    hw4, c2, hc2, hw'⟩ := h
  refine ⟨c, _, configAt_eq.2 ⟨hcO, hc⟩, hpda, rfl, hhk, ⟨rfl, rfl, rfl, rfl⟩,
    .call (setData_own hw1) (performs hw2 rfl rfl) (.done ((transferExcess_own hw4).trans (setData_own hw'))), ?_⟩
  simp [Op.accounts, HarvestHolderRewardsAccts.list]

theorem harvestSolStakerRewards_does {a : HarvestSolStakerRewardsAccts} (h : harvestSolStakerRewards env o w a = .ok w') :
    a.solStakeViewProgram = viewId ∧
      Trace o ctx w [⟨viewId, .view a.solStakerNativeStake a.sysvarStakeHistory, false⟩] w' := by
  simp only [harvestSolStakerRewards, bind_ok, require_ok, exists_unit, ite_ok, pure_ok, Prod.exists] at h
  obtain ⟨hcO, _, _, hsO, _, s, hs, hsk, _, hnat, _, hprog, _, v, hv, hkp, w1, hw1, h⟩ := h
  refine ⟨hprog, ?_⟩
  refine .call (.refl _) (performs (r := (o.view a.solStakerNativeStake).map fun _ => w) (w' := w) (by rw [hv]; rfl) rfl rfl)
    (.done ?_)
  rcases h with ⟨hreq, rfl⟩ | ⟨hreq, w2, hw2, w3, vote, l, hw3, s3, hs3, w4, hw4, hw'⟩
  · exact harvest_own hw1
  · exact (harvest_own hw1).trans <| (leaveValidator_own hw2).trans <| (joinValidator_own hw3).trans <|
      (setData_own hw4).trans (syncEffective_own hw')

theorem initializeConfig_does {a : InitializeConfigAccts} {x : InitializeConfigArgs} (h : initializeConfig env ctx w a x = .ok w') :
    a.vaultPda = env.vaultAuth a.config ∧ Trace o ctx w [⟨systemId, .assign a.vaultPda, true⟩] w' := by
  simp only [initializeConfig, bind_ok, require_ok, exists_unit] at h
  obtain ⟨_, _, hpda, _, w1, hw1, _, _, _, _, _, _, _, _, _, _, _, _, _, hw'⟩ := h
  exact ⟨hpda, .call (.refl _) (performs hw1 rfl rfl) (.done (setData_own hw'))⟩

theorem initializeValidatorStake_does {a : InitializeValidatorStakeAccts} (h : initializeValidatorStake env ctx w a = .ok w') :
    Trace o ctx w [⟨systemId, .allocate a.validatorStake validatorLen, true⟩, ⟨systemId, .assign a.validatorStake, true⟩] w' := by
  simp only [initializeValidatorStake, bind_ok, require_ok, exists_unit] at h
  obtain ⟨_, _, _, _, _, _, _, _, _, w1, hw1, w2, hw2, hw'⟩ := h
  exact .call (.refl _) (performs hw1 rfl rfl) (.call (.refl _) (performs hw2 rfl rfl) (.done (setData_own hw')))

theorem initializeSolStakerStake_does {a : InitializeSolStakerStakeAccts}
    (h : initializeSolStakerStake env o ctx w a = .ok w') :
    a.solStakeViewProgram = viewId ∧
      Trace o ctx w [⟨viewId, .view a.solStakerNativeStake a.sysvarStakeHistory, false⟩,
        ⟨systemId, .allocate a.solStakerStake solStakerLen, true⟩, ⟨systemId, .assign a.solStakerStake, true⟩] w' := by
  simp only [initializeSolStakerStake, bind_ok, require_ok, exists_unit] at h
  obtain ⟨_, _, _, hprog, v, hv, _, _, _, _, _, _, _, _, _, _, _, _, _, w1, hw1, w2, hw2, w3, hw3, _, _, hw'⟩ := h
  refine ⟨hprog, ?_⟩
  exact .call (.refl _) (performs (r := (o.view a.solStakerNativeStake).map fun _ => w) (w' := w) (by rw [hv]; rfl) rfl rfl) <|
    .call (.refl _) (performs hw1 rfl rfl) (.call (.refl _) (performs hw2 rfl rfl)
      (.done ((setData_own hw3).trans (setData_own hw'))))

/-! ## Instructions without calls -/

theorem harvestValidatorRewards_own {a : HarvestValidatorRewardsAccts} (h : harvestValidatorRewards env w a = .ok w') : Own w w' := by
  simp only [harvestValidatorRewards, bind_ok, require_ok, exists_unit] at h
  obtain ⟨_, _, _, _, _, _, _, _, _, _, h⟩ := h
  exact harvest_own h

theorem setAuthority_own {a : SetAuthorityAccts} {t : AuthorityType} (h : setAuthority ctx w a t = .ok w') : Own w w' := by
  cases t <;>
  · simp only [setAuthority, bind_ok, require_ok, exists_unit] at h
    obtain ⟨_, _, _, _, _, _, h⟩ := h
    exact setData_own h

theorem updateConfig_own {a : UpdateConfigAccts} {f : ConfigField} (h : updateConfig ctx w a f = .ok w') : Own w w' := by
  cases f <;>
  · simp only [updateConfig, bind_ok, require_ok, exists_unit] at h
    obtain ⟨_, _, _, _, _, _, h⟩ := h
    first | exact setData_own h | exact setData_own h.2

theorem solStakerMoveTokens_own {a : SolStakerMoveTokensAccts} {amount : Nat}
    (h : solStakerMoveTokens env ctx w a amount = .ok w') : Own w w' := by
  simp only [solStakerMoveTokens, bind_ok, require_ok, exists_unit, writeDel] at h
  obtain ⟨hcO, _, _, hsig, hsO, _, s, hs, hsk, hauth, w1, hw1, htO, _, hne, t, ht, htk, w2, hw2, ds, hds, dt, hdt, hauth',
    _, _, _, _, w3, h3, w4, h4, w5, hw5, hw'⟩ := h
  exact (harvest_own hw1).trans <| (harvest_own hw2).trans <| (setData_own h3).trans <| (setData_own h4).trans <|
    (syncEffective_own hw5).trans (syncEffective_own hw')

theorem validatorOverride_own {a : ValidatorOverrideStakedLamportsAccts} {n : Nat}
    (h : validatorOverrideStakedLamports env ctx w a n = .ok w') : Own w w' := by
  simp only [validatorOverrideStakedLamports, bind_ok, require_ok, exists_unit] at h
  obtain ⟨hcO, c, hc, hset, hauth, hsig, hsO, _, s, hs, hsk, w1, hw1, s1, hs1, w2, h2, hw'⟩ := h
  exact (harvest_own hw1).trans <| (setData_own h2).trans (syncEffective_own hw')

theorem validatorSyncAuthority_own {a : ValidatorSyncAuthorityAccts} (h : validatorSyncAuthority w a = .ok w') : Own w w' := by
  simp only [validatorSyncAuthority, bind_ok, require_ok, exists_unit] at h
  obtain ⟨_, _, _, _, h⟩ := h
  split at h
  · simp only [bind_ok] at h
    obtain ⟨_, _, h⟩ := h
    exact setData_own h
  · simp at h

end Verif
