import Verif.Lemmas.Calm
import Verif.SpecPanic
/-!
# Panics, handler by handler
-/

namespace Verif

set_option linter.unusedSimpArgs false

variable {env : Env} {o : Oracle} {ctx : Ctx} {w w' : World} {ix : Ix}

/-- Reduce a panic to the failed assertions. -/
macro "calm " f:ident " at " h:ident : tactic => `(tactic|
  simp only [$f:ident, bind_panic, require_panic, unpackConfig_panic, unpackValidator_panic, unpackSolStaker_panic,
    unpackToken_panic, unpackMint_panic, unpackVote_panic, readDel_panic, addU64_panic, subU64_panic, mulDivU64_panic,
    setData_panic, writeDel_panic, createVaultPda_panic, tokenTransfer_panic, systemAllocate_panic, systemAssign_panic,
    slashDelegation_panic, callOut_panic, transferExcess_panic, syncEffective_panic, unstakeView_panic, checkDuna_panic,
    checkConfigUninit_panic, syncConfigLamports_panic, ite_panic, pure_panic, ok_panic, error_panic, reduceCtorEq, and_false,
    false_or, or_false, exists_false, require_ok, exists_unit, unpackConfig_ok, unpackValidator_ok, unpackSolStaker_ok,
    createVaultPda_ok, and_true] at $h:ident)

/-- The config cannot pay for the listed accounts, which are among those of the instruction. -/
structure Short (env : Env) (w : World) (ck : Key) (accts l : List Key) : Prop where
  nodup : l.Nodup
  mem : ∀ k ∈ l, k ∈ accts
  unfunded : Unfunded env w ck l

theorem Short.one {ck k : Key} {accts : List Key} (hm : k ∈ accts)
    (h : (w ck).lamports < accrued env w ck k + env.rentMin configLen) : Short env w ck accts [k] :=
  ⟨List.nodup_singleton _, by simpa using hm, by simpa [Unfunded] using h⟩

theorem initializeConfig_calm {a : InitializeConfigAccts} {x : InitializeConfigArgs}
    (h : initializeConfig env ctx w a x = .error .panic) : False := by
  calm initializeConfig at h

theorem initializeValidatorStake_calm {a : InitializeValidatorStakeAccts}
    (h : initializeValidatorStake env ctx w a = .error .panic) : False := by
  calm initializeValidatorStake at h

theorem initializeSolStakerStake_calm (P : o.Plain) {a : InitializeSolStakerStakeAccts}
    (h : initializeSolStakerStake env o ctx w a = .error .panic) (he : ∀ x, (w (.overridePda x a.config)).data = .bytes []) :
    False := by
  calm initializeSolStakerStake at h
  obtain ⟨_, _, _, _, h | ⟨v, _, _, _, _, _, _, _, _, _, _, h1, h⟩⟩ := h
  · exact P.view _ h
  · rw [h1, he] at h
    simp [readOverride, Data.isEmpty] at h

theorem harvestHolderRewards_calm (P : o.Plain) {a : HarvestHolderRewardsAccts}
    (h : harvestHolderRewards env o w a = .error .panic) : False := by
  calm harvestHolderRewards at h
  obtain ⟨_, _, _, _, _, _, _, _, _, _, _, _, _, _, _, _, _, h⟩ := h
  exact P.harvestRewards _ _ h

theorem setAuthority_calm {a : SetAuthorityAccts} {t : AuthorityType} (h : setAuthority ctx w a t = .error .panic) : False := by
  cases t <;> calm setAuthority at h

theorem updateConfig_calm {a : UpdateConfigAccts} {f : ConfigField} (h : updateConfig ctx w a f = .error .panic) : False := by
  cases f <;> calm updateConfig at h

theorem validatorStakeTokens_calm (P : o.Plain) {a : StakeTokensAccts} {n : Nat}
    (h : validatorStakeTokens env o ctx w a n = .error .panic) :
    (w a.config).lamports < accrued env w a.config a.stake + env.rentMin configLen := by
  calm validatorStakeTokens at h
  obtain ⟨hcO, _, _, hsO, _, s, hs, hk, h | ⟨_, _, _, _, _, _, _, _, _, _, _, _, _, _, _, _, _, _, _, _, _, _, h⟩⟩ := h
  · exact (harvest_broke h hcO hsO (hk ▸ by simp [belongs])).1
  · exact absurd h.2.2 (P.deposit _ _)

theorem solStakerStakeTokens_calm (P : o.Plain) {a : StakeTokensAccts} {n : Nat}
    (h : solStakerStakeTokens env o ctx w a n = .error .panic) :
    (w a.config).lamports < accrued env w a.config a.stake + env.rentMin configLen := by
  calm solStakerStakeTokens at h
  obtain ⟨hcO, _, _, hsO, _, s, hs, hk, h | ⟨_, _, _, _, _, _, _, _, _, _, _, _, _, _, _, _, _, _, _, _, _, _, _, h⟩⟩ := h
  · exact (harvest_broke h hcO hsO (hk ▸ by simp [belongs])).1
  · exact absurd h.2.2 (P.deposit _ _)

theorem harvestValidatorRewards_calm {a : HarvestValidatorRewardsAccts}
    (h : harvestValidatorRewards env w a = .error .panic) :
    (w a.config).lamports < accrued env w a.config a.validatorStake + env.rentMin configLen := by
  calm harvestValidatorRewards at h
  obtain ⟨hcO, _, _, hsO, _, s, hs, hk, _, _, h⟩ := h
  exact (harvest_broke h hcO hsO (hk ▸ by simp [belongs])).1

theorem validatorOverride_calm {a : ValidatorOverrideStakedLamportsAccts} {n : Nat}
    (h : validatorOverrideStakedLamports env ctx w a n = .error .panic) :
    (w a.config).lamports < accrued env w a.config a.validatorStake + env.rentMin configLen := by
  calm validatorOverrideStakedLamports at h
  obtain ⟨hcO, _, _, _, _, _, hsO, _, s, hs, hk, h⟩ := h
  exact (harvest_broke h hcO hsO (hk ▸ by simp [belongs])).1

theorem slashValidatorStake_calm (I : Inv env w) {a : SlashAccts} {n : Nat}
    (h : slashValidatorStake env ctx w a n = .error .panic) :
    (w a.config).lamports < accrued env w a.config a.stake + env.rentMin configLen := by
  calm slashValidatorStake at h
  obtain ⟨hcO, c, hc, hsO, _, s, hs, hk, _, ⟨_, rfl⟩, hva, h⟩ := h
  rw [hva, (I.config _ c (configAt_eq.2 ⟨hcO, hc⟩)).bump] at h
  exact (harvest_broke h hcO hsO (hk ▸ by simp [belongs])).1

theorem slashSolStakerStake_calm (I : Inv env w) {a : SlashAccts} {n : Nat}
    (h : slashSolStakerStake env ctx w a n = .error .panic) :
    (w a.config).lamports < accrued env w a.config a.stake + env.rentMin configLen := by
  calm slashSolStakerStake at h
  obtain ⟨hcO, c, hc, hsO, _, s, hs, hk, _, ⟨_, rfl⟩, hva, h⟩ := h
  rw [hva, (I.config _ c (configAt_eq.2 ⟨hcO, hc⟩)).bump] at h
  exact (harvest_broke h hcO hsO (hk ▸ by simp [belongs])).1

theorem unstakeTokens_calm (P : o.Plain) {a : UnstakeTokensAccts} {n : Nat}
    (h : unstakeTokens env o ctx w a n = .error .panic) :
    (w a.config).lamports < accrued env w a.config a.stake + env.rentMin configLen := by
  calm unstakeTokens at h
  obtain ⟨hcO, _, _, _, _, _, _, _, _, hsO, _, ⟨k, l, lm⟩, hv, hk, _, _, _, _, _, _, _, _, h⟩ := h
  have hb : belongs a.stake a.config := by
    rcases unstakeView_ok hv with h | h
    all_goals (obtain ⟨_, _, e, _⟩ := h; simp only at hk; rw [hk, e]; simp [belongs])
  rcases h with h | ⟨_, _, _, _, _, _, _, _, _, _, _, _, _, _, _, h⟩
  · exact (harvest_broke h hcO hsO hb).1
  · exact absurd h.2 (P.withdraw _ _)

/-- A move panics when the config cannot pay both accounts, unless it pays itself. -/
theorem solStakerMoveTokens_calm (I : Inv env w) {a : SolStakerMoveTokensAccts} {n : Nat}
    (h : solStakerMoveTokens env ctx w a n = .error .panic) :
    (w a.config).lamports < accrued env w a.config a.sourceSolStakerStake + env.rentMin configLen ∨
    (a.destinationSolStakerStake ≠ a.sourceSolStakerStake ∧ (w a.config).lamports <
      accrued env w a.config a.sourceSolStakerStake + accrued env w a.config a.destinationSolStakerStake +
        env.rentMin configLen) ∨
    authorityOf w a.sourceSolStakerStake = some a.config := by
  calm solStakerMoveTokens at h
  obtain ⟨hcO, _, _, _, hsO, _, s, hs, hk, ha, h | ⟨w1, hw1, hdO, _, hne, t, ht, hkt, h⟩⟩ := h
  · exact .inl (harvest_broke h hcO hsO (hk ▸ by simp [belongs])).1
  · right
    have hb : belongs a.sourceSolStakerStake a.config := hk ▸ by simp [belongs]
    have hbt : belongs a.destinationSolStakerStake a.config := hkt ▸ by simp [belongs]
    obtain ⟨c, d, hr, rs, rh, H⟩ := harvest_ok hw1
    by_cases e : a.solStakerAuthority = a.config
    · right
      rw [← e, H.auth_eq]
      unfold authorityOf
      rw [stakeAt_eq.2 ⟨hsO, H.del⟩]; rfl
    · left
      refine ⟨hne, ?_⟩
      obtain ⟨W1, S1, hl, hdue⟩ := H.after I.wf hcO hsO hb e
      have hcO1 : (w1 a.config).owner = progId := by rw [H.owner]; exact hcO
      rcases h with h | ⟨w2, hw2, ds, hds, dt, hdt, hna⟩
      · have := (harvest_broke h hcO1 hdO hbt).1
        rw [accrued_settled S1 W1 hcO1, hdue _ hne] at this
        omega
      · exfalso
        obtain ⟨c', d', hr', rs', rh', H'⟩ := harvest_ok hw2
        apply hna
        rw [readDel_ok] at hds hdt
        have e1 := H'.del'
        rw [hdt] at e1
        have e2 := H.del'
        have hsc : a.sourceSolStakerStake ≠ a.config := H.ne
        rw [H'.data' _ hsc (Ne.symm hne), e2] at hds
        cases e1; cases hds
        show d.authority = d'.authority
        rw [← H.auth_eq, ← H'.auth_eq]

/-- Which accounts a harvest of a SOL staker settles when it panics. -/
theorem harvestSol_calm (I : Inv env w) (P : o.Plain) {a : HarvestSolStakerRewardsAccts}
    (h : harvestSolStakerRewards env o w a = .error .panic) {accts : List Key} (m3 : a.solStakerStake ∈ accts)
    (m6 : a.previousValidatorStake ∈ accts) (m8 : a.currentValidatorStake ∈ accts) :
    (∃ l, l ≠ [] ∧ Short env w a.config accts l) ∨ (∃ k ∈ accts, authorityOf w k = some a.config) ∨
    ∃ s, solStakerAt w a.solStakerStake = some s ∧ s.del.vote = .default ∧ s.lamports ≠ 0 := by
  calm harvestSolStakerRewards at h
  obtain ⟨hcO, c0, hc0, hsO, _, s, hs, hk, hau, hn, hrec, _, _, h | ⟨v, hv, _, h | ⟨w1, hw1, _, h⟩⟩⟩ := h
  · exact absurd h (P.view _)
  · exact .inl ⟨_, by simp, .one m3 (harvest_broke h hcO hsO (hk ▸ by simp [belongs])).1⟩
  have hb : belongs a.solStakerStake a.config := hk ▸ by simp [belongs]
  obtain ⟨c, d, hr, rs, rh, H⟩ := harvest_ok hw1
  by_cases e : a.solStakerStakeAuthority = a.config
  · refine .inr (.inl ⟨_, m3, ?_⟩)
    rw [← e, H.auth_eq]
    unfold authorityOf
    rw [stakeAt_eq.2 ⟨hsO, H.del⟩]; rfl
  obtain ⟨W1, S1, hl, hdue⟩ := H.after I.wf hcO hsO hb e
  have hcO1 : (w1 a.config).owner = progId := by rw [H.owner]; exact hcO
  rcases h with h | ⟨w2, hw2, h⟩
  · calm leaveValidator at h
    rcases h with ⟨hd, hpO, hpk, p, hp, h⟩ | ⟨hd, hz⟩
    · have hbp : belongs a.previousValidatorStake a.config := hpk ▸ by simp [belongs]
      have hne : a.previousValidatorStake ≠ a.solStakerStake := by rw [hpk, hk]; simp
      have h1 := (harvest_broke h hcO1 hpO hbp).1
      rw [accrued_settled S1 W1 hcO1, hdue _ hne] at h1
      refine .inl ⟨[a.solStakerStake, a.previousValidatorStake], by simp, by simpa using Ne.symm hne, ?_, ?_⟩
      · simp [m3, m6]
      · simp only [Unfunded, List.map_cons, List.map_nil, List.sum_cons, List.sum_nil]; omega
    · exact .inr (.inr ⟨s, solStakerAt_eq.2 ⟨hsO, hs⟩, by simpa using hd, hz⟩)
  · calm joinValidator at h
    obtain ⟨hd, hck, hcvO, q, hq, h⟩ := h
    have hbc : belongs a.currentValidatorStake a.config := hck ▸ by simp [belongs]
    have hne : a.currentValidatorStake ≠ a.solStakerStake := by rw [hck, hk]; simp
    have L := leaveValidator_ok W1 hw2
    by_cases e' : a.previousValidatorStakeAuthority = a.config ∧ s.del.vote ≠ .default
    · cases L with
      | stay hd' _ _ => exact absurd hd' e'.2
      | leave hd' hpk _ R =>
        refine .inr (.inl ⟨_, m6, ?_⟩)
        have hps : a.previousValidatorStake ≠ a.solStakerStake := by rw [hpk, hk]; simp
        have hpc : a.previousValidatorStake ≠ a.config := R.harv.ne
        have hst := stakeAt_eq.2 ⟨R.owner, R.harv.del⟩
        rw [stakeAt_congr (H.stakeAt_other hpc hps)] at hst
        rw [← e'.1, R.harv.auth_eq]
        unfold authorityOf
        rw [hst]; rfl
    · cases L with
      | stay hd' _ e2 =>
        subst e2
        have h1 := (harvest_broke h hcO1 hcvO hbc).1
        rw [accrued_settled S1 W1 hcO1, hdue _ hne] at h1
        refine .inl ⟨[a.solStakerStake, a.currentValidatorStake], by simp, by simpa using Ne.symm hne, ?_, ?_⟩
        · simp [m3, m8]
        · simp only [Unfunded, List.map_cons, List.map_nil, List.sum_cons, List.sum_nil]; omega
      | leave hd' hpk _ R =>
        have ha : a.previousValidatorStakeAuthority ≠ a.config := fun e2 => e' ⟨e2, hd'⟩
        have hbp : belongs a.previousValidatorStake a.config := hpk ▸ by simp [belongs]
        have hps : a.previousValidatorStake ≠ a.solStakerStake := by rw [hpk, hk]; simp
        have I1 := harvest_inv I H hcO hsO hb
        have I2 := (R.inv I1 hcO1 hbp).2
        have S := R.settles W1 hbp S1 (.inl ha)
        have hcO2 : (w2 a.config).owner = progId := by rw [S.owner]; exact hcO1
        have hm := S.moves a.config
        have hau1 : authorityOf w1 a.previousValidatorStake = some a.previousValidatorStakeAuthority := by
          unfold authorityOf
          rw [stakeAt_eq.2 ⟨R.owner, R.harv.del⟩, R.harv.auth_eq]; rfl
        rw [if_pos rfl, hau1, if_neg (by simpa using ha), hdue _ hps] at hm
        have h1 := (harvest_broke h hcO2 hcvO hbc).1
        rw [accrued_settled S.settled I2.wf hcO2] at h1
        by_cases e3 : a.currentValidatorStake = a.previousValidatorStake
        · obtain ⟨v', hv', f1, f2, _⟩ := R.validatorAt' W1 S1
          rw [e3, dueAt_some (stakeAt_validator hv') hbp, due_marked _ _ f1 (by rw [f2, R.record])] at h1
          refine .inl ⟨[a.solStakerStake, a.previousValidatorStake], by simp, by simpa using Ne.symm hps, ?_, ?_⟩
          · simp [m3, m6]
          · simp only [Unfunded, List.map_cons, List.map_nil, List.sum_cons, List.sum_nil]; omega
        · have hcc : a.currentValidatorStake ≠ a.config := by
            intro e4
            obtain ⟨x, hx, _⟩ := S.settled
            rw [e4, hx] at hq; cases hq
          rw [dueAt_congr (S.others _ hcc e3) S.hacc, hdue _ hne] at h1
          refine .inl ⟨[a.solStakerStake, a.previousValidatorStake, a.currentValidatorStake], by simp,
            by simp [Ne.symm hps, Ne.symm hne, Ne.symm e3], ?_, ?_⟩
          · simp [m3, m6, m8]
          · simp only [Unfunded, List.map_cons, List.map_nil, List.sum_cons, List.sum_nil]; omega

theorem validatorSyncAuthority_calm {a : ValidatorSyncAuthorityAccts}
    (h : validatorSyncAuthority w a = .error .panic) : validatorAt w a.validatorStake = none := by
  calm validatorSyncAuthority at h
  obtain ⟨_, _, _, _, h⟩ := h
  cases hv : validatorAt w a.validatorStake with
  | none => rfl
  | some v =>
    rw [(validatorAt_eq.1 hv).2] at h
    simp only [bind_panic, unpackVote_panic, setData_panic, and_false, exists_false, or_self] at h

end Verif
