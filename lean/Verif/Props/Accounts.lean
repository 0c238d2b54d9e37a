import Verif.SpecAccounts
import Verif.Lemmas.LiveToken
import Verif.Witness
/-!
# C76: account substitution

An instruction succeeds only if every account that decides about money or records is the one the config prescribes.
-/

namespace Verif.Props

open Verif Verif.Witness

variable {env : Env} {o : Oracle} {w w' : World} {ix : Ix}

theorem names_iff {l : List (Nat × Key)} : ix.Names l ↔ ∀ x ∈ l, ix.acct x.1 = some x.2 := Iff.rfl

theorem harvested_token {ck hk auth va sk k : Key} {keeper : Option Key} {c : Config} {d : Delegation} {hr : HolderRewards}
    {rs rh : Nat} {t : TokenAccount} (H : Harvested env w w' ck hk auth va sk keeper c d hr rs rh)
    (h : (w' k).data = .token t) : (w k).data = .token t := by
  rw [← h]; symm
  refine H.data' k ?_ ?_
  · rintro rfl; rw [H.config'] at h; cases h
  · rintro rfl
    have := H.del'
    rw [h] at this; cases this

theorem validatorOf_vote {au : Key} {v : ValidatorStake} {vote ck : Key} (I : Inv env w) (hO : (w (.validatorPda vote ck)).owner = progId)
    (hd : (w (.validatorPda vote ck)).data = .validator v) (ha : v.del.authority = au) : ValidatorOf w vote ck au := by
  refine ⟨v, validatorAt_eq.2 ⟨hO, hd⟩, ?_, ha⟩
  obtain ⟨x, hx, hv, _⟩ := I.shape _ hO
  rw [hd] at hx; cases hx; exact hv


theorem right_initConfig (a : InitializeConfigAccts) {rest : List Key} (hl : ix.ctx.accts = a.list ++ rest)
    {s c h : List UInt8} {t b y : Nat} (hi : ix.decoded = some (.initializeConfig s c t b y h)) {x : InitializeConfigArgs}
    (hr : initializeConfig env ix.ctx w a x = .ok w') : RightAccounts env o w ix := by
  have hh : a.vaultHolderRewards = .holderRewardsPda a.vaultPda := by
    simp only [initializeConfig, bind_ok, require_ok, exists_unit] at hr
    obtain ⟨_, _, _, _, _, _, h, _⟩ := hr; exact h
  obtain ⟨w1, b, t, h1, _, _, h2, h3, _, _, h4, _⟩ := initializeConfig_ok hr
  simp only [RightAccounts, hi]
  refine ⟨a.config, t, by simp [Ix.acct, hl, InitializeConfigAccts.list], ?_, a.vault,
    by simp [Ix.acct, hl, InitializeConfigAccts.list], h2, h3⟩
  simp [names_iff, Ix.acct, hl, InitializeConfigAccts.list, h4, h1, hh, vaultRecord]

theorem right_initValidator (a : InitializeValidatorStakeAccts) {rest : List Key} (hl : ix.ctx.accts = a.list ++ rest)
    (hi : ix.decoded = some .initializeValidatorStake) (hr : initializeValidatorStake env ix.ctx w a = .ok w') :
    RightAccounts env o w ix := by
  obtain ⟨c, wd, h1, h2, h3, h4, h5, h6, _⟩ := initializeValidatorStake_ok hr
  simp only [RightAccounts, hi]
  refine ⟨a.config, c, a.validatorVote, wd, a.dunaDocumentPda,
    ⟨by simp [Ix.acct, hl, InitializeValidatorStakeAccts.list], configAt_eq.2 ⟨h1, h2⟩⟩, ?_, h3, h4, h5⟩
  simp [names_iff, Ix.acct, hl, InitializeValidatorStakeAccts.list, h6]

theorem right_initSol (I : Inv env w) (a : InitializeSolStakerStakeAccts) {rest : List Key} (hl : ix.ctx.accts = a.list ++ rest)
    (hi : ix.decoded = some .initializeSolStakerStake) (hr : initializeSolStakerStake env o ix.ctx w a = .ok w') :
    RightAccounts env o w ix := by
  obtain ⟨c, v, vs, au, h1, h2, h3, h4, h5, h6, h7, h8, h9, h10, h11, _, _, h12, _⟩ := initializeSolStakerStake_ok hr
  simp only [RightAccounts, hi]
  rw [h9] at h8 h10
  refine ⟨a.config, c, a.solStakerNativeStake, v, a.dunaDocumentPda, vs.del.authority,
    ⟨by simp [Ix.acct, hl, InitializeSolStakerStakeAccts.list], configAt_eq.2 ⟨h1, h2⟩⟩, h4, h5, h6, h7,
    validatorOf_vote I h8 h10 rfl, ?_⟩
  simp [names_iff, Ix.acct, hl, InitializeSolStakerStakeAccts.list, h3, h9, h11, h12]

theorem right_stakeValidator (a : StakeTokensAccts) {rest : List Key} (hl : ix.ctx.accts = a.list ++ rest) {n : Nat}
    (hi : ix.decoded = some (.validatorStakeTokens n)) (hr : validatorStakeTokens env o ix.ctx w a n = .ok w') :
    RightAccounts env o w ix := by
  simp only [validatorStakeTokens, bind_ok, require_ok, exists_unit, unpackConfig_ok, unpackValidator_ok,
    unpackToken_ok] at hr
  obtain ⟨hcO, c, hc, hsO, _, s, hs, hsk, w1, hw1, hpda, hvault, _, tv, htv, hmint, _⟩ := hr
  obtain ⟨c0, d0, hr, rs, rh, H⟩ := harvest_ok hw1
  obtain ⟨rfl, _⟩ := H.validator' hs
  simp only [RightAccounts, hi]
  have ha := H.auth_eq
  have hh := H.hk_eq
  refine ⟨a.config, c, s, tv, ⟨by simp [Ix.acct, hl, StakeTokensAccts.list], configAt_eq.2 ⟨hcO, hc⟩⟩, ?_, ?_, ?_⟩
  · unfold vaultAt; rw [← hvault]; exact harvested_token H htv
  · rw [← hsk]; exact validatorAt_eq.2 ⟨hsO, hs⟩
  · simp [names_iff, Ix.acct, hl, StakeTokensAccts.list, vaultRecord, ← hsk, ha, hh, hpda, hvault, hmint]

theorem right_stakeSol (a : StakeTokensAccts) {rest : List Key} (hl : ix.ctx.accts = a.list ++ rest) {n : Nat}
    (hi : ix.decoded = some (.solStakerStakeTokens n)) (hr : solStakerStakeTokens env o ix.ctx w a n = .ok w') :
    RightAccounts env o w ix := by
  simp only [solStakerStakeTokens, bind_ok, require_ok, exists_unit, unpackConfig_ok, unpackSolStaker_ok,
    unpackToken_ok] at hr
  obtain ⟨hcO, c, hc, hsO, _, s, hs, hsk, w1, hw1, hpda, hvault, _, tv, htv, hown, hmint, _⟩ := hr
  obtain ⟨c0, d0, hr, rs, rh, H⟩ := harvest_ok hw1
  obtain ⟨rfl, _⟩ := H.solStaker' hs
  simp only [RightAccounts, hi]
  have ha := H.auth_eq
  have hh := H.hk_eq
  refine ⟨a.config, c, s, tv, ⟨by simp [Ix.acct, hl, StakeTokensAccts.list], configAt_eq.2 ⟨hcO, hc⟩⟩, ?_, ?_, ?_, ?_⟩
  · unfold vaultAt; rw [← hvault]; exact harvested_token H htv
  · rw [hown, hpda]
  · rw [← hsk]; exact solStakerAt_eq.2 ⟨hsO, hs⟩
  · simp [names_iff, Ix.acct, hl, StakeTokensAccts.list, vaultRecord, ← hsk, ha, hh, hpda, hvault, hmint]

theorem right_harvestHolder (I : Inv env w) (a : HarvestHolderRewardsAccts) {rest : List Key} (hl : ix.ctx.accts = a.list ++ rest)
    (hi : ix.decoded = some .harvestHolderRewards) (hr : harvestHolderRewards env o w a = .ok w') :
    RightAccounts env o w ix := by
  simp only [harvestHolderRewards, bind_ok, require_ok, exists_unit, unpackConfig_ok, unpackToken_ok,
    createVaultPda_ok] at hr
  obtain ⟨hcO, c, hc, hvault, _, tv, htv, hm, vs, ⟨hcurve, rfl⟩, hpda, hhO, hhk, _⟩ := hr
  have hC := configAt_eq.2 ⟨hcO, hc⟩
  rw [(bump_facts I hC).2] at hpda
  rw [hpda] at hhk
  simp only [RightAccounts, hi]
  refine ⟨a.config, c, tv, ⟨by simp [Ix.acct, hl, HarvestHolderRewardsAccts.list], hC⟩, ?_, ?_, ?_⟩
  · unfold vaultAt; rw [← hvault]; exact htv
  · simp [names_iff, Ix.acct, hl, HarvestHolderRewardsAccts.list, vaultRecord, hhk, hpda, hvault, hm]
  · unfold vaultRecord; rw [← hhk]; exact hhO

theorem right_harvestValidator (a : HarvestValidatorRewardsAccts) {rest : List Key} (hl : ix.ctx.accts = a.list ++ rest)
    (hi : ix.decoded = some .harvestValidatorRewards) (hr : harvestValidatorRewards env w a = .ok w') :
    RightAccounts env o w ix := by
  obtain ⟨c, s, hr, rs, rh, hcO, hsO, hs, hsk, H⟩ := harvestValidatorRewards_ok hr
  simp only [RightAccounts, hi]
  have ha := H.auth_eq
  have hh := H.hk_eq
  refine ⟨a.config, c, s, ⟨by simp [Ix.acct, hl, HarvestValidatorRewardsAccts.list], configAt_eq.2 ⟨hcO, H.config⟩⟩, ?_, ?_⟩
  · rw [← hsk]; exact validatorAt_eq.2 ⟨hsO, hs⟩
  · simp [names_iff, Ix.acct, hl, HarvestValidatorRewardsAccts.list, vaultRecord, ← hsk, ha, hh]

theorem right_slashValidator (I : Inv env w) (a : SlashAccts) {rest : List Key} (hl : ix.ctx.accts = a.listValidator ++ rest)
    {n : Nat} (hi : ix.decoded = some (.slashValidatorStake n)) (hr : slashValidatorStake env ix.ctx w a n = .ok w') :
    RightAccounts env o w ix := by
  obtain ⟨c, s, hr, rs, rh, w1, w2, c1, hs, hsk, S⟩ := slashValidatorStake_ok hr
  have hC := configAt_eq.2 ⟨S.cO, S.harv.config⟩
  have hva := S.vaultAuth
  rw [(bump_facts I hC).2] at hva
  have ha := S.harv.auth_eq
  have hh := S.harv.hk_eq
  obtain ⟨t, ht, hm⟩ := S.vaultMint
  simp only [RightAccounts, hi]
  refine ⟨a.config, c, s, t, ⟨by simp [Ix.acct, hl, SlashAccts.listValidator], hC⟩, ?_, ?_, ?_, S.set⟩
  · unfold vaultAt; rw [← S.vault]; exact harvested_token S.harv ht
  · rw [← hsk]; exact validatorAt_eq.2 ⟨S.sO, hs⟩
  · simp [names_iff, Ix.acct, hl, SlashAccts.listValidator, vaultRecord, ← hsk, ha, hh, hva, S.vault, S.auth, hm]

theorem right_slashSol (I : Inv env w) (a : SlashAccts) {rest : List Key} (hl : ix.ctx.accts = a.listSolStaker ++ rest)
    {n : Nat} (hi : ix.decoded = some (.slashSolStakerStake n)) (hr : slashSolStakerStake env ix.ctx w a n = .ok w') :
    RightAccounts env o w ix := by
  obtain ⟨c, s, hr, rs, rh, w1, w2, c1, hs, hsk, S⟩ := slashSolStakerStake_ok hr
  have hC := configAt_eq.2 ⟨S.cO, S.harv.config⟩
  have hva := S.vaultAuth
  rw [(bump_facts I hC).2] at hva
  have ha := S.harv.auth_eq
  have hh := S.harv.hk_eq
  obtain ⟨t, ht, hm⟩ := S.vaultMint
  simp only [RightAccounts, hi]
  refine ⟨a.config, c, s, t, ⟨by simp [Ix.acct, hl, SlashAccts.listSolStaker], hC⟩, ?_, ?_, ?_, S.set⟩
  · unfold vaultAt; rw [← S.vault]; exact harvested_token S.harv ht
  · rw [← hsk]; exact solStakerAt_eq.2 ⟨S.sO, hs⟩
  · simp [names_iff, Ix.acct, hl, SlashAccts.listSolStaker, vaultRecord, ← hsk, ha, hh, hva, S.vault, S.auth, hm]

theorem right_setAuthority (a : SetAuthorityAccts) {rest : List Key} (hl : ix.ctx.accts = a.list ++ rest) {t : AuthorityType}
    (hi : ix.decoded = some (.setAuthority t)) (hr : setAuthority ix.ctx w a t = .ok w') : RightAccounts env o w ix := by
  obtain ⟨c, c', _, hO, hc, _, h⟩ := setAuthority_ok hr
  cases t <;> simp only [RightAccounts, hi]
  all_goals
    refine ⟨a.account, c, ⟨by simp [Ix.acct, hl, SetAuthorityAccts.list], configAt_eq.2 ⟨hO, hc⟩⟩, ?_, h.1⟩
    simp [names_iff, Ix.acct, hl, SetAuthorityAccts.list, h.2.1]

theorem right_updateConfig (a : UpdateConfigAccts) {rest : List Key} (hl : ix.ctx.accts = a.list ++ rest) {f : ConfigField}
    (hi : ix.decoded = some (.updateConfig f)) (hr : updateConfig ix.ctx w a f = .ok w') : RightAccounts env o w ix := by
  obtain ⟨c, hO, hc, hs, ha, _⟩ := updateConfig_ok hr
  simp only [RightAccounts, hi]
  refine ⟨a.config, c, ⟨by simp [Ix.acct, hl, UpdateConfigAccts.list], configAt_eq.2 ⟨hO, hc⟩⟩, ?_, hs⟩
  simp [names_iff, Ix.acct, hl, UpdateConfigAccts.list, ha]

theorem right_unstake (a : UnstakeTokensAccts) {rest : List Key} (hl : ix.ctx.accts = a.list ++ rest) {n : Nat}
    (hi : ix.decoded = some (.unstakeTokens n)) (hr : unstakeTokens env o ix.ctx w a n = .ok w') :
    RightAccounts env o w ix := by
  have ht : ∃ t, (w a.vault).data = .token t ∧ t.mint = a.mint := by
    simp only [unstakeTokens, bind_ok, require_ok, exists_unit, unpackConfig_ok, unpackToken_ok, unpackMint_ok,
      readDel_ok, Prod.exists] at hr
    obtain ⟨hcO, c, hc, hvault, hdest, _, tv, htv, hpda, hsO, _, k, l, lmin, hview, hsk, d, hd, hsig, hauth, hmint, _⟩ := hr
    exact ⟨tv, htv, hmint⟩
  obtain ⟨t, ht, hm⟩ := ht
  obtain ⟨c, d, hr, rs, rh, w1, w2, w3, c1, D', call, ts, td, lam, U, _⟩ := unstakeTokens_ok hr
  have ha := U.harv.auth_eq
  have hh := U.harv.hk_eq
  simp only [RightAccounts, hi]
  refine ⟨a.config, c, a.stake, d, t, ⟨by simp [Ix.acct, hl, UnstakeTokensAccts.list], configAt_eq.2 ⟨U.cO, U.harv.config⟩⟩,
    ?_, U.bel, stakeAt_eq.2 ⟨U.sO, U.harv.del⟩, ?_, ?_⟩
  · unfold vaultAt; rw [← U.vault]; exact ht
  · simp [names_iff, Ix.acct, hl, UnstakeTokensAccts.list, vaultRecord, ha, hh, U.vaultPda, U.vault, hm]
  · have := U.dest
    simp only [Ix.acct, hl, UnstakeTokensAccts.list]
    rw [U.vault] at this
    simpa using Ne.symm this

theorem right_move (a : SolStakerMoveTokensAccts) {rest : List Key} (hl : ix.ctx.accts = a.list ++ rest) {n : Nat}
    (hi : ix.decoded = some (.solStakerMoveTokens n)) (hr : solStakerMoveTokens env ix.ctx w a n = .ok w') :
    RightAccounts env o w ix := by
  obtain ⟨c, c', s, t, hr, rs, rh, rs', rh', w1, w2, wx, cs, ct, ds, dt, ds', dt', M⟩ := solStakerMoveTokens_ok hr
  have ha := M.harvS.auth_eq
  have ha' := M.harvT.auth_eq
  have hh := M.harvS.hk_eq
  have hsk := M.sk
  have htk := M.tk
  simp only [RightAccounts, hi]
  refine ⟨a.config, c, s, t, ⟨by simp [Ix.acct, hl, SolStakerMoveTokensAccts.list], configAt_eq.2 ⟨M.cO, M.harvS.config⟩⟩,
    ?_, ?_, ?_, ?_, ?_⟩
  · rw [← hsk]; exact solStakerAt_eq.2 ⟨M.sO, M.src⟩
  · rw [← htk]; exact solStakerAt_eq.2 ⟨M.tO, M.dst⟩
  · intro e; refine M.ne ?_; rw [hsk, htk, e]
  · rw [← ha, ← ha']
  · simp [names_iff, Ix.acct, hl, SolStakerMoveTokensAccts.list, vaultRecord, ← hsk, ← htk, ha, hh]

theorem right_override (a : ValidatorOverrideStakedLamportsAccts) {rest : List Key} (hl : ix.ctx.accts = a.list ++ rest) {n : Nat}
    (hi : ix.decoded = some (.validatorOverrideStakedLamports n))
    (hr : validatorOverrideStakedLamports env ix.ctx w a n = .ok w') : RightAccounts env o w ix := by
  obtain ⟨c, s, hr, rs, rh, w1, c1, hcO, hsO, hs, hsk, hset, hau, _, H, _⟩ := validatorOverrideStakedLamports_ok hr
  have ha := H.auth_eq
  have hh := H.hk_eq
  simp only [RightAccounts, hi]
  refine ⟨a.config, c, s, ⟨by simp [Ix.acct, hl, ValidatorOverrideStakedLamportsAccts.list],
    configAt_eq.2 ⟨hcO, H.config⟩⟩, ?_, ?_, hset⟩
  · rw [← hsk]; exact validatorAt_eq.2 ⟨hsO, hs⟩
  · simp [names_iff, Ix.acct, hl, ValidatorOverrideStakedLamportsAccts.list, vaultRecord, ← hsk, ha, hh, hau]

theorem right_syncAuthority (I : Inv env w) (a : ValidatorSyncAuthorityAccts) {rest : List Key}
    (hl : ix.ctx.accts = a.list ++ rest)
    (hi : ix.decoded = some .validatorSyncAuthority) (hr : validatorSyncAuthority w a = .ok w') : RightAccounts env o w ix := by
  obtain ⟨s, wd, hcO, ⟨c, hc⟩, hk, hd, ho, hw, _, _⟩ := validatorSyncAuthority_ok hr
  have hO : (w a.validatorStake).owner = progId := by
    by_contra ho
    have := (I.unowned _ (by rw [hk]; rfl) ho).2
    rw [hd] at this; simp at this
  rw [hk] at hO hd
  obtain ⟨v, h1, h2, _⟩ := validatorOf_vote I hO hd rfl
  simp only [RightAccounts, hi]
  refine ⟨a.config, c, a.validatorVote, wd, v, ⟨by simp [Ix.acct, hl, ValidatorSyncAuthorityAccts.list],
    configAt_eq.2 ⟨hcO, hc⟩⟩, h1, h2, ho, hw, ?_⟩
  simp [names_iff, Ix.acct, hl, ValidatorSyncAuthorityAccts.list, hk]

theorem right_harvestSol (I : Inv env w) (a : HarvestSolStakerRewardsAccts) {keeper : Key} {rest : List Key}
    (hl : ix.ctx.accts = a.list keeper ++ rest)
    (hi : ix.decoded = some .harvestSolStakerRewards)
    (hkp : a.keeperRecipient = (if keeper = progId then none else some keeper))
    (hr : harvestSolStakerRewards env o w a = .ok w') : RightAccounts env o w ix := by
  have hview : a.solStakeViewProgram = viewId := by
    simp only [harvestSolStakerRewards, bind_ok, require_ok, exists_unit, unpackConfig_ok, unpackSolStaker_ok] at hr
    obtain ⟨hcO, _, _, hsO, _, s, hs, hsk, _, hnat, _, h, _⟩ := hr
    exact h
  obtain ⟨s, v, c, hr, rs, rh, w1, B, S⟩ := harvestSolStakerRewards_ok I.wf hr
  have hsk := B.sk
  have H : ∃ kp, Harvested env w w1 a.config a.vaultHolderRewards a.solStakerStakeAuthority (env.vaultAuth a.config)
      a.solStakerStake kp c s.del hr rs rh := by
    cases S with
    | noSync _ _ H => exact ⟨_, H⟩
    | sync _ _ H => exact ⟨_, H⟩
  obtain ⟨kp, H⟩ := H
  have ha := H.auth_eq
  have hh := H.hk_eq
  simp only [RightAccounts, hi]
  refine ⟨a.config, c, s, v, ⟨by simp [Ix.acct, hl, HarvestSolStakerRewardsAccts.list],
    configAt_eq.2 ⟨B.cO, H.config⟩⟩, ?_, by rw [← B.native]; exact B.view, ?_, ?_⟩
  · rw [← hsk]; exact solStakerAt_eq.2 ⟨B.sO, B.data⟩
  · simp [names_iff, Ix.acct, hl, HarvestSolStakerRewardsAccts.list, vaultRecord, ← hsk, ha, hh, hview, B.native]
  intro hne
  cases S with
  | noSync h1 h2 => exact absurd ⟨h1, h2⟩ hne
  | @sync kp w2 w3 vote l c1 d1 d2 _ hk _ L J _ _ _ =>
    have hkey : a.config.ofProgram = false := I.config_key (configAt_eq.2 ⟨B.cO, H.config⟩)
    have own1 : ∀ k, (w1 k).owner = (w k).owner := H.owner
    have dat1 : ∀ vote, (w1 (.validatorPda vote a.config)).data = (w (.validatorPda vote a.config)).data := fun vote =>
      H.data' _ (by intro e; rw [← e] at hkey; cases hkey) (by rw [hsk]; simp)
    refine ⟨fun hv => ?_, fun hv => ⟨?_, fun au hau => ?_⟩, ?_⟩
    · cases L with
      | stay h => exact absurd h hv
      | @leave v c hr rs rh w1' c1 d1 d2 _ hp _ T =>
        have hO := T.owner
        have hD := T.data
        rw [hp, own1] at hO
        rw [hp, dat1] at hD
        refine ⟨v.del.authority, validatorOf_vote I hO hD rfl, ?_⟩
        have := T.harv.auth_eq
        simp [names_iff, Ix.acct, hl, HarvestSolStakerRewardsAccts.list, hp, this]
    · have : a.currentValidatorStake = .validatorPda v.delegatedVote a.config := by
        cases J with
        | undelegated h => exact absurd h hv
        | absent _ h => exact h
        | join _ h => exact h
      simp [names_iff, Ix.acct, hl, HarvestSolStakerRewardsAccts.list, this]
    · obtain ⟨x, hx, _, rfl⟩ := hau
      obtain ⟨hxO, hxd⟩ := validatorAt_eq.1 hx
      have own2 : ∀ k, (w2 k).owner = (w k).owner := by
        intro k; rw [← own1 k]
        cases L with
        | stay _ _ e => rw [e]
        | leave _ _ _ T => exact T.owner' k
      cases J with
      | undelegated h => exact absurd h hv
      | absent _ h hO => rw [h, own2] at hO; exact absurd hxO hO
      | @join y c hr rs rh w1' c1 d1 d2 _ h T =>
        have e := T.harv.auth_eq
        have hD := T.data
        rw [h] at hD
        have : y.del.authority = x.del.authority := by
          cases L with
          | stay _ _ e => rw [e, dat1, hxd] at hD; cases hD; rfl
          | @leave z c hr rs rh w1'' c1 d1' d2' _ hp _ T' =>
            by_cases hs : v.delegatedVote = s.del.vote
            · rw [hs, ← hp, T'.adj.stake'] at hD
              have hz := T'.data
              rw [hp, dat1, ← hs, hxd] at hz
              cases hz; cases hD
              have e1 := T'.d1_eq
              have e2 := T'.d2_eq
              show d2'.authority = _
              rw [e2, e1]; rfl
            · rw [T'.data_other (by intro e; rw [← e] at hkey; cases hkey) (by rw [hp]; simp [hs]), dat1, hxd] at hD
              cases hD; rfl
        simp [names_iff, Ix.acct, hl, HarvestSolStakerRewardsAccts.list, e, this]
    · rw [hk] at hkp
      have : keeper ≠ progId := by rintro rfl; simp at hkp
      simp [Ix.acct, hl, HarvestSolStakerRewardsAccts.list, this]

/-- **C76.** A successful instruction names at every position the account that the config, the stake record, the vote account
or the native stake prescribes. -/
theorem C76_accounts_checked (R : Reachable env w) (h : exec env o w ix = .ok w') : RightAccounts env o w ix := by
  have I := reachable_inv R
  cases exec_ran h with
  | initializeConfig a s c hh t b y rest hi hl hr => exact right_initConfig a hl hi hr
  | initializeValidatorStake a rest hi hl hr => exact right_initValidator a hl hi hr
  | validatorStakeTokens a n rest hi hl hr => exact right_stakeValidator a hl hi hr
  | harvestHolderRewards a rest hi hl hr => exact right_harvestHolder I a hl hi hr
  | harvestValidatorRewards a rest hi hl hr => exact right_harvestValidator a hl hi hr
  | slashValidatorStake a n rest hi hl hr => exact right_slashValidator I a hl hi hr
  | setAuthority a t rest hi hl hr => exact right_setAuthority a hl hi hr
  | updateConfig a f rest hi hl hr => exact right_updateConfig a hl hi hr
  | initializeSolStakerStake a rest hi hl hr => exact right_initSol I a hl hi hr
  | solStakerStakeTokens a n rest hi hl hr => exact right_stakeSol a hl hi hr
  | harvestSolStakerRewards a k rest hi hl hk hr => exact right_harvestSol I a hl hi hk hr
  | unstakeTokens a n rest hi hl hr => exact right_unstake a hl hi hr
  | slashSolStakerStake a n rest hi hl hr => exact right_slashSol I a hl hi hr
  | solStakerMoveTokens a n rest hi hl hr => exact right_move a hl hi hr
  | validatorOverrideStakedLamports a n rest hi hl hr => exact right_override a hl hi hr
  | validatorSyncAuthority a rest hi hl hr => exact right_syncAuthority I a hl hi hr

/-- **C76.** And it carries the signatures that are called for. -/
theorem C76_signatures_checked (h : exec env o w ix = .ok w') : RightSigners w ix := by
  cases exec_ran h with
  | slashValidatorStake a n rest hi hl hr =>
    obtain ⟨c, s, hr, rs, rh, w1, w2, c1, hs, hsk, S⟩ := slashValidatorStake_ok hr
    simp only [RightSigners, hi]
    exact ⟨a.config, c, ⟨by simp [Ix.acct, hl, SlashAccts.listValidator], configAt_eq.2 ⟨S.cO, S.harv.config⟩⟩,
      by rw [← S.auth]; exact S.signer⟩
  | slashSolStakerStake a n rest hi hl hr =>
    obtain ⟨c, s, hr, rs, rh, w1, w2, c1, hs, hsk, S⟩ := slashSolStakerStake_ok hr
    simp only [RightSigners, hi]
    exact ⟨a.config, c, ⟨by simp [Ix.acct, hl, SlashAccts.listSolStaker], configAt_eq.2 ⟨S.cO, S.harv.config⟩⟩,
      by rw [← S.auth]; exact S.signer⟩
  | setAuthority a t rest hi hl hr =>
    obtain ⟨c, c', hs, hO, hc, _, h⟩ := setAuthority_ok hr
    cases t <;> simp only [RightSigners, hi]
    all_goals
      exact ⟨a.account, c, ⟨by simp [Ix.acct, hl, SetAuthorityAccts.list], configAt_eq.2 ⟨hO, hc⟩⟩, by rw [← h.2.1]; exact hs⟩
  | updateConfig a f rest hi hl hr =>
    obtain ⟨c, hO, hc, hs, ha, hsig, _⟩ := updateConfig_ok hr
    simp only [RightSigners, hi]
    exact ⟨a.config, c, ⟨by simp [Ix.acct, hl, UpdateConfigAccts.list], configAt_eq.2 ⟨hO, hc⟩⟩, by rw [← ha]; exact hsig⟩
  | unstakeTokens a n rest hi hl hr =>
    obtain ⟨c, d, hr, rs, rh, w1, w2, w3, c1, D', call, ts, td, lam, U, _⟩ := unstakeTokens_ok hr
    simp only [RightSigners, hi]
    exact ⟨a.stake, d, by simp [Ix.acct, hl, UnstakeTokensAccts.list], stakeAt_eq.2 ⟨U.sO, U.harv.del⟩,
      by rw [← U.harv.auth_eq]; exact U.signer⟩
  | solStakerMoveTokens a n rest hi hl hr =>
    obtain ⟨c, c', s, t, hr, rs, rh, rs', rh', w1, w2, wx, cs, ct, ds, dt, ds', dt', M⟩ := solStakerMoveTokens_ok hr
    simp only [RightSigners, hi]
    exact ⟨a.sourceSolStakerStake, s.del, by simp [Ix.acct, hl, SolStakerMoveTokensAccts.list],
      stakeAt_eq.2 ⟨M.sO, M.harvS.del⟩, by rw [← M.harvS.auth_eq]; exact M.signer⟩
  | validatorOverrideStakedLamports a n rest hi hl hr =>
    obtain ⟨c, s, hr, rs, rh, w1, c1, hcO, hsO, hs, hsk, hset, hau, hsig, H, _⟩ := validatorOverrideStakedLamports_ok hr
    simp only [RightSigners, hi]
    exact ⟨a.config, c, ⟨by simp [Ix.acct, hl, ValidatorOverrideStakedLamportsAccts.list],
      configAt_eq.2 ⟨hcO, H.config⟩⟩, by rw [← hau]; exact hsig⟩
  | initializeConfig a s c hh t b y rest hi hl hr => simp only [RightSigners, hi]
  | initializeValidatorStake a rest hi hl hr => simp only [RightSigners, hi]
  | validatorStakeTokens a n rest hi hl hr => simp only [RightSigners, hi]
  | harvestHolderRewards a rest hi hl hr => simp only [RightSigners, hi]
  | harvestValidatorRewards a rest hi hl hr => simp only [RightSigners, hi]
  | initializeSolStakerStake a rest hi hl hr => simp only [RightSigners, hi]
  | solStakerStakeTokens a n rest hi hl hr => simp only [RightSigners, hi]
  | harvestSolStakerRewards a k rest hi hl hk hr => simp only [RightSigners, hi]
  | validatorSyncAuthority a rest hi hl hr => simp only [RightSigners, hi]

/-- Witnesses: every instruction of the history succeeds; replacing the vault, the holder record or the keeper makes them fail. -/
example : okB o1 w8 ixHarvestHolder = true ∧
    okB o1 w8 (Witness.ix .harvestHolderRewards [cfg, pool, poolToken, source, holder, vaultAuth, mint, tokenId, rewardsId, systemId] []) = false ∧
    okB o1 w9 ixHarvestVal1 = true ∧
    okB o1 w9 (Witness.ix .harvestValidatorRewards [cfg, holder, val1, auth2] []) = false := by decide +kernel

end Verif.Props
