import Verif.Lemmas.Blame
/-!
# The errors of the stake program, handler by handler
-/

namespace Verif

set_option linter.unusedSimpArgs false

variable {env : Env} {o : Oracle} {ctx : Ctx} {w w' : World} {ix : Ix} {e : StakeError} {rest : List Key}

theorem passes_of {i : StakeInstruction} {r : Role} {l : List Key} {k : Key} (hi : ix.decoded = some i)
    (hl : ix.ctx.accts = l) (n : Nat) (hp : i.position r = some n) (ha : l[n]? = some k) : ix.passes r k :=
  ⟨i, n, hi, hp, by unfold Ix.acct; rw [hl]; exact ha⟩

theorem initializeConfig_blame {a : InitializeConfigAccts} {x : InitializeConfigArgs} {s c h : List UInt8} {t b y : Nat}
    (hi : ix.decoded = some (.initializeConfig s c t b y h)) (hl : ix.ctx.accts = a.list ++ rest)
    (he : initializeConfig env ctx w a x = .error (.stake e)) : Reason env o w ix e := by
  have C : ix.createsConfig := ⟨_, _, _, _, _, _, hi⟩
  have p0 : ix.passes .config a.config := passes_of hi hl 0 rfl rfl
  have p1 : ix.passes .mint a.mint := passes_of hi hl 1 rfl rfl
  have p2 : ix.passes .vaultAuthority a.vaultPda := passes_of hi hl 2 rfl rfl
  have p3 : ix.passes .vault a.vault := passes_of hi hl 3 rfl rfl
  have p4 : ix.passes .record a.vaultHolderRewards := passes_of hi hl 4 rfl rfl
  blame initializeConfig at he
  obtain ⟨_, _, ⟨h, rfl⟩ | ⟨hva, _, w1, hw, he⟩⟩ := he
  · exact ⟨_, _, p0, p2, h⟩
  have hd : ∀ k, (w1 k).data = (w k).data := by
    intro k
    simp only [systemAssign] at hw
    split at hw
    · cases hw; rfl
    · simp only [bind_ok, require_ok, exists_unit] at hw
      obtain ⟨_, _, hw⟩ := hw
      cases hw
      by_cases e1 : k = a.vaultPda
      · subst e1; simp
      · rw [World.set_other _ _ e1]
  simp only [hd] at he
  rcases he with ⟨h, rfl⟩ | ⟨_, t, ht, he⟩
  · exact ⟨_, _, p0, p4, by rw [hva] at h; exact h⟩
  have v : ix.usesVault w t := ⟨_, p3, ht⟩
  rcases he with ⟨h, rfl⟩ | ⟨_, ⟨h, rfl⟩ | ⟨_, ⟨h, rfl⟩ | ⟨_, ⟨h, rfl⟩ | ⟨_, ⟨h, rfl⟩ | ⟨_, _, _, h, rfl⟩⟩⟩⟩⟩
  · exact ⟨C, _, _, p0, v, h⟩
  · exact ⟨C, _, v, h⟩
  · exact ⟨C, _, v, h⟩
  · exact ⟨_, _, v, p1, h⟩
  · exact ⟨C, _, v, Nat.pos_of_ne_zero h⟩
  · exact ⟨C, _, p0, h⟩

theorem initializeValidatorStake_blame {a : InitializeValidatorStakeAccts}
    (hi : ix.decoded = some .initializeValidatorStake) (hl : ix.ctx.accts = a.list ++ rest)
    (he : initializeValidatorStake env ctx w a = .error (.stake e)) : Reason env o w ix e := by
  blame initializeValidatorStake at he
  obtain ⟨hO, c, hc, wd, _, hdoc, h, rfl⟩ := he
  refine ⟨_, c, wd, ⟨passes_of hi hl 0 rfl rfl, configAt_eq.2 ⟨hO, hc⟩⟩, hdoc ▸ passes_of hi hl 1 rfl rfl, ?_⟩
  rintro ⟨_, b, hb⟩
  rw [← hdoc] at hb
  exact h b hb

theorem initializeSolStakerStake_blame (P : o.Foreign) {a : InitializeSolStakerStakeAccts}
    (hi : ix.decoded = some .initializeSolStakerStake) (hl : ix.ctx.accts = a.list ++ rest)
    (he : initializeSolStakerStake env o ctx w a = .error (.stake e)) : Reason env o w ix e := by
  have hr : ∀ d, readOverride env d ≠ .error (.stake e) := fun d h => by
    unfold readOverride at h; split_ifs at h <;> simp at h
  blame initializeSolStakerStake at he
  obtain ⟨hO, c, hc, _, h | ⟨v, hv, ⟨h, rfl⟩ | ⟨_, _, ⟨hdoc, h, rfl⟩ | ⟨_, _, _, _, _, _, _, _, h⟩⟩⟩⟩ := he
  · exact absurd h (P.view _ _)
  · exact ⟨hi, _, v, passes_of hi hl 5 rfl rfl, hv, h⟩
  · refine ⟨_, c, v.withdrawer, ⟨passes_of hi hl 0 rfl rfl, configAt_eq.2 ⟨hO, hc⟩⟩, hdoc ▸ passes_of hi hl 1 rfl rfl, ?_⟩
    rintro ⟨_, b, hb⟩
    rw [← hdoc] at hb
    exact h b hb
  · exact absurd h (hr _)

theorem stake_of_del {k : Key} {d : Delegation} (hO : (w k).owner = progId) (h : (w k).data.del? = some d) :
    stakeAt w k = some d := stakeAt_eq.2 ⟨hO, h⟩

theorem validatorStakeTokens_blame (P : o.Foreign) {a : StakeTokensAccts} {n : Nat}
    (hi : ix.decoded = some (.validatorStakeTokens n)) (hl : ix.ctx.accts = a.list ++ rest)
    (he : validatorStakeTokens env o ctx w a n = .error (.stake e)) : Reason env o w ix e := by
  blame validatorStakeTokens at he
  obtain ⟨hO, c, hc, hsO, _, s, hs, hk, he⟩ := he
  have p0 : ix.passes .config a.config := passes_of hi hl 0 rfl rfl
  have pv : ix.passes .vault a.vault := passes_of hi hl 9 rfl rfl
  have u : ix.uses w a.config c := ⟨p0, configAt_eq.2 ⟨hO, hc⟩⟩
  rcases he with he | ⟨w1, hw1, he⟩
  · rcases harvest_stake he with ⟨rfl, d, hd, h⟩ | ⟨rfl, h⟩
    · exact .inr (.inl ⟨_, d, _, passes_of hi hl 3 rfl rfl, stake_of_del hsO hd, passes_of hi hl 4 rfl rfl, h⟩)
    · exact ⟨_, _, p0, passes_of hi hl 10 rfl rfl, h⟩
  obtain ⟨_, _, _, _, _, H⟩ := harvest_ok hw1
  rcases he with ⟨h, rfl⟩ | ⟨_, ⟨h, rfl⟩ | ⟨_, _, t, ht, ⟨h, rfl⟩ | ⟨_, _, _, _, ⟨h, rfl⟩ | he⟩⟩⟩
  · exact ⟨_, _, p0, passes_of hi hl 8 rfl rfl, h⟩
  · exact ⟨_, _, _, u, pv, h⟩
  · exact ⟨_, _, ⟨_, pv, H.token_before ht⟩, passes_of hi hl 7 rfl rfl, h⟩
  · have : n = 0 := by omega
    subst this
    exact .inl hi
  · obtain ⟨_, _, _, _, _, _, _, _, _, _, _, h⟩ := he
    exact absurd h.2.2 (P.deposit _ _ _)

theorem solStakerStakeTokens_blame (P : o.Foreign) {a : StakeTokensAccts} {n : Nat}
    (hi : ix.decoded = some (.solStakerStakeTokens n)) (hl : ix.ctx.accts = a.list ++ rest)
    (he : solStakerStakeTokens env o ctx w a n = .error (.stake e)) : Reason env o w ix e := by
  blame solStakerStakeTokens at he
  obtain ⟨hO, c, hc, hsO, _, s, hs, hk, he⟩ := he
  have p0 : ix.passes .config a.config := passes_of hi hl 0 rfl rfl
  have pv : ix.passes .vault a.vault := passes_of hi hl 9 rfl rfl
  have u : ix.uses w a.config c := ⟨p0, configAt_eq.2 ⟨hO, hc⟩⟩
  rcases he with he | ⟨w1, hw1, he⟩
  · rcases harvest_stake he with ⟨rfl, d, hd, h⟩ | ⟨rfl, h⟩
    · exact .inr (.inl ⟨_, d, _, passes_of hi hl 3 rfl rfl, stake_of_del hsO hd, passes_of hi hl 4 rfl rfl, h⟩)
    · exact ⟨_, _, p0, passes_of hi hl 10 rfl rfl, h⟩
  obtain ⟨_, _, _, _, _, H⟩ := harvest_ok hw1
  rcases he with ⟨h, rfl⟩ | ⟨hva, ⟨h, rfl⟩ | ⟨_, _, t, ht, ⟨h, rfl⟩ | ⟨_, ⟨h, rfl⟩ | ⟨_, _, _, _, ⟨h, rfl⟩ | he⟩⟩⟩⟩
  · exact ⟨_, _, p0, passes_of hi hl 8 rfl rfl, h⟩
  · exact ⟨_, _, _, u, pv, h⟩
  · exact ⟨⟨_, hi⟩, _, _, p0, ⟨_, pv, H.token_before ht⟩, by rw [hva] at h; exact h⟩
  · exact ⟨_, _, ⟨_, pv, H.token_before ht⟩, passes_of hi hl 7 rfl rfl, h⟩
  · have : n = 0 := by omega
    subst this
    exact .inr (.inl hi)
  · obtain ⟨_, _, _, _, _, _, _, _, _, _, _, h⟩ := he
    exact absurd h.2.2 (P.deposit _ _ _)

theorem harvestHolderRewards_blame (I : Inv env w) (P : o.Foreign) {a : HarvestHolderRewardsAccts}
    (hi : ix.decoded = some .harvestHolderRewards) (hl : ix.ctx.accts = a.list ++ rest)
    (he : harvestHolderRewards env o w a = .error (.stake e)) : Reason env o w ix e := by
  blame harvestHolderRewards at he
  obtain ⟨hO, c, hc, he⟩ := he
  have p0 : ix.passes .config a.config := passes_of hi hl 0 rfl rfl
  have pv : ix.passes .vault a.vault := passes_of hi hl 3 rfl rfl
  have u : ix.uses w a.config c := ⟨p0, configAt_eq.2 ⟨hO, hc⟩⟩
  rcases he with ⟨h, rfl⟩ | ⟨_, _, t, ht, ⟨h, rfl⟩ | ⟨_, k, ⟨_, rfl⟩, ⟨h, rfl⟩ | ⟨_, _, _, _, _, _, _, h⟩⟩⟩
  · exact ⟨_, _, _, u, pv, h⟩
  · exact ⟨_, _, ⟨_, pv, ht⟩, passes_of hi hl 6 rfl rfl, h⟩
  · refine .inl ⟨_, _, u, .inr (.inr ⟨_, passes_of hi hl 5 rfl rfl, ?_⟩)⟩
    rw [(I.config _ c (configAt_eq.2 ⟨hO, hc⟩)).bump] at h
    exact h
  · exact absurd h (P.harvestRewards _ _ _)

theorem harvestValidatorRewards_blame {a : HarvestValidatorRewardsAccts}
    (hi : ix.decoded = some .harvestValidatorRewards) (hl : ix.ctx.accts = a.list ++ rest)
    (he : harvestValidatorRewards env w a = .error (.stake e)) : Reason env o w ix e := by
  blame harvestValidatorRewards at he
  obtain ⟨hO, c, hc, hsO, _, s, hs, hk, ⟨h, rfl⟩ | ⟨_, _, he⟩⟩ := he
  · exact .inr (.inl ⟨_, s.del, _, passes_of hi hl 2 rfl rfl, stake_of_del hsO (by rw [hs]; rfl), passes_of hi hl 3 rfl rfl, h⟩)
  · rcases harvest_stake he with ⟨rfl, d, hd, h⟩ | ⟨rfl, h⟩
    · exact .inr (.inl ⟨_, d, _, passes_of hi hl 2 rfl rfl, stake_of_del hsO hd, passes_of hi hl 3 rfl rfl, h⟩)
    · exact ⟨_, _, passes_of hi hl 0 rfl rfl, passes_of hi hl 1 rfl rfl, h⟩

theorem setAuthority_blame {a : SetAuthorityAccts} {t : AuthorityType}
    (hi : ix.decoded = some (.setAuthority t)) (hl : ix.ctx.accts = a.list ++ rest)
    (he : setAuthority ctx w a t = .error (.stake e)) : Reason env o w ix e := by
  cases t with
  | config =>
    blame setAuthority at he
    obtain ⟨_, hO, c, hc, ⟨h, rfl⟩ | ⟨_, h, rfl⟩⟩ := he
    · exact ⟨_, c, ⟨passes_of hi hl 0 rfl rfl, configAt_eq.2 ⟨hO, hc⟩⟩, .inl ⟨⟨_, passes_of hi hl 1 rfl rfl⟩, h⟩⟩
    · exact .inl ⟨_, c, ⟨passes_of hi hl 0 rfl rfl, configAt_eq.2 ⟨hO, hc⟩⟩, .inl ⟨_, passes_of hi hl 1 rfl rfl, h⟩⟩
  | slash =>
    blame setAuthority at he
    obtain ⟨_, hO, c, hc, ⟨h, rfl⟩ | ⟨_, h, rfl⟩⟩ := he
    · exact ⟨_, c, ⟨passes_of hi hl 0 rfl rfl, configAt_eq.2 ⟨hO, hc⟩⟩, .inr ⟨⟨_, passes_of hi hl 1 rfl rfl⟩, h⟩⟩
    · exact .inl ⟨_, c, ⟨passes_of hi hl 0 rfl rfl, configAt_eq.2 ⟨hO, hc⟩⟩, .inr (.inl ⟨_, passes_of hi hl 1 rfl rfl, h⟩)⟩

theorem updateConfig_blame {a : UpdateConfigAccts} {f : ConfigField}
    (hi : ix.decoded = some (.updateConfig f)) (hl : ix.ctx.accts = a.list ++ rest)
    (he : updateConfig ctx w a f = .error (.stake e)) : Reason env o w ix e := by
  have h : ∃ c, (w a.config).owner = progId ∧ (w a.config).data = .config c ∧
      ((c.authority = .default ∧ .authorityNotSet = e) ∨ a.configAuthority ≠ c.authority ∧ .invalidAuthority = e) := by
    cases f <;>
      (blame updateConfig at he
       obtain ⟨hO, c, hc, h | ⟨_, h⟩⟩ := he
       · exact ⟨c, hO, hc, .inl h⟩
       · exact ⟨c, hO, hc, .inr h⟩)
  obtain ⟨c, hO, hc, ⟨h, rfl⟩ | ⟨h, rfl⟩⟩ := h
  · exact ⟨_, c, ⟨passes_of hi hl 0 rfl rfl, configAt_eq.2 ⟨hO, hc⟩⟩, .inl ⟨⟨_, passes_of hi hl 1 rfl rfl⟩, h⟩⟩
  · exact .inl ⟨_, c, ⟨passes_of hi hl 0 rfl rfl, configAt_eq.2 ⟨hO, hc⟩⟩, .inl ⟨_, passes_of hi hl 1 rfl rfl, h⟩⟩

theorem slashValidatorStake_blame (I : Inv env w) {a : SlashAccts} {n : Nat}
    (hi : ix.decoded = some (.slashValidatorStake n)) (hl : ix.ctx.accts = a.listValidator ++ rest)
    (he : slashValidatorStake env ctx w a n = .error (.stake e)) : Reason env o w ix e := by
  blame slashValidatorStake at he
  obtain ⟨hO, c, hc, hsO, _, s, hs, hk, k, ⟨_, rfl⟩, he⟩ := he
  have p0 : ix.passes .config a.config := passes_of hi hl 0 rfl rfl
  have pv : ix.passes .vault a.vault := passes_of hi hl 4 rfl rfl
  have ps : ix.passes .slashAuthority a.slashAuthority := passes_of hi hl 3 rfl rfl
  have u : ix.uses w a.config c := ⟨p0, configAt_eq.2 ⟨hO, hc⟩⟩
  rw [(I.config _ c (configAt_eq.2 ⟨hO, hc⟩)).bump] at he
  rcases he with ⟨h, rfl⟩ | ⟨hva, he | ⟨w1, hw1, he⟩⟩
  · exact .inl ⟨_, _, u, .inr (.inr ⟨_, passes_of hi hl 6 rfl rfl, h⟩)⟩
  · rcases harvest_stake he with ⟨rfl, d, hd, h⟩ | ⟨rfl, h⟩
    · exact .inr (.inl ⟨_, d, _, passes_of hi hl 1 rfl rfl, stake_of_del hsO hd, passes_of hi hl 2 rfl rfl, h⟩)
    · exact ⟨_, _, p0, passes_of hi hl 5 rfl rfl, by rw [hva] at h; exact h⟩
  obtain ⟨_, _, _, _, _, H⟩ := harvest_ok hw1
  rcases he with ⟨h, rfl⟩ | ⟨_, ⟨h, rfl⟩ | ⟨_, _, ⟨h, rfl⟩ | ⟨_, _, t, ht, ⟨h, rfl⟩ | ⟨_, h⟩⟩⟩⟩
  · exact ⟨_, _, u, .inr ⟨⟨_, ps⟩, h⟩⟩
  · exact .inl ⟨_, _, u, .inr (.inl ⟨_, ps, h⟩)⟩
  · exact ⟨_, _, _, u, pv, h⟩
  · exact ⟨_, _, ⟨_, pv, H.token_before ht⟩, passes_of hi hl 7 rfl rfl, h⟩
  · obtain ⟨rfl, rfl⟩ := slashDelegation_stake h
    exact .inr (.inr (.inl hi))

theorem slashSolStakerStake_blame (I : Inv env w) {a : SlashAccts} {n : Nat}
    (hi : ix.decoded = some (.slashSolStakerStake n)) (hl : ix.ctx.accts = a.listSolStaker ++ rest)
    (he : slashSolStakerStake env ctx w a n = .error (.stake e)) : Reason env o w ix e := by
  blame slashSolStakerStake at he
  obtain ⟨hO, c, hc, hsO, _, s, hs, hk, k, ⟨_, rfl⟩, he⟩ := he
  have p0 : ix.passes .config a.config := passes_of hi hl 0 rfl rfl
  have pv : ix.passes .vault a.vault := passes_of hi hl 5 rfl rfl
  have ps : ix.passes .slashAuthority a.slashAuthority := passes_of hi hl 3 rfl rfl
  have u : ix.uses w a.config c := ⟨p0, configAt_eq.2 ⟨hO, hc⟩⟩
  rw [(I.config _ c (configAt_eq.2 ⟨hO, hc⟩)).bump] at he
  rcases he with ⟨h, rfl⟩ | ⟨hva, he | ⟨w1, hw1, he⟩⟩
  · exact .inl ⟨_, _, u, .inr (.inr ⟨_, passes_of hi hl 7 rfl rfl, h⟩)⟩
  · rcases harvest_stake he with ⟨rfl, d, hd, h⟩ | ⟨rfl, h⟩
    · exact .inr (.inl ⟨_, d, _, passes_of hi hl 1 rfl rfl, stake_of_del hsO hd, passes_of hi hl 2 rfl rfl, h⟩)
    · exact ⟨_, _, p0, passes_of hi hl 6 rfl rfl, by rw [hva] at h; exact h⟩
  obtain ⟨_, _, _, _, _, H⟩ := harvest_ok hw1
  rcases he with ⟨h, rfl⟩ | ⟨_, ⟨h, rfl⟩ | ⟨_, _, ⟨h, rfl⟩ | ⟨_, _, t, ht, ⟨h, rfl⟩ | ⟨_, h⟩⟩⟩⟩
  · exact ⟨_, _, u, .inr ⟨⟨_, ps⟩, h⟩⟩
  · exact .inl ⟨_, _, u, .inr (.inl ⟨_, ps, h⟩)⟩
  · exact ⟨_, _, _, u, pv, h⟩
  · exact ⟨_, _, ⟨_, pv, H.token_before ht⟩, passes_of hi hl 4 rfl rfl, h⟩
  · obtain ⟨rfl, rfl⟩ := slashDelegation_stake h
    exact .inr (.inr (.inr hi))

theorem unstakeTokens_blame (P : o.Foreign) {a : UnstakeTokensAccts} {n : Nat}
    (hi : ix.decoded = some (.unstakeTokens n)) (hl : ix.ctx.accts = a.list ++ rest)
    (he : unstakeTokens env o ctx w a n = .error (.stake e)) : Reason env o w ix e := by
  blame unstakeTokens at he
  obtain ⟨hO, c, hc, he⟩ := he
  have p0 : ix.passes .config a.config := passes_of hi hl 0 rfl rfl
  have pv : ix.passes .vault a.vault := passes_of hi hl 5 rfl rfl
  have pk : ix.passes .stake a.stake := passes_of hi hl 3 rfl rfl
  have u : ix.uses w a.config c := ⟨p0, configAt_eq.2 ⟨hO, hc⟩⟩
  rcases he with ⟨h, rfl⟩ | ⟨hv, ⟨h, rfl⟩ | ⟨_, _, t, ht, ⟨h, rfl⟩ | ⟨_, hsO, _, ⟨k, l, lm⟩, _, _, d, hd, _, ⟨h, rfl⟩ |
    ⟨_, ⟨h, rfl⟩ | ⟨_, _, _, _, he | ⟨w1, hw1, d1, hd1, he⟩⟩⟩⟩⟩⟩
  · exact ⟨_, _, _, u, pv, h⟩
  · exact ⟨_, _, u, by rw [← hv, h]; exact passes_of hi hl 9 rfl rfl⟩
  · exact ⟨_, _, p0, passes_of hi hl 6 rfl rfl, h⟩
  · exact .inr (.inl ⟨_, d, _, pk, stake_of_del hsO hd, passes_of hi hl 4 rfl rfl, h⟩)
  · exact ⟨_, _, ⟨_, pv, ht⟩, passes_of hi hl 8 rfl rfl, h⟩
  · rcases harvest_stake he with ⟨rfl, d, hd, h⟩ | ⟨rfl, h⟩
    · exact .inr (.inl ⟨_, d, _, pk, stake_of_del hsO hd, passes_of hi hl 4 rfl rfl, h⟩)
    · exact ⟨_, _, p0, passes_of hi hl 7 rfl rfl, h⟩
  obtain ⟨_, d', _, _, _, H⟩ := harvest_ok hw1
  rw [H.del'] at hd1
  cases hd1
  have hst := stake_of_del hsO H.del
  rcases he with ⟨h, rfl⟩ | ⟨_, ⟨h, rfl⟩ | ⟨hn, m, hm, ⟨h, rfl⟩ | ⟨_, _, _, _, _, _, _, h⟩⟩⟩
  · exact ⟨_, _, d', hi, pk, hst, by simpa [Delegation.marked] using h⟩
  · exact ⟨_, _, d', hi, pk, hst, by simpa [Delegation.marked] using h⟩
  · refine ⟨_, _, d', _, _, hi, pk, hst, u, hn, ?_⟩
    obtain ⟨_, rfl⟩ := mulDivU64_ok.1 hm
    simpa [Delegation.marked, maxBasisPoints] using h
  · exact absurd h.2 (P.withdraw _ _ _)

theorem solStakerMoveTokens_blame {a : SolStakerMoveTokensAccts} {n : Nat}
    (hi : ix.decoded = some (.solStakerMoveTokens n)) (hl : ix.ctx.accts = a.list ++ rest)
    (he : solStakerMoveTokens env ctx w a n = .error (.stake e)) : Reason env o w ix e := by
  blame solStakerMoveTokens at he
  obtain ⟨hO, c, hc, _, hsO, _, s, hs, hk, he⟩ := he
  have p0 : ix.passes .config a.config := passes_of hi hl 0 rfl rfl
  have pa : ix.passes .stakeAuthority a.solStakerAuthority := passes_of hi hl 2 rfl rfl
  have pk : ix.passes .stake a.sourceSolStakerStake := passes_of hi hl 3 rfl rfl
  rcases he with ⟨h, rfl⟩ | ⟨_, he | ⟨w1, hw1, hdO, hnc, hne, t, ht, hkt, he⟩⟩
  · exact .inr (.inl ⟨_, s.del, _, pk, stake_of_del hsO (by rw [hs]; rfl), pa, Ne.symm h⟩)
  · rcases harvest_stake he with ⟨rfl, d, hd, h⟩ | ⟨rfl, h⟩
    · exact .inr (.inl ⟨_, d, _, pk, stake_of_del hsO hd, pa, h⟩)
    · exact ⟨_, _, p0, passes_of hi hl 1 rfl rfl, h⟩
  · obtain ⟨_, d', _, _, _, H⟩ := harvest_ok hw1
    rcases harvest_stake he with ⟨rfl, d, hd, h⟩ | ⟨rfl, h⟩
    · rw [H.data' _ hnc hne] at hd
      rw [H.owner] at hdO
      exact .inr (.inr (.inl ⟨_, d, _, passes_of hi hl 4 rfl rfl, stake_of_del hdO hd, pa, h⟩))
    · exact ⟨_, _, p0, passes_of hi hl 1 rfl rfl, h⟩

theorem validatorOverride_blame {a : ValidatorOverrideStakedLamportsAccts} {n : Nat}
    (hi : ix.decoded = some (.validatorOverrideStakedLamports n)) (hl : ix.ctx.accts = a.list ++ rest)
    (he : validatorOverrideStakedLamports env ctx w a n = .error (.stake e)) : Reason env o w ix e := by
  blame validatorOverrideStakedLamports at he
  obtain ⟨hO, c, hc, ⟨h, rfl⟩ | ⟨_, ⟨h, rfl⟩ | ⟨_, _, hsO, _, s, hs, hk, he⟩⟩⟩ := he
  · exact ⟨_, c, ⟨passes_of hi hl 0 rfl rfl, configAt_eq.2 ⟨hO, hc⟩⟩, .inl ⟨⟨_, passes_of hi hl 1 rfl rfl⟩, h⟩⟩
  · exact .inl ⟨_, c, ⟨passes_of hi hl 0 rfl rfl, configAt_eq.2 ⟨hO, hc⟩⟩, .inl ⟨_, passes_of hi hl 1 rfl rfl, h⟩⟩
  · rcases harvest_stake he with ⟨rfl, d, hd, h⟩ | ⟨rfl, h⟩
    · exact .inr (.inl ⟨_, d, _, passes_of hi hl 2 rfl rfl, stake_of_del hsO hd, passes_of hi hl 3 rfl rfl, h⟩)
    · exact ⟨_, _, passes_of hi hl 0 rfl rfl, passes_of hi hl 4 rfl rfl, h⟩

theorem validatorSyncAuthority_blame {a : ValidatorSyncAuthorityAccts}
    (he : validatorSyncAuthority w a = .error (.stake e)) : False := by
  blame validatorSyncAuthority at he
  obtain ⟨_, _, _, _, he⟩ := he
  split at he
  · simp only [bind_stake, unpackVote_stake, setData_stake, and_false, exists_false, or_self] at he
  · simp at he

theorem Harvested.author {ck hk auth va sk : Key} {keeper : Option Key} {c : Config} {d : Delegation} {h : HolderRewards}
    {rs rh : Nat} (H : Harvested env w w' ck hk auth va sk keeper c d h rs rh) {k : Key} {x : Delegation}
    (hx : (w' k).data.del? = some x) : ∃ y, (w k).data.del? = some y ∧ y.authority = x.authority := by
  by_cases h1 : k = ck
  · subst h1; rw [H.config'] at hx; cases hx
  by_cases h2 : k = sk
  · subst h2
    rw [H.del'] at hx; cases hx
    exact ⟨d, H.del, rfl⟩
  · exact ⟨x, by rw [← H.data' k h1 h2]; exact hx, rfl⟩

theorem Left.author {a : HarvestSolStakerRewardsAccts} {s : SolStakerStake} (L : Left env w w' a s) {k : Key} {x : Delegation}
    (hx : (w' k).data.del? = some x) : ∃ y, (w k).data.del? = some y ∧ y.authority = x.authority := by
  cases L with
  | stay _ _ h => exact ⟨x, by rw [← h]; exact hx, rfl⟩
  | leave _ _ _ R =>
    by_cases h1 : k = a.config
    · subst h1; rw [R.adj.config'] at hx; cases hx
    by_cases h2 : k = a.previousValidatorStake
    · subst h2
      rw [R.adj.stake'] at hx
      cases hx
      exact ⟨_, by rw [R.data]; rfl, by rw [R.d2_eq, R.d1_eq]; rfl⟩
    · exact ⟨x, by rw [← R.data_other h1 h2]; exact hx, rfl⟩

theorem harvestSolStakerRewards_blame (I : Inv env w) (P : o.Foreign) {a : HarvestSolStakerRewardsAccts} {kr : Key}
    (hi : ix.decoded = some .harvestSolStakerRewards) (hl : ix.ctx.accts = [a.solStakeViewProgram, a.config,
      a.vaultHolderRewards, a.solStakerStake, a.solStakerStakeAuthority, a.solStakerNativeStake, a.previousValidatorStake,
      a.previousValidatorStakeAuthority, a.currentValidatorStake, a.currentValidatorStakeAuthority, a.sysvarStakeHistory,
      kr] ++ rest)
    (he : harvestSolStakerRewards env o w a = .error (.stake e)) : Reason env o w ix e := by
  blame harvestSolStakerRewards at he
  obtain ⟨hO, c, hc, hsO, _, s, hs, hk, he⟩ := he
  have p0 : ix.passes .config a.config := passes_of hi hl 1 rfl rfl
  have p2 : ix.passes .record a.vaultHolderRewards := passes_of hi hl 2 rfl rfl
  have pk : ix.passes .stake a.solStakerStake := passes_of hi hl 3 rfl rfl
  rcases he with ⟨h, rfl⟩ | ⟨_, ⟨h, rfl⟩ | ⟨_, hrec, _, _, h | ⟨v, hv, _, he | ⟨w1, hw1, _, he⟩⟩⟩⟩
  · exact .inr (.inl ⟨_, s.del, _, pk, stake_of_del hsO (by rw [hs]; rfl), passes_of hi hl 4 rfl rfl, h⟩)
  · exact ⟨hi, _, s, _, pk, solStakerAt_eq.2 ⟨hsO, hs⟩, passes_of hi hl 5 rfl rfl, h⟩
  · exact absurd h (P.view _ _)
  · rcases harvest_stake he with ⟨rfl, d, hd, h⟩ | ⟨rfl, h⟩
    · exact .inr (.inl ⟨_, d, _, pk, stake_of_del hsO hd, passes_of hi hl 4 rfl rfl, h⟩)
    · exact ⟨_, _, p0, p2, h⟩
  obtain ⟨_, d', _, _, _, H⟩ := harvest_ok hw1
  have W1 := H.wf I.wf
  rcases he with he | ⟨w2, hw2, he⟩
  · blame leaveValidator at he
    obtain ⟨_, hpO, _, _, _, he⟩ := he
    rcases harvest_stake he with ⟨rfl, d, hd, h⟩ | ⟨rfl, h⟩
    · obtain ⟨y, hy, e1⟩ := H.author hd
      rw [H.owner] at hpO
      exact .inr (.inr (.inr (.inl ⟨_, y, _, passes_of hi hl 6 rfl rfl, stake_of_del hpO hy, passes_of hi hl 7 rfl rfl,
        by rw [e1]; exact h⟩)))
    · exact ⟨_, _, p0, p2, h⟩
  · blame joinValidator at he
    obtain ⟨_, _, hpO, _, _, he⟩ := he
    have L := leaveValidator_ok W1 hw2
    rcases harvest_stake he with ⟨rfl, d, hd, h⟩ | ⟨rfl, h⟩
    · obtain ⟨x, hx, e1⟩ := L.author hd
      obtain ⟨y, hy, e2⟩ := H.author hx
      rw [L.owner, H.owner] at hpO
      exact .inr (.inr (.inr (.inr ⟨_, y, _, passes_of hi hl 8 rfl rfl, stake_of_del hpO hy, passes_of hi hl 9 rfl rfl,
        by rw [e2, e1]; exact h⟩)))
    · exact ⟨_, _, p0, p2, h⟩

end Verif
