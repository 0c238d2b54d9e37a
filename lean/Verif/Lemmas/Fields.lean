import Verif.Lemmas.Change
import Verif.Lemmas.Invert
/-!
# Which instructions change the fields of a stake account outside its delegation

`F` reads something from an account's data that does not depend on amounts, markers, cooldown or authority.
-/

namespace Verif

variable {env : Env} {o : Oracle} {ctx : Ctx} {w w' w'' : World} {ix : Ix} {α : Type}

/-- `F` only looks at the vote account and at what lies outside the delegation. -/
def SeesIdentity (F : Data → α) : Prop :=
  ∀ (D : Data) (d d' : Delegation), D.del? = some d → d'.vote = d.vote → F (D.setDel d') = F D

/-- `F` does not look at a validator's total. -/
def IgnoresTotal (F : Data → α) : Prop :=
  ∀ (v : ValidatorStake) (d' : Delegation) (t : Nat), d'.vote = v.del.vote →
    F (.validator { v with del := d', total := t }) = F (.validator v)

/-- The account at `k`, if it is a stake account, remains one, with the same `F`. -/
def Keep (F : Data → α) (k : Key) (w w' : World) : Prop :=
  ∀ D d, st w k = some D → D.del? = some d → ∃ D' d', st w' k = some D' ∧ D'.del? = some d' ∧ F D' = F D

theorem Keep.of_eq {F : Data → α} {k : Key} (h : st w' k = st w k) : Keep F k w w' :=
  fun D d hD hd => ⟨D, d, by rw [h]; exact hD, hd, rfl⟩

theorem Keep.trans {F : Data → α} {k : Key} (h : Keep F k w w') (h' : Keep F k w' w'') : Keep F k w w'' := by
  intro D d hD hd
  obtain ⟨D1, d1, h1, h2, h3⟩ := h D d hD hd
  obtain ⟨D2, d2, g1, g2, g3⟩ := h' D1 d1 h1 h2
  exact ⟨D2, d2, g1, g2, g3.trans h3⟩

variable {F : Data → α}

theorem Harvested.keep (hF : SeesIdentity F) {ck hk auth va sk : Key} {keeper : Option Key} {c : Config}
    {d : Delegation} {h : HolderRewards} {rs rh : Nat}
    (H : Harvested env w w' ck hk auth va sk keeper c d h rs rh) (hcO : (w ck).owner = progId)
    (hsO : (w sk).owner = progId) (k : Key) : Keep F k w w' := by
  intro D x hD hx
  have := H.st_eq hcO hsO k
  by_cases h1 : k = ck
  · subst h1
    have h2 := st_of_owned hcO H.config (Or.inl ⟨_, rfl⟩)
    rw [hD] at h2; cases h2; simp [Data.del?] at hx
  · rw [if_neg h1] at this
    by_cases h2 : k = sk
    · subst h2
      rw [if_pos rfl] at this
      have h3 := st_of_owned hsO rfl (Or.inr ⟨_, H.del⟩)
      rw [hD] at h3; cases h3
      exact ⟨_, _, this, del?_setDel H.del, hF _ _ _ H.del rfl⟩
    · rw [if_neg h2] at this
      exact Keep.of_eq this D x hD hx

theorem Adjusted.keep {ck sk : Key} {D' : Data} {c : Config} {d d' : Delegation}
    (A : Adjusted w w' ck sk D' c d d') (hcO : (w ck).owner = progId) (hsO : (w sk).owner = progId) {k : Key}
    (hD' : k = sk → F D' = F (w sk).data) : Keep F k w w' := by
  intro D x hD hx
  have := A.st_eq hcO hsO k
  by_cases h1 : k = ck
  · subst h1
    have h2 := st_of_owned hcO A.config (Or.inl ⟨_, rfl⟩)
    rw [hD] at h2; cases h2; simp [Data.del?] at hx
  · rw [if_neg h1] at this
    by_cases h2 : k = sk
    · subst h2
      rw [if_pos rfl] at this
      have h3 := st_of_owned hsO rfl (Or.inr ⟨_, A.del⟩)
      rw [hD] at h3; cases h3
      exact ⟨_, _, this, A.del', hD' rfl⟩
    · rw [if_neg h2] at this
      exact Keep.of_eq this D x hD hx

theorem ext_keep (I : Inv env w) (h : ExtStep w w') (k : Key) : Keep F k w w' := Keep.of_eq (ext_st I h k)

theorem F_validator (hF : SeesIdentity F) {v : ValidatorStake} {d d' : Delegation} (h : d'.vote = d.vote) :
    F (.validator { v with del := d' }) = F (.validator { v with del := d }) :=
  hF (.validator { v with del := d }) d d' rfl h

theorem F_solStaker (hF : SeesIdentity F) {s : SolStakerStake} {d d' : Delegation} (h : d'.vote = d.vote) :
    F (.solStaker { s with del := d' }) = F (.solStaker { s with del := d }) :=
  hF (.solStaker { s with del := d }) d d' rfl h

theorem Retotaled.keep (hF : SeesIdentity F) {ck hk auth sk : Key} {v : ValidatorStake} {total : Nat} {c : Config}
    {hr : HolderRewards} {rs rh : Nat} {w1 : World} {c1 : Config} {d1 d2 : Delegation}
    (R : Retotaled env w w' ck hk auth sk v total c hr rs rh w1 c1 d1 d2) (hcO : (w ck).owner = progId) {k : Key}
    (hk : k = sk → IgnoresTotal F) : Keep F k w w' := by
  refine (R.harv.keep hF hcO R.owner k).trans (R.adj.keep (by rw [R.harv.owner]; exact hcO)
    (by rw [R.harv.owner]; exact R.owner) ?_)
  intro h
  rw [(R.harv.validator' R.data).2]
  have hv : d2.vote = v.del.vote := by rw [R.d2_eq, R.d1_eq]; rfl
  rw [hk h v d2 total hv]
  exact (F_validator hF (v := v) (d := v.del) (d' := v.del.marked (accNow c (w ck).lamports) hr.lastAcc) rfl).symm

theorem Left.keep (hF : SeesIdentity F) {a : HarvestSolStakerRewardsAccts} {s : SolStakerStake}
    (L : Left env w w' a s) (hcO : (w a.config).owner = progId) {k : Key}
    (hk : k = a.previousValidatorStake → IgnoresTotal F) : Keep F k w w' := by
  cases L with
  | stay _ _ h => rw [h]; exact Keep.of_eq rfl
  | leave _ _ _ R => exact R.keep hF hcO hk

theorem Joined.keep (hF : SeesIdentity F) {a : HarvestSolStakerRewardsAccts} {dv vote : Key} {ds l : Nat}
    (J : Joined env w w' a dv ds vote l) (hcO : (w a.config).owner = progId) {k : Key}
    (hk : k = a.currentValidatorStake → IgnoresTotal F) : Keep F k w w' := by
  cases J with
  | undelegated _ h => rw [h]; exact Keep.of_eq rfl
  | absent _ _ _ h => rw [h]; exact Keep.of_eq rfl
  | join _ _ R => exact R.keep hF hcO hk

/-- Where an instruction may change `F`. -/
def Touches (T : Prop) (ix : Ix) (k : Key) : Prop :=
  (∃ n, ix.decoded = some (.validatorOverrideStakedLamports n) ∧ ix.acct 2 = some k) ∨
  (ix.decoded = some .harvestSolStakerRewards ∧ (ix.acct 3 = some k ∨ (¬ T ∧ (ix.acct 6 = some k ∨ ix.acct 8 = some k)))) ∨
  (¬ T ∧ ix.decoded = some .initializeSolStakerStake ∧ ix.acct 4 = some k)

theorem exec_keep (I : Inv env w) (O : o.Ok) (h : exec env o w ix = .ok w') (hF : SeesIdentity F) {k : Key}
    (hk : ¬ Touches (IgnoresTotal F) ix k) : Keep F k w w' := by
  cases exec_ran h with
  | initializeConfig a s c hh t b y rest hi hl hr =>
    intro D d hD hd
    cases exec_effect I O h with
    | initializeConfig ck c' _ _ h0 _ e =>
      refine Keep.of_eq ?_ D d hD hd
      rw [e]; unfold stUpd; rw [if_neg]
      rintro rfl; rw [hD] at h0; simp at h0
    | initializeValidatorStake => simp_all
    | initializeSolStakerStake => simp_all
    | setAuthority => simp_all
    | updateConfig => simp_all
    | validatorSyncAuthority => simp_all
    | settle _ h => simp_all
    | stake => simp_all
    | slash => simp_all
    | unstake => simp_all
    | move => simp_all
  | initializeValidatorStake a rest hi hl hr =>
    obtain ⟨c, wd, _, _, _, _, _, _, hb, ho, _, rfl⟩ := initializeValidatorStake_ok hr
    by_cases h1 : k = a.validatorStake
    · intro D d hD hd
      subst h1
      have : st w a.validatorStake = none := by unfold st; rw [hb]; split <;> rfl
      rw [hD] at this; simp at this
    · exact Keep.of_eq (st_congr (by rw [World.setN_owner, if_neg h1]) (by rw [World.setN_data, if_neg h1]))
  | initializeSolStakerStake a rest hi hl hr =>
    obtain ⟨c, v, vs, au, _, _, _, _, _, _, _, hvO, hk1, hvs, hk2, hb, _, _, _, _, _, rfl⟩ := initializeSolStakerStake_ok hr
    by_cases h1 : k = a.solStakerStake
    · intro D d hD hd
      subst h1
      have : st w a.solStakerStake = none := by unfold st; rw [hb]; split <;> rfl
      rw [hD] at this; simp at this
    · by_cases h2 : k = a.validatorStake
      · have hT : IgnoresTotal F := by
          by_contra hT
          exact hk (Or.inr (Or.inr ⟨hT, hi, by simp [Ix.acct, hl, InitializeSolStakerStakeAccts.list, h2]⟩))
        intro D d hD hd
        have h3 := st_of_owned hvO hvs (Or.inr ⟨_, rfl⟩)
        rw [h2, h3] at hD; cases hD
        refine ⟨_, _, st_of_owned ?_ (by rw [h2, World.setD_data, if_pos rfl]) (Or.inr ⟨_, rfl⟩), rfl, hT vs vs.del _ rfl⟩
        rw [World.setD_owner, World.setN_owner, if_neg h1, h2]; exact hvO
      · exact Keep.of_eq (st_congr (by rw [World.setD_owner, World.setN_owner, if_neg h1])
          (by rw [World.setD_data, if_neg h2, World.setN_data, if_neg h1]))
  | setAuthority a t rest hi hl hr =>
    obtain ⟨c, c', _, _, hc, rfl, _⟩ := setAuthority_ok hr
    by_cases h1 : k = a.account
    · intro D d hD hd
      subst h1
      have h2 := st_of_owned ‹_› hc (Or.inl ⟨_, rfl⟩)
      rw [hD] at h2; cases h2; simp [Data.del?] at hd
    · exact Keep.of_eq (st_congr (by simp) (by rw [World.setD_data, if_neg h1]))
  | updateConfig a f rest hi hl hr =>
    obtain ⟨c, _, hc, _, _, _, _, rfl⟩ := updateConfig_ok hr
    by_cases h1 : k = a.config
    · intro D d hD hd
      subst h1
      have h2 := st_of_owned ‹_› hc (Or.inl ⟨_, rfl⟩)
      rw [hD] at h2; cases h2; simp [Data.del?] at hd
    · exact Keep.of_eq (st_congr (by simp) (by rw [World.setD_data, if_neg h1]))
  | validatorSyncAuthority a rest hi hl hr =>
    obtain ⟨s, wd, _, _, _, hs, _, _, _, rfl⟩ := validatorSyncAuthority_ok hr
    by_cases h1 : k = a.validatorStake
    · intro D d hD hd
      have ho : (w k).owner = progId := by
        by_contra hne
        unfold st at hD; rw [if_neg hne] at hD; simp at hD
      have h3 := st_of_owned (D := .validator s) ho (by rw [h1]; exact hs) (Or.inr ⟨_, rfl⟩)
      rw [hD] at h3; cases h3
      refine ⟨_, _, st_of_owned (by simpa using ho) (by rw [h1, World.setD_data, if_pos rfl]) (Or.inr ⟨_, rfl⟩), rfl, ?_⟩
      exact F_validator hF (v := s) (d := s.del) rfl
    · exact Keep.of_eq (st_congr (by simp) (by rw [World.setD_data, if_neg h1]))
  | validatorStakeTokens a n rest hi hl hr =>
    obtain ⟨c, s, hr, rs, rh, w1, w2, w3, c1, ts, td, hs, _, S⟩ := validatorStakeTokens_ok hr
    obtain ⟨I1, I2, I3, e3, e4, _⟩ := validatorStakeTokens_inv I O hs S
    refine (S.harv.keep hF S.cO S.sO k).trans ((S.adj.keep (by rw [S.harv.owner]; exact S.cO)
      (by rw [S.harv.owner]; exact S.sO) ?_).trans ((ext_keep I2 e3 k).trans (ext_keep I3 e4 k)))
    intro _; rw [(S.harv.validator' hs).2]; exact F_validator hF rfl
  | solStakerStakeTokens a n rest hi hl hr =>
    obtain ⟨c, s, hr, rs, rh, w1, w2, w3, c1, ts, td, hs, _, S⟩ := solStakerStakeTokens_ok hr
    obtain ⟨I1, I2, I3, e3, e4, _⟩ := solStakerStakeTokens_inv I O hs S
    refine (S.harv.keep hF S.cO S.sO k).trans ((S.adj.keep (by rw [S.harv.owner]; exact S.cO)
      (by rw [S.harv.owner]; exact S.sO) ?_).trans ((ext_keep I2 e3 k).trans (ext_keep I3 e4 k)))
    intro _; rw [(S.harv.solStaker' hs).2]; exact F_solStaker hF rfl
  | unstakeTokens a n rest hi hl hr =>
    obtain ⟨c, d, hr, rs, rh, w1, w2, w3, c1, D', call, ts, td, lam, S, K⟩ := unstakeTokens_ok hr
    obtain ⟨I1, I2, I3, e3, e4, _⟩ := unstakeTokens_inv I O S K
    refine (S.harv.keep hF S.cO S.sO k).trans ((S.adj.keep (by rw [S.harv.owner]; exact S.cO)
      (by rw [S.harv.owner]; exact S.sO) ?_).trans ((ext_keep I2 e3 k).trans (ext_keep I3 e4 k)))
    intro _
    rcases K with ⟨s, hs, _, rfl, _, hD⟩ | ⟨s, hs, _, rfl, _, hD⟩
    · rw [(S.harv.validator' hs).2, hD]; exact F_validator hF rfl
    · rw [(S.harv.solStaker' hs).2, hD]; exact F_solStaker hF rfl
  | slashValidatorStake a n rest hi hl hr =>
    obtain ⟨c, s, hr, rs, rh, w1, w2, c1, hs, _, S⟩ := slashValidatorStake_ok hr
    obtain ⟨I1, e, I2, _⟩ := slashValidatorStake_inv I hs S
    have hb : w2 a.stake = w1 a.stake ∨ (w2 a.stake).data = (w1 a.stake).data := by
      right
      have h1 : stakeAt w1 a.stake = some _ := stakeAt_eq.2 ⟨by rw [S.harv.owner]; exact S.sO, S.harv.del'⟩
      exact (ext_stake I1 e h1).2.1
    have hO : ∀ k, (w1 k).owner = progId → (w2 k).owner = progId := by
      intro k h
      rcases S.burn with ⟨_, e⟩ | ⟨_, t, m, B⟩
      · rw [e]; exact h
      · rw [B.eq]; simpa using h
    refine (S.harv.keep hF S.cO S.sO k).trans ((ext_keep I1 e k).trans (S.adj.keep
      (hO _ (by rw [S.harv.owner]; exact S.cO)) (hO _ (by rw [S.harv.owner]; exact S.sO)) ?_))
    intro _
    rcases hb with hb | hb
    · rw [hb, (S.harv.validator' hs).2]; exact F_validator hF rfl
    · rw [hb, (S.harv.validator' hs).2]; exact F_validator hF rfl
  | slashSolStakerStake a n rest hi hl hr =>
    obtain ⟨c, s, hr, rs, rh, w1, w2, c1, hs, _, S⟩ := slashSolStakerStake_ok hr
    obtain ⟨I1, e, I2, _⟩ := slashSolStakerStake_inv I hs S
    have h1 : stakeAt w1 a.stake = some _ := stakeAt_eq.2 ⟨by rw [S.harv.owner]; exact S.sO, S.harv.del'⟩
    have hb := (ext_stake I1 e h1).2.1
    have hO : ∀ k, (w1 k).owner = progId → (w2 k).owner = progId := by
      intro k h
      rcases S.burn with ⟨_, e⟩ | ⟨_, t, m, B⟩
      · rw [e]; exact h
      · rw [B.eq]; simpa using h
    refine (S.harv.keep hF S.cO S.sO k).trans ((ext_keep I1 e k).trans (S.adj.keep
      (hO _ (by rw [S.harv.owner]; exact S.cO)) (hO _ (by rw [S.harv.owner]; exact S.sO)) ?_))
    intro _
    rw [hb, (S.harv.solStaker' hs).2]; exact F_solStaker hF rfl
  | harvestHolderRewards a rest hi hl hr =>
    obtain ⟨c, hc, hst⟩ := harvestHolderRewards_st I O hr
    by_cases h1 : k = a.config
    · intro D d hD hd
      have h2 := st_config.2 hc
      rw [h1, h2] at hD; cases hD; simp [Data.del?] at hd
    · exact Keep.of_eq (by rw [hst, if_neg h1])
  | harvestValidatorRewards a rest hi hl hr =>
    obtain ⟨c, s, hr, rs, rh, hcO, hsO, _, _, H⟩ := harvestValidatorRewards_ok hr
    exact H.keep hF hcO hsO k
  | harvestSolStakerRewards a keeper rest hi hl hkp hr =>
    obtain ⟨s, v, c, hr, rs, rh, w1, B, H⟩ := harvestSolStakerRewards_ok I.wf hr
    cases H with
    | noSync _ _ H hw => rw [hw]; exact H.keep hF B.cO B.sO k
    | @sync kp w2 w3 vote l c1 d1 d2 _ _ H L J hd1 hd2 A =>
      have hc1 : (w1 a.config).owner = progId := by rw [H.owner]; exact B.cO
      have hc2 : (w2 a.config).owner = progId := by rw [L.owner]; exact hc1
      have hc3 : (w3 a.config).owner = progId := by rw [J.owner]; exact hc2
      refine (H.keep hF B.cO B.sO k).trans ((L.keep hF hc1 ?_).trans ((J.keep hF hc2 ?_).trans
        (A.keep hc3 (by rw [J.owner, L.owner, H.owner]; exact B.sO) ?_)))
      · intro e; by_contra hT
        exact hk (Or.inr (Or.inl ⟨hi, Or.inr ⟨hT, Or.inl (by simp [Ix.acct, hl, HarvestSolStakerRewardsAccts.list, e])⟩⟩))
      · intro e; by_contra hT
        exact hk (Or.inr (Or.inl ⟨hi, Or.inr ⟨hT, Or.inr (by simp [Ix.acct, hl, HarvestSolStakerRewardsAccts.list, e])⟩⟩))
      · intro e
        exact absurd (Or.inr (Or.inl ⟨hi, Or.inl (by simp [Ix.acct, hl, HarvestSolStakerRewardsAccts.list, e])⟩)) hk
  | solStakerMoveTokens a n rest hi hl hr =>
    obtain ⟨c, c', s, t, hr, rs, rh, rs', rh', w1, w2, wx, cs, ct, ds, dt, ds', dt', M⟩ := solStakerMoveTokens_ok hr
    have o1 : ∀ k, (w1 k).owner = (w k).owner := M.harvS.owner
    have o2 : ∀ k, (w2 k).owner = (w k).owner := fun k => (M.harvT.owner k).trans (o1 k)
    have o3 : ∀ k, (wx k).owner = (w k).owner := fun k => (M.adjS.owner k).trans (o2 k)
    refine (M.harvS.keep hF M.cO M.sO k).trans ((M.harvT.keep hF (by rw [o1]; exact M.cO) (by rw [o1]; exact M.tO) k).trans
      ((M.adjS.keep (by rw [o2]; exact M.cO) (by rw [o2]; exact M.sO) ?_).trans
        (M.adjT.keep (by rw [o3]; exact M.cO) (by rw [o3]; exact M.tO) ?_)))
    · intro _
      rw [M.harvT.data' _ M.harvS.ne (Ne.symm M.ne), (M.harvS.solStaker' M.src).2]
      exact F_solStaker hF (by rw [M.ds'_eq, M.ds_eq]; rfl)
    · intro _
      have ht : (w1 a.destinationSolStakerStake).data = .solStaker t := by
        rw [M.harvS.data' _ M.harvT.ne M.ne]; exact M.dst
      rw [M.adjS.data' _ M.harvT.ne M.ne, (M.harvT.solStaker' ht).2]
      exact F_solStaker hF (by rw [M.dt'_eq, M.dt_eq]; rfl)
  | validatorOverrideStakedLamports a n rest hi hl hr =>
    obtain ⟨c, s, hr, rs, rh, w1, c1, hcO, hsO, hs, _, _, _, _, H, A⟩ := validatorOverrideStakedLamports_ok hr
    refine (H.keep hF hcO hsO k).trans (A.keep (by rw [H.owner]; exact hcO) (by rw [H.owner]; exact hsO) ?_)
    intro e
    exact absurd (Or.inl ⟨n, hi, by simp [Ix.acct, hl, ValidatorOverrideStakedLamportsAccts.list, e]⟩) hk

end Verif
