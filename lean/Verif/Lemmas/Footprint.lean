import Verif.SpecFoot
import Verif.Lemmas.Live
/-!
# Which accounts the handlers change
-/

namespace Verif

variable {env : Env} {o : Oracle} {w w' : World} {ix : Ix} {ctx : Ctx}

theorem Harvested.same_keeper {ck hk auth va sk : Key} {keeper : Option Key} {c : Config} {d : Delegation}
    {h : HolderRewards} {rs rh : Nat} (H : Harvested env w w' ck hk auth va sk keeper c d h rs rh) {k : Key}
    (h1 : k ≠ ck) (h2 : k ≠ sk) (h3 : k ≠ auth) (h4 : keeper ≠ some k) : w' k = w k := by
  refine account_ext ?_ (H.owner k) (H.data' k h1 h2)
  rw [H.lamports', if_neg h3, if_neg h1, if_neg h4]

theorem Transferred.same {source mint dest authority : Key} {signed : Bool} {amount : Nat}
    {s d : TokenAccount} (T : Transferred ctx w w' source mint dest authority signed amount s d) {k : Key}
    (h1 : k ≠ source) (h2 : k ≠ dest) : w' k = w k :=
  account_ext (T.lamports k) (T.owner k) (T.data_other h1 h2)

theorem Burned.same {account mint authority : Key} {amount : Nat} {s : TokenAccount} {m : Mint}
    (B : Burned ctx w w' account mint authority amount s m) {k : Key} (h1 : k ≠ account) (h2 : k ≠ mint) :
    w' k = w k := by
  rw [B.eq]
  refine account_ext (by simp) (by simp) (by simp [World.setD_data, h1, h2])

theorem setD_same {k x : Key} {D : Data} (h : k ≠ x) : w.setD x D k = w k :=
  account_ext (by simp) (by simp) (by simp [World.setD_data, h])

theorem setN_same {k x : Key} {D : Data} (h : k ≠ x) : w.setN x D k = w k :=
  account_ext (by simp) (by simp [World.setN_owner, h]) (by simp [World.setN_data, h])

theorem setO_same {k x p : Key} (h : k ≠ x) : w.setO x p k = w k := by
  simp [World.setO, World.set_apply, h]

theorem setL_same {k x : Key} {l : Nat} (h : k ≠ x) : w.setL x l k = w k :=
  account_ext (by simp [World.setL_lamports, h]) (by simp) (by simp)

theorem StakedOk.same {a : StakeTokensAccts} {n : Nat} {c : Config} {d : Delegation} {hr : HolderRewards}
    {rs rh : Nat} {w1 w2 w3 : World} {D' : Data} {c1 : Config} {d1 d2 : Delegation} {ts td : TokenAccount}
    (S : StakedOk env o ctx w w' a n c d hr rs rh w1 w2 w3 D' c1 d1 d2 ts td) (L : o.Local) {k : Key}
    (h : k ∉ [a.config, a.stake, a.stakeAuthority, a.sourceTokenAccount, a.vault, a.holderRewardsPool,
      a.holderRewardsPoolTokenAccount, a.vaultPda, a.vaultHolderRewards]) : w' k = w k := by
  simp only [List.mem_cons, List.not_mem_nil, or_false, not_or] at h
  obtain ⟨g1, g2, g3, g4, g5, g6, g7, g8, g9⟩ := h
  rw [L.deposit S.deposit k (by simp [RewardsCall.accounts, StakeTokensAccts.call, *]), S.transfer.same g4 g5,
    S.adj.same g1 g2, S.harv.same g1 g2 g3]

theorem UnstakedOk.same {a : UnstakeTokensAccts} {n : Nat} {c : Config} {d : Delegation} {hr : HolderRewards}
    {rs rh : Nat} {w1 w2 w3 : World} {D' : Data} {c1 : Config} {d1 d2 : Delegation} {call : RewardsCall}
    {ts td : TokenAccount}
    (S : UnstakedOk env o ctx w w' a n c d hr rs rh w1 w2 w3 D' c1 d1 d2 call ts td) (L : o.Local) {k : Key}
    (h : k ∉ [a.config, a.stake, a.stakeAuthority, a.vault, a.destinationTokenAccount, a.holderRewardsPool,
      a.holderRewardsPoolTokenAccount, a.vaultPda, a.vaultHolderRewards]) : w' k = w k := by
  simp only [List.mem_cons, List.not_mem_nil, or_false, not_or] at h
  obtain ⟨g1, g2, g3, g4, g5, g6, g7, g8, g9⟩ := h
  rw [S.transfer.same g4 g5, L.withdraw S.withdraw k (by
    rw [S.call_eq]; simp [RewardsCall.accounts, UnstakeTokensAccts.call, *]),
    S.adj.same g1 g2, S.harv.same g1 g2 g3]

theorem SlashedOk.same {a : SlashAccts} {n : Nat} {c : Config} {d : Delegation} {hr : HolderRewards} {rs rh : Nat}
    {w1 w2 : World} {D' : Data} {c1 : Config} {d1 d2 : Delegation}
    (S : SlashedOk env ctx w w' a n c d hr rs rh w1 w2 D' c1 d1 d2) {k : Key}
    (h : k ∉ [a.config, a.stake, a.stakeAuthority, a.vault, a.mint]) : w' k = w k := by
  simp only [List.mem_cons, List.not_mem_nil, or_false, not_or] at h
  obtain ⟨g1, g2, g3, g4, g5⟩ := h
  have hb : w2 k = w1 k := by
    rcases S.burn with ⟨_, e⟩ | ⟨_, t, m, B⟩
    · rw [e]
    · exact B.same g4 g5
  rw [S.adj.same g1 g2, hb, S.harv.same g1 g2 g3]

theorem harvestHolderRewards_same {a : HarvestHolderRewardsAccts} (h : harvestHolderRewards env o w a = .ok w')
    (L : o.Local) {k : Key}
    (hk : k ∉ [a.config, a.vaultPda, a.holderRewardsPool, a.holderRewardsPoolTokenAccount, a.vaultHolderRewards]) :
    w' k = w k := by
  simp only [List.mem_cons, List.not_mem_nil, or_false, not_or] at hk
  obtain ⟨g1, g2, g3, g4, g5⟩ := hk
  simp only [harvestHolderRewards, bind_ok, require_ok, exists_unit, unpackConfig_ok, unpackToken_ok,
    createVaultPda_ok, setData_ok, transferExcess, setLamports_ok] at h
  obtain ⟨hcO, c, hc, hvault, _, tv, htv, _, vs, ⟨hcurve, rfl⟩, hpda, hhO, hhk, c1, hc1, w1, ⟨_, rfl⟩, w2, hw2, w4,
    ⟨hrent, hsup, w3, ⟨hown, rfl⟩, _, rfl⟩, c2, hc2, _, rfl⟩ := h
  rw [setD_same g1, setL_same g1, setL_same g2,
    L.harvestRewards hw2 k (by simp only [RewardsCall.accounts]; simp [g2, g3, g4, g5]), setD_same g1]

theorem Retotaled.same {ck hk auth sk : Key} {v : ValidatorStake} {total : Nat} {c : Config}
    {hr : HolderRewards} {rs rh : Nat} {w1 : World} {c1 : Config} {d1 d2 : Delegation}
    (R : Retotaled env w w' ck hk auth sk v total c hr rs rh w1 c1 d1 d2) {k : Key} (h1 : k ≠ ck) (h2 : k ≠ sk)
    (h3 : k ≠ auth) : w' k = w k := by
  rw [R.adj.same h1 h2, R.harv.same h1 h2 h3]

theorem harvestSolStakerRewards_same (W : w.WF) {a : HarvestSolStakerRewardsAccts}
    (h : harvestSolStakerRewards env o w a = .ok w') {k : Key}
    (hk : k ∉ [a.config, a.solStakerStake, a.solStakerStakeAuthority, a.previousValidatorStake,
      a.previousValidatorStakeAuthority, a.currentValidatorStake, a.currentValidatorStakeAuthority])
    (hkp : a.keeperRecipient ≠ some k) : w' k = w k := by
  simp only [List.mem_cons, List.not_mem_nil, or_false, not_or] at hk
  obtain ⟨g1, g2, g3, g4, g5, g6, g7⟩ := hk
  obtain ⟨s, v, c, hr, rs, rh, w1, _, S⟩ := harvestSolStakerRewards_ok W h
  cases S with
  | noSync _ _ H e => rw [e]; exact H.same g1 g2 g3
  | sync _ hkp' H L J _ _ A =>
    rw [A.same g1 g2]
    have e1 : ∀ {u u' vote l}, Joined env u u' a v.delegatedVote v.effective vote l → u' k = u k := by
      intro u u' vote l J
      cases J with
      | undelegated _ h => rw [h]
      | absent _ _ _ h => rw [h]
      | join _ hk R => exact R.same g1 g6 g7
    have e2 : ∀ {u u'}, Left env u u' a s → u' k = u k := by
      intro u u' L
      cases L with
      | stay _ _ h => rw [h]
      | leave _ hk _ R => exact R.same g1 g4 g5
    rw [e1 J, e2 L, H.same_keeper g1 g2 g3 (by rw [← hkp']; exact hkp)]

theorem solStakerMoveTokens_same {a : SolStakerMoveTokensAccts} {n : Nat}
    (h : solStakerMoveTokens env ctx w a n = .ok w') {k : Key}
    (hk : k ∉ [a.config, a.solStakerAuthority, a.sourceSolStakerStake, a.destinationSolStakerStake]) : w' k = w k := by
  simp only [List.mem_cons, List.not_mem_nil, or_false, not_or] at hk
  obtain ⟨g1, g2, g3, g4⟩ := hk
  obtain ⟨c, c', s, t, hr, rs, rh, rs', rh', w1, w2, wx, cs, ct, ds, dt, ds', dt', M⟩ := solStakerMoveTokens_ok h
  rw [M.adjT.same g1 g4, M.adjS.same g1 g3, M.harvT.same g1 g4 g2, M.harvS.same g1 g3 g2]

/-- An account outside the footprint is unchanged. -/
theorem ran_same (W : w.WF) (L : o.Local) (h : Ran env o w w' ix) {i : StakeInstruction}
    (hi : ix.decoded = some i) {k : Key} (hk : ∀ p ∈ footprint i, ix.acct p ≠ some k) : w' k = w k := by
  have hk' : ∀ p ∈ footprint i, ix.ctx.accts[p]? ≠ some k := hk
  clear hk
  cases h with
  | initializeConfig a s c x t b y rest h1 h2 h3 =>
    rw [hi] at h1; cases h1
    simp [footprint, h2, InitializeConfigAccts.list, eq_comm (b := k)] at hk'
    obtain ⟨w1, b, t, _, _, hw1, _, _, _, _, _, _, _, _, _, _, _, _, rfl⟩ := initializeConfig_ok h3
    rw [setD_same hk'.1]
    rcases hw1 with ⟨_, rfl⟩ | ⟨_, rfl⟩
    · rfl
    · exact setO_same hk'.2
  | initializeValidatorStake a rest h1 h2 h3 =>
    rw [hi] at h1; cases h1
    simp [footprint, h2, InitializeValidatorStakeAccts.list, eq_comm (b := k)] at hk'
    obtain ⟨c, wd, _, _, _, _, _, _, _, _, _, rfl⟩ := initializeValidatorStake_ok h3
    exact setN_same hk'
  | validatorStakeTokens a n rest h1 h2 h3 =>
    rw [hi] at h1; cases h1
    simp [footprint, h2, StakeTokensAccts.list, eq_comm (b := k)] at hk'
    obtain ⟨c, s, hr, rs, rh, w1, w2, w3, c1, ts, td, _, _, S⟩ := validatorStakeTokens_ok h3
    exact S.same L (by simpa using hk')
  | harvestHolderRewards a rest h1 h2 h3 =>
    rw [hi] at h1; cases h1
    simp [footprint, h2, HarvestHolderRewardsAccts.list, eq_comm (b := k)] at hk'
    exact harvestHolderRewards_same h3 L (by simpa using hk')
  | harvestValidatorRewards a rest h1 h2 h3 =>
    rw [hi] at h1; cases h1
    simp [footprint, h2, HarvestValidatorRewardsAccts.list, eq_comm (b := k)] at hk'
    obtain ⟨c, s, hr, rs, rh, _, _, _, _, H⟩ := harvestValidatorRewards_ok h3
    exact H.same hk'.1 hk'.2.1 hk'.2.2
  | slashValidatorStake a n rest h1 h2 h3 =>
    rw [hi] at h1; cases h1
    simp [footprint, h2, SlashAccts.listValidator, eq_comm (b := k)] at hk'
    obtain ⟨c, s, hr, rs, rh, w1, w2, c1, _, _, S⟩ := slashValidatorStake_ok h3
    exact S.same (by simpa using hk')
  | setAuthority a t rest h1 h2 h3 =>
    rw [hi] at h1; cases h1
    simp [footprint, h2, SetAuthorityAccts.list, eq_comm (b := k)] at hk'
    obtain ⟨c, c', _, _, _, rfl, _⟩ := setAuthority_ok h3
    exact setD_same hk'
  | updateConfig a f rest h1 h2 h3 =>
    rw [hi] at h1; cases h1
    simp [footprint, h2, UpdateConfigAccts.list, eq_comm (b := k)] at hk'
    obtain ⟨c, _, _, _, _, _, _, rfl⟩ := updateConfig_ok h3
    exact setD_same hk'
  | initializeSolStakerStake a rest h1 h2 h3 =>
    rw [hi] at h1; cases h1
    simp [footprint, h2, InitializeSolStakerStakeAccts.list, eq_comm (b := k)] at hk'
    obtain ⟨c, v, vs, au, _, _, _, _, _, _, _, _, _, _, _, _, _, _, _, _, _, rfl⟩ := initializeSolStakerStake_ok h3
    rw [setD_same hk'.2, setN_same hk'.1]
  | solStakerStakeTokens a n rest h1 h2 h3 =>
    rw [hi] at h1; cases h1
    simp [footprint, h2, StakeTokensAccts.list, eq_comm (b := k)] at hk'
    obtain ⟨c, s, hr, rs, rh, w1, w2, w3, c1, ts, td, _, _, S⟩ := solStakerStakeTokens_ok h3
    exact S.same L (by simpa using hk')
  | harvestSolStakerRewards a keeper rest h1 h2 h3 h4 =>
    rw [hi] at h1; cases h1
    simp [footprint, h2, HarvestSolStakerRewardsAccts.list, eq_comm (b := k)] at hk'
    obtain ⟨g1, g2, g3, g4, g5, g6, g7, g8⟩ := hk'
    refine harvestSolStakerRewards_same W h4 (by simp [*]) ?_
    rw [h3]
    split_ifs
    · simp
    · simpa [eq_comm] using g8
  | unstakeTokens a n rest h1 h2 h3 =>
    rw [hi] at h1; cases h1
    simp [footprint, h2, UnstakeTokensAccts.list, eq_comm (b := k)] at hk'
    obtain ⟨c, d, hr, rs, rh, w1, w2, w3, c1, D', call, ts, td, lam, S, _⟩ := unstakeTokens_ok h3
    exact S.same L (by simpa using hk')
  | slashSolStakerStake a n rest h1 h2 h3 =>
    rw [hi] at h1; cases h1
    simp [footprint, h2, SlashAccts.listSolStaker, eq_comm (b := k)] at hk'
    obtain ⟨c, s, hr, rs, rh, w1, w2, c1, _, _, S⟩ := slashSolStakerStake_ok h3
    exact S.same (by simpa using hk')
  | solStakerMoveTokens a n rest h1 h2 h3 =>
    rw [hi] at h1; cases h1
    simp [footprint, h2, SolStakerMoveTokensAccts.list, eq_comm (b := k)] at hk'
    exact solStakerMoveTokens_same h3 (by simpa using hk')
  | validatorOverrideStakedLamports a n rest h1 h2 h3 =>
    rw [hi] at h1; cases h1
    simp [footprint, h2, ValidatorOverrideStakedLamportsAccts.list, eq_comm (b := k)] at hk'
    obtain ⟨c, s, hr, rs, rh, w1, c1, _, _, _, _, _, _, _, H, A⟩ := validatorOverrideStakedLamports_ok h3
    rw [A.same hk'.1 hk'.2.1, H.same hk'.1 hk'.2.1 hk'.2.2]
  | validatorSyncAuthority a rest h1 h2 h3 =>
    rw [hi] at h1; cases h1
    simp [footprint, h2, ValidatorSyncAuthorityAccts.list, eq_comm (b := k)] at hk'
    obtain ⟨s, wd, _, _, _, _, _, _, _, rfl⟩ := validatorSyncAuthority_ok h3
    exact setD_same hk'

theorem exec_same (W : w.WF) (L : o.Local) (h : exec env o w ix = .ok w') {i : StakeInstruction}
    (hi : ix.decoded = some i) {k : Key} (hk : ∀ p ∈ footprint i, ix.acct p ≠ some k) : w' k = w k :=
  ran_same W L (exec_ran h) hi hk

end Verif
