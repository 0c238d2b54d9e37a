import Verif.Lemmas.Invert
/-!
# Accounts of other programs

What an instruction does to token accounts, mints, vote accounts and holder rewards records.
-/

namespace Verif

/-- The data of another program's account. -/
def Data.foreign : Data → Option Data
  | .token t => some (.token t)
  | .mint m => some (.mint m)
  | .vote k => some (.vote k)
  | .holder h => some (.holder h)
  | _ => none

/-- What is stored at an address, seen by other programs. -/
def fv (w : World) (k : Key) : Option Data := (w k).data.foreign

variable {env : Env} {o : Oracle} {w w' w'' : World} {ctx : Ctx}

theorem tokenAt_fv (w : World) (k : Key) : tokenAt w k = match fv w k with | some (.token t) => some t | _ => none := by
  unfold tokenAt fv; cases (w k).data <;> rfl
theorem mintAt_fv (w : World) (k : Key) : mintAt w k = match fv w k with | some (.mint t) => some t | _ => none := by
  unfold mintAt fv; cases (w k).data <;> rfl
theorem holderAt_fv (w : World) (k : Key) : holderAt w k = match fv w k with | some (.holder t) => some t | _ => none := by
  unfold holderAt fv; cases (w k).data <;> rfl

theorem tokenAt_of_fv {k : Key} (h : fv w' k = fv w k) : tokenAt w' k = tokenAt w k := by
  rw [tokenAt_fv, tokenAt_fv, h]
theorem mintAt_of_fv {k : Key} (h : fv w' k = fv w k) : mintAt w' k = mintAt w k := by
  rw [mintAt_fv, mintAt_fv, h]
theorem holderAt_of_fv {k : Key} (h : fv w' k = fv w k) : holderAt w' k = holderAt w k := by
  rw [holderAt_fv, holderAt_fv, h]

theorem tokenAt_eq {k : Key} {t : TokenAccount} : tokenAt w k = some t ↔ (w k).data = .token t := by
  unfold tokenAt; split <;> simp_all
theorem mintAt_eq {k : Key} {t : Mint} : mintAt w k = some t ↔ (w k).data = .mint t := by
  unfold mintAt; split <;> simp_all
theorem holderAt_eq {k : Key} {h : HolderRewards} : holderAt w k = some h ↔ (w k).data = .holder h := by
  unfold holderAt; split <;> simp_all

theorem foreign_of_del {D : Data} {d : Delegation} (h : D.del? = some d) : D.foreign = none := by
  cases D <;> simp_all [Data.del?, Data.foreign]

theorem foreign_setDel {D : Data} {d x : Delegation} (h : D.del? = some d) : (D.setDel x).foreign = none := by
  exact foreign_of_del (del?_setDel h)

theorem Harvested.fv {ck hk auth va sk : Key} {keeper : Option Key} {c : Config} {d : Delegation} {h : HolderRewards}
    {rs rh : Nat} (H : Harvested env w w' ck hk auth va sk keeper c d h rs rh) : Verif.fv w' = Verif.fv w := by
  funext k
  unfold Verif.fv
  by_cases h1 : k = ck
  · subst h1; rw [H.config', H.config]; rfl
  · by_cases h2 : k = sk
    · subst h2; rw [H.stake', foreign_setDel H.del, foreign_of_del H.del]
    · rw [H.data' k h1 h2]

theorem Adjusted.fv {ck sk : Key} {D' : Data} {c : Config} {d d' : Delegation}
    (A : Adjusted w w' ck sk D' c d d') : Verif.fv w' = Verif.fv w := by
  funext k
  unfold Verif.fv
  by_cases h1 : k = ck
  · subst h1; rw [A.config', A.config]; rfl
  · by_cases h2 : k = sk
    · subst h2; rw [A.stake', foreign_of_del A.del', foreign_of_del A.del]
    · rw [A.data' k h1 h2]

theorem fv_setD {k : Key} {D : Data} (h : (w k).data.foreign = none) (h' : D.foreign = none) : fv (w.setD k D) = fv w := by
  funext x
  unfold fv; rw [World.setD_data]
  split_ifs with e
  · subst e; rw [h, h']
  · rfl

theorem fv_setN {k : Key} {D : Data} (h : (w k).data.foreign = none) (h' : D.foreign = none) : fv (w.setN k D) = fv w := by
  funext x
  unfold fv; rw [World.setN_data]
  split_ifs with e
  · subst e; rw [h, h']
  · rfl

theorem Retotaled.fv {ck hk auth sk : Key} {v : ValidatorStake} {total : Nat} {c : Config}
    {hr : HolderRewards} {rs rh : Nat} {w1 : World} {c1 : Config} {d1 d2 : Delegation}
    (R : Retotaled env w w' ck hk auth sk v total c hr rs rh w1 c1 d1 d2) : Verif.fv w' = Verif.fv w := by
  rw [R.adj.fv, R.harv.fv]

theorem Left.fv {a : HarvestSolStakerRewardsAccts} {s : SolStakerStake} (L : Left env w w' a s) :
    Verif.fv w' = Verif.fv w := by
  cases L with
  | stay _ _ h => rw [h]
  | leave _ hk _ R => exact R.fv

theorem Joined.fv {a : HarvestSolStakerRewardsAccts} {dv vote : Key} {ds l : Nat}
    (J : Joined env w w' a dv ds vote l) : Verif.fv w' = Verif.fv w := by
  cases J with
  | undelegated _ h => rw [h]
  | absent _ _ _ h => rw [h]
  | join _ hk R => exact R.fv

theorem harvestSolStakerRewards_fv (W : w.WF) {a : HarvestSolStakerRewardsAccts}
    (h : harvestSolStakerRewards env o w a = .ok w') : fv w' = fv w := by
  obtain ⟨s, v, c, hr, rs, rh, w1, _, S⟩ := harvestSolStakerRewards_ok W h
  cases S with
  | noSync _ _ H e => rw [e, H.fv]
  | sync _ _ H L J _ _ A => rw [A.fv, J.fv, L.fv, H.fv]

/-- How an instruction changes what other programs see. -/
inductive ForeignChange (env : Env) (o : Oracle) (w w' : World) (ix : Ix) : Prop
  | none : fv w' = fv w → (∀ n, ix.decoded ≠ some (.unstakeTokens n)) → (∀ n, ix.decoded ≠ some (.slashValidatorStake n)) →
      (∀ n, ix.decoded ≠ some (.slashSolStakerStake n)) → (∀ n, ix.decoded ≠ some (.validatorStakeTokens n)) →
      (∀ n, ix.decoded ≠ some (.solStakerStakeTokens n)) → ix.decoded ≠ some .harvestHolderRewards →
      ForeignChange env o w w' ix
  | stake {n a rest c d hr rs rh w1 w2 w3 D' c1 d1 d2 ts td} :
      (ix.decoded = some (.validatorStakeTokens n) ∨ ix.decoded = some (.solStakerStakeTokens n)) →
      ix.ctx.accts = a.list ++ rest →
      StakedOk env o ix.ctx w w' a n c d hr rs rh w1 w2 w3 D' c1 d1 d2 ts td → fv w2 = fv w →
      ForeignChange env o w w' ix
  | unstake {n a rest c d hr rs rh w1 w2 w3 D' c1 d1 d2 call ts td} :
      ix.decoded = some (.unstakeTokens n) → ix.ctx.accts = a.list ++ rest →
      UnstakedOk env o ix.ctx w w' a n c d hr rs rh w1 w2 w3 D' c1 d1 d2 call ts td → fv w2 = fv w →
      ForeignChange env o w w' ix
  | slash {n a c d hr rs rh w1 w2 D' c1 d1 d2} :
      (ix.decoded = some (.slashValidatorStake n) ∨ ix.decoded = some (.slashSolStakerStake n)) →
      ix.acct 0 = some a.config → ix.acct 1 = some a.stake →
      SlashedOk env ix.ctx w w' a n c d hr rs rh w1 w2 D' c1 d1 d2 → fv w1 = fv w → fv w' = fv w2 →
      ForeignChange env o w w' ix
  | holder {ck c w1 w2 call} : ix.decoded = some .harvestHolderRewards → ix.acct 0 = some ck →
      configAt w ck = some c → fv w1 = fv w →
      (∀ k, (w1 k).lamports = (w k).lamports) → o.harvestRewards w1 call = .ok w2 →
      call.owner = .vaultPda ck c.bump → call.holderRewards = .holderRewardsPda (.vaultPda ck c.bump) → fv w' = fv w2 →
      ForeignChange env o w w' ix

theorem exec_foreign {ix : Ix} (W : w.WF) (h : exec env o w ix = .ok w') : ForeignChange env o w w' ix := by
  have quiet : ∀ {i}, ix.decoded = some i → fv w' = fv w → (∀ n, i ≠ .unstakeTokens n) →
      (∀ n, i ≠ .slashValidatorStake n) → (∀ n, i ≠ .slashSolStakerStake n) → (∀ n, i ≠ .validatorStakeTokens n) →
      (∀ n, i ≠ .solStakerStakeTokens n) → i ≠ .harvestHolderRewards → ForeignChange env o w w' ix := by
    intro i hi hf h1 h2 h3 h4 h5 h6
    exact .none hf (by rw [hi]; simpa using h1) (by rw [hi]; simpa using h2) (by rw [hi]; simpa using h3)
      (by rw [hi]; simpa using h4) (by rw [hi]; simpa using h5) (by rw [hi]; simpa using h6)
  cases exec_ran h with
  | initializeConfig a s c hh t b y rest hi hl hr =>
    obtain ⟨w1, bb, t', _, _, hw1, _, _, _, _, _, _, _, hb, _, _, _, _, rfl⟩ := initializeConfig_ok hr
    have e : fv w1 = fv w := by
      rcases hw1 with ⟨_, rfl⟩ | ⟨_, rfl⟩
      · rfl
      · funext k; simp [fv]
    have hb' : (w1 a.config).data = .bytes bb := by rcases hw1 with ⟨_, rfl⟩ | ⟨_, rfl⟩ <;> simp [hb]
    refine quiet hi ?_ (by simp) (by simp) (by simp) (by simp) (by simp) (by simp)
    rw [fv_setD (by rw [hb']; rfl) rfl, e]
  | initializeValidatorStake a rest hi hl hr =>
    obtain ⟨c, wd, _, _, _, _, _, _, hb, _, _, rfl⟩ := initializeValidatorStake_ok hr
    exact quiet hi (fv_setN (by rw [hb]; rfl) rfl) (by simp) (by simp) (by simp) (by simp) (by simp) (by simp)
  | initializeSolStakerStake a rest hi hl hr =>
    obtain ⟨c, v, vs, au, _, _, _, _, _, _, _, _, hk1, hvs, hk2, hb, _, _, _, _, _, rfl⟩ := initializeSolStakerStake_ok hr
    refine quiet hi ?_ (by simp) (by simp) (by simp) (by simp) (by simp) (by simp)
    rw [fv_setD, fv_setN (by rw [hb]; rfl) rfl]
    · rw [World.setN_data]; split_ifs
      · rfl
      · rw [hvs]; rfl
    · rfl
  | validatorStakeTokens a n rest hi hl hr =>
    obtain ⟨c, s, hr, rs, rh, w1, w2, w3, c1, ts, td, _, _, S⟩ := validatorStakeTokens_ok hr
    exact .stake (Or.inl hi) hl S (by rw [S.adj.fv, S.harv.fv])
  | solStakerStakeTokens a n rest hi hl hr =>
    obtain ⟨c, s, hr, rs, rh, w1, w2, w3, c1, ts, td, _, _, S⟩ := solStakerStakeTokens_ok hr
    exact .stake (Or.inr hi) hl S (by rw [S.adj.fv, S.harv.fv])
  | unstakeTokens a n rest hi hl hr =>
    obtain ⟨c, d, hr, rs, rh, w1, w2, w3, c1, D', call, ts, td, lam, S, _⟩ := unstakeTokens_ok hr
    exact .unstake hi hl S (by rw [S.adj.fv, S.harv.fv])
  | slashValidatorStake a n rest hi hl hr =>
    obtain ⟨c, s, hr, rs, rh, w1, w2, c1, _, _, S⟩ := slashValidatorStake_ok hr
    exact .slash (Or.inl hi) (by simp [Ix.acct, hl, SlashAccts.listValidator])
      (by simp [Ix.acct, hl, SlashAccts.listValidator]) S S.harv.fv S.adj.fv
  | slashSolStakerStake a n rest hi hl hr =>
    obtain ⟨c, s, hr, rs, rh, w1, w2, c1, _, _, S⟩ := slashSolStakerStake_ok hr
    exact .slash (Or.inr hi) (by simp [Ix.acct, hl, SlashAccts.listSolStaker])
      (by simp [Ix.acct, hl, SlashAccts.listSolStaker]) S S.harv.fv S.adj.fv
  | harvestHolderRewards a rest hi hl hr =>
    obtain ⟨c, w1, w2, c2, call, hO, hc, _, _, hpda, _, hhk, _, rfl, hw2, hco, hch, hc2, _, _, _, hc', hoth, _, _⟩ :=
      harvestHolderRewards_ok hr
    refine .holder (ck := a.config) (c := c) hi (by simp [Ix.acct, hl, HarvestHolderRewardsAccts.list])
      (configAt_eq.2 ⟨hO, hc⟩) (fv_setD (by rw [hc]; rfl) rfl) (by simp) hw2 (by rw [hco, hpda])
      (by rw [hch, hhk, hpda]) ?_
    funext k
    unfold fv
    by_cases hk : k = a.config
    · subst hk; rw [hc', hc2]; rfl
    · rw [hoth k hk]
  | harvestValidatorRewards a rest hi hl hr =>
    obtain ⟨c, s, hr, rs, rh, _, _, _, _, H⟩ := harvestValidatorRewards_ok hr
    exact quiet hi H.fv (by simp) (by simp) (by simp) (by simp) (by simp) (by simp)
  | harvestSolStakerRewards a keeper rest hi hl hk hr =>
    exact quiet hi (harvestSolStakerRewards_fv W hr) (by simp) (by simp) (by simp) (by simp) (by simp) (by simp)
  | setAuthority a t rest hi hl hr =>
    refine quiet hi ?_ (by simp) (by simp) (by simp) (by simp) (by simp) (by simp)
    obtain ⟨c, c', _, _, hc, rfl, _⟩ := setAuthority_ok hr
    exact fv_setD (by rw [hc]; rfl) rfl
  | updateConfig a f rest hi hl hr =>
    refine quiet hi ?_ (by simp) (by simp) (by simp) (by simp) (by simp) (by simp)
    obtain ⟨c, _, hc, _, _, _, _, rfl⟩ := updateConfig_ok hr
    exact fv_setD (by rw [hc]; rfl) rfl
  | solStakerMoveTokens a n rest hi hl hr =>
    obtain ⟨c, c', s, t, hr, rs, rh, rs', rh', w1, w2, wx, cs, ct, ds, dt, ds', dt', M⟩ := solStakerMoveTokens_ok hr
    refine quiet hi ?_ (by simp) (by simp) (by simp) (by simp) (by simp) (by simp)
    rw [M.adjT.fv, M.adjS.fv, M.harvT.fv, M.harvS.fv]
  | validatorOverrideStakedLamports a n rest hi hl hr =>
    refine quiet hi ?_ (by simp) (by simp) (by simp) (by simp) (by simp) (by simp)
    obtain ⟨c, s, hr, rs, rh, w1, c1, _, _, _, _, _, _, _, H, A⟩ := validatorOverrideStakedLamports_ok hr
    rw [A.fv, H.fv]
  | validatorSyncAuthority a rest hi hl hr =>
    refine quiet hi ?_ (by simp) (by simp) (by simp) (by simp) (by simp) (by simp)
    obtain ⟨s, wd, _, _, _, hs, _, _, _, rfl⟩ := validatorSyncAuthority_ok hr
    exact fv_setD (by rw [hs]; rfl) rfl

end Verif
