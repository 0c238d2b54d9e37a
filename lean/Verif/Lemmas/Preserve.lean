import Verif.Lemmas.Handlers
/-!
# Every handler preserves the invariant

Each lemma also gives the invariant in the intermediate worlds.
-/

namespace Verif

variable {env : Env} {o : Oracle} {ctx : Ctx} {w w' : World}

theorem effFor_le_staked (s l : Nat) : effFor s l ≤ s := Nat.min_le_left _ _
theorem effFor_le_cap (s l : Nat) : effFor s l ≤ cap l := Nat.min_le_right _ _

theorem restaked_wf {d : Delegation} (hd : d.WF) {n t l : Nat} (hn : n < U64) (ht : t < U64) :
    (d.restaked n t l).WF := by
  obtain ⟨_, _, _, h4, h5⟩ := hd
  exact ⟨hn, lt_of_le_of_lt (effFor_le_staked _ _) hn, ht, h4, h5⟩

theorem adjust_inv_validator (I : Inv env w) {ck sk : Key} {v v' : ValidatorStake} {c : Config} {d d' : Delegation}
    (A : Adjusted w w' ck sk (.validator v') c d d') (hcO : (w ck).owner = progId) (hsO : (w sk).owner = progId)
    (hbel : belongs sk ck) (hv : (w sk).data = .validator v) (hvote : v'.del.vote = v.del.vote)
    (sok : StakeOk (.validator v')) (wD : (Data.validator v').WF) : Inv env w' := by
  refine adjust_inv I A hcO hsO hbel ?_ (by simp) sok wD
  rw [hv]; exact .validator hvote

theorem adjust_inv_solStaker (I : Inv env w) {ck sk : Key} {v v' : SolStakerStake} {c : Config} {d d' : Delegation}
    (A : Adjusted w w' ck sk (.solStaker v') c d d') (hcO : (w ck).owner = progId) (hsO : (w sk).owner = progId)
    (hbel : belongs sk ck) (hv : (w sk).data = .solStaker v) (hn : v'.solStake = v.solStake)
    (hvote : v'.del.vote = v.del.vote ∨ v'.del.vote = .default ∨ (validatorAt w (.validatorPda v'.del.vote ck)).isSome)
    (sok : StakeOk (.solStaker v')) (wD : (Data.solStaker v').WF) : Inv env w' := by
  refine adjust_inv I A hcO hsO hbel ?_ ?_ sok wD
  · rw [hv]; exact .solStaker hn
  · intro x hx
    cases hx
    rcases hvote with h | h
    · have hs := I.shape sk hsO
      rcases hbel with ⟨v, rfl⟩ | ⟨n, rfl⟩
      · obtain ⟨y, hy, _⟩ := hs; rw [hv] at hy; simp at hy
      · obtain ⟨y, hy, _, _, hv'⟩ := hs
        rw [hv] at hy; cases hy
        rw [h]; exact hv'
    · exact h

theorem wf_validator (I : Inv env w) {sk : Key} {v : ValidatorStake} (hv : (w sk).data = .validator v) :
    v.del.WF ∧ v.total < U64 ∧ v.min < U64 := by
  have := (I.wf.1 sk).2; rw [hv] at this; exact this

theorem wf_solStaker (I : Inv env w) {sk : Key} {v : SolStakerStake} (hv : (w sk).data = .solStaker v) :
    v.del.WF ∧ v.lamports < U64 := by
  have := (I.wf.1 sk).2; rw [hv] at this; exact this

theorem wf_config (I : Inv env w) {k : Key} {c : Config} (h : (w k).data = .config c) : c.WF := by
  have := (I.wf.1 k).2; rw [h] at this; exact this

theorem owned_ne_bytes (I : Inv env w) {k : Key} (ho : (w k).owner = progId) {d : Delegation}
    (hd : (w k).data.del? = some d) : stakeAt w k = some d := stakeAt_eq.2 ⟨ho, hd⟩

/-! ## Staking -/

theorem validatorStakeTokens_inv (I : Inv env w) (O : o.Ok) {a : StakeTokensAccts} {amount : Nat} {c : Config}
    {s : ValidatorStake} {hr : HolderRewards} {rs rh : Nat} {w1 w2 w3 : World} {c1 : Config} {d1 : Delegation}
    {ts td : TokenAccount} (hs : (w a.stake).data = .validator s)
    (S : StakedOk env o ctx w w' a amount c s.del hr rs rh w1 w2 w3
      (.validator { s with del := d1.restaked (s.del.staked + amount) d1.cooldown (max s.total s.min) }) c1 d1
      (d1.restaked (s.del.staked + amount) d1.cooldown (max s.total s.min)) ts td) :
    Inv env w1 ∧ Inv env w2 ∧ Inv env w3 ∧ ExtStep w2 w3 ∧ ExtStep w3 w' ∧ Inv env w' := by
  have I1 := harvest_inv I S.harv S.cO S.sO S.bel
  have hv := (S.harv.validator' hs).2
  have W := wf_validator I1 hv
  rw [← S.d1_eq] at W hv
  have I2 : Inv env w2 := by
    refine adjust_inv_validator I1 S.adj (by rw [S.harv.owner]; exact S.cO) (by rw [S.harv.owner]; exact S.sO) S.bel hv rfl
      ⟨effFor_le_staked _ _, effFor_le_cap _ _⟩ ⟨restaked_wf W.1 S.lt W.1.2.2.1, W.2⟩
  have e3 := S.transfer.ext I2
  have I3 := ext_inv I2 e3
  have e4 := O.deposit I3.wf S.deposit
  exact ⟨I1, I2, I3, e3, e4, ext_inv I3 e4⟩

theorem solStakerStakeTokens_inv (I : Inv env w) (O : o.Ok) {a : StakeTokensAccts} {amount : Nat} {c : Config}
    {s : SolStakerStake} {hr : HolderRewards} {rs rh : Nat} {w1 w2 w3 : World} {c1 : Config} {d1 : Delegation}
    {ts td : TokenAccount} (hs : (w a.stake).data = .solStaker s)
    (S : StakedOk env o ctx w w' a amount c s.del hr rs rh w1 w2 w3
      (.solStaker { s with del := d1.restaked (s.del.staked + amount) d1.cooldown s.lamports }) c1 d1
      (d1.restaked (s.del.staked + amount) d1.cooldown s.lamports) ts td) :
    Inv env w1 ∧ Inv env w2 ∧ Inv env w3 ∧ ExtStep w2 w3 ∧ ExtStep w3 w' ∧ Inv env w' := by
  have I1 := harvest_inv I S.harv S.cO S.sO S.bel
  have hv := (S.harv.solStaker' hs).2
  have W := wf_solStaker I1 hv
  rw [← S.d1_eq] at W hv
  have I2 : Inv env w2 := by
    refine adjust_inv_solStaker I1 S.adj (by rw [S.harv.owner]; exact S.cO) (by rw [S.harv.owner]; exact S.sO) S.bel hv
      rfl (Or.inl rfl) rfl ⟨restaked_wf W.1 S.lt W.1.2.2.1, W.2⟩
  have e3 := S.transfer.ext I2
  have I3 := ext_inv I2 e3
  have e4 := O.deposit I3.wf S.deposit
  exact ⟨I1, I2, I3, e3, e4, ext_inv I3 e4⟩

/-! ## Slashing -/

theorem SlashedOk.burn_ext {a : SlashAccts} {amount : Nat} {c : Config} {d : Delegation} {hr : HolderRewards}
    {rs rh : Nat} {w1 w2 : World} {D' : Data} {c1 : Config} {d1 d2 : Delegation}
    (S : SlashedOk env ctx w w' a amount c d hr rs rh w1 w2 D' c1 d1 d2) (I1 : Inv env w1) :
    ExtStep w1 w2 ∧ (∀ k, (w2 k).owner = (w1 k).owner) ∧ (w2 a.stake).data = (w1 a.stake).data := by
  rcases S.burn with ⟨_, h⟩ | ⟨_, t, m, B⟩
  · subst h
    exact ⟨ext_of_token I1 (fun _ => rfl) (fun _ => rfl) (fun _ => Or.inl rfl), fun _ => rfl, rfl⟩
  · have e := B.ext I1
    refine ⟨e, fun k => by rw [B.eq]; simp, ?_⟩
    have hd : (w1 a.stake).data.del? = some _ := S.harv.del'
    rw [B.eq]
    have h1 : a.stake ≠ a.vault := by intro e; rw [e, B.acct] at hd; simp [Data.del?] at hd
    have h2 : a.stake ≠ a.mint := by intro e; rw [e, B.mintD] at hd; simp [Data.del?] at hd
    simp [World.setD_data, h1, h2]

theorem slashValidatorStake_inv (I : Inv env w) {a : SlashAccts} {amount : Nat} {c : Config} {s : ValidatorStake}
    {hr : HolderRewards} {rs rh : Nat} {w1 w2 : World} {c1 : Config} {d1 : Delegation}
    (hs : (w a.stake).data = .validator s)
    (S : SlashedOk env ctx w w' a amount c s.del hr rs rh w1 w2
      (.validator { s with del := d1.restaked (s.del.staked - min amount s.del.staked) d1.cooldown (max s.total s.min) })
      c1 d1 (d1.restaked (s.del.staked - min amount s.del.staked) d1.cooldown (max s.total s.min))) :
    Inv env w1 ∧ ExtStep w1 w2 ∧ Inv env w2 ∧ Inv env w' := by
  have I1 := harvest_inv I S.harv S.cO S.sO S.bel
  obtain ⟨e2, ho, hsame⟩ := S.burn_ext I1
  have I2 := ext_inv I1 e2
  have hv := (S.harv.validator' hs).2
  rw [← hsame] at hv
  have W := wf_validator I2 hv
  rw [← S.d1_eq] at W hv
  have hst := W.1.1
  rw [S.d1_eq] at hst
  refine ⟨I1, e2, I2, adjust_inv_validator I2 S.adj ?_ ?_ S.bel hv rfl
      ⟨effFor_le_staked _ _, effFor_le_cap _ _⟩ ⟨restaked_wf W.1 ?_ W.1.2.2.1, W.2⟩⟩
  · rw [ho, S.harv.owner]; exact S.cO
  · rw [ho, S.harv.owner]; exact S.sO
  · exact lt_of_le_of_lt (Nat.sub_le _ _) hst

theorem slashSolStakerStake_inv (I : Inv env w) {a : SlashAccts} {amount : Nat} {c : Config} {s : SolStakerStake}
    {hr : HolderRewards} {rs rh : Nat} {w1 w2 : World} {c1 : Config} {d1 : Delegation}
    (hs : (w a.stake).data = .solStaker s)
    (S : SlashedOk env ctx w w' a amount c s.del hr rs rh w1 w2
      (.solStaker { s with del := d1.restaked (s.del.staked - min amount s.del.staked) d1.cooldown s.lamports })
      c1 d1 (d1.restaked (s.del.staked - min amount s.del.staked) d1.cooldown s.lamports)) :
    Inv env w1 ∧ ExtStep w1 w2 ∧ Inv env w2 ∧ Inv env w' := by
  have I1 := harvest_inv I S.harv S.cO S.sO S.bel
  obtain ⟨e2, ho, hsame⟩ := S.burn_ext I1
  have I2 := ext_inv I1 e2
  have hv := (S.harv.solStaker' hs).2
  rw [← hsame] at hv
  have W := wf_solStaker I2 hv
  rw [← S.d1_eq] at W hv
  have hst := W.1.1
  rw [S.d1_eq] at hst
  refine ⟨I1, e2, I2, adjust_inv_solStaker I2 S.adj ?_ ?_ S.bel hv rfl (Or.inl rfl) rfl
      ⟨restaked_wf W.1 ?_ W.1.2.2.1, W.2⟩⟩
  · rw [ho, S.harv.owner]; exact S.cO
  · rw [ho, S.harv.owner]; exact S.sO
  · exact lt_of_le_of_lt (Nat.sub_le _ _) hst

/-! ## Unstaking -/

theorem satAdd_lt (a b : Nat) : satAdd a b < U64 := by
  have : (0 : Nat) < U64 := by decide
  unfold satAdd; omega

theorem unstakeTokens_inv (I : Inv env w) (O : o.Ok) {a : UnstakeTokensAccts} {amount : Nat} {c : Config}
    {d : Delegation} {hr : HolderRewards} {rs rh : Nat} {w1 w2 w3 : World} {D' : Data} {c1 : Config} {d1 : Delegation}
    {call : RewardsCall} {ts td : TokenAccount} {lam : Nat}
    (S : UnstakedOk env o ctx w w' a amount c d hr rs rh w1 w2 w3 D' c1 d1
      (d1.restaked (d.staked - amount) (satAdd o.now c.cooldownTime) lam) call ts td)
    (K : (∃ s, (w a.stake).data = .validator s ∧ a.stake = .validatorPda s.del.vote a.config ∧ d = s.del ∧
          lam = max s.total s.min ∧
          D' = .validator { s with del := d1.restaked (d.staked - amount) (satAdd o.now c.cooldownTime) lam }) ∨
        (∃ s, (w a.stake).data = .solStaker s ∧ a.stake = .solStakerPda s.solStake a.config ∧ d = s.del ∧
          lam = s.lamports ∧
          D' = .solStaker { s with del := d1.restaked (d.staked - amount) (satAdd o.now c.cooldownTime) lam })) :
    Inv env w1 ∧ Inv env w2 ∧ Inv env w3 ∧ ExtStep w2 w3 ∧ ExtStep w3 w' ∧ Inv env w' := by
  have I1 := harvest_inv I S.harv S.cO S.sO S.bel
  have hc1 : (w1 a.config).owner = progId := by rw [S.harv.owner]; exact S.cO
  have hs1 : (w1 a.stake).owner = progId := by rw [S.harv.owner]; exact S.sO
  have hd := S.d1_eq
  have I2 : Inv env w2 := by
    rcases K with ⟨s, hs, hk, rfl, rfl, rfl⟩ | ⟨s, hs, hk, rfl, rfl, rfl⟩
    · have hv := (S.harv.validator' hs).2
      have W := wf_validator I1 hv
      rw [← hd] at W hv
      have hst := W.1.1
      rw [hd] at hst
      exact adjust_inv_validator I1 S.adj hc1 hs1 S.bel hv rfl ⟨effFor_le_staked _ _, effFor_le_cap _ _⟩
        ⟨restaked_wf W.1 (lt_of_le_of_lt (Nat.sub_le _ _) hst) (satAdd_lt _ _), W.2⟩
    · have hv := (S.harv.solStaker' hs).2
      have W := wf_solStaker I1 hv
      rw [← hd] at W hv
      have hst := W.1.1
      rw [hd] at hst
      exact adjust_inv_solStaker I1 S.adj hc1 hs1 S.bel hv rfl (Or.inl rfl) rfl
        ⟨restaked_wf W.1 (lt_of_le_of_lt (Nat.sub_le _ _) hst) (satAdd_lt _ _), W.2⟩
  have e3 := O.withdraw I2.wf S.withdraw
  have I3 := ext_inv I2 e3
  have e4 := S.transfer.ext I3
  exact ⟨I1, I2, I3, e3, e4, ext_inv I3 e4⟩

/-! ## Moving -/

theorem solStakerMoveTokens_inv (I : Inv env w) {a : SolStakerMoveTokensAccts} {amount : Nat}
    {c c' : Config} {s t : SolStakerStake} {hr : HolderRewards} {rs rh rs' rh' : Nat} {w1 w2 wx : World}
    {cs ct : Config} {ds dt ds' dt' : Delegation}
    (M : MovedOk env ctx w w' a amount c c' s t hr rs rh rs' rh' w1 w2 wx cs ct ds dt ds' dt') :
    Inv env w1 ∧ Inv env w2 ∧ Inv env wx ∧ Inv env w' := by
  have bs : belongs a.sourceSolStakerStake a.config := by rw [M.sk]; simp [belongs]
  have bt : belongs a.destinationSolStakerStake a.config := by rw [M.tk]; simp [belongs]
  have I1 := harvest_inv I M.harvS M.cO M.sO bs
  have ho1 := M.harvS.owner
  have ho2 := M.harvT.owner
  have I2 := harvest_inv I1 M.harvT (by rw [ho1]; exact M.cO) (by rw [ho1]; exact M.tO) bt
  have ht1 : (w1 a.destinationSolStakerStake).data = .solStaker t := by
    rw [M.harvS.data' _ M.harvT.ne M.ne]; exact M.dst
  have hs2 := (M.harvS.solStaker' M.src).2
  rw [← M.harvT.data' _ M.harvS.ne (Ne.symm M.ne), ← M.ds_eq] at hs2
  have ht2 := (M.harvT.solStaker' ht1).2
  rw [← M.dt_eq] at ht2
  have Ws := wf_solStaker I2 hs2
  have Wt := wf_solStaker I2 ht2
  have es := M.ds_eq; have et := M.dt_eq
  have hc2 : (w2 a.config).owner = progId := by rw [ho2, ho1]; exact M.cO
  have Ix : Inv env wx := by
    refine adjust_inv_solStaker I2 M.adjS hc2 (by rw [ho2, ho1]; exact M.sO) bs hs2 rfl
      (Or.inl (by rw [M.ds'_eq]; rfl)) (by rw [M.ds'_eq]; rfl) ⟨?_, Ws.2⟩
    have h1 := Ws.1.1; have h2 := Ws.1.2.2.1
    rw [es] at h1 h2
    rw [M.ds'_eq]
    exact restaked_wf Ws.1 (lt_of_le_of_lt (Nat.sub_le _ _) h1) h2
  have htx : (wx a.destinationSolStakerStake).data = .solStaker { t with del := dt } := by
    rw [M.adjS.data' _ M.harvT.ne M.ne]; exact ht2
  have hox := M.adjS.owner
  refine ⟨I1, I2, Ix, ?_⟩
  refine adjust_inv_solStaker Ix M.adjT (by rw [hox]; exact hc2) (by rw [hox, ho2, ho1]; exact M.tO) bt htx rfl
    (Or.inl (by rw [M.dt'_eq]; rfl)) (by rw [M.dt'_eq]; rfl) ⟨?_, Wt.2⟩
  have h1 := Ws.1.2.2.1; have h2 := Wt.1.2.2.1
  rw [es] at h1; rw [et] at h2
  rw [M.dt'_eq]
  exact restaked_wf Wt.1 M.lt (max_lt h1 h2)

/-! ## Harvesting a SOL staker -/

theorem Retotaled.inv (I : Inv env w) {ck hk auth sk : Key} {v : ValidatorStake} {total : Nat} {c : Config}
    {hr : HolderRewards} {rs rh : Nat} {w1 : World} {c1 : Config} {d1 d2 : Delegation}
    (R : Retotaled env w w' ck hk auth sk v total c hr rs rh w1 c1 d1 d2) (hcO : (w ck).owner = progId)
    (hbel : belongs sk ck) : Inv env w1 ∧ Inv env w' := by
  have I1 := harvest_inv I R.harv hcO R.owner hbel
  have hv := (R.harv.validator' R.data).2
  rw [← R.d1_eq] at hv
  have W := wf_validator I1 hv
  have hd := R.d1_eq
  refine ⟨I1, adjust_inv_validator I1 R.adj (by rw [R.harv.owner]; exact hcO) (by rw [R.harv.owner]; exact R.owner) hbel
    hv (by rw [R.d2_eq]; rfl) ?_ ⟨?_, R.total_lt, W.2.2⟩⟩
  · rw [R.d2_eq]; exact ⟨effFor_le_staked _ _, effFor_le_cap _ _⟩
  · have h1 := W.1.1; have h2 := W.1.2.2.1
    rw [hd] at h1 h2
    rw [R.d2_eq]
    exact restaked_wf W.1 h1 h2

theorem Left.inv (I : Inv env w) {a : HarvestSolStakerRewardsAccts} {s : SolStakerStake} (L : Left env w w' a s)
    (hcO : (w a.config).owner = progId) : Inv env w' := by
  cases L with
  | stay _ _ h => rw [h]; exact I
  | leave _ hk _ R => exact (R.inv I hcO (by rw [hk]; simp [belongs])).2

theorem Joined.inv (I : Inv env w) {a : HarvestSolStakerRewardsAccts} {dv vote : Key} {ds l : Nat}
    (J : Joined env w w' a dv ds vote l) (hcO : (w a.config).owner = progId) : Inv env w' := by
  cases J with
  | undelegated _ h => rw [h]; exact I
  | absent _ _ _ h => rw [h]; exact I
  | join _ hk R => exact (R.inv I hcO (by rw [hk]; simp [belongs])).2

theorem Joined.vote {a : HarvestSolStakerRewardsAccts} {dv vote : Key} {ds l : Nat}
    (J : Joined env w w' a dv ds vote l) :
    vote = .default ∨ (validatorAt w' (.validatorPda vote a.config)).isSome := by
  cases J with
  | undelegated h _ => exact Or.inl h
  | absent => exact Or.inl rfl
  | join _ hk R =>
    refine Or.inr (Option.isSome_iff_exists.2 ⟨_, validatorAt_eq.2 ⟨?_, hk ▸ R.adj.stake'⟩⟩)
    rw [← hk, R.owner']; exact R.owner

theorem Joined.lam_lt {a : HarvestSolStakerRewardsAccts} {dv vote : Key} {ds l : Nat}
    (J : Joined env w w' a dv ds vote l) (h : ds < U64) : l < U64 := by
  cases J with
  | undelegated => exact h
  | absent => decide
  | join => exact h

theorem harvestSolStakerRewards_inv (I : Inv env w) (O : o.Ok) {a : HarvestSolStakerRewardsAccts}
    {s : SolStakerStake} {v : StakeView} {c : Config} {hr : HolderRewards} {rs rh : Nat} {w1 : World}
    (B : SolHarvestBase env o w a s v) (H : SolHarvested env o w w' a s v c hr rs rh w1) : Inv env w' := by
  have bs : belongs a.solStakerStake a.config := by rw [B.sk]; simp [belongs]
  cases H with
  | noSync _ _ H h => rw [h]; exact harvest_inv I H B.cO B.sO bs
  | @sync kp w2 w3 vote l c1 d1 d2 _ hk H L J hd1 hd2 A =>
    have I1 := harvest_inv I H B.cO B.sO bs
    have hc1 : (w1 a.config).owner = progId := by rw [H.owner]; exact B.cO
    have I2 := L.inv I1 hc1
    have hc2 : (w2 a.config).owner = progId := by rw [L.owner]; exact hc1
    have I3 := J.inv I2 hc2
    have hv1 := (H.solStaker' B.data).2
    have hv3 : (w3 a.solStakerStake).data = (w1 a.solStakerStake).data := by
      rw [J.data_other H.ne (by rw [B.sk]; simp), L.data_other H.ne (by rw [B.sk]; simp)]
    rw [← hv3, ← hd1] at hv1
    have W := wf_solStaker I3 hv1
    refine adjust_inv_solStaker I3 A (by rw [J.owner]; exact hc2)
      (by rw [J.owner, L.owner, H.owner]; exact B.sO) bs hv1 rfl
      (Or.inr ?_) (by rw [hd2]; rfl) ⟨?_, J.lam_lt (O.view B.view)⟩
    · rw [hd2]; exact J.vote
    · have h1 := W.1.1; have h2 := W.1.2.2.1
      rw [hd1] at h1 h2
      rw [hd2]
      exact restaked_wf (l := l) W.1 h1 h2

/-! ## Holder rewards -/

theorem harvestHolderRewards_inv (I : Inv env w) (O : o.Ok) {a : HarvestHolderRewardsAccts}
    (h : harvestHolderRewards env o w a = .ok w') : Inv env w' := by
  obtain ⟨c, w1, w2, c2, call, hcO, hc, hvault, hcurve, hpda, hhO, hhk, hlast, rfl, hcall, _, _, hc2, hrent, hown, ho', hc',
    hd', hl', hsup⟩ := harvestHolderRewards_ok h
  have C := I.config _ c (configAt_eq.2 ⟨hcO, hc⟩)
  have Wc := wf_config I hc
  have I1 : Inv env (w.setD a.config (.config (c.settled (w a.config).lamports 0))) := by
    refine I.modifyConfig (c' := c.settled (w a.config).lamports 0) hcO hc (fun k => by simp)
      (by simp only [World.setD_data, if_true])
      (fun k hk => by simp [World.setD_data, hk]) rfl C.bps rfl (by simp [Config.settled])
      (by simpa using C.rent) (fun k _ _ => by simp) ?_
    refine ⟨fun k => ⟨by simpa using (I.wf.1 k).1, ?_⟩, by simpa using I.wf.2⟩
    rw [World.setD_data]
    split_ifs
    · obtain ⟨h1, h2, h3, h4, h5, h6, h7⟩ := Wc
      have := (I.wf.1 a.config).1
      exact ⟨h1, h2, h3, by simp only [Config.settled]; omega, accNow_lt _ _, h6, h7⟩
    · exact (I.wf.1 k).2
  have I2 := ext_inv I1 (O.harvestRewards I1.wf hcall)
  have hcO2 : (w2 a.config).owner = progId := by
    have := ext_config I1 (O.harvestRewards I1.wf hcall)
      (k := a.config) (c := c.settled (w a.config).lamports 0)
      (configAt_eq.2 ⟨by simp only [World.setD_owner]; exact hcO, by simp only [World.setD_data, if_true]⟩)
    exact (configAt_eq.1 this.1).1
  have hck := I2.config_key (configAt_eq.2 ⟨hcO2, hc2⟩)
  have hne : a.config ≠ a.vaultPda := by
    intro e
    have := congrArg Key.ofProgram e
    rw [hck, hpda] at this; simp [Key.ofProgram] at this
  have hempty : (w2 a.vaultPda).data = .bytes [] := by
    by_cases ho : (w2 a.vaultPda).owner = progId
    · have := I2.shape _ ho
      rw [hpda] at this ⊢; exact this
    · exact (I2.unowned _ (by rw [hpda]; rfl) ho).2
  have C2 := I2.config _ c2 (configAt_eq.2 ⟨hcO2, hc2⟩)
  have hlc := hl' a.config
  rw [if_pos rfl] at hlc
  have hlv := hl' a.vaultPda
  rw [if_neg (Ne.symm hne), if_pos rfl] at hlv
  have hlo : ∀ k, k ≠ a.config → k ≠ a.vaultPda → (w' k).lamports = (w2 k).lamports := by
    intro k h1 h2; rw [hl' k, if_neg h1, if_neg h2]
  have hlt : ∀ k, (w' k).lamports < U64 := by
    intro k
    by_cases h1 : k = a.config
    · subst h1; omega
    · by_cases h2 : k = a.vaultPda
      · subst h2; omega
      · rw [hlo k h1 h2]; exact (I2.wf.1 k).1
  have Wc2 := wf_config I2 hc2
  refine I2.modifyConfig hcO2 hc2 ho' hc' hd' rfl C2.bps rfl (Nat.le_refl _) (C2.rent.trans (by omega)) ?_ ?_
  · intro k h1 h2
    by_cases h3 : k = a.vaultPda
    · subst h3; exact absurd hempty h2
    · rw [hlo k h1 h3]
  · refine ⟨fun k => ⟨hlt k, ?_⟩, by rw [ho']; exact I2.wf.2⟩
    by_cases h1 : k = a.config
    · subst h1
      rw [hc']
      obtain ⟨h1, h2, h3, h4, h5, h6, h7⟩ := Wc2
      exact ⟨h1, h2, h3, hlt _, h5, h6, h7⟩
    · rw [hd' k h1]; exact (I2.wf.1 k).2

/-! ## Settings and authorities -/

theorem setConfig_inv (I : Inv env w) {k : Key} {c c' : Config} (hO : (w k).owner = progId)
    (hc : (w k).data = .config c) (h1 : c'.effTotal = c.effTotal) (h2 : c'.maxBps ≤ maxBasisPoints)
    (h3 : c'.bump = c.bump) (h4 : c'.lamportsLast = c.lamportsLast) (h5 : c'.WF) :
    Inv env (w.setD k (.config c')) := by
  have C := I.config _ c (configAt_eq.2 ⟨hO, hc⟩)
  refine I.modifyConfig hO hc (fun k => by simp) (by simp only [World.setD_data, if_true])
    (fun k hk => by simp [World.setD_data, hk]) h1 h2 h3 (by rw [h4]; simpa using C.last_le) (by simpa using C.rent)
    (fun k _ _ => by simp) ?_
  refine ⟨fun k => ⟨by simpa using (I.wf.1 k).1, ?_⟩, by simpa using I.wf.2⟩
  rw [World.setD_data]
  split_ifs
  · exact h5
  · exact (I.wf.1 _).2

theorem setAuthority_inv (I : Inv env w) {a : SetAuthorityAccts} {t : AuthorityType}
    (h : setAuthority ctx w a t = .ok w') : Inv env w' := by
  obtain ⟨c, c', _, hO, hc, rfl, ht⟩ := setAuthority_ok h
  have W := wf_config I hc
  have C := I.config _ c (configAt_eq.2 ⟨hO, hc⟩)
  cases t <;> obtain ⟨_, _, rfl⟩ := ht <;> exact setConfig_inv I hO hc rfl C.bps rfl rfl W

/-- The numbers carried by a decoded instruction fit their machine types. -/
def ConfigField.WF : ConfigField → Prop
  | .cooldownTimeSeconds v => v < U64
  | .maxDeactivationBasisPoints v => v < 2 ^ 16
  | .syncRewardsLamports v => v < U64

theorem updateConfig_inv (I : Inv env w) {a : UpdateConfigAccts} {f : ConfigField} (hf : f.WF)
    (h : updateConfig ctx w a f = .ok w') : Inv env w' := by
  obtain ⟨c, hO, hc, _, _, _, hb, rfl⟩ := updateConfig_ok h
  obtain ⟨h1, h2, h3, h4, h5, h6, h7⟩ := wf_config I hc
  have C := I.config _ c (configAt_eq.2 ⟨hO, hc⟩)
  cases f with
  | cooldownTimeSeconds v => exact setConfig_inv I hO hc rfl C.bps rfl rfl ⟨hf, h2, h3, h4, h5, h6, h7⟩
  | maxDeactivationBasisPoints v => exact setConfig_inv I hO hc rfl (hb v rfl) rfl rfl ⟨h1, h2, h3, h4, h5, hf, h7⟩
  | syncRewardsLamports v => exact setConfig_inv I hO hc rfl C.bps rfl rfl ⟨h1, h2, hf, h4, h5, h6, h7⟩

theorem validatorSyncAuthority_inv (I : Inv env w) {a : ValidatorSyncAuthorityAccts}
    (h : validatorSyncAuthority w a = .ok w') : Inv env w' := by
  obtain ⟨s, wd, hcO, ⟨c, hc⟩, hk, hs, _, _, _, rfl⟩ := validatorSyncAuthority_ok h
  have hO : (w a.validatorStake).owner = progId := by
    by_contra ho
    have := (I.unowned _ (by rw [hk]; rfl) ho).2
    rw [hs] at this; simp at this
  have hne : a.validatorStake ≠ a.config := by intro e; rw [e, hc] at hs; simp at hs
  have W := wf_validator I hs
  have C := I.config _ c (configAt_eq.2 ⟨hcO, hc⟩)
  have S := I.stake _ hO
  rw [hs] at S
  refine I.modify (c' := c) (D' := .validator { s with del := { s.del with authority := wd } }) hcO hc hO hs rfl rfl (by rw [hk]; simp [belongs]) (fun k => by simp)
    (by simp only [World.setD_data, Ne.symm hne, if_false]; exact hc) (by simp only [World.setD_data, if_true])
    (fun k _ hk => by simp [World.setD_data, hk]) (.validator rfl) (by simp) S rfl rfl rfl (by simpa using C.last_le)
    (by simpa using C.rent) (fun k _ => by simp) ?_
  refine ⟨fun k => ⟨by simpa using (I.wf.1 k).1, ?_⟩, by simpa using I.wf.2⟩
  rw [World.setD_data]
  split_ifs
  · exact W
  · exact (I.wf.1 _).2

theorem validatorOverrideStakedLamports_inv (I : Inv env w) {a : ValidatorOverrideStakedLamportsAccts} {n : Nat}
    (hn : n < U64) (h : validatorOverrideStakedLamports env ctx w a n = .ok w') : Inv env w' := by
  obtain ⟨c, s, hr, rs, rh, w1, c1, hcO, hsO, hs, hk, _, _, _, H, A⟩ := validatorOverrideStakedLamports_ok h
  have bs : belongs a.validatorStake a.config := by rw [hk]; simp [belongs]
  have I1 := harvest_inv I H hcO hsO bs
  have hv := (H.validator' hs).2
  have W := wf_validator I1 hv
  exact adjust_inv_validator I1 A (by rw [H.owner]; exact hcO) (by rw [H.owner]; exact hsO) bs hv rfl
    ⟨effFor_le_staked _ _, effFor_le_cap _ _⟩ ⟨restaked_wf W.1 W.1.1 W.1.2.2.1, W.2.1, hn⟩

theorem harvestValidatorRewards_inv (I : Inv env w) {a : HarvestValidatorRewardsAccts}
    (h : harvestValidatorRewards env w a = .ok w') : Inv env w' := by
  obtain ⟨c, s, hr, rs, rh, hcO, hsO, hs, hk, H⟩ := harvestValidatorRewards_ok h
  exact harvest_inv I H hcO hsO (by rw [hk]; simp [belongs])

/-! ## Creation -/

/-- Accounts keep what they were, except that one becomes a new account of the program. -/
theorem Inv.create (I : Inv env w) {k : Key} {D : Data} {d : Delegation} {ck : Key} (hold : (w k).owner ≠ progId)
    (hbel : belongs k ck)
    (hd : D.del? = some d) (heff : d.effective = 0) (hshape : Shape (w.setN k D) k) (hok : StakeOk D)
    (hrent : env.rentMin D.len ≤ (w k).lamports) (hwf : D.WF) : Inv env (w.setN k D) := by
  have hkc : k.ofProgram = true := hbel.ofProgram
  have hconf : ∀ x c, configAt (w.setN k D) x = some c ↔ configAt w x = some c := by
    intro x c
    rw [configAt_eq, configAt_eq, World.setN_owner, World.setN_data]
    by_cases h : x = k
    · subst h
      simp only [if_true]
      constructor
      · rintro ⟨_, h⟩; rw [h] at hd; simp [Data.del?] at hd
      · rintro ⟨h, _⟩; exact absurd h hold
    · simp [h]
  have hconf' : ∀ x, configAt (w.setN k D) x = configAt w x := by
    intro x; apply Option.ext; intro c; exact hconf x c
  have hval : ∀ x, (validatorAt w x).isSome → (validatorAt (w.setN k D) x).isSome := by
    intro x hx
    obtain ⟨v, hv⟩ := Option.isSome_iff_exists.1 hx
    rw [validatorAt_eq] at hv
    have h : x ≠ k := by rintro rfl; exact hold hv.1
    refine Option.isSome_iff_exists.2 ⟨v, validatorAt_eq.2 ⟨?_, ?_⟩⟩
    · rw [World.setN_owner, if_neg h]; exact hv.1
    · rw [World.setN_data, if_neg h]; exact hv.2
  refine ⟨⟨fun x => ⟨by simpa using (I.wf.1 x).1, ?_⟩, ?_⟩, ?_, ?_, ?_, ?_, ?_⟩
  · rw [World.setN_data]; split_ifs
    · exact hwf
    · exact (I.wf.1 x).2
  · have : systemId ≠ k := by rintro rfl; simp [Key.ofProgram] at hkc
    rw [World.setN_owner, if_neg this]; exact I.wf.2
  · intro x ho
    by_cases h : x = k
    · subst h; exact hshape
    · rw [World.setN_owner, if_neg h] at ho
      have hs := I.shape x ho
      have hd : (w.setN k D x).data = (w x).data := by rw [World.setN_data, if_neg h]
      cases x
      case validatorPda v c =>
        obtain ⟨y, hy, h1, h2, h3⟩ := hs
        exact ⟨y, by rw [hd]; exact hy, h1, h2, by rw [hconf']; exact h3⟩
      case solStakerPda n c =>
        obtain ⟨y, hy, h1, h2, h3⟩ := hs
        exact ⟨y, by rw [hd]; exact hy, h1, by rw [hconf']; exact h2, h3.imp id (hval _)⟩
      case overridePda => exact hs
      all_goals
        simp only [Shape] at hs ⊢
        rw [hd]; exact hs
  · intro x hx ho
    by_cases h : x = k
    · subst h; rw [World.setN_owner, if_pos rfl] at ho; exact absurd rfl ho
    · rw [World.setN_owner, if_neg h] at ho ⊢
      rw [World.setN_data, if_neg h]
      exact I.unowned x hx ho
  · intro x c hc
    rw [hconf] at hc
    have C := I.config x c hc
    refine ⟨by simpa using C.last_le, C.bps, C.bump, by simpa using C.rent, C.total.congr fun s => ?_⟩
    by_cases h : s = k
    · subst h
      rw [effectiveIn_eq, effectiveIn_eq, World.setN_data, World.setN_owner]
      simp [hd, heff, hold]
    · exact effectiveIn_congr (by rw [World.setN_owner, if_neg h]) (by rw [World.setN_data, if_neg h])
  · intro x ho
    by_cases h : x = k
    · subst h; rw [World.setN_data, if_pos rfl]; exact hok
    · rw [World.setN_owner, if_neg h] at ho
      rw [World.setN_data, if_neg h]; exact I.stake x ho
  · intro x y hy
    rw [stakeAt_eq] at hy
    rw [World.setN_lamports, World.setN_data]
    by_cases h : x = k
    · subst h; rw [if_pos rfl]; exact hrent
    · rw [if_neg h]
      rw [World.setN_owner, World.setN_data, if_neg h, if_neg h] at hy
      exact I.rent x y (stakeAt_eq.2 hy)

theorem freshDel_wf (a v : Key) : (freshDel a v).WF := by simp [freshDel, Delegation.WF]

theorem initializeValidatorStake_inv (I : Inv env w) {a : InitializeValidatorStakeAccts}
    (h : initializeValidatorStake env ctx w a = .ok w') : Inv env w' := by
  obtain ⟨c, wd, hcO, hc, hvO, hv, _, hk, hempty, hsys, hrent, rfl⟩ := initializeValidatorStake_ok h
  have hold : (w a.validatorStake).owner ≠ progId := by rw [hsys]; decide
  have hbel : belongs a.validatorStake a.config := by rw [hk]; simp [belongs]
  refine I.create hold hbel rfl rfl ?_ ⟨Nat.zero_le _, Nat.zero_le _⟩ hrent
    ⟨freshDel_wf _ _, by simp, by simp⟩
  have hne : a.config ≠ a.validatorStake := by intro e; rw [e] at hcO; exact hold hcO
  have hcs : (configAt (w.setN a.validatorStake
      (.validator { del := freshDel wd a.validatorVote, total := 0, min := 0 })) a.config).isSome := by
    refine Option.isSome_iff_exists.2 ⟨c, configAt_eq.2 ⟨?_, ?_⟩⟩
    · rw [World.setN_owner, if_neg hne]; exact hcO
    · rw [World.setN_data, if_neg hne]; exact hc
  have hvd : a.validatorVote ≠ .default := by
    intro e; rw [e] at hvO; exact I.wf.2 hvO
  rw [hk] at hcs ⊢
  exact ⟨_, by rw [World.setN_data, if_pos rfl], rfl, hvd, hcs⟩

/-- Raising a validator's lamports total without touching its effective amount. -/
theorem Inv.raiseTotal (I : Inv env w) {k ck : Key} {v : ValidatorStake} {n : Nat} (hO : (w k).owner = progId)
    (hv : (w k).data = .validator v) (hbel : belongs k ck) (hn : v.total + n < U64) :
    Inv env (w.setD k (.validator { v with total := v.total + n })) := by
  obtain ⟨ck', hb, hcs⟩ := I.stake_key (stakeAt_eq.2 ⟨hO, by rw [hv]; rfl⟩)
  have := belongs_unique hb hbel; subst this
  obtain ⟨c, hc⟩ := Option.isSome_iff_exists.1 hcs
  have C := I.config _ c hc
  rw [configAt_eq] at hc
  have hne : k ≠ ck' := by intro e; rw [e, hc.2] at hv; simp at hv
  have W := wf_validator I hv
  have S := I.stake _ hO
  rw [hv] at S
  refine I.modify (c' := c) (D' := .validator { v with total := v.total + n }) hc.1 hc.2 hO hv rfl rfl hbel
    (fun k => by simp) (by simp only [World.setD_data, Ne.symm hne, if_false]; exact hc.2)
    (by simp only [World.setD_data, if_true])
    (fun k _ hk => by simp [World.setD_data, hk]) (.validator rfl) (by simp)
    ⟨S.1, S.2.trans (cap_mono (by simp only; omega))⟩ rfl rfl rfl (by simpa using C.last_le)
    (by simpa using C.rent) (fun k _ => by simp) ?_
  refine ⟨fun k => ⟨by simpa using (I.wf.1 k).1, ?_⟩, by simpa using I.wf.2⟩
  rw [World.setD_data]
  split_ifs
  · exact ⟨W.1, hn, W.2.2⟩
  · exact (I.wf.1 _).2

theorem initializeSolStakerStake_inv (I : Inv env w) (O : o.Ok) {a : InitializeSolStakerStakeAccts}
    (h : initializeSolStakerStake env o ctx w a = .ok w') : Inv env w' := by
  obtain ⟨c, v, vs, au, hcO, hc, _, hview, hvd, _, _, hvO, hvk, hvs, hk, hempty, hsys, _, _, hrent, hlt, rfl⟩ :=
    initializeSolStakerStake_ok h
  have hold : (w a.solStakerStake).owner ≠ progId := by rw [hsys]; decide
  have hbel : belongs a.solStakerStake a.config := by rw [hk]; simp [belongs]
  have hne : a.config ≠ a.solStakerStake := by intro e; rw [e] at hcO; exact hold hcO
  have hne' : a.validatorStake ≠ a.solStakerStake := by rw [hvk, hk]; simp
  have I1 := I.create (D := .solStaker
        { del := freshDel (au.getD v.withdrawer) v.delegatedVote, lamports := v.effective
          solStake := a.solStakerNativeStake }) hold hbel rfl rfl ?_ (by simp [StakeOk, freshDel]) hrent
    ⟨freshDel_wf _ _, O.view hview⟩
  · refine I1.raiseTotal (ck := a.config) ?_ ?_ (by rw [hvk]; simp [belongs]) hlt
    · rw [World.setN_owner, if_neg hne']; exact hvO
    · rw [World.setN_data, if_neg hne']; exact hvs
  · have hcs : (configAt (w.setN a.solStakerStake (.solStaker
        { del := freshDel (au.getD v.withdrawer) v.delegatedVote, lamports := v.effective
          solStake := a.solStakerNativeStake })) a.config).isSome := by
      refine Option.isSome_iff_exists.2 ⟨c, configAt_eq.2 ⟨?_, ?_⟩⟩
      · rw [World.setN_owner, if_neg hne]; exact hcO
      · rw [World.setN_data, if_neg hne]; exact hc
    have hvs' : (validatorAt (w.setN a.solStakerStake (.solStaker
        { del := freshDel (au.getD v.withdrawer) v.delegatedVote, lamports := v.effective
          solStake := a.solStakerNativeStake })) a.validatorStake).isSome := by
      refine Option.isSome_iff_exists.2 ⟨vs, validatorAt_eq.2 ⟨?_, ?_⟩⟩
      · rw [World.setN_owner, if_neg hne']; exact hvO
      · rw [World.setN_data, if_neg hne']; exact hvs
    rw [hvk] at hvs'
    rw [hk] at hcs hvs' ⊢
    exact ⟨_, by rw [World.setN_data, if_pos rfl], rfl, hcs, Or.inr hvs'⟩

/-- The vault authority is handed to the program. -/
theorem Inv.assignVault (I : Inv env w) {c : Key} {b : Nat} (he : (w (.vaultPda c b)).data = .bytes []) :
    Inv env (w.setO (.vaultPda c b) progId) := by
  have hconf : ∀ x, configAt (w.setO (.vaultPda c b) progId) x = configAt w x := by
    intro x; apply Option.ext; intro cc
    rw [configAt_eq, configAt_eq, World.setO_owner, World.setO_data]
    by_cases h : x = .vaultPda c b
    · subst h; simp [he]
    · simp [h]
  have hstake : ∀ x, stakeAt (w.setO (.vaultPda c b) progId) x = stakeAt w x := by
    intro x
    rw [stakeAt_eq', stakeAt_eq', World.setO_owner, World.setO_data]
    by_cases h : x = .vaultPda c b
    · subst h; simp [he, Data.del?]
    · simp [h]
  have hval : ∀ x, validatorAt (w.setO (.vaultPda c b) progId) x = validatorAt w x := by
    intro x; apply Option.ext; intro cc
    rw [validatorAt_eq, validatorAt_eq, World.setO_owner, World.setO_data]
    by_cases h : x = .vaultPda c b
    · subst h; simp [he]
    · simp [h]
  refine ⟨⟨fun x => ⟨by simpa using (I.wf.1 x).1, by simpa using (I.wf.1 x).2⟩, ?_⟩, ?_, ?_, ?_, ?_, ?_⟩
  · rw [World.setO_owner, if_neg (by simp)]; exact I.wf.2
  · intro x ho
    by_cases h : x = .vaultPda c b
    · subst h; simp only [Shape, World.setO_data]; exact he
    · rw [World.setO_owner, if_neg h] at ho
      have hs := I.shape x ho
      cases x
      case validatorPda v c =>
        obtain ⟨y, hy, h1, h2, h3⟩ := hs
        exact ⟨y, by rw [World.setO_data]; exact hy, h1, h2, by rw [hconf]; exact h3⟩
      case solStakerPda n c =>
        obtain ⟨y, hy, h1, h2, h3⟩ := hs
        exact ⟨y, by rw [World.setO_data]; exact hy, h1, by rw [hconf]; exact h2, by rw [hval]; exact h3⟩
      case overridePda => exact hs
      all_goals
        simp only [Shape, World.setO_data] at hs ⊢
        exact hs
  · intro x hx ho
    by_cases h : x = .vaultPda c b
    · subst h; rw [World.setO_owner, if_pos rfl] at ho; exact absurd rfl ho
    · rw [World.setO_owner, if_neg h] at ho ⊢
      rw [World.setO_data]
      exact I.unowned x hx ho
  · intro x cc hc
    rw [hconf] at hc
    have C := I.config x cc hc
    refine ⟨by simpa using C.last_le, C.bps, C.bump, by simpa using C.rent, C.total.congr fun s => ?_⟩
    simp only [effectiveIn, hstake]
  · intro x ho
    rw [World.setO_data]
    by_cases h : x = .vaultPda c b
    · subst h; rw [he]; trivial
    · rw [World.setO_owner, if_neg h] at ho
      exact I.stake x ho
  · intro x d hd
    rw [hstake] at hd
    simpa using I.rent x d hd

/-- No stake account belongs to an address that holds no config. -/
theorem Inv.no_stake (I : Inv env w) {ck s : Key} (h : configAt w ck = none) (hb : belongs s ck) : stakeAt w s = none := by
  cases hs : stakeAt w s with
  | none => rfl
  | some d =>
    obtain ⟨c', hb', hc'⟩ := I.stake_key hs
    rw [belongs_unique hb' hb, h] at hc'; simp at hc'

/-- A config is written into a prepared, zeroed account. -/
theorem Inv.createConfig (I : Inv env w) {k : Key} {c : Config} {b : List UInt8} (hO : (w k).owner = progId)
    (hb : (w k).data = .bytes b) (hlen : b ≠ []) (hr : env.rentMin configLen ≤ (w k).lamports) (h0 : c.effTotal = 0)
    (h1 : c.lamportsLast = (w k).lamports) (h2 : c.maxBps ≤ maxBasisPoints) (h3 : c.bump = env.vaultBump k)
    (h4 : c.WF) : Inv env (w.setD k (.config c)) := by
  have hk : k.ofProgram = false := by
    have := I.shape k hO
    cases k <;> simp_all [Shape, Key.ofProgram]
  have hnone : configAt w k = none := by
    cases h : configAt w k with
    | none => rfl
    | some c => rw [configAt_eq, hb] at h; simp at h
  have hconf : ∀ x, x ≠ k → configAt (w.setD k (.config c)) x = configAt w x := by
    intro x hx; apply Option.ext; intro cc
    rw [configAt_eq, configAt_eq, World.setD_owner, World.setD_data, if_neg hx]
  have hsome : ∀ x, (configAt w x).isSome → (configAt (w.setD k (.config c)) x).isSome := by
    intro x hx
    by_cases h : x = k
    · subst h; rw [hnone] at hx; simp at hx
    · rw [hconf x h]; exact hx
  have hstake : ∀ x, stakeAt (w.setD k (.config c)) x = stakeAt w x := by
    intro x
    rw [stakeAt_eq', stakeAt_eq', World.setD_owner, World.setD_data]
    by_cases h : x = k
    · subst h; simp [hb, Data.del?]
    · simp [h]
  have hval : ∀ x, validatorAt (w.setD k (.config c)) x = validatorAt w x := by
    intro x; apply Option.ext; intro cc
    rw [validatorAt_eq, validatorAt_eq, World.setD_owner, World.setD_data]
    by_cases h : x = k
    · subst h; simp [hb]
    · simp [h]
  refine ⟨⟨fun x => ⟨by simpa using (I.wf.1 x).1, ?_⟩, by simpa using I.wf.2⟩, ?_, ?_, ?_, ?_, ?_⟩
  · rw [World.setD_data]; split_ifs
    · exact h4
    · exact (I.wf.1 x).2
  · intro x ho
    rw [World.setD_owner] at ho
    have hs := I.shape x ho
    by_cases h : x = k
    · subst h
      have hd : (w.setD x (.config c) x).data = .config c := by simp [World.setD_data]
      cases x
      all_goals first | exact Or.inr ⟨c, hd⟩ | simp [Key.ofProgram] at hk
    · have hd : (w.setD k (.config c) x).data = (w x).data := by simp [World.setD_data, h]
      cases x
      case validatorPda v c =>
        obtain ⟨y, hy, h1, h2, h3⟩ := hs
        exact ⟨y, by rw [hd]; exact hy, h1, h2, hsome _ h3⟩
      case solStakerPda n c =>
        obtain ⟨y, hy, h1, h2, h3⟩ := hs
        exact ⟨y, by rw [hd]; exact hy, h1, hsome _ h2, by rw [hval]; exact h3⟩
      case overridePda => exact hs
      all_goals
        simp only [Shape] at hs ⊢
        rw [hd]; exact hs
  · intro x hx ho
    rw [World.setD_owner] at ho ⊢
    have h : x ≠ k := by rintro rfl; rw [hk] at hx; simp at hx
    rw [World.setD_data, if_neg h]
    exact I.unowned x hx ho
  · intro x cc hc
    have heff : ∀ s, effectiveIn (w.setD k (.config c)) x s = effectiveIn w x s := by
      intro s; simp only [effectiveIn, hstake]
    by_cases h : x = k
    · subst h
      rw [configAt_eq, World.setD_data, if_pos rfl] at hc
      cases hc.2
      refine ⟨by rw [h1]; simp, h2, h3, by simpa using hr, ?_⟩
      rw [h0]
      refine TotalIs.zero fun s => ?_
      rw [heff, effectiveIn]
      split_ifs with hbs
      · rw [I.no_stake hnone hbs]; rfl
      · rfl
    · rw [hconf x h] at hc
      have C := I.config x cc hc
      exact ⟨by simpa using C.last_le, C.bps, C.bump, by simpa using C.rent, C.total.congr heff⟩
  · intro x ho
    rw [World.setD_owner] at ho
    rw [World.setD_data]
    split_ifs
    · trivial
    · exact I.stake x ho
  · intro x d hd
    rw [hstake] at hd
    have h : x ≠ k := by rintro rfl; rw [stakeAt_eq, hb] at hd; simp [Data.del?] at hd
    rw [World.setD_data, if_neg h]
    simpa using I.rent x d hd

/-- The numbers in the arguments fit their machine types. -/
def InitializeConfigArgs.WF (x : InitializeConfigArgs) : Prop :=
  x.cooldownTime < U64 ∧ x.maxBps < 2 ^ 16 ∧ x.syncRewards < U64

theorem initializeConfig_inv (I : Inv env w) {a : InitializeConfigAccts} {x : InitializeConfigArgs} (hx : x.WF)
    (h : initializeConfig env ctx w a x = .ok w') : Inv env w' := by
  obtain ⟨w1, b, t, hpda, hempty, hw1, _, _, _, _, _, _, hO, hb, hlen, _, hrent, hbps, rfl⟩ := initializeConfig_ok h
  have I1 : Inv env w1 := by
    rcases hw1 with ⟨_, rfl⟩ | ⟨_, rfl⟩
    · exact I
    · rw [hpda] at hempty ⊢; exact I.assignVault hempty
  have hl : (w1 a.config).lamports = (w a.config).lamports := by
    rcases hw1 with ⟨_, rfl⟩ | ⟨_, rfl⟩ <;> simp
  have hd : (w1 a.config).data = (w a.config).data := by
    rcases hw1 with ⟨_, rfl⟩ | ⟨_, rfl⟩ <;> simp
  refine I1.createConfig hO (hd ▸ hb) (by rintro rfl; simp at hlen) (hl ▸ hrent) rfl hl.symm hbps rfl ?_
  refine ⟨hx.1, by simp, hx.2.2, (I.wf.1 _).1, by simp, hx.2.1, env.vaultBump_lt _⟩

end Verif
