import Verif.Lemmas.Dispatch
/-!
# The program's state, and how instructions change it
-/

namespace Verif

variable {env : Env} {o : Oracle} {ctx : Ctx} {w w' w'' : World} {ix : Ix}

/-- The initialised state the program has at an address. -/
def st (w : World) (k : Key) : Option Data :=
  if (w k).owner = progId then
    match (w k).data with
    | .config c => some (.config c)
    | .validator v => some (.validator v)
    | .solStaker s => some (.solStaker s)
    | _ => none
  else none

theorem st_config {k : Key} {c : Config} : st w k = some (.config c) ↔ configAt w k = some c := by
  unfold st configAt; split
  · split <;> simp_all
  · simp

theorem st_validator {k : Key} {v : ValidatorStake} : st w k = some (.validator v) ↔ validatorAt w k = some v := by
  unfold st validatorAt; split
  · split <;> simp_all
  · simp

theorem st_solStaker {k : Key} {s : SolStakerStake} : st w k = some (.solStaker s) ↔ solStakerAt w k = some s := by
  unfold st solStakerAt; split
  · split <;> simp_all
  · simp

theorem stakeAt_st (k : Key) : stakeAt w k = (st w k).bind Data.del? := by
  rw [stakeAt_eq']; unfold st; split
  · split <;> simp_all [Data.del?]
  · simp

theorem configAt_congr {k k' : Key} (h : st w' k' = st w k) : configAt w' k' = configAt w k := by
  apply Option.ext; intro c; rw [← st_config, ← st_config, h]

theorem validatorAt_congr {k k' : Key} (h : st w' k' = st w k) : validatorAt w' k' = validatorAt w k := by
  apply Option.ext; intro c; rw [← st_validator, ← st_validator, h]

theorem solStakerAt_congr {k k' : Key} (h : st w' k' = st w k) : solStakerAt w' k' = solStakerAt w k := by
  apply Option.ext; intro c; rw [← st_solStaker, ← st_solStaker, h]

theorem stakeAt_congr {k k' : Key} (h : st w' k' = st w k) : stakeAt w' k' = stakeAt w k := by
  rw [stakeAt_st, stakeAt_st, h]

theorem st_of_owned {k : Key} (h : (w k).owner = progId) {D : Data} (hD : (w k).data = D)
    (hd : (∃ c, D = .config c) ∨ ∃ d, D.del? = some d) : st w k = some D := by
  unfold st; rw [if_pos h, hD]
  rcases hd with ⟨c, rfl⟩ | ⟨d, hd⟩
  · rfl
  · cases D <;> simp_all [Data.del?]

theorem st_congr {k k' : Key} (ho : (w' k').owner = (w k).owner) (hd : (w' k').data = (w k).data) : st w' k' = st w k := by
  unfold st; rw [ho, hd]

theorem ext_st (I : Inv env w) (h : ExtStep w w') (k : Key) : st w' k = st w k := by
  cases hs : st w k with
  | some D =>
    have hk : (∃ c, D = .config c) ∨ ∃ d, D.del? = some d := by
      unfold st at hs; split at hs
      · split at hs <;> simp at hs <;> subst hs
        · exact Or.inl ⟨_, rfl⟩
        · exact Or.inr ⟨_, rfl⟩
        · exact Or.inr ⟨_, rfl⟩
      · simp at hs
    rcases hk with ⟨c, rfl⟩ | ⟨d, hd⟩
    · rw [st_config] at hs ⊢; exact (ext_config I h hs).1
    · have h1 : stakeAt w k = some d := by rw [stakeAt_st, hs]; exact hd
      obtain ⟨h2, h3, _⟩ := ext_stake I h h1
      rw [← hs]
      refine st_congr ?_ h3
      rw [h2, (stakeAt_eq.1 h1).1]
  | none =>
    unfold st
    split
    · rename_i ho
      rcases ext_owned h ho with ⟨h1, h2, _⟩ | ⟨_, _, n, hn⟩
      · rw [h2]; unfold st at hs; rw [if_pos h1] at hs; exact hs
      · rw [hn]
    · rfl

theorem Harvested.st_eq {ck hk auth va sk : Key} {keeper : Option Key} {c : Config} {d : Delegation}
    {h : HolderRewards} {rs rh : Nat} (H : Harvested env w w' ck hk auth va sk keeper c d h rs rh)
    (hcO : (w ck).owner = progId) (hsO : (w sk).owner = progId) (k : Key) :
    st w' k = if k = ck then some (.config (c.settled (w ck).lamports (rs + rh)))
      else if k = sk then some ((w sk).data.setDel (d.marked (accNow c (w ck).lamports) h.lastAcc))
      else st w k := by
  split_ifs with h1 h2
  · subst h1; exact st_of_owned (by rw [H.owner]; exact hcO) H.config' (Or.inl ⟨_, rfl⟩)
  · subst h2; exact st_of_owned (by rw [H.owner]; exact hsO) H.stake' (Or.inr ⟨_, del?_setDel H.del⟩)
  · exact st_congr (H.owner k) (H.data' k h1 h2)

theorem Adjusted.st_eq {ck sk : Key} {D' : Data} {c : Config} {d d' : Delegation}
    (A : Adjusted w w' ck sk D' c d d') (hcO : (w ck).owner = progId) (hsO : (w sk).owner = progId) (k : Key) :
    st w' k = if k = ck then some (.config { c with effTotal := c.effTotal - d.effective + d'.effective })
      else if k = sk then some D' else st w k := by
  split_ifs with h1 h2
  · subst h1; exact st_of_owned (by rw [A.owner]; exact hcO) A.config' (Or.inl ⟨_, rfl⟩)
  · subst h2; exact st_of_owned (by rw [A.owner]; exact hsO) A.stake' (Or.inr ⟨_, A.del'⟩)
  · exact st_congr (A.owner k) (A.data' k h1 h2)

/-! ## Settlement leaves settings, identities and staked amounts alone -/

/-- Two configs with the same settings (everything but the running totals). -/
structure SameSettings (c c' : Config) : Prop where
  authority : c'.authority = c.authority
  slashAuthority : c'.slashAuthority = c.slashAuthority
  vault : c'.vault = c.vault
  cooldownTime : c'.cooldownTime = c.cooldownTime
  syncRewards : c'.syncRewards = c.syncRewards
  dunaHash : c'.dunaHash = c.dunaHash
  maxBps : c'.maxBps = c.maxBps
  bump : c'.bump = c.bump

theorem SameSettings.refl (c : Config) : SameSettings c c := ⟨rfl, rfl, rfl, rfl, rfl, rfl, rfl, rfl⟩

theorem SameSettings.trans {a b c : Config} (h : SameSettings a b) (h' : SameSettings b c) : SameSettings a c :=
  ⟨h'.1.trans h.1, h'.2.trans h.2, h'.3.trans h.3, h'.4.trans h.4, h'.5.trans h.5, h'.6.trans h.6, h'.7.trans h.7,
    h'.8.trans h.8⟩

theorem SameSettings.settled (c : Config) (l p : Nat) : SameSettings c (c.settled l p) :=
  ⟨rfl, rfl, rfl, rfl, rfl, rfl, rfl, rfl⟩

theorem SameSettings.effTotal (c : Config) (t : Nat) : SameSettings c { c with effTotal := t } :=
  ⟨rfl, rfl, rfl, rfl, rfl, rfl, rfl, rfl⟩

/-- Delegations with the same owner; unless `ex`, also the same staked amount and cooldown. -/
structure SameDel (ex : Prop) (d d' : Delegation) : Prop where
  authority : d'.authority = d.authority
  staked : ¬ ex → d'.staked = d.staked
  cooldown : ¬ ex → d'.cooldown = d.cooldown

theorem SameDel.refl {ex : Prop} (d : Delegation) : SameDel ex d d := ⟨rfl, fun _ => rfl, fun _ => rfl⟩

theorem SameDel.trans {ex ex' : Prop} {a b c : Delegation} (h : SameDel ex a b) (h' : SameDel ex' b c) :
    SameDel (ex ∨ ex') a c :=
  ⟨h'.1.trans h.1, fun n => (h'.2 fun e => n (Or.inr e)).trans (h.2 fun e => n (Or.inl e)),
    fun n => (h'.3 fun e => n (Or.inr e)).trans (h.3 fun e => n (Or.inl e))⟩

/-- How the state at one stake account's address may change in a settling instruction. -/
inductive StRel (ex : Prop) : Option Data → Option Data → Prop
  | none : StRel ex .none .none
  | validator {v v' : ValidatorStake} : SameDel ex v.del v'.del → v'.del.vote = v.del.vote →
      StRel ex (some (.validator v)) (some (.validator v'))
  | solStaker {s s' : SolStakerStake} : SameDel ex s.del s'.del → s'.solStake = s.solStake →
      StRel ex (some (.solStaker s)) (some (.solStaker s'))

theorem StRel.trans {ex ex' : Prop} {a b c : Option Data} (h : StRel ex a b) (h' : StRel ex' b c) :
    StRel (ex ∨ ex') a c := by
  cases h with
  | none => cases h'; exact .none
  | validator h1 h2 => cases h' with | validator h3 h4 => exact .validator (h1.trans h3) (h4.trans h2)
  | solStaker h1 h2 => cases h' with | solStaker h3 h4 => exact .solStaker (h1.trans h3) (h4.trans h2)

theorem StRel.mono {ex ex' : Prop} {a b : Option Data} (h : StRel ex a b) (i : ex → ex') : StRel ex' a b := by
  cases h with
  | none => exact .none
  | validator h1 h2 => exact .validator ⟨h1.1, fun n => h1.2 (n ∘ i), fun n => h1.3 (n ∘ i)⟩ h2
  | solStaker h1 h2 => exact .solStaker ⟨h1.1, fun n => h1.2 (n ∘ i), fun n => h1.3 (n ∘ i)⟩ h2

/-- The state at a stake address is a stake account or nothing. -/
theorem Inv.st_cases (I : Inv env w) {k ck : Key} (hb : belongs k ck) :
    st w k = none ∨ (∃ v, st w k = some (.validator v)) ∨ ∃ s, st w k = some (.solStaker s) := by
  by_cases ho : (w k).owner = progId
  · have := I.shape k ho
    rcases hb with ⟨v, rfl⟩ | ⟨n, rfl⟩
    · obtain ⟨x, hx, _⟩ := this
      exact Or.inr (Or.inl ⟨x, st_of_owned ho hx (Or.inr ⟨_, rfl⟩)⟩)
    · obtain ⟨x, hx, _⟩ := this
      exact Or.inr (Or.inr ⟨x, st_of_owned ho hx (Or.inr ⟨_, rfl⟩)⟩)
  · left; simp [st, ho]

theorem Inv.strel_refl (I : Inv env w) {k ck : Key} (hb : belongs k ck) (ex : Prop) : StRel ex (st w k) (st w k) := by
  rcases I.st_cases hb with h | ⟨v, h⟩ | ⟨s, h⟩ <;> rw [h]
  · exact .none
  · exact .validator (.refl _) rfl
  · exact .solStaker (.refl _) rfl

/-- A step that works on one config: no other config and no stake account of another config changes; the config's
settings stay; stake accounts of the config keep their identity and authority and, outside `T`, their staked amount. -/
structure Quiet (T : Key → Prop) (ck : Key) (w w' : World) : Prop where
  config : ∃ c c', configAt w ck = some c ∧ configAt w' ck = some c' ∧ SameSettings c c'
  other : ∀ k, k ≠ ck → ¬ belongs k ck → st w' k = st w k
  stake : ∀ k, belongs k ck → StRel (T k) (st w k) (st w' k)

theorem Quiet.trans {T T' : Key → Prop} {ck : Key} (h : Quiet T ck w w') (h' : Quiet T' ck w' w'') :
    Quiet (fun k => T k ∨ T' k) ck w w'' := by
  refine ⟨?_, fun k h1 h2 => (h'.other k h1 h2).trans (h.other k h1 h2), fun k hk => (h.stake k hk).trans (h'.stake k hk)⟩
  obtain ⟨c, c1, hc, hc1, s⟩ := h.config
  obtain ⟨c2, c3, hc2, hc3, s'⟩ := h'.config
  rw [hc1] at hc2; cases hc2
  exact ⟨c, c3, hc, hc3, s.trans s'⟩

theorem Quiet.mono {T T' : Key → Prop} {ck : Key} (h : Quiet T ck w w') (i : ∀ k, T k → T' k) : Quiet T' ck w w' :=
  ⟨h.config, h.other, fun k hk => (h.stake k hk).mono (i k)⟩

/-- Nothing excepted. -/
abbrev noKey : Key → Prop := fun _ => False

theorem ext_quiet (I : Inv env w) (h : ExtStep w w') {ck : Key} {c : Config} (hc : configAt w ck = some c) :
    Quiet noKey ck w w' := by
  refine ⟨⟨c, c, hc, (ext_config I h hc).1, .refl c⟩, fun k _ _ => ext_st I h k, fun k hk => ?_⟩
  rw [ext_st I h]; exact I.strel_refl hk _

theorem strel_setDel {D : Data} {d x : Delegation} {ex : Prop} (h : D.del? = some d) (hs : SameDel ex d x)
    (hv : x.vote = d.vote) : StRel ex (some D) (some (D.setDel x)) := by
  cases D <;> simp only [Data.del?, Option.some.injEq, reduceCtorEq] at h <;> subst h
  · exact .validator hs hv
  · exact .solStaker hs rfl

theorem harvest_quiet (I : Inv env w) {ck hk auth va sk : Key} {keeper : Option Key} {c : Config} {d : Delegation}
    {h : HolderRewards} {rs rh : Nat} (H : Harvested env w w' ck hk auth va sk keeper c d h rs rh)
    (hcO : (w ck).owner = progId) (hsO : (w sk).owner = progId) (hbel : belongs sk ck) : Quiet noKey ck w w' := by
  have hst := H.st_eq hcO hsO
  refine ⟨⟨c, _, configAt_eq.2 ⟨hcO, H.config⟩, st_config.1 ((hst ck).trans (if_pos rfl)), .settled _ _ _⟩, ?_, ?_⟩
  · intro k h1 h2
    rw [hst, if_neg h1, if_neg (by rintro rfl; exact h2 hbel)]
  · intro k hk
    rw [hst]
    have h1 : k ≠ ck := by
      rintro rfl
      have := I.config_key (configAt_eq.2 ⟨hcO, H.config⟩)
      rw [hk.ofProgram] at this; simp at this
    rw [if_neg h1]
    split_ifs with h2
    · subst h2
      rw [st_of_owned hsO rfl (Or.inr ⟨d, H.del⟩)]
      exact strel_setDel H.del ⟨rfl, fun _ => rfl, fun _ => rfl⟩ rfl
    · exact I.strel_refl hk _

theorem adjust_quiet (I : Inv env w) {ck sk : Key} {D' : Data} {c : Config} {d d' : Delegation} {T : Key → Prop}
    (A : Adjusted w w' ck sk D' c d d') (hcO : (w ck).owner = progId) (hsO : (w sk).owner = progId)
    (hbel : belongs sk ck) (hrel : StRel (T sk) (some (w sk).data) (some D')) : Quiet T ck w w' := by
  have hst := A.st_eq hcO hsO
  refine ⟨⟨c, _, configAt_eq.2 ⟨hcO, A.config⟩, st_config.1 ((hst ck).trans (if_pos rfl)), .effTotal _ _⟩, ?_, ?_⟩
  · intro k h1 h2
    rw [hst, if_neg h1, if_neg (by rintro rfl; exact h2 hbel)]
  · intro k hk
    rw [hst]
    have h1 : k ≠ ck := by
      rintro rfl
      have := I.config_key (configAt_eq.2 ⟨hcO, A.config⟩)
      rw [hk.ofProgram] at this; simp at this
    rw [if_neg h1]
    split_ifs with h2
    · subst h2
      rw [st_of_owned hsO rfl (Or.inr ⟨d, A.del⟩)]
      exact hrel
    · exact I.strel_refl hk _

theorem quiet_none {T T' : Key → Prop} {ck : Key} (h : Quiet (fun k => T k ∨ T' k) ck w w') (h1 : ∀ k, ¬ T k) :
    Quiet T' ck w w' := h.mono fun k hk => hk.resolve_left (h1 k)

theorem Retotaled.quiet (I : Inv env w) {ck hk auth sk : Key} {v : ValidatorStake} {total : Nat} {c : Config}
    {hr : HolderRewards} {rs rh : Nat} {w1 : World} {c1 : Config} {d1 d2 : Delegation}
    (R : Retotaled env w w' ck hk auth sk v total c hr rs rh w1 c1 d1 d2) (hcO : (w ck).owner = progId)
    (hbel : belongs sk ck) : Quiet noKey ck w w' := by
  have I1 := (R.inv I hcO hbel).1
  have q1 := harvest_quiet I R.harv hcO R.owner hbel
  have hv := (R.harv.validator' R.data).2
  rw [← R.d1_eq] at hv
  have q2 : Quiet noKey ck w1 w' := by
    refine adjust_quiet I1 R.adj (by rw [R.harv.owner]; exact hcO) (by rw [R.harv.owner]; exact R.owner) hbel ?_
    rw [hv]
    have e := R.d1_eq
    refine .validator ?_ ?_ <;> rw [R.d2_eq, e]
    · exact ⟨rfl, fun _ => rfl, fun _ => rfl⟩
    · rfl
  exact (q1.trans q2).mono (by simp)

theorem quiet_refl (I : Inv env w) {ck : Key} {c : Config} (hc : configAt w ck = some c) : Quiet noKey ck w w :=
  ⟨⟨c, c, hc, hc, .refl c⟩, fun _ _ _ => rfl, fun _ hk => I.strel_refl hk _⟩

theorem Left.quiet (I : Inv env w) {a : HarvestSolStakerRewardsAccts} {s : SolStakerStake} (L : Left env w w' a s)
    {c : Config} (hc : configAt w a.config = some c) : Quiet noKey a.config w w' := by
  cases L with
  | stay _ _ h => rw [h]; exact quiet_refl I hc
  | leave _ hk _ R => exact R.quiet I (configAt_eq.1 hc).1 (by rw [hk]; simp [belongs])

theorem Joined.quiet (I : Inv env w) {a : HarvestSolStakerRewardsAccts} {dv vote : Key} {ds l : Nat}
    (J : Joined env w w' a dv ds vote l) {c : Config} (hc : configAt w a.config = some c) :
    Quiet noKey a.config w w' := by
  cases J with
  | undelegated _ h => rw [h]; exact quiet_refl I hc
  | absent _ _ _ h => rw [h]; exact quiet_refl I hc
  | join _ hk R => exact R.quiet I (configAt_eq.1 hc).1 (by rw [hk]; simp [belongs])

/-! ## Each settling instruction -/

theorem harvestSolStakerRewards_quiet (I : Inv env w) {a : HarvestSolStakerRewardsAccts}
    {s : SolStakerStake} {v : StakeView} {c : Config} {hr : HolderRewards} {rs rh : Nat} {w1 : World}
    (B : SolHarvestBase env o w a s v) (H : SolHarvested env o w w' a s v c hr rs rh w1) :
    Quiet noKey a.config w w' := by
  have bs : belongs a.solStakerStake a.config := by rw [B.sk]; simp [belongs]
  cases H with
  | noSync _ _ H h => rw [h]; exact harvest_quiet I H B.cO B.sO bs
  | @sync kp w2 w3 vote l c1 d1 d2 _ hk H L J hd1 hd2 A =>
    have I1 := harvest_inv I H B.cO B.sO bs
    have q1 := harvest_quiet I H B.cO B.sO bs
    obtain ⟨_, c1', _, hc1, _⟩ := q1.config
    have I2 := L.inv I1 (configAt_eq.1 hc1).1
    have q2 := L.quiet I1 hc1
    obtain ⟨_, c2, _, hc2, _⟩ := q2.config
    have I3 := J.inv I2 (configAt_eq.1 hc2).1
    have q3 := J.quiet I2 hc2
    have hv1 := (H.solStaker' B.data).2
    have hv3 : (w3 a.solStakerStake).data = (w1 a.solStakerStake).data := by
      rw [J.data_other H.ne (by rw [B.sk]; simp), L.data_other H.ne (by rw [B.sk]; simp)]
    rw [← hv3] at hv1
    have q4 : Quiet noKey a.config w3 w' := by
      refine adjust_quiet I3 A (by rw [J.owner, L.owner, H.owner]; exact B.cO)
        (by rw [J.owner, L.owner, H.owner]; exact B.sO) bs ?_
      rw [hv1]
      refine .solStaker ?_ rfl
      rw [hd2, hd1]
      exact ⟨rfl, fun _ => rfl, fun _ => rfl⟩
    exact (((q1.trans q2).trans q3).trans q4).mono (by simp)

theorem harvestHolderRewards_st (I : Inv env w) (O : o.Ok) {a : HarvestHolderRewardsAccts}
    (h : harvestHolderRewards env o w a = .ok w') : ∃ c, configAt w a.config = some c ∧
      ∀ k, st w' k = if k = a.config then
        some (.config { c.settled (w a.config).lamports 0 with lamportsLast := (w' a.config).lamports }) else st w k := by
  obtain ⟨c, w1, w2, c2, call, hcO, hc, hvault, hcurve, hpda, hhO, hhk, hlast, hw1, hcall, _, _, hc2, hrent, hown, ho',
    hc', hd', hl', _⟩ := harvestHolderRewards_ok h
  have hst1 : ∀ k, st w1 k = if k = a.config then some (.config (c.settled (w a.config).lamports 0)) else st w k := by
    intro k; rw [hw1]; split_ifs with h1
    · subst h1; exact st_of_owned (by simpa using hcO) (by simp [World.setD_data]) (Or.inl ⟨_, rfl⟩)
    · exact st_congr (by simp) (by simp [World.setD_data, h1])
  have I1 : Inv env w1 := by
    rw [hw1]
    obtain ⟨h1, h2, h3, h4, h5, h6, h7⟩ := wf_config I hc
    have C := I.config _ c (configAt_eq.2 ⟨hcO, hc⟩)
    refine I.modifyConfig (c' := c.settled (w a.config).lamports 0) hcO hc (fun k => by simp)
      (by simp only [World.setD_data, if_true])
      (fun k hk => by simp [World.setD_data, hk]) rfl C.bps rfl (by simp [Config.settled])
      (by simpa using C.rent) (fun k _ _ => by simp) ?_
    refine ⟨fun k => ⟨by simpa using (I.wf.1 k).1, ?_⟩, by simpa using I.wf.2⟩
    rw [World.setD_data]
    split_ifs
    · have := (I.wf.1 a.config).1
      exact ⟨h1, h2, h3, by simp only [Config.settled]; omega, accNow_lt _ _, h6, h7⟩
    · exact (I.wf.1 k).2
  have e := O.harvestRewards I1.wf hcall
  have hst2 := ext_st I1 e
  have h2 : st w2 a.config = some (.config (c.settled (w a.config).lamports 0)) := by
    rw [hst2, hst1, if_pos rfl]
  have hcO2 : (w2 a.config).owner = progId := (configAt_eq.1 (st_config.1 h2)).1
  have hcc : c2 = c.settled (w a.config).lamports 0 := by
    have := (configAt_eq.1 (st_config.1 h2)).2; rw [hc2] at this; simpa using this
  have hst : ∀ k, st w' k = if k = a.config then
      some (.config { c.settled (w a.config).lamports 0 with lamportsLast := (w' a.config).lamports }) else st w k := by
    intro k; split_ifs with h1
    · subst h1; exact st_of_owned (by rw [ho']; exact hcO2) (hcc ▸ hc') (Or.inl ⟨_, rfl⟩)
    · rw [st_congr (ho' k) (hd' k h1), hst2, hst1, if_neg h1]
  exact ⟨c, configAt_eq.2 ⟨hcO, hc⟩, hst⟩

theorem harvestHolderRewards_quiet (I : Inv env w) (O : o.Ok) {a : HarvestHolderRewardsAccts}
    (h : harvestHolderRewards env o w a = .ok w') : Quiet noKey a.config w w' := by
  obtain ⟨c, hc, hst⟩ := harvestHolderRewards_st I O h
  refine ⟨⟨c, _, hc, st_config.1 ((hst _).trans (if_pos rfl)), ?_⟩, ?_, ?_⟩
  · exact ⟨rfl, rfl, rfl, rfl, rfl, rfl, rfl, rfl⟩
  · intro k h1 _; rw [hst, if_neg h1]
  · intro k hk
    have h1 : k ≠ a.config := by
      rintro rfl
      have := I.config_key (hc)
      rw [hk.ofProgram] at this; simp at this
    rw [hst, if_neg h1]; exact I.strel_refl hk _

theorem harvestValidatorRewards_quiet (I : Inv env w) {a : HarvestValidatorRewardsAccts}
    (h : harvestValidatorRewards env w a = .ok w') : Quiet noKey a.config w w' := by
  obtain ⟨c, s, hr, rs, rh, hcO, hsO, hs, hk, H⟩ := harvestValidatorRewards_ok h
  exact harvest_quiet I H hcO hsO (by rw [hk]; simp [belongs])

theorem validatorOverrideStakedLamports_quiet (I : Inv env w) {a : ValidatorOverrideStakedLamportsAccts} {n : Nat}
    (h : validatorOverrideStakedLamports env ctx w a n = .ok w') : Quiet noKey a.config w w' := by
  obtain ⟨c, s, hr, rs, rh, w1, c1, hcO, hsO, hs, hk, _, _, _, H, A⟩ := validatorOverrideStakedLamports_ok h
  have hb : belongs a.validatorStake a.config := by rw [hk]; simp [belongs]
  have q1 := harvest_quiet I H hcO hsO hb
  have I1 := harvest_inv I H hcO hsO hb
  have q2 : Quiet noKey a.config w1 w' := by
    refine adjust_quiet I1 A (by rw [H.owner]; exact hcO) (by rw [H.owner]; exact hsO) hb ?_
    rw [(H.validator' hs).2]
    exact .validator ⟨rfl, fun _ => rfl, fun _ => rfl⟩ rfl
  exact (q1.trans q2).mono (by simp)

/-- Facts shared by the instructions that change one account's staked amount. -/
structure OneStake (ck sk : Key) (w w' : World) (d d' : Delegation) : Prop where
  quiet : Quiet (· = sk) ck w w'
  bel : belongs sk ck
  before : stakeAt w sk = some d
  after : stakeAt w' sk = some d'

theorem StakedOk.one {a : StakeTokensAccts} {amount : Nat} {c : Config} {d : Delegation} {hr : HolderRewards}
    {rs rh : Nat} {w1 w2 w3 : World} {D' : Data} {c1 : Config} {d1 d2 : Delegation} {ts td : TokenAccount} (I : Inv env w)
    (S : StakedOk env o ctx w w' a amount c d hr rs rh w1 w2 w3 D' c1 d1 d2 ts td)
    (hrel : StRel True (some (w1 a.stake).data) (some D'))
    (J : Inv env w1 ∧ Inv env w2 ∧ Inv env w3 ∧ ExtStep w2 w3 ∧ ExtStep w3 w' ∧ Inv env w') :
    OneStake a.config a.stake w w' d d2 := by
  obtain ⟨I1, I2, I3, e3, e4, I4⟩ := J
  have q1 := harvest_quiet I S.harv S.cO S.sO S.bel
  have hc1 : (w1 a.config).owner = progId := by rw [S.harv.owner]; exact S.cO
  have hs1 : (w1 a.stake).owner = progId := by rw [S.harv.owner]; exact S.sO
  have q2 : Quiet (· = a.stake) a.config w1 w2 := by
    refine adjust_quiet I1 S.adj hc1 hs1 S.bel (hrel.mono fun _ => rfl)
  obtain ⟨_, c2, _, hc2, _⟩ := q2.config
  have q3 := ext_quiet I2 e3 hc2
  obtain ⟨_, c3, _, hc3, _⟩ := q3.config
  have q4 := ext_quiet I3 e4 hc3
  refine ⟨(((q1.trans q2).trans q3).trans q4).mono (by simp), S.bel, stakeAt_eq.2 ⟨S.sO, S.harv.del⟩, ?_⟩
  rw [stakeAt_congr (ext_st I3 e4 _), stakeAt_congr (ext_st I2 e3 _)]
  exact stakeAt_eq.2 ⟨by rw [S.adj.owner]; exact hs1, by rw [S.adj.stake']; exact S.adj.del'⟩

theorem validatorStakeTokens_one (I : Inv env w) (O : o.Ok) {a : StakeTokensAccts} {amount : Nat}
    (h : validatorStakeTokens env o ctx w a amount = .ok w') :
    ∃ d d', OneStake a.config a.stake w w' d d' ∧ d'.staked = d.staked + amount ∧ d'.cooldown = d.cooldown := by
  obtain ⟨c, s, hr, rs, rh, w1, w2, w3, c1, ts, td, hs, _, S⟩ := validatorStakeTokens_ok h
  refine ⟨_, _, S.one I ?_ (validatorStakeTokens_inv I O hs S), rfl, rfl⟩
  rw [(S.harv.validator' hs).2]
  exact .validator ⟨rfl, fun h => absurd trivial h, fun h => absurd trivial h⟩ rfl

theorem solStakerStakeTokens_one (I : Inv env w) (O : o.Ok) {a : StakeTokensAccts} {amount : Nat}
    (h : solStakerStakeTokens env o ctx w a amount = .ok w') :
    ∃ d d', OneStake a.config a.stake w w' d d' ∧ d'.staked = d.staked + amount ∧ d'.cooldown = d.cooldown := by
  obtain ⟨c, s, hr, rs, rh, w1, w2, w3, c1, ts, td, hs, _, S⟩ := solStakerStakeTokens_ok h
  refine ⟨_, _, S.one I ?_ (solStakerStakeTokens_inv I O hs S), rfl, rfl⟩
  rw [(S.harv.solStaker' hs).2]
  exact .solStaker ⟨rfl, fun h => absurd trivial h, fun h => absurd trivial h⟩ rfl

theorem SlashedOk.one {a : SlashAccts} {amount : Nat} {c : Config} {d : Delegation} {hr : HolderRewards}
    {rs rh : Nat} {w1 w2 : World} {D' : Data} {c1 : Config} {d1 d2 : Delegation} (I : Inv env w)
    (S : SlashedOk env ctx w w' a amount c d hr rs rh w1 w2 D' c1 d1 d2)
    (hrel : StRel True (some (w1 a.stake).data) (some D'))
    (J : Inv env w1 ∧ ExtStep w1 w2 ∧ Inv env w2 ∧ Inv env w') : OneStake a.config a.stake w w' d d2 := by
  obtain ⟨I1, e2, I2, I4⟩ := J
  have q1 := harvest_quiet I S.harv S.cO S.sO S.bel
  obtain ⟨_, ho, hsame⟩ := S.burn_ext I1
  have hc1 : (w2 a.config).owner = progId := by rw [ho, S.harv.owner]; exact S.cO
  have hs1 : (w2 a.stake).owner = progId := by rw [ho, S.harv.owner]; exact S.sO
  obtain ⟨_, c2, _, hc2, _⟩ := q1.config
  have q2 := ext_quiet I1 e2 hc2
  have q3 : Quiet (· = a.stake) a.config w2 w' := by
    refine adjust_quiet I2 S.adj hc1 hs1 S.bel ?_
    rw [hsame]; exact hrel.mono fun _ => rfl
  refine ⟨((q1.trans q2).trans q3).mono (by simp), S.bel, stakeAt_eq.2 ⟨S.sO, S.harv.del⟩, ?_⟩
  exact stakeAt_eq.2 ⟨by rw [S.adj.owner]; exact hs1, by rw [S.adj.stake']; exact S.adj.del'⟩

/-- What both slash instructions share, in terms of the state before and after. -/
structure SlashOne (ctx : Ctx) (ck sk : Key) (w w' : World) (amount : Nat) (d d' : Delegation) : Prop where
  one : OneStake ck sk w w' d d'
  staked : d'.staked = d.staked - min amount d.staked
  cooldown : d'.cooldown = d.cooldown
  signed : ∃ c, configAt w ck = some c ∧ c.slashAuthority ≠ .default ∧ ctx.signer c.slashAuthority = true

theorem slashValidatorStake_one (I : Inv env w) {a : SlashAccts} {amount : Nat}
    (h : slashValidatorStake env ctx w a amount = .ok w') :
    ∃ d d', SlashOne ctx a.config a.stake w w' amount d d' := by
  obtain ⟨c, s, hr, rs, rh, w1, w2, c1, hs, _, S⟩ := slashValidatorStake_ok h
  refine ⟨_, _, S.one I ?_ (slashValidatorStake_inv I hs S), rfl, rfl, c, configAt_eq.2 ⟨S.cO, S.harv.config⟩, S.set,
    S.auth ▸ S.signer⟩
  rw [(S.harv.validator' hs).2]
  exact .validator ⟨rfl, fun h => absurd trivial h, fun h => absurd trivial h⟩ rfl

theorem slashSolStakerStake_one (I : Inv env w) {a : SlashAccts} {amount : Nat}
    (h : slashSolStakerStake env ctx w a amount = .ok w') :
    ∃ d d', SlashOne ctx a.config a.stake w w' amount d d' := by
  obtain ⟨c, s, hr, rs, rh, w1, w2, c1, hs, _, S⟩ := slashSolStakerStake_ok h
  refine ⟨_, _, S.one I ?_ (slashSolStakerStake_inv I hs S), rfl, rfl, c, configAt_eq.2 ⟨S.cO, S.harv.config⟩, S.set,
    S.auth ▸ S.signer⟩
  rw [(S.harv.solStaker' hs).2]
  exact .solStaker ⟨rfl, fun h => absurd trivial h, fun h => absurd trivial h⟩ rfl

/-- What an unstake does to the state. -/
structure UnstakeOne (o : Oracle) (ctx : Ctx) (ck sk : Key) (w w' : World) (amount : Nat) (c : Config)
    (d d' : Delegation) : Prop where
  one : OneStake ck sk w w' d d'
  config : configAt w ck = some c
  le : amount ≤ d.staked
  limit : amount ≤ d.staked * c.maxBps / maxBasisPoints
  staked : d'.staked = d.staked - amount
  ready : d.cooldown ≤ o.now
  cooldown : d'.cooldown = satAdd o.now c.cooldownTime
  signed : ctx.signer d.authority = true

theorem unstakeTokens_one (I : Inv env w) (O : o.Ok) {a : UnstakeTokensAccts} {amount : Nat}
    (h : unstakeTokens env o ctx w a amount = .ok w') :
    ∃ c d d', UnstakeOne o ctx a.config a.stake w w' amount c d d' := by
  obtain ⟨c, d, hr, rs, rh, w1, w2, w3, c1, D', call, ts, td, lam, S, K⟩ := unstakeTokens_ok h
  obtain ⟨I1, I2, I3, e3, e4, I4⟩ := unstakeTokens_inv I O S K
  have q1 := harvest_quiet I S.harv S.cO S.sO S.bel
  have hc1 : (w1 a.config).owner = progId := by rw [S.harv.owner]; exact S.cO
  have hs1 : (w1 a.stake).owner = progId := by rw [S.harv.owner]; exact S.sO
  have hrel : StRel True (some (w1 a.stake).data) (some D') := by
    rcases K with ⟨s, hs, hk, hd, _, hD⟩ | ⟨s, hs, hk, hd, _, hD⟩
    · rw [(S.harv.validator' hs).2, hD, hd]
      exact .validator ⟨rfl, fun h => absurd trivial h, fun h => absurd trivial h⟩ rfl
    · rw [(S.harv.solStaker' hs).2, hD, hd]
      exact .solStaker ⟨rfl, fun h => absurd trivial h, fun h => absurd trivial h⟩ rfl
  have q2 : Quiet (· = a.stake) a.config w1 w2 := adjust_quiet I1 S.adj hc1 hs1 S.bel (hrel.mono fun _ => rfl)
  obtain ⟨_, c2, _, hc2, _⟩ := q2.config
  have q3 := ext_quiet I2 e3 hc2
  obtain ⟨_, c3, _, hc3, _⟩ := q3.config
  have q4 := ext_quiet I3 e4 hc3
  refine ⟨c, d, _, ⟨(((q1.trans q2).trans q3).trans q4).mono (by simp), S.bel, stakeAt_eq.2 ⟨S.sO, S.harv.del⟩, ?_⟩,
    configAt_eq.2 ⟨S.cO, S.harv.config⟩, S.le, S.limit, S.staked, S.cooldown, S.cooldown', ?_⟩
  · rw [stakeAt_congr (ext_st I3 e4 _), stakeAt_congr (ext_st I2 e3 _)]
    exact stakeAt_eq.2 ⟨by rw [S.adj.owner]; exact hs1, by rw [S.adj.stake']; exact S.adj.del'⟩
  · rw [← S.harv.auth_eq]; exact S.signer

/-- What a move does to the state. -/
structure MoveTwo (ctx : Ctx) (ck sk tk : Key) (w w' : World) (amount : Nat) (ds dt ds' dt' : Delegation) : Prop where
  quiet : Quiet (fun k => k = sk ∨ k = tk) ck w w'
  belS : belongs sk ck
  belT : belongs tk ck
  ne : tk ≠ sk
  s : stakeAt w sk = some ds
  t : stakeAt w tk = some dt
  s' : stakeAt w' sk = some ds'
  t' : stakeAt w' tk = some dt'
  le : amount ≤ ds.staked
  sStaked : ds'.staked = ds.staked - amount
  tStaked : dt'.staked = dt.staked + amount
  sCooldown : ds'.cooldown = ds.cooldown
  tCooldown : dt'.cooldown = max ds.cooldown dt.cooldown
  sSigned : ctx.signer ds.authority = true
  same : dt.authority = ds.authority
  sol : (solStakerAt w sk).isSome ∧ (solStakerAt w tk).isSome

theorem solStakerMoveTokens_two (I : Inv env w) {a : SolStakerMoveTokensAccts} {amount : Nat}
    (h : solStakerMoveTokens env ctx w a amount = .ok w') :
    ∃ ds dt ds' dt', MoveTwo ctx a.config a.sourceSolStakerStake a.destinationSolStakerStake w w' amount ds dt ds' dt' := by
  obtain ⟨c, c', s, t, hr, rs, rh, rs', rh', w1, w2, wx, cs, ct, ds, dt, ds', dt', M⟩ := solStakerMoveTokens_ok h
  obtain ⟨I1, I2, Ix, I4⟩ := solStakerMoveTokens_inv I M
  have bs : belongs a.sourceSolStakerStake a.config := by rw [M.sk]; simp [belongs]
  have bt : belongs a.destinationSolStakerStake a.config := by rw [M.tk]; simp [belongs]
  have q1 := harvest_quiet I M.harvS M.cO M.sO bs
  have ho1 := M.harvS.owner
  have ho2 := M.harvT.owner
  have q2 := harvest_quiet I1 M.harvT (by rw [ho1]; exact M.cO) (by rw [ho1]; exact M.tO) bt
  have ht1 : (w1 a.destinationSolStakerStake).data = .solStaker t := by
    rw [M.harvS.data' _ M.harvT.ne M.ne]; exact M.dst
  have hs2 := (M.harvS.solStaker' M.src).2
  rw [← M.harvT.data' _ M.harvS.ne (Ne.symm M.ne), ← M.ds_eq] at hs2
  have ht2 := (M.harvT.solStaker' ht1).2
  rw [← M.dt_eq] at ht2
  have hc2 : (w2 a.config).owner = progId := by rw [ho2, ho1]; exact M.cO
  have hsO2 : (w2 a.sourceSolStakerStake).owner = progId := by rw [ho2, ho1]; exact M.sO
  have htO2 : (w2 a.destinationSolStakerStake).owner = progId := by rw [ho2, ho1]; exact M.tO
  have hox := M.adjS.owner
  have q3 : Quiet (· = a.sourceSolStakerStake) a.config w2 wx := by
    refine adjust_quiet I2 M.adjS hc2 hsO2 bs ?_
    rw [hs2]
    refine .solStaker ⟨?_, fun h => absurd rfl h, fun h => absurd rfl h⟩ rfl
    rw [M.ds'_eq]; rfl
  have htx : (wx a.destinationSolStakerStake).data = .solStaker { t with del := dt } := by
    rw [M.adjS.data' _ M.harvT.ne M.ne]; exact ht2
  have q4 : Quiet (· = a.destinationSolStakerStake) a.config wx w' := by
    refine adjust_quiet Ix M.adjT (by rw [hox]; exact hc2) (by rw [hox]; exact htO2) bt ?_
    rw [htx]
    refine .solStaker ⟨?_, fun h => absurd rfl h, fun h => absurd rfl h⟩ rfl
    rw [M.dt'_eq]; rfl
  have eS : (w' a.sourceSolStakerStake).data = .solStaker { s with del := ds' } := by
    rw [M.adjT.data' _ M.harvS.ne (Ne.symm M.ne)]; exact M.adjS.stake'
  refine ⟨s.del, t.del, ds', dt', (((q1.trans q2).trans q3).trans q4).mono (by simp), bs, bt, M.ne,
    stakeAt_eq.2 ⟨M.sO, by rw [M.src]; rfl⟩, stakeAt_eq.2 ⟨M.tO, by rw [M.dst]; rfl⟩,
    stakeAt_eq.2 ⟨?_, by rw [eS]; rfl⟩, stakeAt_eq.2 ⟨?_, by rw [M.adjT.stake']; rfl⟩, M.le, by rw [M.ds'_eq]; rfl,
    by rw [M.dt'_eq]; rfl, by rw [M.ds'_eq]; rfl, by rw [M.dt'_eq]; rfl, ?_, ?_, ?_, ?_⟩
  · rw [M.adjT.owner, hox]; exact hsO2
  · rw [M.adjT.owner, hox]; exact htO2
  · rw [← M.harvS.auth_eq]; exact M.signer
  · rw [← M.harvS.auth_eq, ← M.harvT.auth_eq]
  · exact Option.isSome_iff_exists.2 ⟨_, solStakerAt_eq.2 ⟨M.sO, M.src⟩⟩
  · exact Option.isSome_iff_exists.2 ⟨_, solStakerAt_eq.2 ⟨M.tO, M.dst⟩⟩

/-! ## The effect of every instruction -/

/-- State updated at one address. -/
def stUpd (f : Key → Option Data) (k : Key) (D : Data) : Key → Option Data := fun k' => if k' = k then some D else f k'

/-- The effect of a successful instruction on the program's state. -/
inductive Effect (env : Env) (o : Oracle) (ix : Ix) (w w' : World) : Prop
  | initializeConfig (ck : Key) (c : Config) : (∃ s c t b y h, ix.decoded = some (.initializeConfig s c t b y h)) →
      ix.acct 0 = some ck → st w ck = none → ck.ofProgram = false →
      st w' = stUpd (st w) ck (.config c) → Effect env o ix w w'
  | initializeValidatorStake (ck vote wd : Key) (c : Config) : ix.decoded = some .initializeValidatorStake →
      ix.acct 0 = some ck → configAt w ck = some c →
      (w vote).owner = voteId → (w vote).data = .vote wd → st w (.validatorPda vote ck) = none →
      st w' = stUpd (st w) (.validatorPda vote ck) (.validator { del := freshDel wd vote, total := 0, min := 0 }) →
      ix.acct 3 = some vote → Effect env o ix w w'
  | initializeSolStakerStake (ck native : Key) (c : Config) (v : StakeView) (vs : ValidatorStake) :
      ix.decoded = some .initializeSolStakerStake → ix.acct 0 = some ck → configAt w ck = some c →
      o.view native = .ok v → validatorAt w (.validatorPda v.delegatedVote ck) = some vs →
      st w (.solStakerPda native ck) = none →
      st w' = stUpd (stUpd (st w) (.solStakerPda native ck)
          (.solStaker { del := freshDel v.withdrawer v.delegatedVote, lamports := v.effective, solStake := native }))
        (.validatorPda v.delegatedVote ck) (.validator { vs with total := vs.total + v.effective }) →
      ix.acct 5 = some native → Effect env o ix w w'
  | setAuthority (ck new : Key) (c c' : Config) (t : AuthorityType) : ix.decoded = some (.setAuthority t) →
      ix.acct 0 = some ck → configAt w ck = some c →
      (match t with
      | .config => c.authority ≠ .default ∧ ix.ctx.signer c.authority = true ∧ c' = { c with authority := new }
      | .slash => c.slashAuthority ≠ .default ∧ ix.ctx.signer c.slashAuthority = true ∧
          c' = { c with slashAuthority := new }) →
      st w' = stUpd (st w) ck (.config c') → Effect env o ix w w'
  | updateConfig (ck : Key) (c : Config) (f : ConfigField) : ix.decoded = some (.updateConfig f) →
      ix.acct 0 = some ck → configAt w ck = some c →
      c.authority ≠ .default → ix.ctx.signer c.authority = true →
      st w' = stUpd (st w) ck (.config (c.updated f)) → Effect env o ix w w'
  | validatorSyncAuthority (ck vote wd : Key) (v : ValidatorStake) : ix.decoded = some .validatorSyncAuthority →
      ix.acct 0 = some ck → (configAt w ck).isSome → validatorAt w (.validatorPda vote ck) = some v →
      (w vote).owner = voteId → (w vote).data = .vote wd →
      st w' = stUpd (st w) (.validatorPda vote ck) (.validator { v with del := { v.del with authority := wd } }) →
      ix.acct 2 = some vote → Effect env o ix w w'
  | settle (ck : Key) : (ix.decoded = some .harvestHolderRewards ∨ ix.decoded = some .harvestValidatorRewards ∨
        ix.decoded = some .harvestSolStakerRewards ∨ ∃ n, ix.decoded = some (.validatorOverrideStakedLamports n)) →
      ix.config = some ck →
      Quiet noKey ck w w' → Effect env o ix w w'
  | stake (ck sk : Key) (amount : Nat) (d d' : Delegation) :
      (ix.decoded = some (.validatorStakeTokens amount) ∨ ix.decoded = some (.solStakerStakeTokens amount)) →
      ix.acct 0 = some ck → ix.acct 3 = some sk →
      OneStake ck sk w w' d d' → d'.staked = d.staked + amount → d'.cooldown = d.cooldown → Effect env o ix w w'
  | slash (ck sk : Key) (amount : Nat) (d d' : Delegation) :
      (ix.decoded = some (.slashValidatorStake amount) ∨ ix.decoded = some (.slashSolStakerStake amount)) →
      ix.acct 0 = some ck → ix.acct 1 = some sk →
      SlashOne ix.ctx ck sk w w' amount d d' → Effect env o ix w w'
  | unstake (ck sk : Key) (amount : Nat) (c : Config) (d d' : Delegation) : ix.decoded = some (.unstakeTokens amount) →
      ix.acct 0 = some ck → ix.acct 3 = some sk →
      UnstakeOne o ix.ctx ck sk w w' amount c d d' → Effect env o ix w w'
  | move (ck sk tk : Key) (amount : Nat) (ds dt ds' dt' : Delegation) :
      ix.decoded = some (.solStakerMoveTokens amount) →
      ix.acct 0 = some ck → ix.acct 3 = some sk → ix.acct 4 = some tk →
      MoveTwo ix.ctx ck sk tk w w' amount ds dt ds' dt' → Effect env o ix w w'

theorem st_setD {k : Key} {D : Data} (ho : (w k).owner = progId)
    (hd : (∃ c, D = .config c) ∨ ∃ d, D.del? = some d) : st (w.setD k D) = stUpd (st w) k D := by
  funext k'
  unfold stUpd; split_ifs with h
  · subst h; exact st_of_owned (by simpa using ho) (by simp [World.setD_data]) hd
  · exact st_congr (by simp) (by simp [World.setD_data, h])

theorem st_setN {k : Key} {D : Data} (hd : (∃ c, D = .config c) ∨ ∃ d, D.del? = some d) :
    st (w.setN k D) = stUpd (st w) k D := by
  funext k'
  unfold stUpd; split_ifs with h
  · subst h; exact st_of_owned (by simp [World.setN_owner]) (by simp [World.setN_data]) hd
  · exact st_congr (by simp [World.setN_owner, h]) (by simp [World.setN_data, h])

theorem st_setO {k : Key} (he : (w k).data = .bytes []) : st (w.setO k progId) = st w := by
  funext k'
  by_cases h : k' = k
  · subst h; simp [st, he]
  · exact st_congr (by simp [World.setO_owner, h]) (by simp)

/-- The override account of an authority is always empty. -/
theorem Inv.override_empty (I : Inv env w) (au ck : Key) : (w (.overridePda au ck)).data = .bytes [] := by
  by_cases ho : (w (.overridePda au ck)).owner = progId
  · exact (I.shape _ ho).elim
  · exact (I.unowned _ rfl ho).2

theorem exec_effect (I : Inv env w) (O : o.Ok) (h : exec env o w ix = .ok w') : Effect env o ix w w' := by
  cases exec_ran h with
  | initializeConfig a s c hh t b y rest hi hl h =>
    obtain ⟨w1, b, t, hpda, hempty, hw1, _, _, _, _, _, _, hO, hb, hlen, _, hrent, hbps, hw'⟩ := initializeConfig_ok h
    have hst : st w1 = st w := by
      rcases hw1 with ⟨_, rfl⟩ | ⟨_, rfl⟩
      · rfl
      · exact st_setO hempty
    have hst' := (congrArg st hw').trans (st_setD hO (Or.inl ⟨_, rfl⟩))
    rw [hst] at hst'
    have hd1 : (w1 a.config).data = (w a.config).data := by
      rcases hw1 with ⟨_, rfl⟩ | ⟨_, rfl⟩ <;> simp
    refine .initializeConfig a.config _ ⟨_, _, _, _, _, _, hi⟩ (by simp [Ix.acct, hl, InitializeConfigAccts.list]) ?_ ?_ hst'
    · unfold st; rw [hb]; split <;> rfl
    · have I1 : Inv env w1 := by
        rcases hw1 with ⟨_, rfl⟩ | ⟨_, rfl⟩
        · exact I
        · rw [hpda] at hempty ⊢; exact I.assignVault hempty
      have := I1.shape _ hO
      rw [hb] at hd1
      generalize a.config = k at *
      cases k <;> simp_all [Shape, Key.ofProgram]
  | initializeValidatorStake a rest hi hl h =>
    obtain ⟨c, wd, hcO, hc, hvO, hv, _, hk, hempty, hsys, hrent, rfl⟩ := initializeValidatorStake_ok h
    rw [hk]
    refine .initializeValidatorStake a.config a.validatorVote wd c hi
      (by simp [Ix.acct, hl, InitializeValidatorStakeAccts.list]) (configAt_eq.2 ⟨hcO, hc⟩) hvO hv ?_
      (st_setN (Or.inr ⟨_, rfl⟩)) (by simp [Ix.acct, hl, InitializeValidatorStakeAccts.list])
    rw [hk] at hempty; unfold st; rw [hempty]; split <;> rfl
  | validatorStakeTokens a amount rest hi hl h =>
    obtain ⟨d, d', h1, h2, h3⟩ := validatorStakeTokens_one I O h
    exact .stake _ _ amount d d' (Or.inl hi) (by simp [Ix.acct, hl, StakeTokensAccts.list])
      (by simp [Ix.acct, hl, StakeTokensAccts.list]) h1 h2 h3
  | harvestHolderRewards a rest hi hl h =>
    exact .settle a.config (Or.inl hi) (by simp [Ix.config, hi, Ix.acct, hl, HarvestHolderRewardsAccts.list])
      (harvestHolderRewards_quiet I O h)
  | harvestValidatorRewards a rest hi hl h =>
    exact .settle a.config (Or.inr (Or.inl hi)) (by simp [Ix.config, hi, Ix.acct, hl, HarvestValidatorRewardsAccts.list])
      (harvestValidatorRewards_quiet I h)
  | slashValidatorStake a amount rest hi hl h =>
    obtain ⟨d, d', h1⟩ := slashValidatorStake_one I h
    exact .slash _ _ amount d d' (Or.inl hi) (by simp [Ix.acct, hl, SlashAccts.listValidator])
      (by simp [Ix.acct, hl, SlashAccts.listValidator]) h1
  | setAuthority a t rest hi hl h =>
    obtain ⟨c, c', hsig, hO, hc, rfl, ht⟩ := setAuthority_ok h
    refine .setAuthority a.account a.newAuthority c c' t hi (by simp [Ix.acct, hl, SetAuthorityAccts.list])
      (configAt_eq.2 ⟨hO, hc⟩) ?_ (st_setD hO (Or.inl ⟨_, rfl⟩))
    cases t <;> (obtain ⟨h1, h2, h3⟩ := ht; exact ⟨h1, h2 ▸ hsig, h3⟩)
  | updateConfig a f rest hi hl h =>
    obtain ⟨c, hO, hc, h1, h2, h3, hb, rfl⟩ := updateConfig_ok h
    exact .updateConfig a.config c f hi (by simp [Ix.acct, hl, UpdateConfigAccts.list])
      (configAt_eq.2 ⟨hO, hc⟩) h1 (h2 ▸ h3) (st_setD hO (Or.inl ⟨_, rfl⟩))
  | initializeSolStakerStake a rest hi hl h =>
    obtain ⟨c, v, vs, au, hcO, hc, _, hview, hvd, _, _, hvO, hvk, hvs, hk, hempty, hsys, hov, hau, hrent, hlt, rfl⟩ :=
      initializeSolStakerStake_ok h
    have hau : au = none := by
      rw [hov, I.override_empty] at hau
      simp [readOverride, Data.isEmpty] at hau; exact hau.symm
    subst hau
    have hne : Key.validatorPda v.delegatedVote a.config ≠ .solStakerPda a.solStakerNativeStake a.config := by simp
    rw [hvk] at hvO hvs ⊢
    rw [hk] at hempty ⊢
    refine .initializeSolStakerStake a.config a.solStakerNativeStake c v vs hi
      (by simp [Ix.acct, hl, InitializeSolStakerStakeAccts.list]) (configAt_eq.2 ⟨hcO, hc⟩) hview
      (validatorAt_eq.2 ⟨hvO, hvs⟩) ?_ ?_ (by simp [Ix.acct, hl, InitializeSolStakerStakeAccts.list])
    · unfold st; rw [hempty]; split <;> rfl
    · rw [st_setD (by rw [World.setN_owner, if_neg hne]; exact hvO) (Or.inr ⟨_, rfl⟩), st_setN (Or.inr ⟨_, rfl⟩)]
      rfl
  | solStakerStakeTokens a amount rest hi hl h =>
    obtain ⟨d, d', h1, h2, h3⟩ := solStakerStakeTokens_one I O h
    exact .stake _ _ amount d d' (Or.inr hi) (by simp [Ix.acct, hl, StakeTokensAccts.list])
      (by simp [Ix.acct, hl, StakeTokensAccts.list]) h1 h2 h3
  | harvestSolStakerRewards a kp rest hi hl _ h =>
    obtain ⟨s, v, c, hr, rs, rh, w1, B, H⟩ := harvestSolStakerRewards_ok I.wf h
    exact .settle a.config (Or.inr (Or.inr (Or.inl hi)))
      (by simp [Ix.config, hi, Ix.acct, hl, HarvestSolStakerRewardsAccts.list]) (harvestSolStakerRewards_quiet I B H)
  | unstakeTokens a amount rest hi hl h =>
    obtain ⟨c, d, d', h1⟩ := unstakeTokens_one I O h
    exact .unstake _ _ amount c d d' hi (by simp [Ix.acct, hl, UnstakeTokensAccts.list])
      (by simp [Ix.acct, hl, UnstakeTokensAccts.list]) h1
  | slashSolStakerStake a amount rest hi hl h =>
    obtain ⟨d, d', h1⟩ := slashSolStakerStake_one I h
    exact .slash _ _ amount d d' (Or.inr hi) (by simp [Ix.acct, hl, SlashAccts.listSolStaker])
      (by simp [Ix.acct, hl, SlashAccts.listSolStaker]) h1
  | solStakerMoveTokens a amount rest hi hl h =>
    obtain ⟨ds, dt, ds', dt', h1⟩ := solStakerMoveTokens_two I h
    exact .move _ _ _ amount ds dt ds' dt' hi (by simp [Ix.acct, hl, SolStakerMoveTokensAccts.list])
      (by simp [Ix.acct, hl, SolStakerMoveTokensAccts.list]) (by simp [Ix.acct, hl, SolStakerMoveTokensAccts.list]) h1
  | validatorOverrideStakedLamports a n rest hi hl h =>
    exact .settle a.config (Or.inr (Or.inr (Or.inr ⟨n, hi⟩)))
      (by simp [Ix.config, hi, Ix.acct, hl, ValidatorOverrideStakedLamportsAccts.list])
      (validatorOverrideStakedLamports_quiet I h)
  | validatorSyncAuthority a rest hi hl h =>
    obtain ⟨s, wd, hcO, ⟨c, hc⟩, hk, hs, hvO, hv, hso, rfl⟩ := validatorSyncAuthority_ok h
    have hO : (w a.validatorStake).owner = progId := by
      by_contra hne
      have := (I.unowned a.validatorStake (by rw [hk]; rfl) hne).2
      rw [hs] at this; simp at this
    rw [hk] at hO hs ⊢
    exact .validatorSyncAuthority a.config a.validatorVote wd s hi
      (by simp [Ix.acct, hl, ValidatorSyncAuthorityAccts.list])
      (Option.isSome_iff_exists.2 ⟨c, configAt_eq.2 ⟨hcO, hc⟩⟩) (validatorAt_eq.2 ⟨hO, hs⟩) hvO hv
      (st_setD hO (Or.inr ⟨_, rfl⟩)) (by simp [Ix.acct, hl, ValidatorSyncAuthorityAccts.list])

theorem Quiet.key {T : Key → Prop} {ck : Key} (Q : Quiet T ck w w') (I : Inv env w) : ck.ofProgram = false := by
  obtain ⟨c, _, hc, _⟩ := Q.config
  exact I.config_key hc

/-- The config of an instruction, and what the instruction leaves alone. -/
theorem Effect.elsewhere (I : Inv env w) {ix : Ix} (E : Effect env o ix w w') : ∃ ck, ix.config = some ck ∧
    ck.ofProgram = false ∧ ∀ k, k ≠ ck → ¬ belongs k ck → st w' k = st w k := by
  have upd : ∀ {f : Key → Option Data} {ck k' : Key} {D : Data}, (k' = ck ∨ belongs k' ck) → ∀ k, k ≠ ck →
      ¬ belongs k ck → stUpd f k' D k = f k := by
    intro f ck k' D h k h1 h2
    unfold stUpd; rw [if_neg]
    rintro rfl
    rcases h with h | h
    · exact h1 h
    · exact h2 h
  cases E with
  | initializeConfig ck c h h0 _ hp e =>
    obtain ⟨_, _, _, _, _, _, h⟩ := h
    exact ⟨ck, by simp [Ix.config, h, h0], hp, fun k h1 h2 => by rw [e]; exact upd (Or.inl rfl) k h1 h2⟩
  | initializeValidatorStake ck vote wd c h h0 hc _ _ _ e =>
    exact ⟨ck, by simp [Ix.config, h, h0], I.config_key hc, fun k h1 h2 => by rw [e]; exact upd (Or.inr (by simp [belongs])) k h1 h2⟩
  | initializeSolStakerStake ck native c v vs h h0 hc _ _ _ e =>
    refine ⟨ck, by simp [Ix.config, h, h0], I.config_key hc, fun k h1 h2 => ?_⟩
    rw [e, upd (ck := ck) (Or.inr (by simp [belongs])) k h1 h2, upd (ck := ck) (Or.inr (by simp [belongs])) k h1 h2]
  | setAuthority ck new c c' t h h0 hc _ e =>
    exact ⟨ck, by simp [Ix.config, h, h0], I.config_key hc, fun k h1 h2 => by rw [e]; exact upd (Or.inl rfl) k h1 h2⟩
  | updateConfig ck c f h h0 hc _ _ e =>
    exact ⟨ck, by simp [Ix.config, h, h0], I.config_key hc, fun k h1 h2 => by rw [e]; exact upd (Or.inl rfl) k h1 h2⟩
  | validatorSyncAuthority ck vote wd v h h0 hc _ _ _ e =>
    obtain ⟨c, hc⟩ := Option.isSome_iff_exists.1 hc
    exact ⟨ck, by simp [Ix.config, h, h0], I.config_key hc, fun k h1 h2 => by rw [e]; exact upd (Or.inr (by simp [belongs])) k h1 h2⟩
  | settle ck _ h0 Q => exact ⟨ck, h0, Q.key I, Q.other⟩
  | stake ck sk amount d d' h h0 _ S _ _ =>
    refine ⟨ck, ?_, S.quiet.key I, S.quiet.other⟩
    rcases h with h | h <;> simp [Ix.config, h, h0]
  | slash ck sk amount d d' h h0 _ S =>
    refine ⟨ck, ?_, S.one.quiet.key I, S.one.quiet.other⟩
    rcases h with h | h <;> simp [Ix.config, h, h0]
  | unstake ck sk amount c d d' h h0 _ U => exact ⟨ck, by simp [Ix.config, h, h0], U.one.quiet.key I, U.one.quiet.other⟩
  | move ck sk tk amount ds dt ds' dt' h h0 _ _ M => exact ⟨ck, by simp [Ix.config, h, h0], M.quiet.key I, M.quiet.other⟩

end Verif
