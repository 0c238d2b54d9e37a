import Verif.Lemmas.Solvency
/-!
# What a settlement pays, and to whom
-/

namespace Verif

variable {env : Env} {o : Oracle} {w w' : World} {ix : Ix}

theorem eligible_eq {current last balance n : Nat} (h : eligibleRewards current last balance = .ok n) :
    n = growth last current * balance / scale := by
  rw [← wrapSub_eq]
  simp only [eligibleRewards, ite_ok, ok_ok, mulDivU64_ok] at h
  rcases h with ⟨h0, rfl⟩ | ⟨_, _, rfl⟩
  · rw [h0]; simp
  · rfl

/-- The rewards of a delegation against given values of the two accumulators. -/
def due (acc hacc : Nat) (d : Delegation) : Nat :=
  growth d.lastStake acc * d.effective / scale + growth d.lastHolder hacc * d.staked / scale

theorem due_marked (acc hacc : Nat) {d : Delegation} (h1 : d.lastStake = acc) (h2 : d.lastHolder = hacc) : due acc hacc d = 0 := by
  unfold due; rw [h1, h2, growth_self, growth_self]; simp

theorem accrued_eq {ck k : Key} {c : Config} {d : Delegation} (hc : configAt w ck = some c) (hd : stakeAt w k = some d)
    (hb : belongs k ck) : accrued env w ck k = due (accNow c (w ck).lamports) (holderAcc env ck w) d := by
  unfold accrued; rw [hc, hd]; simp only [if_pos hb]; rfl

theorem accrued_none {ck k : Key} (hd : stakeAt w k = none) : accrued env w ck k = 0 := by
  unfold accrued; rw [hd]; cases configAt w ck <;> rfl

section
variable {ck hk auth sk : Key} {keeper : Option Key} {c : Config} {d : Delegation} {h : HolderRewards} {rs rh : Nat}

theorem Harvested.due_eq (H : Harvested env w w' ck hk auth (env.vaultAuth ck) sk keeper c d h rs rh) :
    rs + rh = due (accNow c (w ck).lamports) (holderAcc env ck w) d := by
  unfold due
  rw [H.record, ← eligible_eq H.rs_eq, ← eligible_eq H.rh_eq]

theorem Harvested.paid (H : Harvested env w w' ck hk auth (env.vaultAuth ck) sk keeper c d h rs rh)
    (hcO : (w ck).owner = progId) (hsO : (w sk).owner = progId) (hb : belongs sk ck) :
    rs + rh = accrued env w ck sk := by
  rw [accrued_eq (configAt_eq.2 ⟨hcO, H.config⟩) (stakeAt_eq.2 ⟨hsO, H.del⟩) hb]; exact H.due_eq

theorem keeperReward_le {keeper : Option Key} {n m : Nat} : keeperReward keeper n m ≤ n := by
  unfold keeperReward; split
  · exact Nat.min_le_left _ _
  · exact Nat.zero_le _

/-- Where the lamports of a settlement go, when the config pays neither itself. -/
theorem Harvested.moves {va : Key} (H : Harvested env w w' ck hk auth va sk keeper c d h rs rh) (hk : keeper ≠ some ck)
    (ha : d.authority ≠ ck) (k : Key) :
    (w' k).lamports + (if k = ck then rs + rh else 0) =
      (w k).lamports + (if k = d.authority then rs + rh - keeperReward keeper (rs + rh) c.syncRewards else 0) +
        (if keeper = some k then keeperReward keeper (rs + rh) c.syncRewards else 0) := by
  have hr := H.rent
  rw [H.lamports', ← H.auth_eq]
  rw [← H.auth_eq] at ha
  by_cases h1 : k = auth
  · subst h1
    simp only [if_true, if_neg ha, authAfterKeeper]
    split_ifs <;> omega
  · simp only [if_neg h1]
    by_cases h2 : k = ck
    · subst h2; simp only [if_true, if_neg hk]; omega
    · simp only [if_neg h2]; split_ifs <;> rfl

/-- A settlement that owes nothing moves nothing. -/
theorem Harvested.moves_zero {va : Key} (H : Harvested env w w' ck hk auth va sk keeper c d h rs rh) (hz : rs + rh = 0)
    (k : Key) : (w' k).lamports = (w k).lamports := by
  have h0 : keeperReward keeper 0 c.syncRewards = 0 := Nat.eq_zero_of_le_zero keeperReward_le
  rw [H.lamports', hz, h0]
  unfold authAfterKeeper
  split_ifs <;> first | rfl | (subst_vars; rfl)

theorem Harvested.configAt' {va : Key} (H : Harvested env w w' ck hk auth va sk keeper c d h rs rh)
    (hcO : (w ck).owner = progId) : configAt w' ck = some (c.settled (w ck).lamports (rs + rh)) :=
  configAt_eq.2 ⟨by rw [H.owner]; exact hcO, H.config'⟩

theorem Harvested.stakeAt' {va : Key} (H : Harvested env w w' ck hk auth va sk keeper c d h rs rh)
    (hsO : (w sk).owner = progId) : stakeAt w' sk = some (d.marked (accNow c (w ck).lamports) h.lastAcc) :=
  stakeAt_eq.2 ⟨by rw [H.owner]; exact hsO, H.del'⟩

theorem Harvested.stakeAt_other {va : Key} (H : Harvested env w w' ck hk auth va sk keeper c d h rs rh)
    {k : Key} (h1 : k ≠ ck) (h2 : k ≠ sk) : st w' k = st w k :=
  st_congr (H.owner k) (H.data' k h1 h2)

theorem Harvested.holderAcc' {va : Key} (H : Harvested env w w' ck hk auth va sk keeper c d h rs rh) (ck' : Key) :
    holderAcc env ck' w' = holderAcc env ck' w := holderAcc_fv H.fv

end

section
variable {ck hk auth sk : Key} {v : ValidatorStake} {total : Nat} {c : Config} {hr : HolderRewards} {rs rh : Nat}
  {w1 : World} {c1 : Config} {d1 d2 : Delegation}

/-- A validator settled at a config that is up to date is owed what its markers say. -/
theorem Retotaled.due_eq (R : Retotaled env w w' ck hk auth sk v total c hr rs rh w1 c1 d1 d2) (W : w.WF) {acc : Nat}
    (S : Settled ck acc w) : rs + rh = due acc (holderAcc env ck w) v.del := by
  have := R.harv.due_eq
  rw [(S.accNow W R.harv.config).1] at this
  exact this

theorem Retotaled.moves (R : Retotaled env w w' ck hk auth sk v total c hr rs rh w1 c1 d1 d2) (ha : v.del.authority ≠ ck)
    (k : Key) :
    (w' k).lamports + (if k = ck then rs + rh else 0) = (w k).lamports + (if k = v.del.authority then rs + rh else 0) := by
  have := R.harv.moves (by simp) ha k
  rw [R.adj.lamports]
  simpa [keeperReward] using this

theorem Retotaled.moves_zero (R : Retotaled env w w' ck hk auth sk v total c hr rs rh w1 c1 d1 d2) (hz : rs + rh = 0)
    (k : Key) : (w' k).lamports = (w k).lamports := by
  rw [R.adj.lamports, R.harv.moves_zero hz]

theorem Retotaled.validatorAt' (R : Retotaled env w w' ck hk auth sk v total c hr rs rh w1 c1 d1 d2) (W : w.WF) {acc : Nat}
    (S : Settled ck acc w) : ∃ v', validatorAt w' sk = some v' ∧ v'.del.lastStake = acc ∧ v'.del.lastHolder = holderAcc env ck w ∧
      v'.del.authority = v.del.authority := by
  refine ⟨_, validatorAt_eq.2 ⟨by rw [R.owner']; exact R.owner, R.adj.stake'⟩, ?_, ?_, ?_⟩
  · rw [R.d2_eq, R.d1_eq, (S.accNow W R.harv.config).1]; rfl
  · rw [R.d2_eq, R.d1_eq, R.harv.record]; rfl
  · rw [R.d2_eq, R.d1_eq]; rfl

end

/-- Rewards of the account at `k` against a value of the stake accumulator. -/
def dueAt (env : Env) (w : World) (ck : Key) (acc : Nat) (k : Key) : Nat :=
  if belongs k ck then ((stakeAt w k).map (due acc (holderAcc env ck w))).getD 0 else 0

theorem accrued_dueAt {ck : Key} {c : Config} (hc : configAt w ck = some c) (k : Key) :
    accrued env w ck k = dueAt env w ck (accNow c (w ck).lamports) k := by
  unfold dueAt
  cases hd : stakeAt w k with
  | none => rw [accrued_none hd, Option.map_none, Option.getD_none, ite_self]
  | some d =>
    split_ifs with hb
    · rw [accrued_eq hc hd hb, Option.map_some, Option.getD_some]
    · unfold accrued; rw [hc, hd]; exact if_neg hb

theorem accrued_settled {ck : Key} {acc : Nat} (S : Settled ck acc w) (W : w.WF) (hcO : (w ck).owner = progId) (k : Key) :
    accrued env w ck k = dueAt env w ck acc k := by
  obtain ⟨c, hc, _⟩ := id S
  rw [accrued_dueAt (configAt_eq.2 ⟨hcO, hc⟩), (S.accNow W hc).1]

theorem dueAt_congr {ck : Key} {acc : Nat} {k : Key} (h1 : st w' k = st w k) (h2 : holderAcc env ck w' = holderAcc env ck w) :
    dueAt env w' ck acc k = dueAt env w ck acc k := by
  unfold dueAt; rw [stakeAt_congr h1, h2]

theorem dueAt_some {ck : Key} {acc : Nat} {k : Key} {d : Delegation} (hd : stakeAt w k = some d) (hb : belongs k ck) :
    dueAt env w ck acc k = due acc (holderAcc env ck w) d := by
  unfold dueAt; rw [if_pos hb, hd, Option.map_some, Option.getD_some]

theorem stakeAt_validator {k : Key} {v : ValidatorStake} (h : validatorAt w k = some v) : stakeAt w k = some v.del := by
  unfold stakeAt; rw [h]

theorem stakeAt_solStaker {k : Key} {s : SolStakerStake} (h : solStakerAt w k = some s) : stakeAt w k = some s.del := by
  obtain ⟨h1, h2⟩ := solStakerAt_eq.1 h
  exact stakeAt_eq.2 ⟨h1, by rw [h2]; rfl⟩

/-- What settling the validator account `P` of config `ck` does, from and to a config that is up to date. -/
structure SettlesAt (env : Env) (w w' : World) (ck : Key) (acc : Nat) (P : Key) (p : Nat) : Prop where
  moves : ∀ k, (w' k).lamports + (if k = ck then p else 0) = (w k).lamports + (if authorityOf w P = some k then p else 0)
  settled : Settled ck acc w'
  hacc : holderAcc env ck w' = holderAcc env ck w
  owner : ∀ k, (w' k).owner = (w k).owner
  others : ∀ k, k ≠ ck → k ≠ P → st w' k = st w k

theorem SettlesAt.refl {ck : Key} {acc : Nat} (P : Key) (S : Settled ck acc w) : SettlesAt env w w ck acc P 0 :=
  ⟨by simp, S, rfl, fun _ => rfl, fun _ _ _ => rfl⟩

theorem Retotaled.settles {ck hk auth sk : Key} {v : ValidatorStake} {total : Nat} {c : Config} {hr : HolderRewards}
    {rs rh : Nat} {w1 : World} {c1 : Config} {d1 d2 : Delegation}
    (R : Retotaled env w w' ck hk auth sk v total c hr rs rh w1 c1 d1 d2) (W : w.WF) (hb : belongs sk ck) {acc : Nat}
    (S : Settled ck acc w) (ha : auth ≠ ck ∨ dueAt env w ck acc sk = 0) :
    SettlesAt env w w' ck acc sk (dueAt env w ck acc sk) := by
  have hv := validatorAt_eq.2 ⟨R.owner, R.data⟩
  have hp : rs + rh = dueAt env w ck acc sk := by
    rw [R.due_eq W S, dueAt_some (stakeAt_validator hv) hb]
  have hau : authorityOf w sk = some v.del.authority := by unfold authorityOf; rw [stakeAt_validator hv]; rfl
  refine ⟨fun k => ?_, ?_, R.record, R.owner', fun k h1 h2 => st_congr (R.owner' k) (R.data_other h1 h2)⟩
  · rcases ha with ha | ha
    · rw [hau]
      have := R.moves (R.harv.auth_eq ▸ ha) k
      rw [hp] at this
      simpa [eq_comm] using this
    · rw [ha]; simp only [ite_self, Nat.add_zero]; exact R.moves_zero (hp.trans ha) k
  · refine R.settled W (fun e => ?_) S
    rcases ha with ha | ha
    · exact absurd e ha
    · exact hp.trans ha

theorem Left.settles {a : HarvestSolStakerRewardsAccts} {s : SolStakerStake} (L : Left env w w' a s) (W : w.WF) {acc : Nat}
    (S : Settled a.config acc w)
    (ha : a.previousValidatorStakeAuthority ≠ a.config) :
    SettlesAt env w w' a.config acc (.validatorPda s.del.vote a.config)
      (if s.del.vote ≠ .default then dueAt env w a.config acc (.validatorPda s.del.vote a.config) else 0) ∧
    (s.del.vote ≠ .default → dueAt env w' a.config acc (.validatorPda s.del.vote a.config) = 0 ∧
      authorityOf w' (.validatorPda s.del.vote a.config) = authorityOf w (.validatorPda s.del.vote a.config)) := by
  cases L with
  | stay h1 _ h => rw [h]; simp only [h1, ne_eq, not_true_eq_false, if_false, false_implies, and_true]; exact .refl _ S
  | leave h1 hk _ R =>
    rw [if_pos h1, ← hk]
    have hb : belongs a.previousValidatorStake a.config := by rw [hk]; simp [belongs]
    refine ⟨R.settles W hb S (Or.inl ha), fun _ => ?_⟩
    obtain ⟨v', hv', e1, e2, e3⟩ := R.validatorAt' W S
    constructor
    · rw [dueAt_some (stakeAt_validator hv') hb]
      exact due_marked _ _ e1 (by rw [e2, R.record])
    · unfold authorityOf
      rw [stakeAt_validator hv', stakeAt_validator (validatorAt_eq.2 ⟨R.owner, R.data⟩)]
      exact congrArg some e3

theorem Joined.settles {a : HarvestSolStakerRewardsAccts} {dv vote : Key} {ds l : Nat} (J : Joined env w w' a dv ds vote l)
    (W : w.WF) {acc : Nat} (S : Settled a.config acc w)
    (ha : a.currentValidatorStakeAuthority ≠ a.config) :
    SettlesAt env w w' a.config acc (.validatorPda dv a.config)
      (if dv ≠ .default then dueAt env w a.config acc (.validatorPda dv a.config) else 0) := by
  cases J with
  | undelegated h1 h => rw [h]; simp only [h1, ne_eq, not_true_eq_false, if_false]; exact .refl _ S
  | absent h1 hk ho h =>
    rw [h]
    have : dueAt env w a.config acc (.validatorPda dv a.config) = 0 := by
      unfold dueAt
      rw [← hk]
      have : stakeAt w a.currentValidatorStake = none := by
        rw [stakeAt_eq', if_neg ho]
      rw [this]; simp
    rw [this, ite_self]; exact .refl _ S
  | join h1 hk R =>
    rw [if_pos h1, ← hk]
    exact R.settles W (by rw [hk]; simp [belongs]) S (Or.inl ha)

/-- Payments of a `HarvestSolStakerRewards`: the staker (less the keeper's share), the keeper, and, when the native stake has
changed, the validators it left and joined. -/
structure SolPayments (env : Env) (w w' : World) (ck sk : Key) (s : SolStakerStake) (v : StakeView) (c : Config)
    (keeper : Option Key) (share toPrev toCur : Nat) : Prop where
  share_eq : share = if v.effective ≠ s.lamports ∨ v.delegatedVote ≠ s.del.vote then
    min (accrued env w ck sk) c.syncRewards else 0
  prev_eq : toPrev = if (v.effective ≠ s.lamports ∨ v.delegatedVote ≠ s.del.vote) ∧ s.del.vote ≠ .default then
    accrued env w ck (.validatorPda s.del.vote ck) else 0
  cur_eq : toCur = if v.delegatedVote ≠ s.del.vote ∧ v.delegatedVote ≠ .default then
    accrued env w ck (.validatorPda v.delegatedVote ck) else 0
  moves : ∀ k, (w' k).lamports + (if k = ck then accrued env w ck sk + toPrev + toCur else 0) =
    (w k).lamports + (if k = s.del.authority then accrued env w ck sk - share else 0) +
      (if keeper = some k then share else 0) +
      (if authorityOf w (.validatorPda s.del.vote ck) = some k then toPrev else 0) +
      (if authorityOf w (.validatorPda v.delegatedVote ck) = some k then toCur else 0)
  settled : Settled ck (accNow c (w ck).lamports) w'

theorem solHarvest_payments (I : Inv env w) {a : HarvestSolStakerRewardsAccts} {s : SolStakerStake} {v : StakeView} {c : Config}
    {hr : HolderRewards} {rs rh : Nat} {w1 : World} (B : SolHarvestBase env o w a s v)
    (H : SolHarvested env o w w' a s v c hr rs rh w1) (ha4 : a.solStakerStakeAuthority ≠ a.config)
    (ha7 : a.previousValidatorStakeAuthority ≠ a.config) (ha9 : a.currentValidatorStakeAuthority ≠ a.config)
    (hkp : a.keeperRecipient ≠ some a.config) :
    ∃ share toPrev toCur, SolPayments env w w' a.config a.solStakerStake s v c a.keeperRecipient share toPrev toCur := by
  have hb : belongs a.solStakerStake a.config := by rw [B.sk]; simp [belongs]
  have hau : s.del.authority ≠ a.config := by
    have : a.solStakerStakeAuthority = s.del.authority := by
      cases H with
      | noSync _ _ H _ => exact H.auth_eq
      | sync _ _ H _ _ _ _ _ => exact H.auth_eq
    rw [← this]; exact ha4
  suffices h : ∀ p toPrev toCur, p = accrued env w a.config a.solStakerStake →
      toPrev = (if (v.effective ≠ s.lamports ∨ v.delegatedVote ≠ s.del.vote) ∧ s.del.vote ≠ .default then
        accrued env w a.config (.validatorPda s.del.vote a.config) else 0) →
      toCur = (if v.delegatedVote ≠ s.del.vote ∧ v.delegatedVote ≠ .default then
        accrued env w a.config (.validatorPda v.delegatedVote a.config) else 0) →
      (∀ k, (w' k).lamports + (if k = a.config then p + toPrev + toCur else 0) =
        (w k).lamports + (if k = s.del.authority then
          p - (if v.effective ≠ s.lamports ∨ v.delegatedVote ≠ s.del.vote then min p c.syncRewards else 0) else 0) +
          (if a.keeperRecipient = some k then
            (if v.effective ≠ s.lamports ∨ v.delegatedVote ≠ s.del.vote then min p c.syncRewards else 0) else 0) +
          (if authorityOf w (.validatorPda s.del.vote a.config) = some k then toPrev else 0) +
          (if authorityOf w (.validatorPda v.delegatedVote a.config) = some k then toCur else 0)) ∧
      Settled a.config (accNow c (w a.config).lamports) w' by
    obtain ⟨h1, h2⟩ := h _ _ _ rfl rfl rfl
    exact ⟨_, _, _, rfl, rfl, rfl, h1, h2⟩
  intro p toPrev toCur hp hP hC
  cases H with
  | noSync h1 h2 H h =>
    refine ⟨fun k => ?_, by rw [h]; exact H.settled (by simp) (fun e => absurd (H.auth_eq ▸ e) hau)⟩
    rw [← H.paid B.cO B.sO hb] at hp
    have := H.moves (by simp) hau k
    simp only [h1, h2, ne_eq, not_true_eq_false, or_self, if_false, false_and] at hP hC ⊢
    subst hP hC hp
    simp only [ite_self, Nat.add_zero, h, Nat.sub_zero]
    simpa [keeperReward] using this
  | @sync kp w2 w3 vote l c1 d1 d2 hn hk H L J hd1 hd2 A =>
    have hneed : v.effective ≠ s.lamports ∨ v.delegatedVote ≠ s.del.vote := by
      by_contra hc; push Not at hc; exact hn hc
    have hc1O : (w1 a.config).owner = progId := by rw [H.owner]; exact B.cO
    have I1 := harvest_inv I H B.cO B.sO hb
    have I2 := L.inv I1 hc1O
    have S1 := H.settled (hk ▸ hkp) (fun e => absurd (H.auth_eq ▸ e) hau)
    have hkey := I.config_key (configAt_eq.2 ⟨B.cO, H.config⟩)
    have hne : ∀ u, Key.validatorPda u a.config ≠ a.config := by
      intro u e; rw [← e] at hkey; simp [Key.ofProgram] at hkey
    have hne' : ∀ u, Key.validatorPda u a.config ≠ a.solStakerStake := by intro u; rw [B.sk]; simp
    have st1 : ∀ u, st w1 (.validatorPda u a.config) = st w (.validatorPda u a.config) := fun u =>
      H.stakeAt_other (hne u) (hne' u)
    have au1 : ∀ u, authorityOf w1 (.validatorPda u a.config) = authorityOf w (.validatorPda u a.config) := fun u => by
      unfold authorityOf; rw [stakeAt_congr (st1 u)]
    have due1 : ∀ u, dueAt env w1 a.config (accNow c (w a.config).lamports) (.validatorPda u a.config) =
        accrued env w a.config (.validatorPda u a.config) := fun u => by
      rw [dueAt_congr (st1 u) (H.holderAcc' _), accrued_dueAt (configAt_eq.2 ⟨B.cO, H.config⟩)]
    obtain ⟨L1, L2⟩ := L.settles I1.wf S1 ha7
    have au2 : ∀ u, authorityOf w2 (.validatorPda u a.config) = authorityOf w (.validatorPda u a.config) := fun u => by
      by_cases hu : u = s.del.vote
      · subst hu
        by_cases hd : s.del.vote = .default
        · cases L with
          | stay _ _ h => rw [h, au1]
          | leave h _ _ _ => exact absurd hd h
        · rw [(L2 hd).2, au1]
      · have : st w2 (.validatorPda u a.config) = st w1 (.validatorPda u a.config) :=
          L1.others _ (hne u) (by simpa using hu)
        rw [← au1]; unfold authorityOf; rw [stakeAt_congr this]
    have J1 := J.settles I2.wf L1.settled ha9
    refine ⟨fun k => ?_, A.settled J1.settled⟩
    have m1 := H.moves (hk ▸ hkp) hau k
    have m2 := L1.moves k
    have m3 := J1.moves k
    rw [au1, due1] at m2
    rw [au2] at m3
    have e2 : (if s.del.vote ≠ .default then accrued env w a.config (.validatorPda s.del.vote a.config) else 0) = toPrev := by
      rw [hP]; simp only [hneed, true_and]
    have e3 : (if v.delegatedVote ≠ .default then
        dueAt env w2 a.config (accNow c (w a.config).lamports) (.validatorPda v.delegatedVote a.config) else 0) = toCur := by
      rw [hC]
      by_cases hd : v.delegatedVote = .default
      · simp [hd]
      · by_cases hu : v.delegatedVote = s.del.vote
        · rw [if_pos hd, if_neg (by simp [hu]), hu]; exact (L2 (hu ▸ hd)).1
        · rw [if_pos hd, if_pos ⟨hu, hd⟩, ← due1]
          exact dueAt_congr (L1.others _ (hne _) (by simpa using hu)) L1.hacc
    rw [e2] at m2
    rw [e3] at m3
    rw [H.paid B.cO B.sO hb, ← hp] at m1
    rw [A.lamports, hk]
    simp only [hneed, if_true]
    simp only [keeperReward] at m1
    clear hP hC e2 e3 hp
    by_cases hkc : k = a.config
    · simp only [hkc, if_true] at m1 m2 m3 ⊢; omega
    · simp only [hkc, if_false] at m1 m2 m3 ⊢; omega

/-- What is recorded for the staker afterwards: the live native stake, or nothing when its validator has no account here. -/
theorem solHarvest_record {a : HarvestSolStakerRewardsAccts} {s : SolStakerStake} {v : StakeView} {c : Config}
    {hr : HolderRewards} {rs rh : Nat} {w1 : World} (B : SolHarvestBase env o w a s v)
    (H : SolHarvested env o w w' a s v c hr rs rh w1) :
    ∃ s', solStakerAt w' a.solStakerStake = some s' ∧ s'.solStake = s.solStake ∧ s'.del.authority = s.del.authority ∧
      s'.del.lastStake = accNow c (w a.config).lamports ∧ s'.del.lastHolder = hr.lastAcc ∧ hr.lastAcc = holderAcc env a.config w ∧
      holderAcc env a.config w' = holderAcc env a.config w ∧
      ((s'.lamports = v.effective ∧ s'.del.vote = v.delegatedVote) ∨
        (s'.lamports = 0 ∧ s'.del.vote = .default ∧ validatorAt w' (.validatorPda v.delegatedVote a.config) = none)) := by
  cases H with
  | noSync h1 h2 H h =>
    rw [h]
    have h' := solStakerAt_eq.2 ⟨by rw [H.owner]; exact B.sO, (H.solStaker' B.data).2⟩
    exact ⟨_, h', rfl, rfl, rfl, rfl, H.record.symm, H.holderAcc' _, Or.inl ⟨h1.symm, h2.symm⟩⟩
  | @sync kp w2 w3 vote l c1 d1 d2 hn hk H L J hd1 hd2 A =>
    have h' := solStakerAt_eq.2 ⟨by rw [A.owner, J.owner, L.owner, H.owner]; exact B.sO, A.stake'⟩
    refine ⟨_, h', rfl, ?_, ?_, ?_, H.record.symm, ?_, ?_⟩
    · simp only [hd2, hd1]; rfl
    · simp only [hd2, hd1]; rfl
    · simp only [hd2, hd1]; rfl
    · rw [holderAcc_fv A.fv, holderAcc_fv J.fv, holderAcc_fv L.fv, H.holderAcc']
    · simp only [hd2]
      cases J with
      | undelegated _ _ => exact Or.inl ⟨rfl, rfl⟩
      | absent _ hk ho h =>
        refine Or.inr ⟨rfl, rfl, ?_⟩
        unfold validatorAt
        rw [if_neg]
        rw [A.owner, h, ← hk]; exact ho
      | join _ _ _ => exact Or.inl ⟨rfl, rfl⟩

/-- The steps of a `HarvestHolderRewards`: the config is synced, the rewards program is called, the vault authority's
excess lamports go to the config. -/
theorem exec_holder_steps (I : Inv env w) (O : o.Ok) (h : exec env o w ix = .ok w')
    (hi : ix.decoded = some .harvestHolderRewards) {ck : Key} (hck : ix.acct 0 = some ck) :
    ∃ c w1 w2 call, configAt w ck = some c ∧ c.lamportsLast ≤ (w ck).lamports ∧
      w1 = w.setD ck (.config (c.settled (w ck).lamports 0)) ∧ o.harvestRewards w1 call = .ok w2 ∧
      call.owner = env.vaultAuth ck ∧ call.holderRewards = vaultRecord env ck ∧ Inv env w1 ∧ ExtStep w1 w2 ∧
      env.rentMin (w2 (env.vaultAuth ck)).data.len ≤ (w2 (env.vaultAuth ck)).lamports ∧
      configAt w' ck = some { c with acc := accNow c (w ck).lamports, lamportsLast := (w' ck).lamports } ∧
      (w' ck).lamports = (w2 ck).lamports + ((w2 (env.vaultAuth ck)).lamports - env.rentMin (w2 (env.vaultAuth ck)).data.len) ∧
      (w' (env.vaultAuth ck)).lamports = env.rentMin (w2 (env.vaultAuth ck)).data.len ∧
      (∀ k, k ≠ ck → k ≠ env.vaultAuth ck → w' k = w2 k) ∧ (w' (env.vaultAuth ck)).data = (w2 (env.vaultAuth ck)).data ∧
      (∀ k, (w' k).owner = (w2 k).owner) := by
  obtain ⟨a, rest, hl, hr⟩ := ran_harvestHolderRewards h hi
  have hc : a.config = ck := by simpa [Ix.acct, hl, HarvestHolderRewardsAccts.list] using hck
  subst hc
  obtain ⟨c, w1, w2, c2, call, hcO, hc, hvault, hcurve, hpda, hhO, hhk, hlast, hw1, hcall, hown0, hrec0, hc2, hrent, hown,
    ho', hc', hd', hl', _⟩ := harvestHolderRewards_ok hr
  have hcA := configAt_eq.2 ⟨hcO, hc⟩
  have Cc := I.config _ c hcA
  have Wc := wf_config I hc
  have hp : a.vaultPda = env.vaultAuth a.config := by rw [hpda, Cc.bump]; rfl
  have hkey := I.config_key hcA
  have hva : env.vaultAuth a.config ≠ a.config := fun e => by
    rw [← e] at hkey; simp [Env.vaultAuth, Key.ofProgram] at hkey
  have I1 : Inv env w1 := by
    rw [hw1]
    refine I.modifyConfig (c' := c.settled (w a.config).lamports 0) hcO hc (fun k => by simp)
      (by simp only [World.setD_data, if_true])
      (fun k hk => by simp [World.setD_data, hk]) rfl Cc.bps rfl (by simp [Config.settled])
      (by simpa using Cc.rent) (fun k _ _ => by simp) ?_
    refine ⟨fun k => ⟨by simpa using (I.wf.1 k).1, ?_⟩, by simpa using I.wf.2⟩
    rw [World.setD_data]
    split_ifs
    · obtain ⟨h1, h2, h3, h4, h5, h6, h7⟩ := Wc
      have := (I.wf.1 a.config).1
      exact ⟨h1, h2, h3, by simp only [Config.settled]; omega, accNow_lt _ _, h6, h7⟩
    · exact (I.wf.1 k).2
  have E2 := O.harvestRewards I1.wf hcall
  have hcA1 : configAt w1 a.config = some (c.settled (w a.config).lamports 0) :=
    configAt_eq.2 ⟨by rw [hw1]; simpa using hcO, by rw [hw1]; simp [World.setD_data]⟩
  have hcA2 := (ext_config I1 E2 hcA1).1
  have hc2' := (configAt_eq.1 hcA2).2
  rw [hc2] at hc2'; cases hc2'
  rw [hp] at hrent
  refine ⟨c, w1, w2, call, hcA, hlast, hw1, hcall, by rw [hown0, hp], by rw [hrec0, hhk, hp]; rfl, I1, E2, hrent,
    ?_, ?_, ?_, ?_, ?_, ho'⟩
  · have h' := configAt_eq.2 ⟨by rw [ho']; exact (configAt_eq.1 hcA2).1, hc'⟩
    rw [h']; rfl
  · rw [hl', if_pos rfl, hp]
  · rw [hl', if_neg hva, hp, if_pos rfl]
  · intro k h1 h2
    have e1 := ho' k
    have e2 := hd' k h1
    have e3 := hl' k
    rw [if_neg h1, hp, if_neg h2] at e3
    generalize w' k = x at *
    generalize w2 k = y at *
    cases x; cases y; simp_all
  · exact hd' _ hva

end Verif
