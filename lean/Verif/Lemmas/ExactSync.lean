import Verif.Lemmas.Exact
/-!
# What acceptance of a harvest for a changed native stake implies
-/

namespace Verif

variable {env : Env} {o : Oracle} {w w' u u' : World}

/-- A settlement that went through could be settled, with or without a keeper. -/
theorem Harvested.payable_keeper {ck hk auth sk : Key} {keeper : Option Key} {c : Config} {d : Delegation} {h : HolderRewards}
    {rs rh : Nat} (H : Harvested env w w' ck hk auth (env.vaultAuth ck) sk keeper c d h rs rh) (hcO : (w ck).owner = progId)
    (hsO : (w sk).owner = progId) (hb : belongs sk ck) (hne : auth ≠ ck)
    (room : (w auth).lamports + (w ck).lamports < 2 ^ 64) : Payable env w ck sk c d := by
  have hp := H.paid hcO hsO hb
  have hk := H.hk_eq
  have hh := H.holder
  have hr := H.rent
  rw [hk] at hh
  have hh' : holderAt w (vaultRecord env ck) = some h := holderAt_data.2 hh
  have hacc : holderAcc env ck w = h.lastAcc := by unfold holderAcc; rw [hh', Option.map_some, Option.getD_some]
  refine ⟨configAt_eq.2 ⟨hcO, H.config⟩, stakeAt_eq.2 ⟨hsO, H.del⟩, hb, by rw [hh']; rfl, eligible_fits H.rs_eq, ?_, ?_,
    by rw [← H.auth_eq]; exact hne, ?_⟩
  · rw [hacc]; exact eligible_fits H.rh_eq
  · rw [← hp]; exact H.rent
  · rw [← hp, ← H.auth_eq]
    omega

/-- A validator that was settled after a stage could be settled at its beginning. -/
theorem Stage.back {ck hk auth k : Key} {paid eff t : Nat} {c : Config}
    (G : Stage env w u ck (accNow c (w ck).lamports) paid eff) (hc : configAt w ck = some c)
    (hrec : (holderAt w (vaultRecord env ck)).isSome = true) {v : ValidatorStake}
    {c0 : Config} {hr : HolderRewards} {rs rh : Nat} {w1 : World} {c1 : Config} {d1 d2 : Delegation}
    (R : Retotaled env u u' ck hk auth k v t c0 hr rs rh w1 c1 d1 d2) (hst : stakeAt w k = some v.del) (hb : belongs k ck)
    (hau : auth ≠ ck) (room : (w auth).lamports + (w ck).lamports < 2 ^ 64) :
    Payable env w ck k c v.del ∧ paid + accrued env w ck k + env.rentMin configLen ≤ (w ck).lamports ∧
      accrued env w ck k = due (accNow c (w ck).lamports) (holderAcc env ck w) v.del := by
  have H := R.harv
  have hcO : (u ck).owner = progId := by rw [G.owner]; exact G.cO
  have hdue : rs + rh = accrued env w ck k := by
    rw [R.due_eq G.inv.wf G.settled, G.hacc, accrued_eq hc hst hb]
  have hlc := G.config
  have hrent := H.rent
  have hx := eligible_fits H.rs_eq
  have hy := eligible_fits H.rh_eq
  rw [(G.settled.accNow G.inv.wf H.config).1] at hx
  have hh := H.holder
  rw [H.hk_eq] at hh
  have hh' : holderAt u (vaultRecord env ck) = some hr := holderAt_data.2 hh
  have hacc : holderAcc env ck u = hr.lastAcc := by unfold holderAcc; rw [hh', Option.map_some, Option.getD_some]
  rw [← hacc, G.hacc] at hy
  exact ⟨⟨hc, hst, hb, hrec, hx, hy, by omega, H.auth_eq ▸ hau, by rw [← H.auth_eq]; omega⟩, by omega, accrued_eq hc hst hb⟩

theorem Inv.no_default (I : Inv env w) (ck : Key) : stakeAt w (.validatorPda .default ck) = none := by
  cases h : stakeAt w (.validatorPda .default ck) with
  | none => rfl
  | some d =>
    obtain ⟨x, _, _, h2, _⟩ := I.shape _ (stakeAt_eq.1 h).1
    exact absurd rfl h2

theorem sync_inv (I : Inv env w) {a : HarvestSolStakerRewardsAccts} (h : harvestSolStakerRewards env o w a = .ok w')
    {s : SolStakerStake} {v : StakeView} {kp : Key} (hs : solStakerAt w a.solStakerStake = some s)
    (hview : o.view a.solStakerNativeStake = .ok v)
    (hdiff : ¬ (v.effective = s.lamports ∧ v.delegatedVote = s.del.vote))
    (hkp : a.keeperRecipient = if kp = progId then none else some kp) (hkc : kp ≠ a.config)
    (hauth : a.solStakerStakeAuthority ≠ a.config) (hpa : a.previousValidatorStakeAuthority ≠ a.config)
    (hqa : a.currentValidatorStakeAuthority ≠ a.config)
    (room : ∀ x ∈ [a.solStakerStakeAuthority, kp, a.previousValidatorStakeAuthority, a.currentValidatorStakeAuthority],
      (w x).lamports + (w a.config).lamports < 2 ^ 64) :
    a.solStakeViewProgram = viewId ∧ a.vaultHolderRewards = vaultRecord env a.config ∧
      a.solStakerStakeAuthority = s.del.authority ∧ a.solStakerNativeStake = s.solStake ∧
      a.solStakerNativeStake ≠ a.config ∧ a.sysvarStakeHistory ≠ a.config ∧ a.sysvarStakeHistory ≠ a.solStakerStake ∧
      kp ≠ progId ∧ ∃ c, Payable env w a.config a.solStakerStake c s.del ∧
      (s.del.vote = .default → s.lamports = 0) ∧
      (s.del.vote ≠ .default → a.previousValidatorStake = .validatorPda s.del.vote a.config ∧
        ∀ p, validatorAt w a.previousValidatorStake = some p → a.previousValidatorStakeAuthority = p.del.authority ∧
          Payable env w a.config a.previousValidatorStake c p.del ∧ cap (max (p.total - s.lamports) p.min) < 2 ^ 64) ∧
      (v.delegatedVote ≠ .default → a.currentValidatorStake = .validatorPda v.delegatedVote a.config ∧
        ∀ q, validatorAt w a.currentValidatorStake = some q → a.currentValidatorStakeAuthority = q.del.authority ∧
          Payable env w a.config a.currentValidatorStake c q.del ∧
          q.total - (if v.delegatedVote = s.del.vote then s.lamports else 0) + v.effective < 2 ^ 64 ∧
          cap (max (q.total - (if v.delegatedVote = s.del.vote then s.lamports else 0) + v.effective) q.min) < 2 ^ 64) ∧
      (v.delegatedVote = .default ∨ (validatorAt w (.validatorPda v.delegatedVote a.config)).isSome = true →
        cap v.effective < 2 ^ 64) ∧
      accrued env w a.config a.solStakerStake + accrued env w a.config (.validatorPda s.del.vote a.config) +
        (if v.delegatedVote = s.del.vote then 0 else accrued env w a.config (.validatorPda v.delegatedVote a.config)) +
          env.rentMin configLen ≤ (w a.config).lamports := by
  simp only [harvestSolStakerRewards, bind_ok, require_ok, exists_unit, unpackConfig_ok, unpackSolStaker_ok,
    setData_ok, ite_ok, pure_ok, Prod.exists] at h
  obtain ⟨hcO, _, _, hsO, _, s', hs', hsk, g1, g2, g3, g4, g5, v', hv', hk1, w1, hw1, h⟩ := h
  obtain rfl : s = s' := by rw [(solStakerAt_eq.1 hs).2] at hs'; cases hs'; rfl
  obtain rfl : v = v' := by rw [hview] at hv'; cases hv'; rfl
  have hreq : (decide (v.effective ≠ s.lamports ∨ v.delegatedVote ≠ s.del.vote)) = true := by
    rw [decide_eq_true_eq]
    by_contra hc
    exact hdiff (by push Not at hc; exact hc)
  rw [hreq] at h hk1 hw1
  simp only [forall_const, if_true, Bool.true_eq_false, false_and, false_or, not_false_eq_true, true_and] at h hk1 hw1
  have hkn : kp ≠ progId := by intro e; rw [hkp, if_pos e] at hk1; cases hk1
  rw [if_neg hkn] at hkp
  rw [hkp] at hw1
  obtain ⟨w2, hw2, w3, vote, l, hw3, s3, hs3, w4, ⟨_, rfl⟩, hw'⟩ := h
  obtain ⟨c, d, hr, rs, rh, H⟩ := harvest_ok hw1
  obtain ⟨rfl, hs1⟩ := H.solStaker' hs'
  have L := leaveValidator_ok (H.wf I.wf) hw2
  have J := joinValidator_ok hw3
  obtain ⟨_, _, S⟩ := syncEffective_ok hw'
  have hcl : cap l < 2 ^ 64 := by have := S.cap_lt; rwa [Nat.max_zero] at this
  have g6 := (callOut_ok.1 g5).1
  have hb : belongs a.solStakerStake a.config := by rw [hsk]; simp [belongs]
  have hkk : some kp ≠ some a.config := by simpa using hkc
  have P := H.payable_keeper hcO hsO hb hauth (room _ (by simp))
  have G1 := H.stage I hcO hsO hb hkk P.payee
  have hc := P.config
  have hkey := I.config_key hc
  have hpda : ∀ n, Key.validatorPda n a.config ≠ a.config := by intro n e; rw [← e] at hkey; simp [Key.ofProgram] at hkey
  have hbp : ∀ n, belongs (.validatorPda n a.config) a.config := by simp [belongs]
  have hval : ∀ n, validatorAt w1 (.validatorPda n a.config) = validatorAt w (.validatorPda n a.config) := fun n =>
    validatorAt_congr (st_congr (H.owner _) (H.data' _ (hpda n) (by rw [hsk]; simp)))
  -- leaving the previous validator
  have key : ∃ eff, Stage env w w2 a.config (accNow c (w a.config).lamports)
        (accrued env w a.config a.solStakerStake + accrued env w a.config (.validatorPda s.del.vote a.config)) eff ∧
      (s.del.vote = .default → s.lamports = 0) ∧
      (s.del.vote ≠ .default → a.previousValidatorStake = .validatorPda s.del.vote a.config ∧
        ∀ p, validatorAt w a.previousValidatorStake = some p → a.previousValidatorStakeAuthority = p.del.authority ∧
          Payable env w a.config a.previousValidatorStake c p.del ∧ cap (max (p.total - s.lamports) p.min) < 2 ^ 64 ∧
          ∃ x, validatorAt w2 a.previousValidatorStake = some x ∧ x.total = p.total - s.lamports ∧ x.min = p.min ∧
            x.del.authority = p.del.authority) ∧
      accrued env w a.config a.solStakerStake + accrued env w a.config (.validatorPda s.del.vote a.config) +
        env.rentMin configLen ≤ (w a.config).lamports := by
    cases L with
    | stay hv hl e =>
      subst e
      have h0 : accrued env w a.config (.validatorPda s.del.vote a.config) = 0 := by
        rw [hv]; exact accrued_none (I.no_default _)
      rw [h0, Nat.add_zero]
      exact ⟨_, G1, fun _ => hl, fun h => absurd hv h, P.funds⟩
    | @leave p c0 hr0 rs0 rh0 w10 c10 d1 d2 hv hk hle R =>
      have hpv : validatorAt w a.previousValidatorStake = some p := by
        have := hval s.del.vote
        rw [← hk] at this
        rw [← this]; exact validatorAt_eq.2 ⟨R.owner, R.data⟩
      obtain ⟨P1, f1, e1⟩ := G1.back hc P.record R (stakeAt_validator hpv) (hk ▸ hbp _) hpa (room _ (by simp))
      have G2 := G1.step R (hk ▸ hbp _) P1.payee
      rw [← e1] at G2
      rw [hk] at f1
      rw [congrArg (accrued env w a.config) hk] at G2
      refine ⟨_, G2, fun h => absurd h hv, fun _ => ⟨hk, fun p' hp' => ?_⟩, f1⟩
      rw [hpv] at hp'; cases hp'
      refine ⟨R.harv.auth_eq, P1, R.cap_lt, _, validatorAt_eq.2 ⟨by rw [R.owner']; exact R.owner, R.adj.stake'⟩, rfl, rfl, ?_⟩
      show d2.authority = _
      rw [R.d2_eq, R.d1_eq]; rfl
  obtain ⟨eff, G2, hu, hp, f2⟩ := key
  refine ⟨g4, g3, g1, g2, fun e => g6 a.solStakerNativeStake (by simp) (by simp [e]),
    fun e => g6 a.sysvarStakeHistory (by simp) (by simp [e]), fun e => g6 a.sysvarStakeHistory (by simp) (by simp [e]),
    hkn, c, P, hu, fun h => ⟨(hp h).1, fun p hp' => ?_⟩, ?_⟩
  · obtain ⟨h1, h2, h3, _⟩ := (hp h).2 p hp'; exact ⟨h1, h2, h3⟩
  have hval2 : ∀ n, n ≠ s.del.vote → validatorAt w2 (.validatorPda n a.config) = validatorAt w (.validatorPda n a.config) := by
    intro n hn
    rw [← hval n]
    exact validatorAt_congr (st_congr (L.owner _) (L.data_other (hpda n) (by simp [hn])))
  -- joining the current validator
  cases J with
  | undelegated hv e =>
    refine ⟨fun h => absurd hv h, fun _ => hcl, ?_⟩
    have h0 : accrued env w a.config (.validatorPda v.delegatedVote a.config) = 0 := by
      rw [hv]; exact accrued_none (I.no_default _)
    rw [h0, ite_self, Nat.add_zero]; exact f2
  | absent hv hk hO e =>
    have hno : (w (.validatorPda v.delegatedVote a.config)).owner ≠ progId := by rw [← hk, ← G2.owner]; exact hO
    have hnv : ∀ q, validatorAt w (.validatorPda v.delegatedVote a.config) ≠ some q := fun q h => hno (validatorAt_eq.1 h).1
    refine ⟨fun _ => ⟨hk, fun q hq => absurd (hk ▸ hq) (hnv q)⟩, ?_, ?_⟩
    · rintro (h | h)
      · exact absurd h hv
      · obtain ⟨q, hq⟩ := Option.isSome_iff_exists.1 h
        exact absurd hq (hnv q)
    · have h0 : accrued env w a.config (.validatorPda v.delegatedVote a.config) = 0 := by
        refine accrued_none ?_
        cases h : stakeAt w (.validatorPda v.delegatedVote a.config) with
        | none => rfl
        | some d => exact absurd (stakeAt_eq.1 h).1 hno
      rw [h0, ite_self, Nat.add_zero]; exact f2
  | @join x c0 hr0 rs0 rh0 w10 c10 d1 d2 hv hk R =>
    have hx2 : validatorAt w2 a.currentValidatorStake = some x := validatorAt_eq.2 ⟨R.owner, R.data⟩
    refine ⟨fun _ => ⟨hk, ?_⟩, fun _ => hcl, ?_⟩
    · intro q hq
      by_cases e : v.delegatedVote = s.del.vote
      · have hv' : s.del.vote ≠ .default := e ▸ hv
        obtain ⟨hk', hp'⟩ := hp hv'
        have ek : a.currentValidatorStake = a.previousValidatorStake := by rw [hk, hk', e]
        rw [if_pos e]
        rw [ek] at hq hx2 ⊢
        obtain ⟨_, h2, _, y, hy, y1, y2, y3⟩ := hp' q hq
        rw [hx2] at hy; cases hy
        have t1 := R.total_lt
        have t2 := R.cap_lt
        rw [y1] at t1 t2
        rw [y2] at t2
        exact ⟨by rw [← y3]; exact R.harv.auth_eq, h2, t1, t2⟩
      · rw [hk, hval2 _ e, ← hk, hq] at hx2
        cases hx2
        obtain ⟨P1, _, _⟩ := G2.back hc P.record R (stakeAt_validator hq) (hk ▸ hbp _) hqa (room _ (by simp))
        rw [if_neg e, Nat.sub_zero]
        exact ⟨R.harv.auth_eq, P1, R.total_lt, R.cap_lt⟩
    · by_cases e : v.delegatedVote = s.del.vote
      · rw [if_pos e, Nat.add_zero]; exact f2
      · have hq := hx2
        rw [hk, hval2 _ e, ← hk] at hq
        obtain ⟨_, f3, _⟩ := G2.back hc P.record R (stakeAt_validator hq) (hk ▸ hbp _) hqa (room _ (by simp))
        rw [if_neg e, ← hk]; exact f3

end Verif
