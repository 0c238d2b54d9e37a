import Verif.SpecAccrual
import Verif.Lemmas.Quiet
import Verif.Props.Rewards
import Verif.Props.Footprint
import Verif.WitnessTwo
/-!
# C72: nobody else's instruction changes what a staker has earned
-/

namespace Verif.Props

open Verif Verif.Witness

variable {env : Env} {o : Oracle} {w w' : World} {ix : Ix}

/-- **C72.** No instruction moves the accumulator against which stake rewards are paid: rewards that have arrived are booked,
never lost, and nothing is booked twice. (The config must not also be named in another role, such as payee.) -/
theorem C72_accumulator_kept (R : Reachable env w) (O : o.Ok) (L : o.Local) (h : exec env o w ix = .ok w') {ck : Key}
    {c : Config} (hc : configAt w ck = some c) (hn : ix.OnlyAsConfig ck) :
    ∃ c', configAt w' ck = some c' ∧ currentAcc c' (w' ck).lamports = currentAcc c (w ck).lamports := by
  have I := reachable_inv R
  by_cases hck : ix.config = some ck
  · exact exec_seesAcc I O L h hc hck fun p q hp hq => (hn p hp).trans (hn q hq).symm
  · have hno : ∀ p, ix.acct p ≠ some ck := fun p hp => by
      have := hn p hp; subst this
      refine hck ?_
      unfold Ix.config; unfold Ix.configPos at hp; split <;> simp_all
    have e : w' ck = w ck := by
      obtain ⟨i, hi⟩ : ∃ i, ix.decoded = some i := by
        cases exec_ran h <;> exact ⟨_, by assumption⟩
      exact exec_same I.wf L h hi fun p _ => hno p
    exact ⟨c, by rw [configAt_eq] at hc ⊢; rw [e]; exact hc, by rw [e]⟩

/-- **C72.** An instruction that does not name a stake account leaves the rewards accrued to it as they are. -/
theorem C72_accrued_kept (R : Reachable env w) (O : o.Ok) (L : o.Local) (h : exec env o w ix = .ok w') {ck k : Key}
    (hc : configAt w ck ≠ none) (hn : ix.OnlyAsConfig ck) (hk : k ∉ ix.ctx.accts)
    (hh : holderAcc env ck w' = holderAcc env ck w) : accrued env w' ck k = accrued env w ck k := by
  obtain ⟨c, hc⟩ := Option.ne_none_iff_exists'.1 hc
  obtain ⟨c', hc', e⟩ := C72_accumulator_kept R O L h hc hn
  have ek : w' k = w k := by
    obtain ⟨i, hi⟩ : ∃ i, ix.decoded = some i := by
      cases exec_ran h <;> exact ⟨_, by assumption⟩
    exact exec_same (reachable_inv R).wf L h hi fun p _ hp => hk (List.mem_of_getElem? hp)
  have es : stakeAt w' k = stakeAt w k := by
    rw [stakeAt_eq', stakeAt_eq', ek]
  unfold accrued
  rw [hc, hc', es, hh]
  cases stakeAt w k with
  | none => rfl
  | some d => simp only [e]

theorem others_reachable {ck k : Key} (A : OthersAct env ck k w w') (R : Reachable env w) : Reachable env w' := by
  induction A with
  | refl => exact R
  | ext _ E _ _ ih => exact .ext ih E
  | exec _ O _ h _ _ _ ih => exact .exec ih O h

/-- What waiting leaves alone. -/
theorem others_keep {ck k : Key} (A : OthersAct env ck k w w') (R : Reachable env w) (hc : configAt w ck ≠ none) :
    configAt w' ck ≠ none ∧ stakeAt w' k = stakeAt w k ∧ accrued env w' ck k = accrued env w ck k := by
  induction A with
  | refl => exact ⟨hc, rfl, rfl⟩
  | @ext w1 w2 A E hl hh ih =>
    obtain ⟨i1, i2, i3⟩ := ih
    have I1 := reachable_inv (others_reachable A R)
    have e1 : configAt w2 ck = configAt w1 ck := Option.ext fun c => ext_config_iff I1 E
    have e2 := ext_stakeAt I1 E k
    refine ⟨by rw [e1]; exact i1, e2.trans i2, ?_⟩
    rw [← i3]
    unfold accrued
    rw [e1, e2, hh, hl]
  | @exec w1 w2 o ix A O L h hn hk hh ih =>
    obtain ⟨i1, i2, i3⟩ := ih
    have R1 := others_reachable A R
    obtain ⟨c, hc⟩ := Option.ne_none_iff_exists'.1 i1
    obtain ⟨c', hc', _⟩ := C72_accumulator_kept R1 O L h hc hn
    have ek : w2 k = w1 k := by
      obtain ⟨i, hi⟩ : ∃ i, ix.decoded = some i := by
        cases exec_ran h <;> exact ⟨_, by assumption⟩
      exact exec_same (reachable_inv R1).wf L h hi fun p _ hp => hk (List.mem_of_getElem? hp)
    refine ⟨by rw [hc']; simp, ?_, (C72_accrued_kept R1 O L h i1 hn hk hh).trans i3⟩
    rw [← i2, stakeAt_eq', stakeAt_eq', ek]

/-- **C72.** A validator loses nothing by waiting: whatever others do in the meantime, a later harvest pays exactly what had
accrued before, to the same authority. -/
theorem C72_waiting_costs_nothing {ck sk : Key} {w1 w2 : World} (R : Reachable env w) (hc : configAt w ck ≠ none)
    (A : OthersAct env ck sk w w1) (h : exec env o w1 ix = .ok w2) (hi : ix.decoded = some .harvestValidatorRewards)
    (hck : ix.acct 0 = some ck) (hsk : ix.acct 2 = some sk) :
    ∃ au, authorityOf w sk = some au ∧ ∀ k, (w2 k).lamports + (if k = ck then accrued env w ck sk else 0) =
      (w1 k).lamports + (if k = au then accrued env w ck sk else 0) := by
  obtain ⟨_, i2, i3⟩ := others_keep A R hc
  obtain ⟨c, v, _, hv, _, hm, _, _⟩ := C19_validator_harvest (others_reachable A R) h hi hck hsk
  rw [i3] at hm
  exact ⟨v.del.authority, by unfold authorityOf; rw [← i2, stakeAt_validator hv]; rfl, hm⟩

/-- **C72.** The same for a SOL staker whose native stake has not changed. -/
theorem C72_sol_staker_waiting {ck sk : Key} {w1 w2 : World} (R : Reachable env w) (hc : configAt w ck ≠ none)
    (A : OthersAct env ck sk w w1) (h : exec env o w1 ix = .ok w2) (hi : ix.decoded = some .harvestSolStakerRewards)
    (hck : ix.acct 1 = some ck) (hsk : ix.acct 3 = some sk) (hself : ∀ n ∈ [4, 7, 9, 11], ix.acct n ≠ some ck)
    (hview : ∀ s v, solStakerAt w1 sk = some s → o.view s.solStake = .ok v →
      v.effective = s.lamports ∧ v.delegatedVote = s.del.vote) :
    ∃ au, authorityOf w sk = some au ∧ ∀ k, (w2 k).lamports + (if k = ck then accrued env w ck sk else 0) =
      (w1 k).lamports + (if k = au then accrued env w ck sk else 0) := by
  obtain ⟨_, i2, i3⟩ := others_keep A R hc
  obtain ⟨c, s, v, share, toPrev, toCur, _, hs, _, hv, e1, e2, e3, hm, _, _⟩ :=
    C19_sol_staker_harvest (others_reachable A R) h hi hck hsk hself
  obtain ⟨v1, v2⟩ := hview s v hs hv
  simp only [v1, v2, ne_eq, not_true_eq_false, or_self, if_false, false_and] at e1 e2 e3
  subst e1 e2 e3
  simp only [ite_self, Nat.add_zero, Nat.sub_zero, i3] at hm
  exact ⟨s.del.authority, by unfold authorityOf; rw [← i2, stakeAt_solStaker hs]; rfl, hm⟩

/-- The validator harvests while the staker waits; then the staker is paid the 3000 lamports it had earned. -/
example : OthersAct Witness.env cfg sol1 w9 w10 ∧ accrued Witness.env w9 cfg sol1 = 3000 ∧ okB o1 w10 ixHarvestSol1 = true ∧
    (after o1 w10 ixHarvestSol1 staker).lamports = (w10 staker).lamports + 3000 ∧
    (∀ s v, solStakerAt w10 sol1 = some s → o1.view s.solStake = .ok v →
      v.effective = s.lamports ∧ v.delegatedVote = s.del.vote) :=
  ⟨.exec .refl o1_ok (oracle_local _ _ _) (ok_after ok9) (by
    intro p hp
    have : ∀ q < 4, ixHarvestVal1.acct q = some cfg → q = ixHarvestVal1.configPos := by decide +kernel
    refine this p ?_ hp
    by_contra hlt
    have : ixHarvestVal1.acct p = none := List.getElem?_eq_none (by
      show 4 ≤ p; omega)
    rw [this] at hp; cases hp) (by decide +kernel) (by decide +kernel), by decide +kernel, by decide +kernel, by decide +kernel, by
    intro s v hs hv
    have e : (match solStakerAt w10 sol1 with
      | some s => match o1.view s.solStake with
        | .ok v => decide (v.effective = s.lamports ∧ v.delegatedVote = s.del.vote)
        | .error _ => true
      | none => true) = true := by decide +kernel
    rw [hs] at e
    simp only [hv, decide_eq_true_eq] at e
    exact e⟩

/-- More tokens are staked by another account while the validator waits with its 12000 lamports. -/
example : OthersAct Witness.env cfg val1 w9 (after o1 w9 ixStakeSol1) ∧ accrued Witness.env w9 cfg val1 = 12000 ∧
    okB o1 (after o1 w9 ixStakeSol1) ixHarvestVal1 = true :=
  ⟨.exec .refl o1_ok (oracle_local _ _ _) (ok_after (show okB o1 w9 ixStakeSol1 = true by decide +kernel)) (by
    intro p hp
    have : ∀ q < 13, ixStakeSol1.acct q = some cfg → q = ixStakeSol1.configPos := by decide +kernel
    refine this p ?_ hp
    by_contra hlt
    have : ixStakeSol1.acct p = none := List.getElem?_eq_none (by
      show 13 ≤ p; omega)
    rw [this] at hp; cases hp) (by decide +kernel) (by decide +kernel), by decide +kernel, by decide +kernel⟩

end Verif.Props
