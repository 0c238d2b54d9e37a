import Verif.SpecSplit
import Mathlib.Algebra.BigOperators.Ring.Finset
import Mathlib.Algebra.BigOperators.Group.Finset.Piecewise
import Verif.Props.State
import Verif.Props.Effective
/-!
# C91: splitting gains nothing, and what bounds the effective stake of a config
-/

namespace Verif.Props

open Verif Verif.Witness
open scoped BigOperators

variable {env : Env} {w : World}

theorem sum_cap (S : Finset Key) (f : Key → Nat) : ∑ k ∈ S, 13 * f k / 10 ≤ 13 * (∑ k ∈ S, f k) / 10 := by
  induction S using Finset.induction_on with
  | empty => simp
  | insert a S ha ih => rw [Finset.sum_insert ha, Finset.sum_insert ha]; omega

theorem sum_div (S : Finset Key) (f : Key → Nat) (g d : Nat) : ∑ k ∈ S, g * f k / d ≤ g * (∑ k ∈ S, f k) / d := by
  rw [Finset.mul_sum]
  induction S using Finset.induction_on with
  | empty => simp
  | insert a S ha ih =>
    rw [Finset.sum_insert ha, Finset.sum_insert ha]
    exact (Nat.add_le_add_left ih _).trans Nat.div_add_div_le_add_div

/-- **C91.** SOL staker accounts together never have more effective stake than one account with all their tokens and all their
native stake would have. -/
theorem C91_splitting_adds_no_stake (R : Reachable env w) (S : Finset Key) (a : Key → SolStakerStake)
    (h : ∀ k ∈ S, solStakerAt w k = some (a k)) :
    ∑ k ∈ S, (a k).del.effective ≤ min (∑ k ∈ S, (a k).del.staked) (13 * (∑ k ∈ S, (a k).lamports) / 10) := by
  refine le_min (Finset.sum_le_sum fun k hk => (C02_solStaker_effective_bounded R (h k hk)).1) ?_
  exact (Finset.sum_le_sum fun k hk => (C02_solStaker_effective_bounded R (h k hk)).2).trans (sum_cap S _)

/-- **C91.** Nor do stake accounts that were last settled at the same time accrue more than one account with all their stake
would. -/
theorem C91_splitting_adds_no_rewards {ck : Key} {c : Config} (hc : configAt w ck = some c) (S : Finset Key)
    (a : Key → Delegation) (h : ∀ k ∈ S, stakeAt w k = some (a k)) {ls lh : Nat} (hls : ∀ k ∈ S, (a k).lastStake = ls)
    (hlh : ∀ k ∈ S, (a k).lastHolder = lh) :
    ∑ k ∈ S, accrued env w ck k ≤
      growth ls (currentAcc c (w ck).lamports) * (∑ k ∈ S, (a k).effective) / 1000000000000000000 +
        growth lh (holderAcc env ck w) * (∑ k ∈ S, (a k).staked) / 1000000000000000000 := by
  refine le_trans (Finset.sum_le_sum (g := fun k =>
    growth ls (currentAcc c (w ck).lamports) * (a k).effective / 1000000000000000000 +
      growth lh (holderAcc env ck w) * (a k).staked / 1000000000000000000) fun k hk => ?_) ?_
  · unfold accrued
    rw [hc, h k hk]
    simp only [hls k hk, hlh k hk]
    split_ifs
    · exact le_rfl
    · exact Nat.zero_le _
  · rw [Finset.sum_add_distrib]
    exact Nat.add_le_add (sum_div S _ _ _) (sum_div S _ _ _)

/-- Only finitely many addresses hold state of the program. -/
theorem finite_state (R : Reachable env w) : ∃ S : Finset Key, ∀ k, k ∉ S → st w k = none := by
  induction R with
  | @genesis w G =>
    refine ⟨∅, fun k _ => ?_⟩
    unfold st
    split_ifs with h
    · have := G.owned k h
      cases hd : (w k).data <;> rw [hd] at this <;> simp_all [Data.zeroed]
    · rfl
  | ext R E ih =>
    obtain ⟨S, h⟩ := ih
    exact ⟨S, fun k hk => by rw [ext_st (reachable_inv R) E k]; exact h k hk⟩
  | @exec w w' o ix R O h ih =>
    obtain ⟨S, hS⟩ := ih
    have quiet : ∀ {T ck}, Quiet T ck w w' → ∃ S : Finset Key, ∀ k, k ∉ S → st w' k = none := by
      intro T ck Q
      refine ⟨insert ck S, fun k hk => ?_⟩
      simp only [Finset.mem_insert, not_or] at hk
      by_cases hb : belongs k ck
      · have := Q.stake k hb
        rw [hS k hk.2] at this
        cases hx : st w' k with
        | none => rfl
        | some D => rw [hx] at this; cases this
      · rw [Q.other k hk.1 hb]; exact hS k hk.2
    have one : ∀ {a : Key} {D : Data}, st w' = stUpd (st w) a D → ∃ S : Finset Key, ∀ k, k ∉ S → st w' k = none := by
      intro a D e
      refine ⟨insert a S, fun k hk => ?_⟩
      simp only [Finset.mem_insert, not_or] at hk
      rw [e, stUpd, if_neg hk.1]; exact hS k hk.2
    cases exec_effect (reachable_inv R) O h with
    | initializeConfig ck c _ _ _ _ e => exact one e
    | initializeValidatorStake ck vote wd c _ _ _ _ _ _ e => exact one e
    | initializeSolStakerStake ck native c v vs _ _ _ _ _ _ e =>
      refine ⟨insert (.solStakerPda native ck) (insert (.validatorPda v.delegatedVote ck) S), fun k hk => ?_⟩
      simp only [Finset.mem_insert, not_or] at hk
      rw [e, stUpd, if_neg hk.2.1, stUpd, if_neg hk.1]; exact hS k hk.2.2
    | setAuthority ck new c c' t _ _ _ _ e => exact one e
    | updateConfig ck c f _ _ _ _ _ e => exact one e
    | validatorSyncAuthority ck vote wd v _ _ _ _ _ _ e => exact one e
    | settle ck _ _ Q => exact quiet Q
    | stake ck sk n d d' _ _ _ H _ _ => exact quiet H.quiet
    | slash ck sk n d d' _ _ _ H => exact quiet H.one.quiet
    | unstake ck sk n c d d' _ _ _ H => exact quiet H.one.quiet
    | move ck sk tk n ds dt ds' dt' _ _ _ _ H => exact quiet H.quiet

/-- **C91.** The two totals that bound the effective stake exist: a config has finitely many stake accounts. -/
theorem C91_totals_exist (R : Reachable env w) (ck : Key) :
    ∃ n m, TotalIs (lamportsIn w ck) n ∧ TotalIs (minimumIn w ck) m := by
  obtain ⟨S, h⟩ := finite_state R
  refine ⟨_, _, ⟨S, fun k hk => ?_, rfl⟩, ⟨S, fun k hk => ?_, rfl⟩⟩
  · unfold lamportsIn
    cases hs : solStakerAt w k with
    | none => simp
    | some s => rw [← st_solStaker, h k hk] at hs; cases hs
  · unfold minimumIn
    cases hs : validatorAt w k with
    | none => simp
    | some s => rw [← st_validator, h k hk] at hs; cases hs

theorem totalIs_sum_le {f : Key → Nat} {n : Nat} (h : TotalIs f n) (S : Finset Key) : ∑ k ∈ S, f k ≤ n := by
  obtain ⟨T, h0, rfl⟩ := h
  calc ∑ k ∈ S, f k ≤ ∑ k ∈ S ∪ T, f k := Finset.sum_le_sum_of_subset Finset.subset_union_left
    _ = ∑ k ∈ T, f k := (Finset.sum_subset Finset.subset_union_right fun k _ hk => h0 k hk).symm

/-- The recorded total of a validator account. -/
def totalIn (w : World) (c s : Key) : Nat :=
  if belongs s c then ((validatorAt w s).map (·.total)).getD 0 else 0

theorem totals_le (R : Reachable env w) {ck : Key} {n : Nat} (hn : TotalIs (lamportsIn w ck) n) (S : Finset Key) :
    ∑ k ∈ S, totalIn w ck k ≤ n := by
  obtain ⟨T, h0, rfl⟩ := hn
  have hon : ∀ v s, lamportsOn w ck v s ≤ lamportsIn w ck s := by
    intro v s
    unfold lamportsOn lamportsIn
    split_ifs
    · cases solStakerAt w s with
      | none => simp
      | some x => simp only [Option.map_some, Option.getD_some]; split_ifs <;> simp
    · exact le_rfl
  have h1 : ∀ k ∈ S, totalIn w ck k ≤ ∑ s ∈ T, if (solStakerAt w s).map (fun x => Key.validatorPda x.del.vote ck) = some k then
      lamportsIn w ck s else 0 := by
    intro k _
    unfold totalIn
    split_ifs with hb
    · cases hv : validatorAt w k with
      | none => simp
      | some v =>
        obtain ⟨c, hk, U, hU, e⟩ := C05_total R hv
        have hcc : c = ck := by rw [hk] at hb; exact belongs_validator.1 hb
        subst hcc
        have hT : TotalIs (lamportsOn w c v.del.vote) (∑ s ∈ T, lamportsOn w c v.del.vote s) :=
          ⟨T, fun s hs => Nat.eq_zero_of_le_zero ((hon _ s).trans (h0 s hs).le), rfl⟩
        have e' : v.total = ∑ s ∈ T, lamportsOn w c v.del.vote s := TotalIs.unique ⟨U, hU, e⟩ hT
        simp only [Option.map_some, Option.getD_some]
        rw [e']
        refine Finset.sum_le_sum fun s _ => ?_
        unfold lamportsOn lamportsIn
        split_ifs with hb' hx
        · cases hs : solStakerAt w s with
          | none => simp
          | some x => simp only [Option.map_some, Option.getD_some]; split_ifs <;> simp
        · cases hs : solStakerAt w s with
          | none => simp
          | some x =>
            simp only
            rw [if_neg]
            intro e2
            apply hx
            rw [hs, hk]; simp [e2]
        · exact le_rfl
        · exact le_rfl
    · exact Nat.zero_le _
  refine (Finset.sum_le_sum h1).trans ?_
  rw [Finset.sum_comm]
  refine Finset.sum_le_sum fun s _ => ?_
  cases hs : solStakerAt w s with
  | none => simp
  | some x =>
    simp only [Option.map_some, Option.some.injEq]
    rw [Finset.sum_ite_eq]
    split_ifs <;> simp

/-- **C91.** The effective stake of a whole config is bounded by native stake, not by tokens: at most 1.3 times the native lamports
of its SOL stakers, once for the stakers and once for their validators, plus 1.3 times the minimums that the config authority has
set. -/
theorem C91_effective_total_bounded (R : Reachable env w) {ck : Key} {c : Config} (hc : configAt w ck = some c) {n m : Nat}
    (hn : TotalIs (lamportsIn w ck) n) (hm : TotalIs (minimumIn w ck) m) : 10 * c.effTotal ≤ 13 * (2 * n + m) := by
  obtain ⟨S, _, e⟩ := C01_effective_total_is_sum R hc
  have h1 : ∀ k ∈ S, 10 * effectiveIn w ck k ≤ 13 * (lamportsIn w ck k + totalIn w ck k + minimumIn w ck k) := by
    intro k _
    unfold effectiveIn lamportsIn totalIn minimumIn stakeAt
    split_ifs
    · cases hv : validatorAt w k with
      | some v =>
        have := (C02_validator_effective_bounded R hv).2
        simp only [Option.map_some, Option.getD_some]
        omega
      | none =>
        cases hs : solStakerAt w k with
        | none => simp
        | some s =>
          have := (C02_solStaker_effective_bounded R hs).2
          simp only [Option.map_some, Option.getD_some, Option.map_none, Option.getD_none]
          omega
    · exact Nat.zero_le _
  have h2 := Finset.sum_le_sum h1
  rw [← Finset.mul_sum, ← Finset.mul_sum, e, Finset.sum_add_distrib, Finset.sum_add_distrib] at h2
  have a1 := totalIs_sum_le hn S
  have a2 := totalIs_sum_le hm S
  have a3 := totals_le R hn S
  omega

/-- A state of the witness history: effective stake 2500 of at most 5200, from native stakes of 1000 lamports each. -/
example : Reachable Witness.env w10 ∧ (configAt w10 cfg).map (·.effTotal) = some 2500 ∧ lamportsIn w10 cfg sol1 = 1000 ∧
    lamportsIn w10 cfg sol2 = 1000 ∧ minimumIn w10 cfg val1 = 0 :=
  ⟨r10, by decide +kernel⟩

/-- Two SOL stakers, last settled together. -/
example : (stakeAt w12 sol1).map (fun d => (d.lastStake, d.lastHolder)) = (stakeAt w12 sol2).map (fun d => (d.lastStake, d.lastHolder)) ∧
    (stakeAt w12 sol1).isSome = true := by decide +kernel

end Verif.Props
