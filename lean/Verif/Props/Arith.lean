import Verif.Model.Arith
import Mathlib.Tactic.Ring
import Mathlib.Tactic.Linarith
import Mathlib.Tactic.SplitIfs
/-!
# The reward formulas

C33, C34, C35 and the arithmetic of C36, about the three pure functions of `state/mod.rs`.
-/

namespace Verif.Props

open Verif

/-! ## C33 -/

/-- **C33.** Let `A` be the true, unbounded accumulator when the marker was taken and `g < 2^128` its growth since. Both are
stored modulo 2^128. The eligible reward of balance `b` is `g*b/10^18` rounded down, and fails exactly when the product
does not fit in 128 bits or the reward does not fit in 64. -/
theorem C33_eligible_rewards (A g b : Nat) (hg : g < 2 ^ 128) :
    eligibleRewards ((A + g) % 2 ^ 128) (A % 2 ^ 128) b =
      if g * b < 2 ^ 128 ∧ g * b / 10 ^ 18 < 2 ^ 64 then .ok (g * b / 10 ^ 18) else .error .arithmeticOverflow := by
  have hr : wrapSub ((A + g) % 2 ^ 128) (A % 2 ^ 128) = g := by unfold wrapSub U128; omega
  unfold eligibleRewards
  simp only [hr]
  split_ifs with h1 h2 h3
  · subst h1; simp
  · subst h1; simp at h2
  · unfold mulDivU64; exact if_pos h3
  · unfold mulDivU64; exact if_neg h3

/-- The accumulator wraps around: marker 3 below the limit, current value 1999999999999999997, so it grew by 2*10^18. -/
example : eligibleRewards 1999999999999999997 (2 ^ 128 - 3) 50 = .ok 100 := rfl
example : eligibleRewards ((2 ^ 128 - 3 + 2000000000000000000) % 2 ^ 128) ((2 ^ 128 - 3) % 2 ^ 128) 50 = .ok 100 := rfl
/-- A growth that is too large for the balance. -/
example : eligibleRewards ((0 + 2 ^ 127) % 2 ^ 128) (0 % 2 ^ 128) 2 = .error .arithmeticOverflow := rfl

/-- **C33.** A 64-bit balance whose rewards per token grew by less than 2^64 whole units never overflows the product. -/
theorem C33_no_overflow (A g b : Nat) (h : g * b < 10 ^ 18 * 2 ^ 64) (hg : g < 2 ^ 128) :
    eligibleRewards ((A + g) % 2 ^ 128) (A % 2 ^ 128) b = .ok (g * b / 10 ^ 18) := by
  rw [C33_eligible_rewards A g b hg, if_pos]
  refine ⟨by omega, ?_⟩
  exact Nat.div_lt_of_lt_mul h

example : (3 * 10 ^ 18) * 1000 < 10 ^ 18 * 2 ^ 64 ∧ 3 * 10 ^ 18 < 2 ^ 128 := by decide

/-! ## C34 -/

/-- **C34.** On 64-bit inputs the rewards per token are computed without failure; `r` is the largest value that does not
distribute more than `rewards`. -/
theorem C34_rewards_per_token (rewards stake : Nat) (h : rewards < 2 ^ 64) :
    ∃ r, rewardsPerToken rewards stake = .ok r ∧ (stake = 0 → r = 0) ∧
      (0 < stake → r * stake ≤ rewards * 10 ^ 18 ∧ rewards * 10 ^ 18 < (r + 1) * stake) := by
  unfold rewardsPerToken
  split_ifs with h1 h2
  · exact ⟨0, rfl, fun _ => rfl, fun h => by omega⟩
  · refine ⟨_, rfl, fun h => absurd h h1, fun hs => ⟨Nat.div_mul_le_self _ _, ?_⟩⟩
    have := Nat.div_add_mod (rewards * scale) stake
    have := Nat.mod_lt (rewards * scale) hs
    rw [Nat.add_mul, Nat.one_mul, Nat.mul_comm (rewards * scale / stake)]
    unfold scale at *
    omega
  · exfalso; unfold U128 scale at h2; omega

example : rewardsPerToken 10 3 = .ok 3333333333333333333 := rfl
example : rewardsPerToken (2 ^ 64 - 1) 1 = .ok (18446744073709551615 * 10 ^ 18) := rfl
example : rewardsPerToken 10 0 = .ok 0 := rfl

/-! ## C35 -/

/-- **C35.** The stake cap is 1.3 times the lamports rounded down; it fails exactly when that does not fit in 64 bits. -/
theorem C35_cap_exact (x : Nat) (hx : x < 2 ^ 64) :
    maxStake x = if 13 * x / 10 < 2 ^ 64 then .ok (13 * x / 10) else .error .arithmeticOverflow := by
  unfold maxStake
  split_ifs with h1 h2 h2
  · subst h1; rfl
  · subst h1; simp at h2
  · unfold mulDivU64
    have e : x * stakeFactor / stakeScaling = 13 * x / 10 := by unfold stakeFactor stakeScaling; rw [Nat.mul_comm]
    rw [e, if_pos ⟨by unfold stakeFactor U128; omega, h2⟩]
  · unfold mulDivU64
    have e : x * stakeFactor / stakeScaling = 13 * x / 10 := by unfold stakeFactor stakeScaling; rw [Nat.mul_comm]
    rw [e, if_neg (fun h => h2 h.2)]

/-- **C35.** The cap is monotone, and succeeds for every smaller amount. -/
theorem C35_cap_monotone {x y b : Nat} (hy : y < 2 ^ 64) (hxy : x ≤ y) (h : maxStake y = .ok b) :
    ∃ a, maxStake x = .ok a ∧ a ≤ b := by
  rw [C35_cap_exact y hy] at h
  rw [C35_cap_exact x (by omega)]
  split_ifs at h with h1
  · cases h
    refine ⟨13 * x / 10, if_pos (by omega), by omega⟩

example : maxStake 15 = .ok 19 := rfl
example : maxStake 14189803133622732012 = .ok (2 ^ 64 - 1) := rfl
example : maxStake 14189803133622732013 = .error .arithmeticOverflow := rfl

/-! ## C36, arithmetic -/

/-- The two roundings of a distribution: `g` rewards per token for `x` lamports over `E` tokens, then `r` lamports for `e`
of them. The loss is less than `1 + e/10^18` lamports. -/
theorem share_bounds (x E e : Nat) (hE : 0 < E) :
    let r := (x * 10 ^ 18 / E) * e / 10 ^ 18
    r * E ≤ e * x ∧ e * x * 10 ^ 18 < E * (r * 10 ^ 18 + 10 ^ 18 + e) := by
  intro r
  have h1 := Nat.div_mul_le_self (x * 10 ^ 18) E
  have h2 := Nat.lt_div_mul_add (a := x * 10 ^ 18) hE
  have h3 := Nat.div_mul_le_self ((x * 10 ^ 18 / E) * e) (10 ^ 18)
  have h4 := Nat.lt_div_mul_add (a := (x * 10 ^ 18 / E) * e) (b := 10 ^ 18) (by decide)
  change r * 10 ^ 18 ≤ _ at h3
  change _ < r * 10 ^ 18 + 10 ^ 18 at h4
  generalize x * 10 ^ 18 / E = g at *
  constructor
  · have : r * E * 10 ^ 18 ≤ e * x * 10 ^ 18 := by
      calc r * E * 10 ^ 18 = (r * 10 ^ 18) * E := by ring
        _ ≤ (g * e) * E := Nat.mul_le_mul_right _ h3
        _ = (g * E) * e := by ring
        _ ≤ (x * 10 ^ 18) * e := Nat.mul_le_mul_right _ h1
        _ = e * x * 10 ^ 18 := by ring
    exact Nat.le_of_mul_le_mul_right this (by decide)
  · by_cases he : e = 0
    · subst he; simpa using hE
    · calc e * x * 10 ^ 18 = (x * 10 ^ 18) * e := by ring
        _ < (g * E + E) * e := Nat.mul_lt_mul_of_pos_right h2 (by omega)
        _ = E * (g * e + e) := by ring
        _ ≤ E * (r * 10 ^ 18 + 10 ^ 18 + e) := Nat.mul_le_mul_left _ (by omega)

end Verif.Props
