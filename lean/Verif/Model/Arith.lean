import Verif.Model.Basic
/-!
# Integer arithmetic and the reward formulas

Models `/repo/program/src/state/mod.rs` 19-30 and 157-213. Machine integers are natural numbers with explicit
range checks.
-/

namespace Verif

/-- Number of `u64` values. -/
abbrev U64 : Nat := 2 ^ 64
/-- Number of `u128` values. -/
abbrev U128 : Nat := 2 ^ 128

/-- `REWARDS_PER_TOKEN_SCALING_FACTOR`, `state/mod.rs` 20. -/
abbrev scale : Nat := 1000000000000000000
/-- `MAX_BASIS_POINTS`, `state/mod.rs` 23. -/
abbrev maxBasisPoints : Nat := 10000
/-- `STAKE_FACTOR`, `state/mod.rs` 27. -/
abbrev stakeFactor : Nat := 13
/-- `STAKE_SCALING_FACTOR`, `state/mod.rs` 30. -/
abbrev stakeScaling : Nat := 10

/-- `u64::checked_add(..).ok_or(ArithmeticOverflow)`. -/
def addU64 (a b : Nat) : Res Nat := if a + b < U64 then .ok (a + b) else .error .arithmeticOverflow

/-- `u64::checked_sub(..).ok_or(ArithmeticOverflow)`. -/
def subU64 (a b : Nat) : Res Nat := if b ≤ a then .ok (a - b) else .error .arithmeticOverflow

/-- `u128::wrapping_sub`. -/
def wrapSub (a b : Nat) : Nat := (a + U128 - b) % U128

/-- `u128::wrapping_add`. -/
def wrapAdd (a b : Nat) : Nat := (a + b) % U128

/-- `u128::checked_mul(..)`, then `checked_div` by a non-zero constant, then `try_into::<u64>()`,
any failure being `ArithmeticOverflow`. -/
def mulDivU64 (a b d : Nat) : Res Nat :=
  if a * b < U128 ∧ a * b / d < U64 then .ok (a * b / d) else .error .arithmeticOverflow

/-- `calculate_eligible_rewards`, `state/mod.rs` 160-182. -/
def eligibleRewards (current last balance : Nat) : Res Nat :=
  let rate := wrapSub current last
  if rate = 0 then .ok 0 else mulDivU64 rate balance scale

/-- `calculate_stake_rewards_per_token`, `state/mod.rs` 184-199. -/
def rewardsPerToken (rewards stake : Nat) : Res Nat :=
  if stake = 0 then .ok 0
  else if rewards * scale < U128 then .ok (rewards * scale / stake) else .error .arithmeticOverflow

/-- `calculate_maximum_stake_for_lamports_amount`, `state/mod.rs` 201-213. -/
def maxStake (lamports : Nat) : Res Nat :=
  if lamports = 0 then .ok 0 else mulDivU64 lamports stakeFactor stakeScaling

end Verif
