import Verif.SpecAccrual
/-!
# Vocabulary of the statements about all stake rewards ever received and paid

Stake rewards are lamports sent to a config account; they are shared in proportion to effective stake. Amounts called "scaled"
are in units of 10^-18 lamports. Nothing here mentions a handler.
-/

namespace Verif

/-- The config's total effective stake; none before the config is created. -/
def effTotalOf (w : World) (ck : Key) : Nat := ((configAt w ck).map (·.effTotal)).getD 0

/-- Scaled stake rewards that the account `k` of config `ck` has earned since it was last settled. -/
def stakeClaim (w : World) (ck k : Key) : Nat :=
  match configAt w ck, stakeAt w k with
  | some c, some d => if belongs k ck then growth d.lastStake (currentAcc c (w ck).lamports) * d.effective else 0
  | _, _ => 0

/-- The stake account `k` of config `ck` has been settled: one of its reward markers has moved. -/
def settledIn (w w' : World) (ck k : Key) : Bool :=
  match stakeAt w k, stakeAt w' k with
  | some d, some d' => decide (belongs k ck ∧ (d'.lastStake ≠ d.lastStake ∨ d'.lastHolder ≠ d.lastHolder))
  | _, _ => false

/-- Lamports of stake rewards paid for the account: the claim rounded down, if it was settled. -/
def stakePaid (w w' : World) (ck k : Key) : Nat :=
  if settledIn w w' ck k then stakeClaim w ck k / 1000000000000000000 else 0

/-- Lamports paid for the account in all, stake rewards and holder rewards. -/
def paidFor (env : Env) (w w' : World) (ck k : Key) : Nat := if settledIn w w' ck k then accrued env w ck k else 0

/-- A history of the chain with running totals for one config: `got` lamports of stake rewards have arrived while there was
effective stake to share them, `paid` lamports of stake rewards have been paid out, and rounding may have lost at most the
scaled amount `dust`: less than a lamport for each account settled, and less than one unit of the accumulator for each
instruction on the config. The config is not named in other roles, such as payee. -/
inductive RewardLedger (env : Env) (ck : Key) : World → (got paid dust : Nat) → Prop
  | genesis {w} : Genesis w → RewardLedger env ck w 0 0 0
  | ext {w w' got paid dust} : RewardLedger env ck w got paid dust → ExtStep w w' →
      RewardLedger env ck w' (got + if 0 < effTotalOf w ck then (w' ck).lamports - (w ck).lamports else 0) paid dust
  | exec {w w' got paid dust o ix x y} : RewardLedger env ck w got paid dust → o.Ok → o.Local → exec env o w ix = .ok w' →
      ix.OnlyAsConfig ck → TotalIs (stakePaid w w' ck) x → TotalIs (fun k => if settledIn w w' ck k then 1 else 0) y →
      RewardLedger env ck w' got (paid + x)
        (dust + y * 1000000000000000000 + if ix.config = some ck then effTotalOf w ck else 0)

end Verif
