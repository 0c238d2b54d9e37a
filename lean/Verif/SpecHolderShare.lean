import Verif.SpecLedger
/-!
# Vocabulary of C113: the share of one account in the holder rewards

Holder rewards are paid by the rewards program to the vault authority of a config, for the tokens in the vault. The rewards program
keeps a record of the vault authority with an accumulator: scaled rewards (units of 10^-18 lamports) per token. Nothing here mentions
a handler.
-/

namespace Verif

/-- Scaled holder rewards that the account `k` of config `ck` has earned since it was last settled. -/
def holderClaim (env : Env) (w : World) (ck k : Key) : Nat :=
  match stakeAt w k with
  | some d => if belongs k ck then growth d.lastHolder (holderAcc env ck w) * d.staked else 0
  | none => 0

/-- Lamports of holder rewards paid for the account: the claim rounded down, if it was settled. -/
def holderPaid (env : Env) (w w' : World) (ck k : Key) : Nat :=
  if settledIn w w' ck k then holderClaim env w ck k / 1000000000000000000 else 0

/-- How far the accumulator in the record of the vault authority rises between two states, in scaled lamports per token. -/
def holderRise (env : Env) (ck : Key) (w w' : World) : Nat := growth (holderAcc env ck w) (holderAcc env ck w')

/-- A history of the chain with running totals for the stake account `k` of config `ck`:

* `rise`: how far the accumulator of the vault authority has risen in all,
* `share`: the scaled holder rewards of the tokens of `k`; every rise counts for the tokens that `k` has at the end of that step,
* `paid`: the lamports of holder rewards that `k` has been paid,
* `settled`: how often `k` was settled.

The config is not named in other roles, such as payee. -/
inductive HolderLedger (env : Env) (ck k : Key) : World → (rise share paid settled : Nat) → Prop
  | genesis {w} : Genesis w → HolderLedger env ck k w 0 0 0 0
  | ext {w w' rise share paid settled} : HolderLedger env ck k w rise share paid settled → ExtStep w w' →
      HolderLedger env ck k w' (rise + holderRise env ck w w') (share + holderRise env ck w w' * stakedIn w' ck k) paid settled
  | exec {w w' rise share paid settled o ix} : HolderLedger env ck k w rise share paid settled → o.Ok → o.Local →
      exec env o w ix = .ok w' → ix.OnlyAsConfig ck →
      HolderLedger env ck k w' (rise + holderRise env ck w w') (share + holderRise env ck w w' * stakedIn w' ck k)
        (paid + holderPaid env w w' ck k) (settled + if settledIn w w' ck k then 1 else 0)

end Verif
