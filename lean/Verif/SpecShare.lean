import Verif.SpecLedger
import Mathlib.Algebra.Order.Field.Rat
/-!
# Vocabulary of C111: the share of one account in all stake rewards

Nothing here mentions a handler.
-/

namespace Verif

/-- The lamports that arrive on the config between two states while there is effective stake to share them. -/
def arrived (ck : Key) (w w' : World) : Nat := if 0 < effTotalOf w ck then (w' ck).lamports - (w ck).lamports else 0

/-- A history of the chain with running totals for the stake account `k` of config `ck`, in lamports:

* `got`: the stake rewards that have arrived for the whole config,
* `share`: of these, the part that is due to `k`, when each arrival is divided in exact proportion to the effective stake that
  the accounts have at that moment,
* `paid`: the stake rewards that `k` has been paid,
* `dust`: one lamport for each time `k` was settled, and `10^-18` lamports per unit of its effective stake for each instruction on
  the config.

The config is not named in other roles, such as payee. -/
inductive ShareLedger (env : Env) (ck k : Key) : World → (got : Nat) → (share : ℚ) → (paid : Nat) → (dust : ℚ) → Prop
  | genesis {w} : Genesis w → ShareLedger env ck k w 0 0 0 0
  | ext {w w' got share paid dust} : ShareLedger env ck k w got share paid dust → ExtStep w w' →
      ShareLedger env ck k w' (got + arrived ck w w')
        (share + arrived ck w w' * (effectiveIn w ck k / effTotalOf w ck)) paid dust
  | exec {w w' got share paid dust o ix} : ShareLedger env ck k w got share paid dust → o.Ok → o.Local →
      exec env o w ix = .ok w' → ix.OnlyAsConfig ck →
      ShareLedger env ck k w' got share (paid + stakePaid w w' ck k)
        (dust + (if settledIn w w' ck k then 1 else 0) + if ix.config = some ck then (effectiveIn w ck k : ℚ) / 10 ^ 18 else 0)

end Verif
