import Verif.Contract
import Verif.SpecFoot
/-!
# Vocabulary of the statements about waiting with a claim

Nothing here mentions a handler.
-/

namespace Verif

/-- The position of the config in the account list of an instruction (as in `Ix.config`). -/
def Ix.configPos (ix : Ix) : Nat :=
  match ix.decoded with
  | some .harvestSolStakerRewards => 1
  | _ => 0

/-- The instruction names the account only as its config, not as a payee or in any other role. -/
def Ix.OnlyAsConfig (ix : Ix) (ck : Key) : Prop := ∀ p, ix.acct p = some ck → p = ix.configPos

/-- Any number of steps of the chain in which the stake account `k` of config `ck` takes no part, no lamports arrive at the
config other than through the program, and the rewards program pays out no holder rewards to the vault authority. -/
inductive OthersAct (env : Env) (ck k : Key) : World → World → Prop
  | refl {w} : OthersAct env ck k w w
  | ext {w w1 w2} : OthersAct env ck k w w1 → ExtStep w1 w2 → (w2 ck).lamports = (w1 ck).lamports →
      holderAcc env ck w2 = holderAcc env ck w1 → OthersAct env ck k w w2
  | exec {w w1 w2 o ix} : OthersAct env ck k w w1 → o.Ok → o.Local → exec env o w1 ix = .ok w2 → ix.OnlyAsConfig ck →
      k ∉ ix.ctx.accts → holderAcc env ck w2 = holderAcc env ck w1 → OthersAct env ck k w w2

end Verif
