import Verif.Spec
/-!
# Vocabulary of C95 and C96

What other people can do to a stake account, and how fast its own authority can leave.
-/

namespace Verif

/-- None of the three parties with power over the stake account `sk` of config `ck` signs the instruction: not the stake
account's authority, not the config authority, not the slash authority. An authority that is unset has no power, so its
"signature" does not count. -/
structure Ix.ByOthers (ix : Ix) (w : World) (ck sk : Key) : Prop where
  stake : ∀ d, stakeAt w sk = some d → ix.ctx.signer d.authority = false
  config : ∀ c, configAt w ck = some c → c.authority = .default ∨ ix.ctx.signer c.authority = false
  slash : ∀ c, configAt w ck = some c → c.slashAuthority = .default ∨ ix.ctx.signer c.slashAuthority = false

/-- A stretch of history in which every instruction is by others. What else happens on the chain is not restricted. -/
inductive OthersOnly (env : Env) (ck sk : Key) (start : World) : World → Prop
  | start : OthersOnly env ck sk start start
  | ext {w w' : World} : OthersOnly env ck sk start w → ExtStep w w' → OthersOnly env ck sk start w'
  | exec {w w' : World} {o : Oracle} {ix : Ix} : OthersOnly env ck sk start w → o.Ok → ix.ByOthers w ck sk →
      exec env o w ix = .ok w' → OthersOnly env ck sk start w'

/-- By the rules of the config, `n` tokens of the stake account may be withdrawn at time `t`. -/
def MayWithdraw (w : World) (ck sk : Key) (t n : Nat) : Prop :=
  ∃ c d, configAt w ck = some c ∧ stakeAt w sk = some d ∧ belongs sk ck ∧ d.cooldown ≤ t ∧ n ≤ d.staked ∧
    n * 10000 ≤ d.staked * c.maxBps

/-- The instruction is of a kind that takes tokens out of the stake account `sk`: unstake, slash, or move from it. -/
def Ix.TakesFrom (ix : Ix) (sk : Key) : Prop :=
  (∃ n, ix.decoded = some (.unstakeTokens n) ∧ ix.acct 3 = some sk) ∨
  (∃ n, ix.decoded = some (.solStakerMoveTokens n) ∧ ix.acct 3 = some sk) ∨
  (∃ n, (ix.decoded = some (.slashValidatorStake n) ∨ ix.decoded = some (.slashSolStakerStake n)) ∧ ix.acct 1 = some sk)

/-- A stretch of history in which tokens leave the stake account `sk` by unstaking only, at a limit of at most `B` basis points and
with a cooldown of at least `Δ` seconds. The list has the times of the unstakes, the latest first. -/
inductive Exit (env : Env) (ck sk : Key) (B Δ : Nat) (start : World) : World → List Nat → Prop
  | start : Exit env ck sk B Δ start start []
  | ext {w w' : World} {ts : List Nat} : Exit env ck sk B Δ start w ts → ExtStep w w' → Exit env ck sk B Δ start w' ts
  | other {w w' : World} {ts : List Nat} {o : Oracle} {ix : Ix} : Exit env ck sk B Δ start w ts → o.Ok →
      exec env o w ix = .ok w' → ¬ ix.TakesFrom sk → Exit env ck sk B Δ start w' ts
  | unstake {w w' : World} {ts : List Nat} {o : Oracle} {ix : Ix} {n t : Nat} {c : Config} :
      Exit env ck sk B Δ start w ts → o.Ok → exec env o w ix = .ok w' →
      ix.decoded = some (.unstakeTokens n) → ix.acct 3 = some sk → configAt w ck = some c → c.maxBps ≤ B →
      Δ ≤ c.cooldownTime → o.unixTimestamp = t → t < 2 ^ 63 → Exit env ck sk B Δ start w' (t :: ts)

/-- A stretch of history in which the authority of `sk` takes out the most it may, `k` times, at a limit of `b` basis points, and
nothing is added to the account in between. -/
inductive FullExit (env : Env) (ck sk : Key) (b : Nat) (start : World) : World → Nat → Prop
  | start : FullExit env ck sk b start start 0
  | ext {w w' : World} {k : Nat} : FullExit env ck sk b start w k → ExtStep w w' → FullExit env ck sk b start w' k
  | other {w w' : World} {k : Nat} {o : Oracle} {ix : Ix} : FullExit env ck sk b start w k → o.Ok →
      exec env o w ix = .ok w' →
      (∀ d d', stakeAt w sk = some d → stakeAt w' sk = some d' → d'.staked ≤ d.staked) → FullExit env ck sk b start w' k
  | unstake {w w' : World} {k : Nat} {o : Oracle} {ix : Ix} {c : Config} {d : Delegation} :
      FullExit env ck sk b start w k → o.Ok → exec env o w ix = .ok w' → configAt w ck = some c → c.maxBps = b →
      stakeAt w sk = some d → ix.decoded = some (.unstakeTokens (d.staked * b / 10000)) → ix.acct 3 = some sk →
      FullExit env ck sk b start w' (k + 1)

end Verif
