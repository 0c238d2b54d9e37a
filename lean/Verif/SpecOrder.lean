import Verif.SpecFoot
/-!
# Vocabulary of the statements about the order of instructions

Nothing here mentions a handler.
-/

namespace Verif

/-- Two states agree on a list of accounts. -/
def Agree (ks : List Key) (w w' : World) : Prop := ∀ k ∈ ks, w k = w' k

/-- Two executions end alike: with the same error, or both well, in states that agree on a list of accounts. -/
def SameOutcome (ks : List Key) (x y : Res World) : Prop :=
  match x, y with
  | .ok w, .ok w' => Agree ks w w'
  | .error e, .error e' => e = e'
  | _, _ => False

/-- Everything the rewards program sees of a call. -/
def RewardsCall.seen (c : RewardsCall) : List Key := c.mint :: c.accounts

/-- The rewards program sees nothing but the accounts it is called with (the runtime sees to that). -/
structure Oracle.Sees (o : Oracle) : Prop where
  harvestRewards : ∀ w w' c, Agree c.seen w w' → SameOutcome c.seen (o.harvestRewards w c) (o.harvestRewards w' c)
  deposit : ∀ w w' c, Agree c.seen w w' → SameOutcome c.seen (o.deposit w c) (o.deposit w' c)
  withdraw : ∀ w w' c, Agree c.seen w w' → SameOutcome c.seen (o.withdraw w c) (o.withdraw w' c)

/-- A member of a batch: the instruction, and what it observes of the rest of the chain. -/
structure Job where
  oracle : Oracle
  ix : Ix

/-- Execute a batch in the given order; the whole batch fails if one instruction fails. -/
def runBatch (env : Env) (w : World) : List Job → Res World
  | [] => .ok w
  | s :: rest => do
    let w ← exec env s.oracle w s.ix
    runBatch env w rest

/-- Two instructions do not conflict: an account named by both is writable in neither. This is the rule by which the Solana
runtime decides what it may run in parallel. -/
def Job.Compatible (s t : Job) : Prop :=
  ∀ k ∈ s.ix.ctx.accts, k ∈ t.ix.ctx.accts → s.ix.ctx.writable k = false ∧ t.ix.ctx.writable k = false

end Verif
