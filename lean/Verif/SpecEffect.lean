import Verif.SpecLive
/-!
# Vocabulary of the "what this instruction does, in full" statements

How one state turns into another: which lamports move, which accounts get new contents, and that nothing else changes.
Nothing here mentions a handler.
-/

namespace Verif

/-- Who gains how many lamports when `n` lamports go from `src` to `dst`. -/
def pays (src dst : Key) (n : Nat) (k : Key) : Int := (if k = dst then (n : Int) else 0) - if k = src then (n : Int) else 0

/-- The same for the holder of the account, if there is one. -/
def paysTo (src : Key) (dst : Option Key) (n : Nat) (k : Key) : Int :=
  (if dst = some k then (n : Int) else 0) - if k = src then (n : Int) else 0

/-- `w` turns into `w'`: every account gains `gain` lamports, the listed accounts have the listed contents afterwards, and
that is all: owners, and the contents of all other accounts, are unchanged. -/
structure Turns (w w' : World) (gain : Key → Int) (new : List (Key × Data)) : Prop where
  owner : ∀ k, (w' k).owner = (w k).owner
  lamports : ∀ k, ((w' k).lamports : Int) = (w k).lamports + gain k
  data : ∀ p ∈ new, (w' p.1).data = p.2
  rest : ∀ k, (∀ p ∈ new, k ≠ p.1) → (w' k).data = (w k).data

/-- The config after `paid` lamports of the `lamports` it had have been paid out as rewards: everything it received since the
last time is credited to the accumulator, and its record of its own lamports is exact again. -/
def Config.paid (c : Config) (lamports paid : Nat) : Config :=
  { c with acc := currentAcc c lamports, lamportsLast := lamports - paid }

/-- The stake after its rewards have been paid: it has seen both accumulators. -/
def Delegation.seen (d : Delegation) (acc hacc : Nat) : Delegation := { d with lastStake := acc, lastHolder := hacc }

/-- The stake with `staked` tokens, of which those covered by `lamports` of SOL earn. -/
def Delegation.holding (d : Delegation) (staked lamports : Nat) : Delegation :=
  { d with staked := staked, effective := min staked (cap lamports) }

/-- The token account after `n` tokens have left it by order of `by`: if `by` is its delegate, the delegated amount goes down
as well, and the delegation ends at 0. -/
def TokenAccount.less (t : TokenAccount) (authority : Key) (n : Nat) : TokenAccount :=
  if t.delegate = some authority then
    { t with amount := t.amount - n, delegatedAmount := t.delegatedAmount - n
             delegate := if t.delegatedAmount - n = 0 then none else t.delegate }
  else { t with amount := t.amount - n }

/-- The validator after its rewards have been paid, with a new total of SOL delegated to it. -/
def ValidatorStake.retotal (v : ValidatorStake) (acc hacc total : Nat) : ValidatorStake :=
  { v with del := (v.del.seen acc hacc).holding v.del.staked (max total v.min), total := total }

/-- The validators of config `ck` that `p` and `q` vote for, if there are such, after `off` lamports have left the first and
`on` lamports have come to the second. -/
def movedBetween (w : World) (ck p q : Key) (off on acc hacc : Nat) : List (Key × Data) :=
  ([p, q].filter (· ≠ .default)).filterMap fun x =>
    (validatorAt w (.validatorPda x ck)).map fun v =>
      (.validatorPda x ck, .validator (v.retotal acc hacc
        (v.total - (if x = p then off else 0) + if x = q then on else 0)))

end Verif
