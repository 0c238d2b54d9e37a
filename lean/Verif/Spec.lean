import Verif.Model.Exec
import Mathlib.Algebra.BigOperators.Group.Finset.Basic
/-!
# Vocabulary of the property statements

Nothing here mentions a handler. An account counts as a config or stake account when the stake program owns it and its
data decodes as that type.
-/

namespace Verif

open scoped BigOperators

/-- The config stored at an address, if the program has one there. -/
def configAt (w : World) (k : Key) : Option Config :=
  if (w k).owner = progId then
    match (w k).data with
    | .config c => some c
    | _ => none
  else none

/-- The validator stake stored at an address, if the program has one there. -/
def validatorAt (w : World) (k : Key) : Option ValidatorStake :=
  if (w k).owner = progId then
    match (w k).data with
    | .validator v => some v
    | _ => none
  else none

/-- The SOL staker stake stored at an address, if the program has one there. -/
def solStakerAt (w : World) (k : Key) : Option SolStakerStake :=
  if (w k).owner = progId then
    match (w k).data with
    | .solStaker s => some s
    | _ => none
  else none

/-- The delegation of the stake account (of either type) stored at an address. -/
def stakeAt (w : World) (k : Key) : Option Delegation :=
  match validatorAt w k, solStakerAt w k with
  | some v, _ => some v.del
  | none, some s => some s.del
  | none, none => none

/-- The token account at an address, whoever wrote it there. -/
def tokenAt (w : World) (k : Key) : Option TokenAccount :=
  match (w k).data with
  | .token t => some t
  | _ => none

/-- The mint at an address. -/
def mintAt (w : World) (k : Key) : Option Mint :=
  match (w k).data with
  | .mint m => some m
  | _ => none

/-- The rewards program's record at an address. -/
def holderAt (w : World) (k : Key) : Option HolderRewards :=
  match (w k).data with
  | .holder h => some h
  | _ => none

/-- A stake account belongs to the config from whose address its own address is derived. -/
def belongs (s c : Key) : Prop := (∃ v, s = .validatorPda v c) ∨ (∃ n, s = .solStakerPda n c)

instance (s c : Key) : Decidable (belongs s c) :=
  match s with
  | .validatorPda v c' => decidable_of_iff (c' = c) (by simp [belongs])
  | .solStakerPda n c' => decidable_of_iff (c' = c) (by simp [belongs])
  | .raw _ | .vaultPda _ _ | .overridePda _ _ | .dunaPda _ _ | .holderRewardsPda _ => isFalse (by simp [belongs])

/-- `f` has finite support and its values add up to `n`. -/
def TotalIs (f : Key → Nat) (n : Nat) : Prop :=
  ∃ S : Finset Key, (∀ k, k ∉ S → f k = 0) ∧ ∑ k ∈ S, f k = n

/-- Effective stake that the account `s` contributes to config `c`. -/
def effectiveIn (w : World) (c s : Key) : Nat :=
  if belongs s c then ((stakeAt w s).map (·.effective)).getD 0 else 0

/-- Staked tokens that the account `s` contributes to config `c`. -/
def stakedIn (w : World) (c s : Key) : Nat :=
  if belongs s c then ((stakeAt w s).map (·.staked)).getD 0 else 0

/-- Lamports that the SOL staker account `s` of config `c` contributes to the validator with vote account `v`. -/
def lamportsOn (w : World) (c v s : Key) : Nat :=
  if belongs s c then
    match solStakerAt w s with
    | some x => if x.del.vote = v then x.lamports else 0
    | none => 0
  else 0

/-- The stake cap: 1.3 times the lamports, rounded down. -/
def cap (lamports : Nat) : Nat := 13 * lamports / 10

/-- The instruction a transaction carries, when its data decodes. -/
def Ix.decoded (ix : Ix) : Option StakeInstruction :=
  match StakeInstruction.unpack ix.data with
  | .ok i => some i
  | .error _ => none

/-- The account in the given position of the instruction's account list. -/
def Ix.acct (ix : Ix) (n : Nat) : Option Key := ix.ctx.accts[n]?

/-- The config an instruction works on: the first account, except for HarvestSolStakerRewards, where it is the second. -/
def Ix.config (ix : Ix) : Option Key :=
  match ix.decoded with
  | some .harvestSolStakerRewards => ix.acct 1
  | _ => ix.acct 0

/-- The called rewards program never takes lamports from the given address. -/
structure Oracle.Spares (o : Oracle) (k : Key) : Prop where
  harvestRewards : ∀ {w c w'}, o.harvestRewards w c = .ok w' → (w k).lamports ≤ (w' k).lamports
  deposit : ∀ {w c w'}, o.deposit w c = .ok w' → (w k).lamports ≤ (w' k).lamports
  withdraw : ∀ {w c w'}, o.withdraw w c = .ok w' → (w k).lamports ≤ (w' k).lamports

/-- One step of the chain. -/
inductive Step (env : Env) : World → World → Prop
  | ext {w w'} : ExtStep w w' → Step env w w'
  | exec {w w' o ix} : o.Ok → exec env o w ix = .ok w' → Step env w w'

/-- Any number of steps of the chain. -/
inductive Steps (env : Env) : World → World → Prop
  | refl {w} : Steps env w w
  | tail {w w' w''} : Steps env w w' → Step env w' w'' → Steps env w w''

end Verif
