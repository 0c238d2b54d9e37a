import Verif.SpecTally
/-!
# Vocabulary of C133: all stake accounts of one SOL staker
-/

namespace Verif

/-- `L` lists, each once, the SOL staker stake accounts of a config that belong to `a`. -/
def AccountsOf (w : World) (ck a : Key) (L : List Key) : Prop :=
  L.Nodup ∧ ∀ k, k ∈ L ↔ (∃ native, k = .solStakerPda native ck) ∧ ∃ d, stakeAt w k = some d ∧ d.authority = a

/-- What the accounts of a list hold together. -/
def holdings (w : World) (L : List Key) : Nat := (L.map fun k => ((stakeAt w k).map (·.staked)).getD 0).sum

/-- Tokens an operation deposits in one of the accounts. -/
def Book.Op.depositsIn (L : List Key) : Book.Op → Nat
  | .deposit k n => if k ∈ L then n else 0
  | _ => 0

/-- Tokens an operation withdraws from one of the accounts. -/
def Book.Op.withdrawsFrom (L : List Key) : Book.Op → Nat
  | .withdraw k n => if k ∈ L then n else 0
  | _ => 0

/-- Tokens an operation slashes in one of the accounts, as far as there are that many. -/
def Book.Op.slashesIn (L : List Key) : Book.Op → Nat
  | .slash k n => if k ∈ L then n else 0
  | _ => 0

end Verif
