import Verif.SpecJournal
/-!
# Vocabulary of C130: what a journal says was put into a stake account and taken out of it
-/

namespace Verif

/-- Tokens an operation puts into the account: deposits and moves to it. -/
def Book.Op.into (k : Key) : Book.Op → Nat
  | .deposit k' n => if k' = k then n else 0
  | .move _ l n => if l = k then n else 0
  | _ => 0

/-- Tokens an operation takes out of the account for its owner: withdrawals and moves from it. -/
def Book.Op.outOf (k : Key) : Book.Op → Nat
  | .withdraw k' n => if k' = k then n else 0
  | .move k' _ n => if k' = k then n else 0
  | _ => 0

/-- Tokens an operation slashes, as far as there are that many. -/
def Book.Op.slashes (k : Key) : Book.Op → Nat
  | .slash k' n => if k' = k then n else 0
  | _ => 0

/-- The sum over a journal. -/
def tally (J : List Line) (f : Book.Op → Nat) : Nat := (J.map fun l => f l.op).sum

end Verif
