import Verif.SpecTally
/-!
# Vocabulary of C135: counting the initialisations in a journal
-/

namespace Verif

/-- One for an operation that creates the config. -/
def Book.Op.creates : Book.Op → Nat
  | .create _ => 1
  | _ => 0

/-- One for an operation that opens the stake account at `k`. -/
def Book.Op.opens (k : Key) : Book.Op → Nat
  | .openEntry k' _ => if k' = k then 1 else 0
  | _ => 0

end Verif
