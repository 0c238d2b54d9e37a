import Verif.SpecJournal
/-!
# Vocabulary of C134: what was asked for last
-/

namespace Verif

/-- The last value that the lines of a journal ask for, where `f` says which value, if any, an operation asks for. -/
def lastAsked {α : Type} (J : List Line) (f : Book.Op → Option α) : Option α := (J.filterMap fun l => f l.op).getLast?

/-- The cooldown time that an operation asks for. -/
def Book.Op.cooldownTime? : Book.Op → Option Nat
  | .create t => some t.cooldownTime
  | .setCooldownTime v => some v
  | _ => none

/-- The unstake limit that an operation asks for. -/
def Book.Op.limit? : Book.Op → Option Nat
  | .create t => some t.maxBps
  | .setLimit v => some v
  | _ => none

/-- The keeper reward that an operation asks for. -/
def Book.Op.keeperReward? : Book.Op → Option Nat
  | .create t => some t.syncRewards
  | .setSyncRewards v => some v
  | _ => none

/-- The config authority that an operation asks for. -/
def Book.Op.authority? : Book.Op → Option Key
  | .create t => some t.authority
  | .setAuthority new => some new
  | _ => none

/-- The slash authority that an operation asks for. -/
def Book.Op.slashAuthority? : Book.Op → Option Key
  | .create t => some t.slashAuthority
  | .setSlashAuthority new => some new
  | _ => none

/-- The vault that an operation asks for. -/
def Book.Op.vault? : Book.Op → Option Key
  | .create t => some t.vault
  | _ => none

/-- The owner that an operation gives to the stake account at `k`. -/
def Book.Op.owner? (k : Key) : Book.Op → Option Key
  | .openEntry k' owner => if k' = k then some owner else none
  | .handOver k' owner => if k' = k then some owner else none
  | _ => none

end Verif
