import Verif.Model.Exec
/-!
# Transactions

Solana runs instructions in transactions (external, not in /repo): a transaction is a list of instructions, of this and of other
programs, which take effect together or not at all. After the last one the runtime compares every account that the transaction may
write with its state before the transaction and refuses the transaction with `InsufficientFundsForRent` unless the *rent state* of
each of them made an allowed transition (`solana_svm::rent_calculator`). This is the only check that looks at a whole transaction and
at lamport balances.

Simplifications: the fee is not modelled (it is taken before, from an account of the system program, and kept even if the
transaction fails: an `ExtStep`); the runtime exempts the incinerator account from the check, which is not modelled.
-/

namespace Verif

/-- `RentState`. -/
inductive RentState where
  /-- no lamports: the account does not exist afterwards -/
  | uninitialized
  /-- some lamports, but fewer than the rent minimum -/
  | rentPaying (lamports size : Nat)
  | rentExempt
  deriving DecidableEq, Repr

/-- `RentState::from_account`. -/
def rentState (env : Env) (a : Account) : RentState :=
  if a.lamports = 0 then .uninitialized
  else if env.rentMin a.data.len ≤ a.lamports then .rentExempt
  else .rentPaying a.lamports a.data.len

/-- `RentState::transition_allowed_from`: an account may not become rent paying, nor be resized or credited while it is. -/
def RentState.allowed : RentState → RentState → Bool
  | _, .uninitialized => true
  | _, .rentExempt => true
  | .rentPaying l n, .rentPaying l' n' => n' = n ∧ l' ≤ l
  | _, .rentPaying _ _ => false

/-- One instruction of a transaction: one of this program, with what it observes of other programs, or one of another program. An
instruction of another program that calls this program is a sequence of such parts. -/
inductive TxStep where
  | stake (o : Oracle) (ix : Ix)
  | other (f : World → Res World)

/-- A transaction: its instructions and the accounts it may write. -/
structure Tx where
  steps : List TxStep
  writable : List Key

/-- Why a transaction fails. -/
inductive TxErr where
  | instruction (e : Err)
  | insufficientFundsForRent
  deriving DecidableEq, Repr

/-- Run one instruction of a transaction. -/
def TxStep.run (env : Env) (w : World) : TxStep → Res World
  | .stake o ix => exec env o w ix
  | .other f => f w

/-- Run the instructions of a transaction one after the other. -/
def runSteps (env : Env) : World → List TxStep → Res World
  | w, [] => .ok w
  | w, s :: rest => do
    let w' ← s.run env w
    runSteps env w' rest

/-- Run a transaction. -/
def Tx.run (env : Env) (w : World) (tx : Tx) : Except TxErr World :=
  match runSteps env w tx.steps with
  | .error e => .error (.instruction e)
  | .ok w' =>
    if ∀ k ∈ tx.writable, (rentState env (w k)).allowed (rentState env (w' k)) = true then .ok w'
    else .error .insufficientFundsForRent

/-- What the runtime guarantees about a transaction: called programs and other instructions obey the rules for other programs, and an
account that an instruction may write is one that the transaction may write. -/
structure Tx.Ok (tx : Tx) : Prop where
  oracle : ∀ {o ix}, TxStep.stake o ix ∈ tx.steps → o.Ok
  other : ∀ {f w w'}, TxStep.other f ∈ tx.steps → w.WF → f w = .ok w' → ExtStep w w'
  writable : ∀ {o ix}, TxStep.stake o ix ∈ tx.steps → ∀ k ∈ ix.ctx.accts, ix.ctx.writable k = true → k ∈ tx.writable

/-- System program `Transfer` (external, not in /repo): `lamports` from an account of the system program without data, which signs. -/
def systemTransfer (source dest : Key) (lamports : Nat) (w : World) : Res World := do
  require ((w source).owner = systemId ∧ (w source).data.isEmpty = true ∧ source.ofProgram = false) .cpi
  require (lamports ≤ (w source).lamports) .cpi
  let w := w.set source { w source with lamports := (w source).lamports - lamports }
  require ((w dest).lamports + lamports < U64) .cpi
  return w.set dest { w dest with lamports := (w dest).lamports + lamports }

end Verif
