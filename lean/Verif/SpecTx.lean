import Verif.Model.Tx
import Verif.Contract
/-!
# Vocabulary of C98 to C100
-/

namespace Verif

/-- The account has at least the lamports that rent exemption requires. -/
def RentExempt (env : Env) (a : Account) : Prop := env.rentMin a.data.len ≤ a.lamports

/-- Nobody has an account at the address: no lamports, no data. -/
def Vacant (w : World) (k : Key) : Prop := (w k).lamports = 0 ∧ (w k).owner = systemId ∧ (w k).data = .bytes []

/-- An ordinary account of the system program, from which lamports can be sent. -/
def Wallet (w : World) (k : Key) : Prop := (w k).owner = systemId ∧ (w k).data = .bytes [] ∧ k.ofProgram = false

/-- The rewards program leaves an account that it debits or resizes rent exempt. -/
structure Oracle.KeepsRent (env : Env) (o : Oracle) : Prop where
  harvestRewards : ∀ {w c w'}, o.harvestRewards w c = .ok w' →
    ∀ k, RentExempt env (w' k) ∨ ((w' k).data.len = (w k).data.len ∧ (w k).lamports ≤ (w' k).lamports)
  deposit : ∀ {w c w'}, o.deposit w c = .ok w' →
    ∀ k, RentExempt env (w' k) ∨ ((w' k).data.len = (w k).data.len ∧ (w k).lamports ≤ (w' k).lamports)
  withdraw : ∀ {w c w'}, o.withdraw w c = .ok w' →
    ∀ k, RentExempt env (w' k) ∨ ((w' k).data.len = (w k).data.len ∧ (w k).lamports ≤ (w' k).lamports)

/-- The instruction settles the rewards of the stake account `sk` of config `ck` and of no other account. (SolStakerMoveTokens and
HarvestSolStakerRewards settle several accounts.) -/
def Ix.Settles (ix : Ix) (ck sk : Key) : Prop :=
  ix.acct 0 = some ck ∧ match ix.decoded with
    | some (.slashValidatorStake _) | some (.slashSolStakerStake _) => ix.acct 1 = some sk
    | some .harvestValidatorRewards | some (.validatorOverrideStakedLamports _) => ix.acct 2 = some sk
    | some (.validatorStakeTokens _) | some (.solStakerStakeTokens _) | some (.unstakeTokens _) => ix.acct 3 = some sk
    | _ => False

/-- The rewards program's Deposit and Withdraw leave the lamports of the address alone. -/
def Oracle.NoLamports (o : Oracle) (k : Key) : Prop :=
  ∀ u call u', o.deposit u call = .ok u' ∨ o.withdraw u call = .ok u' → (u' k).lamports = (u k).lamports

/-- The transaction that consists of one instruction of this program. -/
def Tx.single (o : Oracle) (ix : Ix) (writable : List Key) : Tx := { steps := [.stake o ix], writable := writable }

/-- The transaction in which `payer` first sends `n` lamports to `k`. -/
def Tx.topUp (payer k : Key) (n : Nat) (o : Oracle) (ix : Ix) (writable : List Key) : Tx :=
  { steps := [.other (systemTransfer payer k n), .stake o ix], writable := writable }

end Verif
