import Verif.SpecFaults
import Verif.SpecFoot
/-!
# Vocabulary of C106: what the runtime objects to

The runtime stops an instruction that breaks one of its rules: only the owner of an account changes its data or takes lamports from it,
read-only accounts stay as they are, and lamports are neither created nor destroyed. Nothing here mentions a handler.
-/

namespace Verif

/-- The account is passed in two positions. -/
def Ix.twice (ix : Ix) (k : Key) : Prop := ∃ p q, p ≠ q ∧ ix.acct p = some k ∧ ix.acct q = some k

/-- The account is passed to receive rewards: as the authority of a stake account or as the keeper. -/
def Ix.payee (ix : Ix) (k : Key) : Prop :=
  ix.passes .stakeAuthority k ∨ ix.passes .previousAuthority k ∨ ix.passes .currentAuthority k ∨
    (ix.decoded = some .harvestSolStakerRewards ∧ ix.acct 11 = some k)

/-- Why the runtime stops the instruction with the given error. -/
def Objection (w : World) (ix : Ix) : Err → Prop
  -- data of an account of another program: never
  | .externalDataModified => False
  -- lamports of an account of another program: the vault authority, if it was never handed to the program or was empty
  | .externalLamportSpend =>
    ix.decoded = some .harvestHolderRewards ∧ ∃ va, ix.passes .vaultAuthority va ∧ ((w va).owner ≠ progId ∨ (w va).lamports = 0)
  -- lamports created or destroyed: somebody who is paid is passed in another position as well
  | .unbalanced => ∃ k, ix.payee k ∧ ix.twice k
  -- a read-only account changed: an account the instruction writes was passed as read-only
  | .readonlyModified => ∃ i p k, ix.decoded = some i ∧ p ∈ footprint i ∧ ix.acct p = some k ∧ ix.ctx.writable k = false
  | _ => True

/-- The rewards program conserves the lamports of the accounts it is called with (the runtime sees to that). -/
structure Oracle.Conserves (o : Oracle) : Prop where
  harvestRewards : ∀ {w c w'}, o.harvestRewards w c = .ok w' → lamportSum w' c.accounts = lamportSum w c.accounts
  deposit : ∀ {w c w'}, o.deposit w c = .ok w' → lamportSum w' c.accounts = lamportSum w c.accounts
  withdraw : ∀ {w c w'}, o.withdraw w c = .ok w' → lamportSum w' c.accounts = lamportSum w c.accounts

end Verif
