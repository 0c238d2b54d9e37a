import Verif.Spec
/-!
# Vocabulary of C123: the staking rules as a machine of a page

A book holds, for one config, the terms and one entry for each stake account. There are no accounts, bytes, lamports, token
accounts, effective stakes or rewards in it. `Book.apply` says which operations are allowed and what each does. C123 says that
the program does nothing else to the terms and the entries.
-/

namespace Verif

/-- The terms of a config. -/
structure Terms where
  authority : Key
  slashAuthority : Key
  vault : Key
  cooldownTime : Nat
  maxBps : Nat
  syncRewards : Nat
  deriving DecidableEq

/-- What a stake account stands for: whose tokens, how many, and from when on they can be withdrawn. -/
structure Entry where
  owner : Key
  tokens : Nat
  lockedUntil : Nat
  deriving DecidableEq

/-- The terms of a config, once it exists, and its entries. -/
structure Book where
  terms : Option Terms
  entry : Key → Option Entry

/-- A book nothing has been written in yet. -/
def Book.empty : Book := { terms := none, entry := fun _ => none }

/-- The book with one entry written. -/
def Book.put (B : Book) (k : Key) (e : Entry) : Book :=
  { B with entry := fun k' => if k' = k then some e else B.entry k' }

/-- The operations. -/
inductive Book.Op where
  | settle
  | create (t : Terms)
  | openEntry (k owner : Key)
  | handOver (k owner : Key)
  | deposit (k : Key) (n : Nat)
  | withdraw (k : Key) (n : Nat)
  | slash (k : Key) (n : Nat)
  | move (k l : Key) (n : Nat)
  | setCooldownTime (v : Nat)
  | setLimit (v : Nat)
  | setSyncRewards (v : Nat)
  | setAuthority (new : Key)
  | setSlashAuthority (new : Key)

/-- Which operations are allowed, given who has signed and the time, and what each does. -/
def Book.apply (B : Book) (signed : Key → Bool) (now : Nat) : Book.Op → Option Book
  | .settle => some B
  | .create t => if B.terms = none ∧ t.maxBps ≤ 10000 then some { B with terms := some t } else none
  | .openEntry k owner => if B.terms ≠ none ∧ B.entry k = none then some (B.put k ⟨owner, 0, 0⟩) else none
  | .handOver k owner => do
      let e ← B.entry k
      some (B.put k { e with owner := owner })
  | .deposit k n => do
      let e ← B.entry k
      if 0 < n then some (B.put k { e with tokens := e.tokens + n }) else none
  | .withdraw k n => do
      let t ← B.terms
      let e ← B.entry k
      if signed e.owner ∧ e.lockedUntil ≤ now ∧ n ≤ e.tokens ∧ n * 10000 ≤ e.tokens * t.maxBps then
        some (B.put k { e with tokens := e.tokens - n, lockedUntil := min (now + t.cooldownTime) (2 ^ 64 - 1) })
      else none
  | .slash k n => do
      let t ← B.terms
      let e ← B.entry k
      if t.slashAuthority ≠ .default ∧ signed t.slashAuthority ∧ 0 < n then
        some (B.put k { e with tokens := e.tokens - min n e.tokens })
      else none
  | .move k l n => do
      let e ← B.entry k
      let f ← B.entry l
      if k ≠ l ∧ f.owner = e.owner ∧ signed e.owner ∧ n ≤ e.tokens then
        some ((B.put k { e with tokens := e.tokens - n }).put l
          { f with tokens := f.tokens + n, lockedUntil := max e.lockedUntil f.lockedUntil })
      else none
  | .setCooldownTime v => do
      let t ← B.terms
      if t.authority ≠ .default ∧ signed t.authority then some { B with terms := some { t with cooldownTime := v } } else none
  | .setLimit v => do
      let t ← B.terms
      if t.authority ≠ .default ∧ signed t.authority ∧ v ≤ 10000 then some { B with terms := some { t with maxBps := v } }
      else none
  | .setSyncRewards v => do
      let t ← B.terms
      if t.authority ≠ .default ∧ signed t.authority then some { B with terms := some { t with syncRewards := v } } else none
  | .setAuthority new => do
      let t ← B.terms
      if t.authority ≠ .default ∧ signed t.authority then some { B with terms := some { t with authority := new } } else none
  | .setSlashAuthority new => do
      let t ← B.terms
      if t.slashAuthority ≠ .default ∧ signed t.slashAuthority then
        some { B with terms := some { t with slashAuthority := new } }
      else none

/-- The books that the operations lead to, starting with the empty one. -/
inductive Book.Reachable : Book → Prop
  | empty : Book.Reachable Book.empty
  | apply {B B' : Book} {signed : Key → Bool} {now : Nat} {op : Book.Op} : Book.Reachable B →
      B.apply signed now op = some B' → Book.Reachable B'

/-- The book of the config at `ck`, as the accounts of the chain have it. -/
def bookOf (w : World) (ck : Key) : Book where
  terms := (configAt w ck).map fun c => ⟨c.authority, c.slashAuthority, c.vault, c.cooldownTime, c.maxBps, c.syncRewards⟩
  entry k := if belongs k ck then (stakeAt w k).map fun d => ⟨d.authority, d.staked, d.cooldown⟩ else none

/-- Which operation an instruction asks for. The owner of a new entry, and the one it is handed over to, is the withdrawer of
the vote account or stake account that the instruction names. -/
def asksFor (env : Env) (o : Oracle) (w : World) (ix : Ix) (ck : Key) : Book.Op → Prop
  | .settle => ix.decoded = some .harvestHolderRewards ∨ ix.decoded = some .harvestValidatorRewards ∨
      ix.decoded = some .harvestSolStakerRewards ∨ ∃ n, ix.decoded = some (.validatorOverrideStakedLamports n)
  | .create t => ∃ slash auth hash,
      ix.decoded = some (.initializeConfig slash auth t.cooldownTime t.maxBps t.syncRewards hash) ∧
      t.authority = env.keyOfBytes auth ∧ t.slashAuthority = env.keyOfBytes slash ∧ ix.acct 3 = some t.vault
  | .openEntry k owner =>
      (ix.decoded = some .initializeValidatorStake ∧
        ∃ vote, ix.acct 3 = some vote ∧ k = .validatorPda vote ck ∧ (w vote).owner = voteId ∧ (w vote).data = .vote owner) ∨
      (ix.decoded = some .initializeSolStakerStake ∧
        ∃ native v, ix.acct 5 = some native ∧ k = .solStakerPda native ck ∧ o.view native = .ok v ∧ owner = v.withdrawer)
  | .handOver k owner => ix.decoded = some .validatorSyncAuthority ∧
        ∃ vote, ix.acct 2 = some vote ∧ k = .validatorPda vote ck ∧ (w vote).owner = voteId ∧ (w vote).data = .vote owner
  | .deposit k n => (ix.decoded = some (.validatorStakeTokens n) ∨ ix.decoded = some (.solStakerStakeTokens n)) ∧
      ix.acct 3 = some k
  | .withdraw k n => ix.decoded = some (.unstakeTokens n) ∧ ix.acct 3 = some k
  | .slash k n => (ix.decoded = some (.slashValidatorStake n) ∨ ix.decoded = some (.slashSolStakerStake n)) ∧
      ix.acct 1 = some k
  | .move k l n => ix.decoded = some (.solStakerMoveTokens n) ∧ ix.acct 3 = some k ∧ ix.acct 4 = some l
  | .setCooldownTime v => ix.decoded = some (.updateConfig (.cooldownTimeSeconds v))
  | .setLimit v => ix.decoded = some (.updateConfig (.maxDeactivationBasisPoints v))
  | .setSyncRewards v => ix.decoded = some (.updateConfig (.syncRewardsLamports v))
  | .setAuthority new => ix.decoded = some (.setAuthority .config) ∧ ix.acct 2 = some new
  | .setSlashAuthority new => ix.decoded = some (.setAuthority .slash) ∧ ix.acct 2 = some new

end Verif
