import Verif.Spec
/-!
# Vocabulary of C112: what an instruction asks of other programs

An accepted instruction is a sequence of calls of other programs, with the program's own writing in between. A call may need the
signature of one account. It is there when the account signed the instruction, or when the program adds it: the runtime lets a program
sign for the addresses derived from its own id. Nothing here mentions a handler.
-/

namespace Verif

/-- What another program is asked to do. -/
inductive Op where
  /-- system program: hand an account to the stake program -/
  | assign (k : Key)
  /-- system program: give an account data of the given length -/
  | allocate (k : Key) (len : Nat)
  /-- token program: `TransferChecked` -/
  | transfer (source mint dest authority : Key) (amount decimals : Nat)
  /-- token program: `BurnChecked` -/
  | burn (account mint authority : Key) (amount decimals : Nat)
  /-- rewards program: `Deposit`, `Withdraw` and `HarvestRewards` -/
  | deposit (c : RewardsCall)
  | withdraw (c : RewardsCall)
  | harvestRewards (c : RewardsCall)
  /-- stake view program: report on a native stake account -/
  | view (stake history : Key)

/-- A call of another program; `lent` says that the stake program adds its own signature. -/
structure Made where
  program : Key
  op : Op
  lent : Bool

/-- The account whose signature is needed. -/
def Op.signer : Op → Option Key
  | .assign k => some k
  | .allocate k _ => some k
  | .transfer _ _ _ authority _ _ => some authority
  | .burn _ _ authority _ _ => some authority
  | .deposit c => some c.owner
  | .withdraw c => some c.owner
  | .harvestRewards c => some c.owner
  | .view _ _ => none

/-- The accounts it is about. -/
def Op.accounts : Op → List Key
  | .assign k => [k]
  | .allocate k _ => [k]
  | .transfer source mint dest authority _ _ => [source, mint, dest, authority]
  | .burn account mint authority _ _ => [account, mint, authority]
  | .deposit c => [c.pool, c.poolToken, c.holderRewards, c.mint, c.owner, c.token]
  | .withdraw c => [c.pool, c.poolToken, c.holderRewards, c.mint, c.owner, c.token]
  | .harvestRewards c => [c.pool, c.poolToken, c.holderRewards, c.mint, c.owner, c.token]
  | .view stake history => [stake, history]

/-- The call needs no signature, or the signature is there. -/
def Made.signed (m : Made) (ctx : Ctx) : Bool :=
  match m.op.signer with
  | none => true
  | some k => m.lent || ctx.signer k

/-- What the called program makes of it. -/
def Made.perform (m : Made) (o : Oracle) (ctx : Ctx) (w : World) : Res World :=
  if m.signed ctx then
    match m.op with
    | .assign k => systemAssign ctx w k
    | .allocate k len => systemAllocate ctx w k len
    | .transfer source mint dest authority amount decimals => tokenTransfer ctx w source mint dest authority true amount decimals
    | .burn account mint authority amount decimals => tokenBurn ctx w account mint authority amount decimals
    | .deposit c => o.deposit w c
    | .withdraw c => o.withdraw w c
    | .harvestRewards c => o.harvestRewards w c
    | .view stake _ => (o.view stake).map fun _ => w
  else .error .cpi

/-- The program's own writing: accounts of other programs keep their data and lose no lamports, and no account changes hands. -/
def Own (w w' : World) : Prop :=
  ∀ k, (w' k).owner = (w k).owner ∧
    ((w k).owner ≠ progId → (w' k).data = (w k).data ∧ (w k).lamports ≤ (w' k).lamports)

/-- From one state to another by the given calls, in this order, and the program's own writing. -/
inductive Trace (o : Oracle) (ctx : Ctx) : World → List Made → World → Prop
  | done {w w'} : Own w w' → Trace o ctx w [] w'
  | call {w w1 w2 w' m ms} : Own w w1 → m.perform o ctx w1 = .ok w2 → Trace o ctx w2 ms w' → Trace o ctx w (m :: ms) w'

/-- An address at which there is nothing yet. -/
def Blank (w : World) (k : Key) : Prop := (w k).owner = systemId ∧ (w k).data = .bytes []

/-- A call of the rewards program on behalf of a config: in the name of its vault authority, and about its vault. The pool and its token
account are the second and third account of the instruction. -/
def ForVault (env : Env) (ix : Ix) (ck : Key) (c : Config) (mint : Key) (amount : Nat) (r : RewardsCall) : Prop :=
  r.owner = env.vaultAuth ck ∧ r.holderRewards = .holderRewardsPda (env.vaultAuth ck) ∧ r.token = c.vault ∧ r.amount = amount ∧
    ix.acct 1 = some r.pool ∧ ix.acct 2 = some r.poolToken ∧ r.mint = mint

/-- Of the tokens in a config's vault the amount slashed, but no more than is staked, is burned. -/
def Burns (env : Env) (ck : Key) (c : Config) (mint : Key) (staked amount : Nat) (ms : List Made) : Prop :=
  (staked = 0 ∧ ms = []) ∨
    (0 < staked ∧ ∃ decimals, ms = [⟨tokenId, .burn c.vault mint (env.vaultAuth ck) (min amount staked) decimals, true⟩])

/-- The calls that an instruction makes when it is accepted; `ck` is its first account. -/
def Calls (env : Env) (w : World) (ix : Ix) (ck : Key) : StakeInstruction → List Made → Prop
  -- the vault authority of the new config is handed to the program
  | .initializeConfig .., ms => ix.acct 2 = some (env.vaultAuth ck) ∧ ms = [⟨systemId, .assign (env.vaultAuth ck), true⟩]
  -- the new stake account, at a blank address, is given room and handed to the program
  | .initializeValidatorStake, ms => ∃ vote, ix.acct 3 = some vote ∧
      let k : Key := .validatorPda vote ck
      ix.acct 2 = some k ∧ Blank w k ∧ ms = [⟨systemId, .allocate k validatorLen, true⟩, ⟨systemId, .assign k, true⟩]
  | .initializeSolStakerStake, ms => ∃ stake history, ix.acct 5 = some stake ∧ ix.acct 6 = some history ∧ ix.acct 8 = some viewId ∧
      let k : Key := .solStakerPda stake ck
      ix.acct 2 = some k ∧ Blank w k ∧ ms = [⟨viewId, .view stake history, false⟩, ⟨systemId, .allocate k solStakerLen, true⟩,
        ⟨systemId, .assign k, true⟩]
  -- the tokens go to the vault, with the signature of the instruction, and are announced to the rewards program
  | .validatorStakeTokens amount, ms | .solStakerStakeTokens amount, ms =>
      ∃ c source authority mint decimals r, configAt w ck = some c ∧ ix.acct 5 = some source ∧ ix.acct 6 = some authority ∧
        ix.acct 7 = some mint ∧ ix.acct 8 = some (env.vaultAuth ck) ∧ ix.acct 9 = some c.vault ∧ ix.acct 10 = some r.holderRewards ∧
        ForVault env ix ck c mint amount r ∧
        ms = [⟨tokenId, .transfer source mint c.vault authority amount decimals, false⟩, ⟨rewardsId, .deposit r, true⟩]
  -- the withdrawal is announced to the rewards program, and the tokens go from the vault to the destination
  | .unstakeTokens amount, ms =>
      ∃ c dest mint decimals r, configAt w ck = some c ∧ ix.acct 5 = some c.vault ∧ ix.acct 6 = some (env.vaultAuth ck) ∧
        ix.acct 7 = some r.holderRewards ∧ ix.acct 8 = some mint ∧ ix.acct 9 = some dest ∧ ForVault env ix ck c mint amount r ∧
        ms = [⟨rewardsId, .withdraw r, true⟩,
          ⟨tokenId, .transfer c.vault mint dest (env.vaultAuth ck) amount decimals, true⟩]
  -- what is slashed, but no more than is staked, is burned; the program to be called is chosen by the sender and must be this one
  | .slashValidatorStake amount, ms =>
      ∃ c k d mint, configAt w ck = some c ∧ ix.acct 1 = some k ∧ stakeAt w k = some d ∧ ix.acct 4 = some c.vault ∧
        ix.acct 7 = some mint ∧ ix.acct 8 = some tokenId ∧ Burns env ck c mint d.staked amount ms
  | .slashSolStakerStake amount, ms =>
      ∃ c k d mint, configAt w ck = some c ∧ ix.acct 1 = some k ∧ stakeAt w k = some d ∧ ix.acct 4 = some mint ∧
        ix.acct 5 = some c.vault ∧ ix.acct 8 = some tokenId ∧ Burns env ck c mint d.staked amount ms
  -- the rewards program is asked for the rewards of the vault
  | .harvestHolderRewards, ms =>
      ∃ c r, configAt w ck = some c ∧ ix.acct 1 = some r.pool ∧ ix.acct 2 = some r.poolToken ∧ ix.acct 4 = some r.holderRewards ∧
        ix.acct 5 = some r.owner ∧ ix.acct 6 = some r.mint ∧
        r.owner = env.vaultAuth ck ∧ r.holderRewards = .holderRewardsPda (env.vaultAuth ck) ∧
        ms = [⟨rewardsId, .harvestRewards r, true⟩]
  -- the view program reports on the native stake account
  | .harvestSolStakerRewards, ms => ∃ stake history, ix.acct 5 = some stake ∧ ix.acct 10 = some history ∧ ix.acct 0 = some viewId ∧
      ms = [⟨viewId, .view stake history, false⟩]
  -- all others keep to themselves
  | _, ms => ms = []

end Verif
