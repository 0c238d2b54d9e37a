import Verif.Contract
/-!
# Vocabulary of C76: which accounts an instruction may be given

The positions are those documented in `/repo/program/src/instruction.rs` 12-798 (and in the IDL). Nothing here mentions a handler.
-/

namespace Verif

/-- The instruction names the given accounts at the given positions. -/
def Ix.Names (ix : Ix) (l : List (Nat × Key)) : Prop := ∀ x ∈ l, ix.acct x.1 = some x.2

/-- `c` is the content of config `ck`, which is named at position `p`. -/
def Ix.OnConfig (ix : Ix) (w : World) (p : Nat) (ck : Key) (c : Config) : Prop :=
  ix.acct p = some ck ∧ configAt w ck = some c

/-- The vault token account of a config. -/
def vaultAt (w : World) (c : Config) (t : TokenAccount) : Prop := (w c.vault).data = .token t

/-- The governing document `doc` carries the acceptance of `signer`. -/
def Accepted (w : World) (signer doc : Key) (hash : List UInt8) : Prop :=
  doc = .dunaPda signer hash ∧ ∃ b, (w doc).data = .bytes (1 :: b)

/-- The validator stake account of a vote account, settled for its own authority. -/
def ValidatorOf (w : World) (vote ck au : Key) : Prop :=
  ∃ v, validatorAt w (.validatorPda vote ck) = some v ∧ v.del.vote = vote ∧ v.del.authority = au

/-- The accounts a successful instruction names. -/
def RightAccounts (env : Env) (o : Oracle) (w : World) (ix : Ix) : Prop :=
  match ix.decoded with
  | none => False
  | some (.initializeConfig _ _ _ _ _ _) =>
    ∃ ck t, ix.acct 0 = some ck ∧ ix.Names [(2, env.vaultAuth ck), (4, vaultRecord env ck), (1, t.mint)] ∧
      ∃ vault, ix.acct 3 = some vault ∧ (w vault).data = .token t ∧ t.owner = env.vaultAuth ck
  | some .initializeValidatorStake =>
    ∃ ck c vote wd doc, ix.OnConfig w 0 ck c ∧ ix.Names [(1, doc), (2, .validatorPda vote ck), (3, vote)] ∧
      (w vote).owner = voteId ∧ (w vote).data = .vote wd ∧ Accepted w wd doc c.dunaHash
  | some (.validatorStakeTokens _) =>
    ∃ ck c v t, ix.OnConfig w 0 ck c ∧ vaultAt w c t ∧ validatorAt w (.validatorPda v.del.vote ck) = some v ∧
      ix.Names [(3, .validatorPda v.del.vote ck), (4, v.del.authority), (7, t.mint), (8, env.vaultAuth ck), (9, c.vault),
        (10, vaultRecord env ck)]
  | some .harvestHolderRewards =>
    ∃ ck c t, ix.OnConfig w 0 ck c ∧ vaultAt w c t ∧
      ix.Names [(3, c.vault), (4, vaultRecord env ck), (5, env.vaultAuth ck), (6, t.mint)] ∧
      (w (vaultRecord env ck)).owner = rewardsId
  | some .harvestValidatorRewards =>
    ∃ ck c v, ix.OnConfig w 0 ck c ∧ validatorAt w (.validatorPda v.del.vote ck) = some v ∧
      ix.Names [(1, vaultRecord env ck), (2, .validatorPda v.del.vote ck), (3, v.del.authority)]
  | some (.slashValidatorStake _) =>
    ∃ ck c v t, ix.OnConfig w 0 ck c ∧ vaultAt w c t ∧ validatorAt w (.validatorPda v.del.vote ck) = some v ∧
      ix.Names [(1, .validatorPda v.del.vote ck), (2, v.del.authority), (3, c.slashAuthority), (4, c.vault),
        (5, vaultRecord env ck), (6, env.vaultAuth ck), (7, t.mint)] ∧ c.slashAuthority ≠ .default
  | some (.setAuthority .config) =>
    ∃ ck c, ix.OnConfig w 0 ck c ∧ ix.Names [(1, c.authority)] ∧ c.authority ≠ .default
  | some (.setAuthority .slash) =>
    ∃ ck c, ix.OnConfig w 0 ck c ∧ ix.Names [(1, c.slashAuthority)] ∧ c.slashAuthority ≠ .default
  | some (.updateConfig _) =>
    ∃ ck c, ix.OnConfig w 0 ck c ∧ ix.Names [(1, c.authority)] ∧ c.authority ≠ .default
  | some .initializeSolStakerStake =>
    ∃ ck c native v doc au, ix.OnConfig w 0 ck c ∧ o.view native = .ok v ∧ v.delegatedVote ≠ .default ∧
      v.withdrawer ≠ .default ∧ Accepted w v.withdrawer doc c.dunaHash ∧ ValidatorOf w v.delegatedVote ck au ∧
      ix.Names [(1, doc), (2, .solStakerPda native ck), (3, .overridePda v.withdrawer ck),
        (4, .validatorPda v.delegatedVote ck), (5, native), (8, viewId)]
  | some (.solStakerStakeTokens _) =>
    ∃ ck c s t, ix.OnConfig w 0 ck c ∧ vaultAt w c t ∧ t.owner = env.vaultAuth ck ∧
      solStakerAt w (.solStakerPda s.solStake ck) = some s ∧
      ix.Names [(3, .solStakerPda s.solStake ck), (4, s.del.authority), (7, t.mint), (8, env.vaultAuth ck), (9, c.vault),
        (10, vaultRecord env ck)]
  | some .harvestSolStakerRewards =>
    ∃ ck c s v, ix.OnConfig w 1 ck c ∧ solStakerAt w (.solStakerPda s.solStake ck) = some s ∧ o.view s.solStake = .ok v ∧
      ix.Names [(0, viewId), (2, vaultRecord env ck), (3, .solStakerPda s.solStake ck), (4, s.del.authority),
        (5, s.solStake)] ∧
      (¬ (v.effective = s.lamports ∧ v.delegatedVote = s.del.vote) →
        (s.del.vote ≠ .default → ∃ au, ValidatorOf w s.del.vote ck au ∧
          ix.Names [(6, .validatorPda s.del.vote ck), (7, au)]) ∧
        (v.delegatedVote ≠ .default → ix.Names [(8, .validatorPda v.delegatedVote ck)] ∧
          ∀ au, ValidatorOf w v.delegatedVote ck au → ix.Names [(9, au)]) ∧
        ix.acct 11 ≠ some progId)
  | some (.unstakeTokens _) =>
    ∃ ck c k d t, ix.OnConfig w 0 ck c ∧ vaultAt w c t ∧ belongs k ck ∧ stakeAt w k = some d ∧
      ix.Names [(3, k), (4, d.authority), (5, c.vault), (6, env.vaultAuth ck), (7, vaultRecord env ck), (8, t.mint)] ∧
      ix.acct 9 ≠ some c.vault
  | some (.slashSolStakerStake _) =>
    ∃ ck c s t, ix.OnConfig w 0 ck c ∧ vaultAt w c t ∧ solStakerAt w (.solStakerPda s.solStake ck) = some s ∧
      ix.Names [(1, .solStakerPda s.solStake ck), (2, s.del.authority), (3, c.slashAuthority), (4, t.mint), (5, c.vault),
        (6, vaultRecord env ck), (7, env.vaultAuth ck)] ∧ c.slashAuthority ≠ .default
  | some (.solStakerMoveTokens _) =>
    ∃ ck c s t, ix.OnConfig w 0 ck c ∧ solStakerAt w (.solStakerPda s.solStake ck) = some s ∧
      solStakerAt w (.solStakerPda t.solStake ck) = some t ∧ s.solStake ≠ t.solStake ∧ s.del.authority = t.del.authority ∧
      ix.Names [(1, vaultRecord env ck), (2, s.del.authority), (3, .solStakerPda s.solStake ck),
        (4, .solStakerPda t.solStake ck)]
  | some (.validatorOverrideStakedLamports _) =>
    ∃ ck c v, ix.OnConfig w 0 ck c ∧ validatorAt w (.validatorPda v.del.vote ck) = some v ∧
      ix.Names [(1, c.authority), (2, .validatorPda v.del.vote ck), (3, v.del.authority), (4, vaultRecord env ck)] ∧
      c.authority ≠ .default
  | some .validatorSyncAuthority =>
    ∃ ck c vote wd v, ix.OnConfig w 0 ck c ∧ validatorAt w (.validatorPda vote ck) = some v ∧ v.del.vote = vote ∧
      (w vote).owner = voteId ∧ (w vote).data = .vote wd ∧ ix.Names [(1, .validatorPda vote ck), (2, vote)]

/-- The signatures a successful instruction carries. -/
def RightSigners (w : World) (ix : Ix) : Prop :=
  match ix.decoded with
  | some (.setAuthority .config) => ∃ ck c, ix.OnConfig w 0 ck c ∧ ix.ctx.signer c.authority = true
  | some (.setAuthority .slash) => ∃ ck c, ix.OnConfig w 0 ck c ∧ ix.ctx.signer c.slashAuthority = true
  | some (.updateConfig _) => ∃ ck c, ix.OnConfig w 0 ck c ∧ ix.ctx.signer c.authority = true
  | some (.validatorOverrideStakedLamports _) => ∃ ck c, ix.OnConfig w 0 ck c ∧ ix.ctx.signer c.authority = true
  | some (.slashValidatorStake _) => ∃ ck c, ix.OnConfig w 0 ck c ∧ ix.ctx.signer c.slashAuthority = true
  | some (.slashSolStakerStake _) => ∃ ck c, ix.OnConfig w 0 ck c ∧ ix.ctx.signer c.slashAuthority = true
  | some (.unstakeTokens _) => ∃ k d, ix.acct 3 = some k ∧ stakeAt w k = some d ∧ ix.ctx.signer d.authority = true
  | some (.solStakerMoveTokens _) => ∃ k d, ix.acct 3 = some k ∧ stakeAt w k = some d ∧ ix.ctx.signer d.authority = true
  | _ => True

end Verif
