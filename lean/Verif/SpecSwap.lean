import Verif.SpecBook
/-!
# Vocabulary of C128: operations and instructions about stakes
-/

namespace Verif

/-- The operation leaves the terms alone. -/
def Book.Op.onEntries : Book.Op → Prop
  | .settle | .openEntry _ _ | .handOver _ _ | .deposit _ _ | .withdraw _ _ | .slash _ _ | .move _ _ _ => True
  | .create _ | .setCooldownTime _ | .setLimit _ | .setSyncRewards _ | .setAuthority _ | .setSlashAuthority _ => False

/-- The entries an operation is about. -/
def Book.Op.about : Book.Op → List Key
  | .openEntry k _ | .handOver k _ | .deposit k _ | .withdraw k _ | .slash k _ => [k]
  | .move k l _ => [k, l]
  | _ => []

/-- Stakes, unstakes, slashes, moves and harvests. -/
def aboutStakes (ix : Ix) : Prop :=
  (∃ n, ix.decoded = some (.validatorStakeTokens n)) ∨ (∃ n, ix.decoded = some (.solStakerStakeTokens n)) ∨
  (∃ n, ix.decoded = some (.unstakeTokens n)) ∨ (∃ n, ix.decoded = some (.slashValidatorStake n)) ∨
  (∃ n, ix.decoded = some (.slashSolStakerStake n)) ∨ (∃ n, ix.decoded = some (.solStakerMoveTokens n)) ∨
  ix.decoded = some .harvestHolderRewards ∨ ix.decoded = some .harvestValidatorRewards ∨
  ix.decoded = some .harvestSolStakerRewards

/-- The stake accounts such an instruction names as those whose tokens it puts in, takes out or moves. -/
def stakesOf (ix : Ix) : List Key :=
  match ix.decoded with
  | some (.validatorStakeTokens _) | some (.solStakerStakeTokens _) | some (.unstakeTokens _) => (ix.acct 3).toList
  | some (.slashValidatorStake _) | some (.slashSolStakerStake _) => (ix.acct 1).toList
  | some (.solStakerMoveTokens _) => (ix.acct 3).toList ++ (ix.acct 4).toList
  | _ => []

end Verif
