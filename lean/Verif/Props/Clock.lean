import Verif.Lemmas.Change
import Verif.Lemmas.Dispatch
import Verif.WitnessLive
/-!
# C103: time counts for withdrawals only

No instruction but UnstakeTokens looks at the clock, and staking starts no cooldown. So what a stake earns does not depend on
how long it has been there, and a stake whose cooldown is over can be withdrawn (up to the limit) as soon as it has been increased.
-/

namespace Verif.Props

open Verif Witness

variable {env : Env} {o : Oracle} {w w' : World} {ix : Ix}

theorem timeless_stakeVal (t : Int) :
    validatorStakeTokens env { o with unixTimestamp := t } = validatorStakeTokens env o := rfl
theorem timeless_stakeSol (t : Int) :
    solStakerStakeTokens env { o with unixTimestamp := t } = solStakerStakeTokens env o := rfl
theorem timeless_holder (t : Int) :
    harvestHolderRewards env { o with unixTimestamp := t } = harvestHolderRewards env o := rfl
theorem timeless_initSol (t : Int) :
    initializeSolStakerStake env { o with unixTimestamp := t } = initializeSolStakerStake env o := rfl
theorem timeless_harvestSol (t : Int) :
    harvestSolStakerRewards env { o with unixTimestamp := t } = harvestSolStakerRewards env o := rfl

theorem timeless_dispatch {ctx : Ctx} {i : StakeInstruction} (hn : ∀ n, i ≠ .unstakeTokens n) (t : Int) :
    dispatch env { o with unixTimestamp := t } ctx w i = dispatch env o ctx w i := by
  unfold dispatch
  split <;> first
    | with_reducible rfl
    | rw [timeless_stakeVal]
    | rw [timeless_stakeSol]
    | rw [timeless_holder]
    | rw [timeless_initSol]
    | rw [timeless_harvestSol]
    | exact absurd rfl (hn _)

/-- **C103.** What any other instruction does, and whether it is accepted, does not depend on the time. -/
theorem C103_clock_for_unstake_only (hi : ∀ n, ix.decoded ≠ some (.unstakeTokens n)) (t : Int) :
    exec env { o with unixTimestamp := t } w ix = exec env o w ix := by
  have h : processInstruction env { o with unixTimestamp := t } w ix = processInstruction env o w ix := by
    unfold processInstruction
    cases hu : StakeInstruction.unpack ix.data with
    | error x =>
      have e : ∀ f : StakeInstruction → Res World, ((Except.error x : Res StakeInstruction) >>= f) = .error x := fun _ => rfl
      rw [e, e]
    | ok i =>
      have hn : ∀ n, i ≠ .unstakeTokens n := fun n e => hi n (by unfold Ix.decoded; rw [hu, e])
      have e : ∀ f : StakeInstruction → Res World, ((Except.ok i : Res StakeInstruction) >>= f) = f i := fun _ => rfl
      rw [e, e, timeless_dispatch hn t]
  unfold exec
  rw [h]

/-- **C103.** The cooldown of a stake account changes only if its authority signs for withdrawing from it, or for moving tokens
into it from an account with a later cooldown, which it then takes over. In particular staking does not change it. -/
theorem C103_cooldown_changes (R : Reachable env w) (O : o.Ok) (h : exec env o w ix = .ok w') {sk : Key} {d d' : Delegation}
    (hd : stakeAt w sk = some d) (hd' : stakeAt w' sk = some d') (hne : d'.cooldown ≠ d.cooldown) :
    ix.ctx.signer d.authority = true ∧
      ((∃ n, ix.decoded = some (.unstakeTokens n) ∧ ix.acct 3 = some sk) ∨
       ∃ n src ds, ix.decoded = some (.solStakerMoveTokens n) ∧ ix.acct 3 = some src ∧ ix.acct 4 = some sk ∧
         stakeAt w src = some ds ∧ d.cooldown < ds.cooldown ∧ d'.cooldown = ds.cooldown) := by
  obtain ⟨e, he, D⟩ := effect_del (exec_effect (reachable_inv R) O h) hd
  rw [hd'] at he; cases he
  cases D with
  | same _ h => exact absurd h hne
  | sync ck vote wd _ _ _ _ _ e => exact absurd (by rw [e]) hne
  | stake ck amount _ _ _ _ _ h => exact absurd h hne
  | slash ck amount c _ _ _ _ _ _ _ _ h => exact absurd h hne
  | unstake ck amount c hi _ h3 _ U => exact ⟨U.signed, .inl ⟨_, hi, h3⟩⟩
  | moveFrom ck t amount dt dt' _ _ _ _ M => exact absurd M.sCooldown hne
  | moveTo ck t amount ds ds' hi _ h3 h4 M =>
    have e := M.tCooldown
    have : d.cooldown < ds.cooldown := by
      by_contra hlt
      exact hne (by rw [e]; exact Nat.max_eq_right (by omega))
    exact ⟨M.same ▸ M.sSigned, .inr ⟨_, _, ds, hi, h3, h4, M.s, this, by rw [e]; exact Nat.max_eq_left (by omega)⟩⟩

/-- Withdrawing 150 tokens from the first stake starts its cooldown. -/
example : (solOf w12 sol1).del.cooldown = 0 ∧ (solOf w13 sol1).del.cooldown = 2100 := by decide +kernel

/-- The first stake has no tokens in `w6`, and the validator's 2000 earn alone. At time 1000 somebody stakes 500 for it,
10000 lamports of rewards arrive, the stake gets its fifth of them, and half of the tokens (the limit) leave, all at time 1000. -/
def ixLeave : Ix :=
  Witness.ix (.unstakeTokens 250)
    [cfg, pool, poolToken, sol1, staker, vault, vaultAuth, holder, mint, dest, tokenId, rewardsId] [staker]
example : Reachable Witness.env w8 ∧ o1.unixTimestamp = 1000 ∧ (solOf w6 sol1).del.staked = 0 ∧
    exec Witness.env o1 w6 ixStakeSol1 = .ok w7 ∧ w8 = credit w7 cfg 10000 ∧
    (after o1 w8 ixLeave staker).lamports = (w6 staker).lamports + 2000 ∧
    (tokOf (after o1 w8 ixLeave) dest).amount = (tokOf w6 dest).amount + 250 ∧ okB o1 w8 ixLeave = true :=
  ⟨r8, rfl, by decide +kernel, ok_after ok6, rfl, by decide +kernel, by decide +kernel, by decide +kernel⟩

end Verif.Props
