import Verif.SpecExit
import Verif.Props.Unstake
import Verif.Props.Exit
import Verif.WitnessLive
/-!
# C120 and C121: what moving before a slash saves, and how soon a new stake can leave
-/

namespace Verif.Props

open Verif Verif.Witness

variable {env : Env} {o o' : Oracle} {w wa w' : World} {ix ix' : Ix}

/-- **C120.** A staker who moves tokens away before a slash saves them from it: the slash is accepted, takes at most what was left
in the account, and does not touch the account the tokens were moved to. -/
theorem C120_moved_tokens_are_not_slashed (R : Reachable env w) (O : o.Ok) (h : exec env o w ix = .ok wa) {n m : Nat}
    (hi : ix.decoded = some (.solStakerMoveTokens n)) (O' : o'.Ok) (h' : exec env o' wa ix' = .ok w')
    (hi' : ix'.decoded = some (.slashSolStakerStake m)) {s t : Key} (hs : ix.acct 3 = some s) (ht : ix.acct 4 = some t)
    (hs' : ix'.acct 1 = some s) {x y : SolStakerStake} (hx : solStakerAt w s = some x) (hy : solStakerAt w t = some y) :
    ∃ ck c x' y' v v', ix'.acct 0 = some ck ∧ configAt wa ck = some c ∧ stakeAt w' s = some x' ∧ stakeAt w' t = some y' ∧
      n ≤ x.del.staked ∧ x'.staked + min m (x.del.staked - n) = x.del.staked - n ∧ y'.staked = y.del.staked + n ∧
      tokenAt w c.vault = some v ∧ tokenAt w' c.vault = some v' ∧ v'.amount + min m (x.del.staked - n) = v.amount := by
  obtain ⟨ck0, s0, t0, x0, y0, x1, y1, a0, a1, a2, hne, b1, b2, e1, e2, e3, e4, _, _, hle, q1, q2, _, _, htok, _⟩ := C15_move R O h hi
  rw [hs] at a1; rw [ht] at a2
  cases a1; cases a2
  rw [hx] at e1; rw [hy] at e2
  cases e1; cases e2
  have Ra : Reachable env wa := .exec R O h
  obtain ⟨ck, s1, c, d, d', v, v', c0, c1, c2, c3, c4, c5, _, _, _, c6, c7, c8, c9, _, _, c10⟩ := C16_slash Ra O' h' (.inr hi')
  rw [hs'] at c1; cases c1
  have hd := stakeAt_of_solStaker e3
  rw [c4] at hd; cases hd
  obtain ⟨y', hy', c11⟩ := c10 t y1.del (Ne.symm hne) (stakeAt_of_solStaker e4)
  rw [q1] at c6 c9
  exact ⟨ck, c, d', y', v, v', c0, c3, c5, hy', hle, c6, c11.trans q2, (htok _) ▸ c7, c8, c9⟩

/-- The tokens of the first account moved to the second, and a slash of the first by 1000. -/
def ixMoveAll : Ix := Witness.ix (.solStakerMoveTokens 500) [cfg, holder, staker, sol1, sol2] [staker]
def ixSlashSol1 : Ix :=
  Witness.ix (.slashSolStakerStake 1000) [cfg, sol1, staker, slashAuth, mint, vault, holder, vaultAuth, tokenId] [slashAuth]

example : okB o2 w11 ixMoveAll = true ∧ okB o2 (after o2 w11 ixMoveAll) ixSlashSol1 = true ∧
    (solOf w11 sol1).del.staked = 500 ∧ (solOf (after o2 (after o2 w11 ixMoveAll) ixSlashSol1) sol2).del.staked = 500 ∧
    (solOf (after o2 (after o2 w11 ixMoveAll) ixSlashSol1) sol1).del.staked = 0 := by
  refine ⟨?_, ?_, ?_, ?_, ?_⟩ <;> decide +kernel

/-- **C121.** New tokens can leave as soon as the old ones: staking neither starts a cooldown nor exempts the new tokens from the
share of the stake that may be withdrawn. -/
theorem C121_no_minimum_time (R : Reachable env w) (O : o.Ok) (h : exec env o w ix = .ok w') {n : Nat}
    (hi : ix.decoded = some (.validatorStakeTokens n) ∨ ix.decoded = some (.solStakerStakeTokens n)) {ck sk : Key} {c : Config}
    {d : Delegation} (h0 : ix.acct 0 = some ck) (h3 : ix.acct 3 = some sk) (hc : configAt w ck = some c)
    (hd : stakeAt w sk = some d) {t : Nat} (ht : d.cooldown ≤ t) {m : Nat} (hm : m * 10000 ≤ (d.staked + n) * c.maxBps) :
    MayWithdraw w' ck sk t m := by
  have I := reachable_inv R
  obtain ⟨c', hc', C⟩ := effect_config I (exec_effect I O h) hc
  have hb : c'.maxBps = c.maxBps := by
    cases C with
    | same S => exact S.maxBps
    | authority _ h1 => rcases hi with hi | hi <;> rw [hi] at h1 <;> cases h1
    | slash _ h1 => rcases hi with hi | hi <;> rw [hi] at h1 <;> cases h1
    | update _ h1 => rcases hi with hi | hi <;> rw [hi] at h1 <;> cases h1
  have fin : ∀ {a : StakeTokensAccts} {rest : List Key} {d0 d' : Delegation}, ix.ctx.accts = a.list ++ rest →
      OneStake a.config a.stake w w' d0 d' → d'.staked = d0.staked + n → d'.cooldown = d0.cooldown → MayWithdraw w' ck sk t m := by
    intro a rest d0 d' hl S e1 e2
    have b0 : ix.acct 0 = some a.config := by simp [Ix.acct, hl, StakeTokensAccts.list]
    have b3 : ix.acct 3 = some a.stake := by simp [Ix.acct, hl, StakeTokensAccts.list]
    rw [h0] at b0; rw [h3] at b3
    cases b0; cases b3
    have e := S.before; rw [hd] at e; cases e
    have hle := ((reachable_inv R).config _ _ hc).bps
    refine ⟨c', d', hc', S.after, S.bel, e2 ▸ ht, ?_, by rw [e1, hb]; exact hm⟩
    rw [e1]
    have : (d.staked + n) * c.maxBps ≤ (d.staked + n) * 10000 := Nat.mul_le_mul_left _ hle
    omega
  rcases hi with hi | hi
  · obtain ⟨a, rest, hl, hr⟩ := ran_validatorStakeTokens h hi
    obtain ⟨d0, d', S, e1, e2⟩ := validatorStakeTokens_one I O hr
    exact fin hl S e1 e2
  · obtain ⟨a, rest, hl, hr⟩ := ran_solStakerStakeTokens h hi
    obtain ⟨d0, d', S, e1, e2⟩ := solStakerStakeTokens_one I O hr
    exact fin hl S e1 e2

/-- The limit lifted, 500 tokens in, 10000 lamports of rewards, 500 tokens out, all at the same time. -/
def ixNoLimit : Ix := Witness.ix (.updateConfig (.maxDeactivationBasisPoints 10000)) [cfg, configAuth] [configAuth]
def ixAllOut : Ix :=
  Witness.ix (.unstakeTokens 500)
    [cfg, pool, poolToken, sol1, staker, vault, vaultAuth, holder, mint, dest, tokenId, rewardsId] [staker]
def brief1 : World := after o1 w6 ixNoLimit
def brief2 : World := after o1 brief1 ixStakeSol1
def brief3 : World := credit brief2 cfg 10000
def brief4 : World := after o1 brief3 ixAllOut
theorem okBrief1 : okB o1 w6 ixNoLimit = true := by decide +kernel
theorem okBrief2 : okB o1 brief1 ixStakeSol1 = true := by decide +kernel
theorem okBrief4 : okB o1 brief3 ixAllOut = true := by decide +kernel
theorem rBrief1 : Reachable Witness.env brief1 := by unfold brief1; exact .exec r6 o1_ok (ok_after okBrief1)
theorem rBrief2 : Reachable Witness.env brief2 := by unfold brief2; exact .exec rBrief1 o1_ok (ok_after okBrief2)
theorem brief3_ext : ExtStep brief2 brief3 := by
  unfold brief3; exact credit_ext (reachable_inv rBrief2).wf (by decide +kernel)

example : ixStakeSol1.acct 3 = some sol1 ∧ ixStakeSol1.decoded = some (.solStakerStakeTokens 500) ∧
    (solOf brief1 sol1).del.cooldown ≤ 1000 ∧ 500 * 10000 ≤ ((solOf brief1 sol1).del.staked + 500) * (cfgOf brief1 cfg).maxBps := by
  refine ⟨?_, ?_, ?_, ?_⟩ <;> decide +kernel

/-- **C121.** So somebody can stake just before rewards arrive and leave with all tokens and a share of the rewards at the same
time by the clock, having had no stake before. -/
theorem C121_in_and_out : ∃ o stake unstake w wa wb w' sk d n, Reachable Witness.env w ∧ o.Ok ∧
    stake.decoded = some (.solStakerStakeTokens n) ∧ stake.acct 3 = some sk ∧ unstake.decoded = some (.unstakeTokens n) ∧
    unstake.acct 3 = some sk ∧ 0 < n ∧ stakeAt w sk = some d ∧ d.staked = 0 ∧
    exec Witness.env o w stake = .ok wa ∧ ExtStep wa wb ∧ exec Witness.env o wb unstake = .ok w' ∧
    (∃ d', stakeAt w' sk = some d' ∧ d'.staked = 0) ∧ (w d.authority).lamports < (w' d.authority).lamports ∧
    (wb d.authority).lamports = (w d.authority).lamports :=
  ⟨o1, ixStakeSol1, ixAllOut, brief1, brief2, brief3, brief4, sol1, (solOf brief1 sol1).del, 500, rBrief1, o1_ok,
    by decide +kernel, by decide +kernel, by decide +kernel, by decide +kernel, by decide +kernel, by decide +kernel,
    by decide +kernel, ok_after okBrief2, brief3_ext, ok_after okBrief4,
    ⟨(solOf brief4 sol1).del, by decide +kernel, by decide +kernel⟩, by decide +kernel, by decide +kernel⟩

end Verif.Props
