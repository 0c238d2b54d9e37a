import Verif.Lemmas.Solvency
import Verif.WitnessKeeper
/-!
# Backing of staked tokens and of rewards

C18, C22, C44.
-/

namespace Verif.Props

open Verif Verif.Witness

variable {env : Env} {o : Oracle} {w w' : World} {ix : Ix}

/-! ## C18 -/

/-- **C18.** The tokens staked with a config are at most what the rewards program records as deposited for the config's
vault authority. -/
theorem C18_staked_backed {ck : Key} {P : World → Ix → World → Prop} {n : Nat} (H : History env ck P w n) :
    ∃ total, TotalIs (stakedIn w ck) total ∧ total ≤ depositedFor env ck w := H.backed

/-- The witness history: 2350 tokens are staked after stakes of 2000 and 500 and an unstake of 150; 2350 are deposited.
After a slash of 300 (the slash burns tokens that were sent to the vault) the deposit is larger than the staked tokens. -/
example : History Witness.env cfg (Careful Witness.env cfg) w13 1 ∧
    History Witness.env cfg (Careful Witness.env cfg) w15 1 ∧
    depositedFor Witness.env cfg w13 = 2350 ∧
    stakedIn w13 cfg val1 + stakedIn w13 cfg val2 + stakedIn w13 cfg sol1 + stakedIn w13 cfg sol2 = 2350 ∧
    depositedFor Witness.env cfg w15 = 2350 ∧
    stakedIn w15 cfg val1 + stakedIn w15 cfg val2 + stakedIn w15 cfg sol1 + stakedIn w15 cfg sol2 = 2050 :=
  ⟨h13, h15, by decide +kernel⟩

/-! ## C22 -/

/-- **C22, partial.** What all stake accounts of a config would be paid now is at most the config's lamports above its
rent-exempt minimum, plus the lamports on the vault authority, plus one lamport for each payout of holder rewards.

Missing: the full statement has `fun _ _ _ => True` in place of `Careful env ck`, that is, it also covers histories in which
a Deposit pays out pending holder rewards or a sync names the config account as its own keeper. That statement is false,
and so is each of the two statements with only one of the two cases excluded: see `C22_fails_with_settling_deposits` and
`C22_fails_with_config_keeper`. C94 bounds the shortfall in all histories. -/
theorem C22_claims_covered_partial {ck : Key} {c : Config} {n : Nat} (H : History env ck (Careful env ck) w n)
    (hc : configAt w ck = some c) :
    ∃ total, TotalIs (accrued env w ck) total ∧
      total + env.rentMin configLen ≤ (w ck).lamports + (w (env.vaultAuth ck)).lamports + n :=
  (H.covered (by rw [hc]; simp)).accrued (reachable_inv H.reachable) hc le_rfl

/-- The witness history after 10000 lamports of stake rewards and 5000 lamports of holder rewards have arrived: both
accounts have rewards waiting. -/
example : History Witness.env cfg (Careful Witness.env cfg) w9 1 ∧ (configAt w9 cfg).isSome = true ∧
    accrued Witness.env w9 cfg val1 = 12000 ∧ accrued Witness.env w9 cfg sol1 = 3000 ∧
    (w9 cfg).lamports = 5015000 := ⟨h9, by decide +kernel⟩

theorem z8_facts : accrued Witness.env z8 cfg val1 = 19840000 ∧
    (z8 cfg).lamports + (z8 (Witness.env.vaultAuth cfg)).lamports = 5940880 ∧ (configAt z8 cfg).isSome = true := by
  decide +kernel

/-- **C22.** Without the restriction on deposits the claims are not covered: a rewards program that meets the contract and
whose Deposit pays out pending rewards leads to a state in which one validator alone would be paid 19840000 lamports
although config and vault authority together hold 5940880. -/
theorem C22_fails_with_settling_deposits :
    ∃ (env : Env) (ck : Key) (w : World) (n : Nat), History env ck (fun _ _ _ => True) w n ∧ (configAt w ck).isSome = true ∧
      ∀ total, TotalIs (accrued env w ck) total → (w ck).lamports + (w (env.vaultAuth ck)).lamports + n < total := by
  obtain ⟨h1, h2, h3⟩ := z8_facts
  refine ⟨Witness.env, cfg, z8, 1, hz8, h3, fun t ht => ?_⟩
  have := ht.le val1
  omega

/-- **C22.** Excluding only the Deposits that pay out pending rewards is not enough: after a sync that names the config as
its own keeper, while a validator's authority is the config address too, one staker alone would be paid 7614623 lamports
although config and vault authority together hold 5910880. -/
theorem C22_fails_with_config_keeper :
    ∃ (env : Env) (ck : Key) (w : World) (n : Nat),
      History env ck (fun w ix w' =>
        (∃ n, ix.decoded = some (.validatorStakeTokens n) ∨ ix.decoded = some (.solStakerStakeTokens n)) →
          holderAcc env ck w' = holderAcc env ck w) w n ∧ (configAt w ck).isSome = true ∧
      ∀ total, TotalIs (accrued env w ck) total → (w ck).lamports + (w (env.vaultAuth ck)).lamports + n < total := by
  obtain ⟨h1, h2, h3⟩ := k12_facts
  refine ⟨Witness.env, cfg, k12, 0, hk12, h3, fun t ht => ?_⟩
  have := ht.le sol1
  omega

/-- Before that sync the two accounts are due 9999 lamports each, and the staker is due nothing more than its share. -/
example : accrued Witness.env k11 cfg sol1 = 9999 ∧ accrued Witness.env k11 cfg val1 = 9999 ∧
    (k11 cfg).lamports = 5020000 ∧ (k12 cfg).lamports = 5020000 := by decide +kernel

/-! ## C44 -/

/-- **C44, partial.** After a stake the account's pending holder rewards are zero, provided the rewards program's Deposit did
not move the vault's accumulator.

Missing: the full statement drops the last hypothesis. It is false: see `C44_fails_with_settling_deposits`. -/
theorem C44_no_past_holder_rewards_partial (R : Reachable env w) (O : o.Ok) (h : exec env o w ix = .ok w') {n : Nat}
    (hi : ix.decoded = some (.validatorStakeTokens n) ∨ ix.decoded = some (.solStakerStakeTokens n)) {ck k : Key}
    (hck : ix.config = some ck) (hk : ix.acct 3 = some k) (hq : holderAcc env ck w' = holderAcc env ck w) :
    ∃ d, stakeAt w' k = some d ∧ growth d.lastHolder (holderAcc env ck w') * d.staked = 0 := by
  have I := reachable_inv R
  obtain ⟨a, rest, c, d, hr, rs, rh, wa, wb, wc, D', c1, d1, d2, ts, td, hl, S, I1, I2, I3, E3, E4⟩ :=
    exec_stake_steps I O h hi
  have hc : a.config = ck := by
    rcases hi with hi | hi <;> simpa [Ix.config, hi, Ix.acct, hl, StakeTokensAccts.list] using hck
  have hs : a.stake = k := by simpa [Ix.acct, hl, StakeTokensAccts.list] using hk
  subst hc hs
  have h2 : stakeAt wb a.stake = some d2 :=
    stakeAt_eq.2 ⟨by rw [S.adj.owner, S.harv.owner]; exact S.sO, by rw [S.adj.stake']; exact S.adj.del'⟩
  refine ⟨d2, by rw [ext_stakeAt I3 E4, ext_stakeAt I2 E3]; exact h2, ?_⟩
  have e : d2.lastHolder = holderAcc env a.config w := by rw [S.rest, S.d1_eq, S.harv.record]; rfl
  rw [hq, e, growth_self, Nat.zero_mul]

/-- **C44.** In general an account that has just staked has a claim on what its Deposit paid out: the growth of the vault's
accumulator during the instruction times all its tokens, those just staked included. -/
theorem C44_claim_after_stake (R : Reachable env w) (O : o.Ok) (h : exec env o w ix = .ok w') {n : Nat}
    (hi : ix.decoded = some (.validatorStakeTokens n) ∨ ix.decoded = some (.solStakerStakeTokens n)) {ck k : Key}
    (hck : ix.config = some ck) (hk : ix.acct 3 = some k) :
    ∃ d0 d, stakeAt w k = some d0 ∧ stakeAt w' k = some d ∧ d.staked = d0.staked + n ∧
      growth d.lastHolder (holderAcc env ck w') * d.staked =
        growth (holderAcc env ck w) (holderAcc env ck w') * (d0.staked + n) := by
  have I := reachable_inv R
  obtain ⟨a, rest, c, d, hr, rs, rh, wa, wb, wc, D', c1, d1, d2, ts, td, hl, S, I1, I2, I3, E3, E4⟩ :=
    exec_stake_steps I O h hi
  have hc : a.config = ck := by
    rcases hi with hi | hi <;> simpa [Ix.config, hi, Ix.acct, hl, StakeTokensAccts.list] using hck
  have hs : a.stake = k := by simpa [Ix.acct, hl, StakeTokensAccts.list] using hk
  subst hc hs
  have h2 : stakeAt wb a.stake = some d2 :=
    stakeAt_eq.2 ⟨by rw [S.adj.owner, S.harv.owner]; exact S.sO, by rw [S.adj.stake']; exact S.adj.del'⟩
  refine ⟨d, d2, stakeAt_eq.2 ⟨S.sO, S.harv.del⟩, by rw [ext_stakeAt I3 E4, ext_stakeAt I2 E3]; exact h2, S.staked, ?_⟩
  have e : d2.lastHolder = holderAcc env a.config w := by rw [S.rest, S.d1_eq, S.harv.record]; rfl
  rw [e, S.staked]

theorem z8_claim : (stakeAt z8 val1).map (fun d => (d.staked, growth d.lastHolder (holderAcc Witness.env cfg z8))) =
    some (992000, 20000000000000000000) := by decide +kernel

/-- **C44.** With a Deposit that pays out pending rewards, a stake of 990000 tokens on top of 2000 is followed by a claim of 20
lamports for each of the 992000 tokens. -/
theorem C44_fails_with_settling_deposits :
    ∃ (env : Env) (o : Oracle) (w w' : World) (ix : Ix) (ck k : Key) (d : Delegation), Reachable env w ∧ o.Ok ∧ RewardsContract o ∧
      exec env o w ix = .ok w' ∧ ix.decoded = some (.validatorStakeTokens 990000) ∧ ix.config = some ck ∧
      ix.acct 3 = some k ∧ stakeAt w' k = some d ∧
      growth d.lastHolder (holderAcc env ck w') * d.staked / 1000000000000000000 = 19840000 := by
  obtain ⟨d, hd, e⟩ := Option.map_eq_some_iff.1 z8_claim
  simp only [Prod.mk.injEq] at e
  refine ⟨Witness.env, o3, w7, z8, ixStakeMore, cfg, val1, d, r7, o3_ok, settleOracle_contract, ok_after okz8,
    by decide +kernel, by decide +kernel, by decide +kernel, hd, ?_⟩
  rw [e.1, e.2]

/-- The hypotheses of the first two theorems are met by the stakes of the witness history. -/
example : okB o1 w5 ixStakeVal1 = true ∧ ixStakeVal1.config = some cfg ∧ ixStakeVal1.acct 3 = some val1 ∧
    holderAcc Witness.env cfg w6 = holderAcc Witness.env cfg w5 ∧
    ixStakeVal1.decoded = some (.validatorStakeTokens 2000) := by decide +kernel

end Verif.Props
