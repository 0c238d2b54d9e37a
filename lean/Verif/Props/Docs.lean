import Verif.Props.Calls
import Verif.Props.Exact
import Verif.WitnessHistory
import Verif.WitnessLive
/-!
# C117: where the documentation and the program differ
-/

namespace Verif.Props

open Verif Verif.Witness

variable {env : Env} {o : Oracle} {w w' : World} {ix : Ix}

/-- Half a million tokens for a validator that has far fewer lamports delegated to it. -/
def ixDocsVal : Ix :=
  Witness.ix (.validatorStakeTokens 500000)
    [cfg, pool, poolToken, val1, auth1, source, holderOwner, mint, vaultAuth, vault, holder, tokenId, rewardsId]
    [holderOwner]

/-- Nearly as many for a SOL staker with as few. -/
def ixDocsSol : Ix :=
  Witness.ix (.solStakerStakeTokens 400000)
    [cfg, pool, poolToken, sol1, staker, source, holderOwner, mint, vaultAuth, vault, holder, tokenId, rewardsId]
    [holderOwner]

def docs1 : World := after o1 w5 ixDocsVal
def docs2 : World := after o1 docs1 ixDocsSol
theorem okDocs1 : okB o1 w5 ixDocsVal = true := by decide +kernel
theorem okDocs2 : okB o1 docs1 ixDocsSol = true := by decide +kernel
theorem rDocs2 : Reachable Witness.env docs2 := by
  unfold docs2; exact .exec (by unfold docs1; exact .exec r5 o1_ok (ok_after okDocs1)) o1_ok (ok_after okDocs2)

/-- **C117.** "The total amount of staked tokens is limited to 1.3 × the SOL staked": it is not, neither for a validator nor
for a SOL staker. -/
theorem C117_stake_is_not_limited :
    ∃ w kv ks v s, Reachable Witness.env w ∧ validatorAt w kv = some v ∧ 13 * max v.total v.min / 10 < v.del.staked ∧
      solStakerAt w ks = some s ∧ 13 * s.lamports / 10 < s.del.staked :=
  ⟨docs2, val1, sol1, valOf docs2 val1, solOf docs2 sol1, rDocs2, by decide +kernel, by decide +kernel, by decide +kernel,
    by decide +kernel⟩

/-- **C117.** "The config tracks the total amount of staked tokens", "the vault holds all the staked tokens": one stake account
can have more tokens staked than the total of its config says, and than the vault of its config holds. -/
theorem C117_totals_are_not_staked_tokens :
    ∃ w ck c t k d, Reachable Witness.env w ∧ configAt w ck = some c ∧ tokenAt w c.vault = some t ∧ belongs k ck ∧
      stakeAt w k = some d ∧ c.effTotal < d.staked ∧ t.amount < d.staked :=
  ⟨docs2, cfg, cfgOf docs2 cfg, tokOf docs2 vault, val1, (valOf docs2 val1).del, rDocs2, by decide +kernel, by decide +kernel,
    .inl ⟨_, rfl⟩, by decide +kernel, by decide +kernel, by decide +kernel⟩

/-- **C117.** "After a deactivation, a number of seconds must pass before the stake is able to be withdrawn", "permissionless,
anybody can finish deactivating someone's tokens": an unstake is signed by the authority of the stake, and the tokens are in
the destination account when it is over. -/
theorem C117_unstake_pays_at_once (R : Reachable env w) (O : o.Ok) (C : RewardsContract o) (h : exec env o w ix = .ok w')
    {n : Nat} (hi : ix.decoded = some (.unstakeTokens n)) {pt sk dst : Key} (hpt : ix.acct 2 = some pt)
    (hsk : ix.acct 3 = some sk) (hdst : ix.acct 9 = some dst) (hne : dst ≠ pt) :
    ∃ d d' t, stakeAt w sk = some d ∧ stakeAt w' sk = some d' ∧ ix.ctx.signer d.authority = true ∧ d'.staked + n = d.staked ∧
      tokenAt w dst = some t ∧ tokenAt w' dst = some { t with amount := t.amount + n } := by
  have I := reachable_inv R
  obtain ⟨a, rest, c, d, hr, rs, rh, w1, w2, w3, D', c1, d1, d2, call, ts, td, hl, S, I1, I2, I3, e3, e4⟩ :=
    exec_unstake_steps I O h hi
  have h1 : a.holderRewardsPoolTokenAccount = pt := by simpa [Ix.acct, hl, UnstakeTokensAccts.list] using hpt
  have h2 : a.stake = sk := by simpa [Ix.acct, hl, UnstakeTokensAccts.list] using hsk
  have h3 : a.destinationTokenAccount = dst := by simpa [Ix.acct, hl, UnstakeTokensAccts.list] using hdst
  subst h1 h2 h3
  have T := S.transfer
  obtain ⟨_, _, _, _, _, _, _, _, _, keep⟩ := C.withdraw S.withdraw
  have e : tokenAt w2 a.destinationTokenAccount = some td := by
    rw [← keep _ (by rw [S.call_token]; exact fun e => S.dest e.symm) (by rw [S.call_pool]; exact hne)]
    exact tokenAt_data.2 T.dst
  have n1 : a.destinationTokenAccount ≠ a.config := by
    intro k; rw [k] at e; have := tokenAt_data.1 e; rw [S.adj.config'] at this; cases this
  have n2 : a.destinationTokenAccount ≠ a.stake := by
    intro k; rw [k] at e; have h1 := tokenAt_data.1 e; rw [S.adj.stake'] at h1
    have h2 := S.adj.del'; rw [h1] at h2; cases h2
  obtain ⟨c', d0, d', U⟩ := unstakeTokens_one I O (ran_unstakeTokens h hi |> fun ⟨b, r, hb, hr⟩ => by
    have : b = a := by
      rw [hb] at hl
      cases a; cases b
      simp only [UnstakeTokensAccts.list, List.cons_append, List.nil_append, List.cons.injEq] at hl
      simp [hl]
    exact this ▸ hr)
  refine ⟨d0, d', td, U.one.before, U.one.after, U.signed, by have := U.staked; have := U.le; omega, ?_, ?_⟩
  · unfold tokenAt at e ⊢
    rw [← S.harv.data' _ n1 n2, ← S.adj.data' _ n1 n2]; exact e
  · rw [(T.other S.dest).2]
    exact tokenAt_data.2 (by rw [World.setD_data, if_pos rfl])

example : ∃ d d' t, stakeAt w12 sol1 = some d ∧ stakeAt w13 sol1 = some d' ∧ ixUnstake.ctx.signer d.authority = true ∧
    d'.staked + 150 = d.staked ∧ tokenAt w12 dest = some t ∧ tokenAt w13 dest = some { t with amount := t.amount + 150 } :=
  C117_unstake_pays_at_once r12 o2_ok oracle_contract (by unfold w13; exact ok_after ok12) (by decide +kernel) (pt := poolToken)
    (by decide +kernel) (by decide +kernel) (by decide +kernel) (by decide)

/-- **C117.** "When stake is added, the corresponding validator stake is updated", "reduces the total staked amount on the
correspondent validator stake": staking on and unstaking from a SOL staker's account leaves every validator's account as it
is. -/
theorem C117_validators_untouched (R : Reachable env w) (O : o.Ok) (h : exec env o w ix = .ok w') {n : Nat} {sk : Key}
    {s : SolStakerStake} (hi : ix.decoded = some (.solStakerStakeTokens n) ∨ ix.decoded = some (.unstakeTokens n))
    (hsk : ix.acct 3 = some sk) (hs : solStakerAt w sk = some s) {k : Key} {v : ValidatorStake}
    (hv : validatorAt w k = some v) : validatorAt w' k = some v := by
  have I := reachable_inv R
  have hk : k ≠ sk := by
    rintro rfl
    have h1 := (validatorAt_eq.1 hv).2; rw [(solStakerAt_eq.1 hs).2] at h1; cases h1
  rw [← st_validator] at hv ⊢
  rcases hi with hi | hi
  · obtain ⟨a, rest, c, d, hr, rs, rh, w1, w2, w3, D', c1, d1, d2, ts, td, hl, S, I1, I2, I3, e3, e4⟩ :=
      exec_stake_steps I O h (.inr hi)
    have h2 : a.stake = sk := by simpa [Ix.acct, hl, StakeTokensAccts.list] using hsk
    subst h2
    have hc : k ≠ a.config := by
      rintro rfl
      have h1 := (validatorAt_eq.1 (st_validator.1 hv)).2; rw [S.harv.config] at h1; cases h1
    rw [ext_st I3 e4, ext_st I2 e3, ← hv]
    exact st_congr (by rw [S.adj.owner, S.harv.owner]) (by rw [S.adj.data' _ hc hk, S.harv.data' _ hc hk])
  · obtain ⟨a, rest, c, d, hr, rs, rh, w1, w2, w3, D', c1, d1, d2, call, ts, td, hl, S, I1, I2, I3, e3, e4⟩ :=
      exec_unstake_steps I O h hi
    have h2 : a.stake = sk := by simpa [Ix.acct, hl, UnstakeTokensAccts.list] using hsk
    subst h2
    have hc : k ≠ a.config := by
      rintro rfl
      have h1 := (validatorAt_eq.1 (st_validator.1 hv)).2; rw [S.harv.config] at h1; cases h1
    rw [ext_st I3 e4, ext_st I2 e3, ← hv]
    exact st_congr (by rw [S.adj.owner, S.harv.owner]) (by rw [S.adj.data' _ hc hk, S.harv.data' _ hc hk])

example : validatorAt w7 val1 = some (valOf w6 val1) :=
  C117_validators_untouched r6 o1_ok (by unfold w7; exact ok_after ok6) (n := 500) (.inl (by decide +kernel))
    (sk := sol1) (s := solOf w6 sol1) (by decide +kernel) (by decide +kernel) (by decide +kernel)

/-- **C117.** "Sets new authority on a config or stake account": only on a config. -/
theorem C117_set_authority_on_configs_only (h : exec env o w ix = .ok w') {t : AuthorityType}
    (hi : ix.decoded = some (.setAuthority t)) : ∃ k c, ix.acct 0 = some k ∧ configAt w k = some c ∧ stakeAt w k = none := by
  obtain ⟨a, rest, hl, hr⟩ := ran_setAuthority h hi
  obtain ⟨c, c', _, hO, hc, rfl, ht⟩ := setAuthority_ok hr
  have e := configAt_eq.2 ⟨hO, hc⟩
  exact ⟨a.account, c, by simp [Ix.acct, hl, SetAuthorityAccts.list], e, not_stake_of_config e⟩

example : ∃ k c, ixSetAuthority.acct 0 = some k ∧ configAt w19 k = some c ∧ stakeAt w19 k = none :=
  C117_set_authority_on_configs_only (ok_after ok19) (t := .config) (by decide +kernel)

end Verif.Props
