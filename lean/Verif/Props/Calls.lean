import Verif.Lemmas.Solvency
import Verif.WitnessHistory
/-!
# What is asked of the rewards program

C51.
-/

namespace Verif.Props

open Verif Verif.Witness

variable {env : Env} {o : Oracle} {w w' : World} {ix : Ix}

/-- **C51.** A stake instruction with amount zero is rejected. -/
theorem C51_zero_stake_rejected (R : Reachable env w) (O : o.Ok)
    (hi : ix.decoded = some (.validatorStakeTokens 0) ∨ ix.decoded = some (.solStakerStakeTokens 0)) :
    exec env o w ix ≠ .ok w' := by
  intro h
  obtain ⟨a, rest, c, d, hr, rs, rh, w1, w2, w3, D', c1, d1, d2, ts, td, hl, S, _⟩ := exec_stake_steps (reachable_inv R) O h hi
  exact absurd S.pos (by simp)

/-- **C51.** A successful stake of `n` tokens ends with one Deposit call: owner is the vault authority of the config, the token
account is the config's vault, the record is the vault authority's, the amount is `n`, and by then the vault
holds the `n` tokens that the source account has paid. -/
theorem C51_deposit_call (R : Reachable env w) (O : o.Ok) (h : exec env o w ix = .ok w') {n : Nat}
    (hi : ix.decoded = some (.validatorStakeTokens n) ∨ ix.decoded = some (.solStakerStakeTokens n)) {ck : Key}
    (hck : ix.acct 0 = some ck) :
    ∃ c u call src t0 t1 s0 s1, configAt w ck = some c ∧ o.deposit u call = .ok w' ∧ call.owner = env.vaultAuth ck ∧
      call.token = c.vault ∧ call.holderRewards = vaultRecord env ck ∧ call.amount = n ∧
      ix.acct 1 = some call.pool ∧ ix.acct 2 = some call.poolToken ∧
      ix.acct 5 = some src ∧ tokenAt w c.vault = some t0 ∧ tokenAt u c.vault = some t1 ∧ t0.mint = call.mint ∧
      tokenAt w src = some s0 ∧ tokenAt u src = some s1 ∧ s0.mint = call.mint ∧
      (src ≠ c.vault → t1.amount = t0.amount + n ∧ s1.amount + n = s0.amount) := by
  have I := reachable_inv R
  obtain ⟨a, rest, c, d, hr, rs, rh, w1, w2, w3, D', c1, d1, d2, ts, td, hl, S, I1, I2, I3, e3, e4⟩ := exec_stake_steps I O h hi
  have h1 : a.config = ck := by simpa [Ix.acct, hl, StakeTokensAccts.list] using hck
  subst h1
  have tok : ∀ k t, (w2 k).data = .token t → (w k).data = .token t := by
    intro k t hk
    have k1 : k ≠ a.config := by rintro rfl; rw [S.adj.config'] at hk; cases hk
    have k2 : k ≠ a.stake := by
      rintro rfl
      have := S.adj.del'
      rw [← S.adj.stake', hk] at this; cases this
    rw [← hk, S.adj.data' k k1 k2, S.harv.data' k k1 k2]
  have T := S.transfer
  refine ⟨c, w3, a.call n, a.sourceTokenAccount, td,
    if a.sourceTokenAccount = a.vault then td else { td with amount := td.amount + n }, ts,
    if a.sourceTokenAccount = a.vault then ts else spend ts a.sourceTokenAccountAuthority n,
    configAt_eq.2 ⟨S.cO, S.harv.config⟩, S.deposit, S.vaultPda, S.vault, S.harv.hk_eq, rfl,
    by simp [Ix.acct, hl, StakeTokensAccts.list, StakeTokensAccts.call], by simp [Ix.acct, hl, StakeTokensAccts.list, StakeTokensAccts.call],
    by simp [Ix.acct, hl, StakeTokensAccts.list], ?_, ?_, T.mint_eq', ?_, ?_, T.mint_eq, ?_⟩
  · rw [← S.vault]; unfold tokenAt; rw [tok _ _ T.dst]
  · rw [← S.vault]
    by_cases e : a.sourceTokenAccount = a.vault
    · rw [if_pos e, T.self e]; unfold tokenAt; rw [T.dst]
    · rw [if_neg e, (T.other e).2]; unfold tokenAt; rw [World.setD_data, if_pos rfl]
  · unfold tokenAt; rw [tok _ _ T.src]
  · by_cases e : a.sourceTokenAccount = a.vault
    · rw [if_pos e, T.self e]; unfold tokenAt; rw [T.src]
    · rw [if_neg e, (T.other e).2]; unfold tokenAt
      rw [World.setD_data, if_neg e, World.setD_data, if_pos rfl]
  · intro e
    rw [← S.vault] at e
    rw [if_neg e, if_neg e]
    refine ⟨rfl, ?_⟩
    have := T.le
    have hs : ∀ x, (spend ts x n).amount = ts.amount - n := by intro x; unfold spend; split_ifs <;> rfl
    rw [hs]
    omega

example : Reachable Witness.env w5 ∧ exec Witness.env o1 w5 ixStakeVal1 = .ok w6 ∧
    ixStakeVal1.decoded = some (.validatorStakeTokens 2000) ∧ (configAt w5 cfg).map (·.vault) = some vault ∧ source ≠ vault :=
  ⟨r5, by unfold w6; exact ok_after ok5, by decide +kernel⟩

/-- **C51.** A successful unstake of `n` tokens makes one Withdraw call, before the tokens go to the destination: owner is the
vault authority of the config, the token account is the config's vault, the record is the vault authority's, the
amount is `n`. -/
theorem C51_withdraw_call (R : Reachable env w) (O : o.Ok) (h : exec env o w ix = .ok w') {n : Nat}
    (hi : ix.decoded = some (.unstakeTokens n)) {ck : Key} (hck : ix.acct 0 = some ck) :
    ∃ c u u' call t0 t1, configAt w ck = some c ∧ o.withdraw u call = .ok u' ∧ call.owner = env.vaultAuth ck ∧
      call.token = c.vault ∧ call.holderRewards = vaultRecord env ck ∧ call.amount = n ∧
      ix.acct 2 = some call.poolToken ∧
      tokenAt w c.vault = tokenAt u c.vault ∧ tokenAt u' c.vault = some t0 ∧ tokenAt w' c.vault = some t1 ∧
      t1.amount + n = t0.amount := by
  have I := reachable_inv R
  obtain ⟨a, rest, c, d, hr, rs, rh, w1, w2, w3, D', c1, d1, d2, call, ts, td, hl, S, I1, I2, I3, e3, e4⟩ :=
    exec_unstake_steps I O h hi
  have h1 : a.config = ck := by simpa [Ix.acct, hl, UnstakeTokensAccts.list] using hck
  subst h1
  have T := S.transfer
  refine ⟨c, w2, w3, call, ts, spend ts a.vaultPda n, configAt_eq.2 ⟨S.cO, S.harv.config⟩, S.withdraw,
    S.call_owner.trans S.vaultPda, S.call_token.trans S.vault, S.call_holder.trans S.harv.hk_eq, S.call_amount,
    by simp [Ix.acct, hl, UnstakeTokensAccts.list, S.call_pool], ?_, ?_, ?_, ?_⟩
  · by_cases k1 : c.vault = a.config
    · unfold tokenAt; rw [k1, S.adj.config', S.harv.config]
    · by_cases k2 : c.vault = a.stake
      · have h1 := S.harv.del
        have h2 := S.adj.del'
        unfold tokenAt; rw [k2, S.adj.stake']
        cases hx : (w a.stake).data <;> cases D' <;> rw [hx] at h1 <;> simp [Data.del?] at h1 h2 ⊢
      · unfold tokenAt; rw [S.adj.data' _ k1 k2, S.harv.data' _ k1 k2]
  · rw [← S.vault]; unfold tokenAt; rw [T.src]
  · rw [← S.vault, (T.other S.dest).2]; unfold tokenAt
    rw [World.setD_data, if_neg S.dest, World.setD_data, if_pos rfl]
  · have := T.le
    have hs : ∀ x, (spend ts x n).amount = ts.amount - n := by intro x; unfold spend; split_ifs <;> rfl
    rw [hs]
    omega

example : Reachable Witness.env w12 ∧ exec Witness.env o2 w12 ixUnstake = .ok w13 ∧
    ixUnstake.decoded = some (.unstakeTokens 150) :=
  ⟨r12, by unfold w13; exact ok_after ok12, by decide +kernel⟩

end Verif.Props
