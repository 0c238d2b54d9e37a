import Verif.Lemmas.Reward
import Verif.WitnessHistory
/-!
# An account is paid what it has accrued before its stake changes

C50. The harvest instructions are in `Props/Rewards.lean` (C19).
-/

namespace Verif.Props

open Verif Verif.Witness

variable {env : Env} {o : Oracle} {w w' : World} {ix : Ix}

/-- **C50, stake.** Before the new tokens count, the account's accrued reward goes from the config to the account's
authority and its markers move to the accumulators of the state before. Other balances stay; the rewards program is called
afterwards, so this is said of the addresses whose lamports its Deposit leaves alone. -/
theorem C50_stake (R : Reachable env w) (O : o.Ok) (h : exec env o w ix = .ok w') {n : Nat}
    (hi : ix.decoded = some (.validatorStakeTokens n) ∨ ix.decoded = some (.solStakerStakeTokens n)) {ck sk : Key}
    (hck : ix.acct 0 = some ck) (hsk : ix.acct 3 = some sk) (hself : authorityOf w sk ≠ some ck) :
    ∃ c d d', configAt w ck = some c ∧ stakeAt w sk = some d ∧ stakeAt w' sk = some d' ∧ belongs sk ck ∧
      d'.staked = d.staked + n ∧
      d'.lastStake = currentAcc c (w ck).lamports ∧ d'.lastHolder = holderAcc env ck w ∧
      ∀ k, (∀ u call u', o.deposit u call = .ok u' → (u' k).lamports = (u k).lamports) →
        (w' k).lamports + (if k = ck then accrued env w ck sk else 0) =
          (w k).lamports + (if k = d.authority then accrued env w ck sk else 0) := by
  have I := reachable_inv R
  obtain ⟨a, rest, c, d, hr, rs, rh, w1, w2, w3, D', c1, d1, d2, ts, td, hl, S, I1, I2, I3, e3, e4⟩ := exec_stake_steps I O h hi
  have h1 : a.config = ck := by simpa [Ix.acct, hl, StakeTokensAccts.list] using hck
  have h2 : a.stake = sk := by simpa [Ix.acct, hl, StakeTokensAccts.list] using hsk
  subst h1 h2
  have hd : stakeAt w a.stake = some d := stakeAt_eq.2 ⟨S.sO, S.harv.del⟩
  have hd' : stakeAt w' a.stake = some d2 := by
    rw [ext_stakeAt I3 e4, ext_stakeAt I2 e3]
    exact stakeAt_eq.2 ⟨by rw [S.adj.owner, S.harv.owner]; exact S.sO, by rw [S.adj.stake']; exact S.adj.del'⟩
  have hau : d.authority ≠ a.config := by
    intro e; apply hself; unfold authorityOf; rw [hd, ← e]; rfl
  refine ⟨c, d, d2, configAt_eq.2 ⟨S.cO, S.harv.config⟩, hd, hd', S.bel, S.staked, ?_, ?_, ?_⟩
  · rw [S.rest, S.d1_eq]; rfl
  · rw [S.rest, S.d1_eq, S.harv.record]; rfl
  · intro k hk
    rw [hk _ _ _ S.deposit, S.transfer.lamports, S.adj.lamports]
    have := S.harv.moves (by simp) hau k
    rw [S.harv.paid S.cO S.sO S.bel] at this
    simpa [keeperReward] using this

/-- Staking 2000 more tokens for the first validator, which has accrued 12000 lamports. -/
example : Reachable Witness.env w9 ∧ exec Witness.env o1 w9 ixStakeVal1 = .ok (after o1 w9 ixStakeVal1) ∧
    authorityOf w9 val1 = some auth1 ∧ accrued Witness.env w9 cfg val1 = 12000 ∧
    ((after o1 w9 ixStakeVal1) auth1).lamports = (w9 auth1).lamports + 12000 :=
  ⟨r9, ok_after (by decide +kernel), by decide +kernel⟩

/-- **C50, unstake.** The same for UnstakeTokens, said of the addresses whose lamports the rewards program's Withdraw leaves
alone. -/
theorem C50_unstake (R : Reachable env w) (O : o.Ok) (h : exec env o w ix = .ok w') {n : Nat}
    (hi : ix.decoded = some (.unstakeTokens n)) {ck sk : Key}
    (hck : ix.acct 0 = some ck) (hsk : ix.acct 3 = some sk) (hself : authorityOf w sk ≠ some ck) :
    ∃ c d d', configAt w ck = some c ∧ stakeAt w sk = some d ∧ stakeAt w' sk = some d' ∧ belongs sk ck ∧
      d.staked = d'.staked + n ∧
      d'.lastStake = currentAcc c (w ck).lamports ∧ d'.lastHolder = holderAcc env ck w ∧
      ∀ k, (∀ u call u', o.withdraw u call = .ok u' → (u' k).lamports = (u k).lamports) →
        (w' k).lamports + (if k = ck then accrued env w ck sk else 0) =
          (w k).lamports + (if k = d.authority then accrued env w ck sk else 0) := by
  have I := reachable_inv R
  obtain ⟨a, rest, c, d, hr, rs, rh, w1, w2, w3, D', c1, d1, d2, call, ts, td, hl, S, I1, I2, I3, e3, e4⟩ :=
    exec_unstake_steps I O h hi
  have h1 : a.config = ck := by simpa [Ix.acct, hl, UnstakeTokensAccts.list] using hck
  have h2 : a.stake = sk := by simpa [Ix.acct, hl, UnstakeTokensAccts.list] using hsk
  subst h1 h2
  have hd : stakeAt w a.stake = some d := stakeAt_eq.2 ⟨S.sO, S.harv.del⟩
  have hd' : stakeAt w' a.stake = some d2 := by
    rw [ext_stakeAt I3 e4, ext_stakeAt I2 e3]
    exact stakeAt_eq.2 ⟨by rw [S.adj.owner, S.harv.owner]; exact S.sO, by rw [S.adj.stake']; exact S.adj.del'⟩
  have hau : d.authority ≠ a.config := by
    intro e; apply hself; unfold authorityOf; rw [hd, ← e]; rfl
  refine ⟨c, d, d2, configAt_eq.2 ⟨S.cO, S.harv.config⟩, hd, hd', S.bel, ?_, ?_, ?_, ?_⟩
  · have := S.le; have := S.staked; omega
  · rw [S.rest, S.d1_eq]; rfl
  · rw [S.rest, S.d1_eq, S.harv.record]; rfl
  · intro k hk
    rw [S.transfer.lamports, hk _ _ _ S.withdraw, S.adj.lamports]
    have := S.harv.moves (by simp) hau k
    rw [S.harv.paid S.cO S.sO S.bel] at this
    simpa [keeperReward] using this

/-- Unstaking in a state where the staker has accrued 3000 lamports. -/
example : Reachable Witness.env w10 ∧ exec Witness.env o2 w10 ixUnstake = .ok (after o2 w10 ixUnstake) ∧
    authorityOf w10 sol1 = some staker ∧ accrued Witness.env w10 cfg sol1 = 3000 ∧
    ((after o2 w10 ixUnstake) staker).lamports = (w10 staker).lamports + 3000 :=
  ⟨r10, ok_after (by decide +kernel), by decide +kernel⟩

/-- **C50, slash.** The account keeps what it accrued before the slash: its authority is paid, no other balance changes. -/
theorem C50_slash (R : Reachable env w) (h : exec env o w ix = .ok w') {n : Nat}
    (hi : ix.decoded = some (.slashValidatorStake n) ∨ ix.decoded = some (.slashSolStakerStake n)) {ck sk : Key}
    (hck : ix.acct 0 = some ck) (hsk : ix.acct 1 = some sk) (hself : authorityOf w sk ≠ some ck) :
    ∃ c d d', configAt w ck = some c ∧ stakeAt w sk = some d ∧ stakeAt w' sk = some d' ∧ belongs sk ck ∧
      d'.staked = d.staked - n ∧
      d'.lastStake = currentAcc c (w ck).lamports ∧ d'.lastHolder = holderAcc env ck w ∧
      ∀ k, (w' k).lamports + (if k = ck then accrued env w ck sk else 0) =
          (w k).lamports + (if k = d.authority then accrued env w ck sk else 0) := by
  have I := reachable_inv R
  obtain ⟨a, c, d, hr, rs, rh, w1, w2, D', c1, d1, d2, h0, h1, S, I1, e, I2⟩ := exec_slash_steps I h hi
  have h1 : a.stake = sk := by rw [hsk] at h1; exact (Option.some.inj h1).symm
  have h0 : a.config = ck := by rw [hck] at h0; exact (Option.some.inj h0).symm
  subst h1 h0
  have hd : stakeAt w a.stake = some d := stakeAt_eq.2 ⟨S.sO, S.harv.del⟩
  have hl2 : ∀ k, (w2 k).lamports = (w1 k).lamports ∧ (w2 k).owner = (w1 k).owner := by
    intro k
    rcases S.burn with ⟨_, e⟩ | ⟨_, t, m, B⟩
    · rw [e]; exact ⟨rfl, rfl⟩
    · rw [B.eq]; simp
  have hd' : stakeAt w' a.stake = some d2 :=
    stakeAt_eq.2 ⟨by rw [S.adj.owner, (hl2 _).2, S.harv.owner]; exact S.sO, by rw [S.adj.stake']; exact S.adj.del'⟩
  have hau : d.authority ≠ a.config := by
    intro e; apply hself; unfold authorityOf; rw [hd, ← e]; rfl
  have hva : a.vaultAuthority = env.vaultAuth a.config := by
    rw [S.vaultAuth, (I.config _ c (configAt_eq.2 ⟨S.cO, S.harv.config⟩)).bump]; rfl
  have H := S.harv
  rw [hva] at H
  refine ⟨c, d, d2, configAt_eq.2 ⟨S.cO, S.harv.config⟩, hd, hd', S.bel, ?_, ?_, ?_, ?_⟩
  · have := S.staked; omega
  · rw [S.rest, S.d1_eq]; rfl
  · rw [S.rest, S.d1_eq, H.record]; rfl
  · intro k
    rw [S.adj.lamports, (hl2 _).1]
    have := H.moves (by simp) hau k
    rw [H.paid S.cO S.sO S.bel] at this
    simpa [keeperReward] using this

/-- Slashing the validator of the witness history before anybody has harvested, with tokens on the vault. -/
def z9 : World := creditTokens w9 vault 1000
theorem rz9 : Reachable Witness.env z9 := .ext r9 (creditTokens_ext (reachable_inv r9).wf)
example : exec Witness.env o2 z9 ixSlashVal1 = .ok (after o2 z9 ixSlashVal1) ∧
    authorityOf z9 val1 = some auth1 ∧ accrued Witness.env z9 cfg val1 = 12000 ∧
    ((after o2 z9 ixSlashVal1) auth1).lamports = (z9 auth1).lamports + 12000 ∧
    (stakeAt (after o2 z9 ixSlashVal1) val1).map (·.staked) = some 1700 :=
  ⟨ok_after (by decide +kernel), by decide +kernel⟩

/-- **C50, move.** Both accounts are paid what they have accrued, to their common authority. -/
theorem C50_move (R : Reachable env w) (h : exec env o w ix = .ok w') {n : Nat}
    (hi : ix.decoded = some (.solStakerMoveTokens n)) {ck sk tk : Key}
    (hck : ix.acct 0 = some ck) (hsk : ix.acct 3 = some sk) (htk : ix.acct 4 = some tk) (hself : authorityOf w sk ≠ some ck) :
    ∃ c d e d' e', configAt w ck = some c ∧ stakeAt w sk = some d ∧ stakeAt w tk = some e ∧ stakeAt w' sk = some d' ∧
      stakeAt w' tk = some e' ∧ belongs sk ck ∧ belongs tk ck ∧
      d'.lastStake = currentAcc c (w ck).lamports ∧ d'.lastHolder = holderAcc env ck w ∧
      e'.lastStake = currentAcc c (w ck).lamports ∧ e'.lastHolder = holderAcc env ck w ∧
      ∀ k, (w' k).lamports + (if k = ck then accrued env w ck sk + accrued env w ck tk else 0) =
          (w k).lamports + (if k = d.authority then accrued env w ck sk + accrued env w ck tk else 0) := by
  have I := reachable_inv R
  obtain ⟨a, rest, hl, hr⟩ := ran_solStakerMoveTokens h hi
  have h0 : a.config = ck := by simpa [Ix.acct, hl, SolStakerMoveTokensAccts.list] using hck
  have h3 : a.sourceSolStakerStake = sk := by simpa [Ix.acct, hl, SolStakerMoveTokensAccts.list] using hsk
  have h4 : a.destinationSolStakerStake = tk := by simpa [Ix.acct, hl, SolStakerMoveTokensAccts.list] using htk
  subst h0 h3 h4
  obtain ⟨c, c', s, t, hr, rs, rh, rs', rh', w1, w2, wx, cs, ct, ds, dt, ds', dt', M⟩ := solStakerMoveTokens_ok hr
  have bs : belongs a.sourceSolStakerStake a.config := by rw [M.sk]; simp [belongs]
  have bt : belongs a.destinationSolStakerStake a.config := by rw [M.tk]; simp [belongs]
  have hc := configAt_eq.2 ⟨M.cO, M.harvS.config⟩
  have o1 : ∀ k, (w1 k).owner = (w k).owner := M.harvS.owner
  have o2 : ∀ k, (w2 k).owner = (w k).owner := fun k => (M.harvT.owner k).trans (o1 k)
  have o3 : ∀ k, (wx k).owner = (w k).owner := fun k => (M.adjS.owner k).trans (o2 k)
  have o4 : ∀ k, (w' k).owner = (w k).owner := fun k => (M.adjT.owner k).trans (o3 k)
  have hs := stakeAt_eq.2 ⟨M.sO, by rw [M.src]; rfl⟩
  have ht := stakeAt_eq.2 ⟨M.tO, by rw [M.dst]; rfl⟩
  have hau : s.del.authority ≠ a.config := by
    intro e; apply hself; unfold authorityOf; rw [hs, ← e]; rfl
  have hat : t.del.authority = s.del.authority := by rw [← M.harvT.auth_eq, M.harvS.auth_eq]
  have I1 := harvest_inv I M.harvS M.cO M.sO bs
  have S1 := M.harvS.settled (by simp) (fun e => absurd (M.harvS.auth_eq ▸ e) hau)
  have hacc : accNow c' (w1 a.config).lamports = accNow c (w a.config).lamports := (S1.accNow I1.wf M.harvT.config).1
  have hs' : stakeAt w' a.sourceSolStakerStake = some ds' := by
    refine stakeAt_eq.2 ⟨by rw [o4]; exact M.sO, ?_⟩
    rw [M.adjT.data' _ M.harvS.ne (Ne.symm M.ne), M.adjS.stake']; rfl
  have ht' : stakeAt w' a.destinationSolStakerStake = some dt' := by
    refine stakeAt_eq.2 ⟨by rw [o4]; exact M.tO, ?_⟩
    rw [M.adjT.stake']; rfl
  refine ⟨c, s.del, t.del, ds', dt', hc, hs, ht, hs', ht', bs, bt, ?_, ?_, ?_, ?_, ?_⟩
  · rw [M.ds'_eq, M.ds_eq]; rfl
  · rw [M.ds'_eq, M.ds_eq, M.harvS.record]; rfl
  · rw [M.dt'_eq, M.dt_eq, hacc]; rfl
  · rw [M.dt'_eq, M.dt_eq, M.harvS.record]; rfl
  · intro k
    have m1 := M.harvS.moves (by simp) hau k
    have m2 := M.harvT.moves (by simp) (by rw [hat]; exact hau) k
    rw [M.harvS.paid M.cO M.sO bs] at m1
    have e1 : rs' + rh' = accrued env w a.config a.destinationSolStakerStake := by
      rw [M.harvT.paid (by rw [o1]; exact M.cO) (by rw [o1]; exact M.tO) bt,
        accrued_settled S1 I1.wf (by rw [o1]; exact M.cO), accrued_dueAt hc]
      exact dueAt_congr (M.harvS.stakeAt_other M.harvT.ne M.ne) (M.harvS.holderAcc' _)
    rw [e1, hat] at m2
    rw [M.adjT.lamports, M.adjS.lamports]
    simp only [keeperReward, Nat.sub_zero, reduceCtorEq, if_false, Nat.add_zero] at m1 m2
    by_cases hk : k = a.config
    · subst hk; simp only [if_true, if_neg (Ne.symm hau)] at m1 m2 ⊢; omega
    · simp only [hk, if_false] at m1 m2 ⊢
      split_ifs at m1 m2 ⊢ <;> omega

/-- Moving tokens in a state where the source has accrued 3000 lamports. -/
example : Reachable Witness.env w10 ∧ exec Witness.env o2 w10 ixMove = .ok (after o2 w10 ixMove) ∧
    authorityOf w10 sol1 = some staker ∧ accrued Witness.env w10 cfg sol1 = 3000 ∧
    ((after o2 w10 ixMove) staker).lamports = (w10 staker).lamports + 3000 :=
  ⟨r10, ok_after (by decide +kernel), by decide +kernel⟩

/-- **C50, override.** The account is paid what it accrued with the effective stake it had before the override. -/
theorem C50_override (R : Reachable env w) (h : exec env o w ix = .ok w') {n : Nat}
    (hi : ix.decoded = some (.validatorOverrideStakedLamports n)) {ck sk : Key}
    (hck : ix.acct 0 = some ck) (hsk : ix.acct 2 = some sk) (hself : authorityOf w sk ≠ some ck) :
    ∃ c d d', configAt w ck = some c ∧ stakeAt w sk = some d ∧ stakeAt w' sk = some d' ∧ belongs sk ck ∧
      d'.lastStake = currentAcc c (w ck).lamports ∧ d'.lastHolder = holderAcc env ck w ∧
      ∀ k, (w' k).lamports + (if k = ck then accrued env w ck sk else 0) =
          (w k).lamports + (if k = d.authority then accrued env w ck sk else 0) := by
  obtain ⟨a, rest, hl, hr⟩ := ran_validatorOverrideStakedLamports h hi
  have h0 : a.config = ck := by simpa [Ix.acct, hl, ValidatorOverrideStakedLamportsAccts.list] using hck
  have h2 : a.validatorStake = sk := by simpa [Ix.acct, hl, ValidatorOverrideStakedLamportsAccts.list] using hsk
  subst h0 h2
  obtain ⟨c, s, hr, rs, rh, w1, c1, hcO, hsO, hs, hk, _, _, _, H, A⟩ := validatorOverrideStakedLamports_ok hr
  have hb : belongs a.validatorStake a.config := by rw [hk]; simp [belongs]
  have hd := stakeAt_eq.2 ⟨hsO, by rw [hs]; rfl⟩
  have hau : s.del.authority ≠ a.config := by
    intro e; apply hself; unfold authorityOf; rw [hd, ← e]; rfl
  have hd' := stakeAt_eq.2 ⟨by rw [A.owner, H.owner]; exact hsO, by rw [A.stake']; rfl⟩
  refine ⟨c, s.del, _, configAt_eq.2 ⟨hcO, H.config⟩, hd, hd', hb, rfl, ?_, ?_⟩
  · rw [← H.record]; rfl
  · intro k
    rw [A.lamports]
    have := H.moves (by simp) hau k
    rw [H.paid hcO hsO hb] at this
    simpa [keeperReward] using this

example : Reachable Witness.env w9 ∧ exec Witness.env o2 w9 ixOverride = .ok (after o2 w9 ixOverride) ∧
    authorityOf w9 val1 = some auth1 ∧ accrued Witness.env w9 cfg val1 = 12000 ∧
    ((after o2 w9 ixOverride) auth1).lamports = (w9 auth1).lamports + 12000 :=
  ⟨r9, ok_after (by decide +kernel), by decide +kernel⟩

end Verif.Props
