import Verif.Lemmas.Reward
import Verif.Props.Arith
import Verif.WitnessHistory
/-!
# Payment of rewards

C19, C20, C21, C36, C37, C38.

`accrued env w ck k` (in `Verif.Contract`) is the reward of the stake account `k` of config `ck` in state `w`:
`floor(dS*effective/10^18) + floor(dH*staked/10^18)`, where `dS` and `dH` are the growth modulo 2^128 of the two
accumulators since the account's markers were set.
-/

namespace Verif.Props

open Verif Verif.Witness

variable {env : Env} {o : Oracle} {w w' : World} {ix : Ix}

/-! ## C19 -/

/-- **C19.** HarvestValidatorRewards takes the accrued reward of the account from the config, gives it to the account's
authority, touches no other balance, and moves the account's markers to the current accumulators. -/
theorem C19_validator_harvest (R : Reachable env w) (h : exec env o w ix = .ok w')
    (hi : ix.decoded = some .harvestValidatorRewards) {ck sk : Key} (hck : ix.acct 0 = some ck) (hsk : ix.acct 2 = some sk) :
    ∃ c v, configAt w ck = some c ∧ validatorAt w sk = some v ∧ belongs sk ck ∧
      (∀ k, (w' k).lamports + (if k = ck then accrued env w ck sk else 0) =
        (w k).lamports + (if k = v.del.authority then accrued env w ck sk else 0)) ∧
      validatorAt w' sk = some { v with del :=
        { v.del with lastStake := currentAcc c (w ck).lamports, lastHolder := holderAcc env ck w } } ∧
      configAt w' ck = some { c with acc := currentAcc c (w ck).lamports, lamportsLast := (w' ck).lamports } := by
  have I := reachable_inv R
  obtain ⟨a, rest, hl, hr⟩ := ran_harvestValidatorRewards h hi
  have hc : a.config = ck := by simpa [Ix.acct, hl, HarvestValidatorRewardsAccts.list] using hck
  have hs : a.validatorStake = sk := by simpa [Ix.acct, hl, HarvestValidatorRewardsAccts.list] using hsk
  subst hc hs
  obtain ⟨c, s, hr, rs, rh, hcO, hsO, hsd, hk, H⟩ := harvestValidatorRewards_ok hr
  have hb : belongs a.validatorStake a.config := by rw [hk]; simp [belongs]
  have hp := H.paid hcO hsO hb
  have hsum := (exec_ok h).2.2
  have hin : ∀ k ∈ a.list, k ∈ ix.ctx.accts := fun k hk => by rw [hl]; exact List.mem_append_left _ hk
  rw [H.sum (hin _ (by simp [HarvestValidatorRewardsAccts.list])) (hin _ (by simp [HarvestValidatorRewardsAccts.list]))
    (by simp) (by simp)] at hsum
  have hz : a.validatorStakeAuthority = a.config → rs + rh = 0 := fun e => by rw [if_pos e] at hsum; omega
  have hmoves : ∀ k, (w' k).lamports + (if k = a.config then accrued env w a.config a.validatorStake else 0) =
      (w k).lamports + (if k = s.del.authority then accrued env w a.config a.validatorStake else 0) := by
    intro k
    by_cases ha : s.del.authority = a.config
    · have h0 := hz (H.auth_eq.trans ha)
      rw [← hp, h0]; simp only [ite_self, Nat.add_zero]; exact H.moves_zero h0 k
    · have := H.moves (by simp) ha k
      rw [hp] at this; simpa [keeperReward] using this
  have hv' := validatorAt_eq.2 ⟨by rw [H.owner]; exact hsO, (H.validator' hsd).2⟩
  refine ⟨c, s, configAt_eq.2 ⟨hcO, H.config⟩, validatorAt_eq.2 ⟨hsO, hsd⟩, hb, hmoves, ?_, ?_⟩
  · rw [hv', H.record]; rfl
  · rw [H.configAt' hcO]
    obtain ⟨c', h1, h2, h3⟩ := H.settled (by simp) hz
    have h4 := H.config_data
    rw [h1] at h4; cases h4
    rw [← h3]; rfl

/-- The witness history: 12000 lamports go from the config to the validator's authority. -/
example : Reachable Witness.env w9 ∧ exec Witness.env o1 w9 ixHarvestVal1 = .ok w10 ∧
    ixHarvestVal1.decoded = some .harvestValidatorRewards ∧ accrued Witness.env w9 cfg val1 = 12000 ∧
    (w10 cfg).lamports + 12000 = (w9 cfg).lamports ∧ (w10 auth1).lamports = (w9 auth1).lamports + 12000 :=
  ⟨r9, by unfold w10; exact ok_after ok9, by decide +kernel⟩

/-- **C19, C21.** HarvestSolStakerRewards. The staker's accrued reward leaves the config and goes to the staker's authority,
less the keeper's share. The keeper's share is zero when the record agrees with the live native stake `v`. When it does not,
the validators the stake left and joined are settled in the same way: each one's accrued reward goes from the config to
its authority. No other balance changes. The hypothesis `hself` says that the config is not itself named as a recipient (one of
the three authorities or the keeper). -/
theorem C19_sol_staker_harvest (R : Reachable env w) (h : exec env o w ix = .ok w')
    (hi : ix.decoded = some .harvestSolStakerRewards) {ck sk : Key} (hck : ix.acct 1 = some ck) (hsk : ix.acct 3 = some sk)
    (hself : ∀ n ∈ [4, 7, 9, 11], ix.acct n ≠ some ck) :
    ∃ c s v share toPrev toCur, configAt w ck = some c ∧ solStakerAt w sk = some s ∧ sk = .solStakerPda s.solStake ck ∧
      o.view s.solStake = .ok v ∧
      share = (if v.effective ≠ s.lamports ∨ v.delegatedVote ≠ s.del.vote then
        min (accrued env w ck sk) c.syncRewards else 0) ∧
      toPrev = (if (v.effective ≠ s.lamports ∨ v.delegatedVote ≠ s.del.vote) ∧ s.del.vote ≠ .default then
        accrued env w ck (.validatorPda s.del.vote ck) else 0) ∧
      toCur = (if v.delegatedVote ≠ s.del.vote ∧ v.delegatedVote ≠ .default then
        accrued env w ck (.validatorPda v.delegatedVote ck) else 0) ∧
      (∀ k, (w' k).lamports + (if k = ck then accrued env w ck sk + toPrev + toCur else 0) =
        (w k).lamports + (if k = s.del.authority then accrued env w ck sk - share else 0) +
          (if ix.acct 11 = some k then share else 0) +
          (if authorityOf w (.validatorPda s.del.vote ck) = some k then toPrev else 0) +
          (if authorityOf w (.validatorPda v.delegatedVote ck) = some k then toCur else 0)) ∧
      (∃ c', configAt w' ck = some c' ∧ c'.acc = currentAcc c (w ck).lamports ∧ c'.lamportsLast = (w' ck).lamports) ∧
      (∃ s', solStakerAt w' sk = some s' ∧ s'.del.lastStake = currentAcc c (w ck).lamports ∧
        s'.del.lastHolder = holderAcc env ck w) := by
  have I := reachable_inv R
  obtain ⟨a, keeper, rest, hl, hkr, hr⟩ := ran_harvestSolStakerRewards h hi
  have hc : a.config = ck := by simpa [Ix.acct, hl, HarvestSolStakerRewardsAccts.list] using hck
  have hs : a.solStakerStake = sk := by simpa [Ix.acct, hl, HarvestSolStakerRewardsAccts.list] using hsk
  have hk11 : ix.acct 11 = some keeper := by simp [Ix.acct, hl, HarvestSolStakerRewardsAccts.list]
  subst hc hs
  obtain ⟨s, v, c, hr, rs, rh, w1, B, H⟩ := harvestSolStakerRewards_ok I.wf hr
  have hkc : a.keeperRecipient ≠ some a.config := by
    have hkp := hself 11 (by simp)
    rw [hkr]; rw [hk11] at hkp; split
    · simp
    · exact hkp
  have h4 := hself 4 (by simp)
  have h7 := hself 7 (by simp)
  have h9 := hself 9 (by simp)
  simp only [Ix.acct, hl, HarvestSolStakerRewardsAccts.list] at h4 h7 h9
  obtain ⟨share, toPrev, toCur, P⟩ := solHarvest_payments I B H (by simpa using h4) (by simpa using h7) (by simpa using h9) hkc
  obtain ⟨s', h1, _, _, h3, h4, h5, _, _⟩ := solHarvest_record B H
  have hcfg : (w a.config).data = .config c := by
    cases H with
    | noSync _ _ H _ => exact H.config
    | sync _ _ H _ _ _ _ _ => exact H.config
  have hO' : (w' a.config).owner = progId := by
    cases H with
    | noSync _ _ H e => rw [e, H.owner]; exact B.cO
    | sync _ _ H L J _ _ A => rw [A.owner, J.owner, L.owner, H.owner]; exact B.cO
  have hneed : (v.effective ≠ s.lamports ∨ v.delegatedVote ≠ s.del.vote) → keeper ≠ progId := by
    intro hn
    cases H with
    | noSync e1 e2 _ _ => rcases hn with hn | hn <;> contradiction
    | sync _ hk _ _ _ _ _ _ =>
      rw [hkr] at hk; split at hk
      · simp at hk
      · assumption
  refine ⟨c, s, v, share, toPrev, toCur, configAt_eq.2 ⟨B.cO, hcfg⟩, solStakerAt_eq.2 ⟨B.sO, B.data⟩, B.sk, ?_, P.share_eq,
    P.prev_eq, P.cur_eq, ?_, ?_, ?_⟩
  · rw [← B.native]; exact B.view
  · intro k
    have := P.moves k
    have e : (if ix.acct 11 = some k then share else 0) = (if a.keeperRecipient = some k then share else 0) := by
      rw [P.share_eq, hk11, hkr]
      by_cases hn : v.effective ≠ s.lamports ∨ v.delegatedVote ≠ s.del.vote
      · rw [if_neg (hneed hn)]
      · rw [if_neg hn]; simp
    rw [e]; exact this
  · obtain ⟨c', e1, e2, e3⟩ := P.settled
    exact ⟨c', configAt_eq.2 ⟨hO', e1⟩, e2, e3⟩
  · exact ⟨s', h1, h3, h4.trans h5⟩

/-- The second staker harvest of the witness history, run before the validator's: the native stake has moved from the first
validator to the second. The staker gets 2990 lamports, the keeper 10, the first validator 12000. -/
def y10 : World := after o2 w9 ixHarvestSol1
theorem oky10 : exec Witness.env o2 w9 ixHarvestSol1 = .ok y10 := ok_after (by decide +kernel)


example : Reachable Witness.env w9 ∧ exec Witness.env o2 w9 ixHarvestSol1 = .ok y10 ∧
    ixHarvestSol1.decoded = some .harvestSolStakerRewards ∧ (∀ n ∈ [4, 7, 9, 11], ixHarvestSol1.acct n ≠ some cfg) ∧
    accrued Witness.env w9 cfg sol1 = 3000 ∧ accrued Witness.env w9 cfg val1 = 12000 ∧
    (y10 cfg).lamports + 15000 = (w9 cfg).lamports ∧ (y10 staker).lamports = (w9 staker).lamports + 2990 ∧
    (y10 keeper).lamports = (w9 keeper).lamports + 10 ∧ (y10 auth1).lamports = (w9 auth1).lamports + 12000 :=
  ⟨r9, oky10, by decide +kernel⟩

/-! ## C20 -/

/-- What is accrued depends on the config, the account, the config's lamports and the holder accumulator only. -/
theorem accrued_same {wa wb : World} {ck sk : Key} (h1 : configAt wb ck = configAt wa ck) (h2 : stakeAt wb sk = stakeAt wa sk)
    (h3 : (wb ck).lamports = (wa ck).lamports) (h4 : holderAcc env ck wb = holderAcc env ck wa) :
    accrued env wb ck sk = accrued env wa ck sk := by
  unfold accrued; rw [h1, h2, h3, h4]

/-- An account whose markers are current at a config that is up to date has nothing accrued. -/
theorem accrued_settled_zero {ck sk : Key} {c : Config} {d : Delegation} (W : w.WF) (hc : configAt w ck = some c)
    (hd : stakeAt w sk = some d) (h1 : c.lamportsLast = (w ck).lamports) (h2 : d.lastStake = c.acc)
    (h3 : d.lastHolder = holderAcc env ck w) : accrued env w ck sk = 0 := by
  obtain ⟨ho, hcd⟩ := configAt_eq.1 hc
  rw [accrued_settled ⟨c, hcd, rfl, h1⟩ W ho]
  unfold dueAt
  rw [hd, Option.map_some, Option.getD_some, due_marked _ _ h2 h3, ite_self]

/-- **C20.** After a successful HarvestValidatorRewards, a second one for the same account pays nothing to anyone, however
the accounts are chosen and whatever happened in between, as long as the config got no new lamports, the vault's holder
accumulator did not move, and the config and the account were not changed. -/
theorem C20_validator_repeat (R : Reachable env w) (O : o.Ok) {w1 w2 w3 : World} (h : exec env o w ix = .ok w1)
    (hi : ix.decoded = some .harvestValidatorRewards) {ck sk : Key} (hck : ix.acct 0 = some ck) (hsk : ix.acct 2 = some sk)
    (R2 : Reachable env w2) (hc2 : configAt w2 ck = configAt w1 ck) (hs2 : stakeAt w2 sk = stakeAt w1 sk)
    (hl2 : (w2 ck).lamports = (w1 ck).lamports) (hh2 : holderAcc env ck w2 = holderAcc env ck w1)
    {o2 : Oracle} {ix2 : Ix} (h' : exec env o2 w2 ix2 = .ok w3)
    (hi2 : ix2.decoded = some .harvestValidatorRewards) (hck2 : ix2.acct 0 = some ck) (hsk2 : ix2.acct 2 = some sk) :
    ∀ k, (w3 k).lamports = (w2 k).lamports := by
  obtain ⟨c, v, hc, hv, hb, hm, hv', hc'⟩ := C19_validator_harvest R h hi hck hsk
  obtain ⟨_, v2, _, _, _, hm2, _, _⟩ := C19_validator_harvest R2 h' hi2 hck2 hsk2
  have R1 : Reachable env w1 := .exec R O h
  have hq : holderAcc env ck w1 = holderAcc env ck w := by
    unfold holderAcc
    rw [exec_record_same (reachable_inv R) h (fun i e => by rw [hi] at e; cases e; simp [CallsRewards])]
  have hz : accrued env w1 ck sk = 0 :=
    accrued_settled_zero (reachable_inv R1).wf hc' (stakeAt_validator hv') rfl rfl (by rw [hq])
  rw [← accrued_same hc2 hs2 hl2 hh2] at hz
  intro k
  have := hm2 k
  rw [hz] at this
  simpa using this

/-- The harvest of the witness history, repeated. -/
example : exec Witness.env o1 w9 ixHarvestVal1 = .ok w10 ∧ accrued Witness.env w9 cfg val1 = 12000 ∧
    exec Witness.env o1 w10 ixHarvestVal1 = .ok (after o1 w10 ixHarvestVal1) :=
  ⟨by unfold w10; exact ok_after ok9, by decide +kernel, ok_after (by decide +kernel)⟩

/-- **C20.** After a successful HarvestSolStakerRewards, a second one for the same account with the same live native stake
pays nothing to anyone (no staker, keeper or validator), as long as the config got no new lamports, the vault's holder
accumulator did not move, and the config and its stake accounts were not changed. -/
theorem C20_sol_staker_repeat (R : Reachable env w) (O : o.Ok) {w1 w2 w3 : World} (h : exec env o w ix = .ok w1)
    (hi : ix.decoded = some .harvestSolStakerRewards) {ck sk : Key} (hck : ix.acct 1 = some ck) (hsk : ix.acct 3 = some sk)
    (hself : ∀ n ∈ [4, 7, 9, 11], ix.acct n ≠ some ck)
    (R2 : Reachable env w2) (hc2 : configAt w2 ck = configAt w1 ck) (hs2 : solStakerAt w2 sk = solStakerAt w1 sk)
    (hv2 : ∀ k, validatorAt w2 k = validatorAt w1 k)
    (hl2 : (w2 ck).lamports = (w1 ck).lamports) (hh2 : holderAcc env ck w2 = holderAcc env ck w1)
    {o2 : Oracle} {ix2 : Ix} (hview : ∀ k, o2.view k = o.view k) (h' : exec env o2 w2 ix2 = .ok w3)
    (hi2 : ix2.decoded = some .harvestSolStakerRewards) (hck2 : ix2.acct 1 = some ck) (hsk2 : ix2.acct 3 = some sk)
    (hself2 : ∀ n ∈ [4, 7, 9, 11], ix2.acct n ≠ some ck) :
    ∀ k, (w3 k).lamports = (w2 k).lamports := by
  have I := reachable_inv R
  have R1 : Reachable env w1 := .exec R O h
  obtain ⟨c, s, v, _, _, _, hc, hs, hsk', hv, _, _, _, _, ⟨c', hc', a1, a2⟩, ⟨s', hs', m1, m2⟩⟩ :=
    C19_sol_staker_harvest R h hi hck hsk hself
  obtain ⟨_, sb, vb, share, toPrev, toCur, _, hsb, _, hvb, e1, e2, e3, hm, _, _⟩ :=
    C19_sol_staker_harvest R2 h' hi2 hck2 hsk2 hself2
  -- what the first harvest recorded
  have hrec : s'.solStake = s.solStake ∧ ((s'.lamports = v.effective ∧ s'.del.vote = v.delegatedVote) ∨
      (s'.lamports = 0 ∧ s'.del.vote = .default ∧ validatorAt w1 (.validatorPda v.delegatedVote ck) = none)) := by
    obtain ⟨a, keeper, rest, hl, hkr, hr⟩ := ran_harvestSolStakerRewards h hi
    have hc0 : a.config = ck := by simpa [Ix.acct, hl, HarvestSolStakerRewardsAccts.list] using hck
    have hs0 : a.solStakerStake = sk := by simpa [Ix.acct, hl, HarvestSolStakerRewardsAccts.list] using hsk
    subst hc0 hs0
    obtain ⟨sx, vx, cx, hr, rs, rh, wx, B, H⟩ := harvestSolStakerRewards_ok I.wf hr
    obtain ⟨s1, q1, q2, _, _, _, _, _, q3⟩ := solHarvest_record B H
    have := solStakerAt_eq.2 ⟨B.sO, B.data⟩
    rw [hs] at this; cases this
    rw [hs'] at q1; cases q1
    have := B.view
    rw [B.native, hv] at this; cases this
    exact ⟨q2, q3⟩
  rw [hs2, hs'] at hsb
  cases hsb
  rw [hview, hrec.1, hv] at hvb
  cases hvb
  have hq : holderAcc env ck w1 = holderAcc env ck w := by
    unfold holderAcc
    rw [exec_record_same I h (fun i e => by rw [hi] at e; cases e; simp [CallsRewards])]
  have hz : accrued env w2 ck sk = 0 := by
    rw [accrued_same hc2 (by
      rw [stakeAt_solStaker hs', stakeAt_solStaker (hs2.trans hs')]) hl2 hh2]
    exact accrued_settled_zero (reachable_inv R1).wf hc' (stakeAt_solStaker hs') a2 (by rw [m1, a1]) (by rw [m2, hq])
  have z1 : share = 0 := by rw [e1, hz]; simp
  have z23 : toPrev = 0 ∧ toCur = 0 := by
    rcases hrec.2 with ⟨r1, r2⟩ | ⟨r1, r2, r3⟩
    · rw [e2, e3, r1, r2]; simp
    · refine ⟨by rw [e2, r2]; simp, ?_⟩
      rw [e3]
      split_ifs
      · refine accrued_none ?_
        have hn : solStakerAt w2 (.validatorPda v.delegatedVote ck) = none := by
          cases e : solStakerAt w2 (.validatorPda v.delegatedVote ck) with
          | none => rfl
          | some x =>
            obtain ⟨x1, x2⟩ := solStakerAt_eq.1 e
            obtain ⟨y, hy, _⟩ := (reachable_inv R2).shape _ x1
            rw [x2] at hy; cases hy
        unfold stakeAt
        rw [hv2, r3, hn]
      · rfl
  intro k
  have := hm k
  rw [hz, z1, z23.1, z23.2] at this
  simpa using this

/-- The harvest with a sync of the witness above, repeated. -/
example : exec Witness.env o2 w9 ixHarvestSol1 = .ok y10 ∧
    exec Witness.env o2 y10 ixHarvestSol1 = .ok (after o2 y10 ixHarvestSol1) :=
  ⟨oky10, ok_after (by decide +kernel)⟩

/-! ## C21 -/

/-- **C21.** In HarvestSolStakerRewards the keeper (account 11) is paid the smaller of the staker's accrued reward and the
config's sync reward if the record differs from the live native stake in its lamports or its vote account, and nothing
otherwise. So it never receives more than the staker had accrued, and the staker gets the rest. (The keeper's balance shows
this directly when the keeper is not at the same time the authority of one of the accounts that are settled.) -/
theorem C21_keeper_share (R : Reachable env w) (h : exec env o w ix = .ok w')
    (hi : ix.decoded = some .harvestSolStakerRewards) {ck sk kp : Key} (hck : ix.acct 1 = some ck) (hsk : ix.acct 3 = some sk)
    (hkp : ix.acct 11 = some kp) (hself : ∀ n ∈ [4, 7, 9, 11], ix.acct n ≠ some ck) :
    ∃ c s v, configAt w ck = some c ∧ solStakerAt w sk = some s ∧ o.view s.solStake = .ok v ∧
      ((∀ k ∈ [sk, .validatorPda s.del.vote ck, .validatorPda v.delegatedVote ck], authorityOf w k ≠ some kp) →
        (w' kp).lamports = (w kp).lamports +
          (if v.effective ≠ s.lamports ∨ v.delegatedVote ≠ s.del.vote then min (accrued env w ck sk) c.syncRewards else 0) ∧
        (w' kp).lamports ≤ (w kp).lamports + accrued env w ck sk) := by
  obtain ⟨c, s, v, share, toPrev, toCur, hc, hs, hsk', hv, e1, _, _, hm, _, _⟩ := C19_sol_staker_harvest R h hi hck hsk hself
  refine ⟨c, s, v, hc, hs, hv, fun hother => ?_⟩
  have h1 : kp ≠ s.del.authority := by
    rintro rfl
    exact hother sk (by simp) (by unfold authorityOf; rw [stakeAt_solStaker hs]; rfl)
  have h0 : kp ≠ ck := by rintro rfl; exact hself 11 (by simp) hkp
  have := hm kp
  rw [if_neg h0, if_neg h1, if_pos hkp, if_neg (hother _ (by simp)), if_neg (hother _ (by simp))] at this
  rw [← e1]
  have hle : share ≤ accrued env w ck sk := by
    rw [e1]; split_ifs
    · exact Nat.min_le_left _ _
    · exact Nat.zero_le _
  omega

/-- The witness: the sync pays the keeper, who is none of the authorities; the same harvest without a change pays it
nothing. -/
example : exec Witness.env o2 w9 ixHarvestSol1 = .ok y10 ∧ (∃ kp, ixHarvestSol1.acct 11 = some kp ∧
    (∀ k ∈ [sol1, val1, val2], authorityOf w9 k ≠ some kp) ∧ (w9 kp).lamports < (y10 kp).lamports) :=
  ⟨oky10, keeper, by decide +kernel⟩

/-! ## C36 -/

theorem growth_mod {a : Nat} (ha : a < 2 ^ 128) {r : Nat} (hr : r < 2 ^ 128) : growth a ((a + r) % 2 ^ 128) = r := by
  unfold growth; unfold U128; omega

/-- **C36.** Lamports `x` arrived on the config since it was settled, the account's markers are those of that settlement, and
the effective total is `E > 0`. Then what the account with effective stake `e` has accrued, `r`, satisfies `r <= e*x/E` and
`r > e*x/E - 1 - e/10^18`; for an effective stake of at most 10^18 (10^9 tokens with 9 decimals) the loss is below 2. -/
theorem C36_proportional_share (R : Reachable env w) {ck sk : Key} {c : Config} {d : Delegation} {x : Nat}
    (hc : configAt w ck = some c) (hd : stakeAt w sk = some d) (hb : belongs sk ck)
    (hm : d.lastStake = c.acc) (hh : d.lastHolder = holderAcc env ck w) (hx : (w ck).lamports = c.lamportsLast + x)
    (hE : 0 < c.effTotal) :
    accrued env w ck sk * c.effTotal ≤ d.effective * x ∧
      d.effective * x * 10 ^ 18 < c.effTotal * (accrued env w ck sk * 10 ^ 18 + 10 ^ 18 + d.effective) ∧
      (d.effective ≤ 10 ^ 18 → d.effective * x < c.effTotal * (accrued env w ck sk + 2)) := by
  have I := reachable_inv R
  have hl : (w ck).lamports < 2 ^ 64 := (I.wf.1 ck).1
  have hacc : c.acc < 2 ^ 128 := by
    have := (I.wf.1 ck).2
    rw [(configAt_eq.1 hc).2] at this
    exact this.2.2.2.2.1
  have hr : accrued env w ck sk = (x * 10 ^ 18 / c.effTotal) * d.effective / 10 ^ 18 := by
    have hg : x * 10 ^ 18 / c.effTotal < 2 ^ 128 := by
      refine Nat.lt_of_le_of_lt (Nat.div_le_self _ _) ?_
      omega
    have hcur : currentAcc c (w ck).lamports = (c.acc + x * 10 ^ 18 / c.effTotal) % 2 ^ 128 := by
      unfold currentAcc
      rw [hx, Nat.add_sub_cancel_left, show (1000000000000000000 : Nat) = 10 ^ 18 from rfl]
    unfold accrued
    rw [hc, hd]
    simp only [if_pos hb]
    rw [hcur, hm, hh, growth_mod hacc hg, growth_self, Nat.zero_mul, Nat.zero_div, Nat.add_zero,
      show (1000000000000000000 : Nat) = 10 ^ 18 from rfl]
  have hs := share_bounds x c.effTotal d.effective hE
  simp only at hs
  rw [← hr] at hs
  refine ⟨hs.1, hs.2, fun he => ?_⟩
  have h2 := hs.2
  have h3 : c.effTotal * (accrued env w ck sk * 10 ^ 18 + 10 ^ 18 + d.effective) ≤
      c.effTotal * (accrued env w ck sk + 2) * 10 ^ 18 := by
    calc c.effTotal * (accrued env w ck sk * 10 ^ 18 + 10 ^ 18 + d.effective)
        ≤ c.effTotal * (accrued env w ck sk * 10 ^ 18 + 10 ^ 18 + 10 ^ 18) := Nat.mul_le_mul_left _ (by omega)
      _ = c.effTotal * (accrued env w ck sk + 2) * 10 ^ 18 := by ring
  exact Nat.lt_of_mul_lt_mul_right (Nat.lt_of_lt_of_le h2 h3)

/-- Between two harvests of one account: `x` lamports arrive on the config, nothing else that matters changes, and the second
harvest pays its authority the proportional share. -/
theorem C36_between_two_harvests (R : Reachable env w) {w1 w2 w3 : World} (h : exec env o w ix = .ok w1)
    (hi : ix.decoded = some .harvestValidatorRewards) {ck sk : Key} (hck : ix.acct 0 = some ck) (hsk : ix.acct 2 = some sk)
    (R2 : Reachable env w2) (hc2 : configAt w2 ck = configAt w1 ck) (hs2 : stakeAt w2 sk = stakeAt w1 sk)
    {x : Nat} (hl2 : (w2 ck).lamports = (w1 ck).lamports + x) (hh2 : holderAcc env ck w2 = holderAcc env ck w1)
    {o2 : Oracle} {ix2 : Ix} (h' : exec env o2 w2 ix2 = .ok w3)
    (hi2 : ix2.decoded = some .harvestValidatorRewards) (hck2 : ix2.acct 0 = some ck) (hsk2 : ix2.acct 2 = some sk) :
    ∃ c v r, configAt w ck = some c ∧ validatorAt w sk = some v ∧
      (∀ k, (w3 k).lamports + (if k = ck then r else 0) = (w2 k).lamports + (if k = v.del.authority then r else 0)) ∧
      (0 < c.effTotal → r * c.effTotal ≤ v.del.effective * x ∧
        v.del.effective * x * 10 ^ 18 < c.effTotal * (r * 10 ^ 18 + 10 ^ 18 + v.del.effective)) := by
  have I := reachable_inv R
  obtain ⟨c, v, hc, hv, hb, hm, hv', hc'⟩ := C19_validator_harvest R h hi hck hsk
  obtain ⟨_, v2, _, hv2, _, hm2, _, _⟩ := C19_validator_harvest R2 h' hi2 hck2 hsk2
  have hq : holderAcc env ck w1 = holderAcc env ck w := by
    unfold holderAcc
    rw [exec_record_same I h (fun i e => by rw [hi] at e; cases e; simp [CallsRewards])]
  have hd1 := stakeAt_validator hv'
  have hd2 := stakeAt_validator hv2
  have hdd := hd2.symm.trans (hs2.trans hd1)
  have ha : v2.del.authority = v.del.authority := by
    have := congrArg (Option.map Delegation.authority) hdd
    simpa using this
  refine ⟨c, v, accrued env w2 ck sk, hc, hv, fun k => by rw [← ha]; exact hm2 k, fun hE => ?_⟩
  have := C36_proportional_share R2 (hc2.trans hc') (hs2.trans hd1) hb rfl (by rw [hh2, hq]) hl2 hE
  exact ⟨this.1, this.2.1⟩

/-- 10000 lamports arrive after the harvest of the witness history; the validator has 2000 of 2500 effective tokens and is
paid 8000 by the next harvest. -/
def y11 : World := credit w10 cfg 10000
theorem lty11 : decide ((w10 cfg).lamports + 10000 < U64) = true := by decide +kernel
theorem ry11 : Reachable Witness.env y11 := by
  unfold y11; exact .ext r10 (credit_ext (reachable_inv r10).wf (of_decide_eq_true lty11))

example : Reachable Witness.env w9 ∧ exec Witness.env o1 w9 ixHarvestVal1 = .ok w10 ∧ Reachable Witness.env y11 ∧
    (configAt y11 cfg = configAt w10 cfg ∧ stakeAt y11 val1 = stakeAt w10 val1 ∧
      (y11 cfg).lamports = (w10 cfg).lamports + 10000 ∧ holderAcc Witness.env cfg y11 = holderAcc Witness.env cfg w10 ∧
      (configAt y11 cfg).map (·.effTotal) = some 2500 ∧ (stakeAt y11 val1).map (·.effective) = some 2000 ∧
      accrued Witness.env y11 cfg val1 = 8000) ∧
    exec Witness.env o1 y11 ixHarvestVal1 = .ok (after o1 y11 ixHarvestVal1) :=
  ⟨r9, by unfold w10; exact ok_after ok9, ry11, by decide +kernel, ok_after (by decide +kernel)⟩

/-- With effective stakes above 10^18 the loss can exceed 2 lamports: the only staker of a config, with 18*10^18 effective
tokens, gets 18 of 35 lamports. -/
theorem C36_loss_above_two : ∃ E e x r : Nat, e ≤ E ∧ E < 2 ^ 64 ∧ r = (x * 10 ^ 18 / E) * e / 10 ^ 18 ∧
    E * (r + 2) < e * x :=
  ⟨18 * 10 ^ 18, 18 * 10 ^ 18, 35, 18, by decide⟩

/-- **C36.** Lamports that arrive while nobody has effective stake are credited to nobody: they change no account's accrued
reward, neither now nor after the config is settled (`currentAcc` is the accumulator that the settlement writes). -/
theorem C36_nobody {wa wb : World} (R : Reachable env wa) {ck : Key} {c : Config} (hc : configAt wa ck = some c)
    (hc2 : configAt wb ck = some c) (hE : c.effTotal = 0) (hh : holderAcc env ck wb = holderAcc env ck wa)
    {sk : Key} (hs : stakeAt wb sk = stakeAt wa sk) :
    accrued env wb ck sk = accrued env wa ck sk ∧ currentAcc c (wb ck).lamports = c.acc := by
  have hacc : c.acc < 2 ^ 128 := by
    have := ((reachable_inv R).wf.1 ck).2
    rw [(configAt_eq.1 hc).2] at this
    exact this.2.2.2.2.1
  have hcur : ∀ l, currentAcc c l = c.acc := fun l => by
    unfold currentAcc; rw [hE, Nat.div_zero, Nat.add_zero, Nat.mod_eq_of_lt hacc]
  refine ⟨?_, hcur _⟩
  unfold accrued
  rw [hc, hc2, hs, hh]
  cases stakeAt wa sk with
  | none => rfl
  | some d => simp only; rw [hcur, hcur]

/-- In the witness history nobody has effective stake before the first stake instruction. -/
example : Reachable Witness.env w5 ∧ (configAt w5 cfg).map (·.effTotal) = some 0 ∧ (stakeAt w5 val1).isSome = true ∧
    configAt (credit w5 cfg 777) cfg = configAt w5 cfg :=
  ⟨r5, by decide +kernel⟩

/-! ## C37 -/

/-- **C37.** A successful stake instruction first pays the account exactly what it had accrued, and leaves its markers at
the current accumulators. So, unless the call to the rewards program put further lamports on the config, its accrued stake reward
is zero right afterwards, however much it now has at stake. -/
theorem C37_stake_settles (R : Reachable env w) (O : o.Ok) {n : Nat} (h : exec env o w ix = .ok w')
    (hi : ix.decoded = some (.validatorStakeTokens n) ∨ ix.decoded = some (.solStakerStakeTokens n))
    {ck sk : Key} (hck : ix.acct 0 = some ck) (hsk : ix.acct 3 = some sk) :
    ∃ c c' d d', configAt w ck = some c ∧ stakeAt w sk = some d ∧ configAt w' ck = some c' ∧ stakeAt w' sk = some d' ∧
      d'.staked = d.staked + n ∧
      c'.acc = currentAcc c (w ck).lamports ∧ d'.lastStake = c'.acc ∧ d'.lastHolder = holderAcc env ck w ∧
      c'.lamportsLast + accrued env w ck sk = (w ck).lamports ∧
      ((w' ck).lamports + accrued env w ck sk = (w ck).lamports →
        growth d'.lastStake (currentAcc c' (w' ck).lamports) = 0) := by
  have I := reachable_inv R
  obtain ⟨a, rest, c, d, hr, rs, rh, w1, w2, w3, D', c1, d1, d2, ts, td, hl, S, I1, I2, I3, E3, E4⟩ := exec_stake_steps I O h hi
  have hc0 : a.config = ck := by simpa [Ix.acct, hl, StakeTokensAccts.list] using hck
  have hs0 : a.stake = sk := by simpa [Ix.acct, hl, StakeTokensAccts.list] using hsk
  subst hc0 hs0
  have hp := S.harv.paid S.cO S.sO S.bel
  have hc1 := S.harv.config'
  rw [S.adj.config] at hc1
  cases hc1
  have o1 : (w1 a.config).owner = progId := by rw [S.harv.owner]; exact S.cO
  have o1s : (w1 a.stake).owner = progId := by rw [S.harv.owner]; exact S.sO
  have hc2 := configAt_eq.2 ⟨by rw [S.adj.owner]; exact o1, S.adj.config'⟩
  have hd2 := stakeAt_eq.2 ⟨by rw [S.adj.owner]; exact o1s, show (w2 a.stake).data.del? = some d2 by
    rw [S.adj.stake']; exact S.adj.del'⟩
  have hc' := (ext_config I3 E4 (ext_config I2 E3 hc2).1).1
  have hd' : stakeAt w' a.stake = some d2 := by rw [ext_stakeAt I3 E4, ext_stakeAt I2 E3, hd2]
  have hm : d2.lastStake = accNow c (w a.config).lamports := by rw [S.rest, S.d1_eq]; rfl
  have hle := S.harv.rent
  have hacc : accNow c (w a.config).lamports < 2 ^ 128 := accNow_lt _ _
  refine ⟨c, _, d, d2, configAt_eq.2 ⟨S.cO, S.harv.config⟩, stakeAt_eq.2 ⟨S.sO, S.harv.del⟩, hc', hd', S.staked, rfl, hm,
    ?_, ?_, ?_⟩
  · rw [S.rest, S.d1_eq, S.harv.record]; rfl
  · rw [← hp]; simp only; omega
  · intro he
    rw [← hp] at he
    rw [hm]
    have : (w' a.config).lamports - ((w a.config).lamports - (rs + rh)) = 0 := by omega
    unfold currentAcc
    simp only
    rw [this, Nat.zero_mul, Nat.zero_div, Nat.add_zero, Nat.mod_eq_of_lt hacc, growth_self]

/-- More is staked while rewards are pending: the pending 12000 lamports are paid to the authority and nothing is accrued
afterwards. -/
example : Reachable Witness.env w9 ∧ accrued Witness.env w9 cfg val1 = 12000 ∧
    exec Witness.env o1 w9 ixStakeVal1 = .ok (after o1 w9 ixStakeVal1) ∧
    ((after o1 w9 ixStakeVal1) auth1).lamports = (w9 auth1).lamports + 12000 ∧
    ((after o1 w9 ixStakeVal1) cfg).lamports + accrued Witness.env w9 cfg val1 = (w9 cfg).lamports :=
  ⟨r9, by decide +kernel, ok_after (by decide +kernel), by decide +kernel, by decide +kernel⟩

/-- **C37.** An account with nothing staked has nothing accrued, whatever the accumulators and its markers are. -/
theorem C37_empty_accrues_nothing (R : Reachable env w) {ck sk : Key} {d : Delegation} (hd : stakeAt w sk = some d)
    (h0 : d.staked = 0) : accrued env w ck sk = 0 := by
  have I := reachable_inv R
  obtain ⟨ho, hdd⟩ := stakeAt_eq.1 hd
  have := I.stake sk ho
  have he : d.effective = 0 := by
    cases hx : (w sk).data with
    | validator v =>
      rw [hx] at this hdd; simp only [Data.del?, Option.some.injEq] at hdd; subst hdd
      have := this.1; omega
    | solStaker s =>
      rw [hx] at this hdd; simp only [Data.del?, Option.some.injEq] at hdd; subst hdd
      simp only [StakeOk] at this; omega
    | _ => rw [hx] at hdd; simp [Data.del?] at hdd
  unfold accrued
  rw [hd]
  cases configAt w ck with
  | none => rfl
  | some c =>
    simp only
    rw [h0, he, Nat.mul_zero, Nat.mul_zero, Nat.zero_div, Nat.add_zero, ite_self]

example : Reachable Witness.env w5 ∧ (stakeAt w5 val1).map (·.staked) = some 0 := ⟨r5, by decide +kernel⟩

/-! ## C38 -/

/-- **C38.** HarvestHolderRewards leaves on the vault authority exactly its rent-exempt minimum and moves everything above it
to the config (`wr` is the state right after the payout of the rewards program). The config's stake reward accumulator is
raised only for the lamports that were on the config before the instruction, and everything that came in is marked as
distributed. -/
theorem C38_holder_rewards_pass_through (R : Reachable env w) (O : o.Ok) (h : exec env o w ix = .ok w')
    (hi : ix.decoded = some .harvestHolderRewards) {ck : Key} (hck : ix.acct 0 = some ck) :
    ∃ c wb wr call, configAt w ck = some c ∧ (∀ k, (wb k).lamports = (w k).lamports) ∧
      o.harvestRewards wb call = .ok wr ∧ call.owner = env.vaultAuth ck ∧
      (w' (env.vaultAuth ck)).lamports = env.rentMin (wr (env.vaultAuth ck)).data.len ∧
      (w' ck).lamports + (w' (env.vaultAuth ck)).lamports = (wr ck).lamports + (wr (env.vaultAuth ck)).lamports ∧
      (∀ k, k ≠ ck → k ≠ env.vaultAuth ck → w' k = wr k) ∧
      configAt w' ck = some { c with acc := currentAcc c (w ck).lamports, lamportsLast := (w' ck).lamports } := by
  obtain ⟨c, w1, w2, call, hc, _, hw1, hcall, hown, _, _, _, hrent, hc', hl, hl', ho, _, _⟩ :=
    exec_holder_steps (reachable_inv R) O h hi hck
  refine ⟨c, w1, w2, call, hc, fun k => by rw [hw1]; simp, hcall, hown, hl', by omega, ho, hc'⟩

/-- **C38.** So the instruction itself credits no stake reward for the holder rewards: what each stake account has accrued
from the stake accumulator is the same before and after. -/
theorem C38_no_stake_reward (R : Reachable env w) (O : o.Ok) (h : exec env o w ix = .ok w')
    (hi : ix.decoded = some .harvestHolderRewards) {ck : Key} (hck : ix.acct 0 = some ck) :
    ∃ c c', configAt w ck = some c ∧ configAt w' ck = some c' ∧
      currentAcc c' (w' ck).lamports = currentAcc c (w ck).lamports ∧ ∀ k, stakeAt w' k = stakeAt w k := by
  have I := reachable_inv R
  obtain ⟨c, w1, w2, call, hc, _, hw1, hcall, hown, _, I1, E, hrent, hc', hl, hl', ho, hvd, hO⟩ := exec_holder_steps I O h hi hck
  refine ⟨c, _, hc, hc', ?_, fun k => ?_⟩
  · have hacc : accNow c (w ck).lamports < 2 ^ 128 := accNow_lt _ _
    unfold currentAcc
    simp only
    rw [Nat.sub_self, Nat.zero_mul, Nat.zero_div, Nat.add_zero, Nat.mod_eq_of_lt hacc]
    rfl
  · have h1 : stakeAt w1 k = stakeAt w k := by
      by_cases hk : k = ck
      · subst hk
        rw [not_stake_of_config hc]
        exact not_stake_of_config (configAt_eq.2 ⟨by rw [hw1]; simpa using (configAt_eq.1 hc).1, by rw [hw1, World.setD_data, if_pos rfl]⟩)
      · refine stakeAt_congr (st_congr (by rw [hw1]; simp) (by rw [hw1]; simp [World.setD_data, hk]))
    rw [← h1, ← ext_stakeAt I1 E]
    by_cases hk : k = ck
    · subst hk
      rw [not_stake_of_config hc', ext_stakeAt I1 E, h1, not_stake_of_config hc]
    · by_cases hk2 : k = env.vaultAuth ck
      · subst hk2
        exact stakeAt_congr (st_congr (hO _) hvd)
      · rw [stakeAt_congr (st_congr (by rw [ho k hk hk2]) (by rw [ho k hk hk2]))]

/-- The witness history: 10000 lamports were already on the config, 5000 of holder rewards are passed through. -/
example : Reachable Witness.env w8 ∧ o1.Ok ∧ exec Witness.env o1 w8 ixHarvestHolder = .ok w9 ∧
    ixHarvestHolder.decoded = some .harvestHolderRewards ∧ ixHarvestHolder.acct 0 = some cfg ∧
    (w9 cfg).lamports = (w8 cfg).lamports + 5000 ∧ (configAt w8 cfg).map (·.acc) ≠ (configAt w9 cfg).map (·.acc) :=
  ⟨r8, o1_ok, by unfold w9; exact ok_after ok8, by decide +kernel⟩

end Verif.Props
