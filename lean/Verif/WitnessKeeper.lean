import Verif.WitnessHistory
/-!
# A history in which the sync keeper is the config account

The first validator hands the withdraw authority of its vote account to the config address and has the stake program copy
it. A sync then names the config as its own keeper. The keeper's payment is overwritten, the payment to the first
validator's authority lands on the config again, and the two errors cancel in the runtime's check of the lamport sum. What
remains is a config that takes the same lamports for fresh rewards while the staker is settled already and its effective
stake is about to grow.
-/

namespace Verif.Witness

open Verif

/-- No Deposit moves the vault's accumulator: the first of the two conditions of `Careful`. -/
def QuietDeposits (env : Env) (ck : Key) (w : World) (ix : Ix) (w' : World) : Prop :=
  (∃ n, ix.decoded = some (.validatorStakeTokens n) ∨ ix.decoded = some (.solStakerStakeTokens n)) →
    holderAcc env ck w' = holderAcc env ck w

/-- The withdraw authority of a vote account is changed by the vote program. -/
def setWithdrawer (w : World) (k a : Key) : World :=
  match (w k).data with
  | .vote _ => if (w k).owner = voteId ∧ k.ofProgram = false then w.set k { w k with data := .vote a } else w
  | _ => w

theorem setWithdrawer_ext {w : World} {k a : Key} (wf : w.WF) : ExtStep w (setWithdrawer w k a) := by
  have hr : ExtStep w w := extStep_of wf (fun _ => rfl) fun _ _ => ⟨rfl, le_rfl⟩
  unfold setWithdrawer
  split
  · rename_i b hb
    split_ifs with hc
    · have ho : ∀ k', (w.set k { w k with data := .vote a } k').owner = (w k').owner := by
        intro k'; simp only [World.set_apply]; split_ifs <;> simp_all
      refine extStep_of (wf_of wf ho fun k' => ?_) ho fun k' hk => ?_
      · simp only [World.set_apply]
        split_ifs with e
        · subst e; exact ⟨Or.inl rfl, Or.inr trivial⟩
        · exact ⟨Or.inl rfl, Or.inl rfl⟩
      · have : k' ≠ k := by
          rintro rfl
          rcases hk with hk | hk
          · rw [hc.1] at hk; exact absurd hk (by decide)
          · rw [hc.2] at hk; exact absurd hk (by decide)
        simp [World.set_apply, this]
    · exact hr
  · exact hr

theorem setWithdrawer_keeps {w : World} {k a : Key} : KeepsRecord env cfg w (setWithdrawer w k a) := by
  refine Or.inl ?_
  unfold setWithdrawer
  split
  · rename_i t ht
    split_ifs
    · unfold holderAt
      simp only [World.set_apply]
      split_ifs with h
      · subst h; simp [ht]
      · rfl
    · rfl
  · rfl

/-- The first native stake has moved to the second validator with 1000000 lamports. -/
def viewK (k : Key) : Res StakeView :=
  if k = native1 then .ok { delegatedVote := vote2, withdrawer := staker, effective := 1000000 }
  else .error .cpi

/-- The outside world at the sync. -/
def oK : Oracle := oracle 2000 viewK 5000

theorem oK_ok : oK.Ok := oracle_ok (by
  intro k v h; unfold viewK at h; split_ifs at h; obtain rfl := Except.ok.inj h; decide)

def ixKStakeVal1 : Ix :=
  ix (.validatorStakeTokens 1300)
    [cfg, pool, poolToken, val1, auth1, source, holderOwner, mint, vaultAuth, vault, holder, tokenId, rewardsId]
    [holderOwner]
def ixKStakeSol1 : Ix :=
  ix (.solStakerStakeTokens 990000)
    [cfg, pool, poolToken, sol1, staker, source, holderOwner, mint, vaultAuth, vault, holder, tokenId, rewardsId]
    [holderOwner]
def ixKUpdate : Ix := ix (.updateConfig (.syncRewardsLamports 20000)) [cfg, configAuth] [configAuth]
/-- The sync: previous authority and keeper are both the config. -/
def ixKHarvest : Ix :=
  ix .harvestSolStakerRewards [viewId, cfg, holder, sol1, staker, native1, val1, cfg, val2, auth2, .raw 9, cfg] []

def k6 : World := after o1 w5 ixKStakeVal1
def k7 : World := after o1 k6 ixKStakeSol1
def k8 : World := after o1 k7 ixKUpdate
def k9 : World := setWithdrawer k8 vote1 cfg
def k10 : World := after o1 k9 ixSync
/-- 20000 lamports of stake rewards arrive on the config. -/
def k11 : World := credit k10 cfg 20000
def k12 : World := after oK k11 ixKHarvest

theorem okk5 : okB o1 w5 ixKStakeVal1 = true := by decide +kernel
theorem okk6 : okB o1 k6 ixKStakeSol1 = true := by decide +kernel
theorem okk7 : okB o1 k7 ixKUpdate = true := by decide +kernel
theorem okk9 : okB o1 k9 ixSync = true := by decide +kernel
theorem okk11 : okB oK k11 ixKHarvest = true := by decide +kernel
theorem ltk10 : decide ((k10 cfg).lamports + 20000 < U64) = true := by decide +kernel

/-- A step in which the vault's accumulator stays. -/
theorem qstep {o : Oracle} {w : World} {i : Ix} {n : Nat} (H : History env cfg (QuietDeposits env cfg) w n) (O : o.Ok)
    (RC : RewardsContract o) (ok : okB o w i = true)
    (hc : decide (holderAcc env cfg (after o w i) = holderAcc env cfg w) = true) {m : Nat}
    (hp : payout env cfg w (after o w i) = m) : History env cfg (QuietDeposits env cfg) (after o w i) (n + m) := by
  subst hp
  exact .exec H O RC (ok_after ok) fun _ => of_decide_eq_true hc

theorem hk5 : History env cfg (QuietDeposits env cfg) w5 0 := h5.mono fun _ _ _ h => h.1
theorem hk6 : History env cfg (QuietDeposits env cfg) k6 0 := by
  unfold k6; exact qstep hk5 o1_ok oracle_contract okk5 (by decide +kernel) (m := 0) (by decide +kernel)
theorem hk7 : History env cfg (QuietDeposits env cfg) k7 0 := by
  unfold k7; exact qstep hk6 o1_ok oracle_contract okk6 (by decide +kernel) (m := 0) (by decide +kernel)
theorem hk8 : History env cfg (QuietDeposits env cfg) k8 0 := by
  unfold k8; exact qstep hk7 o1_ok oracle_contract okk7 (by decide +kernel) (m := 0) (by decide +kernel)
theorem hk9 : History env cfg (QuietDeposits env cfg) k9 0 := by
  have e : payout env cfg k8 k9 = 0 := by decide +kernel
  have := History.ext hk8 (setWithdrawer_ext (k := vote1) (a := cfg) (reachable_inv hk8.reachable).wf) setWithdrawer_keeps
  unfold k9 at e ⊢; rw [e] at this; exact this
theorem hk10 : History env cfg (QuietDeposits env cfg) k10 0 := by
  unfold k10; exact qstep hk9 o1_ok oracle_contract okk9 (by decide +kernel) (m := 0) (by decide +kernel)
theorem hk11 : History env cfg (QuietDeposits env cfg) k11 0 := by
  have e : payout env cfg k10 k11 = 0 := by decide +kernel
  have := History.ext hk10 (credit_ext (n := 20000) (reachable_inv hk10.reachable).wf (of_decide_eq_true ltk10)) credit_keeps
  unfold k11 at e ⊢; rw [e] at this; exact this
theorem hk12 : History env cfg (QuietDeposits env cfg) k12 0 := by
  unfold k12; exact qstep hk11 oK_ok oracle_contract okk11 (by decide +kernel) (m := 0) (by decide +kernel)

theorem k12_facts : accrued env k12 cfg sol1 = 7614623 ∧
    (k12 cfg).lamports + (k12 (env.vaultAuth cfg)).lamports = 5910880 ∧ (configAt k12 cfg).isSome = true := by
  decide +kernel

end Verif.Witness
