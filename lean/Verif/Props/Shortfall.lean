import Verif.Props.Solvency
/-!
# How far claims can exceed funds

C94.
-/

namespace Verif.Props

open Verif Verif.Witness

variable {env : Env} {o : Oracle} {w w' : World} {ix : Ix}

/-- **C94.** In every history, what all stake accounts of a config would be paid now is at most the config's lamports above its
rent-exempt minimum, plus the lamports on the vault authority, plus one lamport for each payout of holder rewards, plus the lamports
that instructions credited without cover. -/
theorem C94_shortfall_bounded {ck : Key} {c : Config} {n u : Nat} (H : ClaimHistory env ck w n u)
    (hc : configAt w ck = some c) :
    ∃ total, TotalIs (accrued env w ck) total ∧
      total + env.rentMin configLen ≤ (w ck).lamports + (w (env.vaultAuth ck)).lamports + (n + u) :=
  (H.covered (by rw [hc]; simp)).accrued (reachable_inv H.history.reachable) hc le_rfl

/-- **C94.** The bound applies to every history under the contract of the rewards program: none is excluded. -/
theorem C94_every_history {ck : Key} {n : Nat} {P : World → Ix → World → Prop} (H : History env ck P w n) :
    ∃ u, ClaimHistory env ck w n u := by
  induction H with
  | genesis G => exact ⟨0, .genesis G⟩
  | ext _ E K ih => obtain ⟨u, ih⟩ := ih; exact ⟨u, .ext ih E K⟩
  | exec _ O RC h _ ih => obtain ⟨u, ih⟩ := ih; exact ⟨_, .exec ih O RC h⟩

/-- **C94.** Only two things credit without cover: a stake whose Deposit moves the vault's holder rewards, and a sync that names the config
account as its own keeper. -/
theorem C94_two_causes (R : Reachable env w) (h : exec env o w ix = .ok w') {ck : Key}
    (hu : overCredit env ck w ix w' ≠ 0) :
    ix.config = some ck ∧
      (((∃ n, ix.decoded = some (.validatorStakeTokens n) ∨ ix.decoded = some (.solStakerStakeTokens n)) ∧
          holderAcc env ck w' ≠ holderAcc env ck w) ∨
        (ix.decoded = some .harvestSolStakerRewards ∧ ix.acct 11 = some ck)) := by
  refine ⟨by_contra fun hn => hu (by unfold overCredit; rw [if_neg hn]), by_contra fun hn => hu ?_⟩
  refine Careful.no_overCredit (reachable_inv R) h ⟨fun hs => ?_, fun hy hk => hn (.inr ⟨hy, hk⟩)⟩
  by_contra hne
  exact hn (.inl ⟨hs, hne⟩)

/-- **C94.** A stake credits without cover at most the rise of the accumulator times the tokens that are being staked, rounded up to a
lamport. -/
theorem C94_stake_credit {ck : Key} {n : Nat} (hc : ix.config = some ck)
    (hi : ix.decoded = some (.validatorStakeTokens n) ∨ ix.decoded = some (.solStakerStakeTokens n)) :
    overCredit env ck w ix w' * 1000000000000000000 <
      growth (holderAcc env ck w) (holderAcc env ck w') * n + 1000000000000000000 := by
  have : overCredit env ck w ix w' = lamportsUp (growth (holderAcc env ck w) (holderAcc env ck w') * n) := by
    unfold overCredit
    rw [if_pos hc]
    rcases hi with hi | hi <;> rw [hi]
  rw [this]
  unfold lamportsUp
  omega

/-- A stake of 990000 tokens whose Deposit raises the accumulator by 20 lamports for each token. -/
theorem cz8 : ClaimHistory Witness.env cfg z8 1 19800000 := by
  have e : payout Witness.env cfg w7 z8 = 1 := by decide +kernel
  have e' : overCredit Witness.env cfg w7 ixStakeMore z8 = 19800000 := by decide +kernel
  have := ClaimHistory.exec h7.careful o3_ok settleOracle_contract (ok_after okz8)
  unfold z8 at e e' ⊢; rw [e, e'] at this; exact this

/-- A sync that names the config as its own keeper. -/
theorem ck12 : ∃ n, ClaimHistory Witness.env cfg k12 n 7614624 := by
  have e' : overCredit Witness.env cfg k11 ixKHarvest k12 = 7614624 := by decide +kernel
  have H : ∃ n, ClaimHistory Witness.env cfg k11 n 0 := by
    have c5 := h5.careful
    have c6 : ∃ n, ClaimHistory Witness.env cfg k6 n 0 := by
      have e : overCredit Witness.env cfg w5 ixKStakeVal1 k6 = 0 := by decide +kernel
      have := ClaimHistory.exec c5 o1_ok oracle_contract (ok_after okk5)
      unfold k6 at e ⊢; rw [e] at this; exact ⟨_, this⟩
    obtain ⟨n6, c6⟩ := c6
    have c7 : ∃ n, ClaimHistory Witness.env cfg k7 n 0 := by
      have e : overCredit Witness.env cfg k6 ixKStakeSol1 k7 = 0 := by decide +kernel
      have := ClaimHistory.exec c6 o1_ok oracle_contract (ok_after okk6)
      unfold k7 at e ⊢; rw [e] at this; exact ⟨_, this⟩
    obtain ⟨n7, c7⟩ := c7
    have c8 : ∃ n, ClaimHistory Witness.env cfg k8 n 0 := by
      have e : overCredit Witness.env cfg k7 ixKUpdate k8 = 0 := by decide +kernel
      have := ClaimHistory.exec c7 o1_ok oracle_contract (ok_after okk7)
      unfold k8 at e ⊢; rw [e] at this; exact ⟨_, this⟩
    obtain ⟨n8, c8⟩ := c8
    have c9 : ClaimHistory Witness.env cfg k9 _ 0 :=
      .ext c8 (setWithdrawer_ext (k := vote1) (a := cfg) (reachable_inv hk8.reachable).wf) setWithdrawer_keeps
    have c10 : ∃ n, ClaimHistory Witness.env cfg k10 n 0 := by
      have e : overCredit Witness.env cfg k9 ixSync k10 = 0 := by decide +kernel
      have := ClaimHistory.exec c9 o1_ok oracle_contract (ok_after okk9)
      unfold k10 at e ⊢; rw [e] at this; exact ⟨_, this⟩
    obtain ⟨n10, c10⟩ := c10
    exact ⟨_, .ext c10 (credit_ext (n := 20000) (reachable_inv hk10.reachable).wf (of_decide_eq_true ltk10)) credit_keeps⟩
  obtain ⟨n, H⟩ := H
  have := ClaimHistory.exec H oK_ok oracle_contract (ok_after okk11)
  unfold k12 at e' ⊢; rw [e'] at this; exact ⟨_, this⟩

/-- Both kinds of credit occur, and in full: the validator's claim of 19840000 lamports is 40000 for its 2000 earlier tokens and 19800000 for
those just staked; the claim of 7614623 lamports of the staker that was synced was credited without cover. -/
example : ClaimHistory Witness.env cfg z8 1 19800000 ∧ (configAt z8 cfg).isSome = true ∧
    accrued Witness.env z8 cfg val1 = 40000 + 19800000 ∧
    (∃ n, ClaimHistory Witness.env cfg k12 n 7614624) ∧ (configAt k12 cfg).isSome = true ∧
    accrued Witness.env k12 cfg sol1 = 7614623 :=
  ⟨cz8, by decide +kernel, by decide +kernel, ck12, by decide +kernel, by decide +kernel⟩

/-- The hypotheses of the third and fourth theorem are met by these two instructions. -/
example : okB Witness.o3 w7 ixStakeMore = true ∧ Reachable Witness.env w7 ∧
    overCredit Witness.env cfg w7 ixStakeMore z8 ≠ 0 ∧ ixStakeMore.config = some cfg ∧
    ixStakeMore.decoded = some (.validatorStakeTokens 990000) ∧
    okB oK k11 ixKHarvest = true ∧ Reachable Witness.env k11 ∧ overCredit Witness.env cfg k11 ixKHarvest k12 ≠ 0 :=
  ⟨okz8, r7, by decide +kernel, by decide +kernel, by decide +kernel, okk11, hk11.reachable, by decide +kernel⟩

end Verif.Props
