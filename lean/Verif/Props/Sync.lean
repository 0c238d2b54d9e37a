import Verif.Props.Accrual
/-!
# C75: a synced authority takes over what was earned before

ValidatorSyncAuthority does not settle the account. Whatever the validator stake account had earned under its old authority is
paid to the new one.
-/

namespace Verif.Props

open Verif Verif.Witness

variable {env : Env} {o : Oracle} {w w' : World} {ix : Ix}

/-- **C75.** ValidatorSyncAuthority moves no lamports, leaves everything that any account has earned as it is, and makes the
withdraw authority of the vote account the authority of the stake account. -/
theorem C75_sync_keeps_rewards (R : Reachable env w) (h : exec env o w ix = .ok w')
    (hi : ix.decoded = some .validatorSyncAuthority) {s vote : Key} (hs : ix.acct 1 = some s) (hv : ix.acct 2 = some vote) :
    (∀ k, (w' k).lamports = (w k).lamports) ∧ (∀ ck k, accrued env w' ck k = accrued env w ck k) ∧
      ∃ wd, (w vote).owner = voteId ∧ (w vote).data = .vote wd ∧ authorityOf w' s = some wd := by
  obtain ⟨a, rest, hl, hr⟩ := ran_validatorSyncAuthority h hi
  have e1 : a.validatorStake = s := by simpa [Ix.acct, hl, ValidatorSyncAuthorityAccts.list] using hs
  have e2 : a.validatorVote = vote := by simpa [Ix.acct, hl, ValidatorSyncAuthorityAccts.list] using hv
  subst e1 e2
  obtain ⟨s, wd, _, ⟨c, hc⟩, hk, hd, ho, hw, _, rfl⟩ := validatorSyncAuthority_ok hr
  have hO : (w a.validatorStake).owner = progId := by
    by_contra ho
    have := ((reachable_inv R).unowned _ (by rw [hk]; rfl) ho).2
    rw [hd] at this; simp at this
  refine ⟨fun k => by simp, fun ck k => ?_, wd, ho, hw, ?_⟩
  · have e1 : configAt (w.setD a.validatorStake (.validator { s with del := { s.del with authority := wd } })) ck = configAt w ck := by
      unfold configAt
      by_cases hk : ck = a.validatorStake
      · subst hk; simp [World.setD_data, hd]
      · simp [World.setD_data, hk]
    have e2 : holderAcc env ck (w.setD a.validatorStake (.validator { s with del := { s.del with authority := wd } })) =
        holderAcc env ck w := by
      unfold holderAcc holderAt
      by_cases hk : vaultRecord env ck = a.validatorStake
      · rw [hk]; simp [World.setD_data, hd]
      · simp [World.setD_data, hk]
    have e3 : (stakeAt (w.setD a.validatorStake (.validator { s with del := { s.del with authority := wd } })) k).map
        (fun d => (d.lastStake, d.effective, d.lastHolder, d.staked)) =
        (stakeAt w k).map (fun d => (d.lastStake, d.effective, d.lastHolder, d.staked)) := by
      unfold stakeAt validatorAt solStakerAt
      by_cases hk : k = a.validatorStake
      · subst hk; simp [World.setD_data, hd, hO]
      · simp [World.setD_data, hk]
    have e4 : (w.setD a.validatorStake (.validator { s with del := { s.del with authority := wd } }) ck).lamports =
        (w ck).lamports := by simp
    unfold accrued
    rw [e1, e2, e4]
    cases configAt w ck with
    | none => simp only
    | some c =>
      cases f1 : stakeAt w k with
      | none => rw [f1] at e3; simp only [Option.map_none, Option.map_eq_none_iff] at e3; simp only [e3]
      | some d =>
        rw [f1] at e3
        simp only [Option.map_some, Option.map_eq_some_iff, Prod.mk.injEq] at e3
        obtain ⟨d', f2, g1, g2, g3, g4⟩ := e3
        simp only [f2, g1, g2, g3, g4]
  · unfold authorityOf stakeAt validatorAt; simp [World.setD_data, hO]

/-- **C75.** So when the validator stake account next harvests, the new authority is paid what was earned before the change,
and the old authority nothing, however long the harvest takes and whatever others do meanwhile. -/
theorem C75_new_authority_paid {w1 w2 : World} {ix2 : Ix} {o2 : Oracle} (R : Reachable env w) (O : o.Ok)
    (h : exec env o w ix = .ok w') (hi : ix.decoded = some .validatorSyncAuthority) {ck s vote wd : Key}
    (hck : ix.acct 0 = some ck) (hs : ix.acct 1 = some s) (hv : ix.acct 2 = some vote) (hw : (w vote).data = .vote wd)
    (A : OthersAct env ck s w' w1) (h2 : exec env o2 w1 ix2 = .ok w2) (hi2 : ix2.decoded = some .harvestValidatorRewards)
    (hck2 : ix2.acct 0 = some ck) (hs2 : ix2.acct 2 = some s) :
    ∀ k, (w2 k).lamports + (if k = ck then accrued env w ck s else 0) =
      (w1 k).lamports + (if k = wd then accrued env w ck s else 0) := by
  obtain ⟨_, hacc, wd', _, hw', ha⟩ := C75_sync_keeps_rewards R h hi hs hv
  rw [hw] at hw'; cases hw'
  have hc : configAt w' ck ≠ none := by
    obtain ⟨a, rest, hl, hr⟩ := ran_validatorSyncAuthority h hi
    have e0 : a.config = ck := by simpa [Ix.acct, hl, ValidatorSyncAuthorityAccts.list] using hck
    subst e0
    obtain ⟨s, wd, hcO, ⟨c, hc⟩, _, hd, ho, hw, _, rfl⟩ := validatorSyncAuthority_ok hr
    have : a.config ≠ a.validatorStake := by intro e; rw [e, hd] at hc; cases hc
    simp [configAt, World.setD_data, this, hc, hcO]
  obtain ⟨au, hau, hm⟩ := C72_waiting_costs_nothing (.exec R O h) hc A h2 hi2 hck2 hs2
  rw [ha] at hau; cases hau
  rw [hacc] at hm
  exact hm

/-- The vote account of the first validator is handed to another withdraw authority while 12000 lamports are waiting. -/
def w9v : World := w9.set vote1 { w9 vote1 with data := .vote staker }

theorem r9v : Reachable Witness.env w9v := by
  have hown : (w9 vote1).owner ≠ progId ∧ vote1.ofProgram = false := by decide +kernel
  have hl : (w9 vote1).lamports < U64 := ((reachable_inv r9).wf.1 vote1).1
  refine .ext r9 (extStep_of ⟨fun k => ?_, ?_⟩ (fun k => ?_) fun k hk => ?_)
  · by_cases e : k = vote1
    · subst e; exact ⟨by simpa [w9v, World.set] using hl, by simp [w9v, World.set, Data.WF]⟩
    · simpa [w9v, World.set, e] using (reachable_inv r9).wf.1 k
  · have := (reachable_inv r9).wf.2
    have e : systemId ≠ vote1 := by decide
    simpa [w9v, World.set, e] using this
  · by_cases e : k = vote1 <;> simp [w9v, World.set, e]
  · have e : k ≠ vote1 := by rintro rfl; rcases hk with hk | hk; exacts [hown.1 hk, by rw [hown.2] at hk; cases hk]
    simp [w9v, World.set, e]

/-- Anyone syncs, then harvests: the 12000 lamports go to the new authority. -/
example : okB o1 w9v ixSync = true ∧ accrued Witness.env w9v cfg val1 = 12000 ∧ authorityOf w9v val1 = some auth1 ∧
    okB o1 (after o1 w9v ixSync) (Witness.ix .harvestValidatorRewards [cfg, holder, val1, staker] []) = true ∧
    (after o1 (after o1 w9v ixSync) (Witness.ix .harvestValidatorRewards [cfg, holder, val1, staker] []) staker).lamports =
      (w9v staker).lamports + 12000 := by decide +kernel

end Verif.Props
