import Verif.SpecKeeper
import Verif.Props.Exact
import Verif.Props.Rewards
import Verif.Props.History
/-!
# C90: how often a keeper is paid
-/

namespace Verif.Props

open Verif Verif.Witness

variable {env : Env} {o o' : Oracle} {w w' : World} {ix ix' : Ix}

theorem _root_.Verif.Unmoved.reachable {n : Key} {v : StakeView} {w w1 : World} (U : Unmoved env n v w w1) (R : Reachable env w) :
    Reachable env w1 := by
  induction U with
  | refl => exact R
  | ext _ E ih => exact .ext ih E
  | exec _ O _ h ih => exact .exec ih O h

/-- A record that agrees with the live stake goes on agreeing. -/
theorem unmoved_record {n k : Key} {v : StakeView} {w w1 : World} (U : Unmoved env n v w w1) (R : Reachable env w)
    {s : SolStakerStake} (hs : solStakerAt w k = some s) (hn : s.solStake = n) (h1 : s.lamports = v.effective)
    (h2 : s.del.vote = v.delegatedVote) :
    ∃ s1, solStakerAt w1 k = some s1 ∧ s1.solStake = n ∧ s1.lamports = v.effective ∧ s1.del.vote = v.delegatedVote := by
  induction U with
  | refl => exact ⟨s, hs, hn, h1, h2⟩
  | ext U E ih =>
    obtain ⟨s1, e, h⟩ := ih
    exact ⟨s1, by rw [solStakerAt_congr (ext_st (reachable_inv (U.reachable R)) E k)]; exact e, h⟩
  | @exec w1 w2 o ix U O V h ih =>
    obtain ⟨s1, e, e0, e1, e2⟩ := ih
    have R1 := U.reachable R
    obtain ⟨s2, f, f0⟩ := C25_solStaker_permanent R1 (.tail .refl (.exec O h)) e
    by_cases hne : s2.lamports ≠ s1.lamports ∨ s2.del.vote ≠ s1.del.vote
    · obtain ⟨hi, hk⟩ := C49_record_changes_only_by_harvest R1 O h e f hne
      obtain ⟨a, keeper, rest, hl, _, _⟩ := ran_harvestSolStakerRewards h hi
      obtain ⟨t, t', v', g, g', gv, _, H⟩ := C49_record_follows_native_stake (ck := a.config) R1 h hi
        (by simp [Ix.acct, hl, HarvestSolStakerRewardsAccts.list]) hk
      rw [e] at g; cases g
      rw [f] at g'; cases g'
      rw [e0, V] at gv; cases gv
      rw [if_neg (by rw [e1, e2]; simp)] at H
      exact ⟨s2, f, by rw [f0, e0], H⟩
    · push Not at hne
      exact ⟨s2, f, by rw [f0, e0], by rw [hne.1, e1], by rw [hne.2, e2]⟩

/-- **C90.** A change of a native stake pays a keeper once. After a harvest that has seen the native stake as `v`, undelegated or
delegated to a validator with a stake account, every later harvest that still sees `v` pays the whole accrued reward to the
staker and nothing to the keeper it names, whatever happened in between. -/
theorem C90_paid_once {w1 w2 w3 : World} {ck n : Key} {v : StakeView} (R : Reachable env w) (O : o.Ok)
    (h : exec env o w ix = .ok w1) (hi : ix.decoded = some .harvestSolStakerRewards) (hck : ix.acct 1 = some ck)
    (hsk : ix.acct 3 = some (.solStakerPda n ck)) (hv : o.view n = .ok v)
    (hreg : v.delegatedVote = .default ∨ validatorAt w (.validatorPda v.delegatedVote ck) ≠ none)
    (U : Unmoved env n v w1 w2)
    (h' : exec env o' w2 ix' = .ok w3) (hi' : ix'.decoded = some .harvestSolStakerRewards) (hck' : ix'.acct 1 = some ck)
    (hsk' : ix'.acct 3 = some (.solStakerPda n ck)) (hv' : o'.view n = .ok v)
    (hself : ∀ p ∈ [4, 7, 9, 11], ix'.acct p ≠ some ck) :
    ∃ au, authorityOf w2 (.solStakerPda n ck) = some au ∧
      ∀ k, (w3 k).lamports + (if k = ck then accrued env w2 ck (.solStakerPda n ck) else 0) =
        (w2 k).lamports + (if k = au then accrued env w2 ck (.solStakerPda n ck) else 0) := by
  have R1 : Reachable env w1 := .exec R O h
  obtain ⟨s, s1, v1, g, g1, gv, gn, H⟩ := C49_record_follows_native_stake R h hi hck hsk
  have gs : s.solStake = n := by
    have := solStakerAt_eq.1 g
    obtain ⟨x, hx, hn, _⟩ := (reachable_inv R).shape _ this.1
    rw [this.2] at hx; cases hx; exact hn
  rw [gs, hv] at gv; cases gv
  rw [if_neg (by rintro ⟨a, b, _⟩; exact hreg.elim a (fun x => x b))] at H
  obtain ⟨s2, e, e0, e1, e2⟩ := unmoved_record U R1 g1 (by rw [gn, gs]) H.1 H.2
  obtain ⟨c, t, v2, share, toPrev, toCur, _, hs, _, hvv, x1, x2, x3, hm, _, _⟩ :=
    C19_sol_staker_harvest (U.reachable R1) h' hi' hck' hsk' hself
  rw [e] at hs; cases hs
  rw [e0, hv'] at hvv; cases hvv
  simp only [e1, e2, ne_eq, not_true_eq_false, or_self, if_false, false_and] at x1 x2 x3
  subst x1 x2 x3
  simp only [ite_self, Nat.add_zero, Nat.sub_zero] at hm
  exact ⟨s2.del.authority, by unfold authorityOf; rw [stakeAt_solStaker e]; rfl, hm⟩

/-- **C90.** The exception: a staker whose native stake is delegated to a validator without a stake account pays a keeper at every
harvest, no matter how many there were before and that nothing has changed. The keeper gets the smaller of the accrued reward and
the config's sync reward, the staker what is left, and the next harvest is in the same situation. -/
theorem C90_paid_every_time {ck n kp : Key} {v : StakeView} (R : Reachable env w) (h : exec env o w ix = .ok w')
    (hi : ix.decoded = some .harvestSolStakerRewards) (hck : ix.acct 1 = some ck)
    (hsk : ix.acct 3 = some (.solStakerPda n ck)) (hkp : ix.acct 11 = some kp)
    (hself : ∀ p ∈ [4, 7, 9, 11], ix.acct p ≠ some ck) (hv : o.view n = .ok v) (hd : v.delegatedVote ≠ .default)
    (hreg : validatorAt w (.validatorPda v.delegatedVote ck) = none) :
    ∃ c s, configAt w ck = some c ∧ solStakerAt w (.solStakerPda n ck) = some s ∧
      (kp ≠ s.del.authority → authorityOf w (.validatorPda s.del.vote ck) ≠ some kp →
        (w' kp).lamports = (w kp).lamports + min (accrued env w ck (.solStakerPda n ck)) c.syncRewards) ∧
      (kp ≠ s.del.authority → authorityOf w (.validatorPda s.del.vote ck) ≠ some s.del.authority →
        (w' s.del.authority).lamports =
          (w s.del.authority).lamports + (accrued env w ck (.solStakerPda n ck) - c.syncRewards)) ∧
      validatorAt w' (.validatorPda v.delegatedVote ck) = none := by
  have I := reachable_inv R
  obtain ⟨c, s, v1, share, toPrev, toCur, hc, hs, hsk', hvv, x1, x2, x3, hm, _, _⟩ := C19_sol_staker_harvest R h hi hck hsk hself
  have gs : s.solStake = n := by cases hsk'; rfl
  rw [gs, hv] at hvv; cases hvv
  have hne : v.delegatedVote ≠ s.del.vote := by
    intro e
    have := solStakerAt_eq.1 hs
    obtain ⟨x, hx, _, _, hr⟩ := I.shape _ this.1
    rw [this.2] at hx; cases hx
    rw [← e] at hr
    rcases hr with hr | hr
    · exact hd hr
    · rw [hreg] at hr; cases hr
  have ha : authorityOf w (.validatorPda v.delegatedVote ck) = none := by
    unfold authorityOf stakeAt
    rw [hreg]
    cases hx : solStakerAt w (.validatorPda v.delegatedVote ck) with
    | none => rfl
    | some y =>
      have := solStakerAt_eq.1 hx
      obtain ⟨z, hz, _⟩ := I.shape _ this.1
      rw [this.2] at hz; cases hz
  have hkc : kp ≠ ck := by rintro rfl; exact hself 11 (by simp) hkp
  rw [if_pos (Or.inr hne)] at x1
  refine ⟨c, s, hc, hs, fun h1 h2 => ?_, fun h1 h2 => ?_, ?_⟩
  · have := hm kp
    rw [if_neg hkc, if_neg h1, if_pos hkp, if_neg h2, ha, if_neg (by simp)] at this
    omega
  · have := hm s.del.authority
    have h4 : s.del.authority ≠ ck := by
      obtain ⟨a, keeper, rest, hl, _, hr⟩ := ran_harvestSolStakerRewards h hi
      have hs0 : a.solStakerStake = .solStakerPda n ck := by simpa [Ix.acct, hl, HarvestSolStakerRewardsAccts.list] using hsk
      obtain ⟨s', _, _, _, _, _, _, B, H⟩ := harvestSolStakerRewards_ok I.wf hr
      have hd := B.data
      rw [hs0] at hd
      have := (solStakerAt_eq.1 hs).2
      rw [hd] at this; cases this
      have hau : a.solStakerStakeAuthority = s.del.authority := by
        cases H with
        | noSync _ _ H _ => exact H.auth_eq
        | sync _ _ H _ _ _ _ _ => exact H.auth_eq
      intro e
      refine hself 4 (by simp) ?_
      rw [← e, ← hau]
      simp [Ix.acct, hl, HarvestSolStakerRewardsAccts.list]
    rw [if_neg h4, if_pos rfl, hkp, if_neg (by simpa using h1), if_neg h2, ha, if_neg (by simp)] at this
    omega
  · obtain ⟨a, keeper, rest, hl, _, hr⟩ := ran_harvestSolStakerRewards h hi
    obtain ⟨s', v', _, _, _, _, w1, B, H⟩ := harvestSolStakerRewards_ok I.wf hr
    have ho : ∀ k, (w' k).owner = (w k).owner := by
      cases H with
      | noSync _ _ H h => intro k; rw [h, H.owner]
      | sync _ _ H L J _ _ A => intro k; rw [A.owner, J.owner, L.owner, H.owner]
    have hp : (w (.validatorPda v.delegatedVote ck)).owner ≠ progId := by
      intro e
      obtain ⟨y, hy, _⟩ := I.shape _ e
      have := validatorAt_eq.2 ⟨e, hy⟩
      rw [hreg] at this; cases this
    unfold validatorAt
    rw [if_neg (by rw [ho]; exact hp)]

/-! ## Cases -/

/-- The first native stake has moved to a validator that has no stake account. -/
def viewU (k : Key) : Res StakeView :=
  if k = native1 then .ok { delegatedVote := .raw 112, withdrawer := staker, effective := 3000 } else .error .cpi

def oU : Oracle := oracle 2000 viewU 5000

theorem oU_ok : oU.Ok := oracle_ok (by
  intro k v h; unfold viewU at h; split_ifs at h; obtain rfl := Except.ok.inj h; decide)

def ixUHarvest : Ix :=
  Witness.ix .harvestSolStakerRewards [viewId, cfg, holder, sol1, staker, native1, val1, auth1, .validatorPda (.raw 112) cfg, auth2,
    .raw 9, keeper] []

def u11 : World := after oU w10 ixUHarvest
/-- 5000 lamports of holder rewards arrive. -/
def u12 : World := after oU u11 ixHarvestHolder
def u13 : World := after oU u12 ixUHarvest

/-- The native stake has not changed between the two harvests, and the keeper is paid by both. -/
example : exec Witness.env oU w10 ixUHarvest = .ok u11 ∧ exec Witness.env oU u11 ixHarvestHolder = .ok u12 ∧
    exec Witness.env oU u12 ixUHarvest = .ok u13 ∧ (u11 keeper).lamports = (w10 keeper).lamports + 10 ∧
    (u13 keeper).lamports = (u12 keeper).lamports + 10 ∧ validatorAt u12 (.validatorPda (.raw 112) cfg) = none := by
  refine ⟨ok_after (by decide +kernel), ok_after (by decide +kernel), ok_after (by decide +kernel), ?_⟩
  decide +kernel

/-- After the sync to the second validator a second harvest pays the keeper nothing, although rewards have arrived. -/
example : ∃ w3, Unmoved Witness.env native1 { delegatedVote := vote2, withdrawer := staker, effective := 3000 } w11
      (after o2 (credit w11 cfg 10000) ixHarvestHolder) ∧
    exec Witness.env o2 (after o2 (credit w11 cfg 10000) ixHarvestHolder) ixHarvestSol1 = .ok w3 ∧
    validatorAt w10 (.validatorPda vote2 cfg) ≠ none ∧
    accrued Witness.env (after o2 (credit w11 cfg 10000) ixHarvestHolder) cfg sol1 ≠ 0 := by
  refine ⟨_, .exec (.ext .refl (credit_ext (reachable_inv r11).wf (of_decide_eq_true (by decide +kernel)))) o2_ok (by decide)
    (ok_after (by decide +kernel)), ok_after (by decide +kernel), ?_⟩
  decide +kernel

end Verif.Props
