import Verif.Props.Exact
import Verif.Props.Rewards
import Verif.Props.Live
/-!
# C124: the keeper reward has no upper bound and counts for rewards earned before
-/

namespace Verif.Props

open Verif Verif.Witness

variable {env : Env} {o o' : Oracle} {w wa w' : World} {ix ix' : Ix} {ck sk : Key}

/-- A new keeper reward changes nothing about what a stake account has accrued, about other accounts, or about lamports. -/
private theorem keeper_update {y : Nat} (I : Inv env w) (h : exec env o w ix = .ok wa)
    (hi : ix.decoded = some (.updateConfig (.syncRewardsLamports y))) (h0 : ix.acct 0 = some ck) :
    (∃ c, configAt w ck = some c ∧ configAt wa ck = some { c with syncRewards := y }) ∧
      (∀ k, belongs k ck → stakeAt wa k = stakeAt w k ∧ solStakerAt wa k = solStakerAt w k ∧
        accrued env wa ck k = accrued env w ck k) ∧ ∀ k, (wa k).lamports = (w k).lamports := by
  obtain ⟨c, hc, hc', h1, h2⟩ := C47_update_config h hi h0
  change configAt wa ck = some { c with syncRewards := y } at hc'
  have hck := I.config_key hc
  have hl : ∀ k, (wa k).lamports = (w k).lamports := fun k => by
    by_cases e : k = ck
    · rw [e]; exact h2
    · rw [h1 k e]
  have hh : holderAcc env ck wa = holderAcc env ck w := by
    unfold holderAcc
    by_cases e : vaultRecord env ck = ck
    · have a : holderAt w ck = none := by unfold holderAt; rw [(configAt_eq.1 hc).2]
      have b : holderAt wa ck = none := by unfold holderAt; rw [(configAt_eq.1 hc').2]
      rw [e, a, b]
    · unfold holderAt; rw [h1 _ e]
  refine ⟨⟨c, hc, hc'⟩, fun k hb => ?_, hl⟩
  have e : k ≠ ck := by rintro rfl; rw [hb.ofProgram] at hck; simp at hck
  have hs : stakeAt wa k = stakeAt w k := stakeAt_congr (by unfold st; rw [h1 k e])
  refine ⟨hs, by unfold solStakerAt; rw [h1 k e], ?_⟩
  unfold accrued
  have hcur : ∀ x, currentAcc { c with syncRewards := y } x = currentAcc c x := fun x => by unfold currentAcc; rfl
  rw [hs, hc, hc', hh, hl]
  cases stakeAt w k with
  | none => rfl
  | some d => simp only [hcur]

/-- **C124.** The config authority can set the keeper reward to any amount at any time. -/
theorem C124_any_keeper_reward {y : Nat} (hi : ix.decoded = some (.updateConfig (.syncRewardsLamports y))) {auth : Key}
    {rest : List Key} (hl : ix.ctx.accts = ck :: auth :: rest) {c : Config} (hc : configAt w ck = some c)
    (hset : c.authority ≠ .default) (ha : auth = c.authority) (hs : ix.ctx.signer auth = true)
    (hw : ix.ctx.writable ck = true) :
    ∃ w', exec env o w ix = .ok w' ∧ configAt w' ck = some { c with syncRewards := y } :=
  C52_update_config_accepted hi hl hc hset ha (by simp) hs hw

/-- **C124.** A keeper reward of `y` set at some point applies at once to what a SOL staker had accrued before: the next harvest
that finds the native stake changed pays all of it, up to `y`, to the account that the caller names as the keeper, and if it is no
more than `y` the staker's authority gets nothing. (The keeper, and the authority, are taken not to be an authority of the other
accounts settled on the way; no account paid is the config itself.) -/
theorem C124_keeper_takes_all (R : Reachable env w) (O : o.Ok) (h1 : exec env o w ix = .ok wa) {y : Nat}
    (hi1 : ix.decoded = some (.updateConfig (.syncRewardsLamports y))) (h0 : ix.acct 0 = some ck)
    (h : exec env o' wa ix' = .ok w') (hi : ix'.decoded = some .harvestSolStakerRewards) (hck : ix'.acct 1 = some ck)
    (hsk : ix'.acct 3 = some sk) {kp : Key} (hkp : ix'.acct 11 = some kp) (hself : ∀ n ∈ [4, 7, 9, 11], ix'.acct n ≠ some ck)
    (hy : accrued env w ck sk ≤ y) :
    ∃ s v, solStakerAt w sk = some s ∧ o'.view s.solStake = .ok v ∧
      (v.effective ≠ s.lamports ∨ v.delegatedVote ≠ s.del.vote →
        kp ≠ s.del.authority →
        ((∀ k ∈ [Key.validatorPda s.del.vote ck, .validatorPda v.delegatedVote ck], authorityOf w k ≠ some kp) →
          (w' kp).lamports = (w kp).lamports + accrued env w ck sk) ∧
        ((∀ k ∈ [Key.validatorPda s.del.vote ck, .validatorPda v.delegatedVote ck], authorityOf w k ≠ some s.del.authority) →
          (w' s.del.authority).lamports = (w s.del.authority).lamports)) := by
  obtain ⟨⟨c, hc, hc'⟩, hst, hlam⟩ := keeper_update (reachable_inv R) h1 hi1 h0
  have R1 := Reachable.exec R O h1
  obtain ⟨c1, s, v, share, toPrev, toCur, hc1, hs, hsk', hv, e1, _, _, hm, _, _⟩ := C19_sol_staker_harvest R1 h hi hck hsk hself
  rw [hc'] at hc1; cases hc1
  have hb : belongs sk ck := by rw [hsk']; simp [belongs]
  obtain ⟨b1, b2, b3⟩ := hst sk hb
  have hau : ix'.acct 4 = some s.del.authority := by
    obtain ⟨a, keeper, rest, hl, hkr, hr⟩ := ran_harvestSolStakerRewards h hi
    obtain ⟨s2, v', c, hr, rs, rh, w1, B, H⟩ := harvestSolStakerRewards_ok (reachable_inv R1).wf hr
    have e3 : a.solStakerStake = sk := by simpa [Ix.acct, hl, HarvestSolStakerRewardsAccts.list] using hsk
    have e4 : ix'.acct 4 = some a.solStakerStakeAuthority := by simp [Ix.acct, hl, HarvestSolStakerRewardsAccts.list]
    have e5 : solStakerAt wa a.solStakerStake = some s2 := solStakerAt_eq.2 ⟨B.sO, B.data⟩
    rw [e3, hs] at e5; cases e5
    rw [e4]
    cases H with
    | noSync h1 h2 H hw => rw [H.auth_eq]
    | sync hn _ H _ _ _ _ _ => rw [H.auth_eq]
  have hne : s.del.authority ≠ ck := fun e => hself 4 (by simp) (by rw [hau, e])
  have hkc : kp ≠ ck := fun e => hself 11 (by simp) (by rw [hkp, e])
  refine ⟨s, v, b2.symm.trans hs, hv, fun hn hka => ?_⟩
  rw [if_pos hn, b3, min_eq_left hy] at e1
  have au : ∀ x, authorityOf wa (.validatorPda x ck) = authorityOf w (.validatorPda x ck) := fun x => by
    unfold authorityOf; rw [(hst _ (by simp [belongs])).1]
  constructor
  · intro ho
    have := hm kp
    rw [if_neg hkc, if_neg hka, if_pos hkp, au, au, if_neg (ho _ (by simp)), if_neg (ho _ (by simp)),
      hlam] at this
    omega
  · intro ho
    have := hm s.del.authority
    rw [if_neg hne, if_pos rfl, if_neg (by rw [hkp]; simpa using hka), au, au, if_neg (ho _ (by simp)),
      if_neg (ho _ (by simp)), hlam, b3, e1] at this
    omega

/-- **C124.** A staker who harvests and names their authority as the keeper gets all that was accrued, whatever the keeper
reward. -/
theorem C124_own_keeper (R : Reachable env w) (h : exec env o w ix = .ok w') (hi : ix.decoded = some .harvestSolStakerRewards)
    (hck : ix.acct 1 = some ck) (hsk : ix.acct 3 = some sk) {s : SolStakerStake} (hs : solStakerAt w sk = some s)
    (hkp : ix.acct 11 = some s.del.authority) (hself : ∀ n ∈ [4, 7, 9, 11], ix.acct n ≠ some ck) :
    (w s.del.authority).lamports + accrued env w ck sk ≤ (w' s.del.authority).lamports := by
  obtain ⟨c, s1, v, share, toPrev, toCur, hc, hs1, hsk', hv, e1, _, _, hm, _, _⟩ := C19_sol_staker_harvest R h hi hck hsk hself
  rw [hs] at hs1; cases hs1
  have hne : s.del.authority ≠ ck := fun e => hself 11 (by simp) (by rw [hkp, e])
  have := hm s.del.authority
  rw [if_neg hne, if_pos rfl, if_pos hkp] at this
  omega

/-! The example history with the largest keeper reward set just before the sync: the keeper gets the 3000 lamports that the staker
had accrued while the keeper reward was 10, and the staker nothing. -/

def ixGreedy : Ix := Witness.ix (.updateConfig (.syncRewardsLamports (2 ^ 64 - 1))) [cfg, configAuth] [configAuth]
def wGreedy : World := after o2 w9 ixGreedy
def wTaken : World := after o2 wGreedy ixHarvestSol1

theorem okGreedy : exec Witness.env o2 w9 ixGreedy = .ok wGreedy := ok_after (by decide +kernel)
theorem okTaken : exec Witness.env o2 wGreedy ixHarvestSol1 = .ok wTaken := ok_after (by decide +kernel)

example : Reachable Witness.env w9 ∧ (configAt w9 cfg).map (·.syncRewards) = some 10 ∧
    accrued Witness.env w9 cfg sol1 = 3000 ∧ (∀ n ∈ [4, 7, 9, 11], ixHarvestSol1.acct n ≠ some cfg) ∧
    (wTaken keeper).lamports = (w9 keeper).lamports + 3000 ∧ (wTaken staker).lamports = (w9 staker).lamports :=
  ⟨r9, by decide +kernel⟩

/-! The staker's own harvest, with its authority as the keeper. -/

def ixOwnKeeper : Ix :=
  Witness.ix .harvestSolStakerRewards
    [viewId, cfg, holder, sol1, staker, native1, val1, auth1, val2, auth2, .raw 9, staker] []
def wOwn : World := after o2 wGreedy ixOwnKeeper

example : exec Witness.env o2 wGreedy ixOwnKeeper = .ok wOwn ∧ ixOwnKeeper.acct 11 = some (solOf wGreedy sol1).del.authority ∧
    (wOwn staker).lamports = (wGreedy staker).lamports + 3000 :=
  ⟨ok_after (by decide +kernel), by decide +kernel⟩

end Verif.Props
