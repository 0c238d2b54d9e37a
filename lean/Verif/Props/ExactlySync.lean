import Verif.Lemmas.ExactSync
import Verif.WitnessLive
/-!
# C102, continued: HarvestSolStakerRewards of a changed native stake
-/

namespace Verif.Props

open Verif.Witness

variable {env : Env} {o : Oracle} {w : World} {ix : Ix}

/-- **C102.** HarvestSolStakerRewards for a native stake that is not as recorded any more goes through exactly if the accounts
are the right ones, a keeper is named, the staker's rewards and those of the validator it leaves and the validator it joins
can be settled, the validator it joins can count the lamports, and the config has the lamports for all of it. The accounts
of a validator matter only if there is one: there is none to leave if none is recorded, and none to join if the native stake
is not delegated or the validator has no stake account of this config.

That no balance and no total passes 64 bits by receiving all lamports of the config or all tokens concerned is assumed
throughout, as is that the config itself is not among the recipients. -/
theorem C102_sync_sol_staker (R : Reachable env w) (hi : ix.decoded = some .harvestSolStakerRewards)
    {vp ck hk sk auth native pk pa qk qa hist kp : Key} {s : SolStakerStake} {v : StakeView} {rest : List Key}
    (hl : ix.ctx.accts = vp :: ck :: hk :: sk :: auth :: native :: pk :: pa :: qk :: qa :: hist :: kp :: rest)
    (hs : solStakerAt w sk = some s) (hview : o.view native = .ok v)
    (hdiff : ¬ (v.effective = s.lamports ∧ v.delegatedVote = s.del.vote))
    (hne : auth ≠ ck ∧ kp ≠ ck ∧ pa ≠ ck ∧ qa ≠ ck)
    (room : ∀ x ∈ [auth, kp, pa, qa], (w x).lamports + (w ck).lamports < 2 ^ 64)
    (heff : ∀ c, configAt w ck = some c → c.effTotal + stakedOf w (.validatorPda s.del.vote ck) +
      stakedOf w (.validatorPda v.delegatedVote ck) + s.del.staked < 2 ^ 64)
    (hw : ix.Writes [ck, sk, auth, kp, pk, pa, qk, qa]) :
    (∃ w', exec env o w ix = .ok w') ↔
      vp = viewId ∧ hk = vaultRecord env ck ∧ auth = s.del.authority ∧ native = s.solStake ∧
      native ≠ ck ∧ hist ≠ ck ∧ hist ≠ sk ∧ kp ≠ progId ∧ ∃ c, Payable env w ck sk c s.del ∧
      -- the validator that is left
      (s.del.vote = .default → s.lamports = 0) ∧
      (s.del.vote ≠ .default → pk = .validatorPda s.del.vote ck ∧
        ∀ p, validatorAt w pk = some p → pa = p.del.authority ∧ Payable env w ck pk c p.del ∧
          cap (max (p.total - s.lamports) p.min) < 2 ^ 64) ∧
      -- the validator that is joined
      (v.delegatedVote ≠ .default → qk = .validatorPda v.delegatedVote ck ∧
        ∀ q, validatorAt w qk = some q → qa = q.del.authority ∧ Payable env w ck qk c q.del ∧
          q.total - (if v.delegatedVote = s.del.vote then s.lamports else 0) + v.effective < 2 ^ 64 ∧
          cap (max (q.total - (if v.delegatedVote = s.del.vote then s.lamports else 0) + v.effective) q.min) < 2 ^ 64) ∧
      -- the staker
      (v.delegatedVote = .default ∨ (validatorAt w (.validatorPda v.delegatedVote ck)).isSome = true →
        cap v.effective < 2 ^ 64) ∧
      accrued env w ck sk + accrued env w ck (.validatorPda s.del.vote ck) +
        (if v.delegatedVote = s.del.vote then 0 else accrued env w ck (.validatorPda v.delegatedVote ck)) +
          env.rentMin configLen ≤ (w ck).lamports := by
  constructor
  · rintro ⟨w', h⟩
    obtain ⟨⟨a0, a1, a2, a3, a4, a5, a6, a7, a8, a9, a10, a11⟩, kk, r, hl', hkk, h⟩ := ran_harvestSolStakerRewards h hi
    rw [hl] at hl'
    simp only [HarvestSolStakerRewardsAccts.list, List.cons_append, List.nil_append, List.cons.injEq] at hl'
    obtain ⟨rfl, rfl, rfl, rfl, rfl, rfl, rfl, rfl, rfl, rfl, rfl, rfl, _⟩ := hl'
    exact sync_inv (reachable_inv R) h hs hview hdiff hkk hne.2.1 hne.1 hne.2.2.1 hne.2.2.2 room
  · rintro ⟨rfl, rfl, rfl, rfl, h1, h2, h3, h4, c, P, hu, hp, hq, hcap, funds⟩
    exact live_harvestSol_sync (reachable_inv R) (reachable_totals R) hi hl hs hview h1 h2 h3 hdiff h4 hne.2.1 P hp hu hq hcap
      funds (fun x hx => by have := room x hx; omega) (heff c P.config) hw

/-- The native stake has moved from one validator to another and grown: the harvest goes through with the authorities of both
validators in their places, and fails with the new one's in place of the old one's. -/
example : (∃ w', exec Witness.env o2 w9 ixHarvestSol1 = .ok w') ∧
    ¬ ∃ w', exec Witness.env o2 w9
      (Witness.ix .harvestSolStakerRewards
        [viewId, cfg, holder, sol1, staker, native1, val1, auth2, val2, auth2, .raw 9, keeper] []) = .ok w' := by
  have hp1 : ∀ p, validatorAt w9 val1 = some p → p = valOf w9 val1 := fun p h =>
    Option.some.inj (h.symm.trans (by decide +kernel : validatorAt w9 val1 = some (valOf w9 val1)))
  have hp2 : ∀ p, validatorAt w9 val2 = some p → p = valOf w9 val2 := fun p h =>
    Option.some.inj (h.symm.trans (by decide +kernel : validatorAt w9 val2 = some (valOf w9 val2)))
  have hc : ∀ c, configAt w9 cfg = some c → c = cfgOf w9 cfg := fun c h =>
    Option.some.inj (h.symm.trans (by decide +kernel : configAt w9 cfg = some (cfgOf w9 cfg)))
  have heff : ∀ c, configAt w9 cfg = some c → c.effTotal + stakedOf w9 (.validatorPda (solOf w9 sol1).del.vote cfg) +
      stakedOf w9 (.validatorPda vote2 cfg) + (solOf w9 sol1).del.staked < 2 ^ 64 := fun c h => by
    rw [hc c h]; decide +kernel
  constructor
  · refine (C102_sync_sol_staker r9 (by decide +kernel) (s := solOf w9 sol1)
      (v := { delegatedVote := vote2, withdrawer := staker, effective := 3000 }) (rest := []) rfl (by decide +kernel)
      (by decide +kernel) (by decide +kernel) (by decide) (by decide +kernel) heff (ix_writes _ _ _ _)).2
      ⟨rfl, by decide +kernel, by decide +kernel, by decide +kernel, by decide, by decide, by decide, by decide, cfgOf w9 cfg,
        payable_mk (belongs_sol _ _) (by decide +kernel), fun h => absurd h (by decide +kernel),
        fun _ => ⟨by decide +kernel, fun p h => ?_⟩, fun _ => ⟨by decide +kernel, fun q h => ?_⟩, fun _ => by decide +kernel,
        by decide +kernel⟩
    · rw [hp1 p h]
      exact ⟨by decide +kernel, payable_mk (belongs_val _ _) (by decide +kernel), by decide +kernel⟩
    · rw [hp2 q h]
      exact ⟨by decide +kernel, payable_mk (belongs_val _ _) (by decide +kernel), by decide +kernel, by decide +kernel⟩
  · intro h
    obtain ⟨_, _, _, _, _, _, _, _, c, _, _, hp, _⟩ := (C102_sync_sol_staker r9 (by decide +kernel) (s := solOf w9 sol1)
      (v := { delegatedVote := vote2, withdrawer := staker, effective := 3000 }) (rest := []) rfl (by decide +kernel)
      (by decide +kernel) (by decide +kernel) (by decide) (by decide +kernel) heff (ix_writes _ _ _ _)).1 h
    exact absurd (((hp (by decide +kernel)).2 (valOf w9 val1) (by decide +kernel)).1) (by decide +kernel)

end Verif.Props
