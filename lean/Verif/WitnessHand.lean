import Verif.WitnessLive
/-!
# Witness of C92: stakers who hold their tokens themselves

From the state `w9` (12000 lamports pending for the first validator, 3000 for the first SOL staker) the owner of the source token
account hands it over: to the validator's authority in `p9`, to the staker in `q9`. `p10`, `q10` follow once the reward is paid.
-/

namespace Verif.Witness

open Verif

/-- A token account gets a new owner. -/
def giveTokens (w : World) (k owner : Key) : World :=
  match (w k).data with
  | .token t => if (w k).owner = tokenId ∧ k.ofProgram = false then
      w.set k { w k with data := .token { t with owner := owner } } else w
  | _ => w

theorem giveTokens_ext {w : World} (wf : w.WF) {k owner : Key} : ExtStep w (giveTokens w k owner) := by
  have hr : ExtStep w w := extStep_of wf (fun _ => rfl) fun _ _ => ⟨rfl, le_rfl⟩
  unfold giveTokens
  split
  · rename_i t ht
    split_ifs with hc
    · have wt := (wf.1 k).2; rw [ht] at wt
      have ho : ∀ k', (w.set k { w k with data := .token { t with owner := owner } } k').owner = (w k').owner := by
        intro k'; simp only [World.set_apply]; split_ifs <;> simp_all
      refine extStep_of (wf_of wf ho fun k' => ?_) ho fun k' hk => ?_
      · simp only [World.set_apply]
        split_ifs with e
        · subst e; exact ⟨Or.inl rfl, Or.inr ⟨wt.1, wt.2⟩⟩
        · exact ⟨Or.inl rfl, Or.inl rfl⟩
      · have : k' ≠ k := by rintro rfl; simp_all
        simp [World.set_apply, this]
    · exact hr
  · exact hr

def p9 : World := giveTokens w9 source auth1
def q9 : World := giveTokens w9 source staker

theorem rp9 : Reachable env p9 := .ext r9 (giveTokens_ext (reachable_inv r9).wf)
theorem rq9 : Reachable env q9 := .ext r9 (giveTokens_ext (reachable_inv r9).wf)

/-- The stakers stake their own tokens. -/
def ixOwnVal1 : Ix := ix (.validatorStakeTokens 100)
  [cfg, pool, poolToken, val1, auth1, source, auth1, mint, vaultAuth, vault, holder, tokenId, rewardsId] [auth1]
def ixOwnSol1 : Ix := ix (.solStakerStakeTokens 100)
  [cfg, pool, poolToken, sol1, staker, source, staker, mint, vaultAuth, vault, holder, tokenId, rewardsId] [staker]

def p10 : World := after o1 p9 ixHarvestVal1
def q10 : World := after o2 q9 ixHarvestSol1

theorem okp9 : okB o1 p9 ixHarvestVal1 = true := by decide +kernel
theorem okq9 : okB o2 q9 ixHarvestSol1 = true := by decide +kernel
theorem okp10 : okB o1 p10 ixOwnVal1 = true := by decide +kernel
theorem okq10 : okB o1 q10 ixOwnSol1 = true := by decide +kernel

end Verif.Witness
