import Verif.SpecFoot
import Verif.Lemmas.Footprint
import Verif.WitnessLive
/-!
# C63: which accounts an instruction can change
-/

namespace Verif.Props

open Verif Verif.Witness

variable {env : Env} {o : Oracle} {w w' : World} {ix : Ix} {i : StakeInstruction}

/-- **C63.** A successful instruction changes no account (lamports, owner and data) except those at the positions of its
footprint: whatever other addresses the sender lists, and whether or not they are marked writable. -/
theorem C63_footprint (R : Reachable env w) (L : o.Local) (h : exec env o w ix = .ok w') (hi : ix.decoded = some i)
    {k : Key} (hk : ∀ p ∈ footprint i, ix.acct p ≠ some k) : w' k = w k :=
  exec_same (reachable_inv R).wf L h hi hk

/-- The reference rewards program changes only accounts it is called with. -/
theorem oracle_local (time : Int) (view : Key → Res StakeView) (pay : Nat) : (oracle time view pay).Local := by
  constructor
  · intro w c w' h k hk
    simp only [oracle, harvestRewards] at h
    simp only [RewardsCall.accounts, List.mem_cons, List.not_mem_nil, or_false, not_or] at hk
    split at h
    · split_ifs at h
      rw [← Except.ok.inj h]
      simp only [World.set_apply]
      split_ifs <;> simp_all
    · simp at h
  · intro w c w' h k hk
    simp only [oracle, deposit] at h
    simp only [RewardsCall.accounts, List.mem_cons, List.not_mem_nil, or_false, not_or] at hk
    split at h
    · split_ifs at h
      rw [← Except.ok.inj h]
      simp only [World.set_apply]
      split_ifs <;> simp_all
    · simp at h
  · intro w c w' h k hk
    simp only [oracle, withdraw] at h
    simp only [RewardsCall.accounts, List.mem_cons, List.not_mem_nil, or_false, not_or] at hk
    split at h
    · split_ifs at h
      rw [← Except.ok.inj h]
      simp only [World.set_apply]
      split_ifs <;> simp_all
    · simp at h

/-- Staking on `val1` changes the stake account but leaves the other validator and the mint alone. -/
example : w6 val1 ≠ w5 val1 ∧ w6 val2 = w5 val2 ∧ w6 mint = w5 mint := by
  have f := fun {k} => C63_footprint (k := k) r5 (oracle_local _ _ _) (ok_after ok5)
    (i := .validatorStakeTokens 2000) (by decide +kernel)
  refine ⟨by decide +kernel, f (by decide +kernel), f (by decide +kernel)⟩

end Verif.Props
