import Verif.Lemmas.Extra
import Verif.Props.Order
/-!
# C89: accounts too many, accounts too few
-/

namespace Verif.Props

open Verif Verif.Witness

variable {env : Env} {o : Oracle} {w w' : World}

/-- **C89.** What follows the accounts an instruction takes does not matter: two requests with the same data, the same leading
accounts and the same rights on them have the same result, be it a state or an error. -/
theorem C89_extra_accounts_ignored (L : o.Local) (S : o.Sees) {ix ix' : Ix} {i : StakeInstruction} {ks rest rest' : List Key}
    (hi : ix.decoded = some i) (hd : ix'.data = ix.data) (hn : ks.length = accountCount i) (e : ix.ctx.accts = ks ++ rest)
    (e' : ix'.ctx.accts = ks ++ rest') (f : SameRights ks ix.ctx ix'.ctx) : exec env o w ix = exec env o w ix' :=
  exec_congr L S hi hd hn e e' f

/-- **C89.** An account that is not among those an instruction takes is unchanged, even if it is passed as writable or as signer. -/
theorem C89_extra_accounts_unchanged (L : o.Local) (S : o.Sees) {ix : Ix} {i : StakeInstruction} (hi : ix.decoded = some i)
    (h : exec env o w ix = .ok w') {k : Key} (hk : k ∉ ix.ctx.accts.take (accountCount i)) : w' k = w k := by
  obtain ⟨⟨j, hj, hd⟩, _⟩ := exec_ok h
  rw [hi] at hj; cases hj
  rcases Nat.lt_or_ge ix.ctx.accts.length (accountCount i) with hl | hl
  · rw [dispatch_few hl] at hd; cases hd
  · exact dispatch_keeps L S (rest := ix.ctx.accts.drop (accountCount i)) (by simpa using hl)
      (List.take_append_drop ..).symm hd hk

/-- **C89.** A request with too few accounts is refused with `NotEnoughAccountKeys` in every state. -/
theorem C89_too_few_accounts {ix : Ix} {i : StakeInstruction} (hi : ix.decoded = some i)
    (h : ix.ctx.accts.length < accountCount i) : exec env o w ix = .error .notEnoughAccountKeys := by
  simp only [exec, processInstruction, decoded_eq.1 hi]
  change (do let w' ← dispatch env o ix.ctx w i; _) = _
  rw [dispatch_few h]
  rfl

/-- A harvest with the account of another config's validator appended as writable: same result, and that account is unchanged. -/
example : ∃ w', exec Witness.env o1 w9 ixHarvestVal1 = .ok w' ∧
    exec Witness.env o1 w9 (ix .harvestValidatorRewards [cfg, holder, val1, auth1, val2, sol1] []) = .ok w' ∧
    w' val2 = w9 val2 ∧ w' ≠ w9 := by
  refine ⟨w10, ok_after ok9, ?_, ?_, ?_⟩
  · have e : exec Witness.env o1 w9 ixHarvestVal1 =
        exec Witness.env o1 w9 (ix .harvestValidatorRewards [cfg, holder, val1, auth1, val2, sol1] []) :=
      C89_extra_accounts_ignored (i := .harvestValidatorRewards) (ks := [cfg, holder, val1, auth1]) (rest := [])
        (rest' := [val2, sol1]) (oracle_local _ _ _) (oracle_sees _ _ _) (by decide +kernel) (by decide +kernel) rfl rfl rfl
        (by unfold SameRights; decide +kernel)
    rw [← e]
    exact ok_after ok9
  · exact C89_extra_accounts_unchanged (oracle_local _ _ _) (oracle_sees _ _ _) (ix := ixHarvestVal1)
      (i := .harvestValidatorRewards) (by decide +kernel) (ok_after ok9) (by decide +kernel)
  · intro h
    have : w10 val1 ≠ w9 val1 := by decide +kernel
    exact this (congrFun h val1)

/-- A harvest without the authority's account. -/
example : exec Witness.env o1 w9 (ix .harvestValidatorRewards [cfg, holder, val1] []) = .error .notEnoughAccountKeys :=
  C89_too_few_accounts (i := .harvestValidatorRewards) (by decide +kernel) (by decide +kernel)

end Verif.Props
