import Verif.Witness
/-!
# A history with two configs

The second config uses the same mint and the same validator as the first.
-/

namespace Verif.Witness

open Verif

abbrev cfgB : Key := .raw 200
abbrev vaultB : Key := .raw 202
abbrev vaultAuthB : Key := .vaultPda cfgB 255
abbrev holderB : Key := .holderRewardsPda vaultAuthB
abbrev valB : Key := .validatorPda vote1 cfgB

/-- The accounts that exist at the start: those of the first history and those of the second config. -/
def tableB : List (Key × Account) :=
  [ (cfgB, ⟨5000000, progId, .bytes (List.replicate 192 0)⟩),
    (vaultB, ⟨3000000, tokenId, tokens vaultAuthB 0⟩),
    (vaultAuthB, ⟨890880, systemId, .bytes []⟩),
    (holderB, ⟨2000000, rewardsId, .holder { lastAcc := 0, deposited := 0 }⟩),
    (valB, ⟨3000000, systemId, .bytes []⟩) ] ++ table

def b0 : World := look tableB

theorem genesisB : Genesis b0 where
  wf := by
    refine ⟨fun k => look_all (P := fun _ a => a.lamports < U64 ∧ a.data.WF) ?_ ?_ k, by decide⟩
    · simp [tableB, table, Data.WF, tokens, U64]
    · simp [nothing, Data.WF]
  owned := fun k => look_all (P := fun _ a => a.owner = progId → a.data.zeroed)
    (by simp only [tableB, table, List.cons_append, List.nil_append, List.forall_mem_cons]
        simp [Data.zeroed, -List.reduceReplicate]) (by simp [nothing]) k
  derived := fun k => look_all (P := fun k a => k.ofProgram = true → a.owner = systemId ∧ a.data = .bytes [])
    (by simp [tableB, table, Key.ofProgram]) (by simp [nothing]) k

def ixInitConfigB : Ix :=
  ix (.initializeConfig (bytes32 151) (bytes32 150) 100 5000 10 hash)
    [cfgB, mint, vaultAuthB, vaultB, holderB, systemId, rewardsId] []
def ixInitValB : Ix := ix .initializeValidatorStake [cfgB, .dunaPda auth1 hash, valB, vote1, systemId] []
def ixOverrideB : Ix :=
  ix (.validatorOverrideStakedLamports 5000) [cfgB, configAuth, valB, auth1, holderB] [configAuth]
def ixStakeValB : Ix :=
  ix (.validatorStakeTokens 3000)
    [cfgB, pool, poolToken, valB, auth1, source, holderOwner, mint, vaultAuthB, vaultB, holderB, tokenId, rewardsId]
    [holderOwner]

def b1 : World := after o1 b0 ixInitConfig
def b2 : World := after o1 b1 ixInitConfigB
def b3 : World := after o1 b2 ixInitVal1
def b4 : World := after o1 b3 ixInitValB
def b5 : World := after o1 b4 ixOverride
def b6 : World := after o1 b5 ixOverrideB
def b7 : World := after o1 b6 ixStakeVal1
def b8 : World := after o1 b7 ixStakeValB
/-- Stake rewards arrive on both configs. -/
def b9 : World := credit b8 cfg 10000
def b10 : World := credit b9 cfgB 10000
def b11 : World := after o1 b10 ixHarvestVal1

theorem okb0 : okB o1 b0 ixInitConfig = true := by decide +kernel
theorem okb1 : okB o1 b1 ixInitConfigB = true := by decide +kernel
theorem okb2 : okB o1 b2 ixInitVal1 = true := by decide +kernel
theorem okb3 : okB o1 b3 ixInitValB = true := by decide +kernel
theorem okb4 : okB o1 b4 ixOverride = true := by decide +kernel
theorem okb5 : okB o1 b5 ixOverrideB = true := by decide +kernel
theorem okb6 : okB o1 b6 ixStakeVal1 = true := by decide +kernel
theorem okb7 : okB o1 b7 ixStakeValB = true := by decide +kernel
theorem ltb8 : decide ((b8 cfg).lamports + 10000 < U64) = true := by decide +kernel
theorem ltb9 : decide ((b9 cfgB).lamports + 10000 < U64) = true := by decide +kernel
theorem okb10 : okB o1 b10 ixHarvestVal1 = true := by decide +kernel

theorem rb0 : Reachable env b0 := .genesis genesisB
theorem rb1 : Reachable env b1 := by unfold b1; exact .exec rb0 o1_ok (ok_after okb0)
theorem rb2 : Reachable env b2 := by unfold b2; exact .exec rb1 o1_ok (ok_after okb1)
theorem rb3 : Reachable env b3 := by unfold b3; exact .exec rb2 o1_ok (ok_after okb2)
theorem rb4 : Reachable env b4 := by unfold b4; exact .exec rb3 o1_ok (ok_after okb3)
theorem rb5 : Reachable env b5 := by unfold b5; exact .exec rb4 o1_ok (ok_after okb4)
theorem rb6 : Reachable env b6 := by unfold b6; exact .exec rb5 o1_ok (ok_after okb5)
theorem rb7 : Reachable env b7 := by unfold b7; exact .exec rb6 o1_ok (ok_after okb6)
theorem rb8 : Reachable env b8 := by unfold b8; exact .exec rb7 o1_ok (ok_after okb7)
theorem rb9 : Reachable env b9 := by
  unfold b9; exact .ext rb8 (credit_ext (reachable_inv rb8).wf (of_decide_eq_true ltb8))
theorem rb10 : Reachable env b10 := by
  unfold b10; exact .ext rb9 (credit_ext (reachable_inv rb9).wf (of_decide_eq_true ltb9))
theorem rb11 : Reachable env b11 := by unfold b11; exact .exec rb10 o1_ok (ok_after okb10)

end Verif.Witness
