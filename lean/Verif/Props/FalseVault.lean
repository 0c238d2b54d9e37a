import Verif.Props.Exact
import Verif.Lemmas.Debit
/-!
# A vault that is no token account

C46: InitializeConfig looks at the data of the vault and of the mint, not at the program that owns them.
-/

namespace Verif.Props

open Verif Verif.Witness

variable {env : Env} {o : Oracle} {w w' : World} {ix : Ix}

/-- The witness accounts, except that vault and mint belong to another program than the token program. -/
def tableFalse : List (Key × Account) :=
  [ (mint, ⟨2000000, .raw 7, .mint { supply := 1000000000, decimals := 9 }⟩),
    (vault, ⟨3000000, .raw 7, tokens vaultAuth 0⟩) ] ++ table

def false0 : World := look tableFalse

theorem genesisFalse : Genesis false0 where
  wf := by
    refine ⟨fun k => look_all (P := fun _ a => a.lamports < U64 ∧ a.data.WF) ?_ ?_ k, by decide⟩
    · simp [tableFalse, table, Data.WF, tokens, U64]
    · simp [nothing, Data.WF]
  owned := fun k => look_all (P := fun _ a => a.owner = progId → a.data.zeroed)
    (by simp only [tableFalse, table, List.cons_append, List.nil_append, List.forall_mem_cons]
        simp [Data.zeroed, -List.reduceReplicate]) (by simp [nothing]) k
  derived := fun k => look_all (P := fun k a => k.ofProgram = true → a.owner = systemId ∧ a.data = .bytes [])
    (by simp [tableFalse, table, Key.ofProgram]) (by simp [nothing]) k

theorem okFalse : okB o1 false0 ixInitConfig = true := by decide +kernel

/-- **C46.** Not checked is which program owns the vault and the mint: there is a state in which a config is created with a
vault and a mint that do not belong to the token program. -/
theorem C46_vault_program_unchecked :
    ∃ (env : Env) (o : Oracle) (w w' : World) (ix : Ix) (ck mint vault : Key) (c : Config), Reachable env w ∧ o.Ok ∧
      exec env o w ix = .ok w' ∧ ix.acct 0 = some ck ∧ ix.acct 1 = some mint ∧ ix.acct 3 = some vault ∧
      configAt w ck = none ∧ configAt w' ck = some c ∧ c.vault = vault ∧ (w' vault).owner ≠ tokenId ∧
      (w' mint).owner ≠ tokenId := by
  have h : ((configAt (after o1 false0 ixInitConfig) cfg).map (·.vault)) = some vault := by decide +kernel
  obtain ⟨c, hc, hv⟩ := Option.map_eq_some_iff.1 h
  exact ⟨Witness.env, o1, false0, _, ixInitConfig, cfg, mint, vault, c, .genesis genesisFalse, o1_ok, ok_after okFalse,
    by decide +kernel, by decide +kernel, by decide +kernel, by decide +kernel, hc, hv, by decide +kernel, by decide +kernel⟩

/-- **C46.** Such a config takes nobody's tokens: while its vault does not belong to the token program, every stake fails. -/
theorem C46_false_vault_takes_no_tokens (R : Reachable env w) (O : o.Ok) {n : Nat}
    (hi : ix.decoded = some (.validatorStakeTokens n) ∨ ix.decoded = some (.solStakerStakeTokens n)) {ck : Key} {c : Config}
    (hck : ix.acct 0 = some ck) (hc : configAt w ck = some c) (hv : (w c.vault).owner ≠ tokenId) :
    exec env o w ix ≠ .ok w' := by
  intro h
  obtain ⟨a, rest, c', d, hr, rs, rh, w1, w2, w3, D', c1, d1, d2, ts, td, hl, S, _⟩ := exec_stake_steps (reachable_inv R) O h hi
  have a0 : ix.acct 0 = some a.config := by simp [Ix.acct, hl, StakeTokensAccts.list]
  rw [hck] at a0; cases a0
  have := configAt_eq.2 ⟨S.cO, S.harv.config⟩
  rw [hc] at this; cases this
  have hO := S.transfer.dstO
  rw [S.adj.owner, S.harv.owner, S.vault] at hO
  exact hv hO

/-- A config with a false vault can even get a validator stake account with effective stake to come; the stake is refused. -/
example : okB o1 false0 ixInitConfig = true ∧ okB o1 (after o1 false0 ixInitConfig) ixInitVal1 = true ∧
    okB o1 (after o1 (after o1 false0 ixInitConfig) ixInitVal1) ixStakeVal1 = false ∧
    ixStakeVal1.decoded = some (.validatorStakeTokens 2000) := by decide +kernel

end Verif.Props
