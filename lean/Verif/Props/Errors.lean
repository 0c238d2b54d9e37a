import Verif.Lemmas.BlameIx
import Verif.Model.Errors
import Verif.Props.Panic
/-!
# C86, C87: what the program's error codes say, and how the clients show them
-/

namespace Verif.Props

open Verif Verif.Witness

variable {env : Env} {o : Oracle} {w w' : World} {ix : Ix} {e : StakeError}

/-- **C86.** An instruction that fails with an error of the stake program fails for the reason that the error names: `Reason`
says for every error what is then wrong with the accounts, the amounts or the time. (Supposing that the called programs fail
under their own numbers: a number of theirs cannot be told from one of the stake program.) -/
theorem C86_error_reason (R : Reachable env w) (F : o.Foreign) (h : exec env o w ix = .error (.stake e)) :
    Reason env o w ix e := by
  have I := reachable_inv R
  simp only [exec, processInstruction, bind_stake, require_stake, pure_stake, reduceCtorEq, and_false, or_false, exists_false] at h
  rcases h with h | ⟨i, hi, hd⟩
  · have := C31_rejected _ h
    simp at this
  rw [← decoded_eq] at hi
  unfold dispatch at hd
  split at hd
  · exact initializeConfig_blame hi (by assumption) hd
  · exact initializeValidatorStake_blame hi (by assumption) hd
  · exact validatorStakeTokens_blame F hi (by assumption) hd
  · exact harvestHolderRewards_blame I F hi (by assumption) hd
  · exact harvestValidatorRewards_blame hi (by assumption) hd
  · exact slashValidatorStake_blame I hi (by assumption) hd
  · exact setAuthority_blame hi (by assumption) hd
  · exact updateConfig_blame hi (by assumption) hd
  · exact initializeSolStakerStake_blame F hi (by assumption) hd
  · exact solStakerStakeTokens_blame F hi (by assumption) hd
  · exact harvestSolStakerRewards_blame I F hi (by assumption) hd
  · exact unstakeTokens_blame F hi (by assumption) hd
  · exact slashSolStakerStake_blame I hi (by assumption) hd
  · exact solStakerMoveTokens_blame hi (by assumption) hd
  · exact validatorOverride_blame hi (by assumption) hd
  · exact (validatorSyncAuthority_blame hd).elim
  · simp at hd

/-- The errors that are declared but not used. -/
def unusedErrors : List StakeError :=
  [.invalidTransferHookProgramId, .missingTransferHook, .invalidTokenAccountExtension, .invalidSlashAmount,
    .totalStakeAmountExceedsSolLimit, .invalidHolderRewards]

/-- **C86.** Six of the declared errors are never returned. -/
theorem C86_never_returned (R : Reachable env w) (F : o.Foreign) (he : e ∈ unusedErrors) :
    exec env o w ix ≠ .error (.stake e) := by
  intro h
  have := C86_error_reason R F h
  simp only [unusedErrors, List.mem_cons, List.not_mem_nil, or_false] at he
  rcases he with rfl | rfl | rfl | rfl | rfl | rfl <;> exact this

/-! ## The cases occur -/

theorem oracle_foreign {t : Int} {v : Key → Res StakeView} {p : Nat} (hv : ∀ k x, v k ≠ .error (.stake x)) :
    (Witness.oracle t v p).Foreign where
  view := hv
  harvestRewards w c x h := by
    change Witness.harvestRewards _ w c = _ at h; unfold Witness.harvestRewards at h; split at h <;> (try split_ifs at h) <;> simp at h
  deposit w c x h := by
    change Witness.deposit w c = _ at h; unfold Witness.deposit at h; split at h <;> (try split_ifs at h) <;> simp at h
  withdraw w c x h := by
    change Witness.withdraw w c = _ at h; unfold Witness.withdraw at h; split at h <;> (try split_ifs at h) <;> simp at h

theorem o1_foreign : o1.Foreign := oracle_foreign fun k x h => by unfold view1 at h; split_ifs at h; simp at h
theorem o2_foreign : o2.Foreign := oracle_foreign fun k x h => by unfold view2 at h; split_ifs at h; simp at h

/-- A native stake that is not delegated. -/
def oIdle : Oracle := oracle 1000 (fun _ => .ok { delegatedVote := .default, withdrawer := staker, effective := 0 }) 5000
theorem oIdle_foreign : oIdle.Foreign := oracle_foreign fun k x h => by simp at h
theorem oIdle_ok : oIdle.Ok := oracle_ok fun h => by obtain rfl := Except.ok.inj h; decide

/-- The content of a token account changes. -/
theorem set_ext {w : World} (wf : w.WF) {k : Key} {d : Data} (ho : (w k).owner ≠ progId) (hk : k.ofProgram = false)
    (hd : d.WF) : ExtStep w (w.set k { w k with data := d }) := by
  have hO : ∀ k', (w.set k { w k with data := d } k').owner = (w k').owner := by
    intro k'; simp only [World.set_apply]; split_ifs <;> simp_all
  refine extStep_of (wf_of wf hO fun k' => ?_) hO fun k' h => ?_
  · simp only [World.set_apply]
    split_ifs with e
    · subst e; exact ⟨Or.inl rfl, Or.inr hd⟩
    · exact ⟨Or.inl rfl, Or.inl rfl⟩
  · have : k' ≠ k := by rintro rfl; simp_all
    simp [World.set_apply, this]

/-- An account with another content. -/
def put (w : World) (k : Key) (d : Data) : World := w.set k { w k with data := d }

theorem put_reachable {w : World} (R : Reachable Witness.env w) {k : Key} {d : Data}
    (h : decide ((w k).owner ≠ progId ∧ k.ofProgram = false) = true) (hd : d.WF) : Reachable Witness.env (put w k d) := by
  simp only [decide_eq_true_eq] at h
  exact .ext R (set_ext (reachable_inv R).wf h.1 h.2 hd)

/-- An empty vault. -/
def emptyVault : TokenAccount :=
  { mint := mint, owner := vaultAuth, amount := 0, delegate := none, delegatedAmount := 0, closeAuthority := none, frozen := false }

def initWith (cfg mint va vault rec : Key) : Ix :=
  Witness.ix (.initializeConfig (bytes32 151) (bytes32 150) 100 5000 10 Witness.hash)
    [cfg, mint, va, vault, rec, systemId, rewardsId] []

def unstakeWith (n : Nat) (va mint dest : Key) : Ix :=
  Witness.ix (.unstakeTokens n)
    [cfg, pool, poolToken, sol1, staker, vault, va, holder, mint, dest, tokenId, rewardsId] [staker]

theorem err_amount : errOf o1 (put w0 vault (.token { emptyVault with amount := 5 })) ixInitConfig =
  some (.stake .amountGreaterThanZero) := by decide +kernel
theorem err_owner : errOf o1 w0 (initWith cfg mint vaultAuth source holder) = some (.stake .invalidTokenOwner) := by
  decide +kernel
theorem err_close : errOf o1 (put w0 vault (.token { emptyVault with closeAuthority := some keeper })) ixInitConfig =
  some (.stake .closeAuthorityNotNone) := by decide +kernel
theorem err_delegate : errOf o1 (put w0 vault (.token { emptyVault with delegate := some keeper })) ixInitConfig =
  some (.stake .delegateNotNone) := by decide +kernel
theorem err_length : errOf o1 (put w2 vault (.token { emptyVault with owner := .vaultPda val1 255 }))
  (initWith val1 mint (.vaultPda val1 255) vault (.holderRewardsPda (.vaultPda val1 255))) =
  some (.stake .invalidAccountDataLength) := by decide +kernel
theorem err_mint : errOf o2 w12 (unstakeWith 150 vaultAuth source dest) = some (.stake .invalidMint) := by decide +kernel
theorem err_authority : errOf o2 w12 (Witness.ix .harvestValidatorRewards [cfg, holder, val1, auth2] []) =
  some (.stake .invalidAuthority) := by decide +kernel
theorem err_not_set : errOf o2 w20 ixUpdate = some (.stake .authorityNotSet) := by decide +kernel
theorem err_too_much : errOf o2 w12 (unstakeWith 501 vaultAuth mint dest) = some (.stake .insufficientStakeAmount) := by decide +kernel
theorem err_max : errOf o2 w12 (unstakeWith 201 vaultAuth mint dest) =
  some (.stake .maximumDeactivationAmountExceeded) := by decide +kernel
theorem err_cooldown : errOf o2 w13 (unstakeWith 10 vaultAuth mint dest) = some (.stake .activeUnstakeCooldown) := by decide +kernel
theorem err_zero : errOf o2 w14 (Witness.ix (.slashValidatorStake 0) [cfg, val1, auth1, slashAuth, vault, holder, vaultAuth, mint,
  tokenId] [slashAuth]) = some (.stake .invalidAmount) := by decide +kernel
theorem err_vault : errOf o2 w14 (Witness.ix (.slashValidatorStake 1) [cfg, val1, auth1, slashAuth, source, holder, vaultAuth,
  mint, tokenId] [slashAuth]) = some (.stake .incorrectVaultAccount) := by decide +kernel
theorem err_dest : errOf o2 w12 (unstakeWith 150 vaultAuth mint vault) = some (.stake .invalidDestinationAccount) := by
  decide +kernel
theorem err_undelegated : errOf oIdle w3 ixInitSol1 = some (.stake .undelegatedSolStakeAccount) := by decide +kernel
theorem err_native : errOf o1 w9 (Witness.ix .harvestSolStakerRewards
  [viewId, cfg, holder, sol1, staker, native2, val1, auth1, val2, auth2, .raw 9, keeper] []) =
  some (.stake .incorrectSolStakeAccount) := by decide +kernel
theorem err_duna : errOf o1 (put w1 (.dunaPda auth1 Witness.hash) (.bytes [])) ixInitVal1 =
  some (.stake .dunaDocumentNotInitialized) := by decide +kernel
theorem err_pda : errOf o2 w12 (unstakeWith 150 keeper mint dest) = some (.stake .incorrectVaultPdaAccount) := by decide +kernel
theorem err_vault_owner : errOf o1 (put w6 vault (.token { emptyVault with owner := keeper })) ixStakeSol1 =
  some (.stake .invalidVaultPdaOwner) := by decide +kernel
theorem err_seeds : errOf o1 w0 (initWith cfg mint vaultAuth vault keeper) =
  some (.stake .invalidVaultHolderRewardsSeeds) := by decide +kernel


/-- **C86.** The other twenty errors are all returned by some instruction in some reachable state. -/
theorem C86_returned (e : StakeError) (he : e ∉ unusedErrors) : ∃ (o : Oracle) (w : World) (ix : Ix),
    o.Ok ∧ o.Foreign ∧ Reachable Witness.env w ∧ exec Witness.env o w ix = .error (.stake e) := by
  have t : ∀ {t : TokenAccount}, t.amount < U64 → t.delegatedAmount = 0 → (Data.token t).WF := fun h1 h2 =>
    ⟨h1, by rw [h2]; decide⟩
  cases e
  case amountGreaterThanZero =>
    exact ⟨_, _, _, o1_ok, o1_foreign, put_reachable r0 (by decide +kernel) (t (by decide) rfl), err_after err_amount⟩
  case invalidTokenOwner => exact ⟨_, _, _, o1_ok, o1_foreign, r0, err_after err_owner⟩
  case closeAuthorityNotNone =>
    exact ⟨_, _, _, o1_ok, o1_foreign, put_reachable r0 (by decide +kernel) (t (by decide) rfl), err_after err_close⟩
  case delegateNotNone =>
    exact ⟨_, _, _, o1_ok, o1_foreign, put_reachable r0 (by decide +kernel) (t (by decide) rfl), err_after err_delegate⟩
  case invalidAccountDataLength =>
    exact ⟨_, _, _, o1_ok, o1_foreign, put_reachable r2 (by decide +kernel) (t (by decide) rfl), err_after err_length⟩
  case invalidMint => exact ⟨_, _, _, o2_ok, o2_foreign, r12, err_after err_mint⟩
  case invalidAuthority => exact ⟨_, _, _, o2_ok, o2_foreign, r12, err_after err_authority⟩
  case authorityNotSet => exact ⟨_, _, _, o2_ok, o2_foreign, r20, err_after err_not_set⟩
  case insufficientStakeAmount => exact ⟨_, _, _, o2_ok, o2_foreign, r12, err_after err_too_much⟩
  case invalidAmount => exact ⟨_, _, _, o2_ok, o2_foreign, r14, err_after err_zero⟩
  case maximumDeactivationAmountExceeded => exact ⟨_, _, _, o2_ok, o2_foreign, r12, err_after err_max⟩
  case activeUnstakeCooldown => exact ⟨_, _, _, o2_ok, o2_foreign, r13, err_after err_cooldown⟩
  case incorrectVaultAccount => exact ⟨_, _, _, o2_ok, o2_foreign, r14, err_after err_vault⟩
  case invalidDestinationAccount => exact ⟨_, _, _, o2_ok, o2_foreign, r12, err_after err_dest⟩
  case undelegatedSolStakeAccount => exact ⟨_, _, _, oIdle_ok, oIdle_foreign, r3, err_after err_undelegated⟩
  case incorrectSolStakeAccount => exact ⟨_, _, _, o1_ok, o1_foreign, r9, err_after err_native⟩
  case dunaDocumentNotInitialized =>
    exact ⟨_, _, _, o1_ok, o1_foreign, put_reachable r1 (by decide +kernel) (show Data.WF (.bytes []) from trivial), err_after err_duna⟩
  case incorrectVaultPdaAccount => exact ⟨_, _, _, o2_ok, o2_foreign, r12, err_after err_pda⟩
  case invalidVaultPdaOwner =>
    exact ⟨_, _, _, o1_ok, o1_foreign, put_reachable r6 (by decide +kernel) (t (by decide) rfl), err_after err_vault_owner⟩
  case invalidVaultHolderRewardsSeeds => exact ⟨_, _, _, o1_ok, o1_foreign, r0, err_after err_seeds⟩
  all_goals exact absurd (by decide) he

/-- The hypotheses of `C86_error_reason` are met, and what it then says: an unstake during the cooldown. -/
example : Reason Witness.env o2 w13 (unstakeWith 10 vaultAuth mint dest) .activeUnstakeCooldown :=
  C86_error_reason r13 o2_foreign (err_after err_cooldown)

/-! ## C87 -/

/-- **C87.** Different errors have different numbers. -/
theorem C87_code_injective {e e' : StakeError} (h : e.code = e'.code) : e = e' := by
  revert h
  cases e <;> cases e' <;> first | (intro _; rfl) | (intro h; exact absurd h (by decide))

/-- **C87.** The Rust client turns the number of an error into the variant of the same name and text, and turns
no other number into an error. -/
theorem C87_rust_client (n : Nat) :
    (∀ e : StakeError, e.code = n → rustFromU32 n = some ⟨e.name, n, e.message⟩) ∧
    ((∀ e : StakeError, e.code ≠ n) → rustFromU32 n = none) := by
  constructor
  · rintro e rfl
    cases e <;> rfl
  · intro h
    unfold rustFromU32
    rw [List.find?_eq_none]
    have key : ∀ x ∈ rustErrors, ∃ e : StakeError, e.code = x.code := by
      have : ∀ x ∈ rustErrors, x.code < 26 := by decide
      intro x hx
      have hc : ∀ m : Fin 26, ∃ e : StakeError, e.code = m.1 := by
        intro m
        exact ⟨StakeError.ofNat m.1, by revert m; decide⟩
      exact hc ⟨x.code, this x hx⟩
    intro x hx
    obtain ⟨e, he⟩ := key x hx
    have := h e
    rw [he] at this
    simpa using this

/-- **C87.** The JavaScript client shows the program's text for every error, unless it is built for production, where it
shows no text of the program at all. -/
theorem C87_js_client (e : StakeError) : jsErrorMessage false e.code = some e.message ∧
    ∀ n, jsErrorMessage true n = some "Error message not available in production bundles." := by
  refine ⟨?_, fun _ => rfl⟩
  cases e <;> decide +kernel

/-- **C87.** The interface description, the Rust client and the JavaScript client list the same errors, with the same numbers
and texts, each once. -/
theorem C87_lists : rustErrors = idlErrors ∧ idlErrors.map (·.code) = List.range 26 ∧
    jsErrorCodes.map (·.2) = List.range 26 ∧
    jsErrorCodes.map (fun x => jsErrorMessage false x.2) = idlErrors.map fun x => some x.message := by
  decide +kernel

end Verif.Props
