import Verif.Lemmas.FaultIx
import Verif.Props.Errors
/-!
# C104: what Solana's standard error codes say
-/

namespace Verif.Props

open Verif Verif.Witness

variable {env : Env} {o : Oracle} {w w' : World} {ix : Ix} {e : Err}

theorem cons_of_length {α : Type} {l : List α} {n : Nat} (h : n + 1 ≤ l.length) : ∃ a l', l = a :: l' ∧ n ≤ l'.length := by
  cases l with
  | nil => simp at h
  | cons a l => exact ⟨a, l, rfl, by simpa using h⟩

/-- **C104.** An instruction that fails with a standard error code fails for the reason that the code names: `Fault` says for every code what is
then wrong with the data, the accounts or the signatures. (Supposing that a failure of a called program counts as such: its
code passes through the stake program.) -/
theorem C104_standard_errors (R : Reachable env w) (O : o.Ok) (F : o.FailsAsCall) (h : exec env o w ix = .error e) :
    Fault env o w ix e := by
  have I := reachable_inv R
  suffices B : Blames (exec env o w ix) (Fault env o w ix) from B _ h
  unfold exec
  refine .bind ?_ fun w1 h1 => .reqBind (fun hn => ?_) fun _ => .reqBind (fun _ => trivial) fun _ => .pure
  · unfold processInstruction
    refine .bind (fun x hx => ?_) fun i hi => ?_
    · obtain rfl : x = .invalidInstructionData := by
        have := C31_rejected _ hx
        exact this
      change ix.decoded = none
      rw [Option.eq_none_iff_forall_not_mem]
      intro i hi
      rw [Option.mem_def, decoded_eq, hx] at hi
      simp at hi
    rw [← decoded_eq] at hi
    unfold dispatch
    split
    · exact initializeConfig_fault hi (by assumption) rfl
    · exact initializeValidatorStake_fault hi (by assumption)
    · exact validatorStakeTokens_fault I F hi (by assumption)
    · exact harvestHolderRewards_fault I O F hi (by assumption)
    · exact harvestValidatorRewards_fault I hi (by assumption)
    · exact slashValidatorStake_fault I hi (by assumption)
    · exact setAuthority_fault hi (by assumption)
    · exact updateConfig_fault hi (by assumption)
    · exact initializeSolStakerStake_fault F hi (by assumption)
    · exact solStakerStakeTokens_fault I F hi (by assumption)
    · exact harvestSolStakerRewards_fault I F hi (by assumption) rfl
    · exact unstakeTokens_fault I F hi (by assumption)
    · exact slashSolStakerStake_fault I hi (by assumption)
    · exact solStakerMoveTokens_fault I hi (by assumption)
    · exact validatorOverride_fault I hi (by assumption)
    · exact validatorSyncAuthority_fault hi (by assumption)
    · refine .error (.inl ⟨_, hi, ?_⟩)
      by_contra hn
      rw [not_lt] at hn
      rename_i i _ _ H0 H1 H2 H3 H4 H5 H6 H7 H8 H9 H10 H11 H12 H13 H14 H15
      generalize ix.ctx.accts = l at *
      cases i <;> simp only [accountCount] at hn <;> 
        (repeat (obtain ⟨_, _, hl, hm⟩ := cons_of_length hn; clear hn; subst hl; have hn := hm; clear hm)) <;>
        first
        | exact H0 _ _ _ _ _ _ _ _ _ _ _ _ _ _ rfl rfl
        | exact H1 _ _ _ _ _ _ rfl rfl
        | exact H2 _ _ _ _ _ _ _ _ _ _ _ _ _ _ _ rfl rfl
        | exact H3 _ _ _ _ _ _ _ _ _ _ _ rfl rfl
        | exact H4 _ _ _ _ _ rfl rfl
        | exact H5 _ _ _ _ _ _ _ _ _ _ _ rfl rfl
        | exact H6 _ _ _ _ _ rfl rfl
        | exact H7 _ _ _ _ rfl rfl
        | exact H8 _ _ _ _ _ _ _ _ _ _ rfl rfl
        | exact H9 _ _ _ _ _ _ _ _ _ _ _ _ _ _ _ rfl rfl
        | exact H10 _ _ _ _ _ _ _ _ _ _ _ _ _ rfl rfl
        | exact H11 _ _ _ _ _ _ _ _ _ _ _ _ _ _ rfl rfl
        | exact H12 _ _ _ _ _ _ _ _ _ _ _ rfl rfl
        | exact H13 _ _ _ _ _ _ _ rfl rfl
        | exact H14 _ _ _ _ _ _ _ rfl rfl
        | exact H15 _ _ _ _ rfl rfl
  · push Not at hn
    obtain ⟨k, hk, hw, _⟩ := hn
    exact ⟨k, hk, by simpa using hw⟩

/-! ## The cases occur -/

theorem oracle_fails {t : Int} {v : Key → Res StakeView} {p : Nat} (hv : ∀ k x, v k = .error x → x = .cpi) :
    (Witness.oracle t v p).FailsAsCall where
  view := hv
  harvestRewards w c x h := by
    change Witness.harvestRewards _ w c = _ at h; unfold Witness.harvestRewards at h
    split at h <;> (try split_ifs at h) <;> cases h <;> rfl
  deposit w c x h := by
    change Witness.deposit w c = _ at h; unfold Witness.deposit at h
    split at h <;> (try split_ifs at h) <;> cases h <;> rfl
  withdraw w c x h := by
    change Witness.withdraw w c = _ at h; unfold Witness.withdraw at h
    split at h <;> (try split_ifs at h) <;> cases h <;> rfl

theorem o1_fails : o1.FailsAsCall := oracle_fails fun k x h => by unfold view1 at h; split_ifs at h; cases h; rfl
theorem o2_fails : o2.FailsAsCall := oracle_fails fun k x h => by unfold view2 at h; split_ifs at h; cases h; rfl

/-- Every native stake is delegated to the first validator. -/
def oAny : Oracle := oracle 1000 (fun _ => .ok { delegatedVote := vote1, withdrawer := staker, effective := 1000 }) 5000
theorem oAny_fails : oAny.FailsAsCall := oracle_fails fun k x h => by simp at h
theorem oAny_ok : oAny.Ok := oracle_ok fun h => by obtain rfl := Except.ok.inj h; decide

/-- A start at which nobody has funded the vault authority. -/
def poor0 : World := look ((vaultAuth, ⟨0, systemId, .bytes []⟩) :: table)

theorem poor_genesis : Genesis poor0 where
  wf := by
    refine ⟨fun k => look_all (P := fun _ a => a.lamports < U64 ∧ a.data.WF) ?_ ?_ k, by decide⟩
    · simp [table, Data.WF, tokens, U64]
    · simp [nothing, Data.WF]
  owned := fun k => look_all (P := fun _ a => a.owner = progId → a.data.zeroed)
    (by simp only [table, List.forall_mem_cons]; simp [Data.zeroed, -List.reduceReplicate]) (by simp [nothing]) k
  derived := fun k => look_all (P := fun k a => k.ofProgram = true → a.owner = systemId ∧ a.data = .bytes [])
    (by simp [table, Key.ofProgram]) (by simp [nothing]) k

def poor1 : World := after o1 poor0 ixInitConfig

theorem poor1_reachable : Reachable Witness.env poor1 :=
  .exec (.genesis poor_genesis) o1_ok (ok_after (by decide +kernel))

theorem fault_data : errOf o1 w1 { data := [99], ctx := ixUpdate.ctx } = some .invalidInstructionData := by decide +kernel
theorem fault_keys : errOf o1 w1 (Witness.ix (.updateConfig (.cooldownTimeSeconds 200)) [cfg] []) =
  some .notEnoughAccountKeys := by decide +kernel
theorem fault_signature : errOf o2 w12 (Witness.ix (.unstakeTokens 150)
  [cfg, pool, poolToken, sol1, staker, vault, vaultAuth, holder, mint, dest, tokenId, rewardsId] []) =
  some .missingRequiredSignature := by decide +kernel
theorem fault_owner : errOf o2 w12 (Witness.ix .harvestValidatorRewards [cfg, holder, source, auth1] []) =
  some .invalidAccountOwner := by decide +kernel
theorem fault_uninitialised : errOf o1 w0 ixUpdate = some .uninitializedAccount := by decide +kernel
theorem fault_content : errOf o1 w0 (initWith cfg staker vaultAuth vault holder) = some .invalidAccountData := by decide +kernel
theorem fault_record : errOf o1 (put w12 holder (.bytes [])) ixHarvestVal1 = some .borshIo := by decide +kernel
theorem fault_initialised : errOf o1 w1 ixInitConfig = some .accountAlreadyInitialized := by decide +kernel
theorem fault_rent : errOf oAny w3 (Witness.ix .initializeSolStakerStake
  [cfg, .dunaPda staker Witness.hash, .solStakerPda (.raw 9000) cfg, .overridePda staker cfg, val1, .raw 9000, .raw 9, systemId, viewId] []) =
  some .accountNotRentExempt := by decide +kernel
theorem fault_seeds : errOf o2 w12 (Witness.ix .validatorSyncAuthority [cfg, val1, vote2] []) = some .invalidSeeds := by decide +kernel
theorem fault_program : errOf o2 w14 (Witness.ix (.slashValidatorStake 300)
  [cfg, val1, auth1, slashAuth, vault, holder, vaultAuth, mint, rewardsId] [slashAuth]) = some .incorrectProgramId := by decide +kernel
theorem fault_argument : errOf o1 w1 (Witness.ix (.updateConfig (.maxDeactivationBasisPoints 10001)) [cfg, configAuth] [configAuth]) =
  some .invalidArgument := by decide +kernel
theorem fault_funds : errOf o1 poor1 ixHarvestHolder = some .insufficientFunds := by decide +kernel
theorem fault_borrow : errOf o2 w12 (Witness.ix (.solStakerMoveTokens 100) [cfg, holder, staker, sol1, sol1] [staker]) =
  some .accountBorrowFailed := by decide +kernel
theorem fault_borrow_config : errOf o2 w12 (Witness.ix .harvestValidatorRewards [cfg, holder, cfg, auth1] []) =
  some .accountBorrowFailed := by decide +kernel
theorem fault_readonly : errOf o1 w1 { ixUpdate with ctx := { ixUpdate.ctx with writable := fun _ => false } } =
  some .readonlyModified := by decide +kernel

/-- The codes that `Fault` explains. -/
def explained : List Err :=
  [.invalidInstructionData, .notEnoughAccountKeys, .missingRequiredSignature, .invalidAccountOwner, .uninitializedAccount,
    .invalidAccountData, .borshIo, .accountAlreadyInitialized, .accountNotRentExempt, .invalidSeeds, .incorrectProgramId,
    .invalidArgument, .insufficientFunds, .accountBorrowFailed, .readonlyModified]

/-- **C104.** Every one of these codes is returned by some instruction in some reachable state. -/
theorem C104_returned (e : Err) (he : e ∈ explained) : ∃ (o : Oracle) (w : World) (ix : Ix),
    o.Ok ∧ o.FailsAsCall ∧ Reachable Witness.env w ∧ exec Witness.env o w ix = .error e := by
  simp only [explained, List.mem_cons, List.not_mem_nil, or_false] at he
  rcases he with rfl | rfl | rfl | rfl | rfl | rfl | rfl | rfl | rfl | rfl | rfl | rfl | rfl | rfl | rfl
  · exact ⟨_, _, _, o1_ok, o1_fails, r1, err_after fault_data⟩
  · exact ⟨_, _, _, o1_ok, o1_fails, r1, err_after fault_keys⟩
  · exact ⟨_, _, _, o2_ok, o2_fails, r12, err_after fault_signature⟩
  · exact ⟨_, _, _, o2_ok, o2_fails, r12, err_after fault_owner⟩
  · exact ⟨_, _, _, o1_ok, o1_fails, r0, err_after fault_uninitialised⟩
  · exact ⟨_, _, _, o1_ok, o1_fails, r0, err_after fault_content⟩
  · exact ⟨_, _, _, o1_ok, o1_fails, put_reachable r12 (by decide +kernel) (show Data.WF (.bytes []) from trivial),
      err_after fault_record⟩
  · exact ⟨_, _, _, o1_ok, o1_fails, r1, err_after fault_initialised⟩
  · exact ⟨_, _, _, oAny_ok, oAny_fails, r3, err_after fault_rent⟩
  · exact ⟨_, _, _, o2_ok, o2_fails, r12, err_after fault_seeds⟩
  · exact ⟨_, _, _, o2_ok, o2_fails, r14, err_after fault_program⟩
  · exact ⟨_, _, _, o1_ok, o1_fails, r1, err_after fault_argument⟩
  · exact ⟨_, _, _, o1_ok, o1_fails, poor1_reachable, err_after fault_funds⟩
  · exact ⟨_, _, _, o2_ok, o2_fails, r12, err_after fault_borrow⟩
  · exact ⟨_, _, _, o1_ok, o1_fails, r1, err_after fault_readonly⟩

/-- The hypotheses of `C104_standard_errors` are met, and what it then says: a withdrawal without the authority's signature. -/
example : Fault Witness.env o2 w12 (Witness.ix (.unstakeTokens 150)
    [cfg, pool, poolToken, sol1, staker, vault, vaultAuth, holder, mint, dest, tokenId, rewardsId] []) .missingRequiredSignature :=
  C104_standard_errors r12 o2_ok o2_fails (err_after fault_signature)

/-- The config in place of the stake account: it is borrowed twice. -/
example : Fault Witness.env o2 w12 (Witness.ix .harvestValidatorRewards [cfg, holder, cfg, auth1] []) .accountBorrowFailed :=
  C104_standard_errors r12 o2_ok o2_fails (err_after fault_borrow_config)

end Verif.Props
