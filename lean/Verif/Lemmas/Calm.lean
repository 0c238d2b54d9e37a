import Verif.Lemmas.LiveSync
/-!
# Which handlers can panic

The lemmas reduce a panic of a handler to a failed assertion. Everything but the assertions never panics.
-/

namespace Verif

set_option linter.unusedSimpArgs false

variable {env : Env} {o : Oracle} {w w' : World} {ix : Ix}

theorem bind_panic {α β} {x : Res α} {f : α → Res β} :
    (x >>= f) = .error .panic ↔ x = .error .panic ∨ ∃ a, x = .ok a ∧ f a = .error .panic := by
  cases x with
  | error e => simp [bind, Except.bind]
  | ok a => simp [bind, Except.bind]

theorem require_panic {p : Prop} [Decidable p] {e : Err} : require p e = .error .panic ↔ ¬ p ∧ e = .panic := by
  unfold require; split <;> simp [*]

theorem pure_panic {α} {a : α} : (pure a : Res α) = .error .panic ↔ False := by simp [pure, Except.pure]

theorem ok_panic {α} {a : α} : (Except.ok a : Res α) = .error .panic ↔ False := by simp

theorem error_panic {α} {e : Err} : (Except.error e : Res α) = .error .panic ↔ e = .panic := by simp

theorem ite_panic {α} {p : Prop} [Decidable p] {x y : Res α} :
    (if p then x else y) = .error .panic ↔ (p ∧ x = .error .panic) ∨ (¬p ∧ y = .error .panic) := by
  split <;> simp [*]

theorem addU64_panic {a b : Nat} : addU64 a b = .error .panic ↔ False := by unfold addU64; split <;> simp
theorem subU64_panic {a b : Nat} : subU64 a b = .error .panic ↔ False := by unfold subU64; split <;> simp
theorem mulDivU64_panic {a b d : Nat} : mulDivU64 a b d = .error .panic ↔ False := by unfold mulDivU64; split <;> simp
theorem eligibleRewards_panic {a b d : Nat} : eligibleRewards a b d = .error .panic ↔ False := by
  unfold eligibleRewards; simp only; split
  · simp
  · exact mulDivU64_panic
theorem rewardsPerToken_panic {a b : Nat} : rewardsPerToken a b = .error .panic ↔ False := by
  unfold rewardsPerToken; split
  · simp
  · split <;> simp
theorem maxStake_panic {a : Nat} : maxStake a = .error .panic ↔ False := by
  unfold maxStake; split
  · simp
  · exact mulDivU64_panic
theorem setLamports_panic {k : Key} {n : Nat} : setLamports w k n = .error .panic ↔ False := by
  simp only [setLamports, bind_panic, require_panic, pure_panic, reduceCtorEq, and_false, false_or, or_false, exists_false, or_self]
theorem setData_panic {k : Key} {d : Data} : setData w k d = .error .panic ↔ False := by
  simp only [setData, bind_panic, require_panic, pure_panic, reduceCtorEq, and_false, false_or, or_false, exists_false, or_self]
theorem writeDel_panic {k : Key} {d : Delegation} : writeDel w k d = .error .panic ↔ False := setData_panic
theorem unpackConfig_panic {k : Key} : unpackConfig w k = .error .panic ↔ False := by
  unfold unpackConfig; split <;> simp; split <;> simp
theorem unpackValidator_panic {k : Key} : unpackValidator w k = .error .panic ↔ False := by
  unfold unpackValidator; split <;> simp; split <;> simp
theorem unpackSolStaker_panic {k : Key} : unpackSolStaker w k = .error .panic ↔ False := by
  unfold unpackSolStaker; split <;> simp; split <;> simp
theorem unpackToken_panic {k : Key} : unpackToken w k = .error .panic ↔ False := by
  unfold unpackToken; split <;> simp; split <;> simp
theorem unpackMint_panic {k : Key} : unpackMint w k = .error .panic ↔ False := by
  unfold unpackMint; split <;> simp; split <;> simp
theorem tokenData_panic {k : Key} : tokenData w k = .error .panic ↔ False := by unfold tokenData; split <;> simp
theorem mintData_panic {k : Key} : mintData w k = .error .panic ↔ False := by unfold mintData; split <;> simp
theorem unpackHolder_panic {k : Key} : unpackHolder w k = .error .panic ↔ False := by unfold unpackHolder; split <;> simp
theorem unpackVote_panic {k : Key} : unpackVote w k = .error .panic ↔ False := by
  unfold unpackVote
  simp only [bind_panic, require_panic, reduceCtorEq, and_false, false_or, iff_false]
  rintro ⟨_, _, h⟩
  split at h <;> simp [pure_panic] at h
theorem readDel_panic {k : Key} : readDel w k = .error .panic ↔ False := by unfold readDel; split <;> simp
theorem createVaultPda_panic {c : Key} {b : Nat} : env.createVaultPda c b = .error .panic ↔ False := by
  unfold Env.createVaultPda; split <;> simp
theorem syncConfigLamports_panic {l : Nat} {c : Config} : syncConfigLamports l c = .error .panic ↔ False := by
  simp only [syncConfigLamports, bind_panic, subU64_panic, rewardsPerToken_panic, pure_panic, reduceCtorEq, and_false, false_or, or_false, exists_false, or_self]
theorem payKeeper_panic {keeper : Option Key} {n : Nat} : payKeeper w keeper n = .error .panic ↔ False := by
  unfold payKeeper; split <;> simp only [bind_panic, addU64_panic, setLamports_panic, ok_panic, and_false, exists_false, or_self]
theorem checkDuna_panic {signer doc : Key} {hash : List UInt8} : checkDuna w signer doc hash = .error .panic ↔ False := by
  unfold checkDuna
  simp only [bind_panic, require_panic, reduceCtorEq, and_false, false_or, iff_false]
  rintro ⟨_, _, h⟩
  split at h <;> simp [pure_panic] at h
theorem checkConfigUninit_panic {d : Data} : checkConfigUninit d = .error .panic ↔ False := by
  unfold checkConfigUninit
  split
  · simp
  · split <;> simp [require_panic]
theorem tokenTransfer_panic {ctx : Ctx} {s m d a : Key} {b : Bool} {n c : Nat} :
    tokenTransfer ctx w s m d a b n c = .error .panic ↔ False := by
  simp only [tokenTransfer, bind_panic, require_panic, tokenData_panic, mintData_panic, ite_panic, pure_panic, reduceCtorEq, and_false, false_or, or_false, exists_false, or_self]
theorem tokenBurn_panic {ctx : Ctx} {s m a : Key} {n c : Nat} :
    tokenBurn ctx w s m a n c = .error .panic ↔ False := by
  simp only [tokenBurn, bind_panic, require_panic, tokenData_panic, mintData_panic, pure_panic, reduceCtorEq, and_false, false_or, or_false, exists_false, or_self]
theorem systemAllocate_panic {ctx : Ctx} {k : Key} {n : Nat} : systemAllocate ctx w k n = .error .panic ↔ False := by
  simp only [systemAllocate, bind_panic, require_panic, pure_panic, reduceCtorEq, and_false, false_or, or_false, exists_false, or_self]
theorem systemAssign_panic {ctx : Ctx} {k : Key} : systemAssign ctx w k = .error .panic ↔ False := by
  simp only [systemAssign, bind_panic, require_panic, pure_panic, ite_panic, reduceCtorEq, and_false, false_or, or_false, exists_false, or_self]
theorem callOut_panic {view : World} {held passed : List Key} : callOut view w held passed = .error .panic ↔ False := by
  simp only [callOut, bind_panic, require_panic, reduceCtorEq, and_false, false_or, or_false, exists_false, or_self]
theorem slashDelegation_panic {ctx : Ctx} {u : World} {a b c d e f : Key} {n : Nat} :
    slashDelegation ctx u w a b c d e f n = .error .panic ↔ False := by
  simp only [slashDelegation, callOut_panic, bind_panic, require_panic, readDel_panic, subU64_panic, writeDel_panic, unpackMint_panic, tokenBurn_panic, ite_panic, pure_panic, reduceCtorEq, and_false, false_or, or_false, exists_false, or_self]
theorem transferExcess_panic {a b : Key} : transferExcess env w a b = .error .panic ↔ False := by
  simp only [transferExcess, bind_panic, require_panic, setLamports_panic, reduceCtorEq, and_false, false_or, or_false, exists_false, or_self]
theorem syncEffective_panic {ck sk : Key} {l m : Nat} : syncEffective w ck sk l m = .error .panic ↔ False := by
  simp only [syncEffective, bind_panic, unpackConfig_panic, readDel_panic, maxStake_panic, subU64_panic, addU64_panic, setData_panic, writeDel_panic, reduceCtorEq, and_false, false_or, or_false, exists_false, or_self]
theorem unstakeView_panic {sk ck : Key} : unstakeView w sk ck = .error .panic ↔ False := by
  simp only [unstakeView, error_panic, bind_panic, ite_panic, unpackValidator_panic, unpackSolStaker_panic, pure_panic, reduceCtorEq, and_false, false_or, or_false, exists_false, or_self]

/-- A settlement panics only when the config cannot pay. -/
theorem harvest_panic {ck hk auth va sk : Key} {keeper : Option Key}
    (h : harvest env w ck hk auth va sk keeper = .error .panic) :
    ∃ c d hr rs rh, (w ck).data = .config c ∧ (w sk).data.del? = some d ∧ auth = d.authority ∧
      (w hk).data = .holder hr ∧ hk = .holderRewardsPda va ∧
      eligibleRewards (accNow c (w ck).lamports) d.lastStake d.effective = .ok rs ∧
      eligibleRewards hr.lastAcc d.lastHolder d.staked = .ok rh ∧
      (w ck).lamports < rs + rh + env.rentMin configLen := by
  simp only [harvest, bind_panic, require_panic, unpackConfig_panic, readDel_panic, unpackHolder_panic, addU64_panic,
    subU64_panic, setLamports_panic, setData_panic, writeDel_panic, eligibleRewards_panic, payKeeper_panic,
    syncConfigLamports_panic, reduceCtorEq, and_false, false_or, or_false, exists_false, require_ok, exists_unit,
    unpackConfig_ok, readDel_ok, unpackHolder_ok, addU64_ok, subU64_ok, and_true] at h
  obtain ⟨c, hc, d, hd, ha, c1, hc1, rs, hrs, hhk, hr, hhr, rh, hrh, _, ⟨_, rfl⟩, _, ⟨hle, rfl⟩, hlt⟩ := h
  obtain ⟨_, e⟩ := syncConfigLamports_ok hc1
  rw [e] at hrs
  exact ⟨c, d, hr, rs, rh, hc, hd, ha, hhr, hhk, hrs, hrh, by omega⟩

/-- A settlement of an account of the config panics only when the config has less than what the account has accrued and the
rent minimum. -/
theorem harvest_broke {ck hk auth sk : Key} {keeper : Option Key}
    (h : harvest env w ck hk auth (env.vaultAuth ck) sk keeper = .error .panic) (hcO : (w ck).owner = progId)
    (hsO : (w sk).owner = progId) (hb : belongs sk ck) :
    (w ck).lamports < accrued env w ck sk + env.rentMin configLen ∧ authorityOf w sk = some auth := by
  obtain ⟨c, d, hr, rs, rh, hc, hd, ha, hh, hk, e1, e2, hlt⟩ := harvest_panic h
  have hst := stakeAt_eq.2 ⟨hsO, hd⟩
  refine ⟨?_, by unfold authorityOf; rw [hst, ha]; rfl⟩
  have hacc : holderAcc env ck w = hr.lastAcc := by
    unfold holderAcc vaultRecord
    rw [← hk, holderAt_data.2 hh]; rfl
  rw [accrued_eq (configAt_eq.2 ⟨hcO, hc⟩) hst hb]
  unfold due
  rw [hacc, ← eligible_eq e1, ← eligible_eq e2]
  exact hlt

/-- What is left after a settlement that does not pay the config itself. -/
theorem Harvested.after {ck hk auth sk : Key} {keeper : Option Key} {c : Config} {d : Delegation} {h : HolderRewards}
    {rs rh : Nat} (H : Harvested env w w' ck hk auth (env.vaultAuth ck) sk keeper c d h rs rh) (W : w.WF)
    (hcO : (w ck).owner = progId) (hsO : (w sk).owner = progId) (hb : belongs sk ck) (ha : auth ≠ ck) :
    w'.WF ∧ Settled ck (accNow c (w ck).lamports) w' ∧ (w' ck).lamports + accrued env w ck sk = (w ck).lamports ∧
      ∀ k, k ≠ sk → dueAt env w' ck (accNow c (w ck).lamports) k = accrued env w ck k := by
  have hl : (w' ck).lamports = (w ck).lamports - (rs + rh) := by rw [H.lamports', if_neg (Ne.symm ha), if_pos rfl]
  have hr := H.rent
  refine ⟨H.wf W, ⟨_, H.config', rfl, hl.symm⟩, ?_, fun k hk => ?_⟩
  · rw [← H.paid hcO hsO hb, hl]; omega
  · rw [accrued_dueAt (configAt_eq.2 ⟨hcO, H.config⟩)]
    by_cases e : k = ck
    · subst e
      have h1 : stakeAt w k = none := by
        rw [stakeAt_eq', if_pos hcO, H.config]; rfl
      have h2 : stakeAt w' k = none := by
        rw [stakeAt_eq', if_pos (by rw [H.owner]; exact hcO), H.config']; rfl
      unfold dueAt
      rw [h1, h2, Option.map_none, Option.map_none]
    · exact dueAt_congr (H.stakeAt_other e hk) (H.holderAcc' ck)

end Verif
