import Verif.Lemmas.CalmIx
import Verif.SpecErrors
/-!
# Where the errors of the stake program come from
-/

namespace Verif

set_option linter.unusedSimpArgs false

variable {env : Env} {o : Oracle} {ctx : Ctx} {w w' : World} {ix : Ix} {e : StakeError}

theorem require_stake {p : Prop} [Decidable p] {x : Err} : require p x = .error (.stake e) ↔ ¬ p ∧ x = .stake e := by
  unfold require; split <;> simp [*]

theorem error_stake {α} {x : Err} : (Except.error x : Res α) = .error (.stake e) ↔ x = .stake e := by simp

theorem bind_stake {α β} {x : Res α} {f : α → Res β} :
    (x >>= f) = .error (.stake e) ↔ x = .error (.stake e) ∨ ∃ a, x = .ok a ∧ f a = .error (.stake e) := by
  cases x with
  | error e => simp [bind, Except.bind]
  | ok a => simp [bind, Except.bind]

theorem pure_stake {α} {a : α} : (pure a : Res α) = .error (.stake e) ↔ False := by simp [pure, Except.pure]

theorem ok_stake {α} {a : α} : (Except.ok a : Res α) = .error (.stake e) ↔ False := by simp

theorem ite_stake {α} {p : Prop} [Decidable p] {x y : Res α} :
    (if p then x else y) = .error (.stake e) ↔ (p ∧ x = .error (.stake e)) ∨ (¬p ∧ y = .error (.stake e)) := by
  split <;> simp [*]

theorem addU64_stake {a b : Nat} : addU64 a b = .error (.stake e) ↔ False := by unfold addU64; split <;> simp
theorem subU64_stake {a b : Nat} : subU64 a b = .error (.stake e) ↔ False := by unfold subU64; split <;> simp
theorem mulDivU64_stake {a b d : Nat} : mulDivU64 a b d = .error (.stake e) ↔ False := by unfold mulDivU64; split <;> simp
theorem eligibleRewards_stake {a b d : Nat} : eligibleRewards a b d = .error (.stake e) ↔ False := by
  unfold eligibleRewards; simp only; split
  · simp
  · exact mulDivU64_stake
theorem rewardsPerToken_stake {a b : Nat} : rewardsPerToken a b = .error (.stake e) ↔ False := by
  unfold rewardsPerToken; split
  · simp
  · split <;> simp
theorem maxStake_stake {a : Nat} : maxStake a = .error (.stake e) ↔ False := by
  unfold maxStake; split
  · simp
  · exact mulDivU64_stake
theorem setLamports_stake {k : Key} {n : Nat} : setLamports w k n = .error (.stake e) ↔ False := by
  simp only [setLamports, bind_stake, require_stake, pure_stake, reduceCtorEq, and_false, false_or, or_false, exists_false, or_self]
theorem setData_stake {k : Key} {d : Data} : setData w k d = .error (.stake e) ↔ False := by
  simp only [setData, bind_stake, require_stake, pure_stake, reduceCtorEq, and_false, false_or, or_false, exists_false, or_self]
theorem writeDel_stake {k : Key} {d : Delegation} : writeDel w k d = .error (.stake e) ↔ False := setData_stake
theorem unpackConfig_stake {k : Key} : unpackConfig w k = .error (.stake e) ↔ False := by
  unfold unpackConfig; split <;> simp; split <;> simp
theorem unpackValidator_stake {k : Key} : unpackValidator w k = .error (.stake e) ↔ False := by
  unfold unpackValidator; split <;> simp; split <;> simp
theorem unpackSolStaker_stake {k : Key} : unpackSolStaker w k = .error (.stake e) ↔ False := by
  unfold unpackSolStaker; split <;> simp; split <;> simp
theorem unpackToken_stake {k : Key} : unpackToken w k = .error (.stake e) ↔ False := by
  unfold unpackToken; split <;> simp; split <;> simp
theorem unpackMint_stake {k : Key} : unpackMint w k = .error (.stake e) ↔ False := by
  unfold unpackMint; split <;> simp; split <;> simp
theorem tokenData_stake {k : Key} : tokenData w k = .error (.stake e) ↔ False := by unfold tokenData; split <;> simp
theorem mintData_stake {k : Key} : mintData w k = .error (.stake e) ↔ False := by unfold mintData; split <;> simp
theorem unpackHolder_stake {k : Key} : unpackHolder w k = .error (.stake e) ↔ False := by unfold unpackHolder; split <;> simp
theorem unpackVote_stake {k : Key} : unpackVote w k = .error (.stake e) ↔ False := by
  unfold unpackVote
  simp only [bind_stake, require_stake, reduceCtorEq, and_false, false_or, iff_false]
  rintro ⟨_, _, h⟩
  split at h <;> simp [pure_stake] at h
theorem readDel_stake {k : Key} : readDel w k = .error (.stake e) ↔ False := by unfold readDel; split <;> simp
theorem createVaultPda_stake {c : Key} {b : Nat} : env.createVaultPda c b = .error (.stake e) ↔ False := by
  unfold Env.createVaultPda; split <;> simp
theorem syncConfigLamports_stake {l : Nat} {c : Config} : syncConfigLamports l c = .error (.stake e) ↔ False := by
  simp only [syncConfigLamports, bind_stake, subU64_stake, rewardsPerToken_stake, pure_stake, reduceCtorEq, and_false, false_or, or_false, exists_false, or_self]
theorem payKeeper_stake {keeper : Option Key} {n : Nat} : payKeeper w keeper n = .error (.stake e) ↔ False := by
  unfold payKeeper; split <;> simp only [bind_stake, addU64_stake, setLamports_stake, ok_stake, and_false, exists_false, or_self]
theorem tokenTransfer_stake {ctx : Ctx} {s m d a : Key} {b : Bool} {n c : Nat} :
    tokenTransfer ctx w s m d a b n c = .error (.stake e) ↔ False := by
  simp only [tokenTransfer, bind_stake, require_stake, tokenData_stake, mintData_stake, ite_stake, pure_stake, reduceCtorEq, and_false, false_or, or_false, exists_false, or_self]
theorem tokenBurn_stake {ctx : Ctx} {s m a : Key} {n c : Nat} :
    tokenBurn ctx w s m a n c = .error (.stake e) ↔ False := by
  simp only [tokenBurn, bind_stake, require_stake, tokenData_stake, mintData_stake, pure_stake, reduceCtorEq, and_false, false_or, or_false, exists_false, or_self]
theorem systemAllocate_stake {ctx : Ctx} {k : Key} {n : Nat} : systemAllocate ctx w k n = .error (.stake e) ↔ False := by
  simp only [systemAllocate, bind_stake, require_stake, pure_stake, reduceCtorEq, and_false, false_or, or_false, exists_false, or_self]
theorem systemAssign_stake {ctx : Ctx} {k : Key} : systemAssign ctx w k = .error (.stake e) ↔ False := by
  simp only [systemAssign, bind_stake, require_stake, pure_stake, ite_stake, reduceCtorEq, and_false, false_or, or_false, exists_false, or_self]
theorem transferExcess_stake {a b : Key} : transferExcess env w a b = .error (.stake e) ↔ False := by
  simp only [transferExcess, bind_stake, require_stake, setLamports_stake, reduceCtorEq, and_false, false_or, or_false, exists_false, or_self]
theorem syncEffective_stake {ck sk : Key} {l m : Nat} : syncEffective w ck sk l m = .error (.stake e) ↔ False := by
  simp only [syncEffective, bind_stake, unpackConfig_stake, readDel_stake, maxStake_stake, subU64_stake, addU64_stake, setData_stake, writeDel_stake, reduceCtorEq, and_false, false_or, or_false, exists_false, or_self]
theorem unstakeView_stake {sk ck : Key} : unstakeView w sk ck = .error (.stake e) ↔ False := by
  simp only [unstakeView, error_stake, bind_stake, ite_stake, unpackValidator_stake, unpackSolStaker_stake, pure_stake, reduceCtorEq, and_false, false_or, or_false, exists_false, or_self]


theorem checkDuna_stake {signer doc : Key} {hash : List UInt8} : checkDuna w signer doc hash = .error (.stake e) ↔
    doc = .dunaPda signer hash ∧ (∀ b, (w doc).data ≠ .bytes (1 :: b)) ∧ e = .dunaDocumentNotInitialized := by
  unfold checkDuna
  simp only [bind_stake, require_stake, reduceCtorEq, and_false, false_or, require_ok, exists_unit]
  split
  · rename_i b hb
    simp [pure_stake, hb]
  · rename_i hn
    simp only [Except.error.injEq, Err.stake.injEq]
    constructor
    · rintro ⟨h, rfl⟩; exact ⟨h, fun b hb => hn b hb, rfl⟩
    · rintro ⟨h, _, rfl⟩; exact ⟨h, rfl⟩

theorem checkConfigUninit_stake {d : Data} : checkConfigUninit d = .error (.stake e) ↔
    d.len ≠ configLen ∧ e = .invalidAccountDataLength := by
  unfold checkConfigUninit
  split
  · rename_i h; simp [h, eq_comm]
  · rename_i h
    split <;> simp [require_stake, h]

theorem callOut_stake {view : World} {held passed : List Key} : callOut view w held passed = .error (.stake e) ↔ False := by
  simp only [callOut, bind_stake, require_stake, reduceCtorEq, and_false, false_or, or_false, exists_false, or_self]
theorem slashDelegation_stake {u : World} {a b c d f g : Key} {n : Nat} : slashDelegation ctx u w a b c d f g n = .error (.stake e) →
    n = 0 ∧ e = .invalidAmount := by
  simp only [slashDelegation, callOut_stake, bind_stake, require_stake, readDel_stake, subU64_stake, writeDel_stake, unpackMint_stake,
    tokenBurn_stake, ite_stake, pure_stake, reduceCtorEq, and_false, false_or, or_false, exists_false, or_self, require_ok,
    exists_unit, Err.stake.injEq]
  rintro ⟨_, h, rfl⟩
  exact ⟨by omega, rfl⟩

theorem harvest_stake {ck hk auth va sk : Key} {keeper : Option Key} (h : harvest env w ck hk auth va sk keeper = .error (.stake e)) :
    (e = .invalidAuthority ∧ ∃ d, (w sk).data.del? = some d ∧ auth ≠ d.authority) ∨
    (e = .invalidVaultHolderRewardsSeeds ∧ hk ≠ .holderRewardsPda va) := by
  simp only [harvest, bind_stake, require_stake, unpackConfig_stake, readDel_stake, unpackHolder_stake, addU64_stake,
    subU64_stake, setLamports_stake, setData_stake, writeDel_stake, eligibleRewards_stake, payKeeper_stake,
    syncConfigLamports_stake, reduceCtorEq, and_false, false_or, or_false, exists_false, require_ok, exists_unit,
    unpackConfig_ok, readDel_ok, unpackHolder_ok, addU64_ok, subU64_ok, and_true, Err.stake.injEq] at h
  obtain ⟨c, hc, d, hd, ⟨h, rfl⟩ | ⟨_, _, _, _, _, h, rfl⟩⟩ := h
  · exact .inl ⟨rfl, d, hd, h⟩
  · exact .inr ⟨rfl, h⟩

/-- A settlement does not touch token accounts. -/
theorem Harvested.token_before {ck hk auth va sk : Key} {keeper : Option Key} {c : Config} {d : Delegation}
    {h : HolderRewards} {rs rh : Nat} (H : Harvested env w w' ck hk auth va sk keeper c d h rs rh) {k : Key} {t : TokenAccount}
    (ht : (w' k).data = .token t) : (w k).data = .token t := by
  by_cases h1 : k = ck
  · subst h1; rw [H.config'] at ht; cases ht
  by_cases h2 : k = sk
  · subst h2
    have := H.del'
    rw [ht] at this; cases this
  rw [← H.data' k h1 h2]; exact ht

/-- Reduce an error of the stake program to the failed checks. -/
macro "blame " f:ident " at " h:ident : tactic => `(tactic|
  simp only [$f:ident, bind_stake, require_stake, unpackConfig_stake, unpackValidator_stake, unpackSolStaker_stake,
    unpackToken_stake, unpackMint_stake, unpackVote_stake, readDel_stake, addU64_stake, subU64_stake, mulDivU64_stake,
    setData_stake, writeDel_stake, createVaultPda_stake, tokenTransfer_stake, systemAllocate_stake, systemAssign_stake,
    transferExcess_stake, callOut_stake, syncEffective_stake, unstakeView_stake, checkDuna_stake,
    checkConfigUninit_stake, syncConfigLamports_stake, ite_stake, pure_stake, ok_stake, error_stake, reduceCtorEq, and_false,
    false_or, or_false, exists_false, require_ok, exists_unit, unpackConfig_ok, unpackValidator_ok, unpackSolStaker_ok,
    createVaultPda_ok, unpackToken_ok, readDel_ok, and_true, Err.stake.injEq, ne_eq, not_not] at $h:ident)

end Verif
