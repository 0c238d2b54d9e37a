import Verif.Lemmas.RulesEnd
import Verif.Lemmas.FaultIx
import Verif.Props.Errors
import Verif.Props.Faults
import Verif.Props.Footprint
import Verif.Props.Hand
/-!
# C106: what the runtime objects to
-/

namespace Verif.Props

open Verif Verif.Witness

variable {env : Env} {o : Oracle} {w w' : World} {ix : Ix} {e : Err}

/-- **C106.** The runtime never stops an instruction for changing the data of an account of another program; for taking lamports
from an account of another program only if that account is the vault authority, not handed to the program or empty; for
creating or destroying lamports only if an account that is paid was passed in another position as well; and for changing a
read-only account only if an account that the instruction writes was passed as read-only. (Supposing that the rewards
program keeps to the same rules.) -/
theorem C106_objections (R : Reachable env w) (O : o.Ok) (F : o.FailsAsCall) (L : o.Local) (C : o.Conserves)
    (hsup : lamportSum w ix.ctx.accts < 2 ^ 64) (h : exec env o w ix = .error e) : Objection w ix e := by
  have I := reachable_inv R
  suffices B : Blames (exec env o w ix) (Objection w ix) from B _ h
  unfold exec
  refine .bind ?_ fun w1 h1 => ?_
  · unfold processInstruction
    refine .bind (fun x hx => ?_) fun i hi => ?_
    · obtain rfl : x = .invalidInstructionData := by
        have := C31_rejected _ hx
        exact this
      trivial
    rw [← decoded_eq] at hi
    unfold dispatch
    split
    · exact initializeConfig_rules
    · exact initializeValidatorStake_rules
    · exact validatorStakeTokens_rules F hi (by assumption)
    · exact harvestHolderRewards_rules I O F L C hsup hi (by assumption)
    · exact harvestValidatorRewards_rules
    · exact slashValidatorStake_rules hi (by assumption)
    · exact setAuthority_rules
    · exact updateConfig_rules
    · exact initializeSolStakerStake_rules F
    · exact solStakerStakeTokens_rules F hi (by assumption)
    · exact harvestSolStakerRewards_rules F
    · exact unstakeTokens_rules F L hi (by assumption)
    · exact slashSolStakerStake_rules hi (by assumption)
    · exact solStakerMoveTokens_rules
    · exact validatorOverride_rules
    · exact validatorSyncAuthority_rules I
    · exact .error trivial
  · unfold processInstruction at h1
    rw [bind_ok] at h1
    obtain ⟨i, hi, hd⟩ := h1
    rw [← decoded_eq] at hi
    have X := dispatch_ran hi hd
    refine .reqBind (fun hn => ?_) fun _ => .reqBind (fun hn => ?_) fun _ => .pure
    · push Not at hn
      obtain ⟨k, _, hw, hne⟩ := hn
      by_contra hno
      refine hne (ran_same I.wf L X hi fun p hp hk => hno ⟨i, p, k, hi, hp, hk, by simpa using hw⟩)
    · exact (ran_sum I L C X).resolve_left hn

/-- **C106.** If the accounts are distinct, those that the instruction writes are writable, and the vault authority belongs to the
program and is not empty, the runtime has nothing to object to, whatever else is wrong with the instruction. -/
theorem C106_no_objection (R : Reachable env w) (O : o.Ok) (F : o.FailsAsCall) (L : o.Local) (C : o.Conserves)
    (hsup : lamportSum w ix.ctx.accts < 2 ^ 64) (hd : ix.ctx.accts.Nodup)
    (hw : ∀ i p k, ix.decoded = some i → p ∈ footprint i → ix.acct p = some k → ix.ctx.writable k = true)
    (hv : ∀ va, ix.passes .vaultAuthority va → (w va).owner = progId ∧ 0 < (w va).lamports)
    (h : exec env o w ix = .error e) :
    e ≠ .externalDataModified ∧ e ≠ .externalLamportSpend ∧ e ≠ .unbalanced ∧ e ≠ .readonlyModified := by
  have X := C106_objections R O F L C hsup h
  refine ⟨?_, ?_, ?_, ?_⟩ <;> rintro rfl
  · exact X
  · obtain ⟨_, va, hp, hn⟩ := X
    have := hv va hp
    rcases hn with hn | hn
    · exact hn this.1
    · omega
  · obtain ⟨k, _, p, q, hpq, h1, h2⟩ := X
    obtain ⟨hp, h1⟩ := List.getElem?_eq_some_iff.1 h1
    obtain ⟨hq, h2⟩ := List.getElem?_eq_some_iff.1 h2
    exact hpq ((hd.getElem_inj_iff).1 (h1.trans h2.symm))
  · obtain ⟨i, p, k, h1, h2, h3, h4⟩ := X
    rw [hw i p k h1 h2 h3] at h4; cases h4

/-! ## The cases occur -/

theorem oracle_conserves (time : Int) (view : Key → Res StakeView) (pay : Nat) : (oracle time view pay).Conserves := by
  constructor
  · intro w c w' h
    simp only [oracle, harvestRewards] at h
    split at h
    · split_ifs at h with H
      obtain ⟨_, _, _, _, h1, h2, h3, h4, h5, _⟩ := H
      rw [← Except.ok.inj h, lamportSum_eq, lamportSum_eq]
      have s1 := sum_change (S := c.accounts.toFinset) (a := c.pool) (f := fun k => (w k).lamports)
        (g := fun k => (w.set c.pool { w c.pool with lamports := (w c.pool).lamports - pay } k).lamports)
        (by simp [RewardsCall.accounts]) (fun k hk => by simp only [World.set_apply, if_neg hk])
      have s2 := sum_change (S := c.accounts.toFinset) (a := c.owner)
        (f := fun k => (w.set c.pool { w c.pool with lamports := (w c.pool).lamports - pay } k).lamports)
        (g := fun k => ((w.set c.pool { w c.pool with lamports := (w c.pool).lamports - pay }).set c.owner
          { w c.owner with lamports := (w c.owner).lamports + pay } k).lamports)
        (by simp [RewardsCall.accounts]) (fun k hk => by rw [World.set_apply _ c.owner, if_neg hk])
      have s3 := sum_change (S := c.accounts.toFinset) (a := c.holderRewards)
        (f := fun k => ((w.set c.pool { w c.pool with lamports := (w c.pool).lamports - pay }).set c.owner
          { w c.owner with lamports := (w c.owner).lamports + pay } k).lamports)
        (g := fun k => (((w.set c.pool { w c.pool with lamports := (w c.pool).lamports - pay }).set c.owner
          { w c.owner with lamports := (w c.owner).lamports + pay }).set c.holderRewards { w c.holderRewards with
          data := .holder { ‹HolderRewards› with lastAcc := (‹HolderRewards›.lastAcc + pay * scale / ‹HolderRewards›.deposited) % U128 } } k).lamports)
        (by simp [RewardsCall.accounts]) (fun k hk => by rw [World.set_apply _ c.holderRewards, if_neg hk])
      simp only [World.set_apply, if_true, if_neg (Ne.symm h1), if_neg (Ne.symm h2), if_neg (Ne.symm h3)] at s1 s2 s3 ⊢
      omega
    · simp at h
  · intro w c w' h
    simp only [oracle, deposit] at h
    split at h
    · split_ifs at h
      rw [← Except.ok.inj h]
      refine lamportSum_congr _ fun k => ?_
      simp only [World.set_apply]
      split_ifs <;> simp_all
    · simp at h
  · intro w c w' h
    simp only [oracle, withdraw] at h
    split at h
    · split_ifs at h
      rw [← Except.ok.inj h]
      refine lamportSum_congr _ fun k => ?_
      simp only [World.set_apply]
      split_ifs <;> simp_all
    · simp at h

/-- The vault authority of a config that was set up without lamports for it, after the runtime has removed the empty account. -/
def gone1 : World := poor1.set vaultAuth ⟨0, systemId, .bytes []⟩

theorem gone_ext : ExtStep poor1 gone1 := by
  have W := (reachable_inv poor1_reachable).wf
  have hv : (poor1 vaultAuth).lamports = 0 := by decide +kernel
  have ho : (poor1 vaultAuth).owner = progId := by decide +kernel
  refine ⟨⟨fun k => ?_, ?_⟩, fun k => ?_⟩
  · unfold gone1
    rw [World.set_apply]
    split_ifs
    · exact ⟨by decide, trivial⟩
    · exact W.1 k
  · unfold gone1
    rw [World.set_apply, if_neg (by decide)]
    exact W.2
  · by_cases e : k = vaultAuth
    · subst e
      refine ⟨fun _ => .inr ⟨hv, ?_, ?_⟩, fun h => absurd ho h⟩ <;> simp [gone1]
    · have : gone1 k = poor1 k := by unfold gone1; rw [World.set_apply, if_neg e]
      rw [this]
      exact ⟨fun h => .inl ⟨h, rfl, Nat.le_refl _⟩, fun h => ⟨fun _ => ⟨rfl, rfl, Nat.le_refl _⟩, fun _ h' => absurd h' h⟩⟩

theorem gone1_reachable : Reachable Witness.env gone1 := .ext poor1_reachable gone_ext

/-- The rewards program pays 2000000 lamports. -/
def oPays : Oracle := oracle 1000 (fun _ => .error .cpi) 2000000
theorem oPays_ok : oPays.Ok := oracle_ok fun h => by cases h
theorem oPays_fails : oPays.FailsAsCall := oracle_fails fun k x h => by cases h; rfl

theorem rule_lamports : errOf oPays gone1 ixHarvestHolder = some .externalLamportSpend := by decide +kernel
theorem rule_balance : errOf o1 p9 ixOwnVal1 = some .unbalanced := by decide +kernel

/-- **C106.** The three objections that are possible do occur, in reachable states and with a rewards program that keeps to the rules. -/
theorem C106_objections_occur (e : Err) (he : e ∈ [Err.externalLamportSpend, .unbalanced, .readonlyModified]) :
    ∃ (o : Oracle) (w : World) (ix : Ix), Reachable Witness.env w ∧ o.Ok ∧ o.FailsAsCall ∧ o.Local ∧ o.Conserves ∧
      lamportSum w ix.ctx.accts < 2 ^ 64 ∧ exec Witness.env o w ix = .error e := by
  simp only [List.mem_cons, List.not_mem_nil, or_false] at he
  rcases he with rfl | rfl | rfl
  · exact ⟨_, _, _, gone1_reachable, oPays_ok, oPays_fails, oracle_local _ _ _, oracle_conserves _ _ _, by decide +kernel,
      err_after rule_lamports⟩
  · exact ⟨_, _, _, rp9, o1_ok, o1_fails, oracle_local _ _ _, oracle_conserves _ _ _, by decide +kernel, err_after rule_balance⟩
  · exact ⟨_, _, _, r1, o1_ok, o1_fails, oracle_local _ _ _, oracle_conserves _ _ _, by decide +kernel, err_after fault_readonly⟩

/-- The hypotheses of `C106_objections` are met, and what it then says: the authority of the stake is also the owner of the tokens. -/
example : ∃ k, ixOwnVal1.payee k ∧ ixOwnVal1.twice k :=
  C106_objections (e := .unbalanced) rp9 o1_ok o1_fails (oracle_local _ _ _) (oracle_conserves _ _ _) (by decide +kernel)
    (err_after rule_balance)

/-- The hypotheses of `C106_no_objection` are met by a withdrawal that lacks a signature. -/
example : Err.missingRequiredSignature ≠ .unbalanced := by
  refine (C106_no_objection (w := w12) (ix := Witness.ix (.unstakeTokens 150)
    [cfg, pool, poolToken, sol1, staker, vault, vaultAuth, holder, mint, dest, tokenId, rewardsId] []) r12 o2_ok o2_fails
    (oracle_local _ _ _) (oracle_conserves _ _ _) (by decide +kernel) (by decide +kernel) (fun _ _ _ _ _ _ => rfl)
    (fun va h => ?_) (err_after fault_signature)).2.2.1
  obtain ⟨i, p, hi, hp, hv⟩ := h
  rw [← Option.some.inj ((by decide +kernel : _ = some (StakeInstruction.unstakeTokens 150)).symm.trans hi)] at hp
  rw [← Option.some.inj ((by decide +kernel : _ = some 6).symm.trans hp)] at hv
  rw [← Option.some.inj ((by decide +kernel : _ = some vaultAuth).symm.trans hv)]
  decide +kernel

end Verif.Props
