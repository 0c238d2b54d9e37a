import Verif.Lemmas.Preserve
/-!
# From an executed instruction to its handler; the invariant of reachable worlds
-/

namespace Verif

variable {env : Env} {o : Oracle} {w w' : World} {ix : Ix}

/-! ## Account lists in the order of the instruction -/

def InitializeConfigAccts.list (a : InitializeConfigAccts) : List Key :=
  [a.config, a.mint, a.vaultPda, a.vault, a.vaultHolderRewards, a.systemProgram, a.rewardsProgram]
def InitializeValidatorStakeAccts.list (a : InitializeValidatorStakeAccts) : List Key :=
  [a.config, a.dunaDocumentPda, a.validatorStake, a.validatorVote, a.systemProgram]
def InitializeSolStakerStakeAccts.list (a : InitializeSolStakerStakeAccts) : List Key :=
  [a.config, a.dunaDocumentPda, a.solStakerStake, a.solStakerAuthorityOverride, a.validatorStake,
    a.solStakerNativeStake, a.sysvarStakeHistory, a.systemProgram, a.solStakeViewProgram]
def StakeTokensAccts.list (a : StakeTokensAccts) : List Key :=
  [a.config, a.holderRewardsPool, a.holderRewardsPoolTokenAccount, a.stake, a.stakeAuthority, a.sourceTokenAccount,
    a.sourceTokenAccountAuthority, a.mint, a.vaultPda, a.vault, a.vaultHolderRewards, a.tokenProgram, a.rewardsProgram]
def HarvestHolderRewardsAccts.list (a : HarvestHolderRewardsAccts) : List Key :=
  [a.config, a.holderRewardsPool, a.holderRewardsPoolTokenAccount, a.vault, a.vaultHolderRewards, a.vaultPda, a.mint,
    a.tokenProgram, a.paladinRewardsProgram, a.systemProgram]
def HarvestValidatorRewardsAccts.list (a : HarvestValidatorRewardsAccts) : List Key :=
  [a.config, a.vaultHolderRewards, a.validatorStake, a.validatorStakeAuthority]
/-- `keeper` is the account in the last position; the program's own id stands for "absent". -/
def HarvestSolStakerRewardsAccts.list (a : HarvestSolStakerRewardsAccts) (keeper : Key) : List Key :=
  [a.solStakeViewProgram, a.config, a.vaultHolderRewards, a.solStakerStake, a.solStakerStakeAuthority,
    a.solStakerNativeStake, a.previousValidatorStake, a.previousValidatorStakeAuthority, a.currentValidatorStake,
    a.currentValidatorStakeAuthority, a.sysvarStakeHistory, keeper]
def SlashAccts.listValidator (a : SlashAccts) : List Key :=
  [a.config, a.stake, a.stakeAuthority, a.slashAuthority, a.vault, a.vaultHolderRewards, a.vaultAuthority, a.mint,
    a.tokenProgram]
def SlashAccts.listSolStaker (a : SlashAccts) : List Key :=
  [a.config, a.stake, a.stakeAuthority, a.slashAuthority, a.mint, a.vault, a.vaultHolderRewards, a.vaultAuthority,
    a.tokenProgram]
def SetAuthorityAccts.list (a : SetAuthorityAccts) : List Key := [a.account, a.authority, a.newAuthority]
def UpdateConfigAccts.list (a : UpdateConfigAccts) : List Key := [a.config, a.configAuthority]
def UnstakeTokensAccts.list (a : UnstakeTokensAccts) : List Key :=
  [a.config, a.holderRewardsPool, a.holderRewardsPoolTokenAccount, a.stake, a.stakeAuthority, a.vault, a.vaultPda,
    a.vaultHolderRewards, a.mint, a.destinationTokenAccount, a.tokenProgram, a.rewardsProgram]
def SolStakerMoveTokensAccts.list (a : SolStakerMoveTokensAccts) : List Key :=
  [a.config, a.vaultHolderRewards, a.solStakerAuthority, a.sourceSolStakerStake, a.destinationSolStakerStake]
def ValidatorOverrideStakedLamportsAccts.list (a : ValidatorOverrideStakedLamportsAccts) : List Key :=
  [a.config, a.configAuthority, a.validatorStake, a.validatorStakeAuthority, a.vaultHolderRewards]
def ValidatorSyncAuthorityAccts.list (a : ValidatorSyncAuthorityAccts) : List Key :=
  [a.config, a.validatorStake, a.validatorVote]

/-- Which handler ran, on which accounts. -/
inductive Ran (env : Env) (o : Oracle) (w w' : World) (ix : Ix) : Prop
  | initializeConfig (a : InitializeConfigAccts) (s c h : List UInt8) (t b y : Nat) (rest : List Key) :
      ix.decoded = some (.initializeConfig s c t b y h) → ix.ctx.accts = a.list ++ rest →
      initializeConfig env ix.ctx w a
        { slashAuthority := env.keyOfBytes s, configAuthority := env.keyOfBytes c, cooldownTime := t, maxBps := b,
          syncRewards := y, dunaHash := h } = .ok w' → Ran env o w w' ix
  | initializeValidatorStake (a : InitializeValidatorStakeAccts) (rest : List Key) :
      ix.decoded = some .initializeValidatorStake → ix.ctx.accts = a.list ++ rest →
      initializeValidatorStake env ix.ctx w a = .ok w' → Ran env o w w' ix
  | validatorStakeTokens (a : StakeTokensAccts) (amount : Nat) (rest : List Key) :
      ix.decoded = some (.validatorStakeTokens amount) → ix.ctx.accts = a.list ++ rest →
      validatorStakeTokens env o ix.ctx w a amount = .ok w' → Ran env o w w' ix
  | harvestHolderRewards (a : HarvestHolderRewardsAccts) (rest : List Key) :
      ix.decoded = some .harvestHolderRewards → ix.ctx.accts = a.list ++ rest →
      harvestHolderRewards env o w a = .ok w' → Ran env o w w' ix
  | harvestValidatorRewards (a : HarvestValidatorRewardsAccts) (rest : List Key) :
      ix.decoded = some .harvestValidatorRewards → ix.ctx.accts = a.list ++ rest →
      harvestValidatorRewards env w a = .ok w' → Ran env o w w' ix
  | slashValidatorStake (a : SlashAccts) (amount : Nat) (rest : List Key) :
      ix.decoded = some (.slashValidatorStake amount) → ix.ctx.accts = a.listValidator ++ rest →
      slashValidatorStake env ix.ctx w a amount = .ok w' → Ran env o w w' ix
  | setAuthority (a : SetAuthorityAccts) (t : AuthorityType) (rest : List Key) :
      ix.decoded = some (.setAuthority t) → ix.ctx.accts = a.list ++ rest →
      setAuthority ix.ctx w a t = .ok w' → Ran env o w w' ix
  | updateConfig (a : UpdateConfigAccts) (f : ConfigField) (rest : List Key) :
      ix.decoded = some (.updateConfig f) → ix.ctx.accts = a.list ++ rest →
      updateConfig ix.ctx w a f = .ok w' → Ran env o w w' ix
  | initializeSolStakerStake (a : InitializeSolStakerStakeAccts) (rest : List Key) :
      ix.decoded = some .initializeSolStakerStake → ix.ctx.accts = a.list ++ rest →
      initializeSolStakerStake env o ix.ctx w a = .ok w' → Ran env o w w' ix
  | solStakerStakeTokens (a : StakeTokensAccts) (amount : Nat) (rest : List Key) :
      ix.decoded = some (.solStakerStakeTokens amount) → ix.ctx.accts = a.list ++ rest →
      solStakerStakeTokens env o ix.ctx w a amount = .ok w' → Ran env o w w' ix
  | harvestSolStakerRewards (a : HarvestSolStakerRewardsAccts) (keeper : Key) (rest : List Key) :
      ix.decoded = some .harvestSolStakerRewards → ix.ctx.accts = a.list keeper ++ rest →
      a.keeperRecipient = (if keeper = progId then none else some keeper) →
      harvestSolStakerRewards env o w a = .ok w' → Ran env o w w' ix
  | unstakeTokens (a : UnstakeTokensAccts) (amount : Nat) (rest : List Key) :
      ix.decoded = some (.unstakeTokens amount) → ix.ctx.accts = a.list ++ rest →
      unstakeTokens env o ix.ctx w a amount = .ok w' → Ran env o w w' ix
  | slashSolStakerStake (a : SlashAccts) (amount : Nat) (rest : List Key) :
      ix.decoded = some (.slashSolStakerStake amount) → ix.ctx.accts = a.listSolStaker ++ rest →
      slashSolStakerStake env ix.ctx w a amount = .ok w' → Ran env o w w' ix
  | solStakerMoveTokens (a : SolStakerMoveTokensAccts) (amount : Nat) (rest : List Key) :
      ix.decoded = some (.solStakerMoveTokens amount) → ix.ctx.accts = a.list ++ rest →
      solStakerMoveTokens env ix.ctx w a amount = .ok w' → Ran env o w w' ix
  | validatorOverrideStakedLamports (a : ValidatorOverrideStakedLamportsAccts) (amountMin : Nat) (rest : List Key) :
      ix.decoded = some (.validatorOverrideStakedLamports amountMin) → ix.ctx.accts = a.list ++ rest →
      validatorOverrideStakedLamports env ix.ctx w a amountMin = .ok w' → Ran env o w w' ix
  | validatorSyncAuthority (a : ValidatorSyncAuthorityAccts) (rest : List Key) :
      ix.decoded = some .validatorSyncAuthority → ix.ctx.accts = a.list ++ rest →
      validatorSyncAuthority w a = .ok w' → Ran env o w w' ix

theorem decoded_eq {i : StakeInstruction} : ix.decoded = some i ↔ StakeInstruction.unpack ix.data = .ok i := by
  unfold Ix.decoded
  split <;> simp_all

theorem exec_ok (h : exec env o w ix = .ok w') :
    (∃ i, ix.decoded = some i ∧ dispatch env o ix.ctx w i = .ok w') ∧
    (∀ k ∈ ix.ctx.accts, ix.ctx.writable k = true ∨ w' k = w k) ∧
    lamportSum w' ix.ctx.accts = lamportSum w ix.ctx.accts := by
  simp only [exec, processInstruction, bind_ok, require_ok, exists_unit, pure_ok] at h
  obtain ⟨_, ⟨i, hi, hd⟩, h1, h2, rfl⟩ := h
  exact ⟨⟨i, decoded_eq.2 hi, hd⟩, h1, h2⟩

theorem dispatch_ran {i : StakeInstruction} (hi : ix.decoded = some i) (hd : dispatch env o ix.ctx w i = .ok w') :
    Ran env o w w' ix := by
  unfold dispatch at hd
  split at hd
  · rename_i hl; exact .initializeConfig _ _ _ _ _ _ _ _ hi hl hd
  · rename_i hl; exact .initializeValidatorStake _ _ hi hl hd
  · rename_i hl; exact .validatorStakeTokens _ _ _ hi hl hd
  · rename_i hl; exact .harvestHolderRewards _ _ hi hl hd
  · rename_i hl; exact .harvestValidatorRewards _ _ hi hl hd
  · rename_i hl; exact .slashValidatorStake _ _ _ hi hl hd
  · rename_i hl; exact .setAuthority _ _ _ hi hl hd
  · rename_i hl; exact .updateConfig _ _ _ hi hl hd
  · rename_i hl; exact .initializeSolStakerStake _ _ hi hl hd
  · rename_i hl; exact .solStakerStakeTokens _ _ _ hi hl hd
  · rename_i hl; exact .harvestSolStakerRewards _ _ _ hi hl rfl hd
  · rename_i hl; exact .unstakeTokens _ _ _ hi hl hd
  · rename_i hl; exact .slashSolStakerStake _ _ _ hi hl hd
  · rename_i hl; exact .solStakerMoveTokens _ _ _ hi hl hd
  · rename_i hl; exact .validatorOverrideStakedLamports _ _ _ hi hl hd
  · rename_i hl; exact .validatorSyncAuthority _ _ hi hl hd
  · simp at hd

theorem exec_ran (h : exec env o w ix = .ok w') : Ran env o w w' ix := by
  obtain ⟨⟨i, hi, hd⟩, _, _⟩ := exec_ok h
  exact dispatch_ran hi hd

/-! ## Decoded numbers fit their types -/

theorem leNat_lt : ∀ b : List UInt8, leNat b < 256 ^ b.length
  | [] => by simp [leNat]
  | x :: b => by
    have := leNat_lt b
    have := x.toNat_lt
    simp only [leNat, List.length_cons, Nat.pow_succ]
    omega

theorem leNat_slice_lt (b : List UInt8) (i n : Nat) : leNat (slice b i n) < 256 ^ n := by
  refine lt_of_lt_of_le (leNat_lt _) (Nat.pow_le_pow_right (by decide) ?_)
  simp [slice]

/-- Every number in the instruction fits its machine type, every 32-byte field has 32 bytes. -/
def StakeInstruction.WF : StakeInstruction → Prop
  | .initializeConfig s c t b y h =>
    s.length = 32 ∧ c.length = 32 ∧ t < U64 ∧ b < 2 ^ 16 ∧ y < U64 ∧ h.length = 32
  | .validatorStakeTokens a | .slashValidatorStake a | .solStakerStakeTokens a | .unstakeTokens a
  | .slashSolStakerStake a | .solStakerMoveTokens a | .validatorOverrideStakedLamports a => a < U64
  | .updateConfig f => f.WF
  | _ => True

theorem unpackU64_ok {b : List UInt8} {f : Nat → StakeInstruction} {i : StakeInstruction}
    (h : unpackU64 b f = .ok i) : ∃ n, n < U64 ∧ i = f n := by
  unfold unpackU64 at h
  split at h
  · simp only [ok_ok] at h; exact ⟨_, leNat_slice_lt _ _ _, h.symm⟩
  · simp at h

theorem unpack_wf {b : List UInt8} {i : StakeInstruction} (h : StakeInstruction.unpack b = .ok i) : i.WF := by
  have h8 : (256 : Nat) ^ 8 = U64 := by decide
  have h2 : (256 : Nat) ^ 2 = 2 ^ 16 := by decide
  unfold StakeInstruction.unpack at h
  split at h
  · simp at h
  · split at h
    · split at h
      · rename_i rest _ _ hl
        simp only [ok_ok] at h; subst h
        have a1 := leNat_slice_lt rest 64 8
        have a2 := leNat_slice_lt rest 72 2
        have a3 := leNat_slice_lt rest 74 8
        rw [h8] at a1 a3; rw [h2] at a2
        refine ⟨?_, ?_, a1, a2, a3, ?_⟩ <;> simp [slice] <;> omega
      · simp at h
    case h_7 =>
      unfold unpackAuthorityType at h
      split at h
      · split at h <;> simp at h <;> subst h <;> trivial
      · simp at h
    case h_8 =>
      unfold unpackField at h
      split at h
      · simp at h
      · rename_i rest
        split at h <;> (try split at h) <;> simp at h <;> subst h
        · have := leNat_slice_lt rest 0 8; rw [h8] at this; exact this
        · have := leNat_slice_lt rest 0 2; rw [h2] at this; exact this
        · have := leNat_slice_lt rest 0 8; rw [h8] at this; exact this
    all_goals first
      | (simp only [ok_ok] at h; subst h; trivial)
      | (obtain ⟨n, hn, rfl⟩ := unpackU64_ok h; exact hn)
      | simp at h

/-! ## The invariant -/

theorem exec_inv (I : Inv env w) (O : o.Ok) (h : exec env o w ix = .ok w') : Inv env w' := by
  have hwf : ∀ i, ix.decoded = some i → i.WF := fun i hi => unpack_wf (decoded_eq.1 hi)
  cases exec_ran h with
  | initializeConfig a s c hh t b y rest hi _ h =>
    obtain ⟨_, _, h1, h2, h3, _⟩ := hwf _ hi
    exact initializeConfig_inv I ⟨h1, h2, h3⟩ h
  | initializeValidatorStake a rest hi _ h => exact initializeValidatorStake_inv I h
  | validatorStakeTokens a amount rest hi _ h =>
    obtain ⟨c, s, hr, rs, rh, w1, w2, w3, c1, ts, td, hs, _, S⟩ := validatorStakeTokens_ok h
    exact (validatorStakeTokens_inv I O hs S).2.2.2.2.2
  | harvestHolderRewards a rest hi _ h => exact harvestHolderRewards_inv I O h
  | harvestValidatorRewards a rest hi _ h => exact harvestValidatorRewards_inv I h
  | slashValidatorStake a amount rest hi _ h =>
    obtain ⟨c, s, hr, rs, rh, w1, w2, c1, hs, _, S⟩ := slashValidatorStake_ok h
    exact (slashValidatorStake_inv I hs S).2.2.2
  | setAuthority a t rest hi _ h => exact setAuthority_inv I h
  | updateConfig a f rest hi _ h => exact updateConfig_inv I (hwf _ hi) h
  | initializeSolStakerStake a rest hi _ h => exact initializeSolStakerStake_inv I O h
  | solStakerStakeTokens a amount rest hi _ h =>
    obtain ⟨c, s, hr, rs, rh, w1, w2, w3, c1, ts, td, hs, _, S⟩ := solStakerStakeTokens_ok h
    exact (solStakerStakeTokens_inv I O hs S).2.2.2.2.2
  | harvestSolStakerRewards a kp rest hi _ _ h =>
    obtain ⟨s, v, c, hr, rs, rh, w1, B, H⟩ := harvestSolStakerRewards_ok I.wf h
    exact harvestSolStakerRewards_inv I O B H
  | unstakeTokens a amount rest hi _ h =>
    obtain ⟨c, d, hr, rs, rh, w1, w2, w3, c1, D', call, ts, td, lam, S, K⟩ := unstakeTokens_ok h
    exact (unstakeTokens_inv I O S K).2.2.2.2.2
  | slashSolStakerStake a amount rest hi _ h =>
    obtain ⟨c, s, hr, rs, rh, w1, w2, c1, hs, _, S⟩ := slashSolStakerStake_ok h
    exact (slashSolStakerStake_inv I hs S).2.2.2
  | solStakerMoveTokens a amount rest hi _ h =>
    obtain ⟨c, c', s, t, hr, rs, rh, rs', rh', w1, w2, wx, cs, ct, ds, dt, ds', dt', M⟩ := solStakerMoveTokens_ok h
    exact (solStakerMoveTokens_inv I M).2.2.2
  | validatorOverrideStakedLamports a n rest hi _ h => exact validatorOverrideStakedLamports_inv I (hwf _ hi) h
  | validatorSyncAuthority a rest hi _ h => exact validatorSyncAuthority_inv I h

theorem genesis_inv (G : Genesis w) : Inv env w := by
  have hc : ∀ k, configAt w k = none := by
    intro k
    cases h : configAt w k with
    | none => rfl
    | some c =>
      rw [configAt_eq] at h
      obtain ⟨n, hn⟩ := G.owned k h.1
      rw [hn] at h; simp at h
  have hs : ∀ k, stakeAt w k = none := by
    intro k
    cases h : stakeAt w k with
    | none => rfl
    | some c =>
      rw [stakeAt_eq] at h
      obtain ⟨n, hn⟩ := G.owned k h.1
      rw [hn] at h; simp [Data.del?] at h
  refine ⟨G.wf, fun k ho => ?_, fun k hk _ => G.derived k hk, fun k c h => ?_, fun k ho => ?_, fun k d h => ?_⟩
  · have hz := G.owned k ho
    have hd := G.derived k
    cases k
    all_goals first
      | exact Or.inl hz
      | (exfalso; have := (hd rfl).1; rw [ho] at this; simp at this)
  · rw [hc] at h; simp at h
  · obtain ⟨n, hn⟩ := G.owned k ho
    rw [hn]; trivial
  · rw [hs] at h; simp at h

theorem reachable_inv (h : Reachable env w) : Inv env w := by
  induction h with
  | genesis G => exact genesis_inv G
  | ext _ h I => exact ext_inv I h
  | exec _ O h I => exact exec_inv I O h

theorem step_inv (I : Inv env w) (h : Step env w w') : Inv env w' := by
  cases h with
  | ext h => exact ext_inv I h
  | exec O h => exact exec_inv I O h

theorem step_reachable (R : Reachable env w) (h : Step env w w') : Reachable env w' := by
  cases h with
  | ext h => exact .ext R h
  | exec O h => exact .exec R O h

theorem steps_reachable (R : Reachable env w) (h : Steps env w w') : Reachable env w' := by
  induction h with
  | refl => exact R
  | tail _ h ih => exact step_reachable ih h

end Verif
