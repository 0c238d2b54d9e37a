import Verif.Props.History
import Verif.Lemmas.Debit
import Verif.WitnessTwo
/-!
# What instructions leave alone, and new stake accounts

C24, C26, C29, C41.
-/

namespace Verif.Props

open Verif Verif.Witness

variable {env : Env} {o : Oracle} {w w' : World} {ix : Ix}

/-! ## C24 -/

/-- **C24.** A successful instruction that names the config `ck` leaves every other config as it was and takes no
lamports from it. -/
theorem C24_other_configs_unchanged (R : Reachable env w) (O : o.Ok) (h : exec env o w ix = .ok w') {ck k : Key}
    (hck : ix.config = some ck) {c : Config} (hc : configAt w k = some c) (hne : k ≠ ck) :
    configAt w' k = some c ∧ (w k).lamports ≤ (w' k).lamports := by
  have I := reachable_inv R
  obtain ⟨ck', e, _, H⟩ := (exec_effect I O h).elsewhere I
  rw [hck] at e; cases e
  have hk := I.config_key hc
  have hb : ¬ belongs k ck := by rintro (⟨v, rfl⟩ | ⟨n, rfl⟩) <;> simp [Key.ofProgram] at hk
  refine ⟨by rw [configAt_congr (H k hne hb)]; exact hc, ?_⟩
  refine exec_debit I O h hck hne (fun _ e => ?_) (Or.inl (Or.inr (configAt_eq.1 hc).1))
  rw [e] at hk; simp [Env.vaultAuth, Key.ofProgram] at hk

theorem belongs_inj {k c c' : Key} (h : belongs k c) (h' : belongs k c') : c = c' := by
  rcases h with ⟨_, rfl⟩ | ⟨_, rfl⟩ <;> rcases h' with ⟨_, e⟩ | ⟨_, e⟩ <;> simp at e <;> exact e.2

/-- **C24.** A successful instruction that names the config `ck` leaves the stake accounts of every other config as
they were and takes no lamports from them. -/
theorem C24_other_stakes_unchanged (R : Reachable env w) (O : o.Ok) (h : exec env o w ix = .ok w') {ck k c : Key}
    (hck : ix.config = some ck) (hb : belongs k c) (hne : c ≠ ck) :
    validatorAt w' k = validatorAt w k ∧ solStakerAt w' k = solStakerAt w k ∧ (w k).lamports ≤ (w' k).lamports := by
  have I := reachable_inv R
  obtain ⟨ck', e, hk, H⟩ := (exec_effect I O h).elsewhere I
  rw [hck] at e; cases e
  have hp : k.ofProgram = true := by rcases hb with ⟨_, rfl⟩ | ⟨_, rfl⟩ <;> rfl
  have h1 : k ≠ ck := by rintro rfl; rw [hp] at hk; simp at hk
  have h2 : ¬ belongs k ck := fun h => hne (belongs_inj hb h)
  refine ⟨validatorAt_congr (H k h1 h2), solStakerAt_congr (H k h1 h2), ?_⟩
  refine exec_debit I O h hck h1 (fun _ e => ?_) (Or.inl (Or.inl hp))
  rcases hb with ⟨_, rfl⟩ | ⟨_, rfl⟩ <;> simp [Env.vaultAuth] at e

theorem effect_names (I : Inv env w) (E : Effect env o ix w w') : ∃ ck, ix.config = some ck ∧ (configAt w' ck).isSome := by
  have keep : ∀ {ck c}, configAt w ck = some c → (configAt w' ck).isSome := fun hc => by
    obtain ⟨c', h, _⟩ := effect_config I E hc
    rw [h]; rfl
  have quiet : ∀ {T ck}, Quiet T ck w w' → (configAt w' ck).isSome := fun Q => by
    obtain ⟨_, c', _, h, _⟩ := Q.config
    rw [h]; rfl
  cases E with
  | initializeConfig ck c hi h0 _ _ h =>
    obtain ⟨_, _, _, _, _, _, hi⟩ := hi
    refine ⟨ck, by simp [Ix.config, hi, h0], ?_⟩
    rw [st_config.1 (by rw [h, stUpd_same])]; rfl
  | initializeValidatorStake ck _ _ _ hi h0 hc => exact ⟨ck, by simp [Ix.config, hi, h0], keep hc⟩
  | initializeSolStakerStake ck _ _ _ _ hi h0 hc => exact ⟨ck, by simp [Ix.config, hi, h0], keep hc⟩
  | setAuthority ck _ _ _ _ hi h0 hc => exact ⟨ck, by simp [Ix.config, hi, h0], keep hc⟩
  | updateConfig ck _ _ hi h0 hc => exact ⟨ck, by simp [Ix.config, hi, h0], keep hc⟩
  | validatorSyncAuthority ck _ _ _ hi h0 hc =>
    obtain ⟨c, hc⟩ := Option.isSome_iff_exists.1 hc
    exact ⟨ck, by simp [Ix.config, hi, h0], keep hc⟩
  | settle ck _ h0 Q => exact ⟨ck, h0, quiet Q⟩
  | stake ck _ _ _ _ hi h0 _ S =>
    exact ⟨ck, by rcases hi with hi | hi <;> simp [Ix.config, hi, h0], quiet S.quiet⟩
  | slash ck _ _ _ _ hi h0 _ S =>
    exact ⟨ck, by rcases hi with hi | hi <;> simp [Ix.config, hi, h0], quiet S.one.quiet⟩
  | unstake ck _ _ _ _ _ hi h0 _ S => exact ⟨ck, by simp [Ix.config, hi, h0], quiet S.one.quiet⟩
  | move ck _ _ _ _ _ _ _ hi h0 _ _ S => exact ⟨ck, by simp [Ix.config, hi, h0], quiet S.quiet⟩

/-- **C24.** Every successful instruction names exactly one config, so the two statements above always apply. -/
theorem C24_one_config (R : Reachable env w) (O : o.Ok) (h : exec env o w ix = .ok w') :
    ∃ ck, ix.config = some ck ∧ (configAt w' ck).isSome := by
  exact effect_names (reachable_inv R) (exec_effect (reachable_inv R) O h)

/-- Two configs with stakes and pending rewards: harvesting in one changes it and leaves the other alone. -/
example : (configAt b10 cfg).isSome ∧ (configAt b10 cfgB).isSome ∧ ixHarvestVal1.config = some cfg ∧
    (stakeAt b10 val1).map (·.staked) = some 2000 ∧ (stakeAt b10 valB).map (·.staked) = some 3000 ∧
    configAt b11 cfg ≠ configAt b10 cfg ∧ (b11 cfg).lamports < (b10 cfg).lamports ∧
    configAt b11 cfgB = configAt b10 cfgB ∧ belongs valB cfgB ∧ cfgB ≠ cfg := by decide +kernel
example : configAt b11 cfgB = configAt b10 cfgB := by
  cases hc : configAt b10 cfgB with
  | none => exact absurd hc (by decide +kernel)
  | some c => exact (C24_other_configs_unchanged rb10 o1_ok (ok_after okb10) (ck := cfg) (by decide) hc (by decide)).1

/-! ## C29 -/

/-- **C29.** A successful instruction conserves the lamports of the accounts it names, each counted once. -/
theorem C29_conserved (h : exec env o w ix = .ok w') :
    ∑ k ∈ ix.ctx.accts.toFinset, (w' k).lamports = ∑ k ∈ ix.ctx.accts.toFinset, (w k).lamports := by
  rw [← lamportSum_eq, ← lamportSum_eq]; exact (exec_ok h).2.2

/-- **C29.** An account that loses lamports is the config, or the config's vault authority in HarvestHolderRewards,
unless the instruction is one that calls the rewards program and the account is one the rewards program takes lamports
from in some call; that account is then neither an account of the stake program nor derived from it. -/
theorem C29_debits (R : Reachable env w) (O : o.Ok) (h : exec env o w ix = .ok w') {k : Key}
    (hk : (w' k).lamports < (w k).lamports) :
    ix.config = some k ∨
    (ix.decoded = some .harvestHolderRewards ∧ ∃ ck, ix.config = some ck ∧ k = env.vaultAuth ck) ∨
    ((∃ n, ix.decoded = some (.validatorStakeTokens n) ∨ ix.decoded = some (.solStakerStakeTokens n) ∨
      ix.decoded = some (.unstakeTokens n) ∨ ix.decoded = some .harvestHolderRewards) ∧
      ¬ o.Spares k ∧ k.ofProgram = false ∧ (w k).owner ≠ progId) := by
  have I := reachable_inv R
  obtain ⟨ck, e, _, _⟩ := (exec_effect I O h).elsewhere I
  by_contra hc
  simp only [not_or] at hc
  obtain ⟨c1, c2, c3⟩ := hc
  refine absurd hk (not_lt.2 (exec_debit I O h e (k := k) (by rintro rfl; exact c1 e) ?_ ?_))
  · exact fun hi he => c2 ⟨hi, ck, e, he⟩
  · by_contra hg
    simp only [not_or, Guarded] at hg
    obtain ⟨⟨g1, g2⟩, g3, g4⟩ := hg
    refine c3 ⟨?_, g4, by simpa using g1, g2⟩
    push Not at g3
    obtain ⟨i, hi, hcall⟩ := g3
    rcases hcall with ⟨n, rfl⟩ | ⟨n, rfl⟩ | ⟨n, rfl⟩ | rfl
    exacts [⟨n, by tauto⟩, ⟨n, by tauto⟩, ⟨n, by tauto⟩, ⟨0, by tauto⟩]

/-- The three kinds of debit: the config pays the validator, the vault authority passes holder rewards on, and the
rewards program pays from its own pool. -/
example : (w10 cfg).lamports < (w9 cfg).lamports ∧ (w9 auth1).lamports < (w10 auth1).lamports := by decide +kernel
example : (w9 pool).lamports < (w8 pool).lamports ∧ (w8 pool).owner = rewardsId ∧
    (w8 cfg).lamports < (w9 cfg).lamports ∧ ixHarvestHolder.decoded = some .harvestHolderRewards := by decide +kernel

/-! ## C26 -/

/-- **C26.** InitializeValidatorStake creates an empty stake account whose authority is the withdraw authority of the
vote account, which has signed the config's governing document. -/
theorem C26_validator_stake (h : exec env o w ix = .ok w') (hi : ix.decoded = some .initializeValidatorStake) :
    ∃ ck vote c withdrawer b v, ix.acct 0 = some ck ∧ ix.acct 3 = some vote ∧ configAt w ck = some c ∧
      (w vote).owner = voteId ∧ (w vote).data = .vote withdrawer ∧
      (w (.dunaPda withdrawer c.dunaHash)).data = .bytes (1 :: b) ∧
      ix.acct 2 = some (.validatorPda vote ck) ∧ stakeAt w (.validatorPda vote ck) = none ∧
      validatorAt w' (.validatorPda vote ck) = some v ∧
      v.del.staked = 0 ∧ v.del.effective = 0 ∧ v.del.cooldown = 0 ∧ v.del.vote = vote ∧
      v.del.authority = withdrawer ∧ v.total = 0 ∧ v.min = 0 := by
  obtain ⟨a, rest, hl, hr⟩ := ran_initializeValidatorStake h hi
  obtain ⟨c, wd, hcO, hc, hvO, hv, ⟨hd, b, hb⟩, hk, he, ho, _, rfl⟩ := initializeValidatorStake_ok hr
  rw [hd] at hb
  rw [hk] at he ho ⊢
  have hv' : validatorAt (w.setN (.validatorPda a.validatorVote a.config)
      (.validator { del := freshDel wd a.validatorVote, total := 0, min := 0 })) (.validatorPda a.validatorVote a.config) =
      some { del := freshDel wd a.validatorVote, total := 0, min := 0 } :=
    validatorAt_eq.2 ⟨by simp [World.setN_owner], by simp [World.setN_data]⟩
  refine ⟨a.config, a.validatorVote, c, wd, b, _, by simp [Ix.acct, hl, InitializeValidatorStakeAccts.list],
    by simp [Ix.acct, hl, InitializeValidatorStakeAccts.list], configAt_eq.2 ⟨hcO, hc⟩, hvO, hv, hb,
    by simp [Ix.acct, hl, InitializeValidatorStakeAccts.list, hk], ?_, hv', rfl, rfl, rfl, rfl, rfl, rfl, rfl⟩
  rw [stakeAt_eq']; simp [he, Data.del?]

/-- **C26.** InitializeSolStakerStake creates an empty stake account whose authority is the withdrawer that the stake
view program reports, who has signed the config's governing document; the account records the reported validator and
lamports. -/
theorem C26_sol_staker_stake (R : Reachable env w) (h : exec env o w ix = .ok w')
    (hi : ix.decoded = some .initializeSolStakerStake) :
    ∃ ck native c view b s, ix.acct 0 = some ck ∧ ix.acct 5 = some native ∧ configAt w ck = some c ∧
      ix.acct 8 = some viewId ∧ o.view native = .ok view ∧
      (w (.dunaPda view.withdrawer c.dunaHash)).data = .bytes (1 :: b) ∧
      ix.acct 2 = some (.solStakerPda native ck) ∧ stakeAt w (.solStakerPda native ck) = none ∧
      solStakerAt w' (.solStakerPda native ck) = some s ∧
      s.del.staked = 0 ∧ s.del.effective = 0 ∧ s.del.cooldown = 0 ∧ s.del.authority = view.withdrawer ∧
      s.del.vote = view.delegatedVote ∧ s.lamports = view.effective ∧ s.solStake = native := by
  obtain ⟨a, rest, hl, hr⟩ := ran_initializeSolStakerStake h hi
  obtain ⟨c, v, vs, au, hcO, hc, hview, hv, _, _, ⟨hd, b, hb⟩, hvsO, hk1, hvs, hk2, he, ho, hov, hau, _, _, rfl⟩ :=
    initializeSolStakerStake_ok hr
  have hau' : au = none := by
    rw [hov, (reachable_inv R).override_empty v.withdrawer a.config] at hau
    simpa [readOverride, Data.isEmpty] using hau.symm
  subst hau'
  rw [hd] at hb
  have hne : a.solStakerStake ≠ a.validatorStake := by rw [hk1, hk2]; simp
  rw [hk2] at he ho hne ⊢
  have hs' := solStakerAt_eq (w := (w.setN (.solStakerPda a.solStakerNativeStake a.config) (.solStaker
        { del := freshDel ((none : Option Key).getD v.withdrawer) v.delegatedVote, lamports := v.effective
          solStake := a.solStakerNativeStake })).setD a.validatorStake
          (.validator { vs with total := vs.total + v.effective })) (k := .solStakerPda a.solStakerNativeStake a.config).2
    ⟨by simp [World.setN_owner], by rw [World.setD_data, if_neg hne, World.setN_data, if_pos rfl]⟩
  refine ⟨a.config, a.solStakerNativeStake, c, v, b, _, by simp [Ix.acct, hl, InitializeSolStakerStakeAccts.list],
    by simp [Ix.acct, hl, InitializeSolStakerStakeAccts.list], configAt_eq.2 ⟨hcO, hc⟩,
    by simp [Ix.acct, hl, InitializeSolStakerStakeAccts.list, hview], hv, hb,
    by simp [Ix.acct, hl, InitializeSolStakerStakeAccts.list, hk2], ?_, hs', rfl, rfl, rfl, rfl, rfl, rfl, rfl⟩
  rw [stakeAt_eq']; simp [he, Data.del?]

theorem dispatch_signers (env : Env) (o : Oracle) (w : World) (ctx : Ctx) (i : StakeInstruction)
    (hi : i = .initializeValidatorStake ∨ i = .initializeSolStakerStake) (sg : Key → Bool) :
    dispatch env o { ctx with signer := sg } w i = dispatch env o ctx w i := by
  obtain ⟨accts, s, wr⟩ := ctx
  rcases hi with rfl | rfl
  · rcases accts with _ | ⟨k0, _ | ⟨k1, _ | ⟨k2, _ | ⟨k3, _ | ⟨k4, r⟩⟩⟩⟩⟩ <;> try rfl
  · rcases accts with _ | ⟨k0, _ | ⟨k1, _ | ⟨k2, _ | ⟨k3, _ | ⟨k4, _ | ⟨k5, _ | ⟨k6, _ | ⟨k7, _ | ⟨k8, r⟩⟩⟩⟩⟩⟩⟩⟩⟩ <;>
      try rfl

/-- **C26.** Creating a stake account needs nobody's signature: with any other set of signers, in particular none, the
instruction has the same outcome. -/
theorem C26_no_signature_needed (env : Env) (o : Oracle) (w : World) (ix : Ix)
    (hi : ix.decoded = some .initializeValidatorStake ∨ ix.decoded = some .initializeSolStakerStake) (sg : Key → Bool) :
    exec env o w { ix with ctx := { ix.ctx with signer := sg } } = exec env o w ix := by
  unfold exec processInstruction
  rcases hi with hi | hi <;> rw [decoded_eq] at hi <;> simp only [hi]
  · rw [show ∀ (f : StakeInstruction → Res World) i, (Except.ok i >>= f) = f i from fun _ _ => rfl]
    rw [show ∀ (f : StakeInstruction → Res World) i, (Except.ok i >>= f) = f i from fun _ _ => rfl]
    rw [dispatch_signers _ _ _ _ _ (Or.inl rfl)]
  · rw [show ∀ (f : StakeInstruction → Res World) i, (Except.ok i >>= f) = f i from fun _ _ => rfl]
    rw [show ∀ (f : StakeInstruction → Res World) i, (Except.ok i >>= f) = f i from fun _ _ => rfl]
    rw [dispatch_signers _ _ _ _ _ (Or.inr rfl)]

/-- Creation of the first two accounts of the history, without any signer. -/
example : ixInitVal1.decoded = some .initializeValidatorStake ∧ ixInitSol1.decoded = some .initializeSolStakerStake ∧
    okB o1 w1 ixInitVal1 = true ∧ okB o1 w3 ixInitSol1 = true ∧ ixInitVal1.ctx.signer auth1 = false ∧
    ixInitSol1.ctx.signer staker = false ∧ (stakeAt w2 val1).map (·.authority) = some auth1 ∧
    (stakeAt w4 sol1).map (·.authority) = some staker := by decide +kernel
/-- Without the signed document creation fails. -/
example : okB o1 (w1.set (.dunaPda auth1 hash) ⟨1000000, .raw 7, .bytes [0]⟩) ixInitVal1 = false := by decide +kernel

/-! ## C41 -/

/-- The instructions that do not stake, unstake, move or slash tokens. -/
def LeavesTokens (i : StakeInstruction) : Prop :=
  i = .harvestHolderRewards ∨ i = .harvestValidatorRewards ∨ i = .harvestSolStakerRewards ∨
  i = .validatorSyncAuthority ∨ (∃ n, i = .validatorOverrideStakedLamports n) ∨ (∃ t, i = .setAuthority t) ∨
  (∃ f, i = .updateConfig f) ∨ i = .initializeValidatorStake ∨ i = .initializeSolStakerStake ∨
  ∃ s c t b y h, i = .initializeConfig s c t b y h

/-- **C41.** Such an instruction changes neither the staked amount nor the cooldown of any existing stake account. -/
theorem C41_stakes_unchanged (R : Reachable env w) (O : o.Ok) (h : exec env o w ix = .ok w') {i : StakeInstruction}
    (hi : ix.decoded = some i) (hl : LeavesTokens i) {s : Key} {d : Delegation} (hd : stakeAt w s = some d) :
    ∃ d', stakeAt w' s = some d' ∧ d'.staked = d.staked ∧ d'.cooldown = d.cooldown := by
  obtain ⟨d', hd', D⟩ := effect_del (exec_effect (reachable_inv R) O h) hd
  refine ⟨d', hd', ?_⟩
  cases D with
  | same h1 h2 => exact ⟨h1, h2⟩
  | sync ck vote wd _ _ _ _ _ e => rw [e]; exact ⟨rfl, rfl⟩
  | stake ck n hs => rw [hi] at hs; rcases hs with hs | hs <;> cases hs <;> simp [LeavesTokens] at hl
  | slash ck n c hs => rw [hi] at hs; rcases hs with hs | hs <;> cases hs <;> simp [LeavesTokens] at hl
  | unstake ck n c hs => rw [hi] at hs; cases hs; simp [LeavesTokens] at hl
  | moveFrom ck t n dt dt' hs => rw [hi] at hs; cases hs; simp [LeavesTokens] at hl
  | moveTo ck t n ds ds' hs => rw [hi] at hs; cases hs; simp [LeavesTokens] at hl

/-- **C41.** Such an instruction changes no token account and no mint, in particular not the vault. For
HarvestHolderRewards, which calls the rewards program, this relies on the rewards program moving no tokens when it pays
out rewards. -/
theorem C41_tokens_unchanged (R : Reachable env w) (h : exec env o w ix = .ok w') {i : StakeInstruction}
    (hi : ix.decoded = some i) (hl : LeavesTokens i)
    (C : i = .harvestHolderRewards → RewardsContract o) (k : Key) : tokenAt w' k = tokenAt w k := by
  cases exec_foreign (reachable_inv R).wf h with
  | none hf => exact tokenAt_of_fv (congrFun hf k)
  | unstake h1 => rw [hi] at h1; cases h1; simp [LeavesTokens] at hl
  | stake h1 => rw [hi] at h1; rcases h1 with h1 | h1 <;> cases h1 <;> simp [LeavesTokens] at hl
  | slash h1 => rw [hi] at h1; rcases h1 with h1 | h1 <;> cases h1 <;> simp [LeavesTokens] at hl
  | holder h1 _ _ hf _ hcall _ _ hf' =>
    rw [hi] at h1; cases h1
    obtain ⟨_, _, _, _, _, ht⟩ := (C rfl).harvestRewards hcall
    rw [tokenAt_of_fv (congrFun hf' k), ht, tokenAt_of_fv (congrFun hf k)]

/-- **C41.** Apart from HarvestHolderRewards, such an instruction leaves every account of another program as it was. -/
theorem C41_foreign_data_unchanged (R : Reachable env w) (h : exec env o w ix = .ok w') {i : StakeInstruction}
    (hi : ix.decoded = some i) (hl : LeavesTokens i) (hne : i ≠ .harvestHolderRewards) (k : Key) :
    mintAt w' k = mintAt w k ∧ holderAt w' k = holderAt w k := by
  cases exec_foreign (reachable_inv R).wf h with
  | none hf => exact ⟨mintAt_of_fv (congrFun hf k), holderAt_of_fv (congrFun hf k)⟩
  | unstake h1 => rw [hi] at h1; cases h1; simp [LeavesTokens] at hl
  | stake h1 => rw [hi] at h1; rcases h1 with h1 | h1 <;> cases h1 <;> simp [LeavesTokens] at hl
  | slash h1 => rw [hi] at h1; rcases h1 with h1 | h1 <;> cases h1 <;> simp [LeavesTokens] at hl
  | holder h1 => rw [hi] at h1; cases h1; simp at hne

/-- Harvests that pay rewards, a change of validator and an override, all on accounts with staked tokens. -/
example : ixHarvestHolder.decoded = some .harvestHolderRewards ∧ ixHarvestVal1.decoded = some .harvestValidatorRewards ∧
    ixHarvestSol1.decoded = some .harvestSolStakerRewards ∧ ixSync.decoded = some .validatorSyncAuthority ∧
    ixOverride.decoded = some (.validatorOverrideStakedLamports 5000) ∧
    (stakeAt w8 val1).map (·.staked) = some 2000 ∧ (stakeAt w11 val1).map (·.staked) = some 2000 ∧
    (stakeAt w8 sol1).map (·.staked) = some 500 ∧ (stakeAt w11 sol1).map (·.staked) = some 500 ∧
    stakeAt w9 val1 ≠ stakeAt w10 val1 ∧ stakeAt w10 sol1 ≠ stakeAt w11 sol1 := by decide +kernel

end Verif.Props
