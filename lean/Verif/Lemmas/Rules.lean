import Verif.SpecRules
import Verif.Lemmas.FaultIx
import Verif.Lemmas.Footprint
import Verif.Lemmas.Hand
/-!
# Where the runtime's objections come from
-/

namespace Verif

variable {env : Env} {o : Oracle} {ctx : Ctx} {w w' w1 w2 : World} {ix : Ix} {rest : List Key} {α : Type}

/-- The errors of reading accounts, and others that C106 says nothing about. -/
def Err.plain : Err → Prop
  | .externalDataModified | .externalLamportSpend | .unbalanced | .readonlyModified => False
  | _ => True

theorem Err.plain.objection {e : Err} (h : e.plain) : Objection w ix e := by
  cases e <;> first | exact trivial | exact h.elim

instance : Unsaid (Objection w ix) := ⟨fun _ => trivial, trivial, trivial, trivial⟩

theorem Blames.plain {x : Res α} (h : Blames x Err.plain) : Blames x (Objection w ix) := fun e he => (h e he).objection

theorem Content.Fails.plain {C : Content} {d : Data} {e : Err} (h : C.Fails d e) : e.plain := by
  obtain ⟨_, ⟨_, rfl⟩ | ⟨_, rfl⟩⟩ := h <;> trivial

section
variable {k : Key}

theorem rule_config : Blames (unpackConfig w1 k) (Objection w ix) := .plain fun e he => (unpackConfig_fails e he).plain
theorem rule_validator : Blames (unpackValidator w1 k) (Objection w ix) := .plain fun e he => (unpackValidator_fails e he).plain
theorem rule_solStaker : Blames (unpackSolStaker w1 k) (Objection w ix) := .plain fun e he => (unpackSolStaker_fails e he).plain
theorem rule_token : Blames (unpackToken w1 k) (Objection w ix) := .plain fun e he => (unpackToken_fails e he).plain
theorem rule_mint : Blames (unpackMint w1 k) (Objection w ix) := .plain fun e he => (unpackMint_fails e he).plain
theorem rule_readDel : Blames (readDel w1 k) (Objection w ix) := by
  unfold readDel; split <;> [exact .ok; exact .error trivial]
theorem rule_holder : Blames (unpackHolder w1 k) (Objection w ix) := by
  unfold unpackHolder; split <;> [exact .ok; exact .error trivial]
theorem rule_vote : Blames (unpackVote w1 k) (Objection w ix) := by
  unfold unpackVote
  refine .reqBind (fun _ => trivial) fun _ => ?_
  split <;> [exact .pure; exact .error trivial]
theorem rule_vaultPda {b : Nat} : Blames (env.createVaultPda k b) (Objection w ix) := by
  unfold Env.createVaultPda
  exact .ite (fun _ => .ok) fun _ => .error trivial
theorem rule_duna {s : Key} {h : List UInt8} : Blames (checkDuna w1 s k h) (Objection w ix) := by
  unfold checkDuna
  refine .reqBind (fun _ => trivial) fun _ => ?_
  split <;> [exact .pure; exact .error trivial]

theorem rule_setData {d : Data} (h : (w1 k).owner = progId) : Blames (setData w1 k d) (Objection w ix) :=
  .reqBind (fun hn => absurd (.inr h) hn) fun _ => .pure
theorem rule_writeDel {d : Delegation} (h : (w1 k).owner = progId) : Blames (writeDel w1 k d) (Objection w ix) := rule_setData h
theorem rule_setLamports {n : Nat} (h : (w1 k).lamports ≤ n ∨ (w1 k).owner = progId) :
    Blames (setLamports w1 k n) (Objection w ix) := .reqBind (fun hn => absurd h hn) fun _ => .pure

theorem rule_payKeeper {keeper : Option Key} {n : Nat} : Blames (payKeeper w1 keeper n) (Objection w ix) := by
  unfold payKeeper
  split
  · refine .bind .addU64 fun _ h => rule_setLamports (.inl ?_)
    obtain ⟨_, rfl⟩ := addU64_ok.1 h
    omega
  · exact .ok

theorem rule_harvest {ck hk ak va sk : Key} {keeper : Option Key} (hc : (w1 ck).owner = progId) (hs : (w1 sk).owner = progId) :
    Blames (harvest env w1 ck hk ak va sk keeper) (Objection w ix) := by
  unfold harvest
  refine .bind rule_config fun _ _ => .bind rule_readDel fun _ _ => .reqBind (fun _ => trivial) fun _ => ?_
  refine .bind .syncConfigLamports fun _ _ => .bind .eligibleRewards fun _ _ => .reqBind (fun _ => trivial) fun _ => ?_
  refine .bind rule_holder fun _ _ => .bind .eligibleRewards fun _ _ => .bind .addU64 fun _ _ => .bind .subU64 fun _ _ => ?_
  refine .reqBind (fun _ => trivial) fun _ => .bind rule_payKeeper fun w2 h2 => .bind .subU64 fun _ _ => .bind .addU64 fun n hn => ?_
  have A2 := payKeeper_alike h2
  have c2 := (A2 ck).1.trans hc
  refine .bind (rule_setLamports (.inr c2)) fun w3 h3 => ?_
  have A3 := setLamports_alike h3
  have c3 := (A3 ck).1.trans c2
  refine .bind (rule_setLamports ?_) fun w4 h4 => ?_
  · by_cases e : ak = ck
    · right; rw [e]; exact c3
    · left
      obtain ⟨_, rfl⟩ := setLamports_ok.1 h3
      obtain ⟨_, rfl⟩ := addU64_ok.1 hn
      rw [World.setL_lamports, if_neg e]
      omega
  have A4 := setLamports_alike h4
  have c4 := (A4 ck).1.trans c3
  refine .bind (rule_setData c4) fun w5 h5 => rule_writeDel ?_
  obtain ⟨_, rfl⟩ := setData_ok.1 h5
  simp [(A4 sk).1, (A3 sk).1, (A2 sk).1, hs]

theorem rule_syncEffective {ck sk : Key} {l m : Nat} (hc : (w1 ck).owner = progId) (hs : (w1 sk).owner = progId) :
    Blames (syncEffective w1 ck sk l m) (Objection w ix) := by
  unfold syncEffective
  refine .bind rule_config fun _ _ => .bind rule_readDel fun _ _ => .bind .maxStake fun _ _ => .bind .subU64 fun _ _ => ?_
  refine .bind .addU64 fun _ _ => .bind (rule_setData hc) fun w2 h2 => rule_writeDel ?_
  obtain ⟨_, rfl⟩ := setData_ok.1 h2
  simp [hs]

end

/-! ## Handing accounts on -/

/-- Accounts with the lamports the runtime knows can be handed on. -/
theorem rule_callOut {view : World} {held passed : List Key}
    (h : (∀ k ∈ passed, k ∉ held) → (∀ k ∈ passed, (w1 k).lamports = (view k).lamports) ∨ Objection w ix .unbalanced) :
    Blames (callOut view w1 held passed) (Objection w ix) := by
  refine .reqBind (fun _ => trivial) fun hp => .req fun hn => ?_
  rcases h hp with h | h
  · refine absurd ?_ hn
    rw [lamportSum_eq, lamportSum_eq]
    exact Finset.sum_congr rfl fun k hk => h k (by simpa using hk)
  · exact h


/-- Somebody who is paid is passed in another position. -/
theorem paid_twice {p q : Nat} {k : Key} (h : ix.payee k) (hpq : p ≠ q) (hp : ix.acct p = some k) (hq : ix.acct q = some k) :
    Objection w ix .unbalanced := ⟨k, h, p, q, hpq, hp, hq⟩

theorem setData_lamports {k : Key} {d : Data} (h : setData w k d = .ok w') (k' : Key) : (w' k').lamports = (w k').lamports := by
  obtain ⟨_, rfl⟩ := setData_ok.1 h; simp
theorem syncEffective_lamports {ck sk : Key} {l m : Nat} (h : syncEffective w ck sk l m = .ok w') (k : Key) :
    (w' k).lamports = (w k).lamports := by
  simp only [syncEffective, bind_ok] at h
  obtain ⟨_, _, _, _, _, _, _, _, _, _, w1, h1, h2⟩ := h
  rw [setData_lamports h2, setData_lamports h1]
theorem systemAllocate_owner {k : Key} {n : Nat} (h : systemAllocate ctx w k n = .ok w') (k' : Key) :
    (w' k').owner = (w k').owner := by
  simp only [systemAllocate, bind_ok, require_ok, exists_unit, pure_ok] at h
  obtain ⟨_, _, rfl⟩ := h
  by_cases e : k' = k
  · subst e; simp
  · rw [World.set_other _ _ e]
theorem systemAssign_owner {k : Key} (h : systemAssign ctx w k = .ok w') :
    (w' k).owner = progId ∧ ∀ k', (w k').owner = progId → (w' k').owner = progId := by
  unfold systemAssign at h
  split at h
  · cases h; exact ⟨‹_›, fun _ => id⟩
  · simp only [bind_ok, require_ok, exists_unit, pure_ok] at h
    obtain ⟨_, _, rfl⟩ := h
    refine ⟨by simp, fun k' hk => ?_⟩
    by_cases e : k' = k
    · subst e; simp
    · rw [World.set_other _ _ e]; exact hk

/-- What a settlement pays to nobody else. -/
theorem harvest_unpaid {ck hk ak va sk k : Key} (h : harvest env w ck hk ak va sk none = .ok w') (h1 : k ≠ ck) (h2 : k ≠ ak) :
    (w' k).lamports = (w k).lamports := by
  obtain ⟨c, d, hr, rs, rh, H⟩ := harvest_ok h
  rw [H.gain h1, if_neg h2, Nat.add_zero]

/-! ## Handler by handler -/

theorem initializeConfig_rules {a : InitializeConfigAccts} {x : InitializeConfigArgs} :
    Blames (initializeConfig env ctx w a x) (Objection w ix) := by
  unfold initializeConfig
  refine .bind rule_mint fun _ _ => .reqBind (fun _ => trivial) fun hva => .reqBind (fun _ => trivial) fun he => ?_
  refine .bind .systemAssign fun w1 hw => .reqBind (fun _ => trivial) fun _ => .bind rule_token fun _ _ => ?_
  refine .reqBind (fun _ => trivial) fun _ => .reqBind (fun _ => trivial) fun _ => .reqBind (fun _ => trivial) fun _ => ?_
  refine .reqBind (fun _ => trivial) fun _ => .reqBind (fun _ => trivial) fun _ => .reqBind (fun _ => trivial) fun _ =>
    .reqBind (fun _ => trivial) fun hO => .bind ?_ fun _ _ => ?_
  · unfold checkConfigUninit
    refine .ite (fun _ => .error trivial) fun _ => ?_
    split
    · exact .req fun _ => trivial
    · exact .error trivial
  · exact .reqBind (fun _ => trivial) fun _ => .reqBind (fun _ => trivial) fun _ => rule_setData hO

theorem initializeValidatorStake_rules {a : InitializeValidatorStakeAccts} :
    Blames (initializeValidatorStake env ctx w a) (Objection w ix) := by
  unfold initializeValidatorStake
  refine .reqBind (fun _ => trivial) fun hO => .bind rule_config fun c hc => .bind rule_vote fun wd hv => ?_
  refine .bind rule_duna fun _ _ => .reqBind (fun _ => trivial) fun _ => .reqBind (fun _ => trivial) fun _ => ?_
  refine .reqBind (fun _ => trivial) fun _ => .bind .systemAllocate fun _ _ => .bind .systemAssign fun _ h => ?_
  exact rule_setData (systemAssign_owner h).1

theorem initializeSolStakerStake_rules (F : o.FailsAsCall) {a : InitializeSolStakerStakeAccts} :
    Blames (initializeSolStakerStake env o ctx w a) (Objection w ix) := by
  unfold initializeSolStakerStake
  refine .reqBind (fun _ => trivial) fun hO => .bind rule_config fun c hc => .reqBind (fun _ => trivial) fun _ => ?_
  refine .bind (fun e he => ?_) fun v hv => ?_
  · obtain rfl := F.view _ _ he; trivial
  refine .reqBind (fun _ => trivial) fun _ => .reqBind (fun _ => trivial) fun _ => .bind rule_duna fun _ _ => ?_
  refine .reqBind (fun _ => trivial) fun hvO => .reqBind (fun _ => trivial) fun _ => .bind rule_validator fun _ _ => ?_
  refine .reqBind (fun _ => trivial) fun _ => .reqBind (fun _ => trivial) fun _ => .reqBind (fun _ => trivial) fun _ => ?_
  refine .bind ?_ fun _ _ => .reqBind (fun _ => trivial) fun _ => ?_
  · unfold readOverride
    exact .ite (fun _ => .ok) fun _ => .ite (fun _ => .error trivial) fun _ => .ok
  refine .bind .systemAllocate fun w1 h1 => .bind .systemAssign fun w2 h2 => ?_
  obtain ⟨s2, k2⟩ := systemAssign_owner h2
  refine .bind (rule_setData s2) fun w3 h3 => .bind .addU64 fun _ _ => rule_setData ?_
  obtain ⟨_, rfl⟩ := setData_ok.1 h3
  rw [World.setD_owner]
  exact k2 _ ((systemAllocate_owner h1 _).trans hvO)

/-- The part of staking in which accounts are handed on. -/
theorem stake_handed {a : StakeTokensAccts} {n : Nat} {w3 : World} (F : o.FailsAsCall) {i : StakeInstruction}
    (hi : ix.decoded = some i) (hl : ix.ctx.accts = a.list ++ rest) (hp : i.position .stakeAuthority = some 4) {m : Mint}
    (h3 : ∀ k, k ≠ a.config → k ≠ a.stakeAuthority → (w3 k).lamports = (w k).lamports) :
    Blames (do
      callOut w w3 [a.config, a.stake] a.toToken
      let w4 ← tokenTransfer ix.ctx w3 a.sourceTokenAccount a.mint a.vault a.sourceTokenAccountAuthority
        (ix.ctx.signer a.sourceTokenAccountAuthority) n m.decimals
      callOut (w.known w4 a.toToken) w4 [a.config, a.stake] a.toRewards
      o.deposit w4 (a.call n)) (Objection w ix) := by
  have at' : ∀ m : Nat, ix.acct m = (a.list ++ rest)[m]? := fun m => by unfold Ix.acct; rw [hl]
  have P : ix.payee a.stakeAuthority := .inl (passes_of hi hl 4 hp rfl)
  have T : ∀ l : List Key, (∀ k ∈ l, ∃ m, m ≠ 4 ∧ ix.acct m = some k) → a.stakeAuthority ∈ l →
      Objection w ix .unbalanced := by
    intro l hm hk
    obtain ⟨m, hm, e⟩ := hm _ hk
    exact paid_twice P (Ne.symm hm) (at' 4) e
  have m1 : ∀ k ∈ a.toToken, ∃ m, m ≠ 4 ∧ ix.acct m = some k := by
    intro k hk
    simp only [StakeTokensAccts.toToken, List.mem_cons, List.not_mem_nil, or_false] at hk
    rcases hk with rfl | rfl | rfl | rfl
    · exact ⟨5, by decide, at' 5⟩
    · exact ⟨7, by decide, at' 7⟩
    · exact ⟨9, by decide, at' 9⟩
    · exact ⟨6, by decide, at' 6⟩
  have m2 : ∀ k ∈ a.toRewards, ∃ m, m ≠ 4 ∧ ix.acct m = some k := by
    intro k hk
    simp only [StakeTokensAccts.toRewards, List.mem_cons, List.not_mem_nil, or_false] at hk
    rcases hk with rfl | rfl | rfl | rfl | rfl | rfl | rfl
    · exact ⟨1, by decide, at' 1⟩
    · exact ⟨2, by decide, at' 2⟩
    · exact ⟨10, by decide, at' 10⟩
    · exact ⟨9, by decide, at' 9⟩
    · exact ⟨7, by decide, at' 7⟩
    · exact ⟨8, by decide, at' 8⟩
    · exact ⟨11, by decide, at' 11⟩
  refine .bind (rule_callOut fun hn => ?_) fun _ _ => .bind .tokenTransfer fun w4 h4 => ?_
  · by_cases e : a.stakeAuthority ∈ a.toToken
    · exact .inr (T _ m1 e)
    · exact .inl fun k hk => h3 k (fun e' => hn k hk (by simp [e'])) fun e' => e (e' ▸ hk)
  obtain ⟨_, _, Tr⟩ := tokenTransfer_ok h4
  refine .bind (rule_callOut fun hn => ?_) fun _ _ => fun e he => ?_
  · by_cases e : a.stakeAuthority ∈ a.toRewards
    · exact .inr (T _ m2 e)
    · refine .inl fun k hk => ?_
      unfold World.known
      split_ifs
      · rfl
      · rw [Tr.lamports]
        exact h3 k (fun e' => hn k hk (by simp [e'])) fun e' => e (e' ▸ hk)
  · obtain rfl := F.deposit _ _ _ he; trivial

theorem validatorStakeTokens_rules (F : o.FailsAsCall) {a : StakeTokensAccts} {n : Nat}
    (hi : ix.decoded = some (.validatorStakeTokens n)) (hl : ix.ctx.accts = a.list ++ rest) :
    Blames (validatorStakeTokens env o ix.ctx w a n) (Objection w ix) := by
  unfold validatorStakeTokens
  refine .reqBind (fun _ => trivial) fun hO => .bind rule_config fun c hc => .reqBind (fun _ => trivial) fun hsO => ?_
  refine .reqBind (fun _ => trivial) fun _ => .bind rule_validator fun s hs => .reqBind (fun _ => trivial) fun _ => ?_
  refine .bind (rule_harvest hO hsO) fun w1 h1 => ?_
  have A1 := harvest_alike h1
  refine .reqBind (fun _ => trivial) fun _ => .reqBind (fun _ => trivial) fun _ => .reqBind (fun _ => trivial) fun _ => ?_
  refine .bind rule_token fun _ _ => .reqBind (fun _ => trivial) fun _ => .reqBind (fun _ => trivial) fun _ => ?_
  refine .bind rule_mint fun _ _ => .reqBind (fun _ => trivial) fun _ => .bind rule_readDel fun d hd => .bind .addU64 fun _ _ => ?_
  refine .bind (rule_writeDel ((A1 _).1.trans hsO)) fun w2 h2 => ?_
  have A2 := A1.trans (writeDel_alike h2)
  refine .bind (rule_syncEffective ((A2 _).1.trans hO) ((A2 _).1.trans hsO)) fun w3 h3 => stake_handed F hi hl rfl fun k k1 k2 => ?_
  rw [syncEffective_lamports h3, setData_lamports h2, harvest_unpaid h1 k1 k2]

theorem solStakerStakeTokens_rules (F : o.FailsAsCall) {a : StakeTokensAccts} {n : Nat}
    (hi : ix.decoded = some (.solStakerStakeTokens n)) (hl : ix.ctx.accts = a.list ++ rest) :
    Blames (solStakerStakeTokens env o ix.ctx w a n) (Objection w ix) := by
  unfold solStakerStakeTokens
  refine .reqBind (fun _ => trivial) fun hO => .bind rule_config fun c hc => .reqBind (fun _ => trivial) fun hsO => ?_
  refine .reqBind (fun _ => trivial) fun _ => .bind rule_solStaker fun s hs => .reqBind (fun _ => trivial) fun _ => ?_
  refine .bind (rule_harvest hO hsO) fun w1 h1 => ?_
  have A1 := harvest_alike h1
  refine .reqBind (fun _ => trivial) fun _ => .reqBind (fun _ => trivial) fun _ => .reqBind (fun _ => trivial) fun _ => ?_
  refine .bind rule_token fun _ _ => .reqBind (fun _ => trivial) fun _ => .reqBind (fun _ => trivial) fun _ => .reqBind (fun _ => trivial) fun _ => ?_
  refine .bind rule_mint fun _ _ => .reqBind (fun _ => trivial) fun _ => .bind rule_readDel fun d hd => .bind .addU64 fun _ _ => ?_
  refine .bind (rule_writeDel ((A1 _).1.trans hsO)) fun w2 h2 => ?_
  have A2 := A1.trans (writeDel_alike h2)
  refine .bind (rule_syncEffective ((A2 _).1.trans hO) ((A2 _).1.trans hsO)) fun w3 h3 => stake_handed F hi hl rfl fun k k1 k2 => ?_
  rw [syncEffective_lamports h3, setData_lamports h2, harvest_unpaid h1 k1 k2]

theorem harvestValidatorRewards_rules {a : HarvestValidatorRewardsAccts} :
    Blames (harvestValidatorRewards env w a) (Objection w ix) := by
  unfold harvestValidatorRewards
  refine .reqBind (fun _ => trivial) fun hO => .bind rule_config fun _ _ => .reqBind (fun _ => trivial) fun hsO => ?_
  refine .reqBind (fun _ => trivial) fun _ => .bind rule_validator fun _ _ => .reqBind (fun _ => trivial) fun _ => ?_
  exact .reqBind (fun _ => trivial) fun _ => .reqBind (fun _ => trivial) fun _ => rule_harvest hO hsO

theorem setAuthority_rules {a : SetAuthorityAccts} {t : AuthorityType} : Blames (setAuthority ctx w a t) (Objection w ix) := by
  unfold setAuthority
  refine .reqBind (fun _ => trivial) fun _ => .reqBind (fun _ => trivial) fun hO => ?_
  cases t <;>
  exact .bind rule_config fun _ _ => .reqBind (fun _ => trivial) fun _ => .reqBind (fun _ => trivial) fun _ => rule_setData hO

theorem updateConfig_rules {a : UpdateConfigAccts} {f : ConfigField} : Blames (updateConfig ctx w a f) (Objection w ix) := by
  unfold updateConfig
  refine .reqBind (fun _ => trivial) fun hO => .bind rule_config fun _ _ => .reqBind (fun _ => trivial) fun _ => ?_
  refine .reqBind (fun _ => trivial) fun _ => .reqBind (fun _ => trivial) fun _ => ?_
  cases f
  · exact rule_setData hO
  · exact .reqBind (fun _ => trivial) fun _ => rule_setData hO
  · exact rule_setData hO

theorem validatorOverride_rules {a : ValidatorOverrideStakedLamportsAccts} {n : Nat} :
    Blames (validatorOverrideStakedLamports env ctx w a n) (Objection w ix) := by
  unfold validatorOverrideStakedLamports
  refine .reqBind (fun _ => trivial) fun hO => .bind rule_config fun _ _ => .reqBind (fun _ => trivial) fun _ => ?_
  refine .reqBind (fun _ => trivial) fun _ => .reqBind (fun _ => trivial) fun _ => .reqBind (fun _ => trivial) fun hsO => ?_
  refine .reqBind (fun _ => trivial) fun _ => .bind rule_validator fun _ _ => .reqBind (fun _ => trivial) fun _ => ?_
  refine .bind (rule_harvest hO hsO) fun w1 h1 => .bind rule_validator fun v hv => ?_
  have A1 := harvest_alike h1
  rw [unpackValidator_ok] at hv
  refine .bind (rule_setData ((A1 _).1.trans hsO)) fun w2 h2 => ?_
  have A2 := A1.trans (setData_alike h2 (by rw [hv]; exact .validator))
  exact rule_syncEffective ((A2 _).1.trans hO) ((A2 _).1.trans hsO)

theorem validatorSyncAuthority_rules (I : Inv env w) {a : ValidatorSyncAuthorityAccts} :
    Blames (validatorSyncAuthority w a) (Objection w ix) := by
  unfold validatorSyncAuthority
  refine .reqBind (fun _ => trivial) fun hO => .bind rule_config fun _ _ => .reqBind (fun _ => trivial) fun hk => ?_
  split
  · rename_i s hs
    refine .bind rule_vote fun _ _ => rule_setData ?_
    by_contra hn
    have := (I.unowned _ (by rw [hk]; rfl) hn).2
    rw [hs] at this; cases this
  · exact .error trivial

theorem solStakerMoveTokens_rules {a : SolStakerMoveTokensAccts} {n : Nat} :
    Blames (solStakerMoveTokens env ctx w a n) (Objection w ix) := by
  unfold solStakerMoveTokens
  refine .reqBind (fun _ => trivial) fun hO => .bind rule_config fun _ _ => .reqBind (fun _ => trivial) fun _ => ?_
  refine .reqBind (fun _ => trivial) fun hsO => .reqBind (fun _ => trivial) fun _ => .bind rule_solStaker fun _ _ => ?_
  refine .reqBind (fun _ => trivial) fun _ => .reqBind (fun _ => trivial) fun _ => .bind (rule_harvest hO hsO) fun w1 h1 => ?_
  have A1 := harvest_alike h1
  refine .reqBind (fun _ => trivial) fun htO => .reqBind (fun _ => trivial) fun _ => .reqBind (fun _ => trivial) fun _ => ?_
  refine .bind rule_solStaker fun _ _ => .reqBind (fun _ => trivial) fun _ => .bind (rule_harvest ((A1 _).1.trans hO) htO) fun w2 h2 => ?_
  have A2 := A1.trans (harvest_alike h2)
  have htO' := (A1 _).1.symm.trans htO
  refine .bind rule_readDel fun _ _ => .bind rule_readDel fun _ _ => .reqBind (fun _ => trivial) fun _ => ?_
  refine .bind .subU64 fun _ _ => .bind .addU64 fun _ _ => .bind (rule_writeDel ((A2 _).1.trans hsO)) fun w3 h3 => ?_
  have A3 := A2.trans (writeDel_alike h3)
  refine .bind (rule_writeDel ((A3 _).1.trans htO')) fun w4 h4 => ?_
  have A4 := A3.trans (writeDel_alike h4)
  refine .bind (rule_syncEffective ((A4 _).1.trans hO) ((A4 _).1.trans hsO)) fun w5 h5 => ?_
  have A5 := A4.trans (syncEffective_alike h5)
  exact rule_syncEffective ((A5 _).1.trans hO) ((A5 _).1.trans htO')

theorem leaveValidator_rules {a : HarvestSolStakerRewardsAccts} {s : SolStakerStake} (hO : (w1 a.config).owner = progId) :
    Blames (leaveValidator env w1 a s) (Objection w ix) := by
  unfold leaveValidator
  refine .ite (fun _ => ?_) fun _ => .reqBind (fun _ => trivial) fun _ => .pure
  refine .reqBind (fun _ => trivial) fun hvO => .reqBind (fun _ => trivial) fun _ => .bind rule_validator fun _ _ => ?_
  refine .bind (rule_harvest hO hvO) fun w2 h2 => .bind rule_validator fun v hv => .bind .subU64 fun _ _ => ?_
  have A2 := harvest_alike h2
  rw [unpackValidator_ok] at hv
  refine .bind (rule_setData ((A2 _).1.trans hvO)) fun w3 h3 => ?_
  have A3 := A2.trans (setData_alike h3 (by rw [hv]; exact .validator))
  exact rule_syncEffective ((A3 _).1.trans hO) ((A3 _).1.trans hvO)

theorem joinValidator_rules {a : HarvestSolStakerRewardsAccts} {k : Key} {n : Nat} (hO : (w1 a.config).owner = progId) :
    Blames (joinValidator env w1 a k n) (Objection w ix) := by
  unfold joinValidator
  refine .ite (fun _ => .reqBind (fun _ => trivial) fun _ => .ite (fun hvO => ?_) fun _ => .pure) fun _ => .pure
  refine .bind rule_validator fun _ _ => .bind (rule_harvest hO hvO) fun w2 h2 => .bind rule_validator fun v hv => .bind .addU64 fun _ _ => ?_
  have A2 := harvest_alike h2
  rw [unpackValidator_ok] at hv
  refine .bind (rule_setData ((A2 _).1.trans hvO)) fun w3 h3 => ?_
  have A3 := A2.trans (setData_alike h3 (by rw [hv]; exact .validator))
  exact .bind (rule_syncEffective ((A3 _).1.trans hO) ((A3 _).1.trans hvO)) fun _ _ => .pure

theorem harvestSolStakerRewards_rules (F : o.FailsAsCall) {a : HarvestSolStakerRewardsAccts} :
    Blames (harvestSolStakerRewards env o w a) (Objection w ix) := by
  unfold harvestSolStakerRewards
  refine .reqBind (fun _ => trivial) fun hO => .bind rule_config fun _ _ => .reqBind (fun _ => trivial) fun hsO => ?_
  refine .reqBind (fun _ => trivial) fun _ => .bind rule_solStaker fun _ _ => .reqBind (fun _ => trivial) fun _ => ?_
  refine .reqBind (fun _ => trivial) fun _ => .reqBind (fun _ => trivial) fun _ => .reqBind (fun _ => trivial) fun _ => ?_
  refine .reqBind (fun _ => trivial) fun _ => .bind (rule_callOut fun _ => .inl fun _ _ => rfl) fun _ _ => ?_
  refine .bind (fun e he => ?_) fun v hv => ?_
  · obtain rfl := F.view _ _ he; trivial
  refine .reqBind (fun _ => trivial) fun _ => .bind (rule_harvest hO hsO) fun w1 h1 => .ite (fun _ => .pure) fun _ => ?_
  have A1 := harvest_alike h1
  refine .bind (leaveValidator_rules ((A1 _).1.trans hO)) fun w2 h2 => ?_
  have A2 := A1.trans (leaveValidator_alike h2)
  refine .bind (joinValidator_rules ((A2 _).1.trans hO)) fun x h3 => ?_
  have A3 := A2.trans (joinValidator_alike h3)
  obtain ⟨w3, vote, lamports⟩ := x
  refine .bind rule_solStaker fun t ht => .bind (rule_setData ((A3 _).1.trans hsO)) fun w4 h4 => ?_
  rw [unpackSolStaker_ok] at ht
  have A4 := A3.trans (setData_alike h4 (by rw [ht]; exact .solStaker))
  exact rule_syncEffective ((A4 _).1.trans hO) ((A4 _).1.trans hsO)

end Verif
