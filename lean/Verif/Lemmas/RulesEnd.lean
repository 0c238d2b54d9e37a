import Verif.Lemmas.Rules
/-!
# The handlers that call other programs, and the sum of lamports at the end
-/

namespace Verif

variable {env : Env} {o : Oracle} {ctx : Ctx} {w w' w1 w2 : World} {ix : Ix} {rest : List Key}

theorem lamportSum_local {acc l : List Key} (hl : ∀ k, k ∉ acc → w' k = w k) (hs : lamportSum w' acc = lamportSum w acc)
    (h : ∀ k ∈ acc, k ∈ l) : lamportSum w' l = lamportSum w l := by
  rw [lamportSum_eq, lamportSum_eq] at hs ⊢
  have hsub : acc.toFinset ⊆ l.toFinset := fun k hk => by simpa using h k (by simpa using hk)
  rw [← Finset.sum_sdiff hsub, ← Finset.sum_sdiff hsub, hs]
  congr 1
  refine Finset.sum_congr rfl fun k hk => ?_
  rw [hl k (by simpa using (Finset.mem_sdiff.1 hk).2)]

theorem lamportSum_le {l : List Key} {a b : Key} (ha : a ∈ l) (hb : b ∈ l) (hne : a ≠ b) :
    (w a).lamports + (w b).lamports ≤ lamportSum w l := by
  have ha' : a ∈ l.toFinset := by simpa using ha
  have hb' : b ∈ l.toFinset.erase a := Finset.mem_erase.2 ⟨Ne.symm hne, by simpa using hb⟩
  rw [lamportSum_eq, ← Finset.add_sum_erase _ _ ha', ← Finset.add_sum_erase _ _ hb']
  omega

theorem tokenBurn_owner {s m a k : Key} {n d : Nat} (h : tokenBurn ctx w s m a n d = .ok w1) : (w1 k).owner = (w k).owner := by
  obtain ⟨_, _, B⟩ := tokenBurn_ok h
  rw [B.eq]; simp

/-! ## Slashing -/

theorem slashDelegation_rules {view : World} {ck sk mk vk va tp : Key} {n : Nat} (hsO : (w1 sk).owner = progId)
    (h : (∀ k ∈ [vk, mk, va], k ∉ [ck, sk]) →
      (∀ k ∈ [vk, mk, va], (w1 k).lamports = (view k).lamports) ∨ Objection w ix .unbalanced) :
    Blames (slashDelegation ctx view w1 ck sk mk vk va tp n) (Objection w ix) := by
  unfold slashDelegation
  refine .reqBind (fun _ => trivial) fun _ => .reqBind (fun _ => trivial) fun _ => .bind rule_readDel fun _ _ => ?_
  refine .bind .subU64 fun _ _ => .bind (rule_writeDel hsO) fun w2 h2 => .ite (fun _ => ?_) fun _ => .pure
  refine .reqBind (fun _ => trivial) fun _ => .bind rule_mint fun _ _ => .bind (rule_callOut fun hn => ?_) fun _ _ => .tokenBurn
  exact (h hn).imp (fun h k hk => (setData_lamports h2 k).trans (h k hk)) id

theorem slashDelegation_owner {view : World} {ck sk mk vk va tp k : Key} {n : Nat}
    (h : slashDelegation ctx view w ck sk mk vk va tp n = .ok w') : (w' k).owner = (w k).owner := by
  simp only [slashDelegation, bind_ok, require_ok, exists_unit] at h
  obtain ⟨_, _, d, hd, _, _, w3, h3, h⟩ := h
  rw [← (writeDel_alike h3 k).1]
  split at h
  · simp only [bind_ok] at h
    obtain ⟨_, _, _, _, _, _, h⟩ := h
    exact tokenBurn_owner h
  · cases h; rfl

theorem slashValidatorStake_rules {a : SlashAccts} {n : Nat} (hi : ix.decoded = some (.slashValidatorStake n))
    (hl : ix.ctx.accts = a.listValidator ++ rest) : Blames (slashValidatorStake env ix.ctx w a n) (Objection w ix) := by
  have at' : ∀ m : Nat, ix.acct m = (a.listValidator ++ rest)[m]? := fun m => by unfold Ix.acct; rw [hl]
  have P : ix.payee a.stakeAuthority := .inl (passes_of hi hl 2 rfl rfl)
  unfold slashValidatorStake
  refine .reqBind (fun _ => trivial) fun hO => .bind rule_config fun _ _ => .reqBind (fun _ => trivial) fun hsO => ?_
  refine .reqBind (fun _ => trivial) fun _ => .bind rule_validator fun _ _ => .reqBind (fun _ => trivial) fun _ => ?_
  refine .bind rule_vaultPda fun _ _ => .reqBind (fun _ => trivial) fun _ => .bind (rule_harvest hO hsO) fun w1 h1 => ?_
  have A1 := harvest_alike h1
  refine .reqBind (fun _ => trivial) fun _ => .reqBind (fun _ => trivial) fun _ => .reqBind (fun _ => trivial) fun _ => ?_
  refine .reqBind (fun _ => trivial) fun _ => .reqBind (fun _ => trivial) fun _ => .bind rule_token fun _ _ => ?_
  refine .reqBind (fun _ => trivial) fun _ => .bind (slashDelegation_rules ((A1 _).1.trans hsO) fun hn => ?_) fun w2 h2 => ?_
  · by_cases e : a.stakeAuthority ∈ [a.vault, a.mint, a.vaultAuthority]
    · simp only [List.mem_cons, List.not_mem_nil, or_false] at e
      rcases e with e | e | e
      · exact .inr (paid_twice P (p := 2) (q := 4) (by decide) (at' 2) (by rw [e]; exact at' 4))
      · exact .inr (paid_twice P (p := 2) (q := 7) (by decide) (at' 2) (by rw [e]; exact at' 7))
      · exact .inr (paid_twice P (p := 2) (q := 6) (by decide) (at' 2) (by rw [e]; exact at' 6))
    · exact .inl fun k hk => harvest_unpaid h1 (fun e' => hn k hk (by simp [e'])) fun e' => e (e' ▸ hk)
  · exact rule_syncEffective ((slashDelegation_owner h2).trans ((A1 _).1.trans hO))
      ((slashDelegation_owner h2).trans ((A1 _).1.trans hsO))

theorem slashSolStakerStake_rules {a : SlashAccts} {n : Nat} (hi : ix.decoded = some (.slashSolStakerStake n))
    (hl : ix.ctx.accts = a.listSolStaker ++ rest) : Blames (slashSolStakerStake env ix.ctx w a n) (Objection w ix) := by
  have at' : ∀ m : Nat, ix.acct m = (a.listSolStaker ++ rest)[m]? := fun m => by unfold Ix.acct; rw [hl]
  have P : ix.payee a.stakeAuthority := .inl (passes_of hi hl 2 rfl rfl)
  unfold slashSolStakerStake
  refine .reqBind (fun _ => trivial) fun hO => .bind rule_config fun _ _ => .reqBind (fun _ => trivial) fun hsO => ?_
  refine .reqBind (fun _ => trivial) fun _ => .bind rule_solStaker fun _ _ => .reqBind (fun _ => trivial) fun _ => ?_
  refine .bind rule_vaultPda fun _ _ => .reqBind (fun _ => trivial) fun _ => .bind (rule_harvest hO hsO) fun w1 h1 => ?_
  have A1 := harvest_alike h1
  refine .reqBind (fun _ => trivial) fun _ => .reqBind (fun _ => trivial) fun _ => .reqBind (fun _ => trivial) fun _ => ?_
  refine .reqBind (fun _ => trivial) fun _ => .reqBind (fun _ => trivial) fun _ => .bind rule_token fun _ _ => ?_
  refine .reqBind (fun _ => trivial) fun _ => .bind (slashDelegation_rules ((A1 _).1.trans hsO) fun hn => ?_) fun w2 h2 => ?_
  · by_cases e : a.stakeAuthority ∈ [a.vault, a.mint, a.vaultAuthority]
    · simp only [List.mem_cons, List.not_mem_nil, or_false] at e
      rcases e with e | e | e
      · exact .inr (paid_twice P (p := 2) (q := 5) (by decide) (at' 2) (by rw [e]; exact at' 5))
      · exact .inr (paid_twice P (p := 2) (q := 4) (by decide) (at' 2) (by rw [e]; exact at' 4))
      · exact .inr (paid_twice P (p := 2) (q := 7) (by decide) (at' 2) (by rw [e]; exact at' 7))
    · exact .inl fun k hk => harvest_unpaid h1 (fun e' => hn k hk (by simp [e'])) fun e' => e (e' ▸ hk)
  · exact rule_syncEffective ((slashDelegation_owner h2).trans ((A1 _).1.trans hO))
      ((slashDelegation_owner h2).trans ((A1 _).1.trans hsO))

/-! ## Unstaking -/

theorem unstakeTokens_rules (F : o.FailsAsCall) (L : o.Local) {a : UnstakeTokensAccts} {n : Nat}
    (hi : ix.decoded = some (.unstakeTokens n)) (hl : ix.ctx.accts = a.list ++ rest) :
    Blames (unstakeTokens env o ix.ctx w a n) (Objection w ix) := by
  have at' : ∀ m : Nat, ix.acct m = (a.list ++ rest)[m]? := fun m => by unfold Ix.acct; rw [hl]
  have P : ix.payee a.stakeAuthority := .inl (passes_of hi hl 4 rfl rfl)
  have T : ∀ l : List Key, (∀ k ∈ l, ∃ m, m ≠ 4 ∧ ix.acct m = some k) → a.stakeAuthority ∈ l →
      Objection w ix .unbalanced := by
    intro l hm hk
    obtain ⟨m, hm, e⟩ := hm _ hk
    exact paid_twice P (Ne.symm hm) (at' 4) e
  have m1 : ∀ k ∈ a.toToken, ∃ m, m ≠ 4 ∧ ix.acct m = some k := by
    intro k hk
    simp only [UnstakeTokensAccts.toToken, List.mem_cons, List.not_mem_nil, or_false] at hk
    rcases hk with rfl | rfl | rfl | rfl
    · exact ⟨5, by decide, at' 5⟩
    · exact ⟨8, by decide, at' 8⟩
    · exact ⟨9, by decide, at' 9⟩
    · exact ⟨6, by decide, at' 6⟩
  have m2 : ∀ k ∈ a.toRewards, ∃ m, m ≠ 4 ∧ ix.acct m = some k := by
    intro k hk
    simp only [UnstakeTokensAccts.toRewards, List.mem_cons, List.not_mem_nil, or_false] at hk
    rcases hk with rfl | rfl | rfl | rfl | rfl | rfl | rfl
    · exact ⟨1, by decide, at' 1⟩
    · exact ⟨2, by decide, at' 2⟩
    · exact ⟨7, by decide, at' 7⟩
    · exact ⟨5, by decide, at' 5⟩
    · exact ⟨8, by decide, at' 8⟩
    · exact ⟨6, by decide, at' 6⟩
    · exact ⟨10, by decide, at' 10⟩
  unfold unstakeTokens
  refine .reqBind (fun _ => trivial) fun hO => .bind rule_config fun c hc => .reqBind (fun _ => trivial) fun _ => ?_
  refine .reqBind (fun _ => trivial) fun _ => .reqBind (fun _ => trivial) fun _ => .bind rule_token fun _ _ => ?_
  refine .reqBind (fun _ => trivial) fun _ => .reqBind (fun _ => trivial) fun hsO => .reqBind (fun _ => trivial) fun _ => .bind ?_ fun x hx => ?_
  · unfold unstakeView
    refine .ite (fun _ => .bind rule_validator fun _ _ => .pure) fun _ => .ite (fun _ => .bind rule_solStaker fun _ _ => .pure) fun _ => ?_
    exact .error trivial
  obtain ⟨der, lam, lmin⟩ := x
  refine .reqBind (fun _ => trivial) fun _ => .bind rule_readDel fun _ _ => .reqBind (fun _ => trivial) fun _ => ?_
  refine .reqBind (fun _ => trivial) fun _ => .reqBind (fun _ => trivial) fun _ => .reqBind (fun _ => trivial) fun _ => ?_
  refine .bind rule_mint fun _ _ => .bind (rule_harvest hO hsO) fun w1 h1 => .bind rule_readDel fun _ _ => ?_
  have A1 := harvest_alike h1
  refine .reqBind (fun _ => trivial) fun _ => .reqBind (fun _ => trivial) fun _ => .bind .mulDivU64 fun _ _ => ?_
  refine .reqBind (fun _ => trivial) fun _ => .bind .subU64 fun _ _ => .bind (rule_writeDel ((A1 _).1.trans hsO)) fun w2 h2 => ?_
  have A2 := A1.trans (writeDel_alike h2)
  refine .bind (rule_syncEffective ((A2 _).1.trans hO) ((A2 _).1.trans hsO)) fun w3 h3 => ?_
  have l3 : ∀ k, k ≠ a.config → k ≠ a.stakeAuthority → (w3 k).lamports = (w k).lamports := fun k k1 k2 => by
    rw [syncEffective_lamports h3, setData_lamports h2, harvest_unpaid h1 k1 k2]
  refine .bind (rule_callOut fun hn => ?_) fun _ hout => .bind (fun e he => ?_) fun w4 h4 => ?_
  · by_cases e : a.stakeAuthority ∈ a.toRewards
    · exact .inr (T _ m2 e)
    · exact .inl fun k hk => l3 k (fun e' => hn k hk (by simp [e'])) fun e' => e (e' ▸ hk)
  · obtain rfl := F.withdraw _ _ _ he; trivial
  refine .bind (rule_callOut fun hn => ?_) fun _ _ => .tokenTransfer
  by_cases e : a.stakeAuthority ∈ a.toToken
  · exact .inr (T _ m1 e)
  · refine .inl fun k hk => ?_
    unfold World.known
    split_ifs with hr
    · rfl
    · rw [L.withdraw h4 k ?_]
      · exact l3 k (fun e' => hn k hk (by simp [e'])) fun e' => e (e' ▸ hk)
      · intro hm
        apply hr
        simp only [UnstakeTokensAccts.call, RewardsCall.accounts, List.mem_cons, List.not_mem_nil, or_false] at hm
        simp only [UnstakeTokensAccts.toRewards, List.mem_cons, List.not_mem_nil, or_false]
        tauto

/-! ## The rewards of the vault -/

theorem holder_call_sum (L : o.Local) (C : o.Conserves) {a : HarvestHolderRewardsAccts} {call : RewardsCall}
    (hl : ix.ctx.accts = a.list ++ rest)
    (h : o.harvestRewards w1 call = .ok w2) (hw : ∀ k, (w1 k).lamports = (w k).lamports)
    (e1 : call.pool = a.holderRewardsPool := by rfl) (e2 : call.poolToken = a.holderRewardsPoolTokenAccount := by rfl)
    (e3 : call.holderRewards = a.vaultHolderRewards := by rfl) (e4 : call.owner = a.vaultPda := by rfl)
    (e5 : call.token = a.holderRewardsPoolTokenAccount := by rfl) :
    lamportSum w2 ix.ctx.accts = lamportSum w ix.ctx.accts := by
  rw [lamportSum_local (L.harvestRewards h) (C.harvestRewards h) fun k hk => ?_, lamportSum_congr _ hw]
  rw [hl]; refine List.mem_append_left _ ?_
  simp only [RewardsCall.accounts, List.mem_cons, List.not_mem_nil, or_false, e1, e2, e3, e4, e5] at hk
  clear e1 e2 e3 e4 e5 h hw hl
  simp only [HarvestHolderRewardsAccts.list, List.mem_cons, List.not_mem_nil, or_false]
  tauto

theorem harvestHolderRewards_rules (I : Inv env w) (O : o.Ok) (F : o.FailsAsCall) (L : o.Local) (C : o.Conserves)
    (hsup : lamportSum w ix.ctx.accts < 2 ^ 64) {a : HarvestHolderRewardsAccts}
    (hi : ix.decoded = some .harvestHolderRewards) (hl : ix.ctx.accts = a.list ++ rest) :
    Blames (harvestHolderRewards env o w a) (Objection w ix) := by
  have pv : ix.passes .vaultAuthority a.vaultPda := passes_of hi hl 5 rfl rfl
  unfold harvestHolderRewards
  refine .reqBind (fun _ => trivial) fun hO => .bind rule_config fun c hc => .reqBind (fun _ => trivial) fun _ => ?_
  rw [unpackConfig_ok] at hc
  refine .reqBind (fun _ => trivial) fun _ => .bind rule_token fun _ _ => .reqBind (fun _ => trivial) fun _ => ?_
  refine .bind rule_vaultPda fun vs hvs => .reqBind (fun _ => trivial) fun hva => .reqBind (fun _ => trivial) fun _ => ?_
  rw [createVaultPda_ok] at hvs
  refine .reqBind (fun _ => trivial) fun _ => .bind .syncConfigLamports fun c1 hc1 => .bind (rule_setData hO) fun w1 hw1 => ?_
  obtain ⟨hlast, rfl⟩ := syncConfigLamports_ok hc1
  obtain ⟨_, rfl⟩ := setData_ok.1 hw1
  refine .bind (fun e he => ?_) fun w2 hw2 => ?_
  · obtain rfl := F.harvestRewards _ _ _ he; trivial
  have hne : a.vaultPda ≠ a.config := by
    intro e
    have := congrArg Key.ofProgram e
    rw [I.config_key (configAt_eq.2 ⟨hO, hc⟩), hva, hvs.2] at this; simp [Key.ofProgram] at this
  have W1 : (w.setD a.config (.config (c.settled (w a.config).lamports 0))).WF := by
    refine ⟨fun k => ⟨by simpa using (I.wf.1 k).1, ?_⟩, by simpa using I.wf.2⟩
    rw [World.setD_data]
    split_ifs
    · obtain ⟨h1, h2, h3, h4, h5, h6, h7⟩ := wf_config I hc
      have := (I.wf.1 a.config).1
      exact ⟨h1, h2, h3, by simp only [Config.settled]; omega, accNow_lt _ _, h6, h7⟩
    · exact (I.wf.1 k).2
  have E := O.harvestRewards W1 hw2
  have hs2 := holder_call_sum L C hl hw2 fun k => World.setD_lamports ..
  have hc2 : (w2 a.config).owner = progId := by
    have h1 := (E.2 a.config).1 (by rw [World.setD_owner]; exact hO)
    rcases h1 with h | ⟨h, _⟩
    · exact h.1
    · exfalso
      rw [World.setD_lamports] at h
      have := (I.config _ c (configAt_eq.2 ⟨hO, hc⟩)).rent
      have := env.rentMin_pos configLen
      omega
  have m1 : a.vaultPda ∈ ix.ctx.accts := by rw [hl]; simp [HarvestHolderRewardsAccts.list]
  have m2 : a.config ∈ ix.ctx.accts := by rw [hl]; simp [HarvestHolderRewardsAccts.list]
  refine .bind ?_ fun w3 hw3 => .bind rule_config fun _ _ => rule_setData ?_
  · unfold transferExcess
    refine .reqBind (fun _ => trivial) fun hr => .reqBind (fun h => ?_) fun hu => .bind (.reqBind (fun h => ?_) fun _ => .pure) fun w3 h3 => ?_
    · exfalso
      have := lamportSum_le (w := w2) m1 m2 hne
      rw [hs2] at this
      have : U64 = 2 ^ 64 := rfl
      exact h (.inr (by omega))
    · refine ⟨hi, _, pv, ?_⟩
      by_contra hn
      push Not at hn
      rcases (E.2 a.vaultPda).1 (by rw [World.setD_owner]; exact hn.1) with ⟨h', _⟩ | ⟨h', _⟩
      · exact h (.inr h')
      · rw [World.setD_lamports] at h'; exact hn.2 h'
    · refine rule_setLamports (.inr ?_)
      rw [(setLamports_alike h3 _).1]; exact hc2
  · simp only [transferExcess, bind_ok, require_ok, exists_unit] at hw3
    obtain ⟨_, _, w4, h4, h5⟩ := hw3
    rw [(setLamports_alike h5 _).1, (setLamports_alike h4 _).1]; exact hc2

/-! ## The sum of lamports at the end -/

theorem Left.sum {a : HarvestSolStakerRewardsAccts} {s : SolStakerStake} (X : Left env w w' a s) {l : List Key}
    (hck : a.config ∈ l) (hauth : a.previousValidatorStakeAuthority ∈ l) (hne : a.previousValidatorStakeAuthority ≠ a.config) :
    lamportSum w' l = lamportSum w l := by
  cases X with
  | stay _ _ h => rw [h]
  | leave _ _ _ R => rw [R.sum hck hauth, if_neg hne, Nat.add_zero]

theorem Joined.sum {a : HarvestSolStakerRewardsAccts} {dv vote : Key} {ds n : Nat} (X : Joined env w w' a dv ds vote n) {l : List Key}
    (hck : a.config ∈ l) (hauth : a.currentValidatorStakeAuthority ∈ l) (hne : a.currentValidatorStakeAuthority ≠ a.config) :
    lamportSum w' l = lamportSum w l := by
  cases X with
  | undelegated _ h => rw [h]
  | absent _ _ _ h => rw [h]
  | join _ _ R => rw [R.sum hck hauth, if_neg hne, Nat.add_zero]

theorem StakedOk.end_sum {a : StakeTokensAccts} {n : Nat} {c : Config} {d : Delegation} {hr : HolderRewards}
    {rs rh : Nat} {w3 : World} {D' : Data} {c1 : Config} {d1 d2 : Delegation} {ts td : TokenAccount} {i : StakeInstruction}
    (S : StakedOk env o ix.ctx w w' a n c d hr rs rh w1 w2 w3 D' c1 d1 d2 ts td) (L : o.Local) (C : o.Conserves)
    (hi : ix.decoded = some i) (hl : ix.ctx.accts = a.list ++ rest) (hp : i.position .stakeAuthority = some 4) :
    lamportSum w' ix.ctx.accts = lamportSum w ix.ctx.accts ∨ Objection w ix .unbalanced := by
  by_cases e : a.stakeAuthority = a.config
  · refine .inr (paid_twice (p := 4) (q := 0) (.inl (passes_of hi hl 4 hp rfl)) (by decide) ?_ ?_)
    · unfold Ix.acct; rw [hl]; rfl
    · unfold Ix.acct; rw [hl, e]; rfl
  refine .inl ?_
  rw [lamportSum_local (L.deposit S.deposit) (C.deposit S.deposit) ?_, lamportSum_congr _ S.transfer.lamports, S.adj.sum,
    S.harv.sum ?_ ?_ (by simp) (by simp), if_neg e, Nat.add_zero]
  · rw [hl]; simp [StakeTokensAccts.list]
  · rw [hl]; simp [StakeTokensAccts.list]
  · intro k hk
    simp only [StakeTokensAccts.call, RewardsCall.accounts, List.mem_cons, List.not_mem_nil, or_false] at hk
    rw [hl]
    simp only [StakeTokensAccts.list, List.mem_append, List.mem_cons, List.not_mem_nil, or_false]
    tauto

theorem SlashedOk.end_sum {a : SlashAccts} {n : Nat} {c : Config} {d : Delegation} {hr : HolderRewards}
    {rs rh : Nat} {D' : Data} {c1 : Config} {d1 d2 : Delegation} (S : SlashedOk env ctx w w' a n c d hr rs rh w1 w2 D' c1 d1 d2)
    {l : List Key} (e : a.stakeAuthority ≠ a.config) (hck : a.config ∈ l) (hau : a.stakeAuthority ∈ l) :
    lamportSum w' l = lamportSum w l := by
  have : lamportSum w2 l = lamportSum w1 l := by
    rcases S.burn with ⟨_, rfl⟩ | ⟨_, t, m, B⟩
    · rfl
    · exact lamportSum_congr _ fun k => by rw [B.eq]; simp
  rw [S.adj.sum, this, S.harv.sum hck hau (by simp) (by simp), if_neg e, Nat.add_zero]

theorem harvestHolder_sum (I : Inv env w) (L : o.Local) (C : o.Conserves) {a : HarvestHolderRewardsAccts}
    (hl : ix.ctx.accts = a.list ++ rest) (h : harvestHolderRewards env o w a = .ok w') :
    lamportSum w' ix.ctx.accts = lamportSum w ix.ctx.accts := by
  have h' := h
  simp only [harvestHolderRewards, bind_ok, require_ok, exists_unit, unpackConfig_ok, unpackToken_ok,
    createVaultPda_ok, setData_ok, transferExcess, setLamports_ok] at h
  obtain ⟨hcO, c, hc, hvault, _, tv, htv, _, vs, ⟨hcurve, rfl⟩, hpda, hhO, hhk, c1, hc1, w1, ⟨_, rfl⟩, w2, hw2, w4,
    ⟨hrent, hsup, w3, ⟨hown, rfl⟩, _, rfl⟩, c2, hc2, _, rfl⟩ := h
  have hne : a.vaultPda ≠ a.config := by
    intro e
    have := congrArg Key.ofProgram e
    rw [I.config_key (configAt_eq.2 ⟨hcO, hc⟩), hpda] at this; simp [Key.ofProgram] at this
  have hs2 := holder_call_sum L C hl hw2 fun k => World.setD_lamports ..
  clear hw2 h'
  rw [← hs2, lamportSum_congr _ fun k => World.setD_lamports .., lamportSum_eq, lamportSum_eq]
  have m1 : a.vaultPda ∈ ix.ctx.accts.toFinset := by rw [hl]; simp [HarvestHolderRewardsAccts.list]
  have m2 : a.config ∈ ix.ctx.accts.toFinset := by rw [hl]; simp [HarvestHolderRewardsAccts.list]
  have hu := hsup.resolve_left hne
  set x := (w2 a.vaultPda).lamports with hx
  set r := env.rentMin (w2 a.vaultPda).data.len with hr
  have s1 := sum_change (f := fun k => (w2 k).lamports) (g := fun k => (w2.setL a.vaultPda (x - (x - r)) k).lamports) m1
    (fun k hk => by simp only [World.setL_lamports, if_neg hk])
  have s2 := sum_change (f := fun k => (w2.setL a.vaultPda (x - (x - r)) k).lamports)
    (g := fun k => ((w2.setL a.vaultPda (x - (x - r))).setL a.config
      (((w2.setL a.vaultPda (x - (x - r)) a.config).lamports + (x - r)) % U64) k).lamports) m2
    (fun k hk => by rw [World.setL_lamports, if_neg hk])
  simp only [World.setL_lamports, if_true, if_neg (Ne.symm hne)] at s1 s2 ⊢
  rw [Nat.mod_eq_of_lt (by omega)] at s2 ⊢
  rw [← hx] at s1
  omega

/-- Lamports are conserved unless somebody who is paid is also passed as the config. -/
theorem ran_sum (I : Inv env w) (L : o.Local) (C : o.Conserves) (X : Ran env o w w' ix) :
    lamportSum w' ix.ctx.accts = lamportSum w ix.ctx.accts ∨ Objection w ix .unbalanced := by
  cases X with
  | initializeConfig a s c x t b y rest h1 h2 h3 =>
    obtain ⟨w1, b, t, _, _, hw1, _, _, _, _, _, _, _, _, _, _, _, _, rfl⟩ := initializeConfig_ok h3
    refine .inl (lamportSum_congr _ fun k => ?_)
    rcases hw1 with ⟨_, rfl⟩ | ⟨_, rfl⟩ <;> simp
  | initializeValidatorStake a rest h1 h2 h3 =>
    obtain ⟨c, wd, _, _, _, _, _, _, _, _, _, rfl⟩ := initializeValidatorStake_ok h3
    exact .inl (lamportSum_congr _ fun k => by simp)
  | initializeSolStakerStake a rest h1 h2 h3 =>
    obtain ⟨c, v, vs, au, _, _, _, _, _, _, _, _, _, _, _, _, _, _, _, _, _, rfl⟩ := initializeSolStakerStake_ok h3
    exact .inl (lamportSum_congr _ fun k => by simp)
  | setAuthority a t rest h1 h2 h3 =>
    obtain ⟨c, c', _, _, _, rfl, _⟩ := setAuthority_ok h3
    exact .inl (lamportSum_congr _ fun k => by simp)
  | updateConfig a f rest h1 h2 h3 =>
    obtain ⟨c, _, _, _, _, _, _, rfl⟩ := updateConfig_ok h3
    exact .inl (lamportSum_congr _ fun k => by simp)
  | validatorSyncAuthority a rest h1 h2 h3 =>
    obtain ⟨s, wd, _, _, _, _, _, _, _, rfl⟩ := validatorSyncAuthority_ok h3
    exact .inl (lamportSum_congr _ fun k => by simp)
  | validatorStakeTokens a n rest h1 h2 h3 =>
    obtain ⟨c, s, hr, rs, rh, w1, w2, w3, c1, ts, td, _, _, S⟩ := validatorStakeTokens_ok h3
    exact S.end_sum L C h1 h2 rfl
  | solStakerStakeTokens a n rest h1 h2 h3 =>
    obtain ⟨c, s, hr, rs, rh, w1, w2, w3, c1, ts, td, _, _, S⟩ := solStakerStakeTokens_ok h3
    exact S.end_sum L C h1 h2 rfl
  | harvestHolderRewards a rest h1 h2 h3 => exact .inl (harvestHolder_sum I L C h2 h3)
  | harvestValidatorRewards a rest h1 h2 h3 =>
    obtain ⟨c, s, hr, rs, rh, _, _, _, _, H⟩ := harvestValidatorRewards_ok h3
    by_cases e : a.validatorStakeAuthority = a.config
    · refine .inr (paid_twice (p := 3) (q := 0) (.inl (passes_of h1 h2 3 rfl rfl)) (by decide) ?_ ?_)
      · unfold Ix.acct; rw [h2]; rfl
      · unfold Ix.acct; rw [h2, e]; rfl
    · refine .inl ?_
      rw [H.sum ?_ ?_ (by simp) (by simp), if_neg e, Nat.add_zero] <;> simp [h2, HarvestValidatorRewardsAccts.list]
  | slashValidatorStake a n rest h1 h2 h3 =>
    obtain ⟨c, s, hr, rs, rh, w1, w2, c1, _, _, S⟩ := slashValidatorStake_ok h3
    by_cases e : a.stakeAuthority = a.config
    · refine .inr (paid_twice (p := 2) (q := 0) (.inl (passes_of h1 h2 2 rfl rfl)) (by decide) ?_ ?_)
      · unfold Ix.acct; rw [h2]; rfl
      · unfold Ix.acct; rw [h2, e]; rfl
    · exact .inl (S.end_sum e (by simp [h2, SlashAccts.listValidator]) (by simp [h2, SlashAccts.listValidator]))
  | slashSolStakerStake a n rest h1 h2 h3 =>
    obtain ⟨c, s, hr, rs, rh, w1, w2, c1, _, _, S⟩ := slashSolStakerStake_ok h3
    by_cases e : a.stakeAuthority = a.config
    · refine .inr (paid_twice (p := 2) (q := 0) (.inl (passes_of h1 h2 2 rfl rfl)) (by decide) ?_ ?_)
      · unfold Ix.acct; rw [h2]; rfl
      · unfold Ix.acct; rw [h2, e]; rfl
    · exact .inl (S.end_sum e (by simp [h2, SlashAccts.listSolStaker]) (by simp [h2, SlashAccts.listSolStaker]))
  | harvestSolStakerRewards a keeper rest h1 h2 h3 h4 =>
    have at' : ∀ m : Nat, ix.acct m = (a.list keeper ++ rest)[m]? := fun m => by unfold Ix.acct; rw [h2]
    obtain ⟨s, v, c, hr, rs, rh, w1, B, S⟩ := harvestSolStakerRewards_ok I.wf h4
    by_cases e1 : a.solStakerStakeAuthority = a.config
    · exact .inr (paid_twice (p := 4) (q := 1) (.inl (passes_of h1 h2 4 rfl rfl)) (by decide) (at' 4) (by rw [e1]; exact at' 1))
    by_cases e2 : a.previousValidatorStakeAuthority = a.config
    · exact .inr (paid_twice (p := 7) (q := 1) (.inr (.inl (passes_of h1 h2 7 rfl rfl))) (by decide) (at' 7) (by rw [e2]; exact at' 1))
    by_cases e3 : a.currentValidatorStakeAuthority = a.config
    · exact .inr (paid_twice (p := 9) (q := 1) (.inr (.inr (.inl (passes_of h1 h2 9 rfl rfl)))) (by decide) (at' 9) (by rw [e3]; exact at' 1))
    by_cases e4 : keeper = a.config
    · exact .inr (paid_twice (p := 11) (q := 1) (.inr (.inr (.inr ⟨h1, at' 11⟩))) (by decide) (at' 11) (by rw [e4]; exact at' 1))
    have mem : ∀ k ∈ a.list keeper, k ∈ ix.ctx.accts := fun k hk => by rw [h2]; exact List.mem_append_left _ hk
    have mc : a.config ∈ ix.ctx.accts := mem _ (by simp [HarvestSolStakerRewardsAccts.list])
    have ma : a.solStakerStakeAuthority ∈ ix.ctx.accts := mem _ (by simp [HarvestSolStakerRewardsAccts.list])
    refine .inl ?_
    cases S with
    | noSync _ _ H e =>
      subst e
      rw [H.sum mc ma (by simp) (by simp), if_neg e1, Nat.add_zero]
    | sync _ hk H X J _ _ A =>
      have ek := h3.symm.trans hk
      split_ifs at ek with ekp
      cases ek
      rw [A.sum, J.sum mc (mem _ (by simp [HarvestSolStakerRewardsAccts.list])) e3,
        X.sum mc (mem _ (by simp [HarvestSolStakerRewardsAccts.list])) e2, H.sum mc ma ?_ (by simpa using e4), if_neg e1, Nat.add_zero]
      rintro _ ⟨⟩
      exact mem _ (by simp [HarvestSolStakerRewardsAccts.list])
  | unstakeTokens a n rest h1 h2 h3 =>
    obtain ⟨c, d, hr, rs, rh, w1, w2, w3, c1, D', call, ts, td, lam, S, _⟩ := unstakeTokens_ok h3
    by_cases e : a.stakeAuthority = a.config
    · refine .inr (paid_twice (p := 4) (q := 0) (.inl (passes_of h1 h2 4 rfl rfl)) (by decide) ?_ ?_)
      · unfold Ix.acct; rw [h2]; rfl
      · unfold Ix.acct; rw [h2, e]; rfl
    refine .inl ?_
    rw [lamportSum_congr _ S.transfer.lamports, lamportSum_local (L.withdraw S.withdraw) (C.withdraw S.withdraw) ?_, S.adj.sum,
      S.harv.sum ?_ ?_ (by simp) (by simp), if_neg e, Nat.add_zero]
    · rw [h2]; simp [UnstakeTokensAccts.list]
    · rw [h2]; simp [UnstakeTokensAccts.list]
    · intro k hk
      rw [S.call_eq] at hk
      simp only [UnstakeTokensAccts.call, RewardsCall.accounts, List.mem_cons, List.not_mem_nil, or_false] at hk
      rw [h2]
      simp only [UnstakeTokensAccts.list, List.mem_append, List.mem_cons, List.not_mem_nil, or_false]
      tauto
  | solStakerMoveTokens a n rest h1 h2 h3 =>
    obtain ⟨c, c', s, t, hr, rs, rh, rs', rh', w1, w2, wx, cs, ct, ds, dt, ds', dt', M⟩ := solStakerMoveTokens_ok h3
    by_cases e : a.solStakerAuthority = a.config
    · refine .inr (paid_twice (p := 2) (q := 0) (.inl (passes_of h1 h2 2 rfl rfl)) (by decide) ?_ ?_)
      · unfold Ix.acct; rw [h2]; rfl
      · unfold Ix.acct; rw [h2, e]; rfl
    have mc : a.config ∈ ix.ctx.accts := by rw [h2]; simp [SolStakerMoveTokensAccts.list]
    have ma : a.solStakerAuthority ∈ ix.ctx.accts := by rw [h2]; simp [SolStakerMoveTokensAccts.list]
    refine .inl ?_
    rw [M.adjT.sum, M.adjS.sum, M.harvT.sum mc ma (by simp) (by simp), M.harvS.sum mc ma (by simp) (by simp), if_neg e, if_neg e]
    omega
  | validatorOverrideStakedLamports a n rest h1 h2 h3 =>
    obtain ⟨c, s, hr, rs, rh, w1, c1, _, _, _, _, _, _, _, H, A⟩ := validatorOverrideStakedLamports_ok h3
    by_cases e : a.validatorStakeAuthority = a.config
    · refine .inr (paid_twice (p := 3) (q := 0) (.inl (passes_of h1 h2 3 rfl rfl)) (by decide) ?_ ?_)
      · unfold Ix.acct; rw [h2]; rfl
      · unfold Ix.acct; rw [h2, e]; rfl
    · refine .inl ?_
      rw [A.sum, H.sum ?_ ?_ (by simp) (by simp), if_neg e, Nat.add_zero] <;> simp [h2, ValidatorOverrideStakedLamportsAccts.list]

end Verif
