import Verif.Lemmas.Fault
import Verif.Lemmas.Preserve
/-!
# The standard errors, handler by handler
-/

namespace Verif

variable {env : Env} {o : Oracle} {w w' : World} {ix : Ix} {rest : List Key}

theorem not_rentExempt {i : StakeInstruction} {r : Role} {k : Key} {n : Nat} (hi : ix.decoded = some i)
    (hc : i.creates = some (r, n)) (hp : ix.passes r k) (h : ¬ env.rentMin n ≤ (w k).lamports) :
    Fault env o w ix .accountNotRentExempt := ⟨i, r, n, k, hi, hc, hp, by omega⟩

theorem bad_owner {i : StakeInstruction} {r : Role} {k p : Key} (hi : ix.decoded = some i)
    (hc : i.ownerOf r = some p) (hp : ix.passes r k) (h : ¬ (w k).owner = p) :
    Fault env o w ix .invalidAccountOwner := ⟨i, r, k, p, hi, hp, hc, h⟩

theorem no_signature {i : StakeInstruction} {r : Role} {k : Key} (hi : ix.decoded = some i)
    (hc : i.signs r = true) (hp : ix.passes r k) (h : ¬ ix.ctx.signer k = true) :
    Fault env o w ix .missingRequiredSignature := ⟨i, r, k, hi, hp, hc, by simpa using h⟩

theorem bad_seeds {ck k : Key} {r : Role} (hc : ix.passes .config ck) (hp : ix.passes r k)
    (h : ¬ ix.rightAddress env o w ck r k) : Fault env o w ix .invalidSeeds := ⟨ck, r, k, hc, hp, h⟩

theorem passes_at {i : StakeInstruction} {r : Role} {k k' : Key} {n : Nat} (hi : ix.decoded = some i)
    (hp : i.position r = some n) (ha : ix.acct n = some k) (h : ix.passes r k') : k' = k := by
  obtain ⟨j, m, hj, hm, h⟩ := h
  rw [hi] at hj; cases hj
  rw [hp] at hm; cases hm
  rw [ha] at h; cases h; rfl

theorem borrowed {p q : Nat} {k : Key} (hpq : p ≠ q) (hp : ix.acct p = some k) (hq : ix.acct q = some k)
    (h : ix.passes .config k ∨ ix.passes .stake k) : Fault env o w ix .accountBorrowFailed := ⟨p, q, k, hpq, hp, hq, h⟩

theorem twice {p q : Nat} {x y : Key} (hpq : p ≠ q) (hp : ix.acct p = some x) (hq : ix.acct q = some y) (h : ¬ y ≠ x)
    (hr : ix.passes .config x ∨ ix.passes .stake x) : Fault env o w ix .accountBorrowFailed :=
  ⟨p, q, x, hpq, hp, by rw [hq, not_not.1 h], hr⟩

theorem either {x a b : Key} (h : ¬ (x ≠ a ∧ x ≠ b)) : x = a ∨ x = b := by tauto

theorem initializeConfig_fault {a : InitializeConfigAccts} {s c h : List UInt8} {t b y : Nat}
    (hi : ix.decoded = some (.initializeConfig s c t b y h)) (hl : ix.ctx.accts = a.list ++ rest) {x : InitializeConfigArgs}
    (hx : x.maxBps = b) : Blames (initializeConfig env ix.ctx w a x) (Fault env o w ix) := by
  have C : ix.createsConfig := ⟨_, _, _, _, _, _, hi⟩
  have p0 : ix.passes .config a.config := passes_of hi hl 0 rfl rfl
  have p1 : ix.passes .mint a.mint := passes_of hi hl 1 rfl rfl
  have p2 : ix.passes .vaultAuthority a.vaultPda := passes_of hi hl 2 rfl rfl
  have p3 : ix.passes .vault a.vault := passes_of hi hl 3 rfl rfl
  have at' : ∀ m : Nat, ix.acct m = (a.list ++ rest)[m]? := fun m => by unfold Ix.acct; rw [hl]
  unfold initializeConfig
  refine .bind (.mint .refl hi p1 rfl) fun _ _ => .reqBind (fun _ => trivial) fun hva => .reqBind (fun h => ?_) fun he => ?_
  · exact .inl ⟨C, _, p2, fun e => h (by rw [e]; rfl)⟩
  refine .bind .systemAssign fun w1 hw => ?_
  have hd : ∀ k, (w1 k).data = (w k).data := by
    intro k
    simp only [systemAssign] at hw
    split at hw
    · cases hw; rfl
    · simp only [bind_ok, require_ok, exists_unit] at hw
      obtain ⟨_, _, hw⟩ := hw
      cases hw
      by_cases e1 : k = a.vaultPda
      · subst e1; simp
      · rw [World.set_other _ _ e1]
  have hlm : ∀ k, (w1 k).lamports = (w k).lamports := by
    intro k
    simp only [systemAssign] at hw
    split at hw
    · cases hw; rfl
    · simp only [bind_ok, require_ok, exists_unit] at hw
      obtain ⟨_, _, hw⟩ := hw
      cases hw
      by_cases e1 : k = a.vaultPda
      · subst e1; simp
      · rw [World.set_other _ _ e1]
  have ho : ∀ k, (w1 k).owner ≠ progId → (w k).owner ≠ progId := by
    intro k
    simp only [systemAssign] at hw
    split at hw
    · cases hw; exact id
    · simp only [bind_ok, require_ok, exists_unit] at hw
      obtain ⟨_, _, hw⟩ := hw
      cases hw
      by_cases e1 : k = a.vaultPda
      · subst e1; simp
      · rw [World.set_other _ _ e1]; exact id
  refine .reqBind (fun _ => trivial) fun _ => .bind ?_ fun _ _ => ?_
  · intro e he
    have := unpackToken_fails e he
    rw [hd] at this
    exact this.fault .refl hi p3 rfl
  refine .reqBind (fun _ => trivial) fun _ => .reqBind (fun _ => trivial) fun _ => .reqBind (fun _ => trivial) fun _ => ?_
  refine .reqBind (fun _ => trivial) fun _ => .reqBind (fun _ => trivial) fun _ => .reqBind (fun h => ?_) fun _ =>
    .reqBind (fun h => ?_) fun _ => .bind ?_ fun _ _ => ?_
  · rcases either h with e | e
    · exact twice (p := 0) (q := 1) (by decide) (at' 0) (at' 1) (not_not.2 e.symm) (.inl p0)
    · exact twice (p := 0) (q := 3) (by decide) (at' 0) (at' 3) (not_not.2 e.symm) (.inl p0)
  · exact bad_owner hi rfl p0 (ho _ h)
  · rw [hd]
    unfold checkConfigUninit
    refine .ite (fun _ => .error trivial) fun _ => ?_
    split
    · rename_i b hb
      refine .req fun hn => .inr (.inl ⟨C, _, p0, ?_⟩)
      rintro ⟨b', e⟩
      rw [hb] at e
      cases e
      exact hn (by simp)
    · rename_i hn
      refine .error (.inr (.inl ⟨C, _, p0, ?_⟩))
      rintro ⟨b', e⟩
      exact hn _ e
  · refine .reqBind (fun h => not_rentExempt hi rfl p0 (by rw [← hlm]; exact h)) fun _ => .reqBind (fun h => .inl ⟨_, _, _, _, _, _, hi, ?_⟩) fun _ => .setData
    rw [hx] at h
    simpa [maxBasisPoints] using h

theorem initializeValidatorStake_fault {a : InitializeValidatorStakeAccts}
    (hi : ix.decoded = some .initializeValidatorStake) (hl : ix.ctx.accts = a.list ++ rest) :
    Blames (initializeValidatorStake env ix.ctx w a) (Fault env o w ix) := by
  have p0 : ix.passes .config a.config := passes_of hi hl 0 rfl rfl
  have p1 : ix.passes .document a.dunaDocumentPda := passes_of hi hl 1 rfl rfl
  have p2 : ix.passes .stake a.validatorStake := passes_of hi hl 2 rfl rfl
  have p3 : ix.passes .vote a.validatorVote := passes_of hi hl 3 rfl rfl
  unfold initializeValidatorStake
  refine .reqBind (bad_owner hi rfl p0) fun hO => .bind (.config .refl hi p0 rfl) fun c hc => .bind (.vote hi p3) fun wd hv => ?_
  rw [unpackConfig_ok] at hc
  have hv' : (w a.validatorVote).data = .vote wd := by
    unfold unpackVote at hv
    simp only [bind_ok, require_ok, exists_unit] at hv
    obtain ⟨_, hv⟩ := hv
    split at hv
    · rename_i h; cases hv; exact h
    · cases hv
  refine .bind (.reqBind (fun h => bad_seeds p0 p1 ?_) fun _ => ?_) fun _ _ => ?_
  · rintro ⟨c', sg, h1, h2, h3⟩
    rw [configAt_eq.2 ⟨hO, hc⟩] at h1
    cases h1
    rcases h3 with ⟨k, hk, h3⟩ | ⟨v, ⟨n, hn, _⟩, _⟩
    · obtain rfl := passes_at hi rfl (n := 3) (k := a.validatorVote) (by unfold Ix.acct; rw [hl]; rfl) hk
      rw [hv'] at h3; cases h3
      exact h h2
    · obtain ⟨j, m, hj, hm, _⟩ := hn
      rw [hi] at hj; cases hj
      cases hm
  · split
    · exact .pure
    · exact .error trivial
  refine .reqBind (fun h => bad_seeds p0 p2 ?_) fun _ => .reqBind (fun h => .inr (.inr ⟨_, _, _, hi, rfl, p2, fun e => h (by rw [e]; rfl)⟩)) fun _ => ?_
  · simp only [Ix.rightAddress, if_pos (Or.inl hi : ix.decoded = some .initializeValidatorStake ∨ _)]
    rintro ⟨v, hv, e⟩
    obtain rfl := passes_at hi rfl (n := 3) (k := a.validatorVote) (by unfold Ix.acct; rw [hl]; rfl) hv
    exact h e
  exact .reqBind (not_rentExempt hi rfl p2) fun _ => .bind .systemAllocate fun _ _ => .bind .systemAssign fun _ _ => .setData

theorem initializeSolStakerStake_fault (F : o.FailsAsCall) {a : InitializeSolStakerStakeAccts}
    (hi : ix.decoded = some .initializeSolStakerStake) (hl : ix.ctx.accts = a.list ++ rest) :
    Blames (initializeSolStakerStake env o ix.ctx w a) (Fault env o w ix) := by
  have p0 : ix.passes .config a.config := passes_of hi hl 0 rfl rfl
  have p1 : ix.passes .document a.dunaDocumentPda := passes_of hi hl 1 rfl rfl
  have p2 : ix.passes .stake a.solStakerStake := passes_of hi hl 2 rfl rfl
  have p3 : ix.passes .overrideAccount a.solStakerAuthorityOverride := passes_of hi hl 3 rfl rfl
  have p4 : ix.passes .validator a.validatorStake := passes_of hi hl 4 rfl rfl
  have p5 : ix.passes .nativeStake a.solStakerNativeStake := passes_of hi hl 5 rfl rfl
  have n5 : ix.acct 5 = some a.solStakerNativeStake := by unfold Ix.acct; rw [hl]; rfl
  unfold initializeSolStakerStake
  refine .reqBind (bad_owner hi rfl p0) fun hO => .bind (.config .refl hi p0 rfl) fun c hc => ?_
  rw [unpackConfig_ok] at hc
  refine .reqBind (fun h => .inl ⟨_, passes_of hi hl 8 rfl rfl, h⟩) fun _ => .bind (fun e he => ?_) fun v hv => ?_
  · obtain rfl := F.view _ _ he; trivial
  have V : ∀ v', ix.views o v' → v' = v := by
    rintro v' ⟨n, hn, h⟩
    obtain rfl := passes_at hi rfl n5 hn
    rw [hv] at h; cases h; rfl
  refine .reqBind (fun _ => trivial) fun _ => .reqBind (fun h => .inr ⟨hi, v, ⟨_, p5, hv⟩, by simpa using h⟩) fun _ => ?_
  refine .bind (.reqBind (fun h => bad_seeds p0 p1 ?_) fun _ => ?_) fun _ _ => ?_
  · rintro ⟨c', sg, h1, h2, h3⟩
    rw [configAt_eq.2 ⟨hO, hc⟩] at h1
    cases h1
    rcases h3 with ⟨k, hk, h3⟩ | ⟨v', hv', h3⟩
    · obtain ⟨j, m, hj, hm, _⟩ := hk
      rw [hi] at hj; cases hj
      cases hm
    · obtain rfl := V _ hv'
      rw [← h3] at h2
      exact h h2
  · split
    · exact .pure
    · exact .error trivial
  refine .reqBind (bad_owner hi rfl p4) fun _ => .reqBind (fun h => bad_seeds p0 p4 ?_) fun _ => ?_
  · rintro ⟨v', hv', e⟩
    obtain rfl := V _ hv'
    exact h e
  refine .bind (.validator .refl hi p4 rfl) fun _ _ => .reqBind (fun h => bad_seeds p0 p2 ?_) fun _ => ?_
  · have hn : ¬ (ix.decoded = some .initializeValidatorStake ∨ ix.decoded = some .validatorSyncAuthority) := by
      rw [hi]; simp
    simp only [Ix.rightAddress, if_neg hn, if_pos hi]
    rintro ⟨n, hn, e⟩
    obtain rfl := passes_at hi rfl n5 hn
    exact h e
  refine .reqBind (fun h => .inr (.inr ⟨_, _, _, hi, rfl, p2, fun e => h (by rw [e]; rfl)⟩)) fun _ => ?_
  refine .reqBind (fun h => bad_seeds p0 p3 ?_) fun _ => .bind ?_ fun _ _ => .reqBind (not_rentExempt hi rfl p2) fun _ => ?_
  · rintro ⟨v', hv', e⟩
    obtain rfl := V _ hv'
    exact h e
  · unfold readOverride
    exact .ite (fun _ => .ok) fun _ => .ite (fun _ => .error trivial) fun _ => .ok
  exact .bind .systemAllocate fun _ _ => .bind .systemAssign fun _ _ => .bind .setData fun _ _ => .bind .addU64 fun _ _ => .setData

/-- An instruction on an existing stake account that is not the config's. -/
theorem bad_stake {i : StakeInstruction} {ck k : Key} (hi : ix.decoded = some i) (hc : ix.passes .config ck) (hp : ix.passes .stake k)
    (h1 : i ≠ .initializeValidatorStake) (h2 : i ≠ .validatorSyncAuthority) (h3 : i ≠ .initializeSolStakerStake)
    (h : ¬ belongs k ck) : Fault env o w ix .invalidSeeds := by
  refine bad_seeds hc hp ?_
  have n1 : ¬ (ix.decoded = some .initializeValidatorStake ∨ ix.decoded = some .validatorSyncAuthority) := by
    rw [hi]; simp [h1, h2]
  have n2 : ¬ ix.decoded = some .initializeSolStakerStake := by rw [hi]; simp [h3]
  simpa only [Ix.rightAddress, if_neg n1, if_neg n2] using h

theorem validatorStakeTokens_fault (I : Inv env w) (F : o.FailsAsCall) {a : StakeTokensAccts} {n : Nat}
    (hi : ix.decoded = some (.validatorStakeTokens n)) (hl : ix.ctx.accts = a.list ++ rest) :
    Blames (validatorStakeTokens env o ix.ctx w a n) (Fault env o w ix) := by
  have p0 : ix.passes .config a.config := passes_of hi hl 0 rfl rfl
  have ps : ix.passes .stake a.stake := passes_of hi hl 3 rfl rfl
  have at' : ∀ m : Nat, ix.acct m = (a.list ++ rest)[m]? := fun m => by unfold Ix.acct; rw [hl]
  have B : ∀ k, k = a.config ∨ k = a.stake → (∃ m, m ≠ 0 ∧ m ≠ 3 ∧ ix.acct m = some k) →
      Fault env o w ix .accountBorrowFailed := by
    rintro k (rfl | rfl) ⟨m, m0, m3, hm⟩
    · exact borrowed (Ne.symm m0) (at' 0) hm (.inl p0)
    · exact borrowed (Ne.symm m3) (at' 3) hm (.inr ps)
  unfold validatorStakeTokens
  refine .reqBind (bad_owner hi rfl p0) fun hO => .bind (.config .refl hi p0 rfl) fun c hc => ?_
  refine .reqBind (bad_owner hi rfl ps) fun hsO => .reqBind (fun h => twice (p := 0) (q := 3) (by decide) (at' 0) (at' 3) h (.inl p0)) fun _ => ?_
  refine .bind (.validator .refl hi ps rfl) fun s hs => ?_
  rw [unpackConfig_ok] at hc
  rw [unpackValidator_ok] at hs
  have hdel : (w a.stake).data.del?.isSome = true := by rw [hs]; rfl
  refine .reqBind (fun h => bad_stake hi p0 ps (by simp) (by simp) (by simp) (misplaced_validator I hsO hs h)) fun _ => ?_
  refine .bind (.harvest .refl hc hdel hi (passes_of hi hl 10 rfl rfl) rfl) fun w1 h1 => ?_
  have A1 := harvest_alike h1
  refine .reqBind (fun _ => trivial) fun _ => .reqBind (fun _ => trivial) fun _ => ?_
  refine .reqBind (fun h => B _ (either h) ⟨9, by decide, by decide, at' 9⟩) fun _ => ?_
  refine .bind (.token A1 hi (passes_of (r := .vault) hi hl 9 rfl rfl) rfl) fun _ _ => .reqBind (fun _ => trivial) fun _ => ?_
  refine .reqBind (fun h => B _ (either h) ⟨7, by decide, by decide, at' 7⟩) fun _ => ?_
  refine .bind (.mint A1 hi (passes_of (r := .mint) hi hl 7 rfl rfl) rfl) fun _ _ => .reqBind (fun _ => trivial) fun _ => ?_
  refine .bind (.readDel A1 hdel) fun d hd => .bind .addU64 fun _ _ => .bind .writeDel fun w2 h2 => ?_
  have A2 := A1.trans (writeDel_alike h2)
  refine .bind (.syncEffective A2 hc hdel) fun w3 h3 => .bind (.callOut ?_) fun _ _ => ?_
  · rintro ⟨k, hk, hh⟩
    simp only [StakeTokensAccts.toToken, List.mem_cons, List.not_mem_nil, or_false] at hk hh
    refine B k hh ?_
    rcases hk with rfl | rfl | rfl | rfl
    · exact ⟨5, by decide, by decide, at' 5⟩
    · exact ⟨7, by decide, by decide, at' 7⟩
    · exact ⟨9, by decide, by decide, at' 9⟩
    · exact ⟨6, by decide, by decide, at' 6⟩
  refine .bind .tokenTransfer fun _ _ => .bind (.callOut ?_) fun _ _ => ?_
  · rintro ⟨k, hk, hh⟩
    simp only [StakeTokensAccts.toRewards, List.mem_cons, List.not_mem_nil, or_false] at hk hh
    refine B k hh ?_
    rcases hk with rfl | rfl | rfl | rfl | rfl | rfl | rfl
    · exact ⟨1, by decide, by decide, at' 1⟩
    · exact ⟨2, by decide, by decide, at' 2⟩
    · exact ⟨10, by decide, by decide, at' 10⟩
    · exact ⟨9, by decide, by decide, at' 9⟩
    · exact ⟨7, by decide, by decide, at' 7⟩
    · exact ⟨8, by decide, by decide, at' 8⟩
    · exact ⟨11, by decide, by decide, at' 11⟩
  · intro e he
    obtain rfl := F.deposit _ _ _ he; trivial

theorem solStakerStakeTokens_fault (I : Inv env w) (F : o.FailsAsCall) {a : StakeTokensAccts} {n : Nat}
    (hi : ix.decoded = some (.solStakerStakeTokens n)) (hl : ix.ctx.accts = a.list ++ rest) :
    Blames (solStakerStakeTokens env o ix.ctx w a n) (Fault env o w ix) := by
  have p0 : ix.passes .config a.config := passes_of hi hl 0 rfl rfl
  have ps : ix.passes .stake a.stake := passes_of hi hl 3 rfl rfl
  have at' : ∀ m : Nat, ix.acct m = (a.list ++ rest)[m]? := fun m => by unfold Ix.acct; rw [hl]
  have B : ∀ k, k = a.config ∨ k = a.stake → (∃ m, m ≠ 0 ∧ m ≠ 3 ∧ ix.acct m = some k) →
      Fault env o w ix .accountBorrowFailed := by
    rintro k (rfl | rfl) ⟨m, m0, m3, hm⟩
    · exact borrowed (Ne.symm m0) (at' 0) hm (.inl p0)
    · exact borrowed (Ne.symm m3) (at' 3) hm (.inr ps)
  unfold solStakerStakeTokens
  refine .reqBind (bad_owner hi rfl p0) fun hO => .bind (.config .refl hi p0 rfl) fun c hc => ?_
  refine .reqBind (bad_owner hi rfl ps) fun hsO => .reqBind (fun h => twice (p := 0) (q := 3) (by decide) (at' 0) (at' 3) h (.inl p0)) fun _ => ?_
  refine .bind (.solStaker .refl hi ps rfl) fun s hs => ?_
  rw [unpackConfig_ok] at hc
  rw [unpackSolStaker_ok] at hs
  have hdel : (w a.stake).data.del?.isSome = true := by rw [hs]; rfl
  refine .reqBind (fun h => bad_stake hi p0 ps (by simp) (by simp) (by simp) (misplaced_solStaker I hsO hs h)) fun _ => ?_
  refine .bind (.harvest .refl hc hdel hi (passes_of hi hl 10 rfl rfl) rfl) fun w1 h1 => ?_
  have A1 := harvest_alike h1
  refine .reqBind (fun _ => trivial) fun _ => .reqBind (fun _ => trivial) fun _ => ?_
  refine .reqBind (fun h => B _ (either h) ⟨9, by decide, by decide, at' 9⟩) fun _ => ?_
  refine .bind (.token A1 hi (passes_of (r := .vault) hi hl 9 rfl rfl) rfl) fun _ _ => .reqBind (fun _ => trivial) fun _ => ?_
  refine .reqBind (fun _ => trivial) fun _ => ?_
  refine .reqBind (fun h => B _ (either h) ⟨7, by decide, by decide, at' 7⟩) fun _ => ?_
  refine .bind (.mint A1 hi (passes_of (r := .mint) hi hl 7 rfl rfl) rfl) fun _ _ => .reqBind (fun _ => trivial) fun _ => ?_
  refine .bind (.readDel A1 hdel) fun d hd => .bind .addU64 fun _ _ => .bind .writeDel fun w2 h2 => ?_
  have A2 := A1.trans (writeDel_alike h2)
  refine .bind (.syncEffective A2 hc hdel) fun w3 h3 => .bind (.callOut ?_) fun _ _ => ?_
  · rintro ⟨k, hk, hh⟩
    simp only [StakeTokensAccts.toToken, List.mem_cons, List.not_mem_nil, or_false] at hk hh
    refine B k hh ?_
    rcases hk with rfl | rfl | rfl | rfl
    · exact ⟨5, by decide, by decide, at' 5⟩
    · exact ⟨7, by decide, by decide, at' 7⟩
    · exact ⟨9, by decide, by decide, at' 9⟩
    · exact ⟨6, by decide, by decide, at' 6⟩
  refine .bind .tokenTransfer fun _ _ => .bind (.callOut ?_) fun _ _ => ?_
  · rintro ⟨k, hk, hh⟩
    simp only [StakeTokensAccts.toRewards, List.mem_cons, List.not_mem_nil, or_false] at hk hh
    refine B k hh ?_
    rcases hk with rfl | rfl | rfl | rfl | rfl | rfl | rfl
    · exact ⟨1, by decide, by decide, at' 1⟩
    · exact ⟨2, by decide, by decide, at' 2⟩
    · exact ⟨10, by decide, by decide, at' 10⟩
    · exact ⟨9, by decide, by decide, at' 9⟩
    · exact ⟨7, by decide, by decide, at' 7⟩
    · exact ⟨8, by decide, by decide, at' 8⟩
    · exact ⟨11, by decide, by decide, at' 11⟩
  · intro e he
    obtain rfl := F.deposit _ _ _ he; trivial

theorem createVaultPda_fault (I : Inv env w) {ck : Key} {c : Config} (hO : (w ck).owner = progId) (hc : (w ck).data = .config c)
    {Q : Err → Prop} : Blames (env.createVaultPda ck c.bump) Q := by
  rw [(I.config _ c (configAt_eq.2 ⟨hO, hc⟩)).bump]
  unfold Env.createVaultPda
  rw [if_pos (env.offCurve_bump ck)]
  exact .ok

theorem harvestHolderRewards_fault (I : Inv env w) (O : o.Ok) (F : o.FailsAsCall) {a : HarvestHolderRewardsAccts}
    (hi : ix.decoded = some .harvestHolderRewards) (hl : ix.ctx.accts = a.list ++ rest) :
    Blames (harvestHolderRewards env o w a) (Fault env o w ix) := by
  have p0 : ix.passes .config a.config := passes_of hi hl 0 rfl rfl
  have pr : ix.passes .record a.vaultHolderRewards := passes_of hi hl 4 rfl rfl
  have pv : ix.passes .vaultAuthority a.vaultPda := passes_of hi hl 5 rfl rfl
  have at' : ∀ m : Nat, ix.acct m = (a.list ++ rest)[m]? := fun m => by unfold Ix.acct; rw [hl]
  unfold harvestHolderRewards
  refine .reqBind (bad_owner hi rfl p0) fun hO => .bind (.config .refl hi p0 rfl) fun c hc => ?_
  rw [unpackConfig_ok] at hc
  have C := I.config _ c (configAt_eq.2 ⟨hO, hc⟩)
  refine .reqBind (fun _ => trivial) fun _ => .reqBind (fun h => twice (p := 0) (q := 3) (by decide) (at' 0) (at' 3) h (.inl p0)) fun _ => ?_
  refine .bind (.token .refl hi (passes_of (r := .vault) hi hl 3 rfl rfl) rfl) fun _ _ => ?_
  refine .reqBind (fun _ => trivial) fun _ => .bind (createVaultPda_fault I hO hc) fun vs hvs => ?_
  rw [createVaultPda_ok, C.bump] at hvs
  refine .reqBind (fun _ => trivial) fun hva => .reqBind (bad_owner hi rfl pr) fun _ => .reqBind (fun h => bad_seeds p0 pr ?_) fun _ => ?_
  · intro h'
    simp only [Ix.rightAddress] at h'
    rw [hva, hvs.2] at h
    exact h h'
  refine .bind .syncConfigLamports fun c1 hc1 => .bind .setData fun w1 hw1 => ?_
  obtain ⟨hlast, rfl⟩ := syncConfigLamports_ok hc1
  simp only [setData, bind_ok, require_ok, exists_unit, pure_ok] at hw1
  obtain ⟨_, rfl⟩ := hw1
  refine .bind (fun e he => ?_) fun w2 hw2 => ?_
  · obtain rfl := F.harvestRewards _ _ _ he; trivial
  have I1 : Inv env (w.setD a.config (.config (c.settled (w a.config).lamports 0))) := by
    refine I.modifyConfig (c' := c.settled (w a.config).lamports 0) hO hc (fun k => by simp)
      (by simp only [World.setD_data, if_true])
      (fun k hk => by simp [World.setD_data, hk]) rfl C.bps rfl (by simp [Config.settled])
      (by simpa using C.rent) (fun k _ _ => by simp) ?_
    refine ⟨fun k => ⟨by simpa using (I.wf.1 k).1, ?_⟩, by simpa using I.wf.2⟩
    rw [World.setD_data]
    split_ifs
    · obtain ⟨h1, h2, h3, h4, h5, h6, h7⟩ := wf_config I hc
      have := (I.wf.1 a.config).1
      exact ⟨h1, h2, h3, by simp only [Config.settled]; omega, accNow_lt _ _, h6, h7⟩
    · exact (I.wf.1 k).2
  have E := O.harvestRewards I1.wf hw2
  have hc2 := (ext_config I1 E (k := a.config) (c := c.settled (w a.config).lamports 0)
    (configAt_eq.2 ⟨by simp only [World.setD_owner]; exact hO, by simp only [World.setD_data, if_true]⟩)).1
  rw [configAt_eq] at hc2
  have hne : a.vaultPda ≠ a.config := by
    intro e
    have := congrArg Key.ofProgram e
    rw [I.config_key (configAt_eq.2 ⟨hO, hc⟩), hva, hvs.2] at this; simp [Key.ofProgram] at this
  refine .bind ?_ fun w3 hw3 => ?_
  · unfold transferExcess
    refine .reqBind (fun h => ⟨hi, _, pv, ?_⟩) fun _ => .reqBind (fun _ => trivial) fun _ => .bind .setLamports fun _ _ => .setLamports
    have ho : (w.setD a.config (.config (c.settled (w a.config).lamports 0)) a.vaultPda) = w a.vaultPda :=
      World.set_other _ _ hne
    have E' := E.2 a.vaultPda
    rw [ho] at E'
    have := env.rentMin_pos (w a.vaultPda).data.len
    by_cases h1 : (w a.vaultPda).owner = progId
    · rcases E'.1 h1 with ⟨_, h2, h3⟩ | ⟨h2, _⟩
      · rw [h2] at h; omega
      · omega
    · obtain ⟨_, h2, h3⟩ := (E'.2 h1).1 (by rw [hva, hvs.2]; rfl)
      rw [h2] at h; omega
  · have hd3 : (w3 a.config).data = (w2 a.config).data := by
      simp only [transferExcess, bind_ok, require_ok, exists_unit, setLamports, pure_ok] at hw3
      obtain ⟨_, _, w4, ⟨_, rfl⟩, _, rfl⟩ := hw3
      simp [World.set_other _ _ (Ne.symm hne)]
    rw [hc2.2] at hd3
    refine .bind (fun e he => ?_) fun _ _ => .setData
    rw [unpackConfig_ok.2 hd3] at he; cases he

theorem harvestValidatorRewards_fault (I : Inv env w) {a : HarvestValidatorRewardsAccts}
    (hi : ix.decoded = some .harvestValidatorRewards) (hl : ix.ctx.accts = a.list ++ rest) :
    Blames (harvestValidatorRewards env w a) (Fault env o w ix) := by
  have p0 : ix.passes .config a.config := passes_of hi hl 0 rfl rfl
  have pr : ix.passes .record a.vaultHolderRewards := passes_of hi hl 1 rfl rfl
  have ps : ix.passes .stake a.validatorStake := passes_of hi hl 2 rfl rfl
  have at' : ∀ m : Nat, ix.acct m = (a.list ++ rest)[m]? := fun m => by unfold Ix.acct; rw [hl]
  unfold harvestValidatorRewards
  refine .reqBind (bad_owner hi rfl p0) fun hO => .bind (.config .refl hi p0 rfl) fun c hc => ?_
  refine .reqBind (bad_owner hi rfl ps) fun hsO => .reqBind (fun h => twice (p := 0) (q := 2) (by decide) (at' 0) (at' 2) h (.inl p0)) fun _ => ?_
  refine .bind (.validator .refl hi ps rfl) fun s hs => ?_
  rw [unpackConfig_ok] at hc
  rw [unpackValidator_ok] at hs
  refine .reqBind (fun h => bad_stake hi p0 ps (by simp) (by simp) (by simp) (misplaced_validator I hsO hs h)) fun _ => ?_
  refine .reqBind (fun _ => trivial) fun _ => .reqBind (bad_seeds p0 pr) fun _ => ?_
  exact .harvest .refl hc (by rw [hs]; rfl) hi pr rfl

theorem setAuthority_fault {a : SetAuthorityAccts} {t : AuthorityType}
    (hi : ix.decoded = some (.setAuthority t)) (hl : ix.ctx.accts = a.list ++ rest) :
    Blames (setAuthority ix.ctx w a t) (Fault env o w ix) := by
  have p0 : ix.passes .config a.account := by
    cases t <;> exact passes_of hi hl 0 rfl rfl
  unfold setAuthority
  refine .reqBind (fun h => ?_) fun _ => .reqBind (bad_owner hi rfl p0) fun _ => ?_
  · cases t
    · exact no_signature (r := .configAuthority) hi rfl (passes_of hi hl 1 rfl rfl) h
    · exact no_signature (r := .slashAuthority) hi rfl (passes_of hi hl 1 rfl rfl) h
  cases t
  · exact .bind (.config .refl hi p0 rfl) fun _ _ => .reqBind (fun _ => trivial) fun _ => .reqBind (fun _ => trivial) fun _ => .setData
  · exact .bind (.config .refl hi p0 rfl) fun _ _ => .reqBind (fun _ => trivial) fun _ => .reqBind (fun _ => trivial) fun _ => .setData

theorem updateConfig_fault {a : UpdateConfigAccts} {f : ConfigField}
    (hi : ix.decoded = some (.updateConfig f)) (hl : ix.ctx.accts = a.list ++ rest) :
    Blames (updateConfig ix.ctx w a f) (Fault env o w ix) := by
  have p0 : ix.passes .config a.config := passes_of hi hl 0 rfl rfl
  unfold updateConfig
  refine .reqBind (bad_owner hi rfl p0) fun _ => .bind (.config .refl hi p0 rfl) fun _ _ => ?_
  refine .reqBind (fun _ => trivial) fun _ => .reqBind (fun _ => trivial) fun _ => ?_
  refine .reqBind (no_signature (r := .configAuthority) hi rfl (passes_of hi hl 1 rfl rfl)) fun _ => ?_
  cases f with
  | cooldownTimeSeconds v => exact .setData
  | maxDeactivationBasisPoints v =>
    exact .reqBind (fun h => .inr ⟨v, hi, by simpa [maxBasisPoints] using h⟩) fun _ => .setData
  | syncRewardsLamports v => exact .setData

theorem slashDelegation_fault {w1 : World} {i : StakeInstruction} {ck sk mk vk va tp : Key} {n : Nat} (A : Alike w w1)
    (hs : (w sk).data.del?.isSome = true) (hi : ix.decoded = some i) (hm : ix.passes .mint mk) (hr : i.reads .mint = [.mint])
    (ht : ix.passes .tokenProgram tp)
    (hB : (∃ k ∈ [vk, mk, va], k ∈ [ck, sk]) → Fault env o w ix .accountBorrowFailed) :
    Blames (slashDelegation ix.ctx w w1 ck sk mk vk va tp n) (Fault env o w ix) := by
  unfold slashDelegation
  refine .reqBind (fun h => .inr ⟨_, ht, h⟩) fun _ => .reqBind (fun _ => trivial) fun _ => .bind (.readDel A hs) fun _ _ => ?_
  refine .bind .subU64 fun _ _ => .bind .writeDel fun w2 h2 => .ite (fun _ => ?_) fun _ => .pure
  refine .reqBind (fun h => hB ⟨mk, by simp, by simpa using either h⟩) fun _ => ?_
  exact .bind (.mint (A.trans (writeDel_alike h2)) hi hm hr) fun _ _ => .bind (.callOut hB) fun _ _ => .tokenBurn

theorem tokenBurn_alike {w1 : World} {s m a k : Key} {n d : Nat} (h : tokenBurn ix.ctx w s m a n d = .ok w1)
    (A : (w k).data.del?.isSome = true ∨ ∃ c, (w k).data = .config c) : (w1 k).data = (w k).data := by
  simp only [tokenBurn, bind_ok, require_ok, exists_unit, tokenData_ok, mintData_ok, pure_ok] at h
  obtain ⟨t, ht, x, hx, _, _, _, _, _, _, _, rfl⟩ := h
  have h1 : k ≠ s := by
    rintro rfl; rw [ht] at A; simp [Data.del?] at A
  have h2 : k ≠ m := by
    rintro rfl; rw [hx] at A; simp [Data.del?] at A
  rw [World.set_other _ _ h2, World.set_other _ _ h1]

theorem slash_then_sync {w1 w2 : World} {ck sk mk vk va tp : Key} {n l m : Nat} {c : Config} (A : Alike w w1)
    (hc : (w ck).data = .config c) (hs : (w sk).data.del?.isSome = true)
    (h : slashDelegation ix.ctx w w1 ck sk mk vk va tp n = .ok w2) :
    Blames (syncEffective w2 ck sk l m) (Fault env o w ix) := by
  simp only [slashDelegation, bind_ok, require_ok, exists_unit] at h
  obtain ⟨_, _, d, hd, _, _, w3, h3, h⟩ := h
  have A3 := A.trans (writeDel_alike h3)
  obtain ⟨c', hc'⟩ := A3.config hc
  have hs' : (w3 sk).data.del?.isSome = true := by rw [(A3 sk).2.del]; exact hs
  split at h
  · simp only [bind_ok] at h
    obtain ⟨_, _, _, _, _, _, h⟩ := h
    have e1 := tokenBurn_alike h (k := ck) (.inr ⟨c', hc'⟩)
    have e2 := tokenBurn_alike h (k := sk) (.inl hs')
    exact .syncEffective (w := w2) .refl (by rw [e1]; exact hc') (by rw [e2]; exact hs')
  · cases h
    exact .syncEffective A3 hc hs

theorem slashValidatorStake_fault (I : Inv env w) {a : SlashAccts} {n : Nat}
    (hi : ix.decoded = some (.slashValidatorStake n)) (hl : ix.ctx.accts = a.listValidator ++ rest) :
    Blames (slashValidatorStake env ix.ctx w a n) (Fault env o w ix) := by
  have p0 : ix.passes .config a.config := passes_of hi hl 0 rfl rfl
  have ps : ix.passes .stake a.stake := passes_of hi hl 1 rfl rfl
  have at' : ∀ m : Nat, ix.acct m = (a.listValidator ++ rest)[m]? := fun m => by unfold Ix.acct; rw [hl]
  have B : (∃ k ∈ [a.vault, a.mint, a.vaultAuthority], k ∈ [a.config, a.stake]) → Fault env o w ix .accountBorrowFailed := by
    rintro ⟨k, hk, hh⟩
    simp only [List.mem_cons, List.not_mem_nil, or_false] at hk hh
    have : ∃ m, m ≠ 0 ∧ m ≠ 1 ∧ ix.acct m = some k := by
      rcases hk with rfl | rfl | rfl
      · exact ⟨4, by decide, by decide, at' 4⟩
      · exact ⟨7, by decide, by decide, at' 7⟩
      · exact ⟨6, by decide, by decide, at' 6⟩
    obtain ⟨m, m0, m1, hm⟩ := this
    rcases hh with rfl | rfl
    · exact borrowed (Ne.symm m0) (at' 0) hm (.inl p0)
    · exact borrowed (Ne.symm m1) (at' 1) hm (.inr ps)
  unfold slashValidatorStake
  refine .reqBind (bad_owner hi rfl p0) fun hO => .bind (.config .refl hi p0 rfl) fun c hc => ?_
  refine .reqBind (bad_owner hi rfl ps) fun hsO => .reqBind (fun h => twice (p := 0) (q := 1) (by decide) (at' 0) (at' 1) h (.inl p0)) fun _ => ?_
  refine .bind (.validator .refl hi ps rfl) fun s hs => ?_
  rw [unpackConfig_ok] at hc
  rw [unpackValidator_ok] at hs
  have hdel : (w a.stake).data.del?.isSome = true := by rw [hs]; rfl
  refine .reqBind (fun h => bad_stake hi p0 ps (by simp) (by simp) (by simp) (misplaced_validator I hsO hs h)) fun _ => ?_
  refine .bind (createVaultPda_fault I hO hc) fun _ _ => .reqBind (fun _ => trivial) fun _ => ?_
  refine .bind (.harvest .refl hc hdel hi (passes_of hi hl 5 rfl rfl) rfl) fun w1 h1 => ?_
  have A1 := harvest_alike h1
  refine .reqBind (fun _ => trivial) fun _ => .reqBind (fun _ => trivial) fun _ => ?_
  refine .reqBind (no_signature (r := .slashAuthority) hi rfl (passes_of hi hl 3 rfl rfl)) fun _ => .reqBind (fun _ => trivial) fun _ => ?_
  refine .reqBind (fun h => B ⟨a.vault, by simp, by simpa using either h⟩) fun _ => ?_
  refine .bind (.token A1 hi (passes_of (r := .vault) hi hl 4 rfl rfl) rfl) fun _ _ => .reqBind (fun _ => trivial) fun _ => ?_
  refine .bind (slashDelegation_fault A1 hdel hi (passes_of hi hl 7 rfl rfl) rfl (passes_of hi hl 8 rfl rfl) B) fun w2 h2 => ?_
  exact slash_then_sync A1 hc hdel h2

theorem slashSolStakerStake_fault (I : Inv env w) {a : SlashAccts} {n : Nat}
    (hi : ix.decoded = some (.slashSolStakerStake n)) (hl : ix.ctx.accts = a.listSolStaker ++ rest) :
    Blames (slashSolStakerStake env ix.ctx w a n) (Fault env o w ix) := by
  have p0 : ix.passes .config a.config := passes_of hi hl 0 rfl rfl
  have ps : ix.passes .stake a.stake := passes_of hi hl 1 rfl rfl
  have at' : ∀ m : Nat, ix.acct m = (a.listSolStaker ++ rest)[m]? := fun m => by unfold Ix.acct; rw [hl]
  have B : (∃ k ∈ [a.vault, a.mint, a.vaultAuthority], k ∈ [a.config, a.stake]) → Fault env o w ix .accountBorrowFailed := by
    rintro ⟨k, hk, hh⟩
    simp only [List.mem_cons, List.not_mem_nil, or_false] at hk hh
    have : ∃ m, m ≠ 0 ∧ m ≠ 1 ∧ ix.acct m = some k := by
      rcases hk with rfl | rfl | rfl
      · exact ⟨5, by decide, by decide, at' 5⟩
      · exact ⟨4, by decide, by decide, at' 4⟩
      · exact ⟨7, by decide, by decide, at' 7⟩
    obtain ⟨m, m0, m1, hm⟩ := this
    rcases hh with rfl | rfl
    · exact borrowed (Ne.symm m0) (at' 0) hm (.inl p0)
    · exact borrowed (Ne.symm m1) (at' 1) hm (.inr ps)
  unfold slashSolStakerStake
  refine .reqBind (bad_owner hi rfl p0) fun hO => .bind (.config .refl hi p0 rfl) fun c hc => ?_
  refine .reqBind (bad_owner hi rfl ps) fun hsO => .reqBind (fun h => twice (p := 0) (q := 1) (by decide) (at' 0) (at' 1) h (.inl p0)) fun _ => ?_
  refine .bind (.solStaker .refl hi ps rfl) fun s hs => ?_
  rw [unpackConfig_ok] at hc
  rw [unpackSolStaker_ok] at hs
  have hdel : (w a.stake).data.del?.isSome = true := by rw [hs]; rfl
  refine .reqBind (fun h => bad_stake hi p0 ps (by simp) (by simp) (by simp) (misplaced_solStaker I hsO hs h)) fun _ => ?_
  refine .bind (createVaultPda_fault I hO hc) fun _ _ => .reqBind (fun _ => trivial) fun _ => ?_
  refine .bind (.harvest .refl hc hdel hi (passes_of hi hl 6 rfl rfl) rfl) fun w1 h1 => ?_
  have A1 := harvest_alike h1
  refine .reqBind (fun _ => trivial) fun _ => .reqBind (fun _ => trivial) fun _ => ?_
  refine .reqBind (no_signature (r := .slashAuthority) hi rfl (passes_of hi hl 3 rfl rfl)) fun _ => .reqBind (fun _ => trivial) fun _ => ?_
  refine .reqBind (fun h => B ⟨a.vault, by simp, by simpa using either h⟩) fun _ => ?_
  refine .bind (.token A1 hi (passes_of (r := .vault) hi hl 5 rfl rfl) rfl) fun _ _ => .reqBind (fun _ => trivial) fun _ => ?_
  refine .bind (slashDelegation_fault A1 hdel hi (passes_of hi hl 4 rfl rfl) rfl (passes_of hi hl 8 rfl rfl) B) fun w2 h2 => ?_
  exact slash_then_sync A1 hc hdel h2

theorem unstakeTokens_fault (I : Inv env w) (F : o.FailsAsCall) {a : UnstakeTokensAccts} {n : Nat}
    (hi : ix.decoded = some (.unstakeTokens n)) (hl : ix.ctx.accts = a.list ++ rest) :
    Blames (unstakeTokens env o ix.ctx w a n) (Fault env o w ix) := by
  have p0 : ix.passes .config a.config := passes_of hi hl 0 rfl rfl
  have ps : ix.passes .stake a.stake := passes_of hi hl 3 rfl rfl
  have at' : ∀ m : Nat, ix.acct m = (a.list ++ rest)[m]? := fun m => by unfold Ix.acct; rw [hl]
  have B : ∀ k, k = a.config ∨ k = a.stake → (∃ m, m ≠ 0 ∧ m ≠ 3 ∧ ix.acct m = some k) →
      Fault env o w ix .accountBorrowFailed := by
    rintro k (rfl | rfl) ⟨m, m0, m3, hm⟩
    · exact borrowed (Ne.symm m0) (at' 0) hm (.inl p0)
    · exact borrowed (Ne.symm m3) (at' 3) hm (.inr ps)
  unfold unstakeTokens
  refine .reqBind (bad_owner hi rfl p0) fun hO => .bind (.config .refl hi p0 rfl) fun c hc => ?_
  rw [unpackConfig_ok] at hc
  refine .reqBind (fun _ => trivial) fun _ => .reqBind (fun _ => trivial) fun _ => ?_
  refine .reqBind (fun h => twice (p := 0) (q := 5) (by decide) (at' 0) (at' 5) h (.inl p0)) fun _ => ?_
  refine .bind (.token .refl hi (passes_of (r := .vault) hi hl 5 rfl rfl) rfl) fun _ _ => .reqBind (fun _ => trivial) fun _ => ?_
  refine .reqBind (bad_owner hi rfl ps) fun hsO => .reqBind (fun h => ?_) fun _ => .bind ?_ fun x hx => ?_
  · rcases either h with e | e
    · exact twice (p := 0) (q := 3) (by decide) (at' 0) (at' 3) (not_not.2 e) (.inl p0)
    · exact twice (p := 3) (q := 5) (by decide) (at' 3) (at' 5) (not_not.2 e.symm) (.inr ps)
  · unfold unstakeView
    refine .ite (fun h => .bind (fun e he => ?_) fun _ _ => .pure) fun h1 => .ite (fun h => .bind (fun e he => ?_) fun _ _ => .pure) fun h2 => .error ?_
    · obtain ⟨g1, ⟨g2, rfl⟩ | ⟨g2, rfl⟩⟩ := unpackValidator_fails e he
      · exact ⟨_, _, _, .validatorStake, hi, ps, by simp [StakeInstruction.reads], g2⟩
      · exact absurd ⟨h, g1⟩ g2
    · obtain ⟨g1, ⟨g2, rfl⟩ | ⟨g2, rfl⟩⟩ := unpackSolStaker_fails e he
      · exact ⟨_, _, _, .solStakerStake, hi, ps, by simp [StakeInstruction.reads], g2⟩
      · exact absurd ⟨h, g1⟩ g2
    · refine .inl ⟨_, .stake, _, hi, ps, by simp [StakeInstruction.reads], ?_⟩
      have n1 : ∀ v, (w a.stake).data ≠ .validator v := fun v e => h1 (by rw [e]; rfl)
      have n2 : ∀ v, (w a.stake).data ≠ .solStaker v := fun v e => h2 (by rw [e]; rfl)
      intro C hC
      simp only [StakeInstruction.reads, List.mem_cons, List.not_mem_nil, or_false] at hC
      rcases hC with rfl | rfl
      · refine ⟨fun h => ?_, fun h => h1 h.1⟩
        cases hd : (w a.stake).data <;> rw [hd] at h <;> first | exact h | exact n1 _ hd
      · refine ⟨fun h => ?_, fun h => h2 h.1⟩
        cases hd : (w a.stake).data <;> rw [hd] at h <;> first | exact h | exact n2 _ hd
  obtain ⟨derivation, lamports, lamportsMin⟩ := x
  have hx' : (w a.stake).data.del?.isSome = true ∧ (a.stake ≠ derivation → ¬ belongs a.stake a.config) := by
    unfold unstakeView at hx
    split at hx
    · simp only [bind_ok, unpackValidator_ok, pure_ok] at hx
      obtain ⟨s, hs, hx⟩ := hx
      cases hx
      exact ⟨by rw [hs]; rfl, misplaced_validator I hsO hs⟩
    · split at hx
      · simp only [bind_ok, unpackSolStaker_ok, pure_ok] at hx
        obtain ⟨s, hs, hx⟩ := hx
        cases hx
        exact ⟨by rw [hs]; rfl, misplaced_solStaker I hsO hs⟩
      · cases hx
  obtain ⟨hdel, hmis⟩ := hx'
  refine .reqBind (fun h => bad_stake hi p0 ps (by simp) (by simp) (by simp) (hmis h)) fun _ => ?_
  refine .bind (.readDel .refl hdel) fun _ _ => ?_
  refine .reqBind (no_signature (r := .stakeAuthority) hi rfl (passes_of hi hl 4 rfl rfl)) fun _ => .reqBind (fun _ => trivial) fun _ => ?_
  refine .reqBind (fun _ => trivial) fun _ => .reqBind (fun h => B _ (either h) ⟨8, by decide, by decide, at' 8⟩) fun _ => ?_
  refine .bind (.mint .refl hi (passes_of (r := .mint) hi hl 8 rfl rfl) rfl) fun _ _ => ?_
  refine .bind (.harvest .refl hc hdel hi (passes_of hi hl 7 rfl rfl) rfl) fun w1 h1 => ?_
  have A1 := harvest_alike h1
  refine .bind (.readDel A1 hdel) fun _ _ => .reqBind (fun _ => trivial) fun _ => .reqBind (fun _ => trivial) fun _ => ?_
  refine .bind .mulDivU64 fun _ _ => .reqBind (fun _ => trivial) fun _ => .bind .subU64 fun _ _ => .bind .writeDel fun w2 h2 => ?_
  have A2 := A1.trans (writeDel_alike h2)
  refine .bind (.syncEffective A2 hc hdel) fun w3 h3 => .bind (.callOut ?_) fun _ _ => ?_
  · rintro ⟨k, hk, hh⟩
    simp only [UnstakeTokensAccts.toRewards, List.mem_cons, List.not_mem_nil, or_false] at hk hh
    refine B k hh ?_
    rcases hk with rfl | rfl | rfl | rfl | rfl | rfl | rfl
    · exact ⟨1, by decide, by decide, at' 1⟩
    · exact ⟨2, by decide, by decide, at' 2⟩
    · exact ⟨7, by decide, by decide, at' 7⟩
    · exact ⟨5, by decide, by decide, at' 5⟩
    · exact ⟨8, by decide, by decide, at' 8⟩
    · exact ⟨6, by decide, by decide, at' 6⟩
    · exact ⟨10, by decide, by decide, at' 10⟩
  refine .bind (fun e he => ?_) fun _ _ => .bind (.callOut ?_) fun _ _ => .tokenTransfer
  · obtain rfl := F.withdraw _ _ _ he; trivial
  · rintro ⟨k, hk, hh⟩
    simp only [UnstakeTokensAccts.toToken, List.mem_cons, List.not_mem_nil, or_false] at hk hh
    refine B k hh ?_
    rcases hk with rfl | rfl | rfl | rfl
    · exact ⟨5, by decide, by decide, at' 5⟩
    · exact ⟨8, by decide, by decide, at' 8⟩
    · exact ⟨9, by decide, by decide, at' 9⟩
    · exact ⟨6, by decide, by decide, at' 6⟩

theorem solStakerMoveTokens_fault (I : Inv env w) {a : SolStakerMoveTokensAccts} {n : Nat}
    (hi : ix.decoded = some (.solStakerMoveTokens n)) (hl : ix.ctx.accts = a.list ++ rest) :
    Blames (solStakerMoveTokens env ix.ctx w a n) (Fault env o w ix) := by
  have p0 : ix.passes .config a.config := passes_of hi hl 0 rfl rfl
  have pr : ix.passes .record a.vaultHolderRewards := passes_of hi hl 1 rfl rfl
  have ps : ix.passes .stake a.sourceSolStakerStake := passes_of hi hl 3 rfl rfl
  have pd : ix.passes .destinationStake a.destinationSolStakerStake := passes_of hi hl 4 rfl rfl
  have at' : ∀ m : Nat, ix.acct m = (a.list ++ rest)[m]? := fun m => by unfold Ix.acct; rw [hl]
  unfold solStakerMoveTokens
  refine .reqBind (bad_owner hi rfl p0) fun hO => .bind (.config .refl hi p0 rfl) fun c hc => ?_
  refine .reqBind (no_signature (r := .stakeAuthority) hi rfl (passes_of hi hl 2 rfl rfl)) fun _ => ?_
  refine .reqBind (bad_owner hi rfl ps) fun hsO => .reqBind (fun h => twice (p := 0) (q := 3) (by decide) (at' 0) (at' 3) h (.inl p0)) fun _ => ?_
  refine .bind (.solStaker .refl hi ps rfl) fun s hs => ?_
  rw [unpackConfig_ok] at hc
  rw [unpackSolStaker_ok] at hs
  have hdel : (w a.sourceSolStakerStake).data.del?.isSome = true := by rw [hs]; rfl
  refine .reqBind (fun h => bad_stake hi p0 ps (by simp) (by simp) (by simp) (misplaced_solStaker I hsO hs h)) fun _ => ?_
  refine .reqBind (fun _ => trivial) fun _ => .bind (.harvest .refl hc hdel hi pr rfl) fun w1 h1 => ?_
  have A1 := harvest_alike h1
  rw [(A1 a.destinationSolStakerStake).1]
  refine .reqBind (bad_owner hi rfl pd) fun hdO => .reqBind (fun h => twice (p := 0) (q := 4) (by decide) (at' 0) (at' 4) h (.inl p0)) fun hdc =>
    .reqBind (fun h => ?_) fun hne => ?_
  · exact borrowed (p := 3) (q := 4) (by decide) (at' 3) (by rw [at' 4]; exact congrArg some (not_not.1 h)) (.inr ps)
  refine .bind (.solStaker A1 hi pd rfl) fun t ht => ?_
  rw [unpackSolStaker_ok] at ht
  obtain ⟨_, _, _, _, _, H⟩ := harvest_ok h1
  rw [H.data' _ hdc hne] at ht
  have hdel' : (w a.destinationSolStakerStake).data.del?.isSome = true := by rw [ht]; rfl
  refine .reqBind (fun h => bad_seeds p0 pd (misplaced_solStaker I hdO ht h)) fun _ => ?_
  refine .bind (.harvest A1 hc hdel' hi pr rfl) fun w2 h2 => ?_
  have A2 := A1.trans (harvest_alike h2)
  refine .bind (.readDel A2 hdel) fun _ _ => .bind (.readDel A2 hdel') fun _ _ => .reqBind (fun _ => trivial) fun _ => ?_
  refine .bind .subU64 fun _ _ => .bind .addU64 fun _ _ => .bind .writeDel fun w3 h3 => .bind .writeDel fun w4 h4 => ?_
  have A4 := (A2.trans (writeDel_alike h3)).trans (writeDel_alike h4)
  refine .bind (.syncEffective A4 hc hdel) fun w5 h5 => ?_
  exact .syncEffective (A4.trans (syncEffective_alike h5)) hc hdel'

theorem validatorOverride_fault (I : Inv env w) {a : ValidatorOverrideStakedLamportsAccts} {n : Nat}
    (hi : ix.decoded = some (.validatorOverrideStakedLamports n)) (hl : ix.ctx.accts = a.list ++ rest) :
    Blames (validatorOverrideStakedLamports env ix.ctx w a n) (Fault env o w ix) := by
  have p0 : ix.passes .config a.config := passes_of hi hl 0 rfl rfl
  have ps : ix.passes .stake a.validatorStake := passes_of hi hl 2 rfl rfl
  have at' : ∀ m : Nat, ix.acct m = (a.list ++ rest)[m]? := fun m => by unfold Ix.acct; rw [hl]
  unfold validatorOverrideStakedLamports
  refine .reqBind (bad_owner hi rfl p0) fun hO => .bind (.config .refl hi p0 rfl) fun c hc => ?_
  refine .reqBind (fun _ => trivial) fun _ => .reqBind (fun _ => trivial) fun _ => ?_
  refine .reqBind (no_signature (r := .configAuthority) hi rfl (passes_of hi hl 1 rfl rfl)) fun _ => ?_
  refine .reqBind (bad_owner hi rfl ps) fun hsO => .reqBind (fun h => twice (p := 0) (q := 2) (by decide) (at' 0) (at' 2) h (.inl p0)) fun _ => ?_
  refine .bind (.validator .refl hi ps rfl) fun s hs => ?_
  rw [unpackConfig_ok] at hc
  rw [unpackValidator_ok] at hs
  have hdel : (w a.validatorStake).data.del?.isSome = true := by rw [hs]; rfl
  refine .reqBind (fun h => bad_stake hi p0 ps (by simp) (by simp) (by simp) (misplaced_validator I hsO hs h)) fun _ => ?_
  refine .bind (.harvest .refl hc hdel hi (passes_of hi hl 4 rfl rfl) rfl) fun w1 h1 => ?_
  have A1 := harvest_alike h1
  refine .bind (.validator A1 hi ps rfl) fun v hv => .bind .setData fun w2 h2 => ?_
  rw [unpackValidator_ok] at hv
  exact .syncEffective (A1.trans (setData_alike h2 (by rw [hv]; exact .validator))) hc hdel

theorem validatorSyncAuthority_fault {a : ValidatorSyncAuthorityAccts}
    (hi : ix.decoded = some .validatorSyncAuthority) (hl : ix.ctx.accts = a.list ++ rest) :
    Blames (validatorSyncAuthority w a) (Fault env o w ix) := by
  have p0 : ix.passes .config a.config := passes_of hi hl 0 rfl rfl
  have ps : ix.passes .stake a.validatorStake := passes_of hi hl 1 rfl rfl
  have p3 : ix.passes .vote a.validatorVote := passes_of hi hl 2 rfl rfl
  unfold validatorSyncAuthority
  refine .reqBind (bad_owner hi rfl p0) fun hO => .bind (.config .refl hi p0 rfl) fun c hc => .reqBind (fun h => bad_seeds p0 ps ?_) fun _ => ?_
  · simp only [Ix.rightAddress, if_pos (Or.inr hi : _ ∨ ix.decoded = some .validatorSyncAuthority)]
    rintro ⟨v, hv, e⟩
    obtain rfl := passes_at hi rfl (n := 2) (k := a.validatorVote) (by unfold Ix.acct; rw [hl]; rfl) hv
    exact h e
  · split
    · exact .bind (.vote hi p3) fun _ _ => .setData
    · exact .error trivial

theorem leaveValidator_fault {w1 : World} {a : HarvestSolStakerRewardsAccts} {s : SolStakerStake} {c : Config} (A : Alike w w1)
    (hc : (w a.config).data = .config c) (hi : ix.decoded = some .harvestSolStakerRewards) (p0 : ix.passes .config a.config)
    (pr : ix.passes .record a.vaultHolderRewards) (pp : ix.passes .previousValidator a.previousValidatorStake)
    (hs : ∀ k s', ix.passes .stake k → solStakerAt w k = some s' → s' = s) :
    Blames (leaveValidator env w1 a s) (Fault env o w ix) := by
  unfold leaveValidator
  refine .ite (fun _ => ?_) fun _ => .reqBind (fun _ => trivial) fun _ => .pure
  rw [(A a.previousValidatorStake).1]
  refine .reqBind (bad_owner hi rfl pp) fun _ => .reqBind (fun h => bad_seeds p0 pp ?_) fun _ => ?_
  · rintro ⟨k, s', hk, hs', e⟩
    rw [hs k s' hk hs'] at e
    exact h e
  refine .bind (.validator A hi pp rfl) fun v hv => ?_
  rw [unpackValidator_ok] at hv
  have hdel : (w a.previousValidatorStake).data.del?.isSome = true := by rw [← (A _).2.del, hv]; rfl
  refine .bind (.harvest A hc hdel hi pr rfl) fun w2 h2 => ?_
  have A2 := A.trans (harvest_alike h2)
  refine .bind (.validator A2 hi pp rfl) fun v' hv' => .bind .subU64 fun _ _ => .bind .setData fun w3 h3 => ?_
  rw [unpackValidator_ok] at hv'
  exact .syncEffective (A2.trans (setData_alike h3 (by rw [hv']; exact .validator))) hc hdel

theorem leaveValidator_alike {a : HarvestSolStakerRewardsAccts} {s : SolStakerStake} (h : leaveValidator env w a s = .ok w') :
    Alike w w' := by
  unfold leaveValidator at h
  split at h
  · simp only [bind_ok, require_ok, exists_unit, unpackValidator_ok] at h
    obtain ⟨_, _, _, _, w2, h2, v, hv, _, _, w3, h3, h4⟩ := h
    exact ((harvest_alike h2).trans (setData_alike h3 (by rw [hv]; exact .validator))).trans (syncEffective_alike h4)
  · simp only [bind_ok, require_ok, exists_unit, pure_ok] at h
    obtain ⟨_, rfl⟩ := h
    exact .refl

theorem joinValidator_fault {w1 : World} {a : HarvestSolStakerRewardsAccts} {v : StakeView} {c : Config} (A : Alike w w1)
    (hc : (w a.config).data = .config c) (hi : ix.decoded = some .harvestSolStakerRewards) (p0 : ix.passes .config a.config)
    (pr : ix.passes .record a.vaultHolderRewards) (pp : ix.passes .currentValidator a.currentValidatorStake)
    (V : ∀ v', ix.views o v' → v' = v) :
    Blames (joinValidator env w1 a v.delegatedVote v.effective) (Fault env o w ix) := by
  unfold joinValidator
  refine .ite (fun _ => .reqBind (fun h => bad_seeds p0 pp ?_) fun _ => .ite (fun _ => ?_) fun _ => .pure) fun _ => .pure
  · rintro ⟨v', hv', e⟩
    rw [V v' hv'] at e
    exact h e
  refine .bind (.validator A hi pp rfl) fun x hx => ?_
  rw [unpackValidator_ok] at hx
  have hdel : (w a.currentValidatorStake).data.del?.isSome = true := by rw [← (A _).2.del, hx]; rfl
  refine .bind (.harvest A hc hdel hi pr rfl) fun w2 h2 => ?_
  have A2 := A.trans (harvest_alike h2)
  refine .bind (.validator A2 hi pp rfl) fun v' hv' => .bind .addU64 fun _ _ => .bind .setData fun w3 h3 => ?_
  rw [unpackValidator_ok] at hv'
  exact .bind (.syncEffective (A2.trans (setData_alike h3 (by rw [hv']; exact .validator))) hc hdel) fun _ _ => .pure

theorem joinValidator_alike {a : HarvestSolStakerRewardsAccts} {k : Key} {n : Nat} {x : World × Key × Nat}
    (h : joinValidator env w a k n = .ok x) : Alike w x.1 := by
  unfold joinValidator at h
  split at h
  · simp only [bind_ok, require_ok, exists_unit] at h
    obtain ⟨_, h⟩ := h
    split at h
    · simp only [bind_ok, unpackValidator_ok, pure_ok] at h
      obtain ⟨_, _, w2, h2, v, hv, _, _, w3, h3, w4, h4, rfl⟩ := h
      exact ((harvest_alike h2).trans (setData_alike h3 (by rw [hv]; exact .validator))).trans (syncEffective_alike h4)
    · cases h; exact .refl
  · cases h; exact .refl

theorem harvestSolStakerRewards_fault (I : Inv env w) (F : o.FailsAsCall) {a : HarvestSolStakerRewardsAccts} {kr : Key}
    (hi : ix.decoded = some .harvestSolStakerRewards) (hl : ix.ctx.accts = [a.solStakeViewProgram, a.config,
      a.vaultHolderRewards, a.solStakerStake, a.solStakerStakeAuthority, a.solStakerNativeStake, a.previousValidatorStake,
      a.previousValidatorStakeAuthority, a.currentValidatorStake, a.currentValidatorStakeAuthority, a.sysvarStakeHistory,
      kr] ++ rest) (hkr : a.keeperRecipient = if kr = progId then none else some kr) :
    Blames (harvestSolStakerRewards env o w a) (Fault env o w ix) := by
  have p0 : ix.passes .config a.config := passes_of hi hl 1 rfl rfl
  have pr : ix.passes .record a.vaultHolderRewards := passes_of hi hl 2 rfl rfl
  have ps : ix.passes .stake a.solStakerStake := passes_of hi hl 3 rfl rfl
  have pn : ix.passes .nativeStake a.solStakerNativeStake := passes_of hi hl 5 rfl rfl
  have pp : ix.passes .previousValidator a.previousValidatorStake := passes_of hi hl 6 rfl rfl
  have pc : ix.passes .currentValidator a.currentValidatorStake := passes_of hi hl 8 rfl rfl
  have acc : ∀ {m : Nat} {k : Key}, ([a.solStakeViewProgram, a.config,
      a.vaultHolderRewards, a.solStakerStake, a.solStakerStakeAuthority, a.solStakerNativeStake, a.previousValidatorStake,
      a.previousValidatorStakeAuthority, a.currentValidatorStake, a.currentValidatorStakeAuthority, a.sysvarStakeHistory,
      kr] ++ rest)[m]? = some k → ix.acct m = some k := fun h => by unfold Ix.acct; rw [hl]; exact h
  unfold harvestSolStakerRewards
  refine .reqBind (bad_owner hi rfl p0) fun hO => .bind (.config .refl hi p0 rfl) fun c hc => ?_
  refine .reqBind (bad_owner hi rfl ps) fun hsO =>
    .reqBind (fun h => twice (p := 1) (q := 3) (by decide) (acc rfl) (acc rfl) h (.inl p0)) fun _ => ?_
  refine .bind (.solStaker .refl hi ps rfl) fun s hs => ?_
  rw [unpackConfig_ok] at hc
  rw [unpackSolStaker_ok] at hs
  have hdel : (w a.solStakerStake).data.del?.isSome = true := by rw [hs]; rfl
  refine .reqBind (fun h => bad_stake hi p0 ps (by simp) (by simp) (by simp) (misplaced_solStaker I hsO hs h)) fun _ => ?_
  refine .reqBind (fun _ => trivial) fun _ => .reqBind (fun _ => trivial) fun _ => .reqBind (bad_seeds p0 pr) fun _ => ?_
  refine .reqBind (fun h => .inl ⟨_, passes_of hi hl 0 rfl rfl, h⟩) fun _ => .bind (.callOut ?_) fun _ _ => ?_
  · rintro ⟨k, hk, hh⟩
    simp only [List.mem_cons, List.not_mem_nil, or_false] at hk hh
    have : ∃ m, m ≠ 1 ∧ m ≠ 3 ∧ ix.acct m = some k := by
      rcases hk with rfl | rfl
      · exact ⟨5, by decide, by decide, acc rfl⟩
      · exact ⟨10, by decide, by decide, acc rfl⟩
    obtain ⟨m, m0, m1, hm⟩ := this
    rcases hh with rfl | rfl
    · exact borrowed (Ne.symm m0) (acc rfl) hm (.inl p0)
    · exact borrowed (Ne.symm m1) (acc rfl) hm (.inr ps)
  refine .bind (fun e he => ?_) fun v hv => ?_
  · obtain rfl := F.view _ _ he; trivial
  have V : ∀ v', ix.views o v' → v' = v := by
    rintro v' ⟨n, hn, h⟩
    obtain rfl := passes_at hi rfl (acc (m := 5) rfl) hn
    rw [hv] at h; cases h; rfl
  refine .reqBind (fun h => .inr ⟨hi, ?_, _, s, v, ps, solStakerAt_eq.2 ⟨hsO, hs⟩, ⟨_, pn, hv⟩, ?_⟩) fun _ => ?_
  · have : kr = progId := by
      by_contra hn
      rw [hkr, if_neg hn] at h
      simp at h
    rw [← this]; exact acc rfl
  · exact of_decide_eq_true (_root_.not_imp.1 h).1
  refine .bind (.harvest .refl hc hdel hi pr rfl) fun w1 h1 => .ite (fun _ => .pure) fun _ => ?_
  have A1 := harvest_alike h1
  refine .bind (leaveValidator_fault A1 hc hi p0 pr pp fun k s' hk hs' => ?_) fun w2 h2 => ?_
  · obtain rfl := passes_at hi rfl (acc (m := 3) rfl) hk
    rw [solStakerAt_eq, hs] at hs'
    cases hs'.2; rfl
  have A2 := A1.trans (leaveValidator_alike h2)
  refine .bind (joinValidator_fault A2 hc hi p0 pr pc V) fun x h3 => ?_
  have A3 := A2.trans (joinValidator_alike h3)
  obtain ⟨w3, vote, lamports⟩ := x
  refine .bind (.solStaker A3 hi ps rfl) fun t ht => .bind .setData fun w4 h4 => ?_
  rw [unpackSolStaker_ok] at ht
  exact .syncEffective (A3.trans (setData_alike h4 (by rw [ht]; exact .solStaker))) hc hdel

end Verif
