import Verif.Lemmas.State
/-!
# What one instruction does to one given account
-/

namespace Verif

variable {env : Env} {o : Oracle} {w w' w'' : World} {ix : Ix}

theorem StRel.del {ex : Prop} {a b : Option Data} (h : StRel ex a b) {d : Delegation} (hd : a.bind Data.del? = some d) :
    ∃ d', b.bind Data.del? = some d' ∧ SameDel ex d d' := by
  cases h with
  | none => simp at hd
  | validator h _ => simp only [Option.bind_some, Data.del?, Option.some.injEq] at hd; subst hd; exact ⟨_, rfl, h⟩
  | solStaker h _ => simp only [Option.bind_some, Data.del?, Option.some.injEq] at hd; subst hd; exact ⟨_, rfl, h⟩

theorem StRel.del_none {ex : Prop} {a b : Option Data} (h : StRel ex a b) (hd : a.bind Data.del? = Option.none) :
    b.bind Data.del? = Option.none := by
  cases h <;> simp_all [Data.del?]

theorem not_stake_of_config {k : Key} {c : Config} (h : configAt w k = some c) : stakeAt w k = none := by
  rw [stakeAt_st, st_config.2 h]; rfl

theorem not_config_of_stake {k : Key} {d : Delegation} (h : stakeAt w k = some d) : configAt w k = none := by
  cases hc : configAt w k with
  | none => rfl
  | some c => rw [not_stake_of_config hc] at h; simp at h

theorem Quiet.del {T : Key → Prop} {ck k : Key} (Q : Quiet T ck w w') {d : Delegation} (hd : stakeAt w k = some d) :
    ∃ d', stakeAt w' k = some d' ∧ SameDel (T k) d d' := by
  by_cases hb : belongs k ck
  · rw [stakeAt_st] at hd ⊢; exact (Q.stake k hb).del hd
  · by_cases hk : k = ck
    · subst hk
      obtain ⟨c, _, hc, _⟩ := Q.config
      rw [not_stake_of_config hc] at hd; simp at hd
    · exact ⟨d, by rw [stakeAt_congr (Q.other k hk hb)]; exact hd, .refl d⟩

theorem Quiet.del_none {T : Key → Prop} {ck k : Key} (Q : Quiet T ck w w') (hd : stakeAt w k = none) :
    stakeAt w' k = none := by
  by_cases hb : belongs k ck
  · rw [stakeAt_st] at hd ⊢; exact (Q.stake k hb).del_none hd
  · by_cases hk : k = ck
    · subst hk
      obtain ⟨_, c, _, hc, _⟩ := Q.config
      exact not_stake_of_config hc
    · rw [stakeAt_congr (Q.other k hk hb)]; exact hd

theorem Quiet.configAt (I : Inv env w) {T : Key → Prop} {ck k : Key} (Q : Quiet T ck w w') {c : Config}
    (hc : configAt w k = some c) : ∃ c', configAt w' k = some c' ∧ SameSettings c c' ∧ (k ≠ ck → c' = c) := by
  by_cases hk : k = ck
  · subst hk
    obtain ⟨c0, c', h0, h', hs⟩ := Q.config
    rw [hc] at h0; cases h0
    exact ⟨c', h', hs, fun h => absurd rfl h⟩
  · have hb : ¬ belongs k ck := by
      intro hb; have := I.config_key hc; rw [hb.ofProgram] at this; simp at this
    exact ⟨c, by rw [configAt_congr (Q.other k hk hb)]; exact hc, .refl c, fun _ => rfl⟩

theorem Quiet.config_none {T : Key → Prop} {ck k : Key} (Q : Quiet T ck w w')
    (hc : Verif.configAt w k = none) : Verif.configAt w' k = none := by
  by_cases hb : belongs k ck
  · cases hs : Verif.configAt w' k with
    | none => rfl
    | some c =>
      have := Q.stake k hb
      rw [st_config.2 hs] at this
      generalize st w k = y at this
      cases this
  · by_cases hk : k = ck
    · subst hk
      obtain ⟨c, _, h, _⟩ := Q.config
      rw [hc] at h; simp at h
    · rw [configAt_congr (Q.other k hk hb)]; exact hc

/-- How one stake account's delegation changes in one instruction. -/
inductive DelChange (env : Env) (o : Oracle) (ix : Ix) (w w' : World) (s : Key) (d d' : Delegation) : Prop
  | same : d'.staked = d.staked → d'.cooldown = d.cooldown → d'.authority = d.authority → DelChange env o ix w w' s d d'
  | sync (ck vote wd : Key) : ix.decoded = some .validatorSyncAuthority → ix.acct 0 = some ck →
      s = .validatorPda vote ck → (w vote).owner = voteId → (w vote).data = .vote wd →
      d' = { d with authority := wd } → DelChange env o ix w w' s d d'
  | stake (ck : Key) (amount : Nat) :
      (ix.decoded = some (.validatorStakeTokens amount) ∨ ix.decoded = some (.solStakerStakeTokens amount)) →
      ix.acct 0 = some ck → ix.acct 3 = some s → belongs s ck →
      d'.staked = d.staked + amount → d'.cooldown = d.cooldown → d'.authority = d.authority →
      DelChange env o ix w w' s d d'
  | slash (ck : Key) (amount : Nat) (c : Config) :
      (ix.decoded = some (.slashValidatorStake amount) ∨ ix.decoded = some (.slashSolStakerStake amount)) →
      ix.acct 0 = some ck → ix.acct 1 = some s → belongs s ck → configAt w ck = some c →
      c.slashAuthority ≠ .default → ix.ctx.signer c.slashAuthority = true →
      d'.staked = d.staked - min amount d.staked → d'.cooldown = d.cooldown → d'.authority = d.authority →
      DelChange env o ix w w' s d d'
  | unstake (ck : Key) (amount : Nat) (c : Config) : ix.decoded = some (.unstakeTokens amount) →
      ix.acct 0 = some ck → ix.acct 3 = some s → belongs s ck → UnstakeOne o ix.ctx ck s w w' amount c d d' →
      d'.authority = d.authority → DelChange env o ix w w' s d d'
  | moveFrom (ck t : Key) (amount : Nat) (dt dt' : Delegation) : ix.decoded = some (.solStakerMoveTokens amount) →
      ix.acct 0 = some ck → ix.acct 3 = some s → ix.acct 4 = some t →
      MoveTwo ix.ctx ck s t w w' amount d dt d' dt' → d'.authority = d.authority → DelChange env o ix w w' s d d'
  | moveTo (ck t : Key) (amount : Nat) (ds ds' : Delegation) : ix.decoded = some (.solStakerMoveTokens amount) →
      ix.acct 0 = some ck → ix.acct 3 = some t → ix.acct 4 = some s →
      MoveTwo ix.ctx ck t s w w' amount ds d ds' d' → d'.authority = d.authority → DelChange env o ix w w' s d d'

theorem stUpd_same {f : Key → Option Data} {k : Key} {D : Data} : stUpd f k D k = some D := by simp [stUpd]
theorem stUpd_ne {f : Key → Option Data} {k k' : Key} {D : Data} (h : k' ≠ k) : stUpd f k D k' = f k' := by
  simp [stUpd, h]

theorem stakeAt_of_validator {k : Key} {v : ValidatorStake} (h : validatorAt w k = some v) : stakeAt w k = some v.del := by
  rw [stakeAt_st, st_validator.2 h]; rfl

theorem stakeAt_of_solStaker {k : Key} {s : SolStakerStake} (h : solStakerAt w k = some s) : stakeAt w k = some s.del := by
  rw [stakeAt_st, st_solStaker.2 h]; rfl

theorem stakeAt_none_of_st {k : Key} (h : st w k = none) : stakeAt w k = none := by rw [stakeAt_st, h]; rfl

theorem effect_del (E : Effect env o ix w w') {s : Key} {d : Delegation} (hd : stakeAt w s = some d) :
    ∃ d', stakeAt w' s = some d' ∧ DelChange env o ix w w' s d d' := by
  have keep : ∀ {k D}, st w' = stUpd (st w) k D → s ≠ k → ∃ d', stakeAt w' s = some d' ∧ DelChange env o ix w w' s d d' :=
    fun h hk => ⟨d, by rw [stakeAt_congr (w := w) (k := s) (by rw [h, stUpd_ne hk])]; exact hd, .same rfl rfl rfl⟩
  cases E with
  | initializeConfig ck c _ _ hn _ h =>
    refine keep h ?_
    rintro rfl; rw [stakeAt_none_of_st hn] at hd; simp at hd
  | initializeValidatorStake ck vote wd c _ _ _ _ _ hn h =>
    refine keep h ?_
    rintro rfl; rw [stakeAt_none_of_st hn] at hd; simp at hd
  | initializeSolStakerStake ck native c v vs _ _ _ _ hvs hn h =>
    have h1 : s ≠ .solStakerPda native ck := by rintro rfl; rw [stakeAt_none_of_st hn] at hd; simp at hd
    by_cases h2 : s = .validatorPda v.delegatedVote ck
    · subst h2
      have e : st w' (.validatorPda v.delegatedVote ck) = some (.validator { vs with total := vs.total + v.effective }) := by
        rw [h, stUpd_same]
      rw [stakeAt_st, st_validator.2 hvs] at hd
      simp only [Option.bind_some, Data.del?, Option.some.injEq] at hd; subst hd
      exact ⟨vs.del, by rw [stakeAt_st, e]; rfl, .same rfl rfl rfl⟩
    · exact ⟨d, by rw [stakeAt_congr (w := w) (k := s) (by rw [h, stUpd_ne h2, stUpd_ne h1])]; exact hd, .same rfl rfl rfl⟩
  | setAuthority ck new c c' t _ _ hc _ h =>
    refine keep h ?_
    rintro rfl; rw [not_stake_of_config hc] at hd; simp at hd
  | updateConfig ck c f _ _ hc _ _ h =>
    refine keep h ?_
    rintro rfl; rw [not_stake_of_config hc] at hd; simp at hd
  | validatorSyncAuthority ck vote wd v hi h0 _ hv ho hvd h =>
    by_cases h2 : s = .validatorPda vote ck
    · subst h2
      rw [stakeAt_st, st_validator.2 hv] at hd
      simp only [Option.bind_some, Data.del?, Option.some.injEq] at hd; subst hd
      refine ⟨{ v.del with authority := wd }, by rw [stakeAt_st, h, stUpd_same]; rfl, ?_⟩
      exact .sync ck vote wd hi h0 rfl ho hvd rfl
    · exact keep h h2
  | settle ck _ _ Q =>
    obtain ⟨d', hd', hs⟩ := Q.del hd
    exact ⟨d', hd', .same (hs.staked (by simp)) (hs.cooldown (by simp)) hs.authority⟩
  | stake ck sk amount d0 d0' hi h0 h3 O hst hcd =>
    obtain ⟨d', hd', hs⟩ := O.quiet.del hd
    refine ⟨d', hd', ?_⟩
    by_cases hk : s = sk
    · subst hk
      have e := O.before; rw [hd] at e; cases e
      have e := O.after; rw [hd'] at e; cases e
      exact .stake ck amount hi h0 h3 O.bel hst hcd hs.authority
    · exact .same (hs.staked hk) (hs.cooldown hk) hs.authority
  | slash ck sk amount d0 d0' hi h0 h1 S =>
    obtain ⟨d', hd', hs⟩ := S.one.quiet.del hd
    refine ⟨d', hd', ?_⟩
    by_cases hk : s = sk
    · subst hk
      have e := S.one.before; rw [hd] at e; cases e
      have e := S.one.after; rw [hd'] at e; cases e
      obtain ⟨c, hc, hs1, hs2⟩ := S.signed
      exact .slash ck amount c hi h0 h1 S.one.bel hc hs1 hs2 S.staked S.cooldown hs.authority
    · exact .same (hs.staked hk) (hs.cooldown hk) hs.authority
  | unstake ck sk amount c d0 d0' hi h0 h3 U =>
    obtain ⟨d', hd', hs⟩ := U.one.quiet.del hd
    refine ⟨d', hd', ?_⟩
    by_cases hk : s = sk
    · subst hk
      have e := U.one.before; rw [hd] at e; cases e
      have e := U.one.after; rw [hd'] at e; cases e
      exact .unstake ck amount c hi h0 h3 U.one.bel U hs.authority
    · exact .same (hs.staked hk) (hs.cooldown hk) hs.authority
  | move ck sk tk amount ds dt ds' dt' hi h0 h3 h4 M =>
    obtain ⟨d', hd', hs⟩ := M.quiet.del hd
    refine ⟨d', hd', ?_⟩
    by_cases hk : s = sk
    · subst hk
      have e := M.s; rw [hd] at e; cases e
      have e := M.s'; rw [hd'] at e; cases e
      exact .moveFrom ck tk amount dt dt' hi h0 h3 h4 M hs.authority
    · by_cases hk' : s = tk
      · subst hk'
        have e := M.t; rw [hd] at e; cases e
        have e := M.t'; rw [hd'] at e; cases e
        exact .moveTo ck sk amount ds ds' hi h0 h3 h4 M hs.authority
      · exact .same (hs.staked (by simp [hk, hk'])) (hs.cooldown (by simp [hk, hk'])) hs.authority

/-- A stake account that did not exist before was created empty. -/
theorem effect_new (E : Effect env o ix w w') {s : Key} {d' : Delegation} (hd : stakeAt w s = none)
    (hd' : stakeAt w' s = some d') : d'.staked = 0 ∧ d'.effective = 0 ∧ d'.cooldown = 0 ∧
      (ix.decoded = some .initializeValidatorStake ∨ ix.decoded = some .initializeSolStakerStake) := by
  have keep : ∀ {k D}, st w' = stUpd (st w) k D → s ≠ k → False := by
    intro k D h hk
    rw [stakeAt_congr (w := w) (k := s) (by rw [h, stUpd_ne hk]), hd] at hd'; simp at hd'
  have quiet : ∀ {T ck}, Quiet T ck w w' → False := by
    intro T ck Q; rw [Q.del_none hd] at hd'; simp at hd'
  cases E with
  | initializeConfig ck c _ _ hn _ h =>
    by_cases hk : s = ck
    · subst hk; rw [stakeAt_st, h, stUpd_same] at hd'; simp [Data.del?] at hd'
    · exact (keep h hk).elim
  | initializeValidatorStake ck vote wd c hi _ _ _ _ hn h =>
    by_cases hk : s = .validatorPda vote ck
    · subst hk; rw [stakeAt_st, h, stUpd_same] at hd'
      simp only [Option.bind_some, Data.del?, Option.some.injEq] at hd'; subst hd'
      exact ⟨rfl, rfl, rfl, Or.inl hi⟩
    · exact (keep h hk).elim
  | initializeSolStakerStake ck native c v vs hi _ _ _ hvs hn h =>
    by_cases h2 : s = .validatorPda v.delegatedVote ck
    · subst h2; rw [stakeAt_st, st_validator.2 hvs] at hd; simp [Data.del?] at hd
    · by_cases h1 : s = .solStakerPda native ck
      · subst h1; rw [stakeAt_st, h, stUpd_ne h2, stUpd_same] at hd'
        simp only [Option.bind_some, Data.del?, Option.some.injEq] at hd'; subst hd'
        exact ⟨rfl, rfl, rfl, Or.inr hi⟩
      · rw [stakeAt_congr (w := w) (k := s) (by rw [h, stUpd_ne h2, stUpd_ne h1]), hd] at hd'; simp at hd'
  | setAuthority ck new c c' t _ _ hc _ h =>
    by_cases hk : s = ck
    · subst hk; rw [stakeAt_st, h, stUpd_same] at hd'; simp [Data.del?] at hd'
    · exact (keep h hk).elim
  | updateConfig ck c f _ _ hc _ _ h =>
    by_cases hk : s = ck
    · subst hk; rw [stakeAt_st, h, stUpd_same] at hd'; simp [Data.del?] at hd'
    · exact (keep h hk).elim
  | validatorSyncAuthority ck vote wd v hi h0 _ hv ho hvd h =>
    by_cases h2 : s = .validatorPda vote ck
    · subst h2; rw [stakeAt_st, st_validator.2 hv] at hd; simp [Data.del?] at hd
    · exact (keep h h2).elim
  | settle ck _ _ Q => exact (quiet Q).elim
  | stake ck sk amount d0 d0' hi h0 h3 O hst hcd => exact (quiet O.quiet).elim
  | slash ck sk amount d0 d0' hi h0 h1 S => exact (quiet S.one.quiet).elim
  | unstake ck sk amount c d0 d0' hi h0 h3 U => exact (quiet U.one.quiet).elim
  | move ck sk tk amount ds dt ds' dt' hi h0 h3 h4 M => exact (quiet M.quiet).elim

/-- How one config changes in one instruction. -/
inductive ConfigChange (ix : Ix) (k : Key) (c c' : Config) : Prop
  | same : SameSettings c c' → ConfigChange ix k c c'
  | authority (new : Key) : ix.decoded = some (.setAuthority .config) → ix.acct 0 = some k →
      c.authority ≠ .default → ix.ctx.signer c.authority = true → c' = { c with authority := new } → ConfigChange ix k c c'
  | slash (new : Key) : ix.decoded = some (.setAuthority .slash) → ix.acct 0 = some k →
      c.slashAuthority ≠ .default → ix.ctx.signer c.slashAuthority = true → c' = { c with slashAuthority := new } →
      ConfigChange ix k c c'
  | update (f : ConfigField) : ix.decoded = some (.updateConfig f) → ix.acct 0 = some k →
      c.authority ≠ .default → ix.ctx.signer c.authority = true → c' = c.updated f → ConfigChange ix k c c'

theorem effect_config (I : Inv env w) (E : Effect env o ix w w') {k : Key} {c : Config} (hc : configAt w k = some c) :
    ∃ c', configAt w' k = some c' ∧ ConfigChange ix k c c' := by
  have keep : ∀ {k' D}, st w' = stUpd (st w) k' D → k ≠ k' → ∃ c', configAt w' k = some c' ∧ ConfigChange ix k c c' :=
    fun h hk => ⟨c, by rw [configAt_congr (w := w) (k := k) (by rw [h, stUpd_ne hk])]; exact hc, .same (.refl c)⟩
  have quiet : ∀ {T ck}, Quiet T ck w w' → ∃ c', configAt w' k = some c' ∧ ConfigChange ix k c c' := by
    intro T ck Q
    obtain ⟨c', h, hs, _⟩ := Q.configAt I hc
    exact ⟨c', h, .same hs⟩
  have hp : ∀ {x y}, k ≠ .validatorPda x y ∧ k ≠ .solStakerPda x y := by
    intro x y; constructor <;> (rintro rfl; have := I.config_key hc; simp [Key.ofProgram] at this)
  cases E with
  | initializeConfig ck c0 _ _ hn _ h =>
    refine keep h ?_
    rintro rfl; rw [st_config.2 hc] at hn; simp at hn
  | initializeValidatorStake ck vote wd c _ _ _ _ _ hn h => exact keep h hp.1
  | initializeSolStakerStake ck native c0 v vs _ _ _ _ hvs hn h =>
    exact ⟨c, by rw [configAt_congr (w := w) (k := k) (by rw [h, stUpd_ne hp.1, stUpd_ne hp.2])]; exact hc, .same (.refl c)⟩
  | setAuthority ck new c0 c' t hi h0 hc0 ht h =>
    by_cases hk : k = ck
    · subst hk
      rw [hc] at hc0; cases hc0
      refine ⟨c', st_config.1 (by rw [h, stUpd_same]), ?_⟩
      cases t
      · exact .authority new hi h0 ht.1 ht.2.1 ht.2.2
      · exact .slash new hi h0 ht.1 ht.2.1 ht.2.2
    · exact keep h hk
  | updateConfig ck c0 f hi h0 hc0 h1 h2 h =>
    by_cases hk : k = ck
    · subst hk
      rw [hc] at hc0; cases hc0
      exact ⟨_, st_config.1 (by rw [h, stUpd_same]), .update f hi h0 h1 h2 rfl⟩
    · exact keep h hk
  | validatorSyncAuthority ck vote wd v hi h0 _ hv ho hvd h => exact keep h hp.1
  | settle ck _ _ Q => exact quiet Q
  | stake ck sk amount d0 d0' hi h0 h3 O hst hcd => exact quiet O.quiet
  | slash ck sk amount d0 d0' hi h0 h1 S => exact quiet S.one.quiet
  | unstake ck sk amount c d0 d0' hi h0 h3 U => exact quiet U.one.quiet
  | move ck sk tk amount ds dt ds' dt' hi h0 h3 h4 M => exact quiet M.quiet

/-- A stake account keeps its type and identity. -/
theorem effect_ident (I : Inv env w) (E : Effect env o ix w w') :
    (∀ s v, validatorAt w s = some v → ∃ v', validatorAt w' s = some v' ∧ v'.del.vote = v.del.vote) ∧
    (∀ s x, solStakerAt w s = some x → ∃ x', solStakerAt w' s = some x' ∧ x'.solStake = x.solStake) := by
  have quiet : ∀ {T ck}, Quiet T ck w w' →
      (∀ s v, validatorAt w s = some v → ∃ v', validatorAt w' s = some v' ∧ v'.del.vote = v.del.vote) ∧
      (∀ s x, solStakerAt w s = some x → ∃ x', solStakerAt w' s = some x' ∧ x'.solStake = x.solStake) := by
    intro T ck Q
    obtain ⟨cc, _, hcc, _⟩ := Q.config
    refine ⟨fun s v hv => ?_, fun s x hx => ?_⟩
    · by_cases hb : belongs s ck
      · have := Q.stake s hb
        rw [st_validator.2 hv] at this
        generalize hx : st w' s = y at this
        cases this with | validator h1 h2 => exact ⟨_, st_validator.1 hx, h2⟩
      · by_cases hk : s = ck
        · subst hk; rw [← st_validator] at hv; rw [st_config.2 hcc] at hv; simp at hv
        · exact ⟨v, by rw [validatorAt_congr (Q.other s hk hb)]; exact hv, rfl⟩
    · by_cases hb : belongs s ck
      · have := Q.stake s hb
        rw [st_solStaker.2 hx] at this
        generalize hy : st w' s = y at this
        cases this with | solStaker h1 h2 => exact ⟨_, st_solStaker.1 hy, h2⟩
      · by_cases hk : s = ck
        · subst hk; rw [← st_solStaker] at hx; rw [st_config.2 hcc] at hx; simp at hx
        · exact ⟨x, by rw [solStakerAt_congr (Q.other s hk hb)]; exact hx, rfl⟩
  have upd : ∀ {k D}, st w' = stUpd (st w) k D → (∀ v, st w k ≠ some (.validator v)) → (∀ v, st w k ≠ some (.solStaker v)) →
      (∀ s v, validatorAt w s = some v → ∃ v', validatorAt w' s = some v' ∧ v'.del.vote = v.del.vote) ∧
      (∀ s x, solStakerAt w s = some x → ∃ x', solStakerAt w' s = some x' ∧ x'.solStake = x.solStake) := by
    intro k D h n1 n2
    refine ⟨fun s v hv => ?_, fun s x hx => ?_⟩
    · have hk : s ≠ k := by rintro rfl; exact n1 v (st_validator.2 hv)
      exact ⟨v, by rw [validatorAt_congr (w := w) (k := s) (by rw [h, stUpd_ne hk])]; exact hv, rfl⟩
    · have hk : s ≠ k := by rintro rfl; exact n2 x (st_solStaker.2 hx)
      exact ⟨x, by rw [solStakerAt_congr (w := w) (k := s) (by rw [h, stUpd_ne hk])]; exact hx, rfl⟩
  cases E with
  | initializeConfig ck c0 _ _ hn _ h => exact upd h (by simp [hn]) (by simp [hn])
  | initializeValidatorStake ck vote wd c _ _ _ _ _ hn h => exact upd h (by simp [hn]) (by simp [hn])
  | initializeSolStakerStake ck native c0 v vs _ _ _ _ hvs hn h =>
    refine ⟨fun s x hx => ?_, fun s x hx => ?_⟩
    · have h1 : s ≠ .solStakerPda native ck := by rintro rfl; rw [← st_validator, hn] at hx; simp at hx
      by_cases h2 : s = .validatorPda v.delegatedVote ck
      · subst h2; rw [hvs] at hx; cases hx
        exact ⟨{ vs with total := vs.total + v.effective }, st_validator.1 (by rw [h, stUpd_same]), rfl⟩
      · exact ⟨x, by rw [validatorAt_congr (w := w) (k := s) (by rw [h, stUpd_ne h2, stUpd_ne h1])]; exact hx, rfl⟩
    · have h1 : s ≠ .solStakerPda native ck := by rintro rfl; rw [← st_solStaker, hn] at hx; simp at hx
      have h2 : s ≠ .validatorPda v.delegatedVote ck := by
        rintro rfl; rw [← st_solStaker, st_validator.2 hvs] at hx; simp at hx
      exact ⟨x, by rw [solStakerAt_congr (w := w) (k := s) (by rw [h, stUpd_ne h2, stUpd_ne h1])]; exact hx, rfl⟩
  | setAuthority ck new c0 c' t hi h0 hc0 ht h => exact upd h (by simp [st_config.2 hc0]) (by simp [st_config.2 hc0])
  | updateConfig ck c0 f hi h0 hc0 h1 h2 h => exact upd h (by simp [st_config.2 hc0]) (by simp [st_config.2 hc0])
  | validatorSyncAuthority ck vote wd v hi h0 _ hv ho hvd h =>
    refine ⟨fun s x hx => ?_, fun s x hx => ?_⟩
    · by_cases h2 : s = .validatorPda vote ck
      · subst h2; rw [hv] at hx; cases hx
        exact ⟨{ v with del := { v.del with authority := wd } }, st_validator.1 (by rw [h, stUpd_same]), rfl⟩
      · exact ⟨x, by rw [validatorAt_congr (w := w) (k := s) (by rw [h, stUpd_ne h2])]; exact hx, rfl⟩
    · have h2 : s ≠ .validatorPda vote ck := by
        rintro rfl; rw [← st_solStaker, st_validator.2 hv] at hx; simp at hx
      exact ⟨x, by rw [solStakerAt_congr (w := w) (k := s) (by rw [h, stUpd_ne h2])]; exact hx, rfl⟩
  | settle ck _ _ Q => exact quiet Q
  | stake ck sk amount d0 d0' hi h0 h3 O hst hcd => exact quiet O.quiet
  | slash ck sk amount d0 d0' hi h0 h1 S => exact quiet S.one.quiet
  | unstake ck sk amount c d0 d0' hi h0 h3 U => exact quiet U.one.quiet
  | move ck sk tk amount ds dt ds' dt' hi h0 h3 h4 M => exact quiet M.quiet

end Verif
