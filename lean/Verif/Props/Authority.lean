import Verif.Lemmas.Change
import Verif.Lemmas.Invert
import Verif.WitnessContract
import Verif.Props.State
/-!
# Who can change what

C06 to C11.
-/

namespace Verif.Props

open Verif Verif.Witness

variable {env : Env} {o : Oracle} {w w' : World} {ix : Ix}

/-- **C06.** An instruction that lowers the staked amount of an account is an unstake or a move signed by the account's
authority, or a slash signed by the slash authority of the account's config. -/
theorem C06_shrink_needs_signature (R : Reachable env w) (O : o.Ok) (h : exec env o w ix = .ok w') {s : Key}
    {d d' : Delegation} (hd : stakeAt w s = some d) (hd' : stakeAt w' s = some d') (hlt : d'.staked < d.staked) :
    (ix.ctx.signer d.authority = true ∧
      ∃ amount, (ix.decoded = some (.unstakeTokens amount) ∨ ix.decoded = some (.solStakerMoveTokens amount)) ∧
        d'.staked + amount = d.staked) ∨
    (∃ ck c amount, belongs s ck ∧ configAt w ck = some c ∧ c.slashAuthority ≠ .default ∧
      ix.ctx.signer c.slashAuthority = true ∧
      (ix.decoded = some (.slashValidatorStake amount) ∨ ix.decoded = some (.slashSolStakerStake amount)) ∧
      d'.staked + min amount d.staked = d.staked) := by
  obtain ⟨d'', e, D⟩ := effect_del (exec_effect (reachable_inv R) O h) hd
  rw [hd'] at e; cases e
  cases D with
  | same h1 => omega
  | sync ck vote wd _ _ _ _ _ e => rw [e] at hlt; exact absurd hlt (Nat.lt_irrefl _)
  | stake ck amount _ _ _ _ e => omega
  | slash ck amount c hi _ _ hb hc h1 h2 e _ _ =>
    exact Or.inr ⟨ck, c, amount, hb, hc, h1, h2, hi, by have := Nat.min_le_right amount d.staked; omega⟩
  | unstake ck amount c hi _ _ hb U _ =>
    exact Or.inl ⟨U.signed, amount, Or.inl hi, by have := U.le; have := U.staked; omega⟩
  | moveFrom ck t amount dt dt' hi _ _ _ M _ =>
    exact Or.inl ⟨M.sSigned, amount, Or.inr hi, by have := M.le; have := M.sStaked; omega⟩
  | moveTo ck t amount ds ds' hi _ _ _ M _ => have := M.tStaked; omega

example : (stakeAt w12 sol1).map (·.staked) = some 400 ∧ (stakeAt w13 sol1).map (·.staked) = some 250 := by
  decide +kernel
example : (stakeAt w14 val1).map (·.staked) = some 2000 ∧ (stakeAt w15 val1).map (·.staked) = some 1700 := by
  decide +kernel

/-- **C07.** An instruction that raises the staked amount of an account is a stake whose source token account lost that
many tokens under the signature of its owner or delegate (unless the source is the rewards pool's own token account,
which the pool pays back to), or a move from another account with the same authority and config, which shrank by as
much. -/
theorem C07_growth_is_paid (R : Reachable env w) (O : o.Ok) (C : RewardsContract o) (h : exec env o w ix = .ok w')
    {s : Key} {d d' : Delegation} (hd : stakeAt w s = some d) (hd' : stakeAt w' s = some d')
    (hlt : d.staked < d'.staked) :
    (∃ amount src auth t, (ix.decoded = some (.validatorStakeTokens amount) ∨
        ix.decoded = some (.solStakerStakeTokens amount)) ∧ d'.staked = d.staked + amount ∧
      ix.acct 5 = some src ∧ ix.acct 6 = some auth ∧ ix.ctx.signer auth = true ∧
      tokenAt w src = some t ∧ (t.owner = auth ∨ t.delegate = some auth) ∧ amount ≤ t.amount ∧
      (ix.acct 2 ≠ some src → ∃ t', tokenAt w' src = some t' ∧ t'.amount = t.amount - amount)) ∨
    (∃ amount t dt dt' ck, ix.decoded = some (.solStakerMoveTokens amount) ∧ d'.staked = d.staked + amount ∧
      t ≠ s ∧ belongs s ck ∧ belongs t ck ∧ stakeAt w t = some dt ∧ stakeAt w' t = some dt' ∧
      dt.authority = d.authority ∧ amount ≤ dt.staked ∧ dt'.staked = dt.staked - amount ∧
      ix.ctx.signer d.authority = true) := by
  obtain ⟨d'', e, D⟩ := effect_del (exec_effect (reachable_inv R) O h) hd
  rw [hd'] at e; cases e
  cases D with
  | same h1 => omega
  | sync ck vote wd _ _ _ _ _ e => rw [e] at hlt; exact absurd hlt (Nat.lt_irrefl _)
  | slash ck amount c hi _ _ hb hc h1 h2 e _ _ => omega
  | unstake ck amount c hi _ _ hb U _ => have := U.staked; omega
  | moveFrom ck t amount dt dt' hi _ _ _ M _ => have := M.sStaked; omega
  | moveTo ck t amount ds ds' hi _ _ _ M _ =>
    exact Or.inr ⟨amount, t, ds, ds', ck, hi, M.tStaked, Ne.symm M.ne, M.belT, M.belS, M.s, M.s', M.same.symm, M.le,
      M.sStaked, M.same ▸ M.sSigned⟩
  | stake ck amount hi h0 h3 hb e _ _ =>
    obtain ⟨a, rest, hl, c, d0, hr, rs, rh, w1, w2, w3, D', c1, d1, d2, ts, td, S⟩ := exec_staked h hi
    have T := S.transfer
    have hsrc := S.token T.src
    refine Or.inl ⟨amount, a.sourceTokenAccount, a.sourceTokenAccountAuthority, ts, hi, e, ?_, ?_, T.signed_eq,
      tokenAt_eq.2 hsrc, ?_, T.le, fun h2 => ?_⟩
    · simp [Ix.acct, hl, StakeTokensAccts.list]
    · simp [Ix.acct, hl, StakeTokensAccts.list]
    · have := T.auth
      split_ifs at this with hdel
      · exact Or.inr hdel
      · exact Or.inl this.symm
    · obtain ⟨t, hh, hh', p, E, _, ht, hle, ht', hoth⟩ := C.deposit S.deposit
      simp only [StakeTokensAccts.call] at ht hle ht' hoth
      by_cases hs : a.sourceTokenAccount = a.vault
      · rw [T.self hs, tokenAt_eq, ← hs, T.src] at ht
        cases ht
        exact ⟨_, by rw [hs]; exact ht', rfl⟩
      · refine ⟨spend ts a.sourceTokenAccountAuthority amount, ?_, by unfold spend; split_ifs <;> rfl⟩
        rw [hoth _ hs (by
          rintro e'; apply h2; simp [Ix.acct, hl, StakeTokensAccts.list, e'])]
        rw [tokenAt_eq, (T.other hs).2]
        simp [World.setD_data, hs]

example : (stakeAt w5 val1).map (·.staked) = some 0 ∧ (stakeAt w6 val1).map (·.staked) = some 2000 ∧
    (tokenAt w5 source).map (·.amount) = some 1000000 ∧ (tokenAt w6 source).map (·.amount) = some 998000 := by
  decide +kernel
example : (stakeAt w11 sol2).map (·.staked) = some 0 ∧ (stakeAt w12 sol2).map (·.staked) = some 100 := by
  decide +kernel

/-- **C08.** The authority of a SOL staker stake account never changes. -/
theorem C08_solStaker_authority_fixed (R : Reachable env w) (S : Steps env w w') {s : Key} {x : SolStakerStake}
    (hx : solStakerAt w s = some x) : ∃ x', solStakerAt w' s = some x' ∧ x'.del.authority = x.del.authority := by
  induction S with
  | refl => exact ⟨x, hx, rfl⟩
  | tail S T ih =>
    obtain ⟨y, hy, e⟩ := ih
    have R1 := steps_reachable R S
    cases T with
    | ext E =>
      exact ⟨y, by rw [solStakerAt_congr (ext_st (reachable_inv R1) E s)]; exact hy, e⟩
    | exec O h =>
      have E := exec_effect (reachable_inv R1) O h
      obtain ⟨z, hz, _⟩ := (effect_ident (reachable_inv R1) E).2 s y hy
      refine ⟨z, hz, ?_⟩
      obtain ⟨d', e1, D⟩ := effect_del E (stakeAt_of_solStaker hy)
      rw [stakeAt_of_solStaker hz] at e1; cases e1
      cases D with
      | same _ _ h1 => rw [h1, e]
      | sync ck vote wd _ _ hs _ _ _ =>
        obtain ⟨c, hk, _⟩ := C27_solStaker_address R1 hy
        rw [hs] at hk; simp at hk
      | slash ck amount c hi _ _ hb hc h1 h2 _ _ h3 => rw [h3, e]
      | unstake ck amount c hi _ _ hb U h3 => rw [h3, e]
      | moveFrom ck t amount dt dt' hi _ _ _ M h3 => rw [h3, e]
      | moveTo ck t amount ds ds' hi _ _ _ M h3 => rw [h3, e]
      | stake ck amount hi h0 h3 hb _ _ h4 => rw [h4, e]

/-- **C08.** The authority of a validator stake account changes only through ValidatorSyncAuthority, and then to the
withdraw authority stored in its own vote account. -/
theorem C08_validator_authority_synced (R : Reachable env w) (O : o.Ok) (h : exec env o w ix = .ok w') {s : Key}
    {v v' : ValidatorStake} (hv : validatorAt w s = some v) (hv' : validatorAt w' s = some v')
    (hne : v'.del.authority ≠ v.del.authority) :
    ix.decoded = some .validatorSyncAuthority ∧ (w v.del.vote).owner = voteId ∧
      (w v.del.vote).data = .vote v'.del.authority := by
  obtain ⟨d', e1, D⟩ := effect_del (exec_effect (reachable_inv R) O h) (stakeAt_of_validator hv)
  rw [stakeAt_of_validator hv'] at e1; cases e1
  cases D with
  | same _ _ h1 => exact absurd h1 hne
  | sync ck vote wd hi _ hs ho hw e =>
    obtain ⟨c, hk, _⟩ := C27_validator_address R hv
    rw [hs] at hk
    simp only [Key.validatorPda.injEq] at hk
    rw [← hk.1, e]; exact ⟨hi, ho, hw⟩
  | slash ck amount c hi _ _ hb hc h1 h2 _ _ h3 => exact absurd h3 hne
  | unstake ck amount c hi _ _ hb U h3 => exact absurd h3 hne
  | moveFrom ck t amount dt dt' hi _ _ _ M h3 => exact absurd h3 hne
  | moveTo ck t amount ds ds' hi _ _ _ M h3 => exact absurd h3 hne
  | stake ck amount hi h0 h3 hb _ _ h4 => exact absurd h4 hne

/-- The first validator's vote account gets a new withdraw authority, then anyone syncs. -/
def w17v : World := w16.set vote1 { w16 vote1 with data := .vote staker }

theorem w17v_sync : okB o2 w17v ixSync = true := by decide +kernel

example : (validatorAt w17v val1).map (·.del.authority) = some auth1 ∧
    (validatorAt (after o2 w17v ixSync) val1).map (·.del.authority) = some staker := by decide +kernel

/-! ## Config settings -/

/-- Some settings of a config, as one value. -/
structure Settings where
  authority : Key
  cooldownTime : Nat
  maxBps : Nat
  syncRewards : Nat
  deriving DecidableEq

/-- The settings the config authority controls. -/
def settings (c : Config) : Settings :=
  { authority := c.authority, cooldownTime := c.cooldownTime, maxBps := c.maxBps, syncRewards := c.syncRewards }

theorem settings_same {c c' : Config} (h : SameSettings c c') : settings c' = settings c := by
  unfold settings; rw [h.authority, h.cooldownTime, h.maxBps, h.syncRewards]

/-- **C09.** An instruction that changes the cooldown, the deactivation limit, the keeper reward or the config authority
of a config carries the signature of its current config authority, which is set. -/
theorem C09_settings_need_signature (R : Reachable env w) (O : o.Ok) (h : exec env o w ix = .ok w') {k : Key}
    {c c' : Config} (hc : configAt w k = some c) (hc' : configAt w' k = some c') (hne : settings c' ≠ settings c) :
    c.authority ≠ .default ∧ ix.ctx.signer c.authority = true ∧ ix.acct 0 = some k ∧
      (ix.decoded = some (.setAuthority .config) ∨ ∃ f, ix.decoded = some (.updateConfig f)) := by
  obtain ⟨c'', e, C⟩ := effect_config (reachable_inv R) (exec_effect (reachable_inv R) O h) hc
  rw [hc'] at e; cases e
  cases C with
  | same h => exact absurd (settings_same h) hne
  | authority new hi h0 h1 h2 _ => exact ⟨h1, h2, h0, Or.inl hi⟩
  | slash new hi h0 h1 h2 e => subst e; exact absurd rfl hne
  | update f hi h0 h1 h2 _ => exact ⟨h1, h2, h0, Or.inr ⟨f, hi⟩⟩

/-- **C09.** Once the config authority is unset these settings are frozen forever. -/
theorem C09_settings_frozen (R : Reachable env w) (S : Steps env w w') {k : Key} {c : Config}
    (hc : configAt w k = some c) (hu : c.authority = .default) :
    ∃ c', configAt w' k = some c' ∧ settings c' = settings c := by
  induction S with
  | refl => exact ⟨c, hc, rfl⟩
  | tail S T ih =>
    obtain ⟨y, hy, e⟩ := ih
    have R1 := steps_reachable R S
    have hu' : y.authority = .default := by have := congrArg Settings.authority e; exact this.trans hu
    cases T with
    | ext E => exact ⟨y, by rw [configAt_congr (ext_st (reachable_inv R1) E k)]; exact hy, e⟩
    | exec O h =>
      obtain ⟨c', hc', C⟩ := effect_config (reachable_inv R1) (exec_effect (reachable_inv R1) O h) hy
      refine ⟨c', hc', ?_⟩
      by_contra hne
      exact (C09_settings_need_signature R1 O h hy hc' (by rw [e]; exact hne)).1 hu'

example : (configAt w18 cfg).map (fun c => (c.authority == .default, c.cooldownTime)) = some (false, 100) ∧
    (configAt w21 cfg).map (fun c => (c.authority == .default, c.cooldownTime)) = some (true, 200) := by
  decide +kernel

/-- **C10.** An instruction that changes the slash authority of a config carries the signature of its current slash
authority, which is set. -/
theorem C10_slash_authority_needs_signature (R : Reachable env w) (O : o.Ok) (h : exec env o w ix = .ok w') {k : Key}
    {c c' : Config} (hc : configAt w k = some c) (hc' : configAt w' k = some c')
    (hne : c'.slashAuthority ≠ c.slashAuthority) :
    c.slashAuthority ≠ .default ∧ ix.ctx.signer c.slashAuthority = true ∧ ix.acct 0 = some k ∧
      ix.decoded = some (.setAuthority .slash) := by
  obtain ⟨c'', e, C⟩ := effect_config (reachable_inv R) (exec_effect (reachable_inv R) O h) hc
  rw [hc'] at e; cases e
  cases C with
  | same h => exact absurd h.slashAuthority hne
  | authority new hi h0 h1 h2 e => subst e; exact absurd rfl hne
  | slash new hi h0 h1 h2 e => exact ⟨h1, h2, h0, hi⟩
  | update f hi h0 h1 h2 e => subst e; cases f <;> exact absurd rfl hne

/-- **C10.** Once the slash authority is unset it stays unset. -/
theorem C10_slash_authority_stays_unset (R : Reachable env w) (S : Steps env w w') {k : Key} {c : Config}
    (hc : configAt w k = some c) (hu : c.slashAuthority = .default) :
    ∃ c', configAt w' k = some c' ∧ c'.slashAuthority = .default := by
  induction S with
  | refl => exact ⟨c, hc, hu⟩
  | tail S T ih =>
    obtain ⟨y, hy, e⟩ := ih
    have R1 := steps_reachable R S
    cases T with
    | ext E => exact ⟨y, by rw [configAt_congr (ext_st (reachable_inv R1) E k)]; exact hy, e⟩
    | exec O h =>
      obtain ⟨c', hc', C⟩ := effect_config (reachable_inv R1) (exec_effect (reachable_inv R1) O h) hy
      refine ⟨c', hc', ?_⟩
      by_contra hne
      exact (C10_slash_authority_needs_signature R1 O h hy hc' (by rw [e]; exact hne)).1 e

/-- **C10.** Once the slash authority is unset no slash naming that config succeeds, ever. -/
theorem C10_no_slash_once_unset (R : Reachable env w) (S : Steps env w w') {k : Key} {c : Config}
    (hc : configAt w k = some c) (hu : c.slashAuthority = .default) (O : o.Ok) {amount : Nat}
    (hi : ix.decoded = some (.slashValidatorStake amount) ∨ ix.decoded = some (.slashSolStakerStake amount))
    (hk : ix.acct 0 = some k) (w'' : World) : exec env o w' ix ≠ .ok w'' := by
  intro h
  obtain ⟨c', hc', hu'⟩ := C10_slash_authority_stays_unset R S hc hu
  have R1 := steps_reachable R S
  obtain ⟨a, h0, _, _, _, c1, d, hr, rs, rh, w1, w2, D', c2, d1, d2, Sl⟩ := exec_slashed h hi
  rw [hk] at h0; cases h0
  have := configAt_eq.1 hc'
  rw [Sl.harv.config] at this
  obtain ⟨_, rfl⟩ := by simpa using this
  exact Sl.set hu'

example : (configAt w20 cfg).map (·.slashAuthority) = some slashAuth ∧
    (configAt w21 cfg).map (·.slashAuthority) = some .default ∧
    errOf o2 w21 ixSlashVal1 = some (.stake .authorityNotSet) := by decide +kernel

/-- **C11.** The vault, the vault authority bump and the document hash never change. -/
theorem C11_fixed_at_creation (R : Reachable env w) (S : Steps env w w') {k : Key} {c : Config}
    (hc : configAt w k = some c) :
    ∃ c', configAt w' k = some c' ∧ c'.vault = c.vault ∧ c'.bump = c.bump ∧ c'.dunaHash = c.dunaHash := by
  induction S with
  | refl => exact ⟨c, hc, rfl, rfl, rfl⟩
  | tail S T ih =>
    obtain ⟨y, hy, e1, e2, e3⟩ := ih
    have R1 := steps_reachable R S
    cases T with
    | ext E => exact ⟨y, by rw [configAt_congr (ext_st (reachable_inv R1) E k)]; exact hy, e1, e2, e3⟩
    | exec O h =>
      obtain ⟨c', hc', C⟩ := effect_config (reachable_inv R1) (exec_effect (reachable_inv R1) O h) hy
      refine ⟨c', hc', ?_⟩
      cases C with
      | same h => exact ⟨h.vault.trans e1, h.bump.trans e2, h.dunaHash.trans e3⟩
      | authority new hi h0 h1 h2 e => subst e; exact ⟨e1, e2, e3⟩
      | slash new hi h0 h1 h2 e => subst e; exact ⟨e1, e2, e3⟩
      | update f hi h0 h1 h2 e => subst e; cases f <;> exact ⟨e1, e2, e3⟩

/-- **C11.** The stored bump is the canonical one, and both ways the program derives the vault authority (search for the
bump, or use the stored one) give the same address. -/
theorem C11_bump_canonical (R : Reachable env w) {k : Key} {c : Config} (hc : configAt w k = some c) :
    c.bump = env.vaultBump k ∧ env.createVaultPda k c.bump = .ok (env.vaultAuth k) := by
  have hb := ((reachable_inv R).config k c hc).bump
  refine ⟨hb, ?_⟩
  rw [hb]
  simp [Env.createVaultPda, Env.vaultAuth, env.offCurve_bump]

example : (configAt w21 cfg).map (fun c => (c.vault, c.bump)) = some (vault, 255) := by decide +kernel

end Verif.Props
