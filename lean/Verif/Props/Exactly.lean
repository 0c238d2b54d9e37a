import Verif.Lemmas.Exact
import Verif.Lemmas.Dispatch
import Verif.WitnessLive
import Verif.Props.Settle
/-!
# C102: an instruction is accepted exactly when its conditions hold

The theorems of `Props/Live.lean` say that certain conditions are enough for an instruction to be accepted. Here they are shown
to be necessary as well, so the program has no further condition and checks every one of these. The account list is taken as
given, with the writable flags an honest client sets.
-/

namespace Verif.Props

open Verif Witness

variable {env : Env} {o : Oracle} {w w' : World} {ix : Ix}

/-- **C102.** SetAuthority goes through exactly if the account is a config whose authority of the given kind is set, is the one
named and signs. -/
theorem C102_set_authority {t : AuthorityType} (hi : ix.decoded = some (.setAuthority t)) {ck auth new : Key}
    {rest : List Key} (hl : ix.ctx.accts = ck :: auth :: new :: rest) (hw : ix.ctx.writable ck = true) :
    (∃ w', exec env o w ix = .ok w') ↔
      ix.ctx.signer auth = true ∧ auth ≠ .default ∧
      ∃ c, configAt w ck = some c ∧ auth = match t with | .config => c.authority | .slash => c.slashAuthority := by
  constructor
  · rintro ⟨w', h⟩
    obtain ⟨⟨a0, a1, a2⟩, r, hl', h⟩ := ran_setAuthority h hi
    rw [hl] at hl'
    simp only [SetAuthorityAccts.list, List.cons_append, List.nil_append, List.cons.injEq] at hl'
    obtain ⟨rfl, rfl, rfl, _⟩ := hl'
    obtain ⟨c, c', h1, h2, h3, _, h4⟩ := setAuthority_ok h
    refine ⟨h1, ?_, c, configAt_eq.2 ⟨h2, h3⟩, ?_⟩
    · cases t <;> (obtain ⟨g1, g2, _⟩ := h4; simp only at g2; rw [g2]; exact g1)
    · cases t <;> exact h4.2.1
  · rintro ⟨h1, h2, c, h3, h4⟩
    exact ⟨_, live_setAuthority hi hl h3 h2 h4 h1 hw⟩

/-- The slash authority can be given up by its holder; somebody else cannot do it, though they sign. -/
example : (∃ w', exec Witness.env o2 w19 ixSetSlash = .ok w') ∧
    ¬ ∃ w', exec Witness.env o2 w19 (Witness.ix (.setAuthority .slash) [cfg, configAuth, .default] [configAuth]) = .ok w' :=
  ⟨(C102_set_authority (t := .slash) (by decide +kernel) (rest := []) rfl rfl).2
      ⟨by decide +kernel, by decide, cfgOf w19 cfg, by decide +kernel, by decide +kernel⟩,
    fun h => by
      obtain ⟨_, _, c, hc, ha⟩ := (C102_set_authority (t := .slash) (by decide +kernel) (rest := []) rfl rfl).1 h
      have e : c = cfgOf w19 cfg := Option.some.inj (hc.symm.trans (by decide +kernel : configAt w19 cfg = some (cfgOf w19 cfg)))
      rw [e] at ha
      exact absurd ha (by decide +kernel)⟩

/-- **C102.** UpdateConfig goes through exactly if the account is a config whose authority is set, is the one named and signs,
and a new limit for unstaking is at most 10000 basis points. -/
theorem C102_update_config {f : ConfigField} (hi : ix.decoded = some (.updateConfig f)) {ck auth : Key}
    {rest : List Key} (hl : ix.ctx.accts = ck :: auth :: rest) (hw : ix.ctx.writable ck = true) :
    (∃ w', exec env o w ix = .ok w') ↔
      ix.ctx.signer auth = true ∧ auth ≠ .default ∧ (∀ v, f = .maxDeactivationBasisPoints v → v ≤ 10000) ∧
      ∃ c, configAt w ck = some c ∧ auth = c.authority := by
  constructor
  · rintro ⟨w', h⟩
    obtain ⟨⟨a0, a1⟩, r, hl', h⟩ := ran_updateConfig h hi
    rw [hl] at hl'
    simp only [UpdateConfigAccts.list, List.cons_append, List.nil_append, List.cons.injEq] at hl'
    obtain ⟨rfl, rfl, _⟩ := hl'
    obtain ⟨c, h1, h2, h3, h4, h5, h6, _⟩ := updateConfig_ok h
    simp only at h4
    exact ⟨h5, by rw [h4]; exact h3, h6, c, configAt_eq.2 ⟨h1, h2⟩, h4⟩
  · rintro ⟨h1, h2, h3, c, h4, h5⟩
    exact ⟨_, live_updateConfig hi hl h4 (by rw [← h5]; exact h2) h5 h3 h1 hw⟩

/-- A cooldown of 200 seconds is accepted, a limit of 10001 basis points is not. -/
example : (∃ w', exec Witness.env o2 w18 ixUpdate = .ok w') ∧
    ¬ ∃ w', exec Witness.env o2 w18
      (Witness.ix (.updateConfig (.maxDeactivationBasisPoints 10001)) [cfg, configAuth] [configAuth]) = .ok w' :=
  ⟨(C102_update_config (f := .cooldownTimeSeconds 200) (by decide +kernel) (rest := []) rfl rfl).2
      ⟨by decide +kernel, by decide, by simp, cfgOf w18 cfg, by decide +kernel, by decide +kernel⟩,
    fun h => absurd (((C102_update_config (f := .maxDeactivationBasisPoints 10001) (by decide +kernel) (rest := []) rfl rfl).1 h).2.2.1
      10001 rfl) (by decide)⟩

/-- **C102.** ValidatorSyncAuthority goes through exactly if the accounts are a config, its stake account of the vote account,
and a vote account. -/
theorem C102_sync_authority (R : Reachable env w) (hi : ix.decoded = some .validatorSyncAuthority) {ck sk vote : Key}
    {rest : List Key} (hl : ix.ctx.accts = ck :: sk :: vote :: rest) (hw : ix.ctx.writable sk = true) :
    (∃ w', exec env o w ix = .ok w') ↔
      (configAt w ck).isSome = true ∧ sk = .validatorPda vote ck ∧ (validatorAt w sk).isSome = true ∧
      (w vote).owner = voteId ∧ ∃ wd, (w vote).data = .vote wd := by
  constructor
  · rintro ⟨w', h⟩
    obtain ⟨⟨a0, a1, a2⟩, r, hl', h⟩ := ran_validatorSyncAuthority h hi
    rw [hl] at hl'
    simp only [ValidatorSyncAuthorityAccts.list, List.cons_append, List.nil_append, List.cons.injEq] at hl'
    obtain ⟨rfl, rfl, rfl, _⟩ := hl'
    obtain ⟨s, wd, h1, ⟨c, h2⟩, h3, h4, h5, h6, _⟩ := validatorSyncAuthority_ok h
    simp only at h1 h2 h3 h4 h5 h6
    refine ⟨by rw [configAt_eq.2 ⟨h1, h2⟩]; rfl, h3, ?_, h5, wd, h6⟩
    have hO : (w sk).owner = progId := by
      by_contra hO
      have := ((reachable_inv R).unowned sk (by rw [h3]; rfl) hO).2
      rw [h4] at this; cases this
    rw [validatorAt_eq.2 ⟨hO, h4⟩]; rfl
  · rintro ⟨h1, rfl, h2, h3, wd, h4⟩
    obtain ⟨v, hv⟩ := Option.isSome_iff_exists.1 h2
    exact ⟨_, live_syncAuthority hi hl h1 hv h3 h4 hw⟩

/-- It works for the vote account of the validator and not for another validator's. -/
example : (∃ w', exec Witness.env o2 w17 ixSync = .ok w') ∧
    ¬ ∃ w', exec Witness.env o2 w17 (Witness.ix .validatorSyncAuthority [cfg, val1, vote2] []) = .ok w' :=
  ⟨(C102_sync_authority r17 (by decide +kernel) (rest := []) rfl rfl).2 ⟨by decide +kernel, by decide +kernel, by decide +kernel, by decide +kernel, auth1, by decide +kernel⟩,
    fun h => absurd ((C102_sync_authority r17 (by decide +kernel) (rest := []) rfl rfl).1 h).2.1 (by decide)⟩

/-- **C102.** HarvestValidatorRewards goes through exactly if the record is the one of the vault, the stake account is a
validator's, the payee its authority, and the rewards can be settled. -/
theorem C102_harvest_validator (R : Reachable env w) (hi : ix.decoded = some .harvestValidatorRewards) {ck hk sk auth : Key}
    {rest : List Key} (hl : ix.ctx.accts = ck :: hk :: sk :: auth :: rest) (hne : auth ≠ ck)
    (hw : ix.Writes [ck, sk, auth]) :
    (∃ w', exec env o w ix = .ok w') ↔
      hk = vaultRecord env ck ∧
      ∃ c v, validatorAt w sk = some v ∧ auth = v.del.authority ∧ Payable env w ck sk c v.del := by
  constructor
  · rintro ⟨w', h⟩
    obtain ⟨⟨a0, a1, a2, a3⟩, r, hl', h⟩ := ran_harvestValidatorRewards h hi
    rw [hl] at hl'
    simp only [HarvestValidatorRewardsAccts.list, List.cons_append, List.nil_append, List.cons.injEq] at hl'
    obtain ⟨rfl, rfl, rfl, rfl, _⟩ := hl'
    simp only [harvestValidatorRewards, bind_ok, require_ok, exists_unit, unpackConfig_ok, unpackValidator_ok] at h
    obtain ⟨h1, c, h2, h3, _, v, h4, h5, h6, h7, h8⟩ := h
    obtain ⟨c0, d0, hr, rs, rh, H⟩ := harvest_ok h8
    obtain ⟨rfl, _⟩ := H.validator' h4
    exact ⟨H.hk_eq, c0, v, validatorAt_eq.2 ⟨h3, h4⟩, H.auth_eq, H.payable h1 h3 (by rw [h5]; simp [belongs]) hne⟩
  · rintro ⟨rfl, c, v, hv, rfl, P⟩
    exact live_harvestValidator (reachable_inv R) hi hl hv P hw

/-- 12000 lamports are due to the validator's authority, which get paid; nobody else can be put in its place. -/
example : accrued Witness.env w9 cfg val1 = 12000 ∧ (∃ w', exec Witness.env o1 w9 ixHarvestVal1 = .ok w') ∧
    ¬ ∃ w', exec Witness.env o1 w9 (Witness.ix .harvestValidatorRewards [cfg, holder, val1, auth2] [auth2]) = .ok w' :=
  ⟨by decide +kernel,
    (C102_harvest_validator r9 (by decide +kernel) (rest := []) rfl (by decide) (ix_writes _ _ _ _)).2
      ⟨by decide +kernel, cfgOf w9 cfg, valOf w9 val1, by decide +kernel, by decide +kernel, payable_mk (belongs_val _ _) (by decide +kernel)⟩,
    fun h => by
      obtain ⟨_, _, v, hv, ha, _⟩ :=
        (C102_harvest_validator r9 (by decide +kernel) (rest := []) rfl (by decide) (ix_writes _ _ _ _)).1 h
      have e : v = valOf w9 val1 := Option.some.inj (hv.symm.trans (by decide +kernel : validatorAt w9 val1 = some (valOf w9 val1)))
      rw [e] at ha
      exact absurd ha (by decide +kernel)⟩

/-- **C102.** ValidatorOverrideStakedLamports goes through exactly if the config authority is set, is the one named and signs,
the accounts belong together, the rewards can be settled and the new effective stake fits. -/
theorem C102_override (R : Reachable env w) {n : Nat} (hi : ix.decoded = some (.validatorOverrideStakedLamports n))
    {ck cauth sk auth hk : Key} {rest : List Key} (hl : ix.ctx.accts = ck :: cauth :: sk :: auth :: hk :: rest)
    (hne : auth ≠ ck) (hw : ix.Writes [ck, sk, auth]) :
    (∃ w', exec env o w ix = .ok w') ↔
      hk = vaultRecord env ck ∧ ix.ctx.signer cauth = true ∧ cauth ≠ .default ∧
      ∃ c v, validatorAt w sk = some v ∧ cauth = c.authority ∧ auth = v.del.authority ∧
        Payable env w ck sk c v.del ∧ Fits c v.del v.del.staked (max v.total n) := by
  constructor
  · rintro ⟨w', h⟩
    obtain ⟨⟨a0, a1, a2, a3, a4⟩, r, hl', h⟩ := ran_validatorOverrideStakedLamports h hi
    rw [hl] at hl'
    simp only [ValidatorOverrideStakedLamportsAccts.list, List.cons_append, List.nil_append, List.cons.injEq] at hl'
    obtain ⟨rfl, rfl, rfl, rfl, rfl, _⟩ := hl'
    obtain ⟨h1, c, v, h2, h3, h4, h5, h6, h7, h8⟩ := override_inv h hne
    simp only at h4
    exact ⟨h1, h5, by rw [h4]; exact h3, c, v, h2, h4, h6, h7, h8⟩
  · rintro ⟨rfl, h1, h2, c, v, hv, rfl, rfl, P, F⟩
    exact live_override (reachable_inv R) hi hl h2 h1 hv P F hw

/-- The config authority can override; without its signature nobody can. -/
example : (∃ w', exec Witness.env o1 w9 ixOverride = .ok w') ∧
    ¬ ∃ w', exec Witness.env o1 w9
      (Witness.ix (.validatorOverrideStakedLamports 5000) [cfg, configAuth, val1, auth1, holder] [auth1]) = .ok w' :=
  ⟨(C102_override r9 (n := 5000) (by decide +kernel) (rest := []) rfl (by decide) (ix_writes _ _ _ _)).2
      ⟨by decide +kernel, by decide +kernel, by decide, cfgOf w9 cfg, valOf w9 val1, by decide +kernel, by decide +kernel, by decide +kernel,
        payable_mk (belongs_val _ _) (by decide +kernel), by unfold Fits; decide +kernel⟩,
    fun h => absurd ((C102_override r9 (n := 5000) (by decide +kernel) (rest := []) rfl (by decide) (ix_writes _ _ _ _)).1 h).2.1
      (by decide +kernel)⟩

/-- **C102.** SolStakerMoveTokens goes through exactly if the two accounts are different SOL staker stake accounts of the config
with the named authority, it signs, both rewards can be settled one after the other, the source has the tokens, and the new
numbers fit in 64 bits. -/
theorem C102_move (R : Reachable env w) {n : Nat} (hi : ix.decoded = some (.solStakerMoveTokens n)) {ck hk auth sk tk : Key}
    {rest : List Key} (hl : ix.ctx.accts = ck :: hk :: auth :: sk :: tk :: rest) (hau : auth ≠ ck)
    (hw : ix.Writes [ck, sk, tk, auth]) :
    (∃ w', exec env o w ix = .ok w') ↔
      hk = vaultRecord env ck ∧ ix.ctx.signer auth = true ∧ tk ≠ sk ∧
      ∃ c s t, solStakerAt w sk = some s ∧ solStakerAt w tk = some t ∧ s.del.authority = auth ∧ t.del.authority = auth ∧
        Payable env w ck sk c s.del ∧ Payable env w ck tk c t.del ∧
        accrued env w ck sk + accrued env w ck tk + env.rentMin configLen ≤ (w ck).lamports ∧
        (w auth).lamports + accrued env w ck sk + accrued env w ck tk < 2 ^ 64 ∧
        n ≤ s.del.staked ∧ t.del.staked + n < 2 ^ 64 ∧
        c.effTotal - s.del.effective + min (s.del.staked - n) (cap s.lamports) - t.del.effective +
          min (t.del.staked + n) (cap t.lamports) < 2 ^ 64 ∧
        cap s.lamports < 2 ^ 64 ∧ cap t.lamports < 2 ^ 64 := by
  constructor
  · rintro ⟨w', h⟩
    obtain ⟨⟨a0, a1, a2, a3, a4⟩, r, hl', h⟩ := ran_solStakerMoveTokens h hi
    rw [hl] at hl'
    simp only [SolStakerMoveTokensAccts.list, List.cons_append, List.nil_append, List.cons.injEq] at hl'
    obtain ⟨rfl, rfl, rfl, rfl, rfl, _⟩ := hl'
    exact move_inv (reachable_inv R) h hau
  · rintro ⟨rfl, h1, h2, c, s, t, hs, ht, rfl, h3, Ps, Pt, h4, h5, h6, h7, h8, h9, h10⟩
    exact live_move (reachable_inv R) hi hl h1 hs ht h2 h3 Ps Pt h4 h5 h6 h7 h8 h9 h10 hw

/-- 100 tokens can be moved although 3000 lamports are due; to the same account they cannot. -/
example : (∃ w', exec Witness.env o2 w10 ixMove = .ok w') ∧
    ¬ ∃ w', exec Witness.env o2 w10 (Witness.ix (.solStakerMoveTokens 100) [cfg, holder, staker, sol1, sol1] [staker]) = .ok w' :=
  ⟨(C102_move r10 (n := 100) (by decide +kernel) (rest := []) rfl (by decide) (ix_writes _ _ _ _)).2
      ⟨by decide +kernel, by decide +kernel, by decide, cfgOf w10 cfg, solOf w10 sol1, solOf w10 sol2, by decide +kernel, by decide +kernel,
        by decide +kernel, by decide +kernel, payable_mk (belongs_sol _ _) (by decide +kernel),
        payable_mk (belongs_sol _ _) (by decide +kernel), by decide +kernel, by decide +kernel, by decide +kernel,
        by decide +kernel, by decide +kernel, by decide +kernel, by decide +kernel⟩,
    fun h => absurd rfl ((C102_move r10 (n := 100) (by decide +kernel) (rest := []) rfl (by decide) (ix_writes _ _ _ _)).1 h).2.2.1⟩

/-- **C102.** SlashValidatorStake of a validator with tokens goes through exactly if the slash authority is set, is the one named
and signs, the accounts belong together, the amount is not zero, the rewards can be settled, the vault and the mint allow the
burn, the new effective stake fits, and no reward is due to an account handed to the token program. The vault is assumed not
to be delegated to its own authority. -/
theorem C102_slash_validator (R : Reachable env w) {n : Nat} (hi : ix.decoded = some (.slashValidatorStake n))
    {ck sk auth sauth vault hk va mk tp : Key} {rest : List Key}
    (hl : ix.ctx.accts = ck :: sk :: auth :: sauth :: vault :: hk :: va :: mk :: tp :: rest) (hau : auth ≠ ck)
    (hst : 0 < stakedOf w sk) (hdl : ∀ t, tokenAt w vault = some t → t.delegate ≠ some va)
    (hw : ix.Writes [ck, sk, auth, vault, mk]) :
    (∃ w', exec env o w ix = .ok w') ↔
      hk = vaultRecord env ck ∧ va = env.vaultAuth ck ∧ tp = tokenId ∧ 0 < n ∧ ix.ctx.signer sauth = true ∧
      sauth ≠ .default ∧ ∃ c v t mi, validatorAt w sk = some v ∧ sauth = c.slashAuthority ∧ vault = c.vault ∧
        auth = v.del.authority ∧ Payable env w ck sk c v.del ∧
        Spendable w vault mk va t (min n v.del.staked) ∧
        mintAt w mk = some mi ∧ (w mk).owner = tokenId ∧ min n v.del.staked ≤ mi.supply ∧
        Fits c v.del (v.del.staked - min n v.del.staked) (max v.total v.min) ∧
        (auth ∉ [vault, mk, va] ∨ accrued env w ck sk = 0) := by
  constructor
  · rintro ⟨w', h⟩
    obtain ⟨⟨a0, a1, a2, a3, a4, a5, a6, a7, a8⟩, r, hl', h⟩ := ran_slashValidatorStake h hi
    rw [hl] at hl'
    simp only [SlashAccts.listValidator, List.cons_append, List.nil_append, List.cons.injEq] at hl'
    obtain ⟨rfl, rfl, rfl, rfl, rfl, rfl, rfl, rfl, rfl, _⟩ := hl'
    obtain ⟨c, v, t, mi, hv, X⟩ := slashValidator_inv (reachable_inv R) h hau hst hdl
    have e1 := X.vaultAuth
    have e2 := X.vault
    have e3 := X.payee
    have e4 := X.auth
    have e5 := X.spend
    have e6 := X.apart
    simp only at e1 e2 e3 e4 e5 e6
    subst e1 e2 e3 e4
    exact ⟨X.record, rfl, X.program, X.pos, X.signer, X.set, c, v, t, mi, hv, rfl, rfl, rfl, X.pay, e5, X.mint, X.mintO,
      X.supply, X.fits, e6⟩
  · rintro ⟨rfl, rfl, rfl, h1, h2, h3, c, v, t, mi, hv, rfl, rfl, rfl, P, S, hm, hmO, hs, F, hp⟩
    exact live_slashValidator (reachable_inv R) hi hl h3 h2 hv P h1 S hm hmO hs F hw hp

/-- A slash of 300 is accepted, a slash of zero is not. -/
example : (∃ w', exec Witness.env o2 z9 ixSlashVal1 = .ok w') ∧
    ¬ ∃ w', exec Witness.env o2 z9
      (Witness.ix (.slashValidatorStake 0) [cfg, val1, auth1, slashAuth, vault, holder, vaultAuth, mint, tokenId] [slashAuth])
        = .ok w' := by
  have hd : ∀ t, tokenAt z9 vault = some t → t.delegate ≠ some vaultAuth := fun t h => by
    have e : t = tokOf z9 vault := Option.some.inj (h.symm.trans (by decide +kernel : tokenAt z9 vault = some (tokOf z9 vault)))
    rw [e]; decide +kernel
  exact ⟨(C102_slash_validator rz9 (n := 300) (by decide +kernel) (rest := []) rfl (by decide) (by decide +kernel) hd
        (ix_writes _ _ _ _)).2
      ⟨by decide +kernel, by decide +kernel, rfl, by decide, by decide +kernel, by decide, cfgOf z9 cfg, valOf z9 val1, tokOf z9 vault,
        mintOf z9 mint, by decide +kernel, by decide +kernel, by decide +kernel, by decide +kernel,
        payable_mk (belongs_val _ _) (by decide +kernel), spendable_mk (by decide +kernel), by decide +kernel, by decide +kernel,
        by decide +kernel, by unfold Fits; decide +kernel, Or.inl (by decide +kernel)⟩,
    fun h => absurd ((C102_slash_validator rz9 (n := 0) (by decide +kernel) (rest := []) rfl (by decide) (by decide +kernel) hd
      (ix_writes _ _ _ _)).1 h).2.2.2.1 (by decide)⟩

/-- **C102.** The same for SlashSolStakerStake. -/
theorem C102_slash_sol_staker (R : Reachable env w) {n : Nat} (hi : ix.decoded = some (.slashSolStakerStake n))
    {ck sk auth sauth vault hk va mk tp : Key} {rest : List Key}
    (hl : ix.ctx.accts = ck :: sk :: auth :: sauth :: mk :: vault :: hk :: va :: tp :: rest) (hau : auth ≠ ck)
    (hst : 0 < stakedOf w sk) (hdl : ∀ t, tokenAt w vault = some t → t.delegate ≠ some va)
    (hw : ix.Writes [ck, sk, auth, vault, mk]) :
    (∃ w', exec env o w ix = .ok w') ↔
      hk = vaultRecord env ck ∧ va = env.vaultAuth ck ∧ tp = tokenId ∧ 0 < n ∧ ix.ctx.signer sauth = true ∧
      sauth ≠ .default ∧ ∃ c v t mi, solStakerAt w sk = some v ∧ sauth = c.slashAuthority ∧ vault = c.vault ∧
        auth = v.del.authority ∧ Payable env w ck sk c v.del ∧
        Spendable w vault mk va t (min n v.del.staked) ∧
        mintAt w mk = some mi ∧ (w mk).owner = tokenId ∧ min n v.del.staked ≤ mi.supply ∧
        Fits c v.del (v.del.staked - min n v.del.staked) v.lamports ∧
        (auth ∉ [vault, mk, va] ∨ accrued env w ck sk = 0) := by
  constructor
  · rintro ⟨w', h⟩
    obtain ⟨⟨a0, a1, a2, a3, a4, a5, a6, a7, a8⟩, r, hl', h⟩ := ran_slashSolStakerStake h hi
    rw [hl] at hl'
    simp only [SlashAccts.listSolStaker, List.cons_append, List.nil_append, List.cons.injEq] at hl'
    obtain ⟨rfl, rfl, rfl, rfl, rfl, rfl, rfl, rfl, rfl, _⟩ := hl'
    obtain ⟨c, v, t, mi, hv, X⟩ := slashSolStaker_inv (reachable_inv R) h hau hst hdl
    have e1 := X.vaultAuth
    have e2 := X.vault
    have e3 := X.payee
    have e4 := X.auth
    have e5 := X.spend
    have e6 := X.apart
    simp only at e1 e2 e3 e4 e5 e6
    subst e1 e2 e3 e4
    exact ⟨X.record, rfl, X.program, X.pos, X.signer, X.set, c, v, t, mi, hv, rfl, rfl, rfl, X.pay, e5, X.mint, X.mintO,
      X.supply, X.fits, e6⟩
  · rintro ⟨rfl, rfl, rfl, h1, h2, h3, c, v, t, mi, hv, rfl, rfl, rfl, P, S, hm, hmO, hs, F, hp⟩
    exact live_slashSolStaker (reachable_inv R) hi hl h3 h2 hv P h1 S hm hmO hs F hw hp

/-- A slash of 1000 of a stake of 100 is accepted; the config authority cannot slash. -/
example : (solOf w15 sol2).del.staked = 100 ∧ (∃ w', exec Witness.env o2 w15 ixSlashSol2 = .ok w') ∧
    ¬ ∃ w', exec Witness.env o2 w15
      (Witness.ix (.slashSolStakerStake 1000) [cfg, sol2, staker, slashAuth, mint, vault, holder, vaultAuth, tokenId] [configAuth])
        = .ok w' := by
  have hd : ∀ t, tokenAt w15 vault = some t → t.delegate ≠ some vaultAuth := fun t h => by
    have e : t = tokOf w15 vault := Option.some.inj (h.symm.trans (by decide +kernel : tokenAt w15 vault = some (tokOf w15 vault)))
    rw [e]; decide +kernel
  exact ⟨by decide +kernel, (C102_slash_sol_staker r15 (n := 1000) (by decide +kernel) (rest := []) rfl (by decide) (by decide +kernel) hd
        (ix_writes _ _ _ _)).2
      ⟨by decide +kernel, by decide +kernel, rfl, by decide, by decide +kernel, by decide, cfgOf w15 cfg, solOf w15 sol2, tokOf w15 vault,
        mintOf w15 mint, by decide +kernel, by decide +kernel, by decide +kernel, by decide +kernel,
        payable_mk (belongs_sol _ _) (by decide +kernel), spendable_mk (by decide +kernel), by decide +kernel, by decide +kernel,
        by decide +kernel, by unfold Fits; decide +kernel, Or.inl (by decide +kernel)⟩,
    fun h => absurd ((C102_slash_sol_staker r15 (n := 1000) (by decide +kernel) (rest := []) rfl (by decide) (by decide +kernel) hd
      (ix_writes _ _ _ _)).1 h).2.2.2.2.1 (by decide +kernel)⟩

/-- **C102.** HarvestSolStakerRewards for a native stake that is as recorded goes through exactly if the accounts are the right
ones and the rewards can be settled. The accounts for a changed stake, and the keeper, do not matter then. -/
theorem C102_harvest_sol_staker (R : Reachable env w) (hi : ix.decoded = some .harvestSolStakerRewards)
    {vp ck hk sk auth native pk pa qk qa hist kp : Key} {s : SolStakerStake} {v : StakeView} {rest : List Key}
    (hl : ix.ctx.accts = vp :: ck :: hk :: sk :: auth :: native :: pk :: pa :: qk :: qa :: hist :: kp :: rest)
    (hs : solStakerAt w sk = some s) (hview : o.view native = .ok v)
    (hsame : v.effective = s.lamports ∧ v.delegatedVote = s.del.vote) (hne : auth ≠ ck) (hw : ix.Writes [ck, sk, auth]) :
    (∃ w', exec env o w ix = .ok w') ↔
      vp = viewId ∧ hk = vaultRecord env ck ∧ auth = s.del.authority ∧ native = s.solStake ∧
      native ≠ ck ∧ hist ≠ ck ∧ hist ≠ sk ∧ ∃ c, Payable env w ck sk c s.del := by
  constructor
  · rintro ⟨w', h⟩
    obtain ⟨⟨a0, a1, a2, a3, a4, a5, a6, a7, a8, a9, a10, a11⟩, kk, r, hl', _, h⟩ := ran_harvestSolStakerRewards h hi
    rw [hl] at hl'
    simp only [HarvestSolStakerRewardsAccts.list, List.cons_append, List.nil_append, List.cons.injEq] at hl'
    obtain ⟨rfl, rfl, rfl, rfl, rfl, rfl, rfl, rfl, rfl, rfl, rfl, rfl, _⟩ := hl'
    simp only [harvestSolStakerRewards, bind_ok, require_ok, exists_unit, unpackConfig_ok, unpackSolStaker_ok] at h
    obtain ⟨hcO, _, _, hsO, _, s', hs', hsk, h1, h2, h3, h4, h5, v', hv', _, w1, hw1, _⟩ := h
    have e1 : s' = s := by rw [(solStakerAt_eq.1 hs).2] at hs'; cases hs'; rfl
    have e2 : v' = v := by rw [hview] at hv'; cases hv'; rfl
    subst e1 e2
    simp only [hsame, ne_eq, not_true_eq_false, or_self, decide_false, Bool.false_eq_true, if_false] at hw1
    obtain ⟨c0, d0, hr, rs, rh, H⟩ := harvest_ok hw1
    obtain ⟨rfl, _⟩ := H.solStaker' (solStakerAt_eq.1 hs).2
    have h6 := (callOut_ok.1 h5).1
    exact ⟨h4, h3, h1, h2, fun e => h6 native (by simp) (by simp [e]), fun e => h6 hist (by simp) (by simp [e]),
      fun e => h6 hist (by simp) (by simp [e]), c0, H.payable hcO hsO (by rw [hsk]; simp [belongs]) hne⟩
  · rintro ⟨rfl, rfl, rfl, rfl, h1, h2, h3, c, P⟩
    exact live_harvestSol_settle (reachable_inv R) hi hl hs hview h1 h2 h3 hsame P hw

/-- 3000 lamports are due to the staker and get paid; with another program in the view program's place they do not. -/
example : (∃ w', exec Witness.env o1 w9 ixHarvestSol1 = .ok w') ∧
    ¬ ∃ w', exec Witness.env o1 w9
      (Witness.ix .harvestSolStakerRewards
        [tokenId, cfg, holder, sol1, staker, native1, val1, auth1, val2, auth2, .raw 9, keeper] []) = .ok w' :=
  ⟨(C102_harvest_sol_staker r9 (by decide +kernel) (s := solOf w9 sol1)
        (v := { delegatedVote := vote1, withdrawer := staker, effective := 1000 }) (rest := []) rfl (by decide +kernel)
        (by decide +kernel) (by decide +kernel) (by decide) (ix_writes _ _ _ _)).2
      ⟨rfl, by decide +kernel, by decide +kernel, by decide +kernel, by decide, by decide, by decide, cfgOf w9 cfg,
        payable_mk (belongs_sol _ _) (by decide +kernel)⟩,
    fun h => absurd ((C102_harvest_sol_staker r9 (by decide +kernel) (s := solOf w9 sol1)
      (v := { delegatedVote := vote1, withdrawer := staker, effective := 1000 }) (rest := []) rfl (by decide +kernel)
      (by decide +kernel) (by decide +kernel) (by decide) (ix_writes _ _ _ _)).1 h).1 (by decide)⟩

/-- **C102.** InitializeValidatorStake, with the system program in its place, goes through exactly if the accounts are a config,
the signed document of the withdraw authority, and a vote account whose stake account does not exist yet and holds enough
lamports for the rent. -/
theorem C102_initialize_validator (R : Reachable env w) (hi : ix.decoded = some .initializeValidatorStake)
    {ck duna sk vote : Key} {rest : List Key} (hl : ix.ctx.accts = ck :: duna :: sk :: vote :: systemId :: rest)
    (hw : ix.ctx.writable sk = true) :
    (∃ w', exec env o w ix = .ok w') ↔
      sk = .validatorPda vote ck ∧ validatorAt w sk = none ∧ env.rentMin validatorLen ≤ (w sk).lamports ∧
      (w vote).owner = voteId ∧ ∃ c wd b, configAt w ck = some c ∧ (w vote).data = .vote wd ∧
        duna = .dunaPda wd c.dunaHash ∧ (w duna).data = .bytes (1 :: b) := by
  constructor
  · rintro ⟨w', h⟩
    obtain ⟨⟨a0, a1, a2, a3, a4⟩, r, hl', h⟩ := ran_initializeValidatorStake h hi
    rw [hl] at hl'
    simp only [InitializeValidatorStakeAccts.list, List.cons_append, List.nil_append, List.cons.injEq] at hl'
    obtain ⟨rfl, rfl, rfl, rfl, _⟩ := hl'
    obtain ⟨c, wd, h1, h2, h3, h4, ⟨h5, b, h6⟩, h7, h8, h9, h10, _⟩ := initializeValidatorStake_ok h
    refine ⟨h7, ?_, h10, h3, c, wd, b, configAt_eq.2 ⟨h1, h2⟩, h4, h5, h6⟩
    unfold validatorAt
    simp only at h9
    rw [h9, if_neg (by decide)]
  · rintro ⟨rfl, h1, h2, h3, c, wd, b, h4, h5, rfl, h6⟩
    exact live_initValidator (reachable_inv R) hi hl h4 h3 h5 h6 h1 h2 hw

/-- The second validator gets its account; the first one, which has one, does not get it again. -/
example : (∃ w', exec Witness.env o1 w2 ixInitVal2 = .ok w') ∧ ¬ ∃ w', exec Witness.env o1 w2 ixInitVal1 = .ok w' :=
  ⟨(C102_initialize_validator r2 (by decide +kernel) (rest := []) rfl rfl).2
      ⟨by decide +kernel, by decide +kernel, by decide +kernel, by decide +kernel, cfgOf w2 cfg, auth2, [], by decide +kernel,
        by decide +kernel, by decide +kernel, by decide +kernel⟩,
    fun h => absurd ((C102_initialize_validator r2 (by decide +kernel) (rest := []) rfl rfl).1 h).2.1 (by decide +kernel)⟩

/-- **C102.** InitializeSolStakerStake, with the system program in its place, goes through exactly if the native stake is
delegated and has a withdraw authority whose signed document is given, the validator has a stake account with room for the
lamports, and the SOL staker's account does not exist yet and holds enough lamports for the rent. -/
theorem C102_initialize_sol_staker (R : Reachable env w) (hi : ix.decoded = some .initializeSolStakerStake)
    {ck duna sk ov vk native hist vp : Key} {rest : List Key}
    (hl : ix.ctx.accts = ck :: duna :: sk :: ov :: vk :: native :: hist :: systemId :: vp :: rest)
    (hw : ix.Writes [sk, vk]) :
    (∃ w', exec env o w ix = .ok w') ↔
      vp = viewId ∧ sk = .solStakerPda native ck ∧ solStakerAt w sk = none ∧ env.rentMin solStakerLen ≤ (w sk).lamports ∧
      ∃ c v vs b, configAt w ck = some c ∧ o.view native = .ok v ∧ v.delegatedVote ≠ .default ∧ v.withdrawer ≠ .default ∧
        duna = .dunaPda v.withdrawer c.dunaHash ∧ (w duna).data = .bytes (1 :: b) ∧ ov = .overridePda v.withdrawer ck ∧
        vk = .validatorPda v.delegatedVote ck ∧ validatorAt w vk = some vs ∧ vs.total + v.effective < 2 ^ 64 := by
  constructor
  · rintro ⟨w', h⟩
    obtain ⟨⟨a0, a1, a2, a3, a4, a5, a6, a7, a8⟩, r, hl', h⟩ := ran_initializeSolStakerStake h hi
    rw [hl] at hl'
    simp only [InitializeSolStakerStakeAccts.list, List.cons_append, List.nil_append, List.cons.injEq] at hl'
    obtain ⟨rfl, rfl, rfl, rfl, rfl, rfl, rfl, _, rfl, _⟩ := hl'
    obtain ⟨c, v, vs, au, h1, h2, h3, h4, h5, h6, ⟨h7, b, h8⟩, h9, h10, h11, h12, h13, h14, h15, h16, h17, h18, _⟩ :=
      initializeSolStakerStake_ok h
    refine ⟨h3, h12, ?_, h17, c, v, vs, b, configAt_eq.2 ⟨h1, h2⟩, h4, h5, h6, h7, h8, h15, h10, validatorAt_eq.2 ⟨h9, h11⟩,
      h18⟩
    unfold solStakerAt
    simp only at h14
    rw [h14, if_neg (by decide)]
  · rintro ⟨rfl, rfl, h1, h2, c, v, vs, b, h3, h4, h5, h6, rfl, h7, rfl, rfl, h8, h9⟩
    exact live_initSolStaker (reachable_inv R) hi hl h3 h4 h5 h6 h7 h8 h9 h1 h2 hw

/-- The second native stake gets its account; the first one, which has one, does not get it again. -/
example : (∃ w', exec Witness.env o1 w4 ixInitSol2 = .ok w') ∧ ¬ ∃ w', exec Witness.env o1 w4 ixInitSol1 = .ok w' :=
  ⟨(C102_initialize_sol_staker r4 (by decide +kernel) (rest := []) rfl (ix_writes _ _ _ _)).2
      ⟨rfl, by decide +kernel, by decide +kernel, by decide +kernel, cfgOf w4 cfg,
        { delegatedVote := vote1, withdrawer := staker, effective := 1000 }, valOf w4 val1, [], by decide +kernel, rfl,
        by decide +kernel, by decide +kernel, by decide +kernel, by decide +kernel, by decide +kernel, by decide +kernel,
        by decide +kernel, by decide +kernel⟩,
    fun h => absurd ((C102_initialize_sol_staker r4 (by decide +kernel) (rest := []) rfl (ix_writes _ _ _ _)).1 h).2.2.1
      (by decide +kernel)⟩

/-- **C102.** InitializeConfig, with the programs in their places, goes through exactly if the account is a zeroed one of the
right size that belongs to the program and holds enough lamports for the rent, the vault is an empty token account of the mint
that belongs to the vault authority and has no delegate and no close authority, and the limit for unstaking is at most 10000
basis points. -/
theorem C102_initialize_config (R : Reachable env w) {sa ca : List UInt8} {ct bps sync : Nat} {hash : List UInt8}
    (hi : ix.decoded = some (.initializeConfig sa ca ct bps sync hash)) {ck mk va vault hk : Key} {rest : List Key}
    (hl : ix.ctx.accts = ck :: mk :: va :: vault :: hk :: systemId :: rewardsId :: rest) (hw : ix.Writes [ck, va]) :
    (∃ w', exec env o w ix = .ok w') ↔
      va = env.vaultAuth ck ∧ hk = vaultRecord env ck ∧ bps ≤ 10000 ∧ (w ck).owner = progId ∧
      env.rentMin configLen ≤ (w ck).lamports ∧ (mintAt w mk).isSome = true ∧
      (∃ b, (w ck).data = .bytes b ∧ b.length = configLen ∧ b.take 8 = List.replicate 8 0) ∧
      ∃ t, tokenAt w vault = some t ∧ t.owner = va ∧ t.closeAuthority = none ∧ t.delegate = none ∧ t.mint = mk ∧
        t.amount = 0 := by
  constructor
  · rintro ⟨w', h⟩
    obtain ⟨⟨a0, a1, a2, a3, a4, a5, a6⟩, r, hl', h⟩ := ran_initializeConfig h hi
    rw [hl] at hl'
    simp only [InitializeConfigAccts.list, List.cons_append, List.nil_append, List.cons.injEq] at hl'
    obtain ⟨rfl, rfl, rfl, rfl, rfl, _, _, _⟩ := hl'
    obtain ⟨w1, b, t, h1, h2, h3, h4, h5, h6, h7, h8, h9, h10, h11, h12, h13, h14, h15, _⟩ := initializeConfig_ok h
    simp only [initializeConfig, bind_ok, require_ok, exists_unit, unpackMint_ok] at h
    obtain ⟨m, hm, _, _, _, _, hk', _⟩ := h
    simp only at h1 hk' h10
    have hO : (w ck).owner = progId := by
      have hne : ck ≠ va := by rw [h1]; exact vaultAuth_ne ck
      rcases h3 with ⟨_, rfl⟩ | ⟨_, rfl⟩
      · exact h10
      · rw [World.setO_owner, if_neg hne] at h10; exact h10
    subst h1
    exact ⟨rfl, hk', h15, hO, h14, by rw [mintAt_data.2 hm]; rfl, ⟨b, h11, h12, h13⟩, t, tokenAt_data.2 h4, h5, h6, h7, h8,
      h9⟩
  · rintro ⟨rfl, rfl, h1, h2, h3, h4, ⟨b, h5, h6, h7⟩, t, h8, h9, h10, h11, h12, h13⟩
    exact live_initConfig (reachable_inv R) hi hl h4 h8 h9 h10 h11 h12 h13 h2 h5 h6 h7 h3 h1 hw

/-- A limit of 5000 basis points is accepted, one of 10001 is not. -/
example : (∃ w', exec Witness.env o1 w0 ixInitConfig = .ok w') ∧
    ¬ ∃ w', exec Witness.env o1 w0
      (Witness.ix (.initializeConfig (bytes32 151) (bytes32 150) 100 10001 10 Witness.hash)
        [cfg, mint, vaultAuth, vault, holder, systemId, rewardsId] []) = .ok w' :=
  ⟨(C102_initialize_config r0 (sa := bytes32 151) (ca := bytes32 150) (ct := 100) (bps := 5000) (sync := 10)
        (hash := Witness.hash) (by decide +kernel) (rest := []) rfl (ix_writes _ _ _ _)).2
      ⟨by decide +kernel, by decide +kernel, by decide +kernel, by decide +kernel, by decide +kernel, by decide +kernel,
        ⟨List.replicate 192 0, by decide +kernel, by decide +kernel, by decide +kernel⟩, tokOf w0 vault, by decide +kernel,
        by decide +kernel, by decide +kernel, by decide +kernel, by decide +kernel, by decide +kernel⟩,
    fun h => absurd ((C102_initialize_config r0 (sa := bytes32 151) (ca := bytes32 150) (ct := 100) (bps := 10001) (sync := 10)
      (hash := Witness.hash) (by decide +kernel) (rest := []) rfl (ix_writes _ _ _ _)).1 h).2.2.1 (by decide)⟩

end Verif.Props
