import Verif.Lemmas.Live
/-!
# Success of the instructions without token calls
-/

namespace Verif

variable {env : Env} {o : Oracle} {w w' : World} {ix : Ix}

theorem live_setAuthority {t : AuthorityType} (hi : ix.decoded = some (.setAuthority t)) {ck auth new : Key}
    {rest : List Key} (hl : ix.ctx.accts = ck :: auth :: new :: rest) {c : Config} (hc : configAt w ck = some c)
    (hset : auth ≠ .default) (ha : auth = match t with | .config => c.authority | .slash => c.slashAuthority)
    (hs : ix.ctx.signer auth = true) (hw : ix.ctx.writable ck = true) :
    exec env o w ix = .ok (w.setD ck (.config (match t with
      | .config => { c with authority := new }
      | .slash => { c with slashAuthority := new }))) := by
  obtain ⟨hO, hd⟩ := configAt_eq.1 hc
  refine data_only hi ?_ hw
  unfold dispatch
  rw [hl]
  simp only
  cases t <;>
  · simp only at ha
    subst ha
    simp only [setAuthority, bind_ok, require_ok, exists_unit, unpackConfig_ok, setData_ok]
    exact ⟨hs, hO, c, hd, hset, rfl, Or.inr hO, rfl⟩

theorem live_updateConfig {f : ConfigField} (hi : ix.decoded = some (.updateConfig f)) {ck auth : Key}
    {rest : List Key} (hl : ix.ctx.accts = ck :: auth :: rest) {c : Config} (hc : configAt w ck = some c)
    (hset : c.authority ≠ .default) (ha : auth = c.authority)
    (hf : ∀ v, f = .maxDeactivationBasisPoints v → v ≤ 10000)
    (hs : ix.ctx.signer auth = true) (hw : ix.ctx.writable ck = true) :
    exec env o w ix = .ok (w.setD ck (.config (c.updated f))) := by
  obtain ⟨hO, hd⟩ := configAt_eq.1 hc
  refine data_only hi ?_ hw
  unfold dispatch
  rw [hl]
  simp only
  subst ha
  cases f with
  | cooldownTimeSeconds v =>
    simp only [updateConfig, bind_ok, require_ok, exists_unit, unpackConfig_ok, setData_ok]
    exact ⟨hO, c, hd, hset, rfl, hs, Or.inr hO, rfl⟩
  | maxDeactivationBasisPoints v =>
    simp only [updateConfig, bind_ok, require_ok, exists_unit, unpackConfig_ok, setData_ok]
    exact ⟨hO, c, hd, hset, rfl, hs, hf v rfl, Or.inr hO, rfl⟩
  | syncRewardsLamports v =>
    simp only [updateConfig, bind_ok, require_ok, exists_unit, unpackConfig_ok, setData_ok]
    exact ⟨hO, c, hd, hset, rfl, hs, Or.inr hO, rfl⟩

theorem live_syncAuthority (hi : ix.decoded = some .validatorSyncAuthority) {ck vote wd : Key} {rest : List Key}
    (hl : ix.ctx.accts = ck :: .validatorPda vote ck :: vote :: rest) {v : ValidatorStake}
    (hc : (configAt w ck).isSome = true) (hv : validatorAt w (.validatorPda vote ck) = some v)
    (ho : (w vote).owner = voteId) (hd : (w vote).data = .vote wd)
    (hw : ix.ctx.writable (.validatorPda vote ck) = true) :
    exec env o w ix =
      .ok (w.setD (.validatorPda vote ck) (.validator { v with del := { v.del with authority := wd } })) := by
  obtain ⟨c, hc⟩ := Option.isSome_iff_exists.1 hc
  obtain ⟨hO, hcd⟩ := configAt_eq.1 hc
  obtain ⟨hvO, hvd⟩ := validatorAt_eq.1 hv
  refine data_only hi ?_ hw
  unfold dispatch
  rw [hl]
  simp only [validatorSyncAuthority, bind_ok, require_ok, exists_unit, unpackConfig_ok, hvd, unpackVote_ok, setData_ok]
  exact ⟨hO, c, hcd, trivial, wd, ⟨ho, hd⟩, Or.inr hvO, rfl⟩

theorem live_harvestValidator (I : Inv env w) (hi : ix.decoded = some .harvestValidatorRewards) {ck sk : Key}
    {c : Config} {v : ValidatorStake} {rest : List Key}
    (hl : ix.ctx.accts = ck :: vaultRecord env ck :: sk :: v.del.authority :: rest) (hv : validatorAt w sk = some v)
    (P : Payable env w ck sk c v.del) (hw : ix.Writes [ck, sk, v.del.authority]) :
    ∃ w', exec env o w ix = .ok w' := by
  obtain ⟨hcO, hc, hsO, hd, hne⟩ := P.facts
  obtain ⟨w1, hw1⟩ := harvest_live I P
  obtain ⟨c0, d0, h, rs, rh, H⟩ := harvest_ok hw1
  have hcc : c0 = c := by have := H.config; rw [hc] at this; simpa using this.symm
  have hdd : d0 = v.del := by have := H.del; rw [hd] at this; simpa using this.symm
  subst hcc hdd
  refine ⟨w1, settle_exec hi H P.payee (by simp [hl]) (by simp [hl]) hw ?_ (fun k _ => Or.inr (Or.inr (Or.inr rfl)))
    fun k => rfl⟩
  unfold dispatch
  rw [hl]
  simp only [harvestValidatorRewards, bind_ok, require_ok, exists_unit, unpackConfig_ok, unpackValidator_ok]
  exact ⟨hcO, _, hc, hsO, hne, v, (validatorAt_eq.1 hv).2, I.validator_at hv P.belongs, rfl, rfl, hw1⟩

theorem live_override (I : Inv env w) {n : Nat} (hi : ix.decoded = some (.validatorOverrideStakedLamports n)) {ck sk : Key}
    {c : Config} {v : ValidatorStake} {rest : List Key}
    (hl : ix.ctx.accts = ck :: c.authority :: sk :: v.del.authority :: vaultRecord env ck :: rest)
    (hset : c.authority ≠ .default) (hs : ix.ctx.signer c.authority = true)
    (hv : validatorAt w sk = some v) (P : Payable env w ck sk c v.del) (F : Fits c v.del v.del.staked (max v.total n))
    (hw : ix.Writes [ck, sk, v.del.authority]) :
    ∃ w', exec env o w ix = .ok w' := by
  obtain ⟨hcO, hc, hsO, hd, hne⟩ := P.facts
  obtain ⟨w1, hw1⟩ := harvest_live I P
  obtain ⟨c0, d0, h, rs, rh, H⟩ := harvest_ok hw1
  have hcc : c0 = c := by have := H.config; rw [hc] at this; simpa using this.symm
  have hdd : d0 = v.del := by have := H.del; rw [hd] at this; simpa using this.symm
  subst hcc hdd
  have hv1 := (H.validator' (validatorAt_eq.1 hv).2).2
  set v1 : ValidatorStake := { v with del := v.del.marked (accNow c0 (w ck).lamports) h.lastAcc } with e1
  obtain ⟨w2, hw2⟩ := syncEffective_live (w := w1.setD sk (.validator { v1 with min := n })) (ck := ck) (sk := sk)
    (l := v1.total) (lmin := n) (c := c0.settled (w ck).lamports (rs + rh)) (d := v1.del)
    (by simpa [H.owner] using hcO) (by rw [World.setD_data, if_neg (Ne.symm hne)]; exact H.config_data)
    (by simpa [H.owner] using hsO) (by rw [World.setD_data, if_pos rfl]; rfl)
    (show v.del.effective ≤ c0.effTotal from I.effective_le P.config P.stake P.belongs) F.1 F.2
  have hdisp : dispatch env o ix.ctx w (.validatorOverrideStakedLamports n) = .ok w2 := by
    unfold dispatch
    rw [hl]
    simp only [validatorOverrideStakedLamports, bind_ok, require_ok, exists_unit, unpackConfig_ok, unpackValidator_ok,
      setData_ok]
    exact ⟨hcO, _, hc, hset, rfl, hs, hsO, hne, v, (validatorAt_eq.1 hv).2, I.validator_at hv P.belongs, w1, hw1,
      v1, hv1, _, ⟨Or.inr (by rw [H.owner]; exact hsO), rfl⟩, hw2⟩
  obtain ⟨_, _, S⟩ := syncEffective_ok hw2
  refine ⟨w2, settle_exec hi H P.payee (by simp [hl]) (by simp [hl]) hw hdisp (fun k _ => ?_) fun k => by simp [S.lamports]⟩
  by_cases h1 : k = ck
  · exact Or.inr (Or.inl h1)
  by_cases h2 : k = sk
  · exact Or.inr (Or.inr (Or.inl h2))
  · refine Or.inr (Or.inr (Or.inr (account_ext (by simp [S.lamports]) (by simp [S.owner]) ?_)))
    rw [S.data' k h1 h2, World.setD_data, if_neg h2]

end Verif
