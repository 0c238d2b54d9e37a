import Verif.Lemmas.Fields
import Verif.Lemmas.Reward
import Verif.WitnessHistory
/-!
# What instructions write, exactly

C46 (a new config), C47 (changed settings), C48 (the override minimum), C49 (the record of a SOL staker).
-/

namespace Verif.Props

open Verif Verif.Witness

variable {env : Env} {o : Oracle} {w w' : World} {ix : Ix}

/-! ## C46 -/

/-- **C46.** A successful InitializeConfig makes a config out of an account that was none. The config stores exactly the
requested values and the canonical bump of its vault authority; its totals are zero and lamports it already holds are
not distributed later. The vault is an empty token account of the named mint, owned by the vault authority, that nobody else can
close or spend from. Nothing but the config and the owner of the vault authority's address changes. -/
theorem C46_new_config (h : exec env o w ix = .ok w') {slash auth hash : List UInt8} {t b y : Nat}
    (hi : ix.decoded = some (.initializeConfig slash auth t b y hash)) {ck mint vault : Key} (hck : ix.acct 0 = some ck)
    (hmint : ix.acct 1 = some mint) (hvault : ix.acct 3 = some vault) :
    configAt w ck = none ∧ stakeAt w ck = none ∧
    configAt w' ck = some
      { authority := env.keyOfBytes auth
        slashAuthority := env.keyOfBytes slash
        vault := vault
        cooldownTime := t
        effTotal := 0
        lamportsLast := (w' ck).lamports
        acc := 0
        maxBps := b
        dunaHash := hash
        syncRewards := y
        bump := env.vaultBump ck } ∧
    (∃ v, tokenAt w' vault = some v ∧ v.owner = env.vaultAuth ck ∧ v.closeAuthority = none ∧ v.delegate = none ∧
      v.mint = mint ∧ v.amount = 0) ∧
    ix.acct 2 = some (env.vaultAuth ck) ∧ ix.acct 4 = some (.holderRewardsPda (env.vaultAuth ck)) ∧
    (w' (env.vaultAuth ck)).owner = progId ∧ b ≤ 10000 ∧
    (∀ k, (w' k).lamports = (w k).lamports) ∧ (∀ k, k ≠ ck → (w' k).data = (w k).data) ∧
    (∀ k, k ≠ env.vaultAuth ck → (w' k).owner = (w k).owner) := by
  obtain ⟨a, rest, hl, hr⟩ := ran_initializeConfig h hi
  have hc : a.config = ck := by simpa [Ix.acct, hl, InitializeConfigAccts.list] using hck
  have hm : a.mint = mint := by simpa [Ix.acct, hl, InitializeConfigAccts.list] using hmint
  have hv : a.vault = vault := by simpa [Ix.acct, hl, InitializeConfigAccts.list] using hvault
  subst hc hm hv
  have hhold : a.vaultHolderRewards = .holderRewardsPda a.vaultPda := by
    simp only [initializeConfig, bind_ok, require_ok, exists_unit] at hr
    obtain ⟨_, _, _, _, _, _, hh, _⟩ := hr
    exact hh
  obtain ⟨w1, bb, tv, hpda, hempty, hw1, ht, t1, t2, t3, t4, t5, hO, hb, hlen, _, hrent, hbps, hw'⟩ := initializeConfig_ok hr
  have hd1 : ∀ k, (w1 k).data = (w k).data ∧ (w1 k).lamports = (w k).lamports := by
    intro k; rcases hw1 with ⟨_, rfl⟩ | ⟨_, rfl⟩ <;> simp
  have ho1 : ∀ k, k ≠ env.vaultAuth a.config → (w1 k).owner = (w k).owner := by
    intro k hk
    rcases hw1 with ⟨_, rfl⟩ | ⟨_, rfl⟩
    · rfl
    · rw [World.setO_owner, if_neg (by rw [hpda]; exact hk)]
  have hvne : a.vault ≠ a.config := by
    intro e; rw [e, hb] at ht; simp at ht
  have hl' : ∀ k, (w' k).lamports = (w k).lamports := fun k => by rw [hw', World.setD_lamports, (hd1 k).2]
  refine ⟨?_, ?_, ?_, ⟨tv, ?_, t1, t2, t3, t4, t5⟩, ?_, ?_, ?_, hbps, hl', ?_, ?_⟩
  · unfold configAt; rw [hb]; split <;> rfl
  · unfold stakeAt validatorAt solStakerAt; rw [hb]; split <;> simp_all
  · rw [hl']
    exact configAt_eq.2 ⟨by rw [hw', World.setD_owner]; exact hO, by rw [hw', World.setD_data, if_pos rfl]⟩
  · unfold tokenAt
    rw [hw', World.setD_data, if_neg hvne, (hd1 _).1, ht]
  · simp [Ix.acct, hl, InitializeConfigAccts.list, hpda]
  · simp [Ix.acct, hl, InitializeConfigAccts.list, hhold, hpda]
  · rw [hw', World.setD_owner, ← hpda]
    rcases hw1 with ⟨h1, rfl⟩ | ⟨_, rfl⟩
    · exact h1
    · rw [World.setO_owner, if_pos rfl]
  · intro k hk; rw [hw', World.setD_data, if_neg hk, (hd1 k).1]
  · intro k hk; rw [hw', World.setD_owner, ho1 k hk]

example : exec Witness.env o1 w0 ixInitConfig = .ok w1 ∧ configAt w0 cfg = none ∧ (configAt w1 cfg).isSome = true :=
  ⟨by unfold w1; exact ok_after ok0, by decide +kernel⟩

/-! ## C47 -/

/-- **C47.** SetAuthority replaces the one authority it names by the given key (account 2) and changes nothing else, in any
account. -/
theorem C47_set_authority (h : exec env o w ix = .ok w') {t : AuthorityType} (hi : ix.decoded = some (.setAuthority t))
    {ck new : Key} (hck : ix.acct 0 = some ck) (hnew : ix.acct 2 = some new) :
    ∃ c, configAt w ck = some c ∧
      configAt w' ck = some (match t with
        | .config => { c with authority := new }
        | .slash => { c with slashAuthority := new }) ∧
      (∀ k, k ≠ ck → w' k = w k) ∧ (w' ck).lamports = (w ck).lamports := by
  obtain ⟨a, rest, hl, hr⟩ := ran_setAuthority h hi
  have e1 : a.account = ck := by simpa [Ix.acct, hl, SetAuthorityAccts.list] using hck
  have e2 : a.newAuthority = new := by simpa [Ix.acct, hl, SetAuthorityAccts.list] using hnew
  subst e1 e2
  obtain ⟨c, c', _, hO, hc, rfl, ht⟩ := setAuthority_ok hr
  refine ⟨c, configAt_eq.2 ⟨hO, hc⟩, ?_, ?_, by simp⟩
  · have : configAt (w.setD a.account (.config c')) a.account = some c' :=
      configAt_eq.2 ⟨by simpa using hO, by rw [World.setD_data, if_pos rfl]⟩
    rw [this]
    cases t <;> rw [ht.2.2]
  · intro k hk; unfold World.setD; rw [World.set_apply, if_neg hk]

/-- **C47.** UpdateConfig replaces the one setting it names by the given value and changes nothing else, in any account. -/
theorem C47_update_config (h : exec env o w ix = .ok w') {f : ConfigField} (hi : ix.decoded = some (.updateConfig f))
    {ck : Key} (hck : ix.acct 0 = some ck) :
    ∃ c, configAt w ck = some c ∧
      configAt w' ck = some (match f with
        | .cooldownTimeSeconds n => { c with cooldownTime := n }
        | .maxDeactivationBasisPoints n => { c with maxBps := n }
        | .syncRewardsLamports n => { c with syncRewards := n }) ∧
      (∀ k, k ≠ ck → w' k = w k) ∧ (w' ck).lamports = (w ck).lamports := by
  obtain ⟨a, rest, hl, hr⟩ := ran_updateConfig h hi
  have e1 : a.config = ck := by simpa [Ix.acct, hl, UpdateConfigAccts.list] using hck
  subst e1
  obtain ⟨c, hO, hc, _, _, _, _, rfl⟩ := updateConfig_ok hr
  refine ⟨c, configAt_eq.2 ⟨hO, hc⟩, ?_, ?_, by simp⟩
  · have : configAt (w.setD a.config (.config (c.updated f))) a.config = some (c.updated f) :=
      configAt_eq.2 ⟨by simpa using hO, by rw [World.setD_data, if_pos rfl]⟩
    rw [this]
    cases f <;> rfl
  · intro k hk; unfold World.setD; rw [World.set_apply, if_neg hk]

example : exec Witness.env o2 w18 ixUpdate = .ok w19 ∧ ixUpdate.decoded = some (.updateConfig (.cooldownTimeSeconds 200)) ∧
    (configAt w18 cfg).map (·.cooldownTime) = some 100 ∧ (configAt w19 cfg).map (·.cooldownTime) = some 200 :=
  ⟨by unfold w19; exact ok_after ok18, by decide +kernel⟩

example : exec Witness.env o2 w19 ixSetAuthority = .ok w20 ∧ ixSetAuthority.decoded = some (.setAuthority .config) ∧
    (configAt w19 cfg).map (·.authority) = some configAuth ∧ (configAt w20 cfg).map (·.authority) = some .default :=
  ⟨by unfold w20; exact ok_after ok19, by decide +kernel⟩

/-! ## C48 -/

/-- A validator's override minimum. -/
def minOf : Data → Nat
  | .validator v => v.min
  | _ => 0

theorem minOf_sees : SeesIdentity minOf := by
  intro D d d' hd _
  cases D <;> simp_all [Data.del?, Data.setDel, minOf]

theorem minOf_ignores : IgnoresTotal minOf := fun _ _ _ _ => rfl


/-- **C48.** If an instruction changes a validator's override minimum, it is a ValidatorOverrideStakedLamports for that
account, signed by the config's authority, which is set; the new minimum is the requested one. -/
theorem C48_minimum_changes_only_by_override (R : Reachable env w) (O : o.Ok) (h : exec env o w ix = .ok w') {k : Key}
    {v v' : ValidatorStake} (hv : validatorAt w k = some v) (hv' : validatorAt w' k = some v') (hne : v'.min ≠ v.min) :
    ∃ n ck c, ix.decoded = some (.validatorOverrideStakedLamports n) ∧ ix.acct 0 = some ck ∧ ix.acct 2 = some k ∧
      belongs k ck ∧ configAt w ck = some c ∧ c.authority ≠ .default ∧ ix.ctx.signer c.authority = true ∧
      v'.min = n := by
  have I := reachable_inv R
  have hT : Touches (IgnoresTotal minOf) ix k := by
    by_contra hT
    obtain ⟨D', d', h1, _, h2⟩ := exec_keep I O h minOf_sees hT _ _ (st_validator.2 hv) rfl
    rw [st_validator.2 hv'] at h1; cases h1
    exact hne h2
  rcases hT with ⟨n, hi, hk⟩ | ⟨hi, hk | ⟨hT, _⟩⟩ | ⟨hT, _⟩
  · obtain ⟨a, rest, hl, hr⟩ := ran_validatorOverrideStakedLamports h hi
    have e : a.validatorStake = k := by simpa [Ix.acct, hl, ValidatorOverrideStakedLamportsAccts.list] using hk
    subst e
    obtain ⟨c, s, hr, rs, rh, w1, c1, hcO, hsO, hs, hsk, hset, hauth, hsig, H, A⟩ := validatorOverrideStakedLamports_ok hr
    refine ⟨n, a.config, c, hi, by simp [Ix.acct, hl, ValidatorOverrideStakedLamportsAccts.list], hk,
      by rw [hsk]; simp [belongs], configAt_eq.2 ⟨hcO, H.config⟩, hset, by rw [← hauth]; exact hsig, ?_⟩
    have := (validatorAt_eq.1 hv').2
    rw [A.stake'] at this; cases this; rfl
  · obtain ⟨a, keeper, rest, hl, hkr, hr⟩ := ran_harvestSolStakerRewards h hi
    have e : a.solStakerStake = k := by simpa [Ix.acct, hl, HarvestSolStakerRewardsAccts.list] using hk
    subst e
    obtain ⟨s, v, c, hr, rs, rh, w1, B, H⟩ := harvestSolStakerRewards_ok I.wf hr
    have := (validatorAt_eq.1 hv).2
    rw [B.data] at this; cases this
  · exact absurd minOf_ignores hT
  · exact absurd minOf_ignores hT

/-- **C48.** A successful ValidatorOverrideStakedLamports sets the minimum of the named account to the requested amount and
leaves its recorded total, its staked tokens, its cooldown and its authority alone. -/
theorem C48_override_sets_minimum (h : exec env o w ix = .ok w') {n : Nat}
    (hi : ix.decoded = some (.validatorOverrideStakedLamports n)) {k : Key} (hk : ix.acct 2 = some k) :
    ∃ v v', validatorAt w k = some v ∧ validatorAt w' k = some v' ∧ v'.min = n ∧ v'.total = v.total ∧
      v'.del.staked = v.del.staked ∧ v'.del.cooldown = v.del.cooldown ∧ v'.del.authority = v.del.authority ∧
      v'.del.vote = v.del.vote ∧ v'.del.effective = min v.del.staked (13 * max v.total n / 10) := by
  obtain ⟨a, rest, hl, hr⟩ := ran_validatorOverrideStakedLamports h hi
  have e : a.validatorStake = k := by simpa [Ix.acct, hl, ValidatorOverrideStakedLamportsAccts.list] using hk
  subst e
  obtain ⟨c, s, hr, rs, rh, w1, c1, hcO, hsO, hs, hsk, hset, hauth, hsig, H, A⟩ := validatorOverrideStakedLamports_ok hr
  have h' := validatorAt_eq.2 ⟨by rw [A.owner, H.owner]; exact hsO, A.stake'⟩
  exact ⟨s, _, validatorAt_eq.2 ⟨hsO, hs⟩, h', rfl, rfl, rfl, rfl, rfl, rfl, rfl⟩

example : exec Witness.env o2 w16 ixOverride = .ok w17 ∧ ixOverride.decoded = some (.validatorOverrideStakedLamports 5000) ∧
    (validatorAt w16 val1).map (·.min) = some 0 ∧ (validatorAt w17 val1).map (·.min) = some 5000 :=
  ⟨by unfold w17; exact ok_after ok16, by decide +kernel⟩

/-! ## C49 -/

/-- **C49.** After a successful HarvestSolStakerRewards the recorded lamports and vote account of the staker are those the
stake view program reports for its native stake. The exception is a native stake delegated to a validator that has no stake
account: then the record is that of an undelegated stake, no lamports and no vote account. -/
theorem C49_record_follows_native_stake (R : Reachable env w) (h : exec env o w ix = .ok w')
    (hi : ix.decoded = some .harvestSolStakerRewards) {ck sk : Key} (hck : ix.acct 1 = some ck) (hsk : ix.acct 3 = some sk) :
    ∃ s s' v, solStakerAt w sk = some s ∧ solStakerAt w' sk = some s' ∧ o.view s.solStake = .ok v ∧
      s'.solStake = s.solStake ∧
      if v.delegatedVote ≠ .default ∧ validatorAt w (.validatorPda v.delegatedVote ck) = none ∧
          (v.effective ≠ s.lamports ∨ v.delegatedVote ≠ s.del.vote) then
        s'.lamports = 0 ∧ s'.del.vote = .default
      else s'.lamports = v.effective ∧ s'.del.vote = v.delegatedVote := by
  have I := reachable_inv R
  obtain ⟨a, keeper, rest, hl, hkr, hr⟩ := ran_harvestSolStakerRewards h hi
  have hc0 : a.config = ck := by simpa [Ix.acct, hl, HarvestSolStakerRewardsAccts.list] using hck
  have hs0 : a.solStakerStake = sk := by simpa [Ix.acct, hl, HarvestSolStakerRewardsAccts.list] using hsk
  subst hc0 hs0
  obtain ⟨s, v, c, hr, rs, rh, w1, B, H⟩ := harvestSolStakerRewards_ok I.wf hr
  have hview : o.view s.solStake = .ok v := by rw [← B.native]; exact B.view
  cases H with
  | noSync h1 h2 H h =>
    have h' := solStakerAt_eq.2 ⟨by rw [H.owner]; exact B.sO, (H.solStaker' B.data).2⟩
    rw [h]
    refine ⟨s, _, v, solStakerAt_eq.2 ⟨B.sO, B.data⟩, h', hview, rfl, ?_⟩
    rw [if_neg (by rw [h1, h2]; simp)]
    exact ⟨h1.symm, h2.symm⟩
  | @sync kp w2 w3 vote l c1 d1 d2 hn hk H L J hd1 hd2 A =>
    have h' := solStakerAt_eq.2 ⟨by rw [A.owner, J.owner, L.owner, H.owner]; exact B.sO, A.stake'⟩
    refine ⟨s, _, v, solStakerAt_eq.2 ⟨B.sO, B.data⟩, h', hview, rfl, ?_⟩
    have hn' : v.effective ≠ s.lamports ∨ v.delegatedVote ≠ s.del.vote := by
      by_contra hc; push Not at hc; exact hn hc
    simp only [hd2]
    cases J with
    | undelegated hv _ => rw [if_neg (by simp [hv])]; exact ⟨rfl, rfl⟩
    | absent hv hk ho e =>
      have hx : validatorAt w (.validatorPda v.delegatedVote a.config) = none := by
        unfold validatorAt
        rw [if_neg]
        rw [← hk, ← H.owner, ← L.owner]; exact ho
      rw [if_pos ⟨hv, hx, hn'⟩]
      exact ⟨rfl, rfl⟩
    | join hv hk T =>
      rw [if_neg]
      · exact ⟨rfl, rfl⟩
      · rintro ⟨_, hx, _⟩
        have ho := T.owner
        rw [L.owner, H.owner] at ho
        rw [hk] at ho
        obtain ⟨y, hy, _⟩ := I.shape _ ho
        have := validatorAt_eq.2 ⟨ho, hy⟩
        rw [hx] at this; cases this

/-- What is recorded of the native stake. -/
def recordOf : Data → Nat × Key
  | .solStaker s => (s.lamports, s.del.vote)
  | _ => (0, .default)

theorem recordOf_sees : SeesIdentity recordOf := by
  intro D d d' hd hv
  cases D <;> simp_all [Data.del?, Data.setDel, recordOf]

theorem recordOf_ignores : IgnoresTotal recordOf := fun _ _ _ _ => rfl

/-- A validator's recorded total. -/
def totalOf : Data → Nat
  | .validator v => v.total
  | _ => 0

theorem totalOf_sees : SeesIdentity totalOf := by
  intro D d d' hd _
  cases D <;> simp_all [Data.del?, Data.setDel, totalOf]

/-- **C49.** Nothing else changes the recorded lamports or vote account of a SOL staker. -/
theorem C49_record_changes_only_by_harvest (R : Reachable env w) (O : o.Ok) (h : exec env o w ix = .ok w') {k : Key}
    {s s' : SolStakerStake} (hs : solStakerAt w k = some s) (hs' : solStakerAt w' k = some s')
    (hne : s'.lamports ≠ s.lamports ∨ s'.del.vote ≠ s.del.vote) :
    ix.decoded = some .harvestSolStakerRewards ∧ ix.acct 3 = some k := by
  have I := reachable_inv R
  have hT : Touches (IgnoresTotal recordOf) ix k := by
    by_contra hT
    obtain ⟨D', d', h1, _, h2⟩ := exec_keep I O h recordOf_sees hT _ _ (st_solStaker.2 hs) rfl
    rw [st_solStaker.2 hs'] at h1; cases h1
    simp only [recordOf, Prod.mk.injEq] at h2
    rcases hne with e | e
    · exact e h2.1
    · exact e h2.2
  rcases hT with ⟨n, hi, hk⟩ | ⟨hi, hk | ⟨hT, _⟩⟩ | ⟨hT, _⟩
  · obtain ⟨a, rest, hl, hr⟩ := ran_validatorOverrideStakedLamports h hi
    have e : a.validatorStake = k := by simpa [Ix.acct, hl, ValidatorOverrideStakedLamportsAccts.list] using hk
    subst e
    obtain ⟨c, s, hr, rs, rh, w1, c1, hcO, hsO, hd, hsk, hset, hauth, hsig, H, A⟩ := validatorOverrideStakedLamports_ok hr
    have := (solStakerAt_eq.1 hs).2
    rw [hd] at this; cases this
  · exact ⟨hi, hk⟩
  · exact absurd recordOf_ignores hT
  · exact absurd recordOf_ignores hT

/-- **C49.** A validator's recorded total changes only when a SOL staker is initialised on it, or when a SOL staker is
synced away from it or onto it. -/
theorem C49_total_changes_only_by_sync (R : Reachable env w) (O : o.Ok) (h : exec env o w ix = .ok w') {k : Key}
    {v v' : ValidatorStake} (hv : validatorAt w k = some v) (hv' : validatorAt w' k = some v') (hne : v'.total ≠ v.total) :
    (ix.decoded = some .harvestSolStakerRewards ∧ (ix.acct 6 = some k ∨ ix.acct 8 = some k)) ∨
      (ix.decoded = some .initializeSolStakerStake ∧ ix.acct 4 = some k) := by
  have I := reachable_inv R
  have hT : Touches (IgnoresTotal totalOf) ix k := by
    by_contra hT
    obtain ⟨D', d', h1, _, h2⟩ := exec_keep I O h totalOf_sees hT _ _ (st_validator.2 hv) rfl
    rw [st_validator.2 hv'] at h1; cases h1
    exact hne h2
  rcases hT with ⟨n, hi, hk⟩ | ⟨hi, hk | ⟨_, hk⟩⟩ | ⟨_, hk⟩
  · obtain ⟨va, vb, e1, e2, _, e3, _⟩ := C48_override_sets_minimum h hi hk
    rw [hv] at e1; rw [hv'] at e2; cases e1; cases e2
    exact absurd e3 hne
  · obtain ⟨a, keeper, rest, hl, hkr, hr⟩ := ran_harvestSolStakerRewards h hi
    have e : a.solStakerStake = k := by simpa [Ix.acct, hl, HarvestSolStakerRewardsAccts.list] using hk
    subst e
    obtain ⟨s, v, c, hr, rs, rh, w1, B, H⟩ := harvestSolStakerRewards_ok I.wf hr
    have := (validatorAt_eq.1 hv).2
    rw [B.data] at this; cases this
  · exact Or.inl ⟨hi, hk⟩
  · exact Or.inr hk

/-- The witness history's second harvest: the stake moves from the first validator to the second. -/
example : exec Witness.env o2 w10 ixHarvestSol1 = .ok w11 ∧ (solStakerAt w10 sol1).map (·.del.vote) = some vote1 ∧
    (solStakerAt w11 sol1).map (·.del.vote) = some vote2 ∧ (solStakerAt w11 sol1).map (·.lamports) = some 3000 :=
  ⟨by unfold w11; exact ok_after ok10, by decide +kernel⟩

end Verif.Props
