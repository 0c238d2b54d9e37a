import Verif.Lemmas.Token
/-!
# Inversion of the handlers: success as a chain of building blocks
-/

namespace Verif

variable {env : Env} {o : Oracle} {ctx : Ctx} {w w' : World}

/-- A delegation after settlement: the markers move. -/
def Delegation.marked (d : Delegation) (acc hacc : Nat) : Delegation := { d with lastStake := acc, lastHolder := hacc }

/-- The effective amount for a staked amount and a lamports figure. -/
def effFor (staked lamports : Nat) : Nat := min staked (cap lamports)

/-- A delegation with a new staked amount (and cooldown) whose effective amount is recomputed for `lamports`. -/
def Delegation.restaked (d : Delegation) (staked cooldown lamports : Nat) : Delegation :=
  { d with staked := staked, cooldown := cooldown, effective := effFor staked lamports }

theorem Harvested.validator' {ck hk auth va sk : Key} {keeper : Option Key} {c : Config} {d : Delegation}
    {h : HolderRewards} {rs rh : Nat} (H : Harvested env w w' ck hk auth va sk keeper c d h rs rh)
    {v : ValidatorStake} (hv : (w sk).data = .validator v) :
    d = v.del ∧ (w' sk).data = .validator { v with del := v.del.marked (accNow c (w ck).lamports) h.lastAcc } := by
  have h1 := H.del
  have h2 := H.stake'
  rw [hv] at h1 h2
  simp only [Data.del?, Option.some.injEq] at h1
  subst h1
  exact ⟨rfl, h2⟩

theorem Harvested.solStaker' {ck hk auth va sk : Key} {keeper : Option Key} {c : Config} {d : Delegation}
    {h : HolderRewards} {rs rh : Nat} (H : Harvested env w w' ck hk auth va sk keeper c d h rs rh)
    {v : SolStakerStake} (hv : (w sk).data = .solStaker v) :
    d = v.del ∧ (w' sk).data = .solStaker { v with del := v.del.marked (accNow c (w ck).lamports) h.lastAcc } := by
  have h1 := H.del
  have h2 := H.stake'
  rw [hv] at h1 h2
  simp only [Data.del?, Option.some.injEq] at h1
  subst h1
  exact ⟨rfl, h2⟩

theorem Harvested.ne {ck hk auth va sk : Key} {keeper : Option Key} {c : Config} {d : Delegation}
    {h : HolderRewards} {rs rh : Nat} (H : Harvested env w w' ck hk auth va sk keeper c d h rs rh) : sk ≠ ck := by
  rintro rfl
  have := H.del
  rw [H.config] at this; simp [Data.del?] at this

theorem Harvested.del' {ck hk auth va sk : Key} {keeper : Option Key} {c : Config} {d : Delegation}
    {h : HolderRewards} {rs rh : Nat} (H : Harvested env w w' ck hk auth va sk keeper c d h rs rh) :
    (w' sk).data.del? = some (d.marked (accNow c (w ck).lamports) h.lastAcc) := by
  rw [H.stake']; exact del?_setDel H.del

/-- The config after a settlement. -/
def Config.settled (c : Config) (lamports paid : Nat) : Config :=
  { c with acc := accNow c lamports, lamportsLast := lamports - paid }

theorem Harvested.config_data {ck hk auth va sk : Key} {keeper : Option Key} {c : Config} {d : Delegation}
    {h : HolderRewards} {rs rh : Nat} (H : Harvested env w w' ck hk auth va sk keeper c d h rs rh) :
    (w' ck).data = .config (c.settled (w ck).lamports (rs + rh)) := H.config'

/-! ## Staking -/

/-- What a successful stake instruction establishes; `D'` is the stake account's final data. -/
structure StakedOk (env : Env) (o : Oracle) (ctx : Ctx) (w w' : World) (a : StakeTokensAccts) (amount : Nat)
    (c : Config) (d : Delegation) (hr : HolderRewards) (rs rh : Nat) (w1 w2 w3 : World) (D' : Data) (c1 : Config)
    (d1 d2 : Delegation) (ts td : TokenAccount) : Prop where
  cO : (w a.config).owner = progId
  sO : (w a.stake).owner = progId
  bel : belongs a.stake a.config
  harv : Harvested env w w1 a.config a.vaultHolderRewards a.stakeAuthority (env.vaultAuth a.config) a.stake none
    c d hr rs rh
  vaultPda : a.vaultPda = env.vaultAuth a.config
  vault : a.vault = c.vault
  pos : 0 < amount
  lt : d.staked + amount < U64
  adj : Adjusted w1 w2 a.config a.stake D' c1 d1 d2
  d1_eq : d1 = d.marked (accNow c (w a.config).lamports) hr.lastAcc
  staked : d2.staked = d.staked + amount
  rest : d2 = { d1 with staked := d2.staked, effective := d2.effective }
  transfer : Transferred ctx w2 w3 a.sourceTokenAccount a.mint a.vault a.sourceTokenAccountAuthority
    (ctx.signer a.sourceTokenAccountAuthority) amount ts td
  deposit : o.deposit w3 (a.call amount) = .ok w'
  out1 : callOut w w2 [a.config, a.stake] a.toToken = .ok ()
  out2 : callOut (w.known w3 a.toToken) w3 [a.config, a.stake] a.toRewards = .ok ()

/-- The checks of a call look only at lamports. -/
theorem callOut_congr {view v1 v2 : World} {held passed : List Key} (h : ∀ k, (v2 k).lamports = (v1 k).lamports) :
    callOut view v2 held passed = callOut view v1 held passed := by
  have : lamportSum v2 passed = lamportSum v1 passed := by simp only [lamportSum, h]
  simp only [callOut, this]

theorem validatorStakeTokens_ok {a : StakeTokensAccts} {amount : Nat}
    (h : validatorStakeTokens env o ctx w a amount = .ok w') :
    ∃ c s hr rs rh w1 w2 w3 c1 ts td,
      (w a.stake).data = .validator s ∧ a.stake = .validatorPda s.del.vote a.config ∧
      let d1 := s.del.marked (accNow c (w a.config).lamports) hr.lastAcc
      let d2 := d1.restaked (s.del.staked + amount) d1.cooldown (max s.total s.min)
      StakedOk env o ctx w w' a amount c s.del hr rs rh w1 w2 w3 (.validator { s with del := d2 }) c1 d1 d2 ts td := by
  simp only [validatorStakeTokens, bind_ok, require_ok, exists_unit, unpackConfig_ok, unpackValidator_ok,
    unpackToken_ok, unpackMint_ok, readDel_ok, addU64_ok, writeDel, setData_ok] at h
  obtain ⟨hcO, c, hc, hsO, _, s, hs, hsk, w1, hw1, hpda, hvault, _, tv, htv, hmint, _, m, hm, hpos, d, hd, _, ⟨hlt, rfl⟩,
    wx, ⟨_, rfl⟩, w2, hw2, ho1, w3, hw3, ho2, hdep⟩ := h
  obtain ⟨c0, d0, hr, rs, rh, H⟩ := harvest_ok hw1
  obtain ⟨c1, d2, S⟩ := syncEffective_ok hw2
  obtain ⟨ts, td, T⟩ := tokenTransfer_ok hw3
  obtain ⟨rfl, hv'⟩ := H.validator' hs
  have hcc : c0 = c := by have := H.config; rw [hc] at this; simpa using this.symm
  subst hcc
  rw [hv'] at hd
  simp only [Data.del?, Option.some.injEq] at hd
  subst hd
  have A := adjusted_of_synced S H.ne H.del' (del?_setDel H.del') rfl
  refine ⟨c0, s, hr, rs, rh, w1, w2, w3, c1, ts, td, hs, hsk, ?_⟩
  refine ⟨hcO, hsO, hsk ▸ (by simp [belongs]), H, hpda, hvault, hpos, hlt, ?_, rfl, rfl, rfl, T, hdep, ho1, ho2⟩
  rw [hv'] at A
  exact A

theorem solStakerStakeTokens_ok {a : StakeTokensAccts} {amount : Nat}
    (h : solStakerStakeTokens env o ctx w a amount = .ok w') :
    ∃ c s hr rs rh w1 w2 w3 c1 ts td,
      (w a.stake).data = .solStaker s ∧ a.stake = .solStakerPda s.solStake a.config ∧
      let d1 := s.del.marked (accNow c (w a.config).lamports) hr.lastAcc
      let d2 := d1.restaked (s.del.staked + amount) d1.cooldown s.lamports
      StakedOk env o ctx w w' a amount c s.del hr rs rh w1 w2 w3 (.solStaker { s with del := d2 }) c1 d1 d2 ts td := by
  simp only [solStakerStakeTokens, bind_ok, require_ok, exists_unit, unpackConfig_ok, unpackSolStaker_ok,
    unpackToken_ok, unpackMint_ok, readDel_ok, addU64_ok, writeDel, setData_ok] at h
  obtain ⟨hcO, c, hc, hsO, _, s, hs, hsk, w1, hw1, hpda, hvault, _, tv, htv, _, hmint, _, m, hm, hpos, d, hd, _, ⟨hlt, rfl⟩,
    wx, ⟨_, rfl⟩, w2, hw2, ho1, w3, hw3, ho2, hdep⟩ := h
  obtain ⟨c0, d0, hr, rs, rh, H⟩ := harvest_ok hw1
  obtain ⟨c1, d2, S⟩ := syncEffective_ok hw2
  obtain ⟨ts, td, T⟩ := tokenTransfer_ok hw3
  obtain ⟨rfl, hv'⟩ := H.solStaker' hs
  have hcc : c0 = c := by have := H.config; rw [hc] at this; simpa using this.symm
  subst hcc
  rw [hv'] at hd
  simp only [Data.del?, Option.some.injEq] at hd
  subst hd
  have A := adjusted_of_synced S H.ne H.del' (del?_setDel H.del') rfl
  refine ⟨c0, s, hr, rs, rh, w1, w2, w3, c1, ts, td, hs, hsk, ?_⟩
  refine ⟨hcO, hsO, hsk ▸ (by simp [belongs]), H, hpda, hvault, hpos, hlt, ?_, rfl, rfl, rfl, T, hdep, ho1, ho2⟩
  rw [hv'] at A
  rw [Nat.max_zero] at A
  exact A

/-! ## Harvesting -/

theorem harvestValidatorRewards_ok {a : HarvestValidatorRewardsAccts}
    (h : harvestValidatorRewards env w a = .ok w') :
    ∃ c s hr rs rh, (w a.config).owner = progId ∧ (w a.validatorStake).owner = progId ∧
      (w a.validatorStake).data = .validator s ∧ a.validatorStake = .validatorPda s.del.vote a.config ∧
      Harvested env w w' a.config a.vaultHolderRewards a.validatorStakeAuthority (env.vaultAuth a.config)
        a.validatorStake none c s.del hr rs rh := by
  simp only [harvestValidatorRewards, bind_ok, require_ok, exists_unit, unpackConfig_ok, unpackValidator_ok] at h
  obtain ⟨hcO, c, hc, hsO, _, s, hs, hsk, _, _, hw1⟩ := h
  obtain ⟨c0, d0, hr, rs, rh, H⟩ := harvest_ok hw1
  obtain ⟨rfl, hv'⟩ := H.validator' hs
  exact ⟨c0, s, hr, rs, rh, hcO, hsO, hs, hsk, H⟩

theorem harvestHolderRewards_ok {a : HarvestHolderRewardsAccts} (h : harvestHolderRewards env o w a = .ok w') :
    ∃ c w1 w2 c2 call, (w a.config).owner = progId ∧ (w a.config).data = .config c ∧
      a.vault = c.vault ∧ env.offCurve a.config c.bump = true ∧ a.vaultPda = .vaultPda a.config c.bump ∧
      (w a.vaultHolderRewards).owner = rewardsId ∧ a.vaultHolderRewards = .holderRewardsPda a.vaultPda ∧
      c.lamportsLast ≤ (w a.config).lamports ∧
      w1 = w.setD a.config (.config (c.settled (w a.config).lamports 0)) ∧
      o.harvestRewards w1 call = .ok w2 ∧ call.owner = a.vaultPda ∧ call.holderRewards = a.vaultHolderRewards ∧
      (w2 a.config).data = .config c2 ∧
      env.rentMin (w2 a.vaultPda).data.len ≤ (w2 a.vaultPda).lamports ∧
      ((w2 a.vaultPda).owner = progId ∨ (w2 a.vaultPda).lamports = env.rentMin (w2 a.vaultPda).data.len) ∧
      (∀ k, (w' k).owner = (w2 k).owner) ∧
      (w' a.config).data = .config { c2 with lamportsLast := (w' a.config).lamports } ∧
      (∀ k, k ≠ a.config → (w' k).data = (w2 k).data) ∧
      (∀ k, (w' k).lamports =
        if k = a.config then
          (w2 a.config).lamports + ((w2 a.vaultPda).lamports - env.rentMin (w2 a.vaultPda).data.len)
        else if k = a.vaultPda then env.rentMin (w2 a.vaultPda).data.len
        else (w2 k).lamports) ∧
      (w2 a.vaultPda).lamports + (w2 a.config).lamports < U64 := by
  simp only [harvestHolderRewards, bind_ok, require_ok, exists_unit, unpackConfig_ok, unpackToken_ok,
    createVaultPda_ok, setData_ok, transferExcess, setLamports_ok] at h
  obtain ⟨hcO, c, hc, hvault, _, tv, htv, _, vs, ⟨hcurve, rfl⟩, hpda, hhO, hhk, c1, hc1, w1, ⟨_, rfl⟩, w2, hw2, w4,
    ⟨hrent, hsup, w3, ⟨hown, rfl⟩, _, rfl⟩, c2, hc2, _, rfl⟩ := h
  obtain ⟨hlast, rfl⟩ := syncConfigLamports_ok hc1
  simp only [World.setL_data] at hc2
  have hne : a.config ≠ a.vaultPda := by
    rw [hpda]; intro e
    have := congrArg sizeOf e
    simp at this
    omega
  have hsub : (w2 a.vaultPda).lamports - ((w2 a.vaultPda).lamports - env.rentMin (w2 a.vaultPda).data.len) =
      env.rentMin (w2 a.vaultPda).data.len := by omega
  refine ⟨c, _, w2, c2, _, hcO, hc, hvault, hcurve, hpda, hhO, hhk, hlast, rfl, hw2, rfl, rfl, hc2, hrent, ?_, ?_, ?_,
    ?_, ?_, hsup.resolve_left (Ne.symm hne)⟩
  · rcases hown with h | h
    · right; omega
    · exact Or.inl h
  · intro k; simp
  · simp [World.setD_data]
  · intro k hk; simp [World.setD_data, hk]
  · intro k
    have hsup := hsup.resolve_left (Ne.symm hne)
    have hmod := Nat.mod_eq_of_lt (show (w2 a.config).lamports +
      ((w2 a.vaultPda).lamports - env.rentMin (w2 a.vaultPda).data.len) < U64 by omega)
    simp only [World.setD_lamports, World.setL_lamports, hsub, hne, if_false, hmod]

/-! ## Slashing -/

/-- What a successful slash establishes. -/
structure SlashedOk (env : Env) (ctx : Ctx) (w w' : World) (a : SlashAccts) (amount : Nat)
    (c : Config) (d : Delegation) (hr : HolderRewards) (rs rh : Nat) (w1 w2 : World) (D' : Data) (c1 : Config)
    (d1 d2 : Delegation) : Prop where
  cO : (w a.config).owner = progId
  sO : (w a.stake).owner = progId
  bel : belongs a.stake a.config
  curve : env.offCurve a.config c.bump = true
  vaultAuth : a.vaultAuthority = .vaultPda a.config c.bump
  harv : Harvested env w w1 a.config a.vaultHolderRewards a.stakeAuthority a.vaultAuthority a.stake none
    c d hr rs rh
  set : c.slashAuthority ≠ .default
  auth : a.slashAuthority = c.slashAuthority
  signer : ctx.signer a.slashAuthority = true
  vault : a.vault = c.vault
  pos : 0 < amount
  burn : (min amount d.staked = 0 ∧ w2 = w1) ∨
    (0 < min amount d.staked ∧ ∃ t m, Burned ctx w1 w2 a.vault a.mint a.vaultAuthority (min amount d.staked) t m)
  vaultMint : ∃ t, (w1 a.vault).data = .token t ∧ t.mint = a.mint
  adj : Adjusted w2 w' a.config a.stake D' c1 d1 d2
  d1_eq : d1 = d.marked (accNow c (w a.config).lamports) hr.lastAcc
  staked : d2.staked = d.staked - min amount d.staked
  rest : d2 = { d1 with staked := d2.staked, effective := d2.effective }
  out : 0 < min amount d.staked → callOut w w1 [a.config, a.stake] [a.vault, a.mint, a.vaultAuthority] = .ok ()

theorem World.setD_setD_same (w : World) (k : Key) (d d' : Data) : (w.setD k d).setD k d' = w.setD k d' := by
  funext k'
  simp only [World.setD, World.set_apply]
  split_ifs with h
  · simp
  · rfl

theorem World.setD_comm (w : World) {k k' : Key} (h : k ≠ k') (d d' : Data) :
    (w.setD k d).setD k' d' = (w.setD k' d').setD k d := by
  funext x
  simp only [World.setD, World.set_apply]
  by_cases h1 : x = k
  · subst h1; simp [h]
  · by_cases h2 : x = k'
    · subst h2; simp [Ne.symm h]
    · simp [h1, h2]

theorem World.setD_self (w : World) (k : Key) : w.setD k (w k).data = w := by
  funext x
  simp only [World.setD, World.set_apply]
  split_ifs with h
  · subst h; rfl
  · rfl

/-- Slashing in the order of the code (write, burn) is the same as burning first and then writing. -/
theorem slashDelegation_ok {view : World} {ck sk mintK vaultK vaK tpK : Key} {amount : Nat} {d : Delegation}
    (hd : (w sk).data.del? = some d) (h : slashDelegation ctx view w ck sk mintK vaultK vaK tpK amount = .ok w') :
    0 < amount ∧ ∃ wb, w' = wb.setD sk ((w sk).data.setDel { d with staked := d.staked - min amount d.staked }) ∧
      wb sk = w sk ∧
      ((min amount d.staked = 0 ∧ wb = w) ∨
        (0 < min amount d.staked ∧ ∃ t m, Burned ctx w wb vaultK mintK vaK (min amount d.staked) t m)) ∧
      (0 < min amount d.staked → callOut view w [ck, sk] [vaultK, mintK, vaK] = .ok ()) := by
  simp only [slashDelegation, bind_ok, require_ok, exists_unit, readDel_ok, subU64_ok, writeDel, setData_ok, ite_ok,
    unpackMint_ok, pure_ok] at h
  obtain ⟨_, hpos, d', hd', _, ⟨_, rfl⟩, w1, ⟨_, rfl⟩, h⟩ := h
  rw [hd] at hd'; cases hd'
  refine ⟨hpos, ?_⟩
  rcases h with ⟨hp, _, m, hm, ho, hb⟩ | ⟨hp, h⟩
  · rw [callOut_congr fun k => World.setD_lamports ..] at ho
    obtain ⟨t, m', B⟩ := tokenBurn_ok hb
    have hv : vaultK ≠ sk := by
      rintro rfl
      have := B.acct
      simp only [World.setD_data, if_true] at this
      have h2 := del?_setDel (x := { d with staked := d.staked - min amount d.staked }) hd
      rw [this] at h2; simp [Data.del?] at h2
    have hmk : mintK ≠ sk := by
      rintro rfl
      have := B.mintD
      simp only [World.setD_data, if_true] at this
      have h2 := del?_setDel (x := { d with staked := d.staked - min amount d.staked }) hd
      rw [this] at h2; simp [Data.del?] at h2
    refine ⟨(w.setD vaultK (.token (spend t vaK (min amount d.staked)))).setD mintK
      (.mint { m' with supply := m'.supply - min amount d.staked }), ?_, ?_, Or.inr ⟨hp, t, m', ?_⟩, fun _ => ho⟩
    · rw [B.eq, World.setD_comm w (Ne.symm hv), World.setD_comm _ (Ne.symm hmk)]
    · simp [World.setD, World.set_apply, Ne.symm hv, Ne.symm hmk]
    · have h1 := B.acct; have h2 := B.mintD; have h3 := B.acctO; have h4 := B.mintO
      simp only [World.setD_data, hv, hmk, if_false, World.setD_owner] at h1 h2 h3 h4
      exact ⟨h1, h2, h3, h4, B.mint_eq, B.le, B.supply, B.auth, B.thawed, rfl⟩
  · exact ⟨w, h.symm, rfl, Or.inl ⟨by omega, rfl⟩, fun h => absurd h hp⟩

theorem slashValidatorStake_ok {a : SlashAccts} {amount : Nat}
    (h : slashValidatorStake env ctx w a amount = .ok w') :
    ∃ c s hr rs rh w1 w2 c1,
      (w a.stake).data = .validator s ∧ a.stake = .validatorPda s.del.vote a.config ∧
      let d1 := s.del.marked (accNow c (w a.config).lamports) hr.lastAcc
      let d2 := d1.restaked (s.del.staked - min amount s.del.staked) d1.cooldown (max s.total s.min)
      SlashedOk env ctx w w' a amount c s.del hr rs rh w1 w2 (.validator { s with del := d2 }) c1 d1 d2 := by
  simp only [slashValidatorStake, bind_ok, require_ok, exists_unit, unpackConfig_ok, unpackValidator_ok,
    unpackToken_ok, createVaultPda_ok] at h
  obtain ⟨hcO, c, hc, hsO, _, s, hs, hsk, _, ⟨hcurve, rfl⟩, hva, w1, hw1, hset, hauth, hsig, hvault, _, tv, htv, hmint,
    wx, hwx, hw'⟩ := h
  obtain ⟨c0, d0, hr, rs, rh, H⟩ := harvest_ok hw1
  obtain ⟨rfl, hv'⟩ := H.validator' hs
  have hcc : c0 = c := by have := H.config; rw [hc] at this; simpa using this.symm
  subst hcc
  obtain ⟨hpos, wb, rfl, hwb, hburn, hout⟩ := slashDelegation_ok H.del' hwx
  obtain ⟨c1, d2, S⟩ := syncEffective_ok hw'
  have hdb := H.del'
  rw [← hwb] at hdb
  have A := adjusted_of_synced S H.ne hdb (del?_setDel H.del') rfl
  refine ⟨c0, s, hr, rs, rh, w1, wb, c1, hs, hsk, ?_⟩
  refine ⟨hcO, hsO, hsk ▸ (by simp [belongs]), hcurve, hva, H, hset, hauth, hsig, hvault, hpos, hburn, ⟨tv, htv, hmint⟩,
    ?_, rfl, rfl, rfl, hout⟩
  rw [hv'] at A
  exact A

theorem slashSolStakerStake_ok {a : SlashAccts} {amount : Nat}
    (h : slashSolStakerStake env ctx w a amount = .ok w') :
    ∃ c s hr rs rh w1 w2 c1,
      (w a.stake).data = .solStaker s ∧ a.stake = .solStakerPda s.solStake a.config ∧
      let d1 := s.del.marked (accNow c (w a.config).lamports) hr.lastAcc
      let d2 := d1.restaked (s.del.staked - min amount s.del.staked) d1.cooldown s.lamports
      SlashedOk env ctx w w' a amount c s.del hr rs rh w1 w2 (.solStaker { s with del := d2 }) c1 d1 d2 := by
  simp only [slashSolStakerStake, bind_ok, require_ok, exists_unit, unpackConfig_ok, unpackSolStaker_ok,
    unpackToken_ok, createVaultPda_ok] at h
  obtain ⟨hcO, c, hc, hsO, _, s, hs, hsk, _, ⟨hcurve, rfl⟩, hva, w1, hw1, hset, hauth, hsig, hvault, _, tv, htv, hmint,
    wx, hwx, hw'⟩ := h
  obtain ⟨c0, d0, hr, rs, rh, H⟩ := harvest_ok hw1
  obtain ⟨rfl, hv'⟩ := H.solStaker' hs
  have hcc : c0 = c := by have := H.config; rw [hc] at this; simpa using this.symm
  subst hcc
  obtain ⟨hpos, wb, rfl, hwb, hburn, hout⟩ := slashDelegation_ok H.del' hwx
  obtain ⟨c1, d2, S⟩ := syncEffective_ok hw'
  have hdb := H.del'
  rw [← hwb] at hdb
  have A := adjusted_of_synced S H.ne hdb (del?_setDel H.del') rfl
  refine ⟨c0, s, hr, rs, rh, w1, wb, c1, hs, hsk, ?_⟩
  refine ⟨hcO, hsO, hsk ▸ (by simp [belongs]), hcurve, hva, H, hset, hauth, hsig, hvault, hpos, hburn, ⟨tv, htv, hmint⟩,
    ?_, rfl, rfl, rfl, hout⟩
  rw [hv'] at A
  rw [Nat.max_zero] at A
  exact A

/-! ## Unstaking -/

/-- What a successful unstake establishes. -/
structure UnstakedOk (env : Env) (o : Oracle) (ctx : Ctx) (w w' : World) (a : UnstakeTokensAccts) (amount : Nat)
    (c : Config) (d : Delegation) (hr : HolderRewards) (rs rh : Nat) (w1 w2 w3 : World) (D' : Data) (c1 : Config)
    (d1 d2 : Delegation) (call : RewardsCall) (ts td : TokenAccount) : Prop where
  cO : (w a.config).owner = progId
  sO : (w a.stake).owner = progId
  bel : belongs a.stake a.config
  vault : a.vault = c.vault
  vaultPda : a.vaultPda = env.vaultAuth a.config
  dest : a.vault ≠ a.destinationTokenAccount
  signer : ctx.signer a.stakeAuthority = true
  harv : Harvested env w w1 a.config a.vaultHolderRewards a.stakeAuthority (env.vaultAuth a.config) a.stake none
    c d hr rs rh
  cooldown : d.cooldown ≤ o.now
  le : amount ≤ d.staked
  limit : amount ≤ d.staked * c.maxBps / maxBasisPoints
  adj : Adjusted w1 w2 a.config a.stake D' c1 d1 d2
  d1_eq : d1 = d.marked (accNow c (w a.config).lamports) hr.lastAcc
  staked : d2.staked = d.staked - amount
  cooldown' : d2.cooldown = satAdd o.now c.cooldownTime
  rest : d2 = { d1 with staked := d2.staked, effective := d2.effective, cooldown := d2.cooldown }
  withdraw : o.withdraw w2 call = .ok w3
  call_owner : call.owner = a.vaultPda
  call_holder : call.holderRewards = a.vaultHolderRewards
  call_token : call.token = a.vault
  call_pool : call.poolToken = a.holderRewardsPoolTokenAccount
  call_amount : call.amount = amount
  call_eq : call = a.call amount
  transfer : Transferred ctx w3 w' a.vault a.mint a.destinationTokenAccount a.vaultPda true amount ts td
  out1 : callOut w w2 [a.config, a.stake] a.toRewards = .ok ()
  out2 : callOut (w.known w3 a.toRewards) w3 [a.config, a.stake] a.toToken = .ok ()

theorem unstakeView_ok {sk ck k : Key} {l lmin : Nat} (h : unstakeView w sk ck = .ok (k, l, lmin)) :
    (∃ s, (w sk).data = .validator s ∧ k = .validatorPda s.del.vote ck ∧ l = s.total ∧ lmin = s.min) ∨
    (∃ s, (w sk).data = .solStaker s ∧ k = .solStakerPda s.solStake ck ∧ l = s.lamports ∧ lmin = 0) := by
  simp only [unstakeView, ite_ok, bind_ok, unpackValidator_ok, unpackSolStaker_ok, pure_ok, Prod.mk.injEq,
    error_ok, and_false, or_false] at h
  rcases h with ⟨_, s, hs, rfl, rfl, rfl⟩ | ⟨_, _, s, hs, rfl, rfl, rfl⟩
  · exact Or.inl ⟨s, hs, rfl, rfl, rfl⟩
  · exact Or.inr ⟨s, hs, rfl, rfl, rfl⟩

theorem unstakeTokens_ok {a : UnstakeTokensAccts} {amount : Nat} (h : unstakeTokens env o ctx w a amount = .ok w') :
    ∃ c d hr rs rh w1 w2 w3 c1 D' call ts td lam,
      let d1 := d.marked (accNow c (w a.config).lamports) hr.lastAcc
      let d2 := d1.restaked (d.staked - amount) (satAdd o.now c.cooldownTime) lam
      UnstakedOk env o ctx w w' a amount c d hr rs rh w1 w2 w3 D' c1 d1 d2 call ts td ∧
      ((∃ s, (w a.stake).data = .validator s ∧ a.stake = .validatorPda s.del.vote a.config ∧ d = s.del ∧
          lam = max s.total s.min ∧ D' = .validator { s with del := d2 }) ∨
        (∃ s, (w a.stake).data = .solStaker s ∧ a.stake = .solStakerPda s.solStake a.config ∧ d = s.del ∧
          lam = s.lamports ∧ D' = .solStaker { s with del := d2 })) := by
  simp only [unstakeTokens, bind_ok, require_ok, exists_unit, unpackConfig_ok, unpackToken_ok, unpackMint_ok,
    readDel_ok, subU64_ok, writeDel, setData_ok, mulDivU64_ok, Prod.exists] at h
  obtain ⟨hcO, c, hc, hvault, hdest, _, tv, htv, hpda, hsO, _, k, l, lmin, hview, hsk, d, hd, hsig, hauth, hmint, _, m, hm, w1, hw1,
    d', hd', hcool, hle, _, ⟨_, rfl⟩, hlim, _, ⟨_, rfl⟩, wx, ⟨_, rfl⟩, w2, hw2, ho1, w3, hw3, ho2, hw'⟩ := h
  obtain ⟨c0, d0, hr, rs, rh, H⟩ := harvest_ok hw1
  obtain ⟨c1, d2, S⟩ := syncEffective_ok hw2
  obtain ⟨ts, td, T⟩ := tokenTransfer_ok hw'
  have hcc : c0 = c := by have := H.config; rw [hc] at this; simpa using this.symm
  subst hcc
  have hdd : d0 = d := by have := H.del; rw [hd] at this; simpa using this.symm
  subst hdd
  have hd'' := H.stake'
  rw [hd''] at hd'
  have : d' = d0.marked (accNow c0 (w a.config).lamports) hr.lastAcc := by
    rw [del?_setDel hd] at hd'; exact (Option.some.inj hd').symm
  subst this
  have A := adjusted_of_synced S H.ne H.del' (del?_setDel H.del') rfl
  have hbel : belongs a.stake a.config := by
    rw [hsk]; rcases unstakeView_ok hview with ⟨s, _, rfl, _⟩ | ⟨s, _, rfl, _⟩ <;> simp [belongs]
  rcases unstakeView_ok hview with ⟨s, hs, rfl, rfl, rfl⟩ | ⟨s, hs, rfl, rfl, rfl⟩
  · obtain ⟨rfl, hv'⟩ := H.validator' hs
    rw [hv'] at A
    exact ⟨c0, s.del, hr, rs, rh, w1, w2, w3, c1, _, a.call amount, ts, td, _,
      ⟨hcO, hsO, hbel, hvault, hpda, hdest, hsig, H, hcool, hle, hlim, A, rfl, rfl, rfl, rfl, hw3, rfl, rfl, rfl, rfl, rfl, rfl, T,
        ho1, ho2⟩,
      Or.inl ⟨s, hs, hsk, rfl, rfl, rfl⟩⟩
  · obtain ⟨rfl, hv'⟩ := H.solStaker' hs
    rw [hv', Nat.max_zero] at A
    exact ⟨c0, s.del, hr, rs, rh, w1, w2, w3, c1, _, a.call amount, ts, td, _,
      ⟨hcO, hsO, hbel, hvault, hpda, hdest, hsig, H, hcool, hle, hlim, A, rfl, rfl, rfl, rfl, hw3, rfl, rfl, rfl, rfl, rfl, rfl, T,
        ho1, ho2⟩,
      Or.inr ⟨s, hs, hsk, rfl, rfl, rfl⟩⟩

/-! ## Moving -/

/-- What a successful move establishes. -/
structure MovedOk (env : Env) (ctx : Ctx) (w w' : World) (a : SolStakerMoveTokensAccts) (amount : Nat)
    (c c' : Config) (s t : SolStakerStake) (hr : HolderRewards) (rs rh rs' rh' : Nat) (w1 w2 wx : World)
    (cs ct : Config) (ds dt ds' dt' : Delegation) : Prop where
  cO : (w a.config).owner = progId
  sO : (w a.sourceSolStakerStake).owner = progId
  tO : (w a.destinationSolStakerStake).owner = progId
  src : (w a.sourceSolStakerStake).data = .solStaker s
  dst : (w a.destinationSolStakerStake).data = .solStaker t
  sk : a.sourceSolStakerStake = .solStakerPda s.solStake a.config
  tk : a.destinationSolStakerStake = .solStakerPda t.solStake a.config
  ne : a.destinationSolStakerStake ≠ a.sourceSolStakerStake
  signer : ctx.signer a.solStakerAuthority = true
  harvS : Harvested env w w1 a.config a.vaultHolderRewards a.solStakerAuthority (env.vaultAuth a.config)
    a.sourceSolStakerStake none c s.del hr rs rh
  harvT : Harvested env w1 w2 a.config a.vaultHolderRewards a.solStakerAuthority (env.vaultAuth a.config)
    a.destinationSolStakerStake none c' t.del hr rs' rh'
  le : amount ≤ s.del.staked
  lt : t.del.staked + amount < U64
  ds_eq : ds = s.del.marked (accNow c (w a.config).lamports) hr.lastAcc
  dt_eq : dt = t.del.marked (accNow c' (w1 a.config).lamports) hr.lastAcc
  ds'_eq : ds' = ds.restaked (s.del.staked - amount) s.del.cooldown s.lamports
  dt'_eq : dt' = dt.restaked (t.del.staked + amount) (max s.del.cooldown t.del.cooldown) t.lamports
  adjS : Adjusted w2 wx a.config a.sourceSolStakerStake (.solStaker { s with del := ds' }) cs ds ds'
  adjT : Adjusted wx w' a.config a.destinationSolStakerStake (.solStaker { t with del := dt' }) ct dt dt'

theorem solStakerMoveTokens_ok {a : SolStakerMoveTokensAccts} {amount : Nat}
    (h : solStakerMoveTokens env ctx w a amount = .ok w') :
    ∃ c c' s t hr rs rh rs' rh' w1 w2 wx cs ct ds dt ds' dt',
      MovedOk env ctx w w' a amount c c' s t hr rs rh rs' rh' w1 w2 wx cs ct ds dt ds' dt' := by
  simp only [solStakerMoveTokens, bind_ok, require_ok, exists_unit, unpackConfig_ok, unpackSolStaker_ok,
    readDel_ok, addU64_ok, subU64_ok, writeDel, setData_ok] at h
  obtain ⟨hcO, _, _, hsig, hsO, _, s, hs, hsk, hauth, w1, hw1, htO, _, hne, t, ht, htk, w2, hw2, ds, hds, dt, hdt, hauth',
    _, ⟨hle, rfl⟩, _, ⟨hlt, rfl⟩, w3, ⟨_, rfl⟩, w4, ⟨_, rfl⟩, w5, hw5, hw'⟩ := h
  obtain ⟨c, d0, hr, rs, rh, H⟩ := harvest_ok hw1
  obtain ⟨c', d0', hr', rs', rh', H'⟩ := harvest_ok hw2
  obtain ⟨rfl, hs1⟩ := H.solStaker' hs
  obtain ⟨rfl, ht2⟩ := H'.solStaker' ht
  have hkc := H'.ne
  have hkc0 := H.ne
  have ht0 : (w a.destinationSolStakerStake).data = .solStaker t := by rw [← H.data' _ hkc hne]; exact ht
  have hs2 := H'.data' _ hkc0 (Ne.symm hne)
  rw [hs1] at hs2
  have hhr : hr' = hr := by
    have h1 := H'.holder
    rw [H'.hk_eq] at h1
    have h2 := H.holder
    rw [H.hk_eq] at h2
    have h3 := H.data' (.holderRewardsPda (env.vaultAuth a.config))
      (by intro e; rw [e, H.config] at h2; simp at h2) (by rw [hsk]; simp)
    rw [h3, h2] at h1; simpa using h1.symm
  subst hhr
  have e1 : ds = s.del.marked (accNow c (w a.config).lamports) hr'.lastAcc := by
    rw [hs2] at hds; simpa [Data.del?] using hds.symm
  have e2 : dt = t.del.marked (accNow c' (w1 a.config).lamports) hr'.lastAcc := by
    rw [ht2] at hdt; simpa [Data.del?] using hdt.symm
  obtain ⟨cs, dx, S⟩ := syncEffective_ok hw5
  obtain ⟨ct, dy, S'⟩ := syncEffective_ok hw'
  simp only [World.setD_data, hne, if_false, ht2, hs2, Data.setDel] at S hlt
  -- the world where only the source has been adjusted
  have Sx : Synced (w2.setD a.sourceSolStakerStake (.solStaker { s with del := { ds with staked := ds.staked - amount } }))
      (w5.setD a.destinationSolStakerStake (w2 a.destinationSolStakerStake).data) a.config a.sourceSolStakerStake
      s.lamports 0 cs dx := by
    have h1 := S.config; have h2 := S.del; have h3 := S.config'; have h4 := S.stake'
    simp only [World.setD_data, Ne.symm hkc, Ne.symm hkc0, Ne.symm hne, if_false, if_true] at h1 h2 h3 h4
    refine ⟨?_, ?_, S.le, S.lt, S.cap_lt, ?_, ?_, ?_, ?_, ?_⟩
    · simpa [World.setD_data, Ne.symm hkc0] using h1
    · simpa [World.setD_data] using h2
    · intro k; simp [S.owner]
    · intro k; simp [S.lamports]
    · simpa [World.setD_data, Ne.symm hkc] using h3
    · simpa [World.setD_data, Ne.symm hne] using h4
    · intro k k1 k2
      have := S.data' k k1 k2
      simp only [World.setD_data] at this ⊢
      by_cases k3 : k = a.destinationSolStakerStake
      · subst k3; simp [hne]
      · simp only [k3, if_false, k2] at this ⊢; exact this
  have h5 : (w5 a.destinationSolStakerStake).data =
      .solStaker { t with del := { dt with staked := dt.staked + amount, cooldown := max ds.cooldown dt.cooldown } } := by
    rw [S.data' _ hkc hne]; simp [World.setD_data]
  have Sy : Synced ((w5.setD a.destinationSolStakerStake (w2 a.destinationSolStakerStake).data).setD
      a.destinationSolStakerStake (.solStaker
        { t with del := { dt with staked := dt.staked + amount, cooldown := max ds.cooldown dt.cooldown } })) w' a.config a.destinationSolStakerStake t.lamports 0 ct dy := by
    rw [World.setD_setD_same, ← h5, World.setD_self]; exact S'
  have A := adjusted_of_synced Sx hkc0 hds rfl rfl
  have A' := adjusted_of_synced (d := dt) Sy hkc (by simp [World.setD_data, hdt]) rfl rfl
  rw [Nat.max_zero] at A A'
  refine ⟨c, c', s, t, hr', rs, rh, rs', rh', w1, w2,
    w5.setD a.destinationSolStakerStake (w2 a.destinationSolStakerStake).data, cs, ct, ds, dt, _, _, hcO, hsO, ?_, hs,
    ht0, hsk, htk, hne, hsig,
    H, H', ?_, ?_, e1, e2, rfl, rfl, ?_, ?_⟩
  · rw [← H.owner]; exact htO
  · rw [e1] at hle; exact hle
  · rw [e2] at hlt; exact hlt
  · rw [e1] at A ⊢; exact A
  · rw [e1, e2] at A'; rw [e2]; exact A'

/-! ## Override and authority of validators -/

theorem validatorOverrideStakedLamports_ok {a : ValidatorOverrideStakedLamportsAccts} {amountMin : Nat}
    (h : validatorOverrideStakedLamports env ctx w a amountMin = .ok w') :
    ∃ c s hr rs rh w1 c1, (w a.config).owner = progId ∧ (w a.validatorStake).owner = progId ∧
      (w a.validatorStake).data = .validator s ∧ a.validatorStake = .validatorPda s.del.vote a.config ∧
      c.authority ≠ .default ∧ a.configAuthority = c.authority ∧ ctx.signer a.configAuthority = true ∧
      Harvested env w w1 a.config a.vaultHolderRewards a.validatorStakeAuthority (env.vaultAuth a.config)
        a.validatorStake none c s.del hr rs rh ∧
      let d1 := s.del.marked (accNow c (w a.config).lamports) hr.lastAcc
      let d2 := d1.restaked s.del.staked s.del.cooldown (max s.total amountMin)
      Adjusted w1 w' a.config a.validatorStake (.validator { s with del := d2, min := amountMin }) c1 d1 d2 := by
  simp only [validatorOverrideStakedLamports, bind_ok, require_ok, exists_unit, unpackConfig_ok, unpackValidator_ok,
    setData_ok] at h
  obtain ⟨hcO, c, hc, hset, hauth, hsig, hsO, _, s, hs, hsk, w1, hw1, s1, hs1, w2, ⟨_, rfl⟩, hw'⟩ := h
  obtain ⟨c0, d0, hr, rs, rh, H⟩ := harvest_ok hw1
  obtain ⟨rfl, hv'⟩ := H.validator' hs
  have hcc : c0 = c := by have := H.config; rw [hc] at this; simpa using this.symm
  subst hcc
  rw [hv'] at hs1; cases hs1
  obtain ⟨c1, d2, S⟩ := syncEffective_ok hw'
  have A := adjusted_of_synced S H.ne H.del' rfl rfl
  exact ⟨c0, s, hr, rs, rh, w1, c1, hcO, hsO, hs, hsk, hset, hauth, hsig, H, A⟩

theorem validatorSyncAuthority_ok {a : ValidatorSyncAuthorityAccts} (h : validatorSyncAuthority w a = .ok w') :
    ∃ s wd, (w a.config).owner = progId ∧ (∃ c, (w a.config).data = .config c) ∧
      a.validatorStake = .validatorPda a.validatorVote a.config ∧ (w a.validatorStake).data = .validator s ∧
      (w a.validatorVote).owner = voteId ∧ (w a.validatorVote).data = .vote wd ∧
      ((w a.validatorStake).owner = progId ∨ wd = s.del.authority) ∧
      w' = w.setD a.validatorStake (.validator { s with del := { s.del with authority := wd } }) := by
  simp only [validatorSyncAuthority, bind_ok, require_ok, exists_unit, unpackConfig_ok] at h
  obtain ⟨hcO, c, hc, hk, h⟩ := h
  split at h
  · rename_i s hs
    simp only [bind_ok, unpackVote_ok, setData_ok] at h
    obtain ⟨wd, ⟨h1, h2⟩, h3, rfl⟩ := h
    refine ⟨s, wd, hcO, ⟨c, hc⟩, hk, hs, h1, h2, ?_, rfl⟩
    rcases h3 with h3 | h3
    · right; rw [hs] at h3; simp only [Data.validator.injEq] at h3
      have := congrArg (fun v : ValidatorStake => v.del.authority) h3; exact this
    · exact Or.inl h3
  · simp at h

/-! ## Config authority and settings -/

theorem setAuthority_ok {a : SetAuthorityAccts} {t : AuthorityType} (h : setAuthority ctx w a t = .ok w') :
    ∃ c c', ctx.signer a.authority = true ∧ (w a.account).owner = progId ∧ (w a.account).data = .config c ∧
      w' = w.setD a.account (.config c') ∧
      match t with
      | .config => c.authority ≠ .default ∧ a.authority = c.authority ∧ c' = { c with authority := a.newAuthority }
      | .slash => c.slashAuthority ≠ .default ∧ a.authority = c.slashAuthority ∧
          c' = { c with slashAuthority := a.newAuthority } := by
  cases t <;>
  · simp only [setAuthority, bind_ok, require_ok, exists_unit, unpackConfig_ok, setData_ok] at h
    obtain ⟨hsig, hO, c, hc, hset, hauth, _, rfl⟩ := h
    exact ⟨c, _, hsig, hO, hc, rfl, hset, hauth, rfl⟩

/-- The config after `UpdateConfig`. -/
def Config.updated (c : Config) : ConfigField → Config
  | .cooldownTimeSeconds v => { c with cooldownTime := v }
  | .maxDeactivationBasisPoints v => { c with maxBps := v }
  | .syncRewardsLamports v => { c with syncRewards := v }

theorem updateConfig_ok {a : UpdateConfigAccts} {f : ConfigField} (h : updateConfig ctx w a f = .ok w') :
    ∃ c, (w a.config).owner = progId ∧ (w a.config).data = .config c ∧ c.authority ≠ .default ∧
      a.configAuthority = c.authority ∧ ctx.signer a.configAuthority = true ∧
      (∀ v, f = .maxDeactivationBasisPoints v → v ≤ maxBasisPoints) ∧
      w' = w.setD a.config (.config (c.updated f)) := by
  cases f <;>
  · simp only [updateConfig, bind_ok, require_ok, exists_unit, unpackConfig_ok, setData_ok] at h
    obtain ⟨hO, c, hc, hset, hauth, hsig, h⟩ := h
    refine ⟨c, hO, hc, hset, hauth, hsig, ?_, ?_⟩
    · simp_all
    · simp only [Config.updated]
      first | exact h.2 | exact h.2.2

/-! ## Creation -/

theorem initializeConfig_ok {a : InitializeConfigAccts} {x : InitializeConfigArgs}
    (h : initializeConfig env ctx w a x = .ok w') :
    ∃ w1 b t, a.vaultPda = env.vaultAuth a.config ∧ (w a.vaultPda).data = .bytes [] ∧
      (((w a.vaultPda).owner = progId ∧ w1 = w) ∨
        ((w a.vaultPda).owner = systemId ∧ w1 = w.setO a.vaultPda progId)) ∧
      (w a.vault).data = .token t ∧ t.owner = env.vaultAuth a.config ∧ t.closeAuthority = none ∧ t.delegate = none ∧
      t.mint = a.mint ∧ t.amount = 0 ∧
      (w1 a.config).owner = progId ∧ (w a.config).data = .bytes b ∧ b.length = configLen ∧
      b.take 8 = List.replicate 8 0 ∧ env.rentMin configLen ≤ (w a.config).lamports ∧ x.maxBps ≤ maxBasisPoints ∧
      w' = w1.setD a.config (.config
        { authority := x.configAuthority
          slashAuthority := x.slashAuthority
          vault := a.vault
          cooldownTime := x.cooldownTime
          effTotal := 0
          lamportsLast := (w a.config).lamports
          acc := 0
          maxBps := x.maxBps
          dunaHash := x.dunaHash
          syncRewards := x.syncRewards
          bump := env.vaultBump a.config }) := by
  simp only [initializeConfig, bind_ok, require_ok, exists_unit, unpackMint_ok, unpackToken_ok, setData_ok,
    Data.isEmpty, decide_eq_true_eq] at h
  obtain ⟨m, hm, hpda, hempty, w1, hw1, _, t, ht, h1, h2, h3, h4, h5, _, hO, hun, hrent, hbps, _, rfl⟩ := h
  have hd : ∀ k, (w1 k).data = (w k).data ∧ (w1 k).lamports = (w k).lamports := by
    intro k
    rcases systemAssign_ok hw1 with ⟨_, rfl⟩ | ⟨_, rfl⟩ <;> simp
  rw [(hd _).1] at ht hun
  rw [(hd _).2] at hrent ⊢
  have : ∃ b, (w a.config).data = .bytes b ∧ b.length = configLen ∧ b.take 8 = List.replicate 8 0 := by
    unfold checkConfigUninit at hun
    split at hun
    · simp at hun
    · rename_i hl
      split at hun
      · rename_i b hb
        rw [require_ok] at hun
        rw [hb] at hl
        exact ⟨b, hb, by simpa [Data.len] using hl, hun⟩
      · simp at hun
  obtain ⟨b, hb, hl, hz⟩ := this
  exact ⟨w1, b, t, hpda, hempty, systemAssign_ok hw1, ht, h1, h2, h3, h4, h5, hO, hb, hl, hz, hrent, hbps, rfl⟩

/-- A freshly created delegation. -/
def freshDel (authority vote : Key) : Delegation :=
  { staked := 0, effective := 0, cooldown := 0, authority := authority, vote := vote, lastHolder := 0, lastStake := 0 }

/-- A governing document accepted by the signer. -/
def DunaSigned (w : World) (signer doc : Key) (hash : List UInt8) : Prop :=
  doc = .dunaPda signer hash ∧ ∃ b, (w doc).data = .bytes (1 :: b)

theorem checkDuna_ok {signer doc : Key} {hash : List UInt8} {u : Unit} :
    checkDuna w signer doc hash = .ok u ↔ DunaSigned w signer doc hash := by
  simp only [checkDuna, bind_ok, require_ok, exists_unit, DunaSigned]
  constructor
  · rintro ⟨h1, h2⟩
    refine ⟨h1, ?_⟩
    split at h2
    · exact ⟨_, by assumption⟩
    · simp at h2
  · rintro ⟨h1, b, hb⟩
    exact ⟨h1, by rw [hb]; rfl⟩

theorem create_ok {k : Key} {len : Nat} {w1 w2 : World} (h1 : systemAllocate ctx w k len = .ok w1)
    (h2 : systemAssign ctx w1 k = .ok w2) :
    (w k).data = .bytes [] ∧ (w k).owner = systemId ∧
      w2 = (w.setD k (.bytes (List.replicate len 0))).setO k progId := by
  obtain ⟨a1, a2, rfl⟩ := systemAllocate_ok h1
  refine ⟨a1, a2, ?_⟩
  rcases systemAssign_ok h2 with ⟨h, _⟩ | ⟨_, h⟩
  · rw [World.setD_owner, a2] at h; simp at h
  · exact h

/-- Replace one account's owner and data. -/
def World.setN (w : World) (k : Key) (d : Data) : World := w.set k { w k with owner := progId, data := d }

theorem World.setN_eq (k : Key) (d d' : Data) : ((w.setD k d').setO k progId).setD k d = w.setN k d := by
  funext x
  simp only [World.setN, World.setD, World.setO, World.set_apply]
  by_cases h : x = k
  · subst h; simp
  · simp [h]

@[simp] theorem World.setN_lamports (k k' : Key) (d : Data) : (w.setN k d k').lamports = (w k').lamports := by
  unfold World.setN; rw [World.set_apply]; split <;> simp_all
theorem World.setN_data (k k' : Key) (d : Data) : (w.setN k d k').data = if k' = k then d else (w k').data := by
  unfold World.setN; rw [World.set_apply]; split <;> simp_all
theorem World.setN_owner (k k' : Key) (d : Data) : (w.setN k d k').owner = if k' = k then progId else (w k').owner := by
  unfold World.setN; rw [World.set_apply]; split <;> simp_all

theorem initializeValidatorStake_ok {a : InitializeValidatorStakeAccts}
    (h : initializeValidatorStake env ctx w a = .ok w') :
    ∃ c wd, (w a.config).owner = progId ∧ (w a.config).data = .config c ∧
      (w a.validatorVote).owner = voteId ∧ (w a.validatorVote).data = .vote wd ∧
      DunaSigned w wd a.dunaDocumentPda c.dunaHash ∧
      a.validatorStake = .validatorPda a.validatorVote a.config ∧
      (w a.validatorStake).data = .bytes [] ∧ (w a.validatorStake).owner = systemId ∧
      env.rentMin validatorLen ≤ (w a.validatorStake).lamports ∧
      w' = w.setN a.validatorStake (.validator { del := freshDel wd a.validatorVote, total := 0, min := 0 }) := by
  simp only [initializeValidatorStake, bind_ok, require_ok, exists_unit, unpackConfig_ok, unpackVote_ok, setData_ok,
    checkDuna_ok] at h
  obtain ⟨hO, c, hc, wd, ⟨h1, h2⟩, h3, hk, _, hrent, w1, hw1, w2, hw2, _, rfl⟩ := h
  obtain ⟨g1, g2, rfl⟩ := create_ok hw1 hw2
  exact ⟨c, wd, hO, hc, h1, h2, h3, hk, g1, g2, hrent, World.setN_eq _ _ _⟩

theorem initializeSolStakerStake_ok {a : InitializeSolStakerStakeAccts}
    (h : initializeSolStakerStake env o ctx w a = .ok w') :
    ∃ c v vs au, (w a.config).owner = progId ∧ (w a.config).data = .config c ∧
      a.solStakeViewProgram = viewId ∧ o.view a.solStakerNativeStake = .ok v ∧
      v.delegatedVote ≠ .default ∧ v.withdrawer ≠ .default ∧
      DunaSigned w v.withdrawer a.dunaDocumentPda c.dunaHash ∧
      (w a.validatorStake).owner = progId ∧ a.validatorStake = .validatorPda v.delegatedVote a.config ∧
      (w a.validatorStake).data = .validator vs ∧
      a.solStakerStake = .solStakerPda a.solStakerNativeStake a.config ∧
      (w a.solStakerStake).data = .bytes [] ∧ (w a.solStakerStake).owner = systemId ∧
      a.solStakerAuthorityOverride = .overridePda v.withdrawer a.config ∧
      readOverride env (w a.solStakerAuthorityOverride).data = .ok au ∧
      env.rentMin solStakerLen ≤ (w a.solStakerStake).lamports ∧
      vs.total + v.effective < U64 ∧
      w' = (w.setN a.solStakerStake (.solStaker
        { del := freshDel (au.getD v.withdrawer) v.delegatedVote, lamports := v.effective
          solStake := a.solStakerNativeStake })).setD a.validatorStake
          (.validator { vs with total := vs.total + v.effective }) := by
  simp only [initializeSolStakerStake, bind_ok, require_ok, exists_unit, unpackConfig_ok, unpackValidator_ok, setData_ok,
    checkDuna_ok, addU64_ok] at h
  obtain ⟨hO, c, hc, hview, v, hv, h1, h2, h3, h4, h5, vs, hvs, hk, _, hov, au, hau, hrent, w1, hw1, w2, hw2,
    w3, ⟨_, rfl⟩, _, ⟨hlt, rfl⟩, _, rfl⟩ := h
  obtain ⟨g1, g2, rfl⟩ := create_ok hw1 hw2
  refine ⟨c, v, vs, au, hO, hc, hview, hv, h1, h2, h3, h4, h5, hvs, hk, g1, g2, hov, hau, hrent, hlt, ?_⟩
  rw [World.setN_eq]; rfl

/-! ## Harvesting a SOL staker -/

/-- A validator settled and given a new lamports total. -/
structure Retotaled (env : Env) (w w' : World) (ck hk auth sk : Key) (v : ValidatorStake) (total : Nat)
    (c : Config) (hr : HolderRewards) (rs rh : Nat) (w1 : World) (c1 : Config) (d1 d2 : Delegation) : Prop where
  owner : (w sk).owner = progId
  data : (w sk).data = .validator v
  harv : Harvested env w w1 ck hk auth (env.vaultAuth ck) sk none c v.del hr rs rh
  d1_eq : d1 = v.del.marked (accNow c (w ck).lamports) hr.lastAcc
  d2_eq : d2 = d1.restaked v.del.staked v.del.cooldown (max total v.min)
  adj : Adjusted w1 w' ck sk (.validator { v with del := d2, total := total }) c1 d1 d2
  total_lt : total < U64
  cap_lt : cap (max total v.min) < U64

/-- Leaving the previous validator. -/
inductive Left (env : Env) (w w' : World) (a : HarvestSolStakerRewardsAccts) (s : SolStakerStake) : Prop
  | stay : s.del.vote = .default → s.lamports = 0 → w' = w → Left env w w' a s
  | leave {v c hr rs rh w1 c1 d1 d2} : s.del.vote ≠ .default →
      a.previousValidatorStake = .validatorPda s.del.vote a.config → s.lamports ≤ v.total →
      Retotaled env w w' a.config a.vaultHolderRewards a.previousValidatorStakeAuthority a.previousValidatorStake
        v (v.total - s.lamports) c hr rs rh w1 c1 d1 d2 → Left env w w' a s

theorem leaveValidator_ok (W : w.WF) {a : HarvestSolStakerRewardsAccts} {s : SolStakerStake}
    (h : leaveValidator env w a s = .ok w') : Left env w w' a s := by
  simp only [leaveValidator, ite_ok, bind_ok, require_ok, exists_unit, unpackValidator_ok, setData_ok, pure_ok,
    subU64_ok] at h
  rcases h with ⟨hv, hO, hk, v, hvd, w1, hw1, v1, hv1, _, ⟨hle, rfl⟩, w2, ⟨_, rfl⟩, hs⟩ | ⟨hv, hl, rfl⟩
  · obtain ⟨c, d, hr, rs, rh, H⟩ := harvest_ok hw1
    obtain ⟨rfl, hvd'⟩ := H.validator' hvd
    rw [hvd'] at hv1; cases hv1
    obtain ⟨c1, d2, S⟩ := syncEffective_ok hs
    have A := adjusted_of_synced S H.ne H.del' rfl rfl
    refine .leave (v := v) hv hk hle ⟨hO, hvd, H, rfl, rfl, A, ?_, S.cap_lt⟩
    have := (W.1 a.previousValidatorStake).2
    rw [hvd] at this
    exact lt_of_le_of_lt (Nat.sub_le _ _) this.2.1
  · exact .stay (by simpa using hv) hl rfl

/-- Joining the current validator; `vote` and `lamports` are what ends up recorded for the staker. -/
inductive Joined (env : Env) (w w' : World) (a : HarvestSolStakerRewardsAccts) (dv : Key) (ds : Nat) :
    Key → Nat → Prop
  | undelegated : dv = .default → w' = w → Joined env w w' a dv ds dv ds
  | absent : dv ≠ .default → a.currentValidatorStake = .validatorPda dv a.config →
      (w a.currentValidatorStake).owner ≠ progId → w' = w → Joined env w w' a dv ds .default 0
  | join {v c hr rs rh w1 c1 d1 d2} : dv ≠ .default → a.currentValidatorStake = .validatorPda dv a.config →
      Retotaled env w w' a.config a.vaultHolderRewards a.currentValidatorStakeAuthority a.currentValidatorStake
        v (v.total + ds) c hr rs rh w1 c1 d1 d2 → Joined env w w' a dv ds dv ds

theorem joinValidator_ok {a : HarvestSolStakerRewardsAccts} {dv : Key} {ds : Nat} {vote : Key} {l : Nat}
    (h : joinValidator env w a dv ds = .ok (w', vote, l)) : Joined env w w' a dv ds vote l := by
  simp only [joinValidator, ite_ok, bind_ok, require_ok, exists_unit, unpackValidator_ok, setData_ok, pure_ok,
    addU64_ok, Prod.mk.injEq] at h
  rcases h with ⟨hv, hk, ⟨hO, v, hvd, w1, hw1, v1, hv1, _, ⟨hlt, rfl⟩, w2, ⟨_, rfl⟩, w3, hs, rfl, rfl, rfl⟩ |
    ⟨hO, rfl, rfl, rfl⟩⟩ | ⟨hv, rfl, rfl, rfl⟩
  · obtain ⟨c, d, hr, rs, rh, H⟩ := harvest_ok hw1
    obtain ⟨rfl, hvd'⟩ := H.validator' hvd
    rw [hvd'] at hv1; cases hv1
    obtain ⟨c1, d2, S⟩ := syncEffective_ok hs
    have A := adjusted_of_synced S H.ne H.del' rfl rfl
    exact .join hv hk ⟨hO, hvd, H, rfl, rfl, A, hlt, S.cap_lt⟩
  · exact .absent hv hk hO rfl
  · exact .undelegated (by simpa using hv) rfl

/-- What a successful `HarvestSolStakerRewards` establishes. -/
inductive SolHarvested (env : Env) (o : Oracle) (w w' : World) (a : HarvestSolStakerRewardsAccts)
    (s : SolStakerStake) (v : StakeView) (c : Config) (hr : HolderRewards) (rs rh : Nat) (w1 : World) : Prop
  | noSync : v.effective = s.lamports → v.delegatedVote = s.del.vote →
      Harvested env w w1 a.config a.vaultHolderRewards a.solStakerStakeAuthority (env.vaultAuth a.config)
        a.solStakerStake none c s.del hr rs rh → w' = w1 → SolHarvested env o w w' a s v c hr rs rh w1
  | sync {kp w2 w3 vote l c1 d1 d2} : ¬ (v.effective = s.lamports ∧ v.delegatedVote = s.del.vote) →
      a.keeperRecipient = some kp →
      Harvested env w w1 a.config a.vaultHolderRewards a.solStakerStakeAuthority (env.vaultAuth a.config)
        a.solStakerStake (some kp) c s.del hr rs rh →
      Left env w1 w2 a s → Joined env w2 w3 a v.delegatedVote v.effective vote l →
      d1 = s.del.marked (accNow c (w a.config).lamports) hr.lastAcc →
      d2 = { d1.restaked s.del.staked s.del.cooldown l with vote := vote } →
      Adjusted w3 w' a.config a.solStakerStake (.solStaker { s with del := d2, lamports := l }) c1 d1 d2 →
      SolHarvested env o w w' a s v c hr rs rh w1

/-- The part of a successful `HarvestSolStakerRewards` common to all cases. -/
structure SolHarvestBase (env : Env) (o : Oracle) (w : World) (a : HarvestSolStakerRewardsAccts)
    (s : SolStakerStake) (v : StakeView) : Prop where
  cO : (w a.config).owner = progId
  sO : (w a.solStakerStake).owner = progId
  data : (w a.solStakerStake).data = .solStaker s
  sk : a.solStakerStake = .solStakerPda s.solStake a.config
  native : a.solStakerNativeStake = s.solStake
  view : o.view a.solStakerNativeStake = .ok v

theorem Retotaled.data_other {ck hk auth sk : Key} {v : ValidatorStake} {total : Nat} {c : Config}
    {hr : HolderRewards} {rs rh : Nat} {w1 : World} {c1 : Config} {d1 d2 : Delegation}
    (R : Retotaled env w w' ck hk auth sk v total c hr rs rh w1 c1 d1 d2) {k : Key} (h1 : k ≠ ck) (h2 : k ≠ sk) :
    (w' k).data = (w k).data := by
  rw [R.adj.data' k h1 h2, R.harv.data' k h1 h2]

theorem Retotaled.owner' {ck hk auth sk : Key} {v : ValidatorStake} {total : Nat} {c : Config}
    {hr : HolderRewards} {rs rh : Nat} {w1 : World} {c1 : Config} {d1 d2 : Delegation}
    (R : Retotaled env w w' ck hk auth sk v total c hr rs rh w1 c1 d1 d2) (k : Key) :
    (w' k).owner = (w k).owner := by
  rw [R.adj.owner, R.harv.owner]

theorem Left.data_other {a : HarvestSolStakerRewardsAccts} {s : SolStakerStake} (L : Left env w w' a s)
    {k : Key} (h1 : k ≠ a.config) (h2 : k ≠ .validatorPda s.del.vote a.config) : (w' k).data = (w k).data := by
  cases L with
  | stay _ _ h => rw [h]
  | leave _ hk _ R => exact R.data_other h1 (hk ▸ h2)

theorem Left.owner {a : HarvestSolStakerRewardsAccts} {s : SolStakerStake} (L : Left env w w' a s)
    (k : Key) : (w' k).owner = (w k).owner := by
  cases L with
  | stay _ _ h => rw [h]
  | leave _ hk _ R => exact R.owner' k

theorem Joined.data_other {a : HarvestSolStakerRewardsAccts} {dv vote : Key} {ds l : Nat}
    (J : Joined env w w' a dv ds vote l) {k : Key} (h1 : k ≠ a.config) (h2 : k ≠ .validatorPda dv a.config) :
    (w' k).data = (w k).data := by
  cases J with
  | undelegated _ h => rw [h]
  | absent _ _ _ h => rw [h]
  | join _ hk R => exact R.data_other h1 (hk ▸ h2)

theorem Joined.owner {a : HarvestSolStakerRewardsAccts} {dv vote : Key} {ds l : Nat}
    (J : Joined env w w' a dv ds vote l) (k : Key) : (w' k).owner = (w k).owner := by
  cases J with
  | undelegated _ h => rw [h]
  | absent _ _ _ h => rw [h]
  | join _ hk R => exact R.owner' k

theorem harvestSolStakerRewards_ok (W : w.WF) {a : HarvestSolStakerRewardsAccts}
    (h : harvestSolStakerRewards env o w a = .ok w') :
    ∃ s v c hr rs rh w1, SolHarvestBase env o w a s v ∧ SolHarvested env o w w' a s v c hr rs rh w1 := by
  simp only [harvestSolStakerRewards, bind_ok, require_ok, exists_unit, unpackConfig_ok, unpackSolStaker_ok,
    setData_ok, ite_ok, pure_ok, Prod.exists] at h
  obtain ⟨hcO, _, _, hsO, _, s, hs, hsk, _, hnat, _, _, _, v, hv, hkp, w1, hw1, h⟩ := h
  obtain ⟨c, d, hr, rs, rh, H⟩ := harvest_ok hw1
  obtain ⟨rfl, hs1⟩ := H.solStaker' hs
  refine ⟨s, v, c, hr, rs, rh, w1, ⟨hcO, hsO, hs, hsk, hnat, hv⟩, ?_⟩
  rcases h with ⟨hreq, rfl⟩ | ⟨hreq, w2, hw2, w3, vote, l, hw3, s3, hs3, w4, ⟨_, rfl⟩, hw'⟩
  · simp only [decide_eq_false_iff_not, not_or, not_not] at hreq
    simp only [hreq.1, hreq.2, ne_eq, not_true_eq_false, or_self, decide_false, Bool.false_eq_true, if_false] at H
    exact .noSync hreq.1 hreq.2 H rfl
  · simp only [Bool.not_eq_false] at hreq
    rw [hreq] at H hkp
    simp only [forall_const, if_true] at hkp H
    obtain ⟨kp, hkp⟩ := Option.isSome_iff_exists.1 hkp
    rw [hkp] at H
    have L := leaveValidator_ok (H.wf W) hw2
    have J := joinValidator_ok hw3
    have hd3 : (w3 a.solStakerStake).data = (w1 a.solStakerStake).data := by
      rw [J.data_other H.ne (by rw [hsk]; simp), L.data_other H.ne (by rw [hsk]; simp)]
    rw [hd3, hs1] at hs3; cases hs3
    obtain ⟨c1, d2, S⟩ := syncEffective_ok hw'
    have A := adjusted_of_synced (d := s.del.marked (accNow c (w a.config).lamports) hr.lastAcc) S H.ne
      (by rw [hd3, hs1]; rfl) rfl rfl
    rw [Nat.max_zero] at A
    refine .sync ?_ hkp H L J rfl rfl A
    simp only [decide_eq_true_eq] at hreq
    rintro ⟨e1, e2⟩
    rcases hreq with h | h <;> contradiction

end Verif
