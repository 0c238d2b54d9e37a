import Verif.Lemmas.Footprint
import Verif.Lemmas.Reward
import Verif.SpecSettles
/-!
# Instructions leave the config's reward accumulator where it was

Settlements move rewards that have arrived into the stored accumulator, but the accumulator as the next settlement sees it
stays the same.
-/

namespace Verif

open Props

variable {env : Env} {o : Oracle} {w w' : World} {ix : Ix}

/-- The accumulator of `ck` as the next settlement will see it is `acc`. -/
def SeesAcc (ck : Key) (acc : Nat) (w : World) : Prop := ∃ c, configAt w ck = some c ∧ accNow c (w ck).lamports = acc

theorem Settled.seesAcc {ck : Key} {acc : Nat} (S : Settled ck acc w) (W : w.WF) (hO : (w ck).owner = progId) :
    SeesAcc ck acc w := by
  obtain ⟨c, hc, _⟩ := id S
  exact ⟨c, configAt_eq.2 ⟨hO, hc⟩, (S.accNow W hc).1⟩

theorem Settled.congr {ck : Key} {acc : Nat} (S : Settled ck acc w) (h : w' ck = w ck) : Settled ck acc w' := by
  unfold Settled; rw [h]; exact S

theorem SeesAcc.congr {ck : Key} {acc : Nat} (S : SeesAcc ck acc w) (h : w' ck = w ck) : SeesAcc ck acc w' := by
  obtain ⟨c, hc, e⟩ := S
  refine ⟨c, ?_, by rw [h]; exact e⟩
  rw [configAt_eq] at hc ⊢; rw [h]; exact hc

/-- The config's bookkeeping of rewards is as it was. -/
def Still (ck : Key) (c : Config) (w w' : World) : Prop :=
  ∃ c', configAt w' ck = some c' ∧ c'.acc = c.acc ∧ c'.lamportsLast = c.lamportsLast ∧ c'.effTotal = c.effTotal ∧
    (w' ck).lamports = (w ck).lamports

theorem Still.seesAcc {ck : Key} {c : Config} (S : Still ck c w w') : SeesAcc ck (accNow c (w ck).lamports) w' := by
  obtain ⟨c', h, h1, h2, h3, h4⟩ := S
  exact ⟨c', h, by unfold accNow; rw [h1, h2, h3, h4]⟩

theorem Still.congr {ck : Key} {c : Config} (hc : configAt w ck = some c) (h : w' ck = w ck) : Still ck c w w' :=
  ⟨c, by rw [configAt_eq] at hc ⊢; rw [h]; exact hc, rfl, rfl, rfl, by rw [h]⟩

theorem Still.setD {ck : Key} {c c' : Config} (hO : (w ck).owner = progId) (ha : c'.acc = c.acc)
    (hl : c'.lamportsLast = c.lamportsLast) (he : c'.effTotal = c.effTotal) : Still ck c w (w.setD ck (.config c')) :=
  ⟨c', configAt_eq.2 ⟨by simp [hO], by simp [World.setD_data]⟩, ha, hl, he, by simp⟩

theorem Harvested.settled' {ck hk auth va sk : Key} {c c0 : Config} {d : Delegation} {h : HolderRewards} {rs rh : Nat}
    (H : Harvested env w w' ck hk auth va sk none c d h rs rh) (hd : (w ck).data = .config c0)
    (hO : (w ck).owner = progId) (ha : auth ≠ ck) :
    Settled ck (accNow c0 (w ck).lamports) w' ∧ (w' ck).owner = progId := by
  have hc := H.config
  rw [hd] at hc; cases hc
  exact ⟨H.settled (by simp) (fun e => absurd e ha), by rw [H.owner]; exact hO⟩

theorem StakedOk.settled {ctx : Ctx} {a : StakeTokensAccts} {n : Nat} {c c0 : Config} {d : Delegation} {hr : HolderRewards}
    {rs rh : Nat} {w1 w2 w3 : World} {D' : Data} {c1 : Config} {d1 d2 : Delegation} {ts td : TokenAccount}
    (S : StakedOk env o ctx w w' a n c d hr rs rh w1 w2 w3 D' c1 d1 d2 ts td) (L : o.Local)
    (hd : (w a.config).data = .config c0) {l rest : List Key} (hl : l = a.list ++ rest)
    (g : ∀ q, q ≠ 0 → l[q]? ≠ some a.config) :
    Settled a.config (accNow c0 (w a.config).lamports) w' ∧ (w' a.config).owner = progId := by
  subst hl
  have g1 := g 1 (by simp); have g2 := g 2 (by simp); have g4 := g 4 (by simp); have g5 := g 5 (by simp)
  have g8 := g 8 (by simp); have g9 := g 9 (by simp); have g10 := g 10 (by simp)
  simp [StakeTokensAccts.list] at g1 g2 g4 g5 g8 g9 g10
  obtain ⟨S1, O1⟩ := S.harv.settled' hd S.cO g4
  have e : w' a.config = w2 a.config := by
    rw [L.deposit S.deposit _ (by
      simp [RewardsCall.accounts, StakeTokensAccts.call, Ne.symm g1, Ne.symm g2, Ne.symm g8, Ne.symm g9, Ne.symm g10]),
      S.transfer.same (Ne.symm g5) (Ne.symm g9)]
  exact ⟨(S.adj.settled S1).congr e, by rw [e, S.adj.owner]; exact O1⟩

theorem UnstakedOk.settled {ctx : Ctx} {a : UnstakeTokensAccts} {n : Nat} {c c0 : Config} {d : Delegation}
    {hr : HolderRewards} {rs rh : Nat} {w1 w2 w3 : World} {D' : Data} {c1 : Config} {d1 d2 : Delegation}
    {call : RewardsCall} {ts td : TokenAccount}
    (S : UnstakedOk env o ctx w w' a n c d hr rs rh w1 w2 w3 D' c1 d1 d2 call ts td) (L : o.Local)
    (hd : (w a.config).data = .config c0) {l rest : List Key} (hl : l = a.list ++ rest)
    (g : ∀ q, q ≠ 0 → l[q]? ≠ some a.config) :
    Settled a.config (accNow c0 (w a.config).lamports) w' ∧ (w' a.config).owner = progId := by
  subst hl
  have g1 := g 1 (by simp); have g2 := g 2 (by simp); have g4 := g 4 (by simp); have g5 := g 5 (by simp)
  have g6 := g 6 (by simp); have g7 := g 7 (by simp); have g9 := g 9 (by simp)
  simp [UnstakeTokensAccts.list] at g1 g2 g4 g5 g6 g7 g9
  obtain ⟨S1, O1⟩ := S.harv.settled' hd S.cO g4
  have e : w' a.config = w2 a.config := by
    rw [S.transfer.same (Ne.symm g5) (Ne.symm g9), L.withdraw S.withdraw _ (by
      rw [S.call_eq]
      simp [RewardsCall.accounts, UnstakeTokensAccts.call, Ne.symm g1, Ne.symm g2, Ne.symm g5, Ne.symm g6, Ne.symm g7])]
  exact ⟨(S.adj.settled S1).congr e, by rw [e, S.adj.owner]; exact O1⟩

theorem SlashedOk.settled {ctx : Ctx} {a : SlashAccts} {n : Nat} {c c0 : Config} {d : Delegation} {hr : HolderRewards}
    {rs rh : Nat} {w1 w2 : World} {D' : Data} {c1 : Config} {d1 d2 : Delegation}
    (S : SlashedOk env ctx w w' a n c d hr rs rh w1 w2 D' c1 d1 d2) (hd : (w a.config).data = .config c0)
    (g2 : a.stakeAuthority ≠ a.config) (g3 : a.vault ≠ a.config) (g4 : a.mint ≠ a.config) :
    Settled a.config (accNow c0 (w a.config).lamports) w' ∧ (w' a.config).owner = progId := by
  obtain ⟨S1, O1⟩ := S.harv.settled' hd S.cO g2
  have e : w2 a.config = w1 a.config := by
    rcases S.burn with ⟨_, e⟩ | ⟨_, t, m, B⟩
    · rw [e]
    · exact B.same (Ne.symm g3) (Ne.symm g4)
  exact ⟨S.adj.settled (S1.congr e), by rw [S.adj.owner, e]; exact O1⟩

theorem harvestHolder_settled {a : HarvestHolderRewardsAccts} (L : o.Local) (h : harvestHolderRewards env o w a = .ok w')
    {c0 : Config} (hd : (w a.config).data = .config c0) {l rest : List Key} (hl : l = a.list ++ rest)
    (g : ∀ q, q ≠ 0 → l[q]? ≠ some a.config) :
    Settled a.config (accNow c0 (w a.config).lamports) w' ∧ (w' a.config).owner = progId := by
  subst hl
  have g1 := g 1 (by simp); have g2 := g 2 (by simp); have g4 := g 4 (by simp)
  have g5 := g 5 (by simp)
  simp [HarvestHolderRewardsAccts.list] at g1 g2 g4 g5
  simp only [harvestHolderRewards, bind_ok, require_ok, exists_unit, unpackConfig_ok, unpackToken_ok,
    createVaultPda_ok, setData_ok, transferExcess, setLamports_ok] at h
  obtain ⟨hcO, c, hc, hvault, _, tv, htv, _, vs, ⟨hcurve, rfl⟩, hpda, hhO, hhk, c1, hc1, w1, ⟨_, rfl⟩, w2, hw2, w4,
    ⟨hrent, hsup, w3, ⟨hown, rfl⟩, _, rfl⟩, c2, hc2, _, rfl⟩ := h
  obtain ⟨hlast, rfl⟩ := syncConfigLamports_ok hc1
  rw [hd] at hc; cases hc
  have e := L.harvestRewards hw2 a.config (by
    simp only [RewardsCall.accounts]; simp [Ne.symm g1, Ne.symm g2, Ne.symm g4, Ne.symm g5])
  simp only [World.setL_data, e, World.setD_data, if_true, Data.config.injEq] at hc2
  subst hc2
  refine ⟨⟨_, by rw [World.setD_data, if_pos rfl], rfl, ?_⟩, ?_⟩
  · simp
  · simp [e, hcO]

/-- The config is named at most once, so it is not a payee, a keeper or an account of the rewards program. -/
theorem once_ne {ck : Key} (honce : ∀ p q, ix.acct p = some ck → ix.acct q = some ck → p = q) {p : Nat}
    (hp : ix.acct p = some ck) (q : Nat) (hq : q ≠ p) : ix.ctx.accts[q]? ≠ some ck := fun e => hq (honce q p e hp)

/-- An instruction leaves the config's bookkeeping alone, or settles the config. -/
theorem exec_still_or_settled (I : Inv env w) (O : o.Ok) (L : o.Local) (h : exec env o w ix = .ok w') {ck : Key} {c0 : Config}
    (hc0 : configAt w ck = some c0) (hck : ix.config = some ck)
    (honce : ∀ p q, ix.acct p = some ck → ix.acct q = some ck → p = q) :
    (Still ck c0 w w' ∧ ix.settles = false) ∨ (Settled ck (accNow c0 (w ck).lamports) w' ∧ (w' ck).owner = progId) := by
  have hO0 := (configAt_eq.1 hc0).1
  have hd0 := (configAt_eq.1 hc0).2
  cases exec_ran h with
  | initializeConfig a s c hh t b y rest hi hl hr =>
    have hc : a.config = ck := by simpa [Ix.config, hi, Ix.acct, hl, InitializeConfigAccts.list] using hck
    subst hc
    obtain ⟨w1, bb, t', hpda, hempty, hw1, _, _, _, _, _, _, hO, hb, _, _, _, _, hw'⟩ := initializeConfig_ok hr
    rw [hd0] at hb; simp at hb
  | initializeValidatorStake a rest hi hl hr =>
    have hc : a.config = ck := by simpa [Ix.config, hi, Ix.acct, hl, InitializeValidatorStakeAccts.list] using hck
    subst hc
    have g := once_ne honce (p := 0) (by simp [Ix.acct, hl, InitializeValidatorStakeAccts.list])
    exact Or.inl ⟨Still.congr hc0 (exec_same I.wf L h hi (by
      intro p hp; simp [footprint] at hp; subst hp; exact g 2 (by simp))), by simp [Verif.Ix.settles, hi, StakeInstruction.settles]⟩
  | initializeSolStakerStake a rest hi hl hr =>
    have hc : a.config = ck := by simpa [Ix.config, hi, Ix.acct, hl, InitializeSolStakerStakeAccts.list] using hck
    subst hc
    have g := once_ne honce (p := 0) (by simp [Ix.acct, hl, InitializeSolStakerStakeAccts.list])
    exact Or.inl ⟨Still.congr hc0 (exec_same I.wf L h hi (by
      intro p hp; simp [footprint] at hp; exact g p (by omega))), by simp [Verif.Ix.settles, hi, StakeInstruction.settles]⟩
  | validatorSyncAuthority a rest hi hl hr =>
    have hc : a.config = ck := by simpa [Ix.config, hi, Ix.acct, hl, ValidatorSyncAuthorityAccts.list] using hck
    subst hc
    have g := once_ne honce (p := 0) (by simp [Ix.acct, hl, ValidatorSyncAuthorityAccts.list])
    exact Or.inl ⟨Still.congr hc0 (exec_same I.wf L h hi (by
      intro p hp; simp [footprint] at hp; exact g p (by omega))), by simp [Verif.Ix.settles, hi, StakeInstruction.settles]⟩
  | setAuthority a t rest hi hl hr =>
    have hc : a.account = ck := by simpa [Ix.config, hi, Ix.acct, hl, SetAuthorityAccts.list] using hck
    subst hc
    obtain ⟨c, c', _, hO, hc, rfl, hm⟩ := setAuthority_ok hr
    rw [hd0] at hc; cases hc
    refine Or.inl ⟨Still.setD hO ?_ ?_ ?_, by simp [Verif.Ix.settles, hi, StakeInstruction.settles]⟩ <;> (cases t <;> simp only at hm <;> rw [hm.2.2])
  | updateConfig a f rest hi hl hr =>
    have hc : a.config = ck := by simpa [Ix.config, hi, Ix.acct, hl, UpdateConfigAccts.list] using hck
    subst hc
    obtain ⟨c, hO, hc, _, _, _, _, rfl⟩ := updateConfig_ok hr
    rw [hd0] at hc; cases hc
    refine Or.inl ⟨Still.setD hO ?_ ?_ ?_, by simp [Verif.Ix.settles, hi, StakeInstruction.settles]⟩ <;> (cases f <;> simp [Config.updated])
  | validatorStakeTokens a n rest hi hl hr =>
    obtain ⟨a, rest, c, d, hr, rs, rh, w1, w2, w3, D', c1, d1, d2, ts, td, hl, S, -, -, -, -, -⟩ :=
      exec_stake_steps I O h (Or.inl hi)
    have hc : a.config = ck := by simpa [Ix.config, hi, Ix.acct, hl, StakeTokensAccts.list] using hck
    subst hc
    exact Or.inr (S.settled L hd0 hl (once_ne honce (by simp [Ix.acct, hl, StakeTokensAccts.list])))
  | solStakerStakeTokens a n rest hi hl hr =>
    obtain ⟨a, rest, c, d, hr, rs, rh, w1, w2, w3, D', c1, d1, d2, ts, td, hl, S, -, -, -, -, -⟩ :=
      exec_stake_steps I O h (Or.inr hi)
    have hc : a.config = ck := by simpa [Ix.config, hi, Ix.acct, hl, StakeTokensAccts.list] using hck
    subst hc
    exact Or.inr (S.settled L hd0 hl (once_ne honce (by simp [Ix.acct, hl, StakeTokensAccts.list])))
  | unstakeTokens a n rest hi hl hr =>
    obtain ⟨a, rest, c, d, hr, rs, rh, w1, w2, w3, D', c1, d1, d2, call, ts, td, hl, S, -, -, -, -, -⟩ :=
      exec_unstake_steps I O h hi
    have hc : a.config = ck := by simpa [Ix.config, hi, Ix.acct, hl, UnstakeTokensAccts.list] using hck
    subst hc
    exact Or.inr (S.settled L hd0 hl (once_ne honce (by simp [Ix.acct, hl, UnstakeTokensAccts.list])))
  | harvestHolderRewards a rest hi hl hr =>
    have hc : a.config = ck := by simpa [Ix.config, hi, Ix.acct, hl, HarvestHolderRewardsAccts.list] using hck
    subst hc
    exact Or.inr (harvestHolder_settled L hr hd0 hl (once_ne honce (by simp [Ix.acct, hl, HarvestHolderRewardsAccts.list])))
  | slashValidatorStake a n rest hi hl hr =>
    have hc : a.config = ck := by simpa [Ix.config, hi, Ix.acct, hl, SlashAccts.listValidator] using hck
    subst hc
    have g := once_ne honce (p := 0) (by simp [Ix.acct, hl, SlashAccts.listValidator])
    obtain ⟨c, s, hr, rs, rh, w1, w2, c1, hs, hk, S⟩ := slashValidatorStake_ok hr
    exact Or.inr (S.settled hd0 (by simpa [hl, SlashAccts.listValidator] using g 2)
      (by simpa [hl, SlashAccts.listValidator] using g 4) (by simpa [hl, SlashAccts.listValidator] using g 7))
  | slashSolStakerStake a n rest hi hl hr =>
    have hc : a.config = ck := by simpa [Ix.config, hi, Ix.acct, hl, SlashAccts.listSolStaker] using hck
    subst hc
    have g := once_ne honce (p := 0) (by simp [Ix.acct, hl, SlashAccts.listSolStaker])
    obtain ⟨c, s, hr, rs, rh, w1, w2, c1, hs, hk, S⟩ := slashSolStakerStake_ok hr
    exact Or.inr (S.settled hd0 (by simpa [hl, SlashAccts.listSolStaker] using g 2)
      (by simpa [hl, SlashAccts.listSolStaker] using g 5) (by simpa [hl, SlashAccts.listSolStaker] using g 4))
  | harvestValidatorRewards a rest hi hl hr =>
    have hc : a.config = ck := by simpa [Ix.config, hi, Ix.acct, hl, HarvestValidatorRewardsAccts.list] using hck
    subst hc
    have g := once_ne honce (p := 0) (by simp [Ix.acct, hl, HarvestValidatorRewardsAccts.list])
    obtain ⟨c, s, hr, rs, rh, hcO, hsO, hs, hk, H⟩ := harvestValidatorRewards_ok hr
    exact Or.inr (H.settled' hd0 hcO (by simpa [hl, HarvestValidatorRewardsAccts.list] using g 3))
  | harvestSolStakerRewards a keeper rest hi hl hk hr =>
    have hc : a.config = ck := by simpa [Ix.config, hi, Ix.acct, hl, HarvestSolStakerRewardsAccts.list] using hck
    subst hc
    have g := once_ne honce (p := 1) (by simp [Ix.acct, hl, HarvestSolStakerRewardsAccts.list])
    obtain ⟨s, v, c, hr, rs, rh, w1, Bs, H⟩ := harvestSolStakerRewards_ok I.wf hr
    have hkp : keeper ≠ a.config := by simpa [hl, HarvestSolStakerRewardsAccts.list] using g 11
    obtain ⟨_, _, _, P⟩ := solHarvest_payments I Bs H (by simpa [hl, HarvestSolStakerRewardsAccts.list] using g 4)
      (by simpa [hl, HarvestSolStakerRewardsAccts.list] using g 7)
      (by simpa [hl, HarvestSolStakerRewardsAccts.list] using g 9) (by rw [hk]; split_ifs <;> simp [hkp])
    have hcc : c = c0 := by
      have : (w a.config).data = .config c := by
        cases H with
        | noSync _ _ H _ => exact H.config
        | sync _ _ H _ _ _ _ _ => exact H.config
      rw [hd0] at this; cases this; rfl
    subst hcc
    refine Or.inr ⟨P.settled, ?_⟩
    cases H with
    | noSync _ _ H h => rw [h, H.owner]; exact Bs.cO
    | sync _ _ H L J _ _ A => rw [A.owner, J.owner, L.owner, H.owner]; exact Bs.cO
  | solStakerMoveTokens a n rest hi hl hr =>
    have hc : a.config = ck := by simpa [Ix.config, hi, Ix.acct, hl, SolStakerMoveTokensAccts.list] using hck
    subst hc
    have g := once_ne honce (p := 0) (by simp [Ix.acct, hl, SolStakerMoveTokensAccts.list])
    have g2 : a.solStakerAuthority ≠ a.config := by simpa [hl, SolStakerMoveTokensAccts.list] using g 2
    obtain ⟨c, c', s, t, hr, rs, rh, rs', rh', w1, w2, wx, cs, ct, ds, dt, ds', dt', M⟩ := solStakerMoveTokens_ok hr
    obtain ⟨I1, I2, Ix, _⟩ := solStakerMoveTokens_inv I M
    obtain ⟨S1, _⟩ := M.harvS.settled' hd0 M.cO g2
    have S2 := M.harvT.settled (by simp) (fun e => absurd e g2)
    rw [(S1.accNow I1.wf M.harvT.config).1] at S2
    refine Or.inr ⟨M.adjT.settled (M.adjS.settled S2), ?_⟩
    rw [M.adjT.owner, M.adjS.owner, M.harvT.owner, M.harvS.owner]; exact M.cO
  | validatorOverrideStakedLamports a n rest hi hl hr =>
    have hc : a.config = ck := by
      simpa [Ix.config, hi, Ix.acct, hl, ValidatorOverrideStakedLamportsAccts.list] using hck
    subst hc
    have g := once_ne honce (p := 0) (by simp [Ix.acct, hl, ValidatorOverrideStakedLamportsAccts.list])
    obtain ⟨c, s, hr, rs, rh, w1, c1, hcO, hsO, hs, hk, _, _, _, H, A⟩ := validatorOverrideStakedLamports_ok hr
    obtain ⟨S1, O1⟩ := H.settled' hd0 hcO (by simpa [hl, ValidatorOverrideStakedLamportsAccts.list] using g 3)
    exact Or.inr ⟨A.settled S1, by rw [A.owner]; exact O1⟩

theorem exec_still (I : Inv env w) (O : o.Ok) (L : o.Local) (h : exec env o w ix = .ok w') {ck : Key} {c0 : Config}
    (hc0 : configAt w ck = some c0) (hck : ix.config = some ck)
    (honce : ∀ p q, ix.acct p = some ck → ix.acct q = some ck → p = q) :
    Still ck c0 w w' ∨ (Settled ck (accNow c0 (w ck).lamports) w' ∧ (w' ck).owner = progId) :=
  (exec_still_or_settled I O L h hc0 hck honce).imp And.left id

theorem exec_seesAcc (I : Inv env w) (O : o.Ok) (L : o.Local) (h : exec env o w ix = .ok w') {ck : Key} {c0 : Config}
    (hc0 : configAt w ck = some c0) (hck : ix.config = some ck)
    (honce : ∀ p q, ix.acct p = some ck → ix.acct q = some ck → p = q) :
    SeesAcc ck (accNow c0 (w ck).lamports) w' :=
  (exec_still I O L h hc0 hck honce).elim Still.seesAcc fun S => S.1.seesAcc (exec_inv I O h).wf S.2

end Verif
