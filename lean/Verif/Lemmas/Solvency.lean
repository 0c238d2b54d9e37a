import Verif.Lemmas.Record
import Verif.SpecShortfall
import Verif.SpecSettles
/-!
# The claims of the stakers stay covered
-/

namespace Verif

open Props

variable {env : Env} {o : Oracle} {w w' : World} {ix : Ix} {X : Nat}

theorem holderAcc_some {ck : Key} {h : HolderRewards} (e : holderAt w (vaultRecord env ck) = some h) :
    holderAcc env ck w = h.lastAcc := by
  unfold holderAcc; rw [e]; rfl

theorem Harvested.record {ck hk auth sk : Key} {keeper : Option Key} {c : Config} {d : Delegation}
    {h : HolderRewards} {rs rh : Nat} (H : Harvested env w w' ck hk auth (env.vaultAuth ck) sk keeper c d h rs rh) :
    holderAcc env ck w = h.lastAcc := by
  refine holderAcc_some ?_
  have := H.holder
  rw [H.hk_eq] at this
  unfold holderAt vaultRecord
  rw [this]

theorem holderAt_wf (W : w.WF) {k : Key} {h : HolderRewards} (e : holderAt w k = some h) : h.lastAcc < U128 := by
  have hd : (w k).data = .holder h := by
    unfold holderAt at e; split at e
    · cases e; assumption
    · simp at e
  have := (W.1 k).2
  rw [hd] at this
  exact this.1

theorem holderAcc_lt (W : w.WF) (ck : Key) : holderAcc env ck w < U128 := by
  unfold holderAcc
  cases e : holderAt w (vaultRecord env ck) with
  | none => simp
  | some h => exact holderAt_wf W e

/-- The vault's record moves on. -/
theorem Covered.moved (I : Inv env w) {ck : Key} {h h' : HolderRewards} {p B t : Nat} (ha : h.lastAcc < U128)
    (S : TotalIs (stakedIn w ck) t) {s : Nat} (hle : t + s ≤ h.deposited) (P : Paid h h' p)
    (C : Covered X ck h.lastAcc B w) :
    Covered (X + growth h.lastAcc h'.lastAcc * s) ck h'.lastAcc (B + p + if h'.lastAcc = h.lastAcc then 0 else 1) w := by
  split_ifs with e
  · rw [e, growth_self, Nat.zero_mul]; exact C.mono (by omega)
  · obtain ⟨c, hc, F⟩ := C
    refine ⟨c, hc, (F.holder (q := p + 1) I ha S ?_).mono (by omega)⟩
    have h1 := Nat.mul_le_mul_left (growth h.lastAcc h'.lastAcc) hle
    rw [Nat.mul_add] at h1
    unfold Paid at P
    show _ ≤ 1000000000000000000 * (p + 1)
    omega

theorem Covered.same {ck : Key} {c c' : Config} {hacc B : Nat} (C : Covered X ck hacc B w)
    (hc : configAt w ck = some c) (hc' : configAt w' ck = some c') (ha : c'.acc = c.acc)
    (hl : c'.lamportsLast = c.lamportsLast) (hk : ∀ acc k, claim w' ck acc hacc k = claim w ck acc hacc k) :
    Covered X ck hacc B w' := by
  obtain ⟨c0, hc0, T, hT, hle⟩ := C
  rw [hc] at hc0; cases hc0
  refine ⟨c', hc', T, ?_, ?_⟩
  · rw [ha]; exact hT.congr (hk _)
  · rw [hl]; exact hle

theorem Covered.ext (I : Inv env w) (E : ExtStep w w') {ck : Key} {hacc B : Nat} (C : Covered X ck hacc B w) :
    Covered X ck hacc B w' := C.congr (ext_st I E ck) fun k _ => ext_st I E k

/-- Instructions that do not call the rewards program leave its records alone. -/
theorem exec_record_same (I : Inv env w) (h : exec env o w ix = .ok w')
    (hn : ∀ i, ix.decoded = some i → ¬ CallsRewards i) (k : Key) : holderAt w' k = holderAt w k := by
  cases exec_foreign I.wf h with
  | none hf _ _ _ _ _ _ => exact holderAt_of_fv (congrFun hf _)
  | stake hi _ _ _ =>
    rcases hi with hi | hi
    · exact absurd (Or.inl ⟨_, rfl⟩) (hn _ hi)
    · exact absurd (Or.inr (Or.inl ⟨_, rfl⟩)) (hn _ hi)
  | unstake hi _ _ _ => exact absurd (Or.inr (Or.inr (Or.inl ⟨_, rfl⟩))) (hn _ hi)
  | slash hi h0 h1 S hf1 hf2 =>
    rw [holderAt_of_fv (congrFun hf2 _), S.holderAt, holderAt_of_fv (congrFun hf1 _)]
  | holder hi _ _ _ _ _ _ _ _ => exact absurd (Or.inr (Or.inr (Or.inr rfl))) (hn _ hi)

/-! ## Settling a validator whose total changes -/

theorem Retotaled.covered (I : Inv env w) {ck hk auth sk : Key} {v : ValidatorStake} {total : Nat} {c : Config}
    {hr : HolderRewards} {rs rh : Nat} {w1 : World} {c1 : Config} {d1 d2 : Delegation} {B hacc : Nat}
    (R : Retotaled env w w' ck hk auth sk v total c hr rs rh w1 c1 d1 d2)
    (hcO : (w ck).owner = progId) (hb : belongs sk ck) (hh : hacc = hr.lastAcc)
    (C : Covered X ck hacc B w) : Covered X ck hacc B w' := by
  subst hh
  have C1 := C.harvest I R.harv hcO R.owner hb
  have I1 := harvest_inv I R.harv hcO R.owner hb
  have hc1 : c1 = { c with acc := accNow c (w ck).lamports, lamportsLast := (w ck).lamports - (rs + rh) } := by
    have := R.adj.config; rw [R.harv.config'] at this; simpa using this.symm
  refine C1.adjust I1 R.adj (by rw [R.harv.owner]; exact hcO) (by rw [R.harv.owner]; exact R.owner) hb ?_ ?_
  · rw [R.d2_eq, R.d1_eq, hc1]; rfl
  · rw [R.d2_eq, R.d1_eq]; rfl

theorem Retotaled.settled {ck hk auth sk : Key} {v : ValidatorStake} {total : Nat} {c : Config}
    {hr : HolderRewards} {rs rh : Nat} {w1 : World} {c1 : Config} {d1 d2 : Delegation} {acc : Nat} (W : w.WF)
    (R : Retotaled env w w' ck hk auth sk v total c hr rs rh w1 c1 d1 d2) (ha : auth = ck → rs + rh = 0)
    (S : Settled ck acc w) : Settled ck acc w' := by
  have := R.harv.settled (by simp) ha
  rw [(S.accNow W R.harv.config).1] at this
  exact R.adj.settled this

theorem Retotaled.record {ck hk auth sk : Key} {v : ValidatorStake} {total : Nat} {c : Config}
    {hr : HolderRewards} {rs rh : Nat} {w1 : World} {c1 : Config} {d1 d2 : Delegation}
    (R : Retotaled env w w' ck hk auth sk v total c hr rs rh w1 c1 d1 d2) :
    holderAcc env ck w' = holderAcc env ck w := by
  unfold holderAcc; rw [holderAt_of_fv (congrFun R.fv _)]

theorem Left.step (I : Inv env w) {a : HarvestSolStakerRewardsAccts} {s : SolStakerStake} (L : Left env w w' a s)
    (hcO : (w a.config).owner = progId) {l : List Key} (hc : a.config ∈ l) (hp : a.previousValidatorStakeAuthority ∈ l) :
    ∃ e, lamportSum w' l = lamportSum w l + e ∧ (∀ acc, e = 0 → Settled a.config acc w → Settled a.config acc w') ∧
      ∀ B, Covered X a.config (holderAcc env a.config w) B w → Covered X a.config (holderAcc env a.config w') B w' := by
  cases L with
  | stay _ _ h => subst h; exact ⟨0, rfl, fun _ _ h => h, fun _ h => h⟩
  | @leave v c hr rs rh w1 c1 d1 d2 _ hk _ R =>
    refine ⟨_, R.sum hc hp, fun acc he => R.settled I.wf fun hau => ?_, fun B C => ?_⟩
    · rw [if_pos hau] at he; exact he
    · rw [R.record]; exact R.covered I hcO (by rw [hk]; simp [belongs]) R.harv.record C

theorem Joined.step (I : Inv env w) {a : HarvestSolStakerRewardsAccts} {dv vote : Key} {ds n : Nat}
    (J : Joined env w w' a dv ds vote n)
    (hcO : (w a.config).owner = progId) {l : List Key} (hc : a.config ∈ l) (hp : a.currentValidatorStakeAuthority ∈ l) :
    ∃ e, lamportSum w' l = lamportSum w l + e ∧ (∀ acc, e = 0 → Settled a.config acc w → Settled a.config acc w') ∧
      ∀ B, Covered X a.config (holderAcc env a.config w) B w → Covered X a.config (holderAcc env a.config w') B w' := by
  cases J with
  | undelegated _ h => subst h; exact ⟨0, rfl, fun _ _ h => h, fun _ h => h⟩
  | absent _ _ _ h => subst h; exact ⟨0, rfl, fun _ _ h => h, fun _ h => h⟩
  | @join v c hr rs rh w1 c1 d1 d2 _ hk R =>
    refine ⟨_, R.sum hc hp, fun acc he => R.settled I.wf fun hau => ?_, fun B C => ?_⟩
    · rw [if_pos hau] at he; exact he
    · rw [R.record]; exact R.covered I hcO (by rw [hk]; simp [belongs]) R.harv.record C

theorem Harvested.covered (I : Inv env w) {ck hk auth sk : Key} {keeper : Option Key} {c : Config} {d : Delegation}
    {h : HolderRewards} {rs rh B : Nat} (H : Harvested env w w' ck hk auth (env.vaultAuth ck) sk keeper c d h rs rh)
    (hcO : (w ck).owner = progId) (hsO : (w sk).owner = progId) (hb : belongs sk ck)
    (C : Primed X ck (holderAcc env ck w) B w) : Covered X ck (holderAcc env ck w') B w' := by
  have e : holderAcc env ck w' = holderAcc env ck w := by
    unfold holderAcc; rw [holderAt_of_fv (congrFun H.fv _)]
  rw [e, H.record]
  rw [H.record] at C
  exact C.harvest I H hcO hsO hb

theorem holderAcc_fv {ck : Key} (h : fv w' = fv w) : holderAcc env ck w' = holderAcc env ck w := by
  unfold holderAcc; rw [holderAt_of_fv (congrFun h _)]

/-- After a settlement and no further change, the account's delegation can be replaced. -/
theorem Covered.readjust (I : Inv env w) {ck sk : Key} {D' : Data} {c : Config} {d d' : Delegation} {acc B : Nat}
    (A : Adjusted w w' ck sk D' c d d') (hcO : (w ck).owner = progId) (hsO : (w sk).owner = progId)
    (hb : belongs sk ck) (hacc : c.acc = acc) (hs : d'.lastStake = acc) (hh : d'.lastHolder = holderAcc env ck w)
    (C : Covered X ck (holderAcc env ck w) B w) : Covered X ck (holderAcc env ck w') B w' := by
  rw [holderAcc_fv A.fv]
  exact C.adjust I A hcO hsO hb (hs.trans hacc.symm) hh

theorem SlashedOk.covered (I : Inv env w) {ctx : Ctx} {a : SlashAccts} {amount : Nat} {c : Config} {d : Delegation}
    {hr : HolderRewards} {rs rh : Nat} {w1 w2 : World} {D' : Data} {c1 : Config} {d1 d2 : Delegation}
    (S : SlashedOk env ctx w w' a amount c d hr rs rh w1 w2 D' c1 d1 d2) (I1 : Inv env w1) (E : ExtStep w1 w2)
    (I2 : Inv env w2) {B : Nat} (C : Primed X a.config (holderAcc env a.config w) B w) :
    Covered X a.config (holderAcc env a.config w') B w' := by
  have hva : a.vaultAuthority = env.vaultAuth a.config := by
    rw [S.vaultAuth, (I.config _ c (configAt_eq.2 ⟨S.cO, S.harv.config⟩)).bump]; rfl
  have H := S.harv
  rw [hva] at H
  have C1 := H.covered I S.cO S.sO S.bel C
  have e2 : holderAcc env a.config w2 = holderAcc env a.config w1 := by unfold holderAcc; rw [S.holderAt]
  have C2 := C1.ext I1 E
  rw [← e2] at C2
  have hcfg : configAt w2 a.config = configAt w1 a.config := configAt_congr (ext_st I1 E _)
  rw [configAt_eq.2 ⟨by rw [H.owner]; exact S.cO, H.config'⟩] at hcfg
  have h2 := configAt_eq.1 hcfg
  have hc1 : c1.acc = accNow c (w a.config).lamports := by
    have := S.adj.config; rw [h2.2] at this; simp only [Data.config.injEq] at this; rw [← this]
  have hsO : (w2 a.stake).owner = progId := by
    have := ext_stakeAt I1 E a.stake
    rw [stakeAt_eq.2 ⟨by rw [H.owner]; exact S.sO, H.del'⟩] at this
    exact (stakeAt_eq.1 this).1
  refine C2.readjust I2 S.adj h2.1 hsO S.bel hc1 ?_ ?_
  · rw [S.rest, S.d1_eq]; rfl
  · rw [S.rest, S.d1_eq, e2, holderAcc_fv H.fv, H.record]; rfl

theorem claim_zero {ck k : Key} {acc hacc : Nat} (h : ∀ d, stakeAt w k = some d → d.effective = 0 ∧ d.staked = 0) :
    claim w ck acc hacc k = 0 := by
  unfold claim; split_ifs
  · cases hd : stakeAt w k with
    | none => rfl
    | some d => simp [h d hd]
  · rfl

/-- A successful instruction of the config that does not involve the rewards program, other than a sync, keeps the claims
covered. -/
theorem exec_covered_quiet (I : Inv env w) (O : o.Ok) (h : exec env o w ix = .ok w') {ck : Key} (hck : ix.config = some ck)
    (hn : ∀ i, ix.decoded = some i → ¬ CallsRewards i)
    (hns : ix.decoded ≠ some .harvestSolStakerRewards) {B : Nat}
    (hX : configAt w ck = none → X ≤ scale * env.rentMin configLen)
    (C : ¬ ix.settles → configAt w ck ≠ none → Covered X ck (holderAcc env ck w) B w)
    (CR : ix.settles → configAt w ck ≠ none → Primed X ck (holderAcc env ck w) B w) :
    Covered X ck (holderAcc env ck w') B w' := by
  have hsum := (exec_ok h).2.2
  have hrec : holderAcc env ck w' = holderAcc env ck w := by
    unfold holderAcc; rw [exec_record_same I h hn]
  have some_ne : ∀ {c}, configAt w ck = some c → configAt w ck ≠ none := fun h => by rw [h]; simp
  cases exec_ran h with
  | initializeConfig a s c hh t b y rest hi hl hr =>
    have hc : a.config = ck := by simpa [Ix.config, hi, Ix.acct, hl, InitializeConfigAccts.list] using hck
    subst hc
    obtain ⟨w1, bb, t', hpda, hempty, hw1, _, _, _, _, _, _, hO, hb, hlen, _, hrent, _, hw'⟩ := initializeConfig_ok hr
    have hst : st w1 = st w := by
      rcases hw1 with ⟨_, rfl⟩ | ⟨_, rfl⟩
      · rfl
      · exact st_setO hempty
    have hst' := (congrArg st hw').trans (st_setD hO (Or.inl ⟨_, rfl⟩))
    have hnone : configAt w a.config = none := by
      cases e : configAt w a.config with
      | none => rfl
      | some c => have := (configAt_eq.1 e).2; rw [hb] at this; simp at this
    have hcfg := st_config.1 (show st w' a.config = some (.config _) by rw [hst']; simp [stUpd]; rfl)
    refine ⟨_, hcfg, 0, .zero fun k => ?_, ?_⟩
    · unfold claim; split_ifs with hbk
      · have : stakeAt w' k = stakeAt w k := by
          refine stakeAt_congr ?_
          rw [hst', hst]; unfold stUpd; rw [if_neg]
          rintro rfl
          have hkey := (exec_inv I O h).config_key hcfg
          rw [hbk.ofProgram] at hkey; simp at hkey
        rw [this, I.no_stake hnone hbk]
      · rfl
    · rw [Nat.zero_add]
      exact (hX hnone).trans (Nat.mul_le_mul_left _ (by simp only; omega))
  | initializeValidatorStake a rest hi hl hr =>
    have hc : a.config = ck := by simpa [Ix.config, hi, Ix.acct, hl, InitializeValidatorStakeAccts.list] using hck
    subst hc
    obtain ⟨c, wd, hcO, hc, _, _, hdu, hk, hb, ho, _, hw'⟩ := initializeValidatorStake_ok hr
    have hcA := configAt_eq.2 ⟨hcO, hc⟩
    have hst : st w' = stUpd (st w) _ _ := (congrArg st hw').trans (st_setN (Or.inr ⟨_, rfl⟩))
    have hkey := I.config_key hcA
    have hne : a.config ≠ a.validatorStake := by rintro e; rw [e, hk] at hkey; simp [Key.ofProgram] at hkey
    rw [hrec]
    refine (C (by simp [Ix.settles, hi, StakeInstruction.settles]) (some_ne hcA)).same hcA (c' := c) ?_ rfl rfl ?_
    · rw [configAt_congr (w := w) (k := a.config)]
      · exact hcA
      · rw [hst]; simp [stUpd, hne]
    · intro acc k
      by_cases hkk : k = a.validatorStake
      · subst hkk
        rw [claim_zero, claim_zero]
        · intro d hd; rw [stakeAt_eq] at hd; rw [hb] at hd; simp [Data.del?] at hd
        · intro d hd; rw [stakeAt_st, hst] at hd
          simp only [stUpd, if_true, Option.bind_some, Data.del?, Option.some.injEq] at hd
          subst hd; exact ⟨rfl, rfl⟩
      · refine claim_congr fun _ => stakeAt_congr ?_
        rw [hst]; simp [stUpd, hkk]
  | initializeSolStakerStake a rest hi hl hr =>
    have hc : a.config = ck := by simpa [Ix.config, hi, Ix.acct, hl, InitializeSolStakerStakeAccts.list] using hck
    subst hc
    obtain ⟨c, v, vs, au, hcO, hc, _, hv, hdv, hwd, hdu, hvO, hk1, hvs, hk2, hb, ho, hov, hau, hrent, hlt, hw'⟩ :=
      initializeSolStakerStake_ok hr
    have hcA := configAt_eq.2 ⟨hcO, hc⟩
    have hkey := I.config_key hcA
    have hne1 : a.config ≠ a.validatorStake := by rintro e; rw [e, hk1] at hkey; simp [Key.ofProgram] at hkey
    have hne2 : a.config ≠ a.solStakerStake := by rintro e; rw [e, hk2] at hkey; simp [Key.ofProgram] at hkey
    have hne : a.validatorStake ≠ a.solStakerStake := by rw [hk1, hk2]; simp
    have hst : st w' = stUpd (stUpd (st w) _ _) _ _ :=
      (congrArg st hw').trans ((st_setD (by simp [World.setN_owner, hvO]) (Or.inr ⟨_, rfl⟩)).trans
        (by rw [st_setN (Or.inr ⟨_, rfl⟩)]))
    rw [hrec]
    refine (C (by simp [Ix.settles, hi, StakeInstruction.settles]) (some_ne hcA)).same hcA (c' := c) ?_ rfl rfl ?_
    · rw [configAt_congr (w := w) (k := a.config)]
      · exact hcA
      · rw [hst]; simp [stUpd, hne1, hne2]
    · intro acc k
      by_cases hkk : k = a.solStakerStake
      · subst hkk
        rw [claim_zero, claim_zero]
        · intro d hd; rw [stakeAt_eq] at hd; rw [hb] at hd; simp [Data.del?] at hd
        · intro d hd; rw [stakeAt_st, hst] at hd
          simp only [stUpd, if_true, if_neg (Ne.symm hne), Option.bind_some, Data.del?, Option.some.injEq] at hd
          subst hd; exact ⟨rfl, rfl⟩
      · refine claim_congr fun _ => ?_
        by_cases hkv : k = a.validatorStake
        · subst hkv
          rw [stakeAt_st, hst, stakeAt_eq.2 ⟨hvO, by rw [hvs]; rfl⟩]
          simp [stUpd, Data.del?]
        · refine stakeAt_congr ?_
          rw [hst]; simp [stUpd, hkk, hkv]
  | setAuthority a t rest hi hl hr =>
    have hc : a.account = ck := by simpa [Ix.config, hi, Ix.acct, hl, SetAuthorityAccts.list] using hck
    subst hc
    obtain ⟨c, c', _, hO, hc, hw', hm⟩ := setAuthority_ok hr
    have hcA := configAt_eq.2 ⟨hO, hc⟩
    have hkey := I.config_key hcA
    have hst : st w' = stUpd (st w) _ _ := (congrArg st hw').trans (st_setD hO (Or.inl ⟨_, rfl⟩))
    have he : c'.acc = c.acc ∧ c'.lamportsLast = c.lamportsLast := by
      cases t <;> simp only at hm <;> rw [hm.2.2] <;> simp
    rw [hrec]
    refine (C (by simp [Ix.settles, hi, StakeInstruction.settles]) (some_ne hcA)).same hcA (c' := c') (st_config.1 (by rw [hst]; simp [stUpd])) he.1 he.2 ?_
    intro acc k
    refine claim_congr fun hb => stakeAt_congr ?_
    rw [hst]; unfold stUpd; rw [if_neg]
    rintro rfl; rw [hb.ofProgram] at hkey; simp at hkey
  | updateConfig a f rest hi hl hr =>
    have hc : a.config = ck := by simpa [Ix.config, hi, Ix.acct, hl, UpdateConfigAccts.list] using hck
    subst hc
    obtain ⟨c, hO, hc, _, _, _, _, hw'⟩ := updateConfig_ok hr
    have hcA := configAt_eq.2 ⟨hO, hc⟩
    have hkey := I.config_key hcA
    have hst : st w' = stUpd (st w) _ _ := (congrArg st hw').trans (st_setD hO (Or.inl ⟨_, rfl⟩))
    have he : (c.updated f).acc = c.acc ∧ (c.updated f).lamportsLast = c.lamportsLast := by
      cases f <;> simp [Config.updated]
    rw [hrec]
    refine (C (by simp [Ix.settles, hi, StakeInstruction.settles]) (some_ne hcA)).same hcA (c' := c.updated f) (st_config.1 (by rw [hst]; simp [stUpd])) he.1 he.2 ?_
    intro acc k
    refine claim_congr fun hb => stakeAt_congr ?_
    rw [hst]; unfold stUpd; rw [if_neg]
    rintro rfl; rw [hb.ofProgram] at hkey; simp at hkey
  | validatorSyncAuthority a rest hi hl hr =>
    have hc : a.config = ck := by simpa [Ix.config, hi, Ix.acct, hl, ValidatorSyncAuthorityAccts.list] using hck
    subst hc
    obtain ⟨s, wd, hO, ⟨c, hc⟩, hk, hs, _, _, _, hw'⟩ := validatorSyncAuthority_ok hr
    have hcA := configAt_eq.2 ⟨hO, hc⟩
    have hkey := I.config_key hcA
    have hne : a.config ≠ a.validatorStake := by rintro e; rw [e, hk] at hkey; simp [Key.ofProgram] at hkey
    rw [hrec]
    refine (C (by simp [Ix.settles, hi, StakeInstruction.settles]) (some_ne hcA)).same hcA (c' := c) (configAt_eq.2 ?_) rfl rfl ?_
    · rw [hw']; simp [World.setD_data, hne, hO, hc]
    · intro acc k
      by_cases hkk : k = a.validatorStake
      · subst hkk
        unfold claim
        split_ifs
        · rw [stakeAt_eq', stakeAt_eq', hw', hs]
          simp only [World.setD_owner, World.setD_data, if_true, Data.del?]
          split_ifs <;> rfl
        · rfl
      · refine claim_congr fun _ => stakeAt_congr (st_congr ?_ ?_)
        · rw [hw']; simp
        · rw [hw']; simp [World.setD_data, hkk]
  | validatorStakeTokens a n rest hi hl hr => exact absurd (Or.inl ⟨_, rfl⟩) (hn _ hi)
  | solStakerStakeTokens a n rest hi hl hr => exact absurd (Or.inr (Or.inl ⟨_, rfl⟩)) (hn _ hi)
  | unstakeTokens a n rest hi hl hr => exact absurd (Or.inr (Or.inr (Or.inl ⟨_, rfl⟩))) (hn _ hi)
  | harvestHolderRewards a rest hi hl hr => exact absurd (Or.inr (Or.inr (Or.inr rfl))) (hn _ hi)
  | slashValidatorStake a n rest hi hl hr =>
    obtain ⟨a', c, d, hr, rs, rh, w1, w2, D', c1, d1, d2, h0, _, S, I1, E, I2⟩ := exec_slash_steps I h (Or.inl hi)
    have hc : a'.config = ck := by simpa [Ix.config, hi, h0] using hck
    subst hc
    exact S.covered I I1 E I2 (CR (by simp [Ix.settles, hi, StakeInstruction.settles]) (some_ne (configAt_eq.2 ⟨S.cO, S.harv.config⟩)))
  | slashSolStakerStake a n rest hi hl hr =>
    obtain ⟨a', c, d, hr, rs, rh, w1, w2, D', c1, d1, d2, h0, _, S, I1, E, I2⟩ := exec_slash_steps I h (Or.inr hi)
    have hc : a'.config = ck := by simpa [Ix.config, hi, h0] using hck
    subst hc
    exact S.covered I I1 E I2 (CR (by simp [Ix.settles, hi, StakeInstruction.settles]) (some_ne (configAt_eq.2 ⟨S.cO, S.harv.config⟩)))
  | harvestValidatorRewards a rest hi hl hr =>
    have hc : a.config = ck := by simpa [Ix.config, hi, Ix.acct, hl, HarvestValidatorRewardsAccts.list] using hck
    subst hc
    obtain ⟨c, s, hr, rs, rh, hcO, hsO, hs, hk, H⟩ := harvestValidatorRewards_ok hr
    exact H.covered I hcO hsO (by rw [hk]; simp [belongs]) (CR (by simp [Ix.settles, hi, StakeInstruction.settles]) (some_ne (configAt_eq.2 ⟨hcO, H.config⟩)))
  | harvestSolStakerRewards a keeper rest hi hl hk hr => exact absurd hi hns
  | solStakerMoveTokens a n rest hi hl hr =>
    have hc : a.config = ck := by simpa [Ix.config, hi, Ix.acct, hl, SolStakerMoveTokensAccts.list] using hck
    subst hc
    obtain ⟨c, c', s, t, hr, rs, rh, rs', rh', w1, w2, wx, cs, ct, ds, dt, ds', dt', M⟩ := solStakerMoveTokens_ok hr
    obtain ⟨I1, I2, Ix, _⟩ := solStakerMoveTokens_inv I M
    have bs : belongs a.sourceSolStakerStake a.config := by rw [M.sk]; simp [belongs]
    have bt : belongs a.destinationSolStakerStake a.config := by rw [M.tk]; simp [belongs]
    have o1 : ∀ k, (w1 k).owner = (w k).owner := M.harvS.owner
    have o2 : ∀ k, (w2 k).owner = (w k).owner := fun k => by rw [M.harvT.owner, o1]
    have ox : ∀ k, (wx k).owner = (w k).owner := fun k => by rw [M.adjS.owner, o2]
    have m1 : a.config ∈ ix.ctx.accts := by rw [hl]; simp [SolStakerMoveTokensAccts.list]
    have m2 : a.solStakerAuthority ∈ ix.ctx.accts := by rw [hl]; simp [SolStakerMoveTokensAccts.list]
    rw [M.adjT.sum, M.adjS.sum, M.harvT.sum m1 m2 (by simp) (by simp), M.harvS.sum m1 m2 (by simp) (by simp)] at hsum
    have S1 := M.harvS.settled (by simp) (fun e => by rw [if_pos e, if_pos e] at hsum; omega)
    have S2 := M.harvT.settled (by simp) (fun e => by rw [if_pos e, if_pos e] at hsum; omega)
    have e1 := (S1.accNow I1.wf M.harvT.config).1
    rw [e1] at S2
    have Sx := M.adjS.settled S2
    have C0 := CR (by simp [Verif.Ix.settles, hi, StakeInstruction.settles]) (some_ne (configAt_eq.2 ⟨M.cO, M.harvS.config⟩))
    have C1 := M.harvS.covered I M.cO M.sO bs C0
    have C2 := M.harvT.covered I1 (by rw [o1]; exact M.cO) (by rw [o1]; exact M.tO) bt (C1.ready I1)
    have a2 : holderAcc env a.config w2 = hr.lastAcc := by
      rw [holderAcc_fv M.harvT.fv, M.harvT.record]
    have ax : holderAcc env a.config wx = hr.lastAcc := by rw [holderAcc_fv M.adjS.fv, a2]
    have Cx := C2.readjust I2 M.adjS (by rw [o2]; exact M.cO) (by rw [o2]; exact M.sO) bs
      (S2.accNow I2.wf M.adjS.config).2 (by rw [M.ds'_eq, M.ds_eq]; rfl) (by rw [a2, M.ds'_eq, M.ds_eq]; rfl)
    exact Cx.readjust Ix M.adjT (by rw [ox]; exact M.cO) (by rw [ox]; exact M.tO) bt
      (Sx.accNow Ix.wf M.adjT.config).2 (by rw [M.dt'_eq, M.dt_eq]; exact e1) (by rw [ax, M.dt'_eq, M.dt_eq]; rfl)
  | validatorOverrideStakedLamports a n rest hi hl hr =>
    have hc : a.config = ck := by
      simpa [Ix.config, hi, Ix.acct, hl, ValidatorOverrideStakedLamportsAccts.list] using hck
    subst hc
    obtain ⟨c, s, hr, rs, rh, w1, c1, hcO, hsO, hs, hk, _, _, _, H, A⟩ := validatorOverrideStakedLamports_ok hr
    have bs : belongs a.validatorStake a.config := by rw [hk]; simp [belongs]
    have I1 := harvest_inv I H hcO hsO bs
    have C1 := H.covered I hcO hsO bs (CR (by simp [Ix.settles, hi, StakeInstruction.settles]) (some_ne (configAt_eq.2 ⟨hcO, H.config⟩)))
    have hc1 : c1.acc = accNow c (w a.config).lamports := by
      have := A.config; rw [H.config'] at this; simp only [Data.config.injEq] at this; rw [← this]
    exact C1.readjust I1 A (by rw [H.owner]; exact hcO) (by rw [H.owner]; exact hsO) bs hc1 rfl
      (by rw [holderAcc_fv H.fv, H.record]; rfl)

/-! ## Syncs -/

theorem lamportsUp_ge (x : Nat) : x ≤ scale * lamportsUp x := by
  unfold lamportsUp scale; omega

theorem lamportsUp_zero : lamportsUp 0 = 0 := by decide

/-- A sync keeps the claims covered, up to what it credits without cover. -/
theorem exec_covered_sync (I : Inv env w) (h : exec env o w ix = .ok w')
    (hi : ix.decoded = some .harvestSolStakerRewards) {ck : Key} (hck : ix.config = some ck) {B : Nat}
    (C : configAt w ck ≠ none → Primed X ck (holderAcc env ck w) B w) :
    Covered X ck (holderAcc env ck w') (B + overCredit env ck w ix w') w' := by
  obtain ⟨a, keeper, rest, hl, hk, hr⟩ := ran_harvestSolStakerRewards h hi
  have hc : a.config = ck := by simpa [Ix.config, hi, Ix.acct, hl, HarvestSolStakerRewardsAccts.list] using hck
  have h3 : ix.acct 3 = some a.solStakerStake := by simp [Ix.acct, hl, HarvestSolStakerRewardsAccts.list]
  subst hc
  obtain ⟨s, v, c, hr, rs, rh, w1, Bs, H⟩ := harvestSolStakerRewards_ok I.wf hr
  have bs : belongs a.solStakerStake a.config := by rw [Bs.sk]; simp [belongs]
  cases H with
  | noSync _ _ H hw =>
    subst hw
    exact (H.covered I Bs.cO Bs.sO bs (C (by rw [configAt_eq.2 ⟨Bs.cO, H.config⟩]; simp))).mono (Nat.le_add_right _ _)
  | @sync kp w2 w3 vote l c1 d1 d2 _ hkr H L J hd1 hd2 A =>
    have C1 := H.covered I Bs.cO Bs.sO bs (C (by rw [configAt_eq.2 ⟨Bs.cO, H.config⟩]; simp))
    have I1 := harvest_inv I H Bs.cO Bs.sO bs
    have hc1 : (w1 a.config).owner = progId := by rw [H.owner]; exact Bs.cO
    have I2 := L.inv I1 hc1
    have hc2 : (w2 a.config).owner = progId := by rw [L.owner]; exact hc1
    have I3 := J.inv I2 hc2
    have hc3 : (w3 a.config).owner = progId := by rw [J.owner]; exact hc2
    have m1 : a.config ∈ ix.ctx.accts := by rw [hl]; simp [HarvestSolStakerRewardsAccts.list]
    obtain ⟨_, _, _, p1⟩ := L.step (X := X) I1 hc1 m1 (by rw [hl]; simp [HarvestSolStakerRewardsAccts.list])
    obtain ⟨_, _, _, p2⟩ := J.step (X := X) I2 hc2 m1 (by rw [hl]; simp [HarvestSolStakerRewardsAccts.list])
    have hacc : holderAcc env a.config w3 = hr.lastAcc := by
      rw [holderAcc_fv J.fv, holderAcc_fv L.fv, holderAcc_fv H.fv, H.record]
    have hs3 : (w3 a.solStakerStake).owner = progId := by rw [J.owner, L.owner, H.owner]; exact Bs.sO
    rw [holderAcc_fv A.fv]
    refine (p2 _ (p1 _ C1)).replace I3 A hc3 hs3 bs ?_ (by rw [hacc, hd2, hd1]; rfl)
    have e1 := configAt_eq.2 ⟨by rw [A.owner]; exact hc3, A.config'⟩
    have e2 : stakeAt w' a.solStakerStake = some d2 :=
      stakeAt_eq.2 ⟨by rw [A.owner]; exact hs3, by rw [A.stake']; exact A.del'⟩
    have : overCredit env a.config w ix w' = lamportsUp (growth d2.lastStake c1.acc * d2.effective) := by
      unfold overCredit
      rw [if_pos hck, hi, h3]
      simp only [e1, e2, Option.bind_some]
    rw [this]
    exact lamportsUp_ge _

/-- A sync whose keeper is not the config credits nothing without cover. -/
theorem sync_no_overCredit (I : Inv env w) (h : exec env o w ix = .ok w')
    (hi : ix.decoded = some .harvestSolStakerRewards) {ck : Key} (hkp : ix.acct 11 ≠ some ck) :
    overCredit env ck w ix w' = 0 := by
  by_cases hck : ix.config = some ck
  swap
  · unfold overCredit; rw [if_neg hck]
  have hsum := (exec_ok h).2.2
  obtain ⟨a, keeper, rest, hl, hk, hr⟩ := ran_harvestSolStakerRewards h hi
  have hc : a.config = ck := by simpa [Ix.config, hi, Ix.acct, hl, HarvestSolStakerRewardsAccts.list] using hck
  have h3 : ix.acct 3 = some a.solStakerStake := by simp [Ix.acct, hl, HarvestSolStakerRewardsAccts.list]
  have h11 : ix.acct 11 = some keeper := by simp [Ix.acct, hl, HarvestSolStakerRewardsAccts.list]
  subst hc
  have hkne : keeper ≠ a.config := fun e => hkp (by rw [h11, e])
  obtain ⟨s, v, c, hr, rs, rh, w1, Bs, H⟩ := harvestSolStakerRewards_ok I.wf hr
  have bs : belongs a.solStakerStake a.config := by rw [Bs.sk]; simp [belongs]
  have main : ∀ {c' d'}, (w' a.config).data = .config c' → stakeAt w' a.solStakerStake = some d' → d'.lastStake = c'.acc →
      overCredit env a.config w ix w' = 0 := by
    intro c' d' hc' hd' e
    unfold overCredit
    rw [if_pos hck, hi, h3]
    simp only [Option.bind_some, hd']
    cases hcc : configAt w' a.config with
    | none => rfl
    | some c2 =>
      have := (configAt_eq.1 hcc).2
      rw [hc'] at this; cases this
      simp only [e, growth_self, Nat.zero_mul]; exact lamportsUp_zero
  cases H with
  | noSync _ _ H hw =>
    subst hw
    exact main H.config' (stakeAt_eq.2 ⟨by rw [H.owner]; exact Bs.sO, H.del'⟩) rfl
  | @sync kp w2 w3 vote l c1 d1 d2 _ hkr H L J hd1 hd2 A =>
    have hkp' : kp = keeper := by rw [hk] at hkr; split_ifs at hkr; simpa using hkr.symm
    subst hkp'
    have I1 := harvest_inv I H Bs.cO Bs.sO bs
    have hc1 : (w1 a.config).owner = progId := by rw [H.owner]; exact Bs.cO
    have I2 := L.inv I1 hc1
    have hc2 : (w2 a.config).owner = progId := by rw [L.owner]; exact hc1
    have I3 := J.inv I2 hc2
    have m1 : a.config ∈ ix.ctx.accts := by rw [hl]; simp [HarvestSolStakerRewardsAccts.list]
    obtain ⟨e1, s1, q1, _⟩ := L.step (X := 0) I1 hc1 m1 (by rw [hl]; simp [HarvestSolStakerRewardsAccts.list])
    obtain ⟨e2, s2, q2, _⟩ := J.step (X := 0) I2 hc2 m1 (by rw [hl]; simp [HarvestSolStakerRewardsAccts.list])
    have s0 := H.sum m1 (by rw [hl]; simp [HarvestSolStakerRewardsAccts.list])
      (by rintro k ⟨rfl⟩; rw [hl]; simp [HarvestSolStakerRewardsAccts.list]) (by simpa using hkne)
    have s3 := A.sum ix.ctx.accts
    rw [s3, s2, s1, s0] at hsum
    have z1 : e1 = 0 := by omega
    have z2 : e2 = 0 := by omega
    have S1 := H.settled (by simpa using hkne) (fun e => by rw [if_pos e] at hsum; omega)
    have S3 := q2 _ z2 (q1 _ z1 S1)
    refine main A.config' (stakeAt_eq.2 ⟨by rw [A.owner, J.owner, L.owner, H.owner]; exact Bs.sO,
      by rw [A.stake']; exact A.del'⟩) ?_
    rw [hd2, hd1]
    exact (S3.accNow I3.wf A.config).2.symm

/-! ## Instructions that call the rewards program -/

theorem payout_some {ck : Key} {h h' : HolderRewards} (e : holderAt w (vaultRecord env ck) = some h)
    (e' : holderAt w' (vaultRecord env ck) = some h') :
    payout env ck w w' = if h'.lastAcc = h.lastAcc then 0 else 1 := by
  unfold payout; rw [e, e']

theorem exec_covered_stake (I : Inv env w) (O : o.Ok) (RC : RewardsContract o) (h : exec env o w ix = .ok w') {n : Nat}
    (hi : ix.decoded = some (.validatorStakeTokens n) ∨ ix.decoded = some (.solStakerStakeTokens n)) {ck : Key}
    (hck : ix.config = some ck) {t : Nat} (hT : TotalIs (stakedIn w ck) t) {s : Nat}
    (hle : t + s ≤ depositedFor env ck w) {m : Nat}
    (C : configAt w ck ≠ none → Primed X ck (holderAcc env ck w) ((w (env.vaultAuth ck)).lamports + m) w) :
    Covered (X + growth (holderAcc env ck w) (holderAcc env ck w') * s) ck (holderAcc env ck w')
      ((w' (env.vaultAuth ck)).lamports + (m + payout env ck w w' + overCredit env ck w ix w')) w' := by
  obtain ⟨a, rest, c, d, hr, rs, rh, w1, w2, w3, D', c1, d1, d2, ts, td, hl, S, I1, I2, I3, E3, E4⟩ :=
    exec_stake_steps I O h hi
  have hov : overCredit env ck w ix w' = lamportsUp (growth (holderAcc env ck w) (holderAcc env ck w') * n) := by
    unfold overCredit
    rw [if_pos hck]
    rcases hi with hi | hi <;> rw [hi]
  have hs0 : stakedBy ck ix = n ∧ unstakedBy ck ix = 0 := by
    rcases hi with hi | hi <;> simp [Ix.config, hi] at hck <;> simp [stakedBy, unstakedBy, hi, hck]
  have hc : a.config = ck := by
    rcases hi with hi | hi <;> simpa [Ix.config, hi, Ix.acct, hl, StakeTokensAccts.list] using hck
  subst hc
  have hcA := configAt_eq.2 ⟨S.cO, S.harv.config⟩
  have C1 := S.harv.covered I S.cO S.sO S.bel (C (by rw [hcA]; simp))
  have hc1 : c1.acc = accNow c (w a.config).lamports := by
    have := S.adj.config; rw [S.harv.config'] at this; simp only [Data.config.injEq] at this; rw [← this]
  have C2 := C1.readjust I1 S.adj (by rw [S.harv.owner]; exact S.cO) (by rw [S.harv.owner]; exact S.sO) S.bel hc1
    (by rw [S.rest, S.d1_eq]; rfl) (by rw [S.rest, S.d1_eq, holderAcc_fv S.harv.fv, S.harv.record]; rfl)
  have C3 := C2.ext I2 E3
  obtain ⟨tt, h0, h1, p, E, hdep, _⟩ := RC.deposit S.deposit
  have hkey : (a.call n).holderRewards = vaultRecord env a.config := S.harv.hk_eq
  have hfv : fv w2 = fv w := by rw [S.adj.fv, S.harv.fv]
  have b3 := E.before
  have b4 := E.after
  rw [hkey] at b3 b4
  have b2 : holderAt w2 (vaultRecord env a.config) = some h0 := by rw [← S.transfer.holderAt]; exact b3
  have b0 : holderAt w (vaultRecord env a.config) = some h0 := by rw [← holderAt_of_fv (congrFun hfv _)]; exact b2
  rw [holderAcc_some b2] at C3
  rw [holderAcc_some b0, holderAcc_some b4] at hov
  -- staked tokens after the instruction
  obtain ⟨t', hT', ht'⟩ := staked_total_step (exec_effect I O h) hT
  have hT3 : TotalIs (stakedIn w3 a.config) t' := hT'.congr fun k => by rw [ext_stakedIn I3 E4]
  have hd0 : depositedFor env a.config w = h0.deposited := by unfold depositedFor; rw [b0]; rfl
  rw [holderAcc_some b4, holderAcc_some b0, payout_some b0 b4, hov]
  have hva : env.vaultAuth a.config ≠ a.config := fun e => by
    have := I.config_key hcA; rw [← e] at this; simp [Env.vaultAuth, Key.ofProgram] at this
  have l1 := S.harv.lamports_mono _ hva
  have l3 := E.owner
  have l3' : (a.call n).owner = env.vaultAuth a.config := S.vaultPda
  rw [l3', S.transfer.lamports, S.adj.lamports] at l3
  split_ifs with e
  · rw [e] at hov ⊢
    rw [growth_self, Nat.zero_mul]
    exact (C3.ext I3 E4).mono (by omega)
  · obtain ⟨c3, hc3, F⟩ := C3
    have C4 : Covered (X + growth h0.lastAcc h1.lastAcc * s) a.config h1.lastAcc ((w (env.vaultAuth a.config)).lamports + m +
        (p + 1 + lamportsUp (growth h0.lastAcc h1.lastAcc * n))) w3 := by
      refine ⟨c3, hc3, (F.holder (q := p + 1 + lamportsUp (growth h0.lastAcc h1.lastAcc * n)) I3
        (holderAt_wf I3.wf b3) hT3 ?_).mono (by omega)⟩
      have g1 := E.paid
      unfold Paid at g1
      have g2 := Nat.mul_le_mul_left (growth h0.lastAcc h1.lastAcc) (show t' + s ≤ h0.deposited + n by omega)
      have g3 := lamportsUp_ge (growth h0.lastAcc h1.lastAcc * n)
      rw [Nat.mul_add, Nat.mul_add] at g2
      rw [Nat.mul_add]
      show _ ≤ 1000000000000000000 * (p + 1) + _
      omega
    exact (C4.ext I3 E4).mono (by omega)

theorem exec_covered_unstake (I : Inv env w) (O : o.Ok) (RC : RewardsContract o) (h : exec env o w ix = .ok w')
    {n : Nat} (hi : ix.decoded = some (.unstakeTokens n)) {ck : Key}
    (hck : ix.config = some ck) {t : Nat} (hT : TotalIs (stakedIn w ck) t) {s : Nat}
    (hle : t + s ≤ depositedFor env ck w) {m : Nat}
    (C : configAt w ck ≠ none → Primed X ck (holderAcc env ck w) ((w (env.vaultAuth ck)).lamports + m) w) :
    Covered (X + growth (holderAcc env ck w) (holderAcc env ck w') * s) ck (holderAcc env ck w')
      ((w' (env.vaultAuth ck)).lamports + (m + payout env ck w w')) w' := by
  obtain ⟨a, rest, c, d, hr, rs, rh, w1, w2, w3, D', c1, d1, d2, call, ts, td, hl, S, I1, I2, I3, E3, E4⟩ :=
    exec_unstake_steps I O h hi
  have hc : a.config = ck := by simpa [Ix.config, hi, Ix.acct, hl, UnstakeTokensAccts.list] using hck
  subst hc
  have hcA := configAt_eq.2 ⟨S.cO, S.harv.config⟩
  have C1 := S.harv.covered I S.cO S.sO S.bel (C (by rw [hcA]; simp))
  have hc1 : c1.acc = accNow c (w a.config).lamports := by
    have := S.adj.config; rw [S.harv.config'] at this; simp only [Data.config.injEq] at this; rw [← this]
  have C2 := C1.readjust I1 S.adj (by rw [S.harv.owner]; exact S.cO) (by rw [S.harv.owner]; exact S.sO) S.bel hc1
    (by rw [S.rest, S.d1_eq]; rfl) (by rw [S.rest, S.d1_eq, holderAcc_fv S.harv.fv, S.harv.record]; rfl)
  obtain ⟨tt, h0, h1, p, E, hled, hdep, _⟩ := RC.withdraw S.withdraw
  have hkey : call.holderRewards = vaultRecord env a.config := by rw [S.call_holder]; exact S.harv.hk_eq
  have hfv : fv w2 = fv w := by rw [S.adj.fv, S.harv.fv]
  have b2 := E.before
  have b3 := E.after
  rw [hkey] at b2 b3
  have b0 : holderAt w (vaultRecord env a.config) = some h0 := by rw [← holderAt_of_fv (congrFun hfv _)]; exact b2
  have b4 : holderAt w' (vaultRecord env a.config) = some h1 := by rw [S.transfer.holderAt]; exact b3
  rw [holderAcc_some b2] at C2
  -- staked tokens after the instruction
  obtain ⟨t', hT', ht'⟩ := staked_total_step (exec_effect I O h) hT
  have hT2 : TotalIs (stakedIn w2 a.config) t' :=
    hT'.congr fun k => by rw [ext_stakedIn I3 E4, ext_stakedIn I2 E3]
  have hs0 : stakedBy a.config ix = 0 := by simp [stakedBy, hi]
  have hd0 : depositedFor env a.config w = h0.deposited := by unfold depositedFor; rw [b0]; rfl
  have C3 := C2.moved I2 (holderAt_wf I2.wf b2) hT2 (s := s) (by omega) E.paid
  have C4 := (C3.ext I2 E3).ext I3 E4
  rw [holderAcc_some b4, holderAcc_some b0, payout_some b0 b4]
  refine C4.mono ?_
  have hva : env.vaultAuth a.config ≠ a.config := fun e => by
    have := I.config_key hcA; rw [← e] at this; simp [Env.vaultAuth, Key.ofProgram] at this
  have l1 := S.harv.lamports_mono _ hva
  have l3 := E.owner
  rw [S.call_owner, S.vaultPda, S.adj.lamports] at l3
  rw [S.transfer.lamports, l3]
  omega

theorem exec_covered_holder (I : Inv env w) (O : o.Ok) (RC : RewardsContract o) (h : exec env o w ix = .ok w')
    (hi : ix.decoded = some .harvestHolderRewards) {ck : Key}
    (hck : ix.config = some ck) {t : Nat} (hT : TotalIs (stakedIn w ck) t) {s : Nat}
    (hle : t + s ≤ depositedFor env ck w) {m : Nat}
    (C : configAt w ck ≠ none → Primed X ck (holderAcc env ck w) ((w (env.vaultAuth ck)).lamports + m) w) :
    Covered (X + growth (holderAcc env ck w) (holderAcc env ck w') * s) ck (holderAcc env ck w')
      ((w' (env.vaultAuth ck)).lamports + (m + payout env ck w w')) w' := by
  obtain ⟨a, rest, hl, hr⟩ := ran_harvestHolderRewards h hi
  have hc : a.config = ck := by simpa [Ix.config, hi, Ix.acct, hl, HarvestHolderRewardsAccts.list] using hck
  subst hc
  obtain ⟨c, w1, w2, c2, call, hcO, hc, hvault, hcurve, hpda, hhO, hhk, hlast, hw1, hcall, hown0, hrec0, hc2, hrent, hown,
    ho', hc', hd', hl', _⟩ := harvestHolderRewards_ok hr
  have hcA := configAt_eq.2 ⟨hcO, hc⟩
  have Cc := I.config _ c hcA
  have Wc := wf_config I hc
  have hp : a.vaultPda = env.vaultAuth a.config := by rw [hpda, Cc.bump]; rfl
  have hkey := I.config_key hcA
  have hva : env.vaultAuth a.config ≠ a.config := fun e => by
    rw [← e] at hkey; simp [Env.vaultAuth, Key.ofProgram] at hkey
  have I1 : Inv env w1 := by
    rw [hw1]
    refine I.modifyConfig (c' := c.settled (w a.config).lamports 0) hcO hc (fun k => by simp)
      (by simp only [World.setD_data, if_true])
      (fun k hk => by simp [World.setD_data, hk]) rfl Cc.bps rfl (by simp [Config.settled])
      (by simpa using Cc.rent) (fun k _ _ => by simp) ?_
    refine ⟨fun k => ⟨by simpa using (I.wf.1 k).1, ?_⟩, by simpa using I.wf.2⟩
    rw [World.setD_data]
    split_ifs
    · obtain ⟨h1, h2, h3, h4, h5, h6, h7⟩ := Wc
      have := (I.wf.1 a.config).1
      exact ⟨h1, h2, h3, by simp only [Config.settled]; omega, accNow_lt _ _, h6, h7⟩
    · exact (I.wf.1 k).2
  have E2 := O.harvestRewards I1.wf hcall
  have I2 := ext_inv I1 E2
  have hs1 : ∀ k, k ≠ a.config → st w1 k = st w k := fun k hk => by
    rw [hw1]; exact st_congr (by simp) (by simp [World.setD_data, hk])
  have hcA1 : configAt w1 a.config = some (c.settled (w a.config).lamports 0) :=
    configAt_eq.2 ⟨by rw [hw1]; simpa using hcO, by rw [hw1]; simp [World.setD_data]⟩
  -- the config is synced
  have C1 : Covered X a.config (holderAcc env a.config w) ((w (env.vaultAuth a.config)).lamports + m) w1 := by
    obtain ⟨c0, hc0, F⟩ := C (by rw [hcA]; simp)
    rw [hcA] at hc0; cases hc0
    refine ⟨_, hcA1, ?_⟩
    refine F.congr fun k hb => stakeAt_congr (hs1 k ?_)
    rintro rfl; rw [hb.ofProgram] at hkey; simp at hkey
  obtain ⟨h0, h1, p, E, hdep, _⟩ := RC.harvestRewards hcall
  have hkr : call.holderRewards = vaultRecord env a.config := by rw [hrec0, hhk, hp]; rfl
  have b1 := E.before
  have b2 := E.after
  rw [hkr] at b1 b2
  have hne : vaultRecord env a.config ≠ a.config := fun e => by
    have := congrArg sizeOf e
    simp [vaultRecord, Env.vaultAuth] at this
    omega
  have b0 : holderAt w (vaultRecord env a.config) = some h0 := by
    rw [← b1]; unfold holderAt; rw [hw1]; simp [World.setD_data, hne]
  have b4 : holderAt w' (vaultRecord env a.config) = some h1 := by
    rw [← b2]; unfold holderAt; rw [hd' _ hne]
  rw [holderAcc_some b0] at C1
  have hT1 : TotalIs (stakedIn w1 a.config) t := hT.congr fun k => by
    unfold stakedIn; split_ifs with hb
    · rw [stakeAt_congr (hs1 k (by rintro rfl; rw [hb.ofProgram] at hkey; simp at hkey))]
    · rfl
  have hd0 : depositedFor env a.config w = h0.deposited := by unfold depositedFor; rw [b0]; rfl
  have C2 := (C1.moved I1 (holderAt_wf I1.wf b1) hT1 (s := s) (by omega) E.paid).ext I1 E2
  rw [holderAcc_some b4, holderAcc_some b0, payout_some b0 b4]
  obtain ⟨c3, hc3, F⟩ := C2
  have hcfg2 := configAt_congr (ext_st I1 E2 a.config)
  rw [hcA1, hc3] at hcfg2
  have hc3' := (configAt_eq.1 hc3)
  rw [hc2] at hc3'
  obtain ⟨hO2, hd2⟩ := hc3'
  rw [Data.config.injEq] at hd2; subst hd2
  refine ⟨_, configAt_eq.2 ⟨by rw [ho']; exact hO2, hc'⟩, ?_⟩
  have F' : Funded (X + growth h0.lastAcc h1.lastAcc * s) w' a.config c2.acc h1.lastAcc _ := F.congr (w' := w') fun k hb =>
    stakeAt_congr (st_congr (ho' k) (hd' k (by rintro rfl; rw [hb.ofProgram] at hkey; simp at hkey)))
  refine F'.mono ?_
  have hlc : c2.lamportsLast = (w a.config).lamports := by cases hcfg2; simp [Config.settled]
  have l3 := E.owner
  rw [hown0, hp] at l3
  have l1 : ∀ k, (w1 k).lamports = (w k).lamports := fun k => by rw [hw1]; simp
  rw [l1] at l3
  have lc := ext_lamports E2 (k := a.config) (Or.inr (by rw [hw1]; simpa using hcO))
  rw [l1] at lc
  simp only
  have g1 := hl' a.config
  have g2 := hl' (env.vaultAuth a.config)
  rw [if_pos rfl, hp] at g1
  rw [if_neg hva, hp, if_pos rfl] at g2
  rw [hp] at hrent
  rw [hlc, g1, g2]
  omega

/-- Every instruction keeps the claims covered, up to what it credits without cover. -/
theorem exec_covered_gen (I : Inv env w) (O : o.Ok) (RC : RewardsContract o) (h : exec env o w ix = .ok w') {ck : Key}
    {t : Nat} (hT : TotalIs (stakedIn w ck) t) {s : Nat}
    (hle : t + s ≤ depositedFor env ck w) {m : Nat}
    (C : ¬ (ix.settles ∧ ix.config = some ck) → configAt w ck ≠ none →
      Covered X ck (holderAcc env ck w) ((w (env.vaultAuth ck)).lamports + m) w)
    (CR : ix.settles ∧ ix.config = some ck → configAt w ck ≠ none →
      Primed X ck (holderAcc env ck w) ((w (env.vaultAuth ck)).lamports + m) w)
    (hX : configAt w ck = none → X ≤ scale * env.rentMin configLen) (hc' : configAt w' ck ≠ none) :
    Covered (X + growth (holderAcc env ck w) (holderAcc env ck w') * s) ck (holderAcc env ck w')
      ((w' (env.vaultAuth ck)).lamports + (m + payout env ck w w' + overCredit env ck w ix w')) w' := by
  have hE := exec_effect I O h
  have hsame : holderAcc env ck w' = holderAcc env ck w →
      X + growth (holderAcc env ck w) (holderAcc env ck w') * s = X := fun e => by rw [e, growth_self]; simp
  obtain ⟨ck0, hck0, hkey, hother⟩ := hE.elsewhere I
  have hg : Guarded w (env.vaultAuth ck) := Or.inl rfl
  have hva : env.vaultAuth ck ≠ ck0 := fun e => by
    rw [← e] at hkey; simp [Env.vaultAuth, Key.ofProgram] at hkey
  by_cases hck : ck0 = ck
  · subst hck
    by_cases hu : ∃ n, ix.decoded = some (.unstakeTokens n)
    · obtain ⟨n, hu⟩ := hu
      exact (exec_covered_unstake I O RC h hu hck0 hT hle (CR ⟨by simp [Ix.settles, hu, StakeInstruction.settles], hck0⟩)).mono (by omega)
    by_cases hh : ix.decoded = some .harvestHolderRewards
    · exact (exec_covered_holder I O RC h hh hck0 hT hle (CR ⟨by simp [Ix.settles, hh, StakeInstruction.settles], hck0⟩)).mono (by omega)
    have hmono := exec_debit I O h hck0 hva (fun e => absurd e hh) (Or.inl hg)
    by_cases hs : ∃ n, ix.decoded = some (.validatorStakeTokens n) ∨ ix.decoded = some (.solStakerStakeTokens n)
    · obtain ⟨n, hs⟩ := hs
      exact exec_covered_stake I O RC h hs hck0 hT hle
        (CR ⟨by rcases hs with hs | hs <;> simp [Ix.settles, hs, StakeInstruction.settles], hck0⟩)
    have hcr : ∀ i, ix.decoded = some i → ¬ CallsRewards i := by
      rintro i hi (⟨n, rfl⟩ | ⟨n, rfl⟩ | ⟨n, rfl⟩ | rfl)
      · exact hs ⟨n, Or.inl hi⟩
      · exact hs ⟨n, Or.inr hi⟩
      · exact hu ⟨n, hi⟩
      · exact hh hi
    rw [hsame (by unfold holderAcc; rw [exec_record_same I h hcr])]
    by_cases hy : ix.decoded = some .harvestSolStakerRewards
    · exact (exec_covered_sync I h hy hck0 (CR ⟨by simp [Ix.settles, hy, StakeInstruction.settles], hck0⟩)).mono (by omega)
    · exact (exec_covered_quiet I O h hck0 hcr hy hX (fun hs => C fun e => hs e.1) (fun hs => CR ⟨hs, hck0⟩)).mono (by omega)
  · have hmono := exec_debit I O h hck0 hva (fun _ e => hck (by
      simp only [Env.vaultAuth, Key.vaultPda.injEq] at e; exact e.1.symm)) (Or.inl hg)
    have hrec : holderAcc env ck w' = holderAcc env ck w := by
      unfold holderAcc
      cases exec_record I RC h ck with
      | same e _ _ => rw [e]
      | moved e => rw [hck0] at e; exact absurd (by simpa using e) hck
    have hst : st w' ck = st w ck := hother ck (Ne.symm hck) fun hb => by
      rcases hcc : configAt w' ck with _ | c
      · exact hc' hcc
      · have := (exec_inv I O h).config_key hcc
        rw [hb.ofProgram] at this; simp at this
    rw [hsame hrec, hrec]
    refine ((C (fun e => hck (by have := e.2; rw [hck0] at this; simpa using this)) ?_).congr hst fun k hb => hother k ?_ ?_).mono (by omega)
    · rw [configAt_congr hst] at hc'; exact hc'
    · rintro rfl; rw [hb.ofProgram] at hkey; simp at hkey
    · intro hb'; exact hck (belongs_unique hb' hb)

/-- Every instruction keeps the claims covered, up to what it credits without cover. -/
theorem exec_covered (I : Inv env w) (O : o.Ok) (RC : RewardsContract o) (h : exec env o w ix = .ok w') {ck : Key}
    {t : Nat} (hT : TotalIs (stakedIn w ck) t) {s : Nat}
    (hle : t + s ≤ depositedFor env ck w) {m : Nat}
    (C : configAt w ck ≠ none → Covered X ck (holderAcc env ck w) ((w (env.vaultAuth ck)).lamports + m) w)
    (hX : configAt w ck = none → X ≤ scale * env.rentMin configLen) (hc' : configAt w' ck ≠ none) :
    Covered (X + growth (holderAcc env ck w) (holderAcc env ck w') * s) ck (holderAcc env ck w')
      ((w' (env.vaultAuth ck)).lamports + (m + payout env ck w w' + overCredit env ck w ix w')) w' :=
  exec_covered_gen I O RC h hT hle (fun _ => C) (fun _ hn => (C hn).ready I) hX hc'

theorem ClaimHistory.history {ck : Key} {n u : Nat} (H : ClaimHistory env ck w n u) :
    History env ck (fun _ _ _ => True) w n := by
  induction H with
  | genesis G => exact .genesis G
  | ext _ E K ih => exact .ext ih E K
  | exec _ O RC h ih => exact .exec ih O RC h trivial

/-- A step outside the program keeps the claims covered. -/
theorem ext_covered (I : Inv env w) (E : ExtStep w w') {ck : Key} (K : KeepsRecord env ck w w') {t : Nat}
    (hT : TotalIs (stakedIn w ck) t) {s : Nat} (hle : t + s ≤ depositedFor env ck w) {m : Nat}
    (C : Covered X ck (holderAcc env ck w) ((w (env.vaultAuth ck)).lamports + m) w) :
    Covered (X + growth (holderAcc env ck w) (holderAcc env ck w') * s) ck (holderAcc env ck w')
      ((w' (env.vaultAuth ck)).lamports + (m + payout env ck w w')) w' := by
  have hg : Guarded w (env.vaultAuth ck) := Or.inl rfl
  have hmono := ext_lamports E hg
  rcases K with e | ⟨e, h, e', hd⟩ | ⟨h, h', p, e, e', hd, hp, hl⟩
  · have hr : holderAcc env ck w' = holderAcc env ck w := by unfold holderAcc; rw [e]
    rw [hr, growth_self, Nat.zero_mul]
    exact (C.ext I E).mono (by omega)
  · have ht : t + s = 0 := by unfold depositedFor at hle; rw [e] at hle; simpa using hle
    obtain ⟨c, hcA, F⟩ := C
    have C' : Covered (X + growth (holderAcc env ck w) (holderAcc env ck w') * s) ck (holderAcc env ck w')
        ((w (env.vaultAuth ck)).lamports + m) w :=
      ⟨c, hcA, F.holder (q := 0) I (holderAcc_lt I.wf ck) hT (by
        rw [show t = 0 by omega, show s = 0 by omega]; simp)⟩
    exact (C'.ext I E).mono (by omega)
  · rw [holderAcc_some e] at C
    have hd0 : depositedFor env ck w = h.deposited := by unfold depositedFor; rw [e]; rfl
    rw [holderAcc_some e', holderAcc_some e, payout_some e e']
    exact ((C.moved I (holderAt_wf I.wf e) hT (s := s) (by omega) hp).ext I E).mono (by omega)

theorem genesis_config {w0 : World} (G : Genesis w0) (ck : Key) : configAt w0 ck = none := by
  cases e : configAt w0 ck with
  | none => rfl
  | some c =>
    obtain ⟨h1, h2⟩ := configAt_eq.1 e
    obtain ⟨m, hm⟩ := G.owned ck h1
    rw [hm] at h2; simp at h2

/-- What a config and its vault authority hold covers the stakers' claims, up to a lamport for each payout of holder
rewards and the lamports credited without cover. -/
theorem ClaimHistory.covered {ck : Key} {n u : Nat} (H : ClaimHistory env ck w n u) (hc : configAt w ck ≠ none) :
    Covered (scale * env.rentMin configLen) ck (holderAcc env ck w)
      ((w (env.vaultAuth ck)).lamports + (n + u)) w := by
  induction H with
  | genesis G => exact absurd (genesis_config G ck) hc
  | @ext w1 w2 n u H0 E K ih =>
    have I := reachable_inv H0.history.reachable
    have C := ih (by rw [← configAt_congr (ext_st I E ck)]; exact hc)
    obtain ⟨t, hT, hle⟩ := H0.history.backed
    have := ext_covered I E K hT (s := 0) (by omega) C
    rw [Nat.mul_zero, Nat.add_zero] at this
    exact this.mono (by omega)
  | exec H0 O RC h ih =>
    obtain ⟨t, hT, hle⟩ := H0.history.backed
    have := exec_covered (reachable_inv H0.history.reachable) O RC h hT (s := 0) (by omega) ih (fun _ => le_rfl) hc
    rw [Nat.mul_zero, Nat.add_zero] at this
    exact this.mono (by omega)

/-- A careful instruction credits nothing without cover. -/
theorem Careful.no_overCredit (I : Inv env w) (h : exec env o w ix = .ok w') {ck : Key} (P : Careful env ck w ix w') :
    overCredit env ck w ix w' = 0 := by
  by_cases hy : ix.decoded = some .harvestSolStakerRewards
  · exact sync_no_overCredit I h hy (P.2 hy)
  unfold overCredit
  split_ifs
  · split
    · rename_i n e; rw [P.1 ⟨n, Or.inl e⟩, growth_self, Nat.zero_mul]; exact lamportsUp_zero
    · rename_i n e; rw [P.1 ⟨n, Or.inr e⟩, growth_self, Nat.zero_mul]; exact lamportsUp_zero
    · rename_i e; exact absurd e hy
    · rfl
  · rfl

theorem History.careful {ck : Key} {n : Nat} (H : History env ck (Careful env ck) w n) : ClaimHistory env ck w n 0 := by
  induction H with
  | genesis G => exact .genesis G
  | ext _ E K ih => exact .ext ih E K
  | exec H0 O RC h P ih =>
    have := ClaimHistory.exec ih O RC h
    rwa [P.no_overCredit (reachable_inv H0.reachable) h] at this

theorem History.covered {ck : Key} {n : Nat} (H : History env ck (Careful env ck) w n) (hc : configAt w ck ≠ none) :
    Covered (scale * env.rentMin configLen) ck (holderAcc env ck w) ((w (env.vaultAuth ck)).lamports + n) w :=
  H.careful.covered hc

theorem currentAcc_eq (c : Config) (l : Nat) : currentAcc c l = accNow c l := rfl

/-- Covered claims, as amounts to be paid. -/
theorem Primed.accrued {ck : Key} {c : Config} {n : Nat} (hc : configAt w ck = some c)
    (C : Primed X ck (holderAcc env ck w) ((w (env.vaultAuth ck)).lamports + n) w) {r : Nat} (hr : scale * r ≤ X) :
    ∃ total, TotalIs (Verif.accrued env w ck) total ∧
      total + r ≤ (w ck).lamports + (w (env.vaultAuth ck)).lamports + n := by
  obtain ⟨c', hc', T, hT, hle⟩ := C
  rw [hc] at hc'; cases hc'
  have hs : ∀ k, scale * Verif.accrued env w ck k ≤ claim w ck (accNow c (w ck).lamports) (holderAcc env ck w) k := by
    intro k
    unfold Verif.accrued claim
    rw [hc]
    cases hd : stakeAt w k with
    | none => simp
    | some d =>
      simp only
      split_ifs
      · rw [currentAcc_eq, Nat.mul_add]
        exact Nat.add_le_add (Nat.mul_div_le _ _) (Nat.mul_div_le _ _)
      · simp
  obtain ⟨m, hm, hM⟩ := hT.below hs
  obtain ⟨t, _, ht⟩ := hT.below (g := Verif.accrued env w ck) fun k => by
    have := hs k
    have h1 : 1 * Verif.accrued env w ck k ≤ scale * Verif.accrued env w ck k := Nat.mul_le_mul_right _ (by decide)
    omega
  have e := (ht.mul scale).unique hM
  refine ⟨t, ht, ?_⟩
  have : scale * (t + r) ≤ scale * ((w ck).lamports + ((w (env.vaultAuth ck)).lamports + n)) := by
    rw [Nat.mul_add]; omega
  have := Nat.le_of_mul_le_mul_left this (by decide : 0 < scale)
  omega

theorem Covered.accrued (I : Inv env w) {ck : Key} {c : Config} {n : Nat} (hc : configAt w ck = some c)
    (C : Covered X ck (holderAcc env ck w) ((w (env.vaultAuth ck)).lamports + n) w) {r : Nat} (hr : scale * r ≤ X) :
    ∃ total, TotalIs (Verif.accrued env w ck) total ∧
      total + r ≤ (w ck).lamports + (w (env.vaultAuth ck)).lamports + n := (C.ready I).accrued hc hr

end Verif
