import Verif.Lemmas.Quiet
/-!
# Which accounts an instruction settles, and what leaves the config

An account is settled before its effective stake changes, and what leaves the config is what the settled accounts are owed.
-/

namespace Verif

open Props

variable {env : Env} {o : Oracle} {w w' w1 w2 : World} {ix : Ix}

/-- What a step does to a delegation of the config and to what it is paid. -/
inductive Treated (acc hacc : Nat) (d d' : Delegation) (p : Nat) : Prop
  | kept : d'.lastStake = d.lastStake → d'.lastHolder = d.lastHolder → d'.effective = d.effective → d'.staked = d.staked →
      p = 0 → Treated acc hacc d d' p
  | settled : d'.lastStake = acc → d'.lastHolder = hacc → p = due acc hacc d → Treated acc hacc d d' p

/-- Every stake account of `ck` keeps its markers and stake, or is settled and paid what it is due; `n` is paid in total. -/
structure Marked (ck : Key) (acc hacc : Nat) (w w' : World) (P : Key → Nat) (n : Nat) : Prop where
  none : ∀ k, belongs k ck → stakeAt w k = none → stakeAt w' k = none ∧ P k = 0
  some : ∀ k, belongs k ck → ∀ d, stakeAt w k = some d → ∃ d', stakeAt w' k = some d' ∧ Treated acc hacc d d' (P k)
  other : ∀ k, ¬ belongs k ck → P k = 0
  total : TotalIs P n

/-- The same, and the payments left the config. -/
def PaysOut (ck : Key) (acc hacc : Nat) (w w' : World) : Prop :=
  ∃ P n, Marked ck acc hacc w w' P n ∧ (w' ck).lamports + n = (w ck).lamports

theorem Treated.refl {acc hacc : Nat} {d : Delegation} : Treated acc hacc d d 0 := .kept rfl rfl rfl rfl rfl

theorem due_congr {acc hacc : Nat} {d d' : Delegation} (h1 : d'.lastStake = d.lastStake) (h2 : d'.lastHolder = d.lastHolder)
    (h3 : d'.effective = d.effective) (h4 : d'.staked = d.staked) : due acc hacc d' = due acc hacc d := by
  unfold due; rw [h1, h2, h3, h4]

theorem Treated.trans {acc hacc : Nat} {d d1 d2 : Delegation} {p q : Nat} (h1 : Treated acc hacc d d1 p)
    (h2 : Treated acc hacc d1 d2 q) : Treated acc hacc d d2 (p + q) := by
  cases h1 with
  | kept a1 a2 a3 a4 a5 =>
    cases h2 with
    | kept b1 b2 b3 b4 b5 => exact .kept (b1.trans a1) (b2.trans a2) (b3.trans a3) (b4.trans a4) (by rw [a5, b5])
    | settled b1 b2 b3 => exact .settled b1 b2 (by rw [a5, Nat.zero_add, b3, due_congr a1 a2 a3 a4])
  | settled a1 a2 a3 =>
    have hz : q = 0 := by
      cases h2 with
      | kept _ _ _ _ e => exact e
      | settled _ _ e => rw [e]; exact due_marked acc hacc a1 a2
    cases h2 with
    | kept b1 b2 b3 b4 b5 => exact .settled (b1.trans a1) (b2.trans a2) (by rw [hz, Nat.add_zero, a3])
    | settled b1 b2 b3 => exact .settled b1 b2 (by rw [hz, Nat.add_zero, a3])

theorem Marked.of_eq {ck : Key} {acc hacc : Nat} (h : ∀ k, belongs k ck → stakeAt w' k = stakeAt w k) :
    Marked ck acc hacc w w' (fun _ => 0) 0 :=
  ⟨fun k hb e => ⟨by rw [h k hb]; exact e, rfl⟩, fun k hb d e => ⟨d, by rw [h k hb]; exact e, .refl⟩, fun _ _ => rfl,
    TotalIs.zero fun _ => rfl⟩

theorem PaysOut.of_eq {ck : Key} {acc hacc : Nat} (h : ∀ k, belongs k ck → stakeAt w' k = stakeAt w k)
    (hl : (w' ck).lamports = (w ck).lamports) : PaysOut ck acc hacc w w' := ⟨_, _, .of_eq h, hl⟩

theorem PaysOut.trans {ck : Key} {acc hacc : Nat} (h1 : PaysOut ck acc hacc w w1) (h2 : PaysOut ck acc hacc w1 w') :
    PaysOut ck acc hacc w w' := by
  obtain ⟨P, n, M1, e1⟩ := h1
  obtain ⟨Q, m, M2, e2⟩ := h2
  refine ⟨fun k => P k + Q k, n + m, ⟨fun k hb e => ?_, fun k hb d e => ?_, fun k hb => ?_, M1.total.add M2.total⟩, by omega⟩
  · obtain ⟨a, b⟩ := M1.none k hb e
    obtain ⟨c, d⟩ := M2.none k hb a
    exact ⟨c, by rw [b, d]⟩
  · obtain ⟨d1, a, b⟩ := M1.some k hb d e
    obtain ⟨d2, a', b'⟩ := M2.some k hb d1 a
    exact ⟨d2, a', b.trans b'⟩
  · simp only [M1.other k hb, M2.other k hb]

theorem PaysOut.ext (I : Inv env w) {ck : Key} {acc hacc : Nat} (E : ExtStep w w') (hl : w' ck = w ck) : PaysOut ck acc hacc w w' :=
  .of_eq (fun k _ => ext_stakeAt I E k) (by rw [hl])

/-- One stake account is settled. -/
theorem PaysOut.one {ck sk : Key} {acc hacc : Nat} {d d' : Delegation} (hb : belongs sk ck) (hd : stakeAt w sk = some d)
    (hd' : stakeAt w' sk = some d') (ha : d'.lastStake = acc) (hh : d'.lastHolder = hacc)
    (h : ∀ k, belongs k ck → k ≠ sk → stakeAt w' k = stakeAt w k)
    (hl : (w' ck).lamports + due acc hacc d = (w ck).lamports) : PaysOut ck acc hacc w w' := by
  refine ⟨fun k => if k = sk then due acc hacc d else 0, due acc hacc d, ⟨fun k hbk e => ?_, fun k hbk x e => ?_, fun k hbk => ?_, ?_⟩, hl⟩
  · have hk : k ≠ sk := by rintro rfl; rw [hd] at e; simp at e
    exact ⟨by rw [h k hbk hk]; exact e, if_neg hk⟩
  · by_cases hk : k = sk
    · subst hk
      rw [hd] at e; cases e
      exact ⟨d', hd', .settled ha hh (if_pos rfl)⟩
    · refine ⟨x, by rw [h k hbk hk]; exact e, ?_⟩
      simp only [if_neg hk]; exact .refl
  · exact if_neg (by rintro rfl; exact hbk hb)
  · exact ⟨{sk}, fun k hk => if_neg (by simpa using hk), by simp⟩

theorem stakeAt_apart {ck k : Key} (hb : belongs k ck) (hk : ck.ofProgram = false) (ho : (w' k).owner = (w k).owner)
    (hd : k ≠ ck → (w' k).data = (w k).data) : stakeAt w' k = stakeAt w k :=
  stakeAt_congr (st_congr ho (hd (by rintro rfl; rw [hb.ofProgram] at hk; simp at hk)))

theorem Harvested.pays {ck hk auth sk : Key} {keeper : Option Key} {c : Config} {d : Delegation}
    {h : HolderRewards} {rs rh : Nat} (H : Harvested env w w' ck hk auth (env.vaultAuth ck) sk keeper c d h rs rh) (I : Inv env w)
    (hcO : (w ck).owner = progId) (hsO : (w sk).owner = progId) (hb : belongs sk ck) (hkp : keeper ≠ some ck) (ha : auth ≠ ck) :
    PaysOut ck (accNow c (w ck).lamports) (holderAcc env ck w) w w' := by
  refine .one hb (stakeAt_eq.2 ⟨hsO, H.del⟩) (stakeAt_eq.2 ⟨by rw [H.owner]; exact hsO, H.del'⟩) rfl H.record.symm
    (fun k hb hne => stakeAt_apart hb (I.config_key (configAt_eq.2 ⟨hcO, H.config⟩)) (H.owner k) fun hc => H.data' k hc hne) ?_
  have hA : d.authority ≠ ck := by rw [← H.auth_eq]; exact ha
  have := H.moves hkp hA ck
  rw [if_pos rfl, if_neg (Ne.symm hA), if_neg hkp] at this
  rw [← H.due_eq]; exact this

theorem Adjusted.pays {ck sk : Key} {D' : Data} {c : Config} {d d' : Delegation} {acc hacc : Nat}
    (A : Adjusted w w' ck sk D' c d d') (I : Inv env w) (hcO : (w ck).owner = progId) (hsO : (w sk).owner = progId)
    (hb : belongs sk ck) (ha : d.lastStake = acc) (hh : d.lastHolder = hacc) (ha' : d'.lastStake = d.lastStake)
    (hh' : d'.lastHolder = d.lastHolder) : PaysOut ck acc hacc w w' :=
  .one hb (stakeAt_eq.2 ⟨hsO, A.del⟩) (stakeAt_eq.2 ⟨by rw [A.owner]; exact hsO, by rw [A.stake']; exact A.del'⟩)
    (ha'.trans ha) (hh'.trans hh)
    (fun k hb hne => stakeAt_apart hb (I.config_key (configAt_eq.2 ⟨hcO, A.config⟩)) (A.owner k) fun hc => A.data' k hc hne)
    (by rw [due_marked acc hacc ha hh, Nat.add_zero, A.lamports])

theorem Retotaled.pays {ck hk auth sk : Key} {v : ValidatorStake} {total : Nat} {c : Config}
    {hr : HolderRewards} {rs rh : Nat} {c1 : Config} {d1 d2 : Delegation} {acc : Nat} (I : Inv env w)
    (R : Retotaled env w w' ck hk auth sk v total c hr rs rh w1 c1 d1 d2) (hcO : (w ck).owner = progId)
    (hb : belongs sk ck) (ha : auth ≠ ck) (S : Settled ck acc w) : PaysOut ck acc (holderAcc env ck w) w w' := by
  have e := (S.accNow I.wf R.harv.config).1
  have M := R.harv.pays I hcO R.owner hb (by simp) ha
  rw [e] at M
  refine M.trans (R.adj.pays (harvest_inv I R.harv hcO R.owner hb) (by rw [R.harv.owner]; exact hcO)
    (by rw [R.harv.owner]; exact R.owner) hb ?_ ?_ (by rw [R.d2_eq]; rfl) (by rw [R.d2_eq]; rfl))
  · rw [R.d1_eq]; exact e
  · rw [R.d1_eq]; exact R.harv.record.symm

theorem Left.pays (I : Inv env w) {a : HarvestSolStakerRewardsAccts} {s : SolStakerStake} {acc : Nat} (L : Left env w w' a s)
    (hcO : (w a.config).owner = progId) (ha : a.previousValidatorStakeAuthority ≠ a.config) (S : Settled a.config acc w) :
    PaysOut a.config acc (holderAcc env a.config w) w w' ∧ Settled a.config acc w' ∧
      holderAcc env a.config w' = holderAcc env a.config w := by
  cases L with
  | stay _ _ h => subst h; exact ⟨.of_eq (fun _ _ => rfl) rfl, S, rfl⟩
  | @leave v c hr rs rh w1 c1 d1 d2 _ hk _ R =>
    exact ⟨R.pays I hcO (by rw [hk]; simp [belongs]) ha S, R.settled I.wf (fun e => absurd e ha) S,
      holderAcc_fv (Left.fv (.leave ‹_› hk ‹_› R))⟩

theorem Joined.pays (I : Inv env w) {a : HarvestSolStakerRewardsAccts} {dv vote : Key} {ds n acc : Nat}
    (J : Joined env w w' a dv ds vote n) (hcO : (w a.config).owner = progId)
    (ha : a.currentValidatorStakeAuthority ≠ a.config) (S : Settled a.config acc w) :
    PaysOut a.config acc (holderAcc env a.config w) w w' := by
  cases J with
  | undelegated _ h => subst h; exact .of_eq (fun _ _ => rfl) rfl
  | absent _ _ _ h => subst h; exact .of_eq (fun _ _ => rfl) rfl
  | @join v c hr rs rh w1 c1 d1 d2 _ hk R => exact R.pays I hcO (by rw [hk]; simp [belongs]) ha S

theorem StakedOk.pays {ctx : Ctx} {a : StakeTokensAccts} {n : Nat} {c : Config} {d : Delegation} {hr : HolderRewards}
    {rs rh : Nat} {w3 : World} {D' : Data} {c1 : Config} {d1 d2 : Delegation} {ts td : TokenAccount}
    (S : StakedOk env o ctx w w' a n c d hr rs rh w1 w2 w3 D' c1 d1 d2 ts td) (I : Inv env w) (I1 : Inv env w1)
    (I2 : Inv env w2) (I3 : Inv env w3) (E3 : ExtStep w2 w3) (E4 : ExtStep w3 w') (L : o.Local)
    {l rest : List Key} (hl : l = a.list ++ rest) (g : ∀ q, q ≠ 0 → l[q]? ≠ some a.config) :
    PaysOut a.config (accNow c (w a.config).lamports) (holderAcc env a.config w) w w' := by
  subst hl
  have g1 := g 1 (by simp); have g2 := g 2 (by simp); have g4 := g 4 (by simp); have g5 := g 5 (by simp)
  have g8 := g 8 (by simp); have g9 := g 9 (by simp); have g10 := g 10 (by simp)
  simp [StakeTokensAccts.list] at g1 g2 g4 g5 g8 g9 g10
  refine (((S.harv.pays I S.cO S.sO S.bel (by simp) g4).trans
    (S.adj.pays I1 (by rw [S.harv.owner]; exact S.cO) (by rw [S.harv.owner]; exact S.sO) S.bel
    (by rw [S.d1_eq]; rfl) (by rw [S.d1_eq]; exact S.harv.record.symm) (by rw [S.rest]) (by rw [S.rest]))).trans
      (.ext I2 E3 (S.transfer.same (Ne.symm g5) (Ne.symm g9)))).trans (.ext I3 E4 ?_)
  exact L.deposit S.deposit _ (by
    simp [RewardsCall.accounts, StakeTokensAccts.call, Ne.symm g1, Ne.symm g2, Ne.symm g8, Ne.symm g9, Ne.symm g10])

theorem UnstakedOk.pays {ctx : Ctx} {a : UnstakeTokensAccts} {n : Nat} {c : Config} {d : Delegation} {hr : HolderRewards}
    {rs rh : Nat} {w3 : World} {D' : Data} {c1 : Config} {d1 d2 : Delegation} {call : RewardsCall} {ts td : TokenAccount}
    (S : UnstakedOk env o ctx w w' a n c d hr rs rh w1 w2 w3 D' c1 d1 d2 call ts td) (I : Inv env w) (I1 : Inv env w1)
    (I2 : Inv env w2) (I3 : Inv env w3) (E3 : ExtStep w2 w3) (E4 : ExtStep w3 w') (L : o.Local)
    {l rest : List Key} (hl : l = a.list ++ rest) (g : ∀ q, q ≠ 0 → l[q]? ≠ some a.config) :
    PaysOut a.config (accNow c (w a.config).lamports) (holderAcc env a.config w) w w' := by
  subst hl
  have g1 := g 1 (by simp); have g2 := g 2 (by simp); have g4 := g 4 (by simp); have g5 := g 5 (by simp)
  have g6 := g 6 (by simp); have g7 := g 7 (by simp); have g9 := g 9 (by simp)
  simp [UnstakeTokensAccts.list] at g1 g2 g4 g5 g6 g7 g9
  refine (((S.harv.pays I S.cO S.sO S.bel (by simp) g4).trans
    (S.adj.pays I1 (by rw [S.harv.owner]; exact S.cO) (by rw [S.harv.owner]; exact S.sO) S.bel
    (by rw [S.d1_eq]; rfl) (by rw [S.d1_eq]; exact S.harv.record.symm) (by rw [S.rest]) (by rw [S.rest]))).trans
      (.ext I2 E3 ?_)).trans (.ext I3 E4 (S.transfer.same (Ne.symm g5) (Ne.symm g9)))
  exact L.withdraw S.withdraw _ (by
      rw [S.call_eq]
      simp [RewardsCall.accounts, UnstakeTokensAccts.call, Ne.symm g1, Ne.symm g2, Ne.symm g5, Ne.symm g6, Ne.symm g7])

theorem SlashedOk.pays {ctx : Ctx} {a : SlashAccts} {n : Nat} {c : Config} {d : Delegation} {hr : HolderRewards}
    {rs rh : Nat} {D' : Data} {c1 : Config} {d1 d2 : Delegation}
    (S : SlashedOk env ctx w w' a n c d hr rs rh w1 w2 D' c1 d1 d2) (I : Inv env w) (I1 : Inv env w1) (E : ExtStep w1 w2)
    (I2 : Inv env w2) (g2 : a.stakeAuthority ≠ a.config) (g3 : a.vault ≠ a.config) (g4 : a.mint ≠ a.config) :
    PaysOut a.config (accNow c (w a.config).lamports) (holderAcc env a.config w) w w' := by
  have e : w2 a.config = w1 a.config := by
    rcases S.burn with ⟨_, e⟩ | ⟨_, t, m, B⟩
    · rw [e]
    · exact B.same (Ne.symm g3) (Ne.symm g4)
  have hva : a.vaultAuthority = env.vaultAuth a.config := by
    rw [S.vaultAuth, (I.config _ c (configAt_eq.2 ⟨S.cO, S.harv.config⟩)).bump]; rfl
  have H := S.harv
  rw [hva] at H
  have hsA : stakeAt w2 a.stake = _ := ext_stakeAt I1 E a.stake
  rw [stakeAt_eq.2 ⟨by rw [H.owner]; exact S.sO, H.del'⟩] at hsA
  exact ((H.pays I S.cO S.sO S.bel (by simp) g2).trans (.ext I1 E e)).trans
    (S.adj.pays I2 (by rw [e, H.owner]; exact S.cO) (stakeAt_eq.1 hsA).1 S.bel (by rw [S.d1_eq]; rfl)
      (by rw [S.d1_eq]; exact H.record.symm) (by rw [S.rest]) (by rw [S.rest]))

/-- What an instruction other than `HarvestHolderRewards` does to the stake accounts of its config: it settles some and pays
them from the config, or creates one without stake. -/
theorem exec_pays (I : Inv env w) (O : o.Ok) (L : o.Local) (h : exec env o w ix = .ok w') {ck : Key} {c0 : Config}
    (hc0 : configAt w ck = some c0) (hck : ix.config = some ck)
    (honce : ∀ p q, ix.acct p = some ck → ix.acct q = some ck → p = q) :
    PaysOut ck (accNow c0 (w ck).lamports) (holderAcc env ck w) w w' ∨
      (ix.decoded = some .harvestHolderRewards ∧ ∀ k, belongs k ck → stakeAt w' k = stakeAt w k) ∨
      ∃ sk d, belongs sk ck ∧ stakeAt w sk = none ∧ stakeAt w' sk = some d ∧ d.effective = 0 ∧ d.lastStake = 0 ∧
        (w' ck).lamports = (w ck).lamports ∧ ∀ k, k ≠ sk → stakeAt w' k = stakeAt w k := by
  have hO0 := (configAt_eq.1 hc0).1
  have hd0 := (configAt_eq.1 hc0).2
  have hkey := I.config_key hc0
  cases exec_ran h with
  | initializeConfig a s c hh t b y rest hi hl hr =>
    have hc : a.config = ck := by simpa [Ix.config, hi, Ix.acct, hl, InitializeConfigAccts.list] using hck
    subst hc
    obtain ⟨w1, bb, t', hpda, hempty, hw1, _, _, _, _, _, _, hO, hb, _, _, _, _, hw'⟩ := initializeConfig_ok hr
    rw [hd0] at hb; simp at hb
  | initializeValidatorStake a rest hi hl hr =>
    have hc : a.config = ck := by simpa [Ix.config, hi, Ix.acct, hl, InitializeValidatorStakeAccts.list] using hck
    subst hc
    obtain ⟨c, wd, hcO, hc, _, _, hdu, hk, hb, ho, _, hw'⟩ := initializeValidatorStake_ok hr
    have hst : st w' = stUpd (st w) _ _ := (congrArg st hw').trans (st_setN (Or.inr ⟨_, rfl⟩))
    have g := once_ne honce (p := 0) (by simp [Ix.acct, hl, InitializeValidatorStakeAccts.list])
    have e := exec_same I.wf L h hi (k := a.config) (by
      intro p hp; simp [footprint] at hp; subst hp; exact g 2 (by simp))
    refine .inr (.inr ⟨a.validatorStake, freshDel wd a.validatorVote, by rw [hk]; simp [belongs], ?_, ?_, rfl, rfl, by rw [e],
      fun k hne => ?_⟩)
    · rw [stakeAt_eq', hb]; simp [Data.del?]
    · rw [stakeAt_st, hst]; simp [stUpd, Data.del?]
    · exact stakeAt_congr (by rw [hst]; simp [stUpd, hne])
  | initializeSolStakerStake a rest hi hl hr =>
    have hc : a.config = ck := by simpa [Ix.config, hi, Ix.acct, hl, InitializeSolStakerStakeAccts.list] using hck
    subst hc
    obtain ⟨c, v, vs, au, hcO, hc, _, hv, hdv, hwd, hdu, hvO, hk1, hvs, hk2, hb, ho, hov, hau, hrent, hlt, hw'⟩ :=
      initializeSolStakerStake_ok hr
    have hne : a.validatorStake ≠ a.solStakerStake := by rw [hk1, hk2]; simp
    have hst : st w' = stUpd (stUpd (st w) _ _) _ _ :=
      (congrArg st hw').trans ((st_setD (by simp [World.setN_owner, hvO]) (Or.inr ⟨_, rfl⟩)).trans
        (by rw [st_setN (Or.inr ⟨_, rfl⟩)]))
    have g := once_ne honce (p := 0) (by simp [Ix.acct, hl, InitializeSolStakerStakeAccts.list])
    have e := exec_same I.wf L h hi (k := a.config) (by
      intro p hp; simp [footprint] at hp; exact g p (by omega))
    refine .inr (.inr ⟨a.solStakerStake, freshDel (au.getD v.withdrawer) v.delegatedVote, by rw [hk2]; simp [belongs],
      by rw [stakeAt_eq', hb]; simp [Data.del?], ?_, rfl, rfl, by rw [e], fun k hkk => ?_⟩)
    · rw [stakeAt_st, hst]; simp [stUpd, Ne.symm hne, Data.del?]
    · by_cases hkv : k = a.validatorStake
      · subst hkv
        rw [stakeAt_st, hst, stakeAt_eq.2 ⟨hvO, by rw [hvs]; rfl⟩]
        simp [stUpd, Data.del?]
      · refine stakeAt_congr ?_
        rw [hst]; simp [stUpd, hkk, hkv]
  | setAuthority a t rest hi hl hr =>
    have hc : a.account = ck := by simpa [Ix.config, hi, Ix.acct, hl, SetAuthorityAccts.list] using hck
    subst hc
    obtain ⟨c, c', _, hO, hc, hw', hm⟩ := setAuthority_ok hr
    exact .inl (.of_eq (fun k hb => stakeAt_apart hb hkey (by rw [hw']; simp) fun hne => by
      rw [hw']; simp [World.setD_data, hne]) (by rw [hw']; simp))
  | updateConfig a f rest hi hl hr =>
    have hc : a.config = ck := by simpa [Ix.config, hi, Ix.acct, hl, UpdateConfigAccts.list] using hck
    subst hc
    obtain ⟨c, hO, hc, _, _, _, _, hw'⟩ := updateConfig_ok hr
    exact .inl (.of_eq (fun k hb => stakeAt_apart hb hkey (by rw [hw']; simp) fun hne => by
      rw [hw']; simp [World.setD_data, hne]) (by rw [hw']; simp))
  | validatorSyncAuthority a rest hi hl hr =>
    obtain ⟨s, wd, hO, ⟨c, hc⟩, hk, hs, _, _, _, hw'⟩ := validatorSyncAuthority_ok hr
    have hO : (w a.validatorStake).owner = progId := by
      by_contra hn
      have := (I.unowned _ (by rw [hk]; rfl) hn).2
      rw [hs] at this; simp at this
    have hsd : stakeAt w a.validatorStake = some s.del := stakeAt_eq.2 ⟨hO, by rw [hs]; rfl⟩
    have hsd' : stakeAt w' a.validatorStake = some { s.del with authority := wd } :=
      stakeAt_eq.2 ⟨by rw [hw']; simp [hO], by rw [hw']; simp [World.setD_data, Data.del?]⟩
    have e : ∀ k, k ≠ a.validatorStake → stakeAt w' k = stakeAt w k := fun k hkk =>
      stakeAt_congr (st_congr (by rw [hw']; simp) (by rw [hw']; simp [World.setD_data, hkk]))
    refine .inl ⟨fun _ => 0, 0, ⟨fun k hb ek => ⟨?_, rfl⟩, fun k hb d ek => ?_, fun _ _ => rfl, TotalIs.zero fun _ => rfl⟩,
      by rw [hw']; simp⟩
    · rw [e k (by rintro rfl; rw [hsd] at ek; simp at ek)]; exact ek
    · by_cases hkk : k = a.validatorStake
      · subst hkk
        rw [hsd] at ek; cases ek
        exact ⟨_, hsd', .kept rfl rfl rfl rfl rfl⟩
      · exact ⟨d, by rw [e k hkk]; exact ek, .refl⟩
  | validatorStakeTokens a n rest hi hl hr =>
    obtain ⟨a, rest, c, d, hr, rs, rh, w1, w2, w3, D', c1, d1, d2, ts, td, hl, S, I1, I2, I3, E3, E4⟩ :=
      exec_stake_steps I O h (Or.inl hi)
    have hc : a.config = ck := by simpa [Ix.config, hi, Ix.acct, hl, StakeTokensAccts.list] using hck
    subst hc
    have := S.harv.config; rw [hd0] at this; cases this
    exact .inl (S.pays I I1 I2 I3 E3 E4 L hl (once_ne honce (by simp [Ix.acct, hl, StakeTokensAccts.list])))
  | solStakerStakeTokens a n rest hi hl hr =>
    obtain ⟨a, rest, c, d, hr, rs, rh, w1, w2, w3, D', c1, d1, d2, ts, td, hl, S, I1, I2, I3, E3, E4⟩ :=
      exec_stake_steps I O h (Or.inr hi)
    have hc : a.config = ck := by simpa [Ix.config, hi, Ix.acct, hl, StakeTokensAccts.list] using hck
    subst hc
    have := S.harv.config; rw [hd0] at this; cases this
    exact .inl (S.pays I I1 I2 I3 E3 E4 L hl (once_ne honce (by simp [Ix.acct, hl, StakeTokensAccts.list])))
  | unstakeTokens a n rest hi hl hr =>
    obtain ⟨a, rest, c, d, hr, rs, rh, w1, w2, w3, D', c1, d1, d2, call, ts, td, hl, S, I1, I2, I3, E3, E4⟩ :=
      exec_unstake_steps I O h hi
    have hc : a.config = ck := by simpa [Ix.config, hi, Ix.acct, hl, UnstakeTokensAccts.list] using hck
    subst hc
    have := S.harv.config; rw [hd0] at this; cases this
    exact .inl (S.pays I I1 I2 I3 E3 E4 L hl (once_ne honce (by simp [Ix.acct, hl, UnstakeTokensAccts.list])))
  | harvestHolderRewards a rest hi hl hr =>
    have hc : ix.acct 0 = some ck := by simpa [Ix.config, hi] using hck
    obtain ⟨c, w1, w2, call, hcc, _, hw1, _, _, _, I1, E, _, _, _, _, ho, hvd, hO⟩ := exec_holder_steps I O h hi hc
    refine .inr (.inl ⟨hi, fun k hb => ?_⟩)
    have hne : k ≠ ck := by rintro rfl; rw [hb.ofProgram] at hkey; simp at hkey
    have e1 : stakeAt w1 k = stakeAt w k :=
      stakeAt_apart hb hkey (by rw [hw1]; simp) fun _ => by rw [hw1]; simp [World.setD_data, hne]
    have e2 : stakeAt w' k = stakeAt w2 k := by
      by_cases hk2 : k = env.vaultAuth ck
      · subst hk2
        exact stakeAt_congr (st_congr (hO _) hvd)
      · exact stakeAt_congr (st_congr (by rw [ho k hne hk2]) (by rw [ho k hne hk2]))
    rw [e2, ext_stakeAt I1 E, e1]
  | slashValidatorStake a n rest hi hl hr =>
    have hc : a.config = ck := by simpa [Ix.config, hi, Ix.acct, hl, SlashAccts.listValidator] using hck
    subst hc
    have g := once_ne honce (p := 0) (by simp [Ix.acct, hl, SlashAccts.listValidator])
    obtain ⟨c, s, hr, rs, rh, w1, w2, c1, hs, hk, S⟩ := slashValidatorStake_ok hr
    have := S.harv.config; rw [hd0] at this; cases this
    obtain ⟨I1, E, I2, _⟩ := slashValidatorStake_inv I hs S
    exact .inl (S.pays I I1 E I2 (by simpa [hl, SlashAccts.listValidator] using g 2)
      (by simpa [hl, SlashAccts.listValidator] using g 4) (by simpa [hl, SlashAccts.listValidator] using g 7))
  | slashSolStakerStake a n rest hi hl hr =>
    have hc : a.config = ck := by simpa [Ix.config, hi, Ix.acct, hl, SlashAccts.listSolStaker] using hck
    subst hc
    have g := once_ne honce (p := 0) (by simp [Ix.acct, hl, SlashAccts.listSolStaker])
    obtain ⟨c, s, hr, rs, rh, w1, w2, c1, hs, hk, S⟩ := slashSolStakerStake_ok hr
    have := S.harv.config; rw [hd0] at this; cases this
    obtain ⟨I1, E, I2, _⟩ := slashSolStakerStake_inv I hs S
    exact .inl (S.pays I I1 E I2 (by simpa [hl, SlashAccts.listSolStaker] using g 2)
      (by simpa [hl, SlashAccts.listSolStaker] using g 5) (by simpa [hl, SlashAccts.listSolStaker] using g 4))
  | harvestValidatorRewards a rest hi hl hr =>
    have hc : a.config = ck := by simpa [Ix.config, hi, Ix.acct, hl, HarvestValidatorRewardsAccts.list] using hck
    subst hc
    have g := once_ne honce (p := 0) (by simp [Ix.acct, hl, HarvestValidatorRewardsAccts.list])
    obtain ⟨c, s, hr, rs, rh, hcO, hsO, hs, hk, H⟩ := harvestValidatorRewards_ok hr
    have := H.config; rw [hd0] at this; cases this
    exact .inl (H.pays I hcO hsO (by rw [hk]; simp [belongs]) (by simp)
      (by simpa [hl, HarvestValidatorRewardsAccts.list] using g 3))
  | harvestSolStakerRewards a keeper rest hi hl hk hr =>
    have hc : a.config = ck := by simpa [Ix.config, hi, Ix.acct, hl, HarvestSolStakerRewardsAccts.list] using hck
    subst hc
    have g := once_ne honce (p := 1) (by simp [Ix.acct, hl, HarvestSolStakerRewardsAccts.list])
    obtain ⟨s, v, c, hr, rs, rh, w1, Bs, H⟩ := harvestSolStakerRewards_ok I.wf hr
    have bs : belongs a.solStakerStake a.config := by rw [Bs.sk]; simp [belongs]
    have hkp : keeper ≠ a.config := by simpa [hl, HarvestSolStakerRewardsAccts.list] using g 11
    have g4 : a.solStakerStakeAuthority ≠ a.config := by simpa [hl, HarvestSolStakerRewardsAccts.list] using g 4
    cases H with
    | noSync _ _ H hw =>
      subst hw
      have := H.config; rw [hd0] at this; cases this
      exact .inl (H.pays I Bs.cO Bs.sO bs (by simp) g4)
    | @sync kp w2 w3 vote l c1 d1 d2 _ hkr H L' J hd1 hd2 A =>
      have := H.config; rw [hd0] at this; cases this
      have hkp' : kp = keeper := by rw [hk] at hkr; split_ifs at hkr; simpa using hkr.symm
      subst hkp'
      have I1 := harvest_inv I H Bs.cO Bs.sO bs
      have hc1 : (w1 a.config).owner = progId := by rw [H.owner]; exact Bs.cO
      have I2 := L'.inv I1 hc1
      have hc2 : (w2 a.config).owner = progId := by rw [L'.owner]; exact hc1
      have I3 := J.inv I2 hc2
      have S1 := H.settled (by simpa using hkp) (fun e => absurd e g4)
      have e1 : holderAcc env a.config w1 = holderAcc env a.config w := H.holderAcc' _
      obtain ⟨P2, S2, e2⟩ := L'.pays I1 hc1 (by simpa [hl, HarvestSolStakerRewardsAccts.list] using g 7) S1
      have P3 := J.pays I2 hc2 (by simpa [hl, HarvestSolStakerRewardsAccts.list] using g 9) S2
      rw [e2, e1] at P3
      rw [e1] at P2
      exact .inl ((((H.pays I Bs.cO Bs.sO bs (by simpa using hkp) g4).trans P2).trans P3).trans
        (A.pays I3 (by rw [J.owner]; exact hc2) (by rw [J.owner, L'.owner, H.owner]; exact Bs.sO) bs (by rw [hd1]; rfl)
          (by rw [hd1]; exact H.record.symm) (by rw [hd2]; rfl) (by rw [hd2]; rfl)))
  | solStakerMoveTokens a n rest hi hl hr =>
    have hc : a.config = ck := by simpa [Ix.config, hi, Ix.acct, hl, SolStakerMoveTokensAccts.list] using hck
    subst hc
    have g := once_ne honce (p := 0) (by simp [Ix.acct, hl, SolStakerMoveTokensAccts.list])
    have g2 : a.solStakerAuthority ≠ a.config := by simpa [hl, SolStakerMoveTokensAccts.list] using g 2
    obtain ⟨c, c', s, t, hr, rs, rh, rs', rh', w1, w2, wx, cs, ct, ds, dt, ds', dt', M⟩ := solStakerMoveTokens_ok hr
    obtain ⟨I1, I2, Ix, _⟩ := solStakerMoveTokens_inv I M
    have o1 : ∀ k, (w1 k).owner = (w k).owner := M.harvS.owner
    have o2 : ∀ k, (w2 k).owner = (w k).owner := fun k => by rw [M.harvT.owner, o1]
    have ox : ∀ k, (wx k).owner = (w k).owner := fun k => by rw [M.adjS.owner, o2]
    have hcc : c = c0 := by have := M.harvS.config; rw [hd0] at this; cases this; rfl
    subst hcc
    obtain ⟨S1, _⟩ := M.harvS.settled' hd0 M.cO g2
    have e1 := (S1.accNow I1.wf M.harvT.config).1
    have bS : belongs a.sourceSolStakerStake a.config := by rw [M.sk]; simp [belongs]
    have bT : belongs a.destinationSolStakerStake a.config := by rw [M.tk]; simp [belongs]
    have M1 := M.harvS.pays I M.cO M.sO bS (by simp) g2
    have M2 := M.harvT.pays I1 (by rw [o1]; exact M.cO) (by rw [o1]; exact M.tO) bT (by simp) g2
    rw [e1, M.harvS.holderAcc'] at M2
    refine .inl (((M1.trans M2).trans (M.adjS.pays I2 (by rw [o2]; exact M.cO) (by rw [o2]; exact M.sO) bS
      (by rw [M.ds_eq]; rfl) (by rw [M.ds_eq]; exact M.harvS.record.symm) (by rw [M.ds'_eq]; rfl) (by rw [M.ds'_eq]; rfl))).trans
      (M.adjT.pays Ix (by rw [ox]; exact M.cO) (by rw [ox]; exact M.tO) bT
      (by rw [M.dt_eq]; exact e1) (by rw [M.dt_eq]; exact M.harvS.record.symm) (by rw [M.dt'_eq]; rfl) (by rw [M.dt'_eq]; rfl)))
  | validatorOverrideStakedLamports a n rest hi hl hr =>
    have hc : a.config = ck := by
      simpa [Ix.config, hi, Ix.acct, hl, ValidatorOverrideStakedLamportsAccts.list] using hck
    subst hc
    obtain ⟨c, s, hr, rs, rh, w1, c1, hcO, hsO, hs, hk, _, _, _, H, A⟩ := validatorOverrideStakedLamports_ok hr
    have bs : belongs a.validatorStake a.config := by rw [hk]; simp [belongs]
    have := H.config; rw [hd0] at this; cases this
    have g := once_ne honce (p := 0) (by simp [Ix.acct, hl, ValidatorOverrideStakedLamportsAccts.list])
    exact .inl ((H.pays I hcO hsO bs (by simp) (by simpa [hl, ValidatorOverrideStakedLamportsAccts.list] using g 3)).trans
      (A.pays (harvest_inv I H hcO hsO bs) (by rw [H.owner]; exact hcO)
      (by rw [H.owner]; exact hsO) bs rfl H.record.symm rfl rfl))

end Verif
