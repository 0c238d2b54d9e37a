import Verif.Lemmas.LiveMove
import Verif.Lemmas.Totals
/-!
# Success of harvests of SOL stakers
-/

namespace Verif

variable {env : Env} {o : Oracle} {w w' u u' : World} {ix : Ix}

/-- `harvest_live` with a keeper. -/
theorem harvest_live_keeper (I : Inv env w) {ck k kp : Key} {c : Config} {d : Delegation} (P : Payable env w ck k c d)
    (hkp : kp ≠ ck) (hkr : (w kp).lamports + accrued env w ck k < 2 ^ 64) :
    ∃ w', harvest env w ck (vaultRecord env ck) d.authority (env.vaultAuth ck) k (some kp) = .ok w' := by
  obtain ⟨hcO, hc, hsO, hd, hne⟩ := P.facts
  have hl : (w ck).lamports < U64 := (I.wf.1 ck).1
  have hlast := (I.config ck c P.config).last_le
  obtain ⟨c1, hc1⟩ := syncConfigLamports_live hlast hl
  obtain ⟨_, e1⟩ := syncConfigLamports_ok hc1
  obtain ⟨h, hh⟩ := Option.isSome_iff_exists.1 P.record
  have hh' := holderAt_data.1 hh
  have hacc : holderAcc env ck w = h.lastAcc := by unfold holderAcc; rw [hh, Option.map_some, Option.getD_some]
  have hdue := accrued_eq (env := env) P.config P.stake P.belongs
  have hf := P.funds
  have hroom := P.room
  have f1 := P.fitsStake
  have f2 := P.fitsHolder
  rw [hdue] at hf hroom hkr
  unfold due at hf hroom hkr
  rw [hacc] at hf hroom f2 hkr
  rw [show currentAcc c (w ck).lamports = accNow c (w ck).lamports from rfl] at f1
  generalize hrs : growth d.lastStake (accNow c (w ck).lamports) * d.effective / scale = rs at hf hroom hkr
  generalize hrh : growth d.lastHolder h.lastAcc * d.staked / scale = rh at hf hroom hkr
  have g1 := eligible_live (current := accNow c (w ck).lamports) (last := d.lastStake) (balance := d.effective) f1
    (by rw [hrs]; omega)
  have g2 := eligible_live (current := h.lastAcc) (last := d.lastHolder) (balance := d.staked) f2
    (by rw [hrh]; omega)
  rw [hrs] at g1
  rw [hrh] at g2
  have hle : min (rs + rh) c1.syncRewards ≤ rs + rh := Nat.min_le_left _ _
  simp only [harvest, bind_ok, require_ok, exists_unit, unpackConfig_ok, readDel_ok, unpackHolder_ok, addU64_ok,
    subU64_ok, setLamports_ok, setData_ok, writeDel, payKeeper, keeperReward]
  refine ⟨_, c, hc, d, hd, rfl, c1, hc1, rs, by rw [e1]; exact g1, rfl, h, hh', rh, g2, _, ⟨by omega, rfl⟩, _,
    ⟨by omega, rfl⟩, by omega, _, ⟨_, ⟨by unfold U64; omega, rfl⟩, Or.inl (by omega), rfl⟩, _, ⟨hle, rfl⟩, _,
    ⟨?_, rfl⟩, _, ⟨Or.inr (by simpa using hcO), rfl⟩,
    _, ⟨Or.inl ?_, rfl⟩, _, ⟨Or.inr (by simpa using hcO), rfl⟩, Or.inr (by simpa using hsO), rfl⟩
  · rw [World.setL_lamports]
    unfold U64
    split_ifs with e
    · subst e; omega
    · omega
  · simp only [World.setL_lamports, if_neg P.payee]
    omega

/-- How far a harvest has come: the config is up to date, `paid` lamports have been paid in total since `w`, the
effective total is at most `eff`. -/
structure Stage (env : Env) (w u : World) (ck : Key) (acc paid eff : Nat) : Prop where
  inv : Inv env u
  cO : (w ck).owner = progId
  owner : ∀ k, (u k).owner = (w k).owner
  settled : Settled ck acc u
  hacc : holderAcc env ck u = holderAcc env ck w
  record : (holderAt u (vaultRecord env ck)).isSome = true
  config : (u ck).lamports + paid = (w ck).lamports
  others : ∀ k, k ≠ ck → (u k).lamports ≤ (w k).lamports + paid
  eff : ∀ c, configAt u ck = some c → c.effTotal ≤ eff

/-- Settling a validator and giving it a new total is a step. -/
theorem Stage.step {ck hk auth k : Key} {acc paid eff t : Nat} (G : Stage env w u ck acc paid eff) {v : ValidatorStake}
    {c0 : Config} {hr : HolderRewards} {rs rh : Nat} {w1 : World} {c1 : Config} {d1 d2 : Delegation}
    (R : Retotaled env u u' ck hk auth k v t c0 hr rs rh w1 c1 d1 d2) (hb : belongs k ck) (hau : v.del.authority ≠ ck) :
    Stage env w u' ck acc (paid + due acc (holderAcc env ck w) v.del) (eff + v.del.staked) := by
  obtain ⟨cu, hcu, hcu1, hcu2⟩ := id G.settled
  have hcO : (u ck).owner = progId := by rw [G.owner]; exact G.cO
  have hcfg : configAt u ck = some cu := configAt_eq.2 ⟨hcO, hcu⟩
  have H := R.harv
  have A := R.adj
  have hvd := R.data
  have hcc : c0 = cu := by have := H.config; rw [hcu] at this; simpa using this.symm
  subst hcc
  have hlc := G.config
  have hef := G.eff _ hcfg
  have hdue : rs + rh = due acc (holderAcc env ck w) v.del := by
    rw [R.due_eq G.inv.wf G.settled, G.hacc]
  have hm := R.moves hau
  rw [hdue] at hm
  refine ⟨(R.inv G.inv hcO hb).2, G.cO, fun x => by rw [R.owner', G.owner], R.settled G.inv.wf (fun e => absurd (H.auth_eq ▸ e) hau) G.settled,
    by rw [R.record, G.hacc], ?_, ?_, ?_, ?_⟩
  · obtain ⟨x, hx⟩ := Option.isSome_iff_exists.1 G.record
    have hx' := holderAt_data.1 hx
    have h1 : vaultRecord env ck ≠ ck := by intro e; rw [e, hcu] at hx'; cases hx'
    have h2 : vaultRecord env ck ≠ k := by intro e; rw [e, hvd] at hx'; cases hx'
    rw [holderAt_data.2 ((R.data_other h1 h2).trans hx')]; rfl
  · have := hm ck
    rw [if_pos rfl, if_neg (Ne.symm hau)] at this
    omega
  · intro x hx
    have h1 := hm x
    have h2 := G.others x hx
    rw [if_neg hx] at h1
    split_ifs at h1 <;> omega
  · intro c hc
    have h1 := (configAt_eq.1 hc).2
    rw [A.config'] at h1
    have h2 : c1.effTotal = c0.effTotal := by
      have := A.config
      rw [H.config_data] at this
      cases this; rfl
    cases h1
    show c1.effTotal - _ + d2.effective ≤ _
    have h3 : d2.effective = min v.del.staked (cap (max t v.min)) := by rw [R.d2_eq]; rfl
    omega

theorem retotal_live {ck k : Key} {acc paid eff t : Nat} (G : Stage env w u ck acc paid eff) {v : ValidatorStake}
    (hv : validatorAt u k = some v) (hb : belongs k ck) (hau : v.del.authority ≠ ck)
    (f1 : growth v.del.lastStake acc * v.del.effective < 2 ^ 128)
    (f2 : growth v.del.lastHolder (holderAcc env ck w) * v.del.staked < 2 ^ 128)
    (funds : due acc (holderAcc env ck w) v.del + paid + env.rentMin configLen ≤ (w ck).lamports)
    (room : (w v.del.authority).lamports + paid + due acc (holderAcc env ck w) v.del < 2 ^ 64)
    (ht : t < 2 ^ 64) (hcap : cap (max t v.min) < 2 ^ 64) (heff : eff + v.del.staked < 2 ^ 64) :
    ∃ w1 c0 hr rs rh c1 d1 d2 u',
      harvest env u ck (vaultRecord env ck) v.del.authority (env.vaultAuth ck) k none = .ok w1 ∧
      (w1 k).data = .validator { v with del := d1 } ∧
      syncEffective (w1.setD k (.validator { v with del := d1, total := t })) ck k t v.min = .ok u' ∧
      Retotaled env u u' ck (vaultRecord env ck) v.del.authority k v t c0 hr rs rh w1 c1 d1 d2 ∧
      Stage env w u' ck acc (paid + due acc (holderAcc env ck w) v.del) (eff + v.del.staked) := by
  obtain ⟨cu, hcu, hcu1, hcu2⟩ := id G.settled
  have hcO : (u ck).owner = progId := by rw [G.owner]; exact G.cO
  have hcfg : configAt u ck = some cu := configAt_eq.2 ⟨hcO, hcu⟩
  have hst := stakeAt_validator hv
  have eacc : accrued env u ck k = due acc (holderAcc env ck w) v.del := by
    rw [accrued_settled G.settled G.inv.wf hcO, dueAt_some hst hb, G.hacc]
  have ecur : currentAcc cu (u ck).lamports = acc := (G.settled.accNow G.inv.wf hcu).1
  have hlc := G.config
  have hlo := G.others _ hau
  have P : Payable env u ck k cu v.del := by
    refine ⟨hcfg, hst, hb, G.record, ?_, ?_, ?_, hau, ?_⟩
    · rw [ecur]; exact f1
    · rw [G.hacc]; exact f2
    · rw [eacc]; omega
    · rw [eacc]; omega
  obtain ⟨w1, hw1⟩ := harvest_live G.inv P
  obtain ⟨c0, d0, hr, rs, rh, H⟩ := harvest_ok hw1
  obtain ⟨hvO, hvd⟩ := validatorAt_eq.1 hv
  obtain ⟨hdd, hvd'⟩ := H.validator' hvd
  subst hdd
  have hcc : c0 = cu := by have := H.config; rw [hcu] at this; simpa using this.symm
  subst hcc
  have hne := H.ne
  have hle := G.inv.effective_le hcfg hst hb
  have hef := G.eff _ hcfg
  obtain ⟨u', hu'⟩ := syncEffective_live
    (w := w1.setD k (.validator { v with del := v.del.marked (accNow c0 (u ck).lamports) hr.lastAcc, total := t }))
    (ck := ck) (sk := k) (l := t) (lmin := v.min) (c := c0.settled (u ck).lamports (rs + rh))
    (d := v.del.marked (accNow c0 (u ck).lamports) hr.lastAcc)
    (by simpa [H.owner] using hcO) (by rw [World.setD_data, if_neg (Ne.symm hne)]; exact H.config_data)
    (by simpa [H.owner] using hvO) (by rw [World.setD_data, if_pos rfl]; rfl)
    hle hcap
    (by show c0.effTotal - v.del.effective + min v.del.staked (cap (max t v.min)) < U64
        unfold U64; omega)
  obtain ⟨c1, d2, S⟩ := syncEffective_ok hu'
  have A := adjusted_of_synced S hne H.del' rfl rfl
  have R : Retotaled env u u' ck (vaultRecord env ck) v.del.authority k v t c0 hr rs rh w1 c1 _ _ :=
    ⟨hvO, hvd, H, rfl, rfl, A, ht, hcap⟩
  refine ⟨w1, c0, hr, rs, rh, c1, _, _, u', hw1, hvd', hu', R, ?_⟩
  exact G.step R hb hau

/-- The first settlement is a stage. -/
theorem Harvested.stage (I : Inv env w) {ck hk auth sk : Key} {keeper : Option Key} {c : Config} {d : Delegation}
    {h : HolderRewards} {rs rh : Nat} (H : Harvested env w u ck hk auth (env.vaultAuth ck) sk keeper c d h rs rh)
    (hcO : (w ck).owner = progId) (hsO : (w sk).owner = progId) (hb : belongs sk ck) (hkk : keeper ≠ some ck)
    (ha : d.authority ≠ ck) : Stage env w u ck (accNow c (w ck).lamports) (accrued env w ck sk) c.effTotal := by
  have hpaid := H.paid hcO hsO hb
  have hm := H.moves hkk ha
  have hkl : keeperReward keeper (rs + rh) c.syncRewards ≤ rs + rh := keeperReward_le
  refine ⟨harvest_inv I H hcO hsO hb, hcO, H.owner, H.settled hkk (fun e => absurd (H.auth_eq ▸ e) ha), H.holderAcc' ck, ?_, ?_, ?_, ?_⟩
  · have hx' := H.holder
    have h1 : hk ≠ ck := by intro e; rw [e, H.config] at hx'; cases hx'
    have h2 : hk ≠ sk := by intro e; have hd := H.del; rw [← e, hx'] at hd; simp [Data.del?] at hd
    have e := H.hk_eq
    rw [show vaultRecord env ck = hk from e.symm, holderAt_data.2 ((H.data' _ h1 h2).trans hx')]; rfl
  · have := hm ck
    rw [if_pos rfl, if_neg (Ne.symm ha), if_neg hkk] at this
    omega
  · intro k hk
    have := hm k
    rw [if_neg hk] at this
    split_ifs at this <;> omega
  · intro x hx
    rw [H.configAt' hcO] at hx
    cases hx; exact le_rfl

/-- What stays the same while a validator is settled. -/
structure Kept (u u' : World) (ck pk pa : Key) : Prop where
  data : ∀ k, k ≠ ck → k ≠ pk → (u' k).data = (u k).data
  lam : ∀ k, k ≠ ck → k ≠ pa → (u' k).lamports = (u k).lamports
  sum : ∀ l : List Key, ck ∈ l → pa ∈ l → lamportSum u' l = lamportSum u l

theorem Kept.refl (ck pk pa : Key) : Kept u u ck pk pa := ⟨fun _ _ _ => rfl, fun _ _ _ => rfl, fun _ _ _ => rfl⟩

theorem Retotaled.kept {ck hk auth sk : Key} {v : ValidatorStake} {total : Nat} {c : Config} {hr : HolderRewards}
    {rs rh : Nat} {w1 : World} {c1 : Config} {d1 d2 : Delegation}
    (R : Retotaled env u u' ck hk auth sk v total c hr rs rh w1 c1 d1 d2) (ha : auth ≠ ck) : Kept u u' ck sk auth := by
  have he := R.harv.auth_eq
  refine ⟨fun k h1 h2 => R.data_other h1 h2, fun k h1 h2 => ?_, fun l h1 h2 => ?_⟩
  · have := R.moves (he ▸ ha) k
    rw [if_neg h1, if_neg (he ▸ h2)] at this
    omega
  · rw [R.sum h1 h2, if_neg ha, Nat.add_zero]

/-- A staker's lamports are part of its validator's total. -/
theorem staker_le_total (T : TotalsOk (lv w)) {ck sk : Key} {s : SolStakerStake} {p : ValidatorStake}
    (hs : solStakerAt w sk = some s) (hb : belongs sk ck) (hp : validatorAt w (.validatorPda s.del.vote ck) = some p) :
    s.lamports ≤ p.total := by
  obtain ⟨hO, hd⟩ := solStakerAt_eq.1 hs
  obtain ⟨pO, pd⟩ := validatorAt_eq.1 hp
  have h1 : lv w (.validatorPda s.del.vote ck) = some (.val p.total) := by
    unfold lv st; rw [if_pos pO, pd]; rfl
  have h2 := (T ck s.del.vote p.total h1).le sk
  have h3 : lv w sk = some (.sol s.del.vote s.lamports) := by
    unfold lv st; rw [if_pos hO, hd]; rfl
  unfold on at h2
  rw [if_pos hb, h3] at h2
  simpa using h2

theorem leave_live (T : TotalsOk (lv w)) {a : HarvestSolStakerRewardsAccts} {s : SolStakerStake} {c : Config}
    (hs : solStakerAt w a.solStakerStake = some s) (hbs : belongs a.solStakerStake a.config)
    (I : Inv env w) (hc : configAt w a.config = some c)
    (hrec : a.vaultHolderRewards = vaultRecord env a.config) {paid : Nat}
    (G : Stage env w u a.config (accNow c (w a.config).lamports) paid c.effTotal)
    (hdata : ∀ k, k ≠ a.config → k ≠ a.solStakerStake → (u k).data = (w k).data)
    (hp : s.del.vote ≠ .default → a.previousValidatorStake = .validatorPda s.del.vote a.config ∧
      ∀ p, validatorAt w a.previousValidatorStake = some p → a.previousValidatorStakeAuthority = p.del.authority ∧
        Payable env w a.config a.previousValidatorStake c p.del ∧ cap (max (p.total - s.lamports) p.min) < 2 ^ 64)
    (hu : s.del.vote = .default → s.lamports = 0)
    (funds : paid + accrued env w a.config (.validatorPda s.del.vote a.config) + env.rentMin configLen ≤ (w a.config).lamports)
    (room : (w a.previousValidatorStakeAuthority).lamports +
      (paid + accrued env w a.config (.validatorPda s.del.vote a.config)) < 2 ^ 64)
    (heff : c.effTotal + stakedOf w (.validatorPda s.del.vote a.config) < 2 ^ 64) :
    ∃ u', leaveValidator env u a s = .ok u' ∧
      Stage env w u' a.config (accNow c (w a.config).lamports)
        (paid + accrued env w a.config (.validatorPda s.del.vote a.config))
        (c.effTotal + stakedOf w (.validatorPda s.del.vote a.config)) ∧
      Kept u u' a.config (.validatorPda s.del.vote a.config) a.previousValidatorStakeAuthority ∧
      (s.del.vote ≠ .default → a.previousValidatorStakeAuthority ≠ a.config) ∧
      ∀ p, validatorAt w (.validatorPda s.del.vote a.config) = some p →
        ∃ v, validatorAt u' (.validatorPda s.del.vote a.config) = some v ∧ v.total + s.lamports = p.total ∧ v.min = p.min ∧
          v.del.authority = p.del.authority ∧ v.del.staked = p.del.staked ∧
          v.del.lastStake = accNow c (w a.config).lamports ∧ v.del.lastHolder = holderAcc env a.config w := by
  by_cases hd : s.del.vote = .default
  · have hno : stakeAt w (.validatorPda s.del.vote a.config) = none := by
      rw [stakeAt_eq']
      split_ifs with hO
      · exfalso
        have := I.shape _ hO
        obtain ⟨_, _, _, h, _⟩ := this
        exact h hd
      · rfl
    refine ⟨u, ?_, ?_, Kept.refl _ _ _, fun h => absurd hd h, fun p hp' => ?_⟩
    · simp only [leaveValidator, ite_ok, bind_ok, require_ok, exists_unit, pure_ok]
      exact Or.inr ⟨by simpa using hd, hu hd, trivial⟩
    · rw [accrued_none hno]
      unfold stakedOf; rw [hno]
      exact G
    · rw [stakeAt_validator hp'] at hno; cases hno
  · obtain ⟨hk, hp⟩ := hp hd
    rw [← hk] at funds room heff ⊢
    have hsh := I.shape a.solStakerStake (solStakerAt_eq.1 hs).1
    have hpe : (validatorAt w a.previousValidatorStake).isSome = true := by
      rw [I.solStaker_at hs hbs] at hsh
      obtain ⟨x, hx, _, _, h⟩ := hsh
      rw [← I.solStaker_at hs hbs, (solStakerAt_eq.1 hs).2] at hx
      cases hx
      rw [hk]
      exact h.resolve_left hd
    obtain ⟨p, hpv⟩ := Option.isSome_iff_exists.1 hpe
    obtain ⟨ha, P, hcap⟩ := hp p hpv
    have hb := P.belongs
    have hpc : a.previousValidatorStake ≠ a.config := P.facts.2.2.2.2
    have hps : a.previousValidatorStake ≠ a.solStakerStake := by
      rw [hk, I.solStaker_at hs hbs]; simp
    have hpu : validatorAt u a.previousValidatorStake = some p := by
      rw [validatorAt_congr (st_congr (G.owner _) (hdata _ hpc hps))]; exact hpv
    have eacc : accrued env w a.config a.previousValidatorStake =
        due (accNow c (w a.config).lamports) (holderAcc env a.config w) p.del := accrued_eq hc P.stake hb
    have est : stakedOf w a.previousValidatorStake = p.del.staked := by
      unfold stakedOf; rw [P.stake, Option.map_some, Option.getD_some]
    rw [eacc, ha] at room
    rw [eacc] at funds
    rw [est] at heff
    have hle := staker_le_total T hs hbs (hk ▸ hpv)
    have hlt : p.total < U64 := by
      have := (I.wf.1 a.previousValidatorStake).2
      rw [(validatorAt_eq.1 hpv).2] at this
      exact this.2.1
    obtain ⟨w1, c0, hr, rs, rh, c1, d1, d2, u', h1, h2, h3, R, G'⟩ :=
      retotal_live (t := p.total - s.lamports) G hpu hb P.payee P.fitsStake P.fitsHolder (by omega) (by omega)
        (by unfold U64 at hlt; omega) (by omega) heff
    refine ⟨u', ?_, ?_, ha ▸ R.kept P.payee, fun _ => ha ▸ P.payee, fun p' hp' => ?_⟩
    · obtain ⟨pO, pd⟩ := validatorAt_eq.1 hpu
      simp only [leaveValidator, ite_ok, bind_ok, require_ok, exists_unit, unpackValidator_ok, setData_ok, pure_ok,
        subU64_ok]
      rw [hrec, ha]
      exact Or.inl ⟨hd, pO, hk, p, pd, w1, h1, _, h2, _, ⟨hle, rfl⟩, _, ⟨Or.inr (by rw [R.harv.owner]; exact pO), rfl⟩, h3⟩
    · rw [eacc, est]; exact G'
    · rw [hpv] at hp'; cases hp'
      refine ⟨_, validatorAt_eq.2 ⟨by rw [R.owner']; exact R.owner, R.adj.stake'⟩, ?_, rfl, ?_, ?_, ?_, ?_⟩
      · show p.total - s.lamports + s.lamports = p.total
        omega
      · rw [R.d2_eq, R.d1_eq]; rfl
      · rw [R.d2_eq, R.d1_eq]; rfl
      · rw [R.d2_eq, R.d1_eq, (G.settled.accNow G.inv.wf R.harv.config).1]; rfl
      · rw [R.d2_eq, R.d1_eq, ← G.hacc, R.harv.record]; rfl

/-- Joining a validator that is as it was in `w` or has just been settled. -/
theorem join_live {a : HarvestSolStakerRewardsAccts} {c : Config} {dv : Key} {ds : Nat} (I : Inv env w)
    (hc : configAt w a.config = some c) (hrec : a.vaultHolderRewards = vaultRecord env a.config) {paid eff sub x : Nat}
    (G : Stage env w u a.config (accNow c (w a.config).lamports) paid eff)
    (hq : dv ≠ .default → a.currentValidatorStake = .validatorPda dv a.config ∧
      ∀ q, validatorAt w a.currentValidatorStake = some q → a.currentValidatorStakeAuthority = q.del.authority ∧
        Payable env w a.config a.currentValidatorStake c q.del ∧ q.total - sub + ds < 2 ^ 64 ∧
        cap (max (q.total - sub + ds) q.min) < 2 ^ 64)
    (hsame : ∀ q, validatorAt w (.validatorPda dv a.config) = some q → (validatorAt u (.validatorPda dv a.config) = some q ∧
        sub = 0 ∧ x = accrued env w a.config (.validatorPda dv a.config)) ∨
      ∃ v, validatorAt u (.validatorPda dv a.config) = some v ∧ v.total ≤ q.total - sub ∧ v.min = q.min ∧
          v.del.authority = q.del.authority ∧ v.del.staked = q.del.staked ∧
          v.del.lastStake = accNow c (w a.config).lamports ∧ v.del.lastHolder = holderAcc env a.config w)
    (funds : paid + x + env.rentMin configLen ≤ (w a.config).lamports)
    (room : (w a.currentValidatorStakeAuthority).lamports + (paid + x) < 2 ^ 64)
    (heff : eff + stakedOf w (.validatorPda dv a.config) < 2 ^ 64) :
    ∃ u' vote l paid', joinValidator env u a dv ds = .ok (u', vote, l) ∧
      Stage env w u' a.config (accNow c (w a.config).lamports) paid'
        (eff + stakedOf w (.validatorPda dv a.config)) ∧
      Kept u u' a.config (.validatorPda dv a.config) a.currentValidatorStakeAuthority ∧
      (l = 0 ∨ l = ds ∧ (dv = .default ∨ (validatorAt w (.validatorPda dv a.config)).isSome = true)) := by
  by_cases hd : dv = .default
  · have hno : stakeAt w (.validatorPda dv a.config) = none := by
      rw [stakeAt_eq']
      split_ifs with hO
      · exfalso
        have := I.shape _ hO
        obtain ⟨_, _, _, h, _⟩ := this
        exact h hd
      · rfl
    refine ⟨u, dv, ds, paid, ?_, ?_, Kept.refl _ _ _, Or.inr ⟨rfl, Or.inl hd⟩⟩
    · simp only [joinValidator, ite_ok, pure_ok]
      exact Or.inr ⟨by simpa using hd, trivial⟩
    · unfold stakedOf; rw [hno]; exact G
  · obtain ⟨hk, hq⟩ := hq hd
    rw [← hk] at heff hsame ⊢
    by_cases hO : (w a.currentValidatorStake).owner = progId
    · have hsh := I.shape a.currentValidatorStake hO
      have hqe : (validatorAt w a.currentValidatorStake).isSome = true := by
        rw [hk] at hsh hO ⊢
        obtain ⟨x, hx, _⟩ := hsh
        rw [validatorAt_eq.2 ⟨hO, hx⟩]; rfl
      obtain ⟨q, hqv⟩ := Option.isSome_iff_exists.1 hqe
      obtain ⟨ha, P, hlt, hcap⟩ := hq q hqv
      have hb := P.belongs
      have eacc : accrued env w a.config a.currentValidatorStake =
          due (accNow c (w a.config).lamports) (holderAcc env a.config w) q.del := accrued_eq hc P.stake hb
      have est : stakedOf w a.currentValidatorStake = q.del.staked := by
        unfold stakedOf; rw [P.stake, Option.map_some, Option.getD_some]
      rw [ha] at room
      rw [eacc] at hsame
      rw [est] at heff
      have key : ∃ v, validatorAt u a.currentValidatorStake = some v ∧ v.total ≤ q.total - sub ∧ v.min = q.min ∧
          v.del.authority = q.del.authority ∧ v.del.staked = q.del.staked ∧
          growth v.del.lastStake (accNow c (w a.config).lamports) * v.del.effective < 2 ^ 128 ∧
          growth v.del.lastHolder (holderAcc env a.config w) * v.del.staked < 2 ^ 128 ∧
          due (accNow c (w a.config).lamports) (holderAcc env a.config w) v.del ≤ x := by
        rcases hsame q hqv with ⟨h, e1, e2⟩ | ⟨v, h, h1, h2, h3, h4, h5, h6⟩
        · exact ⟨q, h, by omega, rfl, rfl, rfl, P.fitsStake, P.fitsHolder, le_of_eq e2.symm⟩
        · refine ⟨v, h, h1, h2, h3, h4, ?_, ?_, ?_⟩
          · rw [h5, growth_self, Nat.zero_mul]; decide
          · rw [h6, growth_self, Nat.zero_mul]; decide
          · rw [due_marked _ _ h5 h6]; exact Nat.zero_le _
      obtain ⟨v, hvu, h1, h2, h3, h4, h5, h6, h7⟩ := key
      have hcm : cap (max (v.total + ds) v.min) ≤ cap (max (q.total - sub + ds) q.min) := cap_mono (by omega)
      obtain ⟨w1, c0, hr, rs, rh, c1, d1, d2, u', g1, g2, g3, R, G'⟩ :=
        retotal_live (t := v.total + ds) G hvu hb (by rw [h3]; exact P.payee) h5 h6 (by omega) (by rw [h3]; omega)
          (by omega) (by omega) (by rw [h4]; exact heff)
      have ha' : a.currentValidatorStakeAuthority = v.del.authority := by rw [ha, h3]
      rw [h4, ← est] at G'
      refine ⟨u', dv, ds, _, ?_, G', ha' ▸ R.kept (by rw [h3]; exact P.payee), Or.inr ⟨rfl, Or.inr hqe⟩⟩
      · obtain ⟨qO, qd⟩ := validatorAt_eq.1 hvu
        simp only [joinValidator, ite_ok, bind_ok, require_ok, exists_unit, unpackValidator_ok, setData_ok, pure_ok,
          addU64_ok]
        rw [hrec, ha']
        exact Or.inl ⟨hd, hk, Or.inl ⟨qO, v, qd, w1, g1, _, g2, _, ⟨show v.total + ds < U64 by unfold U64; omega, rfl⟩, _,
          ⟨Or.inr (by rw [R.harv.owner]; exact qO), rfl⟩, u', g3, rfl⟩⟩
    · have hno : stakeAt w a.currentValidatorStake = none := by rw [stakeAt_eq', if_neg hO]
      refine ⟨u, .default, 0, paid, ?_, ?_, Kept.refl _ _ _, Or.inl rfl⟩
      · simp only [joinValidator, ite_ok, bind_ok, require_ok, exists_unit, pure_ok]
        exact Or.inl ⟨hd, hk, Or.inr ⟨by rw [G.owner]; exact hO, trivial⟩⟩
      · unfold stakedOf; rw [hno]; exact G

/-- Neither the config nor the stake account is handed to the stake view program. -/
theorem view_out {ck sk native hist : Key} (h1 : native ≠ ck) (h2 : hist ≠ ck) (h3 : hist ≠ sk)
    (hk : sk = .solStakerPda native ck) : callOut w w [ck, sk] [native, hist] = .ok () := by
  have h4 : native ≠ sk := by
    intro e
    have := congrArg sizeOf (e.trans hk)
    simp only [Key.solStakerPda.sizeOf_spec] at this
    omega
  simp [callOut, h1, h2, h3, h4, require, bind_ok]

theorem live_harvestSol_settle (I : Inv env w) (hi : ix.decoded = some .harvestSolStakerRewards)
    {ck sk pk pa qk qa hist kp : Key} {c : Config} {s : SolStakerStake} {v : StakeView} {rest : List Key}
    (hl : ix.ctx.accts = viewId :: ck :: vaultRecord env ck :: sk :: s.del.authority :: s.solStake :: pk :: pa :: qk :: qa ::
      hist :: kp :: rest)
    (hs : solStakerAt w sk = some s) (hview : o.view s.solStake = .ok v)
    (hnat : s.solStake ≠ ck) (hhc : hist ≠ ck) (hhs : hist ≠ sk)
    (hsame : v.effective = s.lamports ∧ v.delegatedVote = s.del.vote)
    (P : Payable env w ck sk c s.del) (hw : ix.Writes [ck, sk, s.del.authority]) :
    ∃ w', exec env o w ix = .ok w' := by
  obtain ⟨hcO, hc, hsO, hd, hne⟩ := P.facts
  obtain ⟨w1, hw1⟩ := harvest_live I P
  obtain ⟨c0, d0, h, rs, rh, H⟩ := harvest_ok hw1
  have hcc : c0 = c := by have := H.config; rw [hc] at this; simpa using this.symm
  have hdd : d0 = s.del := by have := H.del; rw [hd] at this; simpa using this.symm
  subst hcc hdd
  have hout : callOut w w [ck, sk] [s.solStake, hist] = .ok () :=
    view_out hnat hhc hhs (I.solStaker_at hs P.belongs)
  refine ⟨w1, settle_exec hi H P.payee (by simp [hl]) (by simp [hl]) hw ?_ (fun k _ => Or.inr (Or.inr (Or.inr rfl)))
    fun k => rfl⟩
  unfold dispatch
  rw [hl]
  simp only [harvestSolStakerRewards, bind_ok, require_ok, exists_unit, unpackConfig_ok, unpackSolStaker_ok]
  refine ⟨hcO, _, hc, hsO, hne, s, (solStakerAt_eq.1 hs).2, I.solStaker_at hs P.belongs, rfl, rfl, rfl, trivial, hout, v, hview, ?_, w1, ?_, ?_⟩
  · simp [hsame]
  · simp only [hsame, ne_eq, not_true_eq_false, or_self, decide_false, Bool.false_eq_true, if_false]; exact hw1
  · simp [hsame]; rfl

theorem live_harvestSol_sync (I : Inv env w) (T : TotalsOk (lv w)) (hi : ix.decoded = some .harvestSolStakerRewards)
    {ck sk pk pa qk qa hist kp : Key} {c : Config} {s : SolStakerStake} {v : StakeView} {rest : List Key}
    (hl : ix.ctx.accts = viewId :: ck :: vaultRecord env ck :: sk :: s.del.authority :: s.solStake :: pk :: pa :: qk :: qa ::
      hist :: kp :: rest)
    (hs : solStakerAt w sk = some s) (hview : o.view s.solStake = .ok v)
    (hnat : s.solStake ≠ ck) (hhc : hist ≠ ck) (hhs : hist ≠ sk)
    (hdiff : ¬ (v.effective = s.lamports ∧ v.delegatedVote = s.del.vote)) (hkp : kp ≠ progId) (hkc : kp ≠ ck)
    (P : Payable env w ck sk c s.del)
    (hp : s.del.vote ≠ .default → pk = .validatorPda s.del.vote ck ∧
      ∀ p, validatorAt w pk = some p → pa = p.del.authority ∧ Payable env w ck pk c p.del ∧
        cap (max (p.total - s.lamports) p.min) < 2 ^ 64)
    (hu : s.del.vote = .default → s.lamports = 0)
    (hq : v.delegatedVote ≠ .default → qk = .validatorPda v.delegatedVote ck ∧
      ∀ q, validatorAt w qk = some q → qa = q.del.authority ∧ Payable env w ck qk c q.del ∧
        q.total - (if v.delegatedVote = s.del.vote then s.lamports else 0) + v.effective < 2 ^ 64 ∧
        cap (max (q.total - (if v.delegatedVote = s.del.vote then s.lamports else 0) + v.effective) q.min) < 2 ^ 64)
    (hcap : v.delegatedVote = .default ∨ (validatorAt w (.validatorPda v.delegatedVote ck)).isSome = true → cap v.effective < 2 ^ 64)
    (funds : accrued env w ck sk + accrued env w ck (.validatorPda s.del.vote ck) +
      (if v.delegatedVote = s.del.vote then 0 else accrued env w ck (.validatorPda v.delegatedVote ck)) +
        env.rentMin configLen ≤ (w ck).lamports)
    (room : ∀ x ∈ [s.del.authority, kp, pa, qa], (w x).lamports + (accrued env w ck sk +
      accrued env w ck (.validatorPda s.del.vote ck) +
      (if v.delegatedVote = s.del.vote then 0 else accrued env w ck (.validatorPda v.delegatedVote ck))) < 2 ^ 64)
    (heff : c.effTotal + stakedOf w (.validatorPda s.del.vote ck) + stakedOf w (.validatorPda v.delegatedVote ck) +
      s.del.staked < 2 ^ 64)
    (hw : ix.Writes [ck, sk, s.del.authority, kp, pk, pa, qk, qa]) :
    ∃ w', exec env o w ix = .ok w' := by
  obtain ⟨hcO, hc, hsO, hd, hne⟩ := P.facts
  have hsd := (solStakerAt_eq.1 hs).2
  have hsk := I.solStaker_at hs P.belongs
  obtain ⟨w1, hw1⟩ := harvest_live_keeper I P hkc (by have := room kp (by simp); omega)
  obtain ⟨c0, d0, h, rs, rh, H⟩ := harvest_ok hw1
  have hcc : c0 = c := by have := H.config; rw [hc] at this; simpa using this.symm
  have hdd : d0 = s.del := by have := H.del; rw [hd] at this; simpa using this.symm
  subst hcc hdd
  have hkk : some kp ≠ some ck := by simpa using hkc
  have hm := H.moves hkk P.payee
  have G1 := H.stage I hcO hsO P.belongs hkk P.payee
  let a : HarvestSolStakerRewardsAccts :=
    { solStakeViewProgram := viewId, config := ck, vaultHolderRewards := vaultRecord env ck, solStakerStake := sk,
      solStakerStakeAuthority := s.del.authority, solStakerNativeStake := s.solStake, previousValidatorStake := pk,
      previousValidatorStakeAuthority := pa, currentValidatorStake := qk, currentValidatorStakeAuthority := qa,
      sysvarStakeHistory := hist, keeperRecipient := some kp }
  obtain ⟨w2, hw2, G2, K2, ha2, hv2⟩ := leave_live (a := a) T hs P.belongs I P.config rfl G1 H.data' hp hu
    (by simp only [a]; omega) (by have := room pa (by simp); simp only [a]; omega) (by simp only [a]; omega)
  have hsame : ∀ q, validatorAt w (.validatorPda v.delegatedVote ck) = some q →
      (validatorAt w2 (.validatorPda v.delegatedVote ck) = some q ∧
        (if v.delegatedVote = s.del.vote then s.lamports else 0) = 0 ∧
        (if v.delegatedVote = s.del.vote then 0 else accrued env w ck (.validatorPda v.delegatedVote ck)) =
          accrued env w ck (.validatorPda v.delegatedVote ck)) ∨
      ∃ x, validatorAt w2 (.validatorPda v.delegatedVote ck) = some x ∧
          x.total ≤ q.total - (if v.delegatedVote = s.del.vote then s.lamports else 0) ∧ x.min = q.min ∧
          x.del.authority = q.del.authority ∧ x.del.staked = q.del.staked ∧
          x.del.lastStake = accNow c0 (w ck).lamports ∧ x.del.lastHolder = holderAcc env ck w := by
    intro q hqv
    by_cases e : v.delegatedVote = s.del.vote
    · right
      rw [if_pos e]
      rw [e] at hqv ⊢
      obtain ⟨x, h1, h2, h3⟩ := hv2 q hqv
      exact ⟨x, h1, by omega, h3⟩
    · left
      have h1 : Key.validatorPda v.delegatedVote ck ≠ ck := by
        intro e'; rw [e'] at hqv
        rw [(validatorAt_eq.1 hqv).2] at hc; cases hc
      have h2 : Key.validatorPda v.delegatedVote ck ≠ sk := by rw [hsk]; simp
      have h3 : Key.validatorPda v.delegatedVote ck ≠ .validatorPda s.del.vote ck := by simpa using e
      rw [validatorAt_congr (st_congr (G2.owner _) ((K2.data _ h1 h3).trans (H.data' _ h1 h2))), if_neg e, if_neg e]
      exact ⟨hqv, rfl, rfl⟩
  obtain ⟨w3, vote, l, paid', hw3, G3, K3, hlam⟩ := join_live (a := a) (dv := v.delegatedVote) (ds := v.effective) I P.config rfl
    G2 hq hsame (by simp only [a]; omega) (by have := room qa (by simp); simp only [a]; omega) (by simp only [a]; omega)
  -- the staker
  have hs1 := (H.solStaker' hsd).2
  set d1 := s.del.marked (accNow c0 (w ck).lamports) h.lastAcc with ed1
  have k1 : sk ≠ .validatorPda s.del.vote ck := by rw [hsk]; simp
  have k2 : sk ≠ .validatorPda v.delegatedVote ck := by rw [hsk]; simp
  have hs3 : (w3 sk).data = .solStaker { s with del := d1 } :=
    (K3.data _ hne k2).trans ((K2.data _ hne k1).trans hs1)
  have hcO3 : (w3 ck).owner = progId := by rw [G3.owner]; exact hcO
  have hsO3 : (w3 sk).owner = progId := by rw [G3.owner]; exact hsO
  obtain ⟨c3, hc3, _, _⟩ := id G3.settled
  have hcfg3 := configAt_eq.2 ⟨hcO3, hc3⟩
  have hle3 : d1.effective ≤ c3.effTotal :=
    G3.inv.effective_le hcfg3 (stakeAt_solStaker (solStakerAt_eq.2 ⟨hsO3, hs3⟩)) P.belongs
  have hef3 := G3.eff _ hcfg3
  have hcl : cap (max l 0) < U64 := by
    rw [Nat.max_zero]
    rcases hlam with rfl | ⟨rfl, h⟩
    · decide
    · exact hcap h
  obtain ⟨w4, hw4⟩ := syncEffective_live
    (w := w3.setD sk (.solStaker { s with lamports := l, del := { d1 with vote := vote } }))
    (ck := ck) (sk := sk) (l := l) (lmin := 0) (c := c3) (d := { d1 with vote := vote })
    (by simpa using hcO3) (by rw [World.setD_data, if_neg (Ne.symm hne)]; exact hc3)
    (by simpa using hsO3) (by rw [World.setD_data, if_pos rfl]; rfl) hle3 hcl
    (by show c3.effTotal - d1.effective + min s.del.staked (cap (max l 0)) < U64
        simp only [a] at hef3
        unfold U64; omega)
  obtain ⟨c4, d4, S4⟩ := syncEffective_ok hw4
  have hout : callOut w w [ck, sk] [s.solStake, hist] = .ok () :=
    view_out hnat hhc hhs (I.solStaker_at hs P.belongs)
  have hdisp : dispatch env o ix.ctx w .harvestSolStakerRewards = .ok w4 := by
    unfold dispatch
    rw [hl]
    simp only [if_neg hkp]
    have hreq : (v.effective ≠ s.lamports ∨ v.delegatedVote ≠ s.del.vote) := by
      by_contra hcon
      push Not at hcon
      exact hdiff hcon
    simp only [harvestSolStakerRewards, bind_ok, require_ok, exists_unit, unpackConfig_ok, unpackSolStaker_ok, setData_ok,
      ite_ok, pure_ok, Prod.exists]
    refine ⟨hcO, _, hc, hsO, P.facts.2.2.2.2, s, hsd, hsk, rfl, rfl, rfl, trivial, hout, v, hview, ?_, w1, ?_, Or.inr ⟨?_, w2, hw2, w3, vote, l, hw3,
      _, hs3, _, ⟨Or.inr hsO3, rfl⟩, hw4⟩⟩
    · intro _; rfl
    · rw [if_pos (by simpa using hreq)]; exact hw1
    · simpa using fun e1 e2 => hdiff ⟨e1, e2⟩
  refine ⟨w4, exec_of_dispatch hi hdisp (fun k hk => ?_) ?_⟩
  · by_cases m : k ∈ [ck, sk, s.del.authority, kp, pk, pa, qk, qa]
    · exact Or.inl (hw k m)
    · right
      simp only [List.mem_cons, List.not_mem_nil, or_false, not_or] at m
      obtain ⟨m1, m2, m3, m4, m5, m6, m7, m8⟩ := m
      have e4l : (w4 k).lamports = (w3 k).lamports := by rw [S4.lamports, World.setD_lamports]
      have e4d : (w4 k).data = (w3 k).data := by rw [S4.data' k m1 m2, World.setD_data, if_neg m2]
      have e1l : (w1 k).lamports = (w k).lamports := by
        have := hm k
        rw [if_neg m1, if_neg m3, if_neg (by simpa using Ne.symm m4)] at this
        omega
      refine account_ext ?_ ?_ ?_
      · rw [e4l, K3.lam k m1 m8, K2.lam k m1 m6, e1l]
      · rw [S4.owner, World.setD_owner, G3.owner]
      · have e1d := H.data' k m1 m2
        have e2d : (w2 k).data = (w1 k).data := by
          by_cases e : k = .validatorPda s.del.vote ck
          · by_cases hdv : s.del.vote = .default
            · -- nothing is written when the staker was not delegated
              have := hw2
              simp only [leaveValidator, ite_ok, bind_ok, require_ok, exists_unit, pure_ok, a] at this
              rcases this with ⟨hx, _⟩ | ⟨_, _, hx⟩
              · exact absurd hdv hx
              · rw [hx]
            · exact absurd (e.trans (hp hdv).1.symm) m5
          · exact K2.data k m1 e
        have e3d : (w3 k).data = (w2 k).data := by
          by_cases e : k = .validatorPda v.delegatedVote ck
          · by_cases hdv : v.delegatedVote = .default
            · have := hw3
              simp only [joinValidator, ite_ok, bind_ok, require_ok, exists_unit, pure_ok, a, Prod.mk.injEq] at this
              rcases this with ⟨hx, _⟩ | ⟨_, hx, _⟩
              · exact absurd hdv hx
              · rw [hx]
            · exact absurd (e.trans (hq hdv).1.symm) m7
          · exact K3.data k m1 e
        rw [e4d, e3d, e2d, e1d]
  · have mem : ∀ x ∈ [ck, s.del.authority, kp, pa, qa], x ∈ ix.ctx.accts := by
      intro x hx
      rw [hl]
      simp only [List.mem_cons, List.not_mem_nil, or_false] at hx
      rcases hx with rfl | rfl | rfl | rfl | rfl <;> simp
    have e4 : lamportSum w4 ix.ctx.accts = lamportSum w3 ix.ctx.accts :=
      lamportSum_congr _ fun k => by rw [S4.lamports, World.setD_lamports]
    rw [e4, K3.sum _ (mem ck (by simp)) (mem qa (by simp)), K2.sum _ (mem ck (by simp)) (mem pa (by simp)),
      H.sum (mem ck (by simp)) (mem _ (by simp)) (by intro k hk; cases hk; exact mem kp (by simp)) hkk, if_neg P.payee,
      Nat.add_zero]

end Verif
