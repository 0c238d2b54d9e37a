import Verif.Props.Authority
import Verif.Props.History
import Verif.Lemmas.Totals
/-!
# Validators' effective stake and lamport totals

C04, C05, C23, C39, C43.
-/

namespace Verif.Props

open Verif Verif.Witness

variable {env : Env} {o o' : Oracle} {w w' wa wb : World} {ix ix' : Ix}

/-! ## C04 -/

/-- The effective amount of a validator is what its staked amount and its lamports allow: the staked amount, but no
more than 1.3 times the larger of its lamport total and its minimum. -/
def exact (v : ValidatorStake) : Prop := v.del.effective = min v.del.staked (13 * max v.total v.min / 10)

theorem exact_restaked {d : Delegation} {staked cooldown total mn : Nat} :
    exact { del := d.restaked staked cooldown (max total mn), total := total, min := mn } := rfl

/-- **C04.** After a validator stakes, its effective amount is exact. -/
theorem C04_stake (R : Reachable env w) (O : o.Ok) (h : exec env o w ix = .ok w') {n : Nat}
    (hi : ix.decoded = some (.validatorStakeTokens n)) :
    ∃ k v, ix.acct 3 = some k ∧ validatorAt w' k = some v ∧ exact v := by
  obtain ⟨a, rest, hl, hr⟩ := ran_validatorStakeTokens h hi
  have I := reachable_inv R
  obtain ⟨c, s, hr, rs, rh, w1, w2, w3, c1, ts, td, hs, _, S⟩ := validatorStakeTokens_ok hr
  obtain ⟨I1, I2, I3, e3, e4, I4⟩ := validatorStakeTokens_inv I O hs S
  have h2 := validatorAt_eq.2 ⟨(by rw [S.adj.owner, S.harv.owner]; exact S.sO), S.adj.stake'⟩
  rw [← validatorAt_congr (ext_st I2 e3 _), ← validatorAt_congr (ext_st I3 e4 _)] at h2
  exact ⟨a.stake, _, by simp [Ix.acct, hl, StakeTokensAccts.list], h2, exact_restaked⟩

/-- **C04.** After a validator unstakes, its effective amount is exact. -/
theorem C04_unstake (R : Reachable env w) (O : o.Ok) (h : exec env o w ix = .ok w') {n : Nat}
    (hi : ix.decoded = some (.unstakeTokens n)) {k : Key} {v v' : ValidatorStake} (hk : ix.acct 3 = some k)
    (hv : validatorAt w k = some v) (hv' : validatorAt w' k = some v') : exact v' := by
  obtain ⟨a, rest, hl, hr⟩ := ran_unstakeTokens h hi
  have I := reachable_inv R
  obtain ⟨c, d, hr, rs, rh, w1, w2, w3, c1, D', call, ts, td, lam, S, K⟩ := unstakeTokens_ok hr
  obtain ⟨I1, I2, I3, e3, e4, I4⟩ := unstakeTokens_inv I O S K
  have hk' : ix.acct 3 = some a.stake := by simp [Ix.acct, hl, UnstakeTokensAccts.list]
  rw [hk'] at hk; cases hk
  rw [validatorAt_congr (ext_st I3 e4 _), validatorAt_congr (ext_st I2 e3 _)] at hv'
  have hd := (validatorAt_eq.1 hv).2
  rcases K with ⟨s, hs, _, hds, hlam, hD⟩ | ⟨s, hs, _⟩
  · have := (validatorAt_eq.1 hv').2
    rw [S.adj.stake', hD] at this
    cases this
    rw [hlam]
    exact exact_restaked
  · rw [hs] at hd; cases hd

/-- **C04.** After a validator is slashed, its effective amount is exact. -/
theorem C04_slash (R : Reachable env w) (h : exec env o w ix = .ok w') {n : Nat}
    (hi : ix.decoded = some (.slashValidatorStake n)) :
    ∃ k v, ix.acct 1 = some k ∧ validatorAt w' k = some v ∧ exact v := by
  obtain ⟨a, rest, hl, hr⟩ := ran_slashValidatorStake h hi
  have I := reachable_inv R
  obtain ⟨c, s, hr, rs, rh, w1, w2, c1, hs, _, S⟩ := slashValidatorStake_ok hr
  obtain ⟨I1, e2, I2, I4⟩ := slashValidatorStake_inv I hs S
  obtain ⟨_, ho, hsame⟩ := S.burn_ext I1
  refine ⟨a.stake, _, by simp [Ix.acct, hl, SlashAccts.listValidator],
    validatorAt_eq.2 ⟨by rw [S.adj.owner, ho, S.harv.owner]; exact S.sO, S.adj.stake'⟩, exact_restaked⟩

/-- **C04.** After the minimum of a validator is overridden, it has that minimum and its effective amount is exact. -/
theorem C04_override (h : exec env o w ix = .ok w') {n : Nat}
    (hi : ix.decoded = some (.validatorOverrideStakedLamports n)) :
    ∃ k v, ix.acct 2 = some k ∧ validatorAt w' k = some v ∧ v.min = n ∧ exact v := by
  obtain ⟨a, rest, hl, hr⟩ := ran_validatorOverrideStakedLamports h hi
  obtain ⟨c, s, hr, rs, rh, w1, c1, hcO, hsO, hs, hk, _, _, _, H, A⟩ := validatorOverrideStakedLamports_ok hr
  exact ⟨a.validatorStake, _, by simp [Ix.acct, hl, ValidatorOverrideStakedLamportsAccts.list],
    validatorAt_eq.2 ⟨by rw [A.owner, H.owner]; exact hsO, A.stake'⟩, rfl, exact_restaked⟩

theorem retotaled_exact {ck hk auth sk : Key} {v : ValidatorStake} {total : Nat} {c : Config}
    {hr : HolderRewards} {rs rh : Nat} {w1 : World} {c1 : Config} {d1 d2 : Delegation}
    (R : Retotaled env w w' ck hk auth sk v total c hr rs rh w1 c1 d1 d2) {y : ValidatorStake}
    (hy : validatorAt w' sk = some y) : exact y := by
  have := (validatorAt_eq.1 hy).2
  rw [R.adj.stake'] at this
  cases this
  rw [R.d2_eq]
  exact exact_restaked

/-- **C04.** When HarvestSolStakerRewards changes the validator or the lamports recorded for the staker, the validator
it had before and the validator it has afterwards both have an exact effective amount. -/
theorem C04_sync (R : Reachable env w) (O : o.Ok) (h : exec env o w ix = .ok w')
    (hi : ix.decoded = some .harvestSolStakerRewards) {ck k vote : Key} {s s' : SolStakerStake} {y : ValidatorStake}
    (hc : ix.acct 1 = some ck) (hk : ix.acct 3 = some k) (hs : solStakerAt w k = some s)
    (hs' : solStakerAt w' k = some s') (hne : s'.del.vote ≠ s.del.vote ∨ s'.lamports ≠ s.lamports)
    (hvote : vote = s.del.vote ∨ vote = s'.del.vote) (hy : validatorAt w' (.validatorPda vote ck) = some y) : exact y := by
  obtain ⟨a, kp, rest, hl, _, hr⟩ := ran_harvestSolStakerRewards h hi
  have I := reachable_inv R
  have I' := reachable_inv (.exec R O h)
  have hv : vote ≠ .default := by
    obtain ⟨_, _, _, hz, _⟩ := I'.shape _ (validatorAt_eq.1 hy).1
    exact hz
  have hc' : ix.acct 1 = some a.config := by simp [Ix.acct, hl, HarvestSolStakerRewardsAccts.list]
  have hk' : ix.acct 3 = some a.solStakerStake := by simp [Ix.acct, hl, HarvestSolStakerRewardsAccts.list]
  rw [hc'] at hc; cases hc
  rw [hk'] at hk; cases hk
  obtain ⟨x, v, c, hr, rs, rh, w1, B, H⟩ := harvestSolStakerRewards_ok I.wf hr
  have : x = s := by have := (solStakerAt_eq.1 hs).2; rw [B.data] at this; simpa using this
  subst this
  cases H with
  | noSync _ _ H hw =>
    subst hw
    have := (solStakerAt_eq.1 hs').2
    rw [(H.solStaker' B.data).2] at this
    cases this
    simp [Delegation.marked] at hne
  | @sync kp' w2 w3 vt l c1 d1 d2 _ _ H L J hd1 hd2 A =>
    have es := (solStakerAt_eq.1 hs').2
    rw [A.stake', hd2] at es
    cases es
    simp only at hvote
    have back : ∀ {k : Key}, k ≠ a.config → k ≠ a.solStakerStake → (w' k).data = (w3 k).data ∧ (w' k).owner = (w3 k).owner :=
      fun h1 h2 => ⟨A.data' _ h1 h2, A.owner _⟩
    have hcfg : Key.validatorPda vote a.config ≠ a.config := by
      intro e
      have : (w' a.config).data = .config _ := A.config'
      rw [← e, (validatorAt_eq.1 hy).2] at this; cases this
    have hsol : Key.validatorPda vote a.config ≠ a.solStakerStake := by rw [B.sk]; simp
    obtain ⟨b1, b2⟩ := back hcfg hsol
    have hy3 : validatorAt w3 (.validatorPda vote a.config) = some y := by
      have := validatorAt_eq.1 hy; rw [b1, b2] at this; exact validatorAt_eq.2 this
    -- either the staker joined this validator last, or it only left it
    cases J with
    | join _ ek RT =>
      by_cases e : vote = v.delegatedVote
      · subst e; rw [← ek] at hy3; exact retotaled_exact RT hy3
      · have hold : vote = x.del.vote := hvote.resolve_right e
        have hk2 : Key.validatorPda vote a.config ≠ a.currentValidatorStake := by rw [ek]; simp [e]
        have hy2 : validatorAt w2 (.validatorPda vote a.config) = some y := by
          have := validatorAt_eq.1 hy3
          rw [RT.data_other hcfg hk2, RT.owner'] at this
          exact validatorAt_eq.2 this
        cases L with
        | stay e1 => exact absurd (hold.trans e1) hv
        | leave _ ek' _ RT' => rw [hold, ← ek'] at hy2; exact retotaled_exact RT' hy2
    | undelegated e1 ew =>
      subst ew
      have hold : vote = x.del.vote := hvote.resolve_right (fun e => hv (e.trans e1))
      cases L with
      | stay e1 => exact absurd (hold.trans e1) hv
      | leave _ ek' _ RT' => rw [hold, ← ek'] at hy3; exact retotaled_exact RT' hy3
    | absent _ _ _ ew =>
      subst ew
      have hold : vote = x.del.vote := hvote.resolve_right hv
      cases L with
      | stay e1 => exact absurd (hold.trans e1) hv
      | leave _ ek' _ RT' => rw [hold, ← ek'] at hy3; exact retotaled_exact RT' hy3

/-- The hypotheses of the C04 theorems are met in the witness history: a stake, a redelegation from the first to the
second validator, an unstake by a validator, a slash and an override. -/
def ixUnstakeVal1 : Ix :=
  Witness.ix (.unstakeTokens 100) [cfg, pool, poolToken, val1, auth1, vault, vaultAuth, Witness.holder, mint, dest, tokenId, rewardsId]
    [auth1]

example : okB o1 w5 ixStakeVal1 = true ∧ okB o2 w10 ixHarvestSol1 = true ∧ okB o2 w13 ixUnstakeVal1 = true ∧
    okB o2 w14 ixSlashVal1 = true ∧ okB o2 w16 ixOverride = true ∧
    (solStakerAt w10 sol1).map (fun s => (s.del.vote, s.lamports)) = some (vote1, 1000) ∧
    (solStakerAt w11 sol1).map (fun s => (s.del.vote, s.lamports)) = some (vote2, 3000) ∧
    (validatorAt w11 val1).map (fun v => (v.del.staked, v.del.effective, v.total)) = some (2000, 1300, 1000) := by
  decide +kernel

/-- A validator stakes while it has no stakers. -/
def x4 : World := after o1 w3 ixStakeVal1
/-- Then a staker with 1000 lamports joins. -/
def x5 : World := after o1 x4 ixInitSol1

theorem ok_x4 : okB o1 w3 ixStakeVal1 = true := by decide +kernel
theorem ok_x5 : okB o1 x4 ixInitSol1 = true := by decide +kernel
theorem r_x4 : Reachable Witness.env x4 := by unfold x4; exact .exec r3 o1_ok (ok_after ok_x4)
theorem r_x5 : Reachable Witness.env x5 := by unfold x5; exact .exec r_x4 o1_ok (ok_after ok_x5)
theorem x5_val1 : (validatorAt x5 val1).map (fun v => (v.del.staked, v.del.effective, v.total, v.min)) =
    some (2000, 0, 1000, 0) := by decide +kernel

/-- **C04.** The effective amount is not exact at every moment: after a staker joins, a validator with 2000 staked tokens
and 1000 lamports still has an effective amount of 0 instead of 1300. -/
theorem C04_not_always_exact : ∃ w k v, Reachable Witness.env w ∧ validatorAt w k = some v ∧ ¬ exact v ∧
    v.del.staked = 2000 ∧ v.del.effective = 0 ∧ v.total = 1000 := by
  have h := x5_val1
  obtain ⟨v, hv, e⟩ := Option.map_eq_some_iff.1 h
  simp only [Prod.mk.injEq] at e
  obtain ⟨e1, e2, e3, e4⟩ := e
  exact ⟨x5, val1, v, r_x5, hv, by unfold exact; rw [e1, e2, e3, e4]; decide, e1, e2, e3⟩

/-! ## C05 -/

/-- **C05.** A validator's lamport total is the sum of the lamports of its stakers. -/
theorem C05_total (R : Reachable env w) {k : Key} {v : ValidatorStake} (hv : validatorAt w k = some v) :
    ∃ c, k = .validatorPda v.del.vote c ∧ TotalIs (lamportsOn w c v.del.vote) v.total := by
  obtain ⟨c, rfl, _⟩ := C27_validator_address R hv
  refine ⟨c, rfl, ?_⟩
  exact (reachable_totals R c v.del.vote v.total (lv_validator.2 ⟨v, hv, rfl⟩)).congr fun s => (on_lv c v.del.vote s).symm

/-- Two stakers of 1000 lamports each are on the first validator; one of them moves to the second with 3000. -/
example : (validatorAt w10 val1).map (·.total) = some 2000 ∧ (validatorAt w10 val2).map (·.total) = some 0 ∧
    (validatorAt w11 val1).map (·.total) = some 1000 ∧ (validatorAt w11 val2).map (·.total) = some 3000 ∧
    lamportsOn w11 cfg vote1 sol2 = 1000 ∧ lamportsOn w11 cfg vote1 sol1 = 0 ∧ lamportsOn w11 cfg vote2 sol1 = 3000 := by
  decide +kernel

/-! ## C23 -/

/-- **C23.** A config's recorded lamports never exceed its lamports, and it stays rent exempt. -/
theorem C23_lamports_last (R : Reachable env w) {ck : Key} {c : Config} (hc : configAt w ck = some c) :
    c.lamportsLast ≤ (w ck).lamports ∧ env.rentMin configLen ≤ (w ck).lamports :=
  ⟨((reachable_inv R).config ck c hc).last_le, ((reachable_inv R).config ck c hc).rent⟩

/-- **C23.** The effective total covers every account's effective amount, and any two accounts' together. -/
theorem C23_effective_total (R : Reachable env w) {ck s t : Key} {c : Config} {d e : Delegation}
    (hc : configAt w ck = some c) (hs : stakeAt w s = some d) (bs : belongs s ck) :
    d.effective ≤ c.effTotal ∧
      (stakeAt w t = some e → belongs t ck → s ≠ t → d.effective + e.effective ≤ c.effTotal) := by
  have T := ((reachable_inv R).config ck c hc).total
  have h1 : effectiveIn w ck s = d.effective := by simp [effectiveIn, bs, hs]
  refine ⟨h1 ▸ T.le s, fun ht bt hne => ?_⟩
  have h2 : effectiveIn w ck t = e.effective := by simp [effectiveIn, bt, ht]
  rw [← h1, ← h2]; exact T.le_two hne

/-- **C23.** A validator's lamport total covers the lamports of each of its stakers. -/
theorem C23_validator_total (R : Reachable env w) {s ck : Key} {x : SolStakerStake} (hs : solStakerAt w s = some x)
    (bs : belongs s ck) (hv : x.del.vote ≠ .default) :
    ∃ v, validatorAt w (.validatorPda x.del.vote ck) = some v ∧ x.lamports ≤ v.total := by
  have hl : lv w s = some (.sol x.del.vote x.lamports) := lv_solStaker.2 ⟨x, hs, rfl, rfl⟩
  obtain ⟨t, ht⟩ := ((reachable_inv R).lv_sol bs hl).resolve_left hv
  have T := reachable_totals R ck x.del.vote t ht
  obtain ⟨v, hv', rfl⟩ := lv_validator.1 ht
  refine ⟨v, hv', ?_⟩
  have := T.le s
  rw [on_lv] at this
  simpa [lamportsOn, bs, hs] using this

example : (configAt w11 cfg).map (·.effTotal) = some 1800 ∧ (stakeAt w11 val1).map (·.effective) = some 1300 ∧
    (stakeAt w11 sol1).map (·.effective) = some 500 ∧ (solStakerAt w11 sol1).map (·.del.vote) = some vote2 := by
  decide +kernel

/-! ## C39 -/

/-- **C39.** The authority of a SOL staker stake account is, for ever, the withdrawer that the stake view program reported
for its native stake account when it was created. -/
theorem C39_authority_is_withdrawer (R : Reachable env w) (O : o.Ok) (h : exec env o w ix = .ok wa)
    (hi : ix.decoded = some .initializeSolStakerStake) (S : Steps env wa wb) :
    ∃ k native v s, ix.acct 2 = some k ∧ ix.acct 5 = some native ∧ o.view native = .ok v ∧
      solStakerAt wb k = some s ∧ s.solStake = native ∧ s.del.authority = v.withdrawer := by
  obtain ⟨a, rest, hl, hr⟩ := ran_initializeSolStakerStake h hi
  have I := reachable_inv R
  obtain ⟨c, v, vs, au, hcO, hc, _, hview, hvd, _, _, hvO, hvk, hvs, hk, hempty, hsys, hov, hau, hrent, hlt, hw⟩ :=
    initializeSolStakerStake_ok hr
  have hau : au = none := by
    rw [hov, I.override_empty] at hau
    simp [readOverride, Data.isEmpty] at hau; exact hau.symm
  subst hau
  have hne : a.solStakerStake ≠ a.validatorStake := by rw [hk, hvk]; simp
  have hs : ∃ s, solStakerAt wa a.solStakerStake = some s ∧ s.solStake = a.solStakerNativeStake ∧
      s.del.authority = v.withdrawer := by
    have h1 : (wa a.solStakerStake).owner = progId := by rw [hw]; simp [World.setN_owner]
    have h2 : (wa a.solStakerStake).data = .solStaker
        { del := freshDel v.withdrawer v.delegatedVote, lamports := v.effective, solStake := a.solStakerNativeStake } := by
      rw [hw, World.setD_data, if_neg hne, World.setN_data, if_pos rfl]; rfl
    exact ⟨_, solStakerAt_eq.2 ⟨h1, h2⟩, rfl, rfl⟩
  obtain ⟨s, hs, e1, e2⟩ := hs
  have R1 : Reachable env wa := .exec R O h
  obtain ⟨s', hs', e3⟩ := C08_solStaker_authority_fixed R1 S hs
  obtain ⟨s'', hs'', e4⟩ := C25_solStaker_permanent R1 S hs
  rw [hs'] at hs''; cases hs''
  exact ⟨a.solStakerStake, a.solStakerNativeStake, v, s', by simp [Ix.acct, hl, InitializeSolStakerStakeAccts.list],
    by simp [Ix.acct, hl, InitializeSolStakerStakeAccts.list], hview, hs', e4.trans e1, e3.trans e2⟩

example : okB o1 w3 ixInitSol1 = true ∧ (solStakerAt w21 sol1).map (·.del.authority) = some staker := by decide +kernel

/-! ## C43 -/

/-- Worlds reachable when the outside world always satisfies `P`. -/
inductive ReachableWith (env : Env) (P : Oracle → Prop) : World → Prop
  | genesis {w : World} : Genesis w → ReachableWith env P w
  | ext {w w' : World} : ReachableWith env P w → ExtStep w w' → ReachableWith env P w'
  | exec {o : Oracle} {w w' : World} {ix : Ix} : ReachableWith env P w → o.Ok → P o → Verif.exec env o w ix = .ok w' →
      ReachableWith env P w'

theorem ReachableWith.reachable {P : Oracle → Prop} (R : ReachableWith env P w) : Reachable env w := by
  induction R with
  | genesis G => exact .genesis G
  | ext _ E ih => exact .ext ih E
  | exec _ O _ h ih => exact .exec ih O h

/-- The stake view program reports no effective lamports for a native stake that is not delegated. -/
def IdleViews (o : Oracle) : Prop := ∀ k v, o.view k = .ok v → v.delegatedVote = .default → v.effective = 0

/-- **C43.** If the stake view program reports zero effective lamports for undelegated native stakes, a SOL staker stake
account without a validator always records zero lamports (what `HarvestSolStakerRewards` asserts). -/
theorem C43_undelegated_has_no_lamports (R : ReachableWith env IdleViews w) {k : Key} {s : SolStakerStake}
    (hs : solStakerAt w k = some s) (hv : s.del.vote = .default) : s.lamports = 0 := by
  have T : IdleOk (lv w) := by
    clear hs hv
    induction R with
    | @genesis w0 G =>
      intro k l h
      obtain ⟨x, hx, _⟩ := lv_solStaker.1 h
      have h1 := G.owned _ (solStakerAt_eq.1 hx).1
      rw [(solStakerAt_eq.1 hx).2] at h1
      simp [Data.zeroed] at h1
    | ext R E ih => rw [ext_lv (reachable_inv R.reachable) E]; exact ih
    | exec R O V h ih =>
      have I := reachable_inv R.reachable
      exact idle_step I ih (exec_lv I O h) V
  exact T k s.lamports (lv_solStaker.2 ⟨s, hs, hv, rfl⟩)

/-- The first native stake has been deactivated. -/
def view3 (k : Key) : Res StakeView :=
  if k = native1 then .ok { delegatedVote := .default, withdrawer := staker, effective := 0 } else view1 k
/-- The first native stake is reported as undelegated but with effective lamports. -/
def view4 (k : Key) : Res StakeView :=
  if k = native1 then .ok { delegatedVote := .default, withdrawer := staker, effective := 700 } else view1 k

def o3 : Oracle := oracle 1000 view3 5000
def o4 : Oracle := oracle 1000 view4 5000

theorem view1_lt {k : Key} {v : StakeView} (h : view1 k = .ok v) : v.effective < U64 := by
  unfold view1 at h; split_ifs at h; obtain rfl := Except.ok.inj h; decide

theorem o3_ok : o3.Ok := oracle_ok (by
  intro k v h; unfold view3 at h; split_ifs at h
  · obtain rfl := Except.ok.inj h; decide
  · exact view1_lt h)

theorem o4_ok : o4.Ok := oracle_ok (by
  intro k v h; unfold view4 at h; split_ifs at h
  · obtain rfl := Except.ok.inj h; decide
  · exact view1_lt h)

theorem view1_delegated {k : Key} {v : StakeView} (h : view1 k = .ok v) : v.delegatedVote ≠ .default := by
  unfold view1 at h; split_ifs at h; obtain rfl := Except.ok.inj h; decide

theorem o1_idle : IdleViews o1 := fun _ _ h e => absurd e (view1_delegated h)

theorem o3_idle : IdleViews o3 := by
  intro k v h e
  change view3 k = .ok v at h
  unfold view3 at h; split_ifs at h
  · obtain rfl := Except.ok.inj h; rfl
  · exact absurd e (view1_delegated h)

/-- After the deactivation is synced. -/
def y5 : World := after o3 w4 ixHarvestSol1
theorem ok_y5 : okB o3 w4 ixHarvestSol1 = true := by decide +kernel

theorem rw4 : ReachableWith Witness.env IdleViews w4 := by
  have g0 : ReachableWith Witness.env IdleViews w0 := .genesis genesis
  have g1 : ReachableWith Witness.env IdleViews w1 := by unfold w1; exact .exec g0 o1_ok o1_idle (ok_after ok0)
  have g2 : ReachableWith Witness.env IdleViews w2 := by unfold w2; exact .exec g1 o1_ok o1_idle (ok_after ok1)
  have g3 : ReachableWith Witness.env IdleViews w3 := by unfold w3; exact .exec g2 o1_ok o1_idle (ok_after ok2)
  unfold w4; exact .exec g3 o1_ok o1_idle (ok_after ok3)

/-- The hypotheses of C43 are met: a staker that was deactivated and synced. It can be synced again to a validator. -/
example : ReachableWith Witness.env IdleViews y5 := by unfold y5; exact .exec rw4 o3_ok o3_idle (ok_after ok_y5)
example : (solStakerAt y5 sol1).map (fun s => (s.del.vote, s.lamports)) = some (.default, 0) ∧
    okB o2 y5 ixHarvestSol1 = true := by decide +kernel

/-- After a sync to an undelegated native stake with 700 effective lamports. -/
def z5 : World := after o4 w4 ixHarvestSol1
theorem ok_z5 : okB o4 w4 ixHarvestSol1 = true := by decide +kernel
theorem r_z5 : Reachable Witness.env z5 := by unfold z5; exact .exec r4 o4_ok (ok_after ok_z5)
theorem z5_sol1 : (solStakerAt z5 sol1).map (fun s => (s.del.vote, s.lamports)) = some (.default, 700) := by decide +kernel
theorem z5_panics : errOf o2 z5 ixHarvestSol1 = some .panic := by decide +kernel

/-- **C43.** The hypothesis on the stake view program is needed: otherwise there is a reachable world in which a staker
without a validator records lamports, and its next sync panics. -/
theorem C43_view_hypothesis_needed : ∃ w k s ix o, Reachable Witness.env w ∧ solStakerAt w k = some s ∧
    s.del.vote = .default ∧ s.lamports = 700 ∧ o.Ok ∧ ix.decoded = some .harvestSolStakerRewards ∧ ix.acct 3 = some k ∧
    exec Witness.env o w ix = .error .panic := by
  obtain ⟨s, hs, e⟩ := Option.map_eq_some_iff.1 z5_sol1
  simp only [Prod.mk.injEq] at e
  exact ⟨z5, sol1, s, ixHarvestSol1, o2, r_z5, hs, e.1, e.2, o2_ok, by decide +kernel, by decide +kernel,
    err_after z5_panics⟩

end Verif.Props
