import Verif.Props.Unstake
/-!
# Properties of whole histories

C14, C17, C25.
-/

namespace Verif.Props

open Verif Verif.Witness

variable {env : Env} {o o' : Oracle} {w w' wa wb : World} {ix ix' : Ix}

theorem now_lt (o : Oracle) : o.now < U64 := by
  unfold Oracle.now
  have h1 : (0 : Int) ≤ o.unixTimestamp % (U64 : Int) := Int.emod_nonneg _ (by decide)
  have h2 : o.unixTimestamp % (U64 : Int) < (U64 : Int) := Int.emod_lt_of_pos _ (by decide)
  omega

theorem le_satAdd {a b : Nat} (h : a < U64) : a ≤ satAdd a b := by unfold satAdd; omega

/-- **C14.** The cooldown of an account never moves back. -/
theorem C14_cooldown_never_decreases (R : Reachable env w) (S : Steps env w w') {s : Key} {d : Delegation}
    (hd : stakeAt w s = some d) : ∃ d', stakeAt w' s = some d' ∧ d.cooldown ≤ d'.cooldown := by
  induction S with
  | refl => exact ⟨d, hd, Nat.le_refl _⟩
  | tail S T ih =>
    obtain ⟨y, hy, e⟩ := ih
    have R1 := steps_reachable R S
    cases T with
    | ext E => exact ⟨y, by rw [stakeAt_congr (ext_st (reachable_inv R1) E s)]; exact hy, e⟩
    | exec O h =>
      obtain ⟨d', hd', D⟩ := effect_del (exec_effect (reachable_inv R1) O h) hy
      refine ⟨d', hd', e.trans ?_⟩
      cases D with
      | same _ h => rw [h]
      | sync ck vote wd _ _ _ _ _ e => rw [e]
      | stake ck amount _ _ _ _ _ h => rw [h]
      | slash ck amount c _ _ _ _ _ _ _ _ h => rw [h]
      | unstake ck amount c _ _ _ _ U =>
        rw [U.cooldown]; exact U.ready.trans (le_satAdd (now_lt _))
      | moveFrom ck t amount dt dt' _ _ _ _ M => rw [M.sCooldown]
      | moveTo ck t amount ds ds' _ _ _ _ M => rw [M.tCooldown]; exact Nat.le_max_right _ _

/-- **C14.** Two unstakes of one account are at least the cooldown apart that was configured at the first, whatever
happens in between. -/
theorem C14_unstakes_apart (R : Reachable env w) (O : o.Ok) (h : exec env o w ix = .ok wa)
    (S : Steps env wa wb) (O' : o'.Ok) (h' : exec env o' wb ix' = .ok w') {n n' t t' : Nat}
    (hi : ix.decoded = some (.unstakeTokens n)) (hi' : ix'.decoded = some (.unstakeTokens n'))
    (hs : ix.acct 3 = ix'.acct 3) (ht : o.unixTimestamp = t) (hlt : t < 2 ^ 63) (ht' : o'.unixTimestamp = t')
    (hlt' : t' < 2 ^ 63) : ∃ ck c, ix.acct 0 = some ck ∧ configAt w ck = some c ∧ t + c.cooldownTime ≤ t' := by
  obtain ⟨ck, s, c, d, d', a0, a3, U⟩ := unstake_facts R O h hi
  have R1 : Reachable env wa := .exec R O h
  obtain ⟨ck', s', c', e, e', b0, b3, U'⟩ := unstake_facts (steps_reachable R1 S) O' h' hi'
  rw [hs, b3] at a3; cases a3
  obtain ⟨x, hx, hxle⟩ := C14_cooldown_never_decreases R1 S U.one.after
  have he := U'.one.before
  rw [he] at hx; cases hx
  refine ⟨ck, c, a0, U.config, ?_⟩
  have h1 := U.cooldown
  have h2 := U'.ready
  rw [now_eq ht hlt] at h1
  rw [now_eq ht' hlt'] at h2
  unfold satAdd at h1
  have : U64 = 2 ^ 64 := rfl
  omega

def ixUnstakeMore : Ix :=
  Witness.ix (.unstakeTokens 125)
    [cfg, pool, poolToken, sol1, staker, vault, vaultAuth, holder, mint, dest, tokenId, rewardsId] [staker]

/-- A second unstake of the same account right after the first fails, and succeeds once the clock has moved on. -/
example : okB o2 w12 ixUnstake = true ∧ errOf o2 w13 ixUnstakeMore = some (.stake .activeUnstakeCooldown) ∧
    okB (oracle 2099 view2 5000) w13 ixUnstakeMore = false ∧
    okB (oracle 2100 view2 5000) w13 ixUnstakeMore = true := by decide +kernel

/-! ## Tokens in and out -/

/-- Tokens an instruction stakes in a config. -/
def stakedBy (ck : Key) (ix : Ix) : Nat :=
  if ix.acct 0 = some ck then
    match ix.decoded with
    | some (.validatorStakeTokens n) => n
    | some (.solStakerStakeTokens n) => n
    | _ => 0
  else 0

/-- Tokens an instruction unstakes from a config. -/
def unstakedBy (ck : Key) (ix : Ix) : Nat :=
  if ix.acct 0 = some ck then
    match ix.decoded with
    | some (.unstakeTokens n) => n
    | _ => 0
  else 0

/-- Tokens an instruction slashes from a config: the requested amount, or all that the account (account 1) has. -/
def slashedBy (w : World) (ck : Key) (ix : Ix) : Nat :=
  let has := (((ix.acct 1).bind (stakeAt w)).map (·.staked)).getD 0
  if ix.acct 0 = some ck then
    match ix.decoded with
    | some (.slashValidatorStake n) => min n has
    | some (.slashSolStakerStake n) => min n has
    | _ => 0
  else 0

/-- A history of one config that ends in the given world, having staked, unstaked and slashed so many tokens. -/
inductive Ledger (env : Env) (ck : Key) : World → Nat → Nat → Nat → Prop
  | genesis {w : World} : Genesis w → Ledger env ck w 0 0 0
  | ext {w w' : World} {i u s : Nat} : Ledger env ck w i u s → ExtStep w w' → Ledger env ck w' i u s
  | exec {w w' : World} {o : Oracle} {ix : Ix} {i u s : Nat} : Ledger env ck w i u s → o.Ok → exec env o w ix = .ok w' →
      Ledger env ck w' (i + stakedBy ck ix) (u + unstakedBy ck ix) (s + slashedBy w ck ix)

theorem Ledger.reachable {ck : Key} {i u s : Nat} (L : Ledger env ck w i u s) : Reachable env w := by
  induction L with
  | genesis G => exact .genesis G
  | ext _ E ih => exact .ext ih E
  | exec _ O h ih => exact .exec ih O h

theorem DelChange.staked_same {k : Key} {d d' : Delegation} (D : DelChange env o ix w w' k d d')
    (h : ∀ n, ix.decoded ≠ some (.validatorStakeTokens n) ∧ ix.decoded ≠ some (.solStakerStakeTokens n) ∧
      ix.decoded ≠ some (.slashValidatorStake n) ∧ ix.decoded ≠ some (.slashSolStakerStake n) ∧
      ix.decoded ≠ some (.unstakeTokens n) ∧ ix.decoded ≠ some (.solStakerMoveTokens n)) : d'.staked = d.staked := by
  cases D with
  | same h1 => exact h1
  | sync ck vote wd _ _ _ _ _ e => rw [e]
  | stake ck n hi => rcases hi with hi | hi; exacts [absurd hi (h n).1, absurd hi (h n).2.1]
  | slash ck n c hi => rcases hi with hi | hi; exacts [absurd hi (h n).2.2.1, absurd hi (h n).2.2.2.1]
  | unstake ck n c hi => exact absurd hi (h n).2.2.2.2.1
  | moveFrom ck t n dt dt' hi => exact absurd hi (h n).2.2.2.2.2
  | moveTo ck t n ds ds' hi => exact absurd hi (h n).2.2.2.2.2

theorem stakedIn_keep (E : Effect env o ix w w') {ck k : Key}
    (h : ∀ d d', stakeAt w k = some d → stakeAt w' k = some d' → d'.staked = d.staked) :
    stakedIn w' ck k = stakedIn w ck k := by
  unfold stakedIn
  split_ifs
  · cases hd : stakeAt w k with
    | none =>
      cases hd' : stakeAt w' k with
      | none => rfl
      | some d' => simp [(effect_new E hd hd').1]
    | some d =>
      obtain ⟨d', hd', _⟩ := effect_del E hd
      rw [hd']; simp [h d d' hd hd']
  · rfl

theorem stakedIn_eq {ck k : Key} (hb : belongs k ck) {d : Delegation} (hd : stakeAt w k = some d) :
    stakedIn w ck k = d.staked := by simp [stakedIn, hb, hd]

theorem staked_total_quiet (E : Effect env o ix w w') {ck : Key} {t : Nat} (T : TotalIs (stakedIn w ck) t)
    (h : ∀ k d d', stakeAt w k = some d → stakeAt w' k = some d' → d'.staked = d.staked) :
    TotalIs (stakedIn w' ck) t := T.congr fun k => stakedIn_keep E (h k)

theorem Ledger.step {ck : Key} {i u s a b c : Nat} (L : Ledger env ck w i u s) (O : o.Ok)
    (h : Verif.exec env o w ix = .ok w') (e : (stakedBy ck ix, unstakedBy ck ix, slashedBy w ck ix) = (a, b, c)) :
    Ledger env ck w' (i + a) (u + b) (s + c) := by
  obtain ⟨rfl, rfl, rfl⟩ := by simpa using e
  exact .exec L O h

/-- One instruction changes the staked total by what it stakes, unstakes and slashes. -/
theorem staked_total_step (E : Effect env o ix w w') {ck : Key} {t : Nat} (T : TotalIs (stakedIn w ck) t) :
    ∃ t', TotalIs (stakedIn w' ck) t' ∧ t' + unstakedBy ck ix + slashedBy w ck ix = t + stakedBy ck ix := by
  -- instructions that leave every staked amount alone
  have quiet : (stakedBy ck ix = 0) → (unstakedBy ck ix = 0) → (slashedBy w ck ix = 0) →
      (∀ k d d', stakeAt w k = some d → stakeAt w' k = some d' → DelChange env o ix w w' k d d' → d'.staked = d.staked) →
      ∃ t', TotalIs (stakedIn w' ck) t' ∧ t' + unstakedBy ck ix + slashedBy w ck ix = t + stakedBy ck ix := by
    intro h1 h2 h3 h
    refine ⟨t, staked_total_quiet E T fun k d d' hd hd' => ?_, by omega⟩
    obtain ⟨d'', e, D⟩ := effect_del E hd
    rw [hd'] at e; cases e
    exact h k d d' hd hd' D
  -- and one account's staked amount changes
  have one : ∀ {ck0 sk : Key} {d d' : Delegation}, OneStake ck0 sk w w' d d' →
      ∀ {i u s : Nat}, d'.staked + u + s = d.staked + i →
      ∃ t', TotalIs (stakedIn w' ck) t' ∧ t' + (if ck0 = ck then u else 0) + (if ck0 = ck then s else 0) =
        t + (if ck0 = ck then i else 0) := by
    intro ck0 sk d d' S i u s e
    have keep : ∀ k, k ≠ sk → stakedIn w' ck k = stakedIn w ck k := fun k hk => stakedIn_keep E fun d d' hd hd' => by
      obtain ⟨d'', e, hs⟩ := S.quiet.del hd
      rw [hd'] at e; cases e
      exact hs.staked hk
    by_cases hk : ck0 = ck
    · subst hk
      have e1 := stakedIn_eq S.bel S.before
      have e2 := stakedIn_eq S.bel S.after
      have := T.le sk
      refine ⟨t + d'.staked - d.staked, T.update keep ?_, ?_⟩
      · omega
      · simp only [if_true]; omega
    · refine ⟨t, T.congr fun k => ?_, by simp [hk]⟩
      by_cases hks : k = sk
      · subst hks
        have : ¬ belongs k ck := fun hb => hk (belongs_unique S.bel hb)
        simp [stakedIn, this]
      · exact keep k hks
  cases E0 : E with
  | stake ck0 sk amount d d' hi h0 h3 S hst _ =>
    obtain ⟨t', h1, h2⟩ := one S (i := amount) (u := 0) (s := 0) (by omega)
    refine ⟨t', h1, ?_⟩
    have e1 : stakedBy ck ix = if ck0 = ck then amount else 0 := by
      rcases hi with hi | hi <;> simp [stakedBy, h0, hi]
    have e2 : unstakedBy ck ix = 0 := by rcases hi with hi | hi <;> simp [unstakedBy, hi]
    have e3 : slashedBy w ck ix = 0 := by rcases hi with hi | hi <;> simp [slashedBy, hi]
    rw [e1, e2, e3]; simpa using h2
  | unstake ck0 sk amount c d d' hi h0 h3 U =>
    obtain ⟨t', h1, h2⟩ := one U.one (i := 0) (u := amount) (s := 0) (by have := U.staked; have := U.le; omega)
    refine ⟨t', h1, ?_⟩
    have e1 : stakedBy ck ix = 0 := by simp [stakedBy, hi]
    have e2 : unstakedBy ck ix = if ck0 = ck then amount else 0 := by simp [unstakedBy, hi, h0]
    have e3 : slashedBy w ck ix = 0 := by simp [slashedBy, hi]
    rw [e1, e2, e3]; simpa using h2
  | slash ck0 sk amount d d' hi h0 h3 S =>
    obtain ⟨t', h1, h2⟩ := one S.one (i := 0) (u := 0) (s := min amount d.staked)
      (by have := S.staked; have := Nat.min_le_right amount d.staked; omega)
    refine ⟨t', h1, ?_⟩
    have e1 : stakedBy ck ix = 0 := by rcases hi with hi | hi <;> simp [stakedBy, hi]
    have e2 : unstakedBy ck ix = 0 := by rcases hi with hi | hi <;> simp [unstakedBy, hi]
    have e3 : slashedBy w ck ix = if ck0 = ck then min amount d.staked else 0 := by
      rcases hi with hi | hi <;> simp [slashedBy, hi, h0, h3, S.one.before]
    rw [e1, e2, e3]; simpa using h2
  | move ck0 sk tk amount ds dt ds' dt' hi h0 h3 h4 M =>
    have e1 : stakedBy ck ix = 0 := by simp [stakedBy, hi]
    have e2 : unstakedBy ck ix = 0 := by simp [unstakedBy, hi]
    have e3 : slashedBy w ck ix = 0 := by simp [slashedBy, hi]
    have keep : ∀ k, k ≠ sk → k ≠ tk → stakedIn w' ck k = stakedIn w ck k := fun k hk hk' =>
      stakedIn_keep E fun d d' hd hd' => by
        obtain ⟨d'', e, hs⟩ := M.quiet.del hd
        rw [hd'] at e; cases e
        exact hs.staked (by simp [hk, hk'])
    refine ⟨t, ?_, by omega⟩
    by_cases hk : ck0 = ck
    · subst hk
      have s1 := stakedIn_eq M.belS M.s
      have s2 := stakedIn_eq M.belS M.s'
      have s3 := stakedIn_eq M.belT M.t
      have s4 := stakedIn_eq M.belT M.t'
      have hle := T.le_two M.ne
      have := M.sStaked; have := M.tStaked; have := M.le
      -- in two updates: first the source, then the destination
      have T1 : TotalIs (fun k => if k = sk then ds'.staked else stakedIn w ck0 k) (t - amount) :=
        T.update (a := sk) (fun k hk => by simp [hk]) (by simp only [if_true]; omega)
      refine T1.update (a := tk) (fun k hk => ?_) ?_
      · by_cases hks : k = sk
        · subst hks; simp [s2]
        · simp [hks, keep k hks hk]
      · simp only [M.ne, if_false]; omega
    · refine T.congr fun k => ?_
      by_cases hks : k = sk ∨ k = tk
      · have hb : belongs k ck0 := by rcases hks with rfl | rfl; exacts [M.belS, M.belT]
        have : ¬ belongs k ck := fun hb' => hk (belongs_unique hb hb')
        simp [stakedIn, this]
      · push Not at hks; exact keep k hks.1 hks.2
  | initializeConfig ck0 c hi =>
    obtain ⟨_, _, _, _, _, _, hi⟩ := hi
    refine quiet (by simp [stakedBy, hi]) (by simp [unstakedBy, hi]) (by simp [slashedBy, hi]) fun k d d' hd hd' D => ?_
    exact DelChange.staked_same D (by simp [hi])
  | initializeValidatorStake ck0 vote wd c hi =>
    refine quiet (by simp [stakedBy, hi]) (by simp [unstakedBy, hi]) (by simp [slashedBy, hi]) fun k d d' hd hd' D => ?_
    exact DelChange.staked_same D (by simp [hi])
  | initializeSolStakerStake ck0 native c v vs hi =>
    refine quiet (by simp [stakedBy, hi]) (by simp [unstakedBy, hi]) (by simp [slashedBy, hi]) fun k d d' hd hd' D => ?_
    exact DelChange.staked_same D (by simp [hi])
  | setAuthority ck0 new c c' ty hi =>
    refine quiet (by simp [stakedBy, hi]) (by simp [unstakedBy, hi]) (by simp [slashedBy, hi]) fun k d d' hd hd' D => ?_
    exact DelChange.staked_same D (by simp [hi])
  | updateConfig ck0 c f hi =>
    refine quiet (by simp [stakedBy, hi]) (by simp [unstakedBy, hi]) (by simp [slashedBy, hi]) fun k d d' hd hd' D => ?_
    exact DelChange.staked_same D (by simp [hi])
  | validatorSyncAuthority ck0 vote wd v hi =>
    refine quiet (by simp [stakedBy, hi]) (by simp [unstakedBy, hi]) (by simp [slashedBy, hi]) fun k d d' hd hd' D => ?_
    exact DelChange.staked_same D (by simp [hi])
  | settle ck0 hi h0 Q =>
    have e : stakedBy ck ix = 0 ∧ unstakedBy ck ix = 0 ∧ slashedBy w ck ix = 0 := by
      rcases hi with hi | hi | hi | ⟨n, hi⟩ <;> simp [stakedBy, unstakedBy, slashedBy, hi]
    refine quiet e.1 e.2.1 e.2.2 ?_
    intro k d d' hd hd' _
    obtain ⟨d'', e, hs⟩ := Q.del hd
    rw [hd'] at e; cases e
    exact hs.staked (by simp)

theorem zeroed_del {D : Data} (h : D.zeroed) : D.del? = none := by
  cases D <;> simp_all [Data.zeroed, Data.del?]

/-- **C17.** The staked tokens of a config are exactly the tokens staked, minus those unstaked, minus those slashed. -/
theorem C17_staked_total {ck : Key} {i u s : Nat} (L : Ledger env ck w i u s) :
    ∃ t, TotalIs (stakedIn w ck) t ∧ t + u + s = i := by
  induction L with
  | @genesis w0 G =>
    refine ⟨0, TotalIs.zero fun k => ?_, rfl⟩
    have : stakeAt w0 k = none := by
      rw [stakeAt_eq']; split_ifs with h
      · exact zeroed_del (G.owned k h)
      · rfl
    simp [stakedIn, this]
  | ext L E ih =>
    obtain ⟨t, T, e⟩ := ih
    refine ⟨t, T.congr fun k => ?_, e⟩
    unfold stakedIn
    rw [stakeAt_congr (ext_st (reachable_inv L.reachable) E k)]
  | exec L O h ih =>
    obtain ⟨t, T, e⟩ := ih
    obtain ⟨t', T', e'⟩ := staked_total_step (exec_effect (reachable_inv L.reachable) O h) T
    exact ⟨t', T', by omega⟩

/-! ### The witness history as a ledger: 2500 staked, 150 unstaked, 400 slashed -/

private theorem l0 : Ledger Witness.env cfg w0 0 0 0 := .genesis genesis
private theorem c0 : (stakedBy cfg ixInitConfig, unstakedBy cfg ixInitConfig, slashedBy w0 cfg ixInitConfig) = (0, 0, 0) := by decide +kernel
private theorem l1 : Ledger Witness.env cfg w1 0 0 0 := by unfold w1; exact l0.step o1_ok (ok_after ok0) c0
private theorem c1 : (stakedBy cfg ixInitVal1, unstakedBy cfg ixInitVal1, slashedBy w1 cfg ixInitVal1) = (0, 0, 0) := by decide +kernel
private theorem l2 : Ledger Witness.env cfg w2 0 0 0 := by unfold w2; exact l1.step o1_ok (ok_after ok1) c1
private theorem c2 : (stakedBy cfg ixInitVal2, unstakedBy cfg ixInitVal2, slashedBy w2 cfg ixInitVal2) = (0, 0, 0) := by decide +kernel
private theorem l3 : Ledger Witness.env cfg w3 0 0 0 := by unfold w3; exact l2.step o1_ok (ok_after ok2) c2
private theorem c3 : (stakedBy cfg ixInitSol1, unstakedBy cfg ixInitSol1, slashedBy w3 cfg ixInitSol1) = (0, 0, 0) := by decide +kernel
private theorem l4 : Ledger Witness.env cfg w4 0 0 0 := by unfold w4; exact l3.step o1_ok (ok_after ok3) c3
private theorem c4 : (stakedBy cfg ixInitSol2, unstakedBy cfg ixInitSol2, slashedBy w4 cfg ixInitSol2) = (0, 0, 0) := by decide +kernel
private theorem l5 : Ledger Witness.env cfg w5 0 0 0 := by unfold w5; exact l4.step o1_ok (ok_after ok4) c4
private theorem c5 : (stakedBy cfg ixStakeVal1, unstakedBy cfg ixStakeVal1, slashedBy w5 cfg ixStakeVal1) = (2000, 0, 0) := by decide +kernel
private theorem l6 : Ledger Witness.env cfg w6 2000 0 0 := by unfold w6; exact l5.step o1_ok (ok_after ok5) c5
private theorem c6 : (stakedBy cfg ixStakeSol1, unstakedBy cfg ixStakeSol1, slashedBy w6 cfg ixStakeSol1) = (500, 0, 0) := by decide +kernel
private theorem l7 : Ledger Witness.env cfg w7 2500 0 0 := by unfold w7; exact l6.step o1_ok (ok_after ok6) c6
private theorem l8 : Ledger Witness.env cfg w8 2500 0 0 := by unfold w8; exact .ext l7 (credit_ext (reachable_inv r7).wf (of_decide_eq_true lt7))
private theorem c8 : (stakedBy cfg ixHarvestHolder, unstakedBy cfg ixHarvestHolder, slashedBy w8 cfg ixHarvestHolder) = (0, 0, 0) := by decide +kernel
private theorem l9 : Ledger Witness.env cfg w9 2500 0 0 := by unfold w9; exact l8.step o1_ok (ok_after ok8) c8
private theorem c9 : (stakedBy cfg ixHarvestVal1, unstakedBy cfg ixHarvestVal1, slashedBy w9 cfg ixHarvestVal1) = (0, 0, 0) := by decide +kernel
private theorem l10 : Ledger Witness.env cfg w10 2500 0 0 := by unfold w10; exact l9.step o1_ok (ok_after ok9) c9
private theorem c10 : (stakedBy cfg ixHarvestSol1, unstakedBy cfg ixHarvestSol1, slashedBy w10 cfg ixHarvestSol1) = (0, 0, 0) := by decide +kernel
private theorem l11 : Ledger Witness.env cfg w11 2500 0 0 := by unfold w11; exact l10.step o2_ok (ok_after ok10) c10
private theorem c11 : (stakedBy cfg ixMove, unstakedBy cfg ixMove, slashedBy w11 cfg ixMove) = (0, 0, 0) := by decide +kernel
private theorem l12 : Ledger Witness.env cfg w12 2500 0 0 := by unfold w12; exact l11.step o2_ok (ok_after ok11) c11
private theorem c12 : (stakedBy cfg ixUnstake, unstakedBy cfg ixUnstake, slashedBy w12 cfg ixUnstake) = (0, 150, 0) := by decide +kernel
private theorem l13 : Ledger Witness.env cfg w13 2500 150 0 := by unfold w13; exact l12.step o2_ok (ok_after ok12) c12
private theorem l14 : Ledger Witness.env cfg w14 2500 150 0 := by unfold w14; exact .ext l13 (creditTokens_ext (reachable_inv r13).wf)
private theorem c14 : (stakedBy cfg ixSlashVal1, unstakedBy cfg ixSlashVal1, slashedBy w14 cfg ixSlashVal1) = (0, 0, 300) := by decide +kernel
private theorem l15 : Ledger Witness.env cfg w15 2500 150 300 := by unfold w15; exact l14.step o2_ok (ok_after ok14) c14
private theorem c15 : (stakedBy cfg ixSlashSol2, unstakedBy cfg ixSlashSol2, slashedBy w15 cfg ixSlashSol2) = (0, 0, 100) := by decide +kernel
private theorem l16 : Ledger Witness.env cfg w16 2500 150 400 := by unfold w16; exact l15.step o2_ok (ok_after ok15) c15

theorem ledger_w11 : Ledger Witness.env cfg w11 2500 0 0 := l11

example : Ledger Witness.env cfg w16 2500 150 400 ∧ stakedIn w16 cfg val1 + stakedIn w16 cfg val2 + stakedIn w16 cfg sol1 +
    stakedIn w16 cfg sol2 = 1950 := ⟨l16, by decide +kernel⟩

/-! ## Permanence -/

/-- **C25.** An initialised config stays a config. -/
theorem C25_config_permanent (R : Reachable env w) (S : Steps env w w') {k : Key} {c : Config}
    (hc : configAt w k = some c) : ∃ c', configAt w' k = some c' := by
  induction S with
  | refl => exact ⟨c, hc⟩
  | tail S T ih =>
    obtain ⟨y, hy⟩ := ih
    have R1 := steps_reachable R S
    cases T with
    | ext E => exact ⟨y, by rw [configAt_congr (ext_st (reachable_inv R1) E k)]; exact hy⟩
    | exec O h =>
      obtain ⟨c', hc', _⟩ := effect_config (reachable_inv R1) (exec_effect (reachable_inv R1) O h) hy
      exact ⟨c', hc'⟩

/-- **C25.** An initialised validator stake stays one and keeps its vote account. -/
theorem C25_validator_permanent (R : Reachable env w) (S : Steps env w w') {k : Key} {v : ValidatorStake}
    (hv : validatorAt w k = some v) : ∃ v', validatorAt w' k = some v' ∧ v'.del.vote = v.del.vote := by
  induction S with
  | refl => exact ⟨v, hv, rfl⟩
  | tail S T ih =>
    obtain ⟨y, hy, e⟩ := ih
    have R1 := steps_reachable R S
    cases T with
    | ext E => exact ⟨y, by rw [validatorAt_congr (ext_st (reachable_inv R1) E k)]; exact hy, e⟩
    | exec O h =>
      obtain ⟨v', hv', e'⟩ := (effect_ident (reachable_inv R1) (exec_effect (reachable_inv R1) O h)).1 k y hy
      exact ⟨v', hv', e'.trans e⟩

/-- **C25.** An initialised SOL staker stake stays one and keeps its SOL stake account. -/
theorem C25_solStaker_permanent (R : Reachable env w) (S : Steps env w w') {k : Key} {s : SolStakerStake}
    (hs : solStakerAt w k = some s) : ∃ s', solStakerAt w' k = some s' ∧ s'.solStake = s.solStake := by
  induction S with
  | refl => exact ⟨s, hs, rfl⟩
  | tail S T ih =>
    obtain ⟨y, hy, e⟩ := ih
    have R1 := steps_reachable R S
    cases T with
    | ext E => exact ⟨y, by rw [solStakerAt_congr (ext_st (reachable_inv R1) E k)]; exact hy, e⟩
    | exec O h =>
      obtain ⟨s', hs', e'⟩ := (effect_ident (reachable_inv R1) (exec_effect (reachable_inv R1) O h)).2 k y hy
      exact ⟨s', hs', e'.trans e⟩

/-- **C25.** InitializeConfig succeeds only on an account that holds no state of the program yet; with permanence, an
account is initialised at most once. -/
theorem C25_initialize_config_once (h : exec env o w ix = .ok w') {s c d : List UInt8} {t b y : Nat}
    (hi : ix.decoded = some (.initializeConfig s c t b y d)) :
    ∃ k, ix.acct 0 = some k ∧ configAt w k = none ∧ validatorAt w k = none ∧ solStakerAt w k = none ∧
      (configAt w' k).isSome := by
  obtain ⟨a, rest, hl, hr⟩ := ran_initializeConfig h hi
  obtain ⟨w1, bb, t', _, _, hw1, _, _, _, _, _, _, hO, hb, _, _, _, _, rfl⟩ := initializeConfig_ok hr
  refine ⟨a.config, by simp [Ix.acct, hl, InitializeConfigAccts.list], ?_, ?_, ?_, ?_⟩
  · unfold configAt; rw [hb]; simp
  · unfold validatorAt; rw [hb]; simp
  · unfold solStakerAt; rw [hb]; simp
  · unfold configAt; simp [hO, World.setD_data]

/-- **C25.** The same for the two stake accounts (account 2 of either instruction). -/
theorem C25_initialize_stake_once (h : exec env o w ix = .ok w')
    (hi : ix.decoded = some .initializeValidatorStake ∨ ix.decoded = some .initializeSolStakerStake) :
    ∃ k, ix.acct 2 = some k ∧ configAt w k = none ∧ validatorAt w k = none ∧ solStakerAt w k = none ∧
      (stakeAt w' k).isSome := by
  have none : ∀ {k}, (w k).data = .bytes [] → configAt w k = none ∧ validatorAt w k = none ∧ solStakerAt w k = none := by
    intro k hk
    refine ⟨?_, ?_, ?_⟩
    · unfold configAt; rw [hk]; simp
    · unfold validatorAt; rw [hk]; simp
    · unfold solStakerAt; rw [hk]; simp
  rcases hi with hi | hi
  · obtain ⟨a, rest, hl, hr⟩ := ran_initializeValidatorStake h hi
    obtain ⟨c, wd, _, _, _, _, _, hk, hb, ho, _, rfl⟩ := initializeValidatorStake_ok hr
    obtain ⟨n1, n2, n3⟩ := none hb
    refine ⟨a.validatorStake, by simp [Ix.acct, hl, InitializeValidatorStakeAccts.list], n1, n2, n3, ?_⟩
    rw [stakeAt_eq']; simp [World.setN_data, World.setN_owner, Data.del?]
  · obtain ⟨a, rest, hl, hr⟩ := ran_initializeSolStakerStake h hi
    obtain ⟨c, v, vs, au, _, _, _, _, _, _, _, _, hk1, hvs, hk2, hb, _, _, _, _, _, rfl⟩ := initializeSolStakerStake_ok hr
    obtain ⟨n1, n2, n3⟩ := none hb
    refine ⟨a.solStakerStake, by simp [Ix.acct, hl, InitializeSolStakerStakeAccts.list], n1, n2, n3, ?_⟩
    have hne : a.solStakerStake ≠ a.validatorStake := by rw [hk1, hk2]; simp
    rw [stakeAt_eq']; simp [World.setN_data, World.setN_owner, World.setD_data, hne, Data.del?]

/-- Initialising the same accounts a second time fails. -/
example : okB o1 w0 ixInitConfig = true ∧ okB o1 w1 ixInitConfig = false ∧ okB o1 w1 ixInitVal1 = true ∧
    okB o1 w2 ixInitVal1 = false ∧ okB o1 w3 ixInitSol1 = true ∧ okB o1 w4 ixInitSol1 = false := by decide +kernel

end Verif.Props
