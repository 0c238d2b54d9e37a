import Verif.Props.History
/-!
# C73 and C74: how fast tokens can leave

The limit on one unstake and the cooldown of one account (C13, C14) together bound how much can leave a whole config within
one cooldown period, however the stakers move their tokens around.
-/

namespace Verif.Props

open Verif Verif.Witness

variable {env : Env} {o : Oracle} {w w' : World} {ix : Ix}

/-! ## C73 -/

/-- **C73.** As long as the limit is below 100%, unstaking never empties an account that has tokens. -/
theorem C73_never_empties (R : Reachable env w) (O : o.Ok) (h : exec env o w ix = .ok w')
    {amount : Nat} (hi : ix.decoded = some (.unstakeTokens amount))
    {ck s : Key} {c : Config} {d d' : Delegation} (hck : ix.acct 0 = some ck) (hs : ix.acct 3 = some s)
    (hc : configAt w ck = some c) (hd : stakeAt w s = some d) (hd' : stakeAt w' s = some d')
    (hb : c.maxBps < 10000) (hpos : 0 < d.staked) :
    0 < d'.staked ∧ d.staked * (10000 - c.maxBps) ≤ d'.staked * 10000 := by
  obtain ⟨ck', s', c', e, e', a0, a3, U⟩ := unstake_facts R O h hi
  have hc' := U.config
  have he := U.one.before
  have he' := U.one.after
  rw [hck] at a0; cases a0
  rw [hs] at a3; cases a3
  rw [hc] at hc'; cases hc'
  rw [hd] at he; cases he
  rw [hd'] at he'; cases he'
  have h1 : amount * 10000 ≤ d.staked * c.maxBps :=
    (Nat.mul_le_mul_right _ U.limit).trans (Nat.div_mul_le_self _ _)
  have hst := U.staked
  have hle := U.le
  have h2 : d.staked * (10000 - c.maxBps) + d.staked * c.maxBps = d.staked * 10000 := by
    rw [← Nat.mul_add, Nat.sub_add_cancel hb.le]
  have h3 : 0 < d.staked * (10000 - c.maxBps) := Nat.mul_pos hpos (by omega)
  constructor <;> omega

/-- In the witness history half of the 300 tokens can leave; 151 are refused. -/
example : okB o2 w12 ixUnstake = true ∧ ((configAt w12 cfg).map (·.maxBps)) = some 5000 := by decide +kernel

/-! ## C74 -/

/-- A stretch of history, all of whose unstakes from config `ck` fall before time `b` and within one cooldown of `b`, at a limit
of at most `B` basis points each. `i` and `u` count the tokens that were staked in and unstaked from the config. -/
inductive Stretch (env : Env) (ck : Key) (B b : Nat) (start : World) : World → Nat → Nat → Prop
  | start : Stretch env ck B b start start 0 0
  | ext {w w' i u} : Stretch env ck B b start w i u → ExtStep w w' → Stretch env ck B b start w' i u
  | exec {w w' o ix i u} : Stretch env ck B b start w i u → o.Ok → exec env o w ix = .ok w' →
      (∀ n c, ix.decoded = some (.unstakeTokens n) → ix.acct 0 = some ck → configAt w ck = some c →
        0 ≤ o.unixTimestamp ∧ o.unixTimestamp ≤ b ∧ b < o.unixTimestamp + c.cooldownTime ∧ c.maxBps ≤ B) →
      Stretch env ck B b start w' (i + stakedBy ck ix) (u + unstakedBy ck ix)

/-- Tokens that can still be unstaked by time `b`. -/
def free (b : Nat) (d : Delegation) : Nat := if d.cooldown ≤ b then d.staked else 0

def freeIn (b : Nat) (w : World) (ck k : Key) : Nat := if belongs k ck then ((stakeAt w k).map (free b)).getD 0 else 0

theorem free_congr {b : Nat} {d d' : Delegation} (h1 : d'.staked = d.staked) (h2 : d'.cooldown = d.cooldown) :
    free b d' = free b d := by unfold free; rw [h1, h2]

theorem freeIn_eq {b : Nat} {ck k : Key} (hb : belongs k ck) {d : Delegation} (hd : stakeAt w k = some d) :
    freeIn b w ck k = free b d := by simp [freeIn, hb, hd]

theorem freeIn_keep (E : Effect env o ix w w') {b : Nat} {ck k : Key}
    (h : ∀ d d', stakeAt w k = some d → stakeAt w' k = some d' → d'.staked = d.staked ∧ d'.cooldown = d.cooldown) :
    freeIn b w' ck k = freeIn b w ck k := by
  unfold freeIn
  split_ifs
  · cases hd : stakeAt w k with
    | none =>
      cases hd' : stakeAt w' k with
      | none => rfl
      | some d' => simp [free, (effect_new E hd hd').1]
    | some d =>
      obtain ⟨d', hd', _⟩ := effect_del E hd
      obtain ⟨h1, h2⟩ := h d d' hd hd'
      rw [hd']; simp [free_congr h1 h2]
  · rfl

theorem totalIs_below {f g : Key → Nat} {n : Nat} (h : TotalIs g n) (hle : ∀ k, f k ≤ g k) : ∃ m, TotalIs f m ∧ m ≤ n := by
  obtain ⟨S, h0, hs⟩ := h
  refine ⟨_, ⟨S, fun k hk => ?_, rfl⟩, ?_⟩
  · have := hle k; rw [h0 k hk] at this; omega
  · rw [← hs]; exact Finset.sum_le_sum fun k _ => hle k

theorem DelChange.still {k : Key} {d d' : Delegation} (D : DelChange env o ix w w' k d d')
    (h : ∀ n, ix.decoded ≠ some (.validatorStakeTokens n) ∧ ix.decoded ≠ some (.solStakerStakeTokens n) ∧
      ix.decoded ≠ some (.slashValidatorStake n) ∧ ix.decoded ≠ some (.slashSolStakerStake n) ∧
      ix.decoded ≠ some (.unstakeTokens n) ∧ ix.decoded ≠ some (.solStakerMoveTokens n)) :
    d'.staked = d.staked ∧ d'.cooldown = d.cooldown := by
  cases D with
  | same h1 h2 => exact ⟨h1, h2⟩
  | sync ck vote wd _ _ _ _ _ e => rw [e]; exact ⟨rfl, rfl⟩
  | stake ck n hi => rcases hi with hi | hi; exacts [absurd hi (h n).1, absurd hi (h n).2.1]
  | slash ck n c hi => rcases hi with hi | hi; exacts [absurd hi (h n).2.2.1, absurd hi (h n).2.2.2.1]
  | unstake ck n c hi => exact absurd hi (h n).2.2.2.2.1
  | moveFrom ck t n dt dt' hi => exact absurd hi (h n).2.2.2.2.2
  | moveTo ck t n ds ds' hi => exact absurd hi (h n).2.2.2.2.2

/-- What one instruction does to the tokens that can still leave. -/
theorem free_step (E : Effect env o ix w w') {ck : Key} {B b t : Nat} (hB : b < 2 ^ 63)
    (T : TotalIs (freeIn b w ck) t)
    (hu : ∀ n c, ix.decoded = some (.unstakeTokens n) → ix.acct 0 = some ck → configAt w ck = some c →
      0 ≤ o.unixTimestamp ∧ o.unixTimestamp ≤ b ∧ b < o.unixTimestamp + c.cooldownTime ∧ c.maxBps ≤ B) :
    ∃ t', TotalIs (freeIn b w' ck) t' ∧ 10000 * unstakedBy ck ix + B * t' ≤ B * (t + stakedBy ck ix) := by
  have quiet : unstakedBy ck ix = 0 →
      (∀ k d d', stakeAt w k = some d → stakeAt w' k = some d' → DelChange env o ix w w' k d d' →
        d'.staked = d.staked ∧ d'.cooldown = d.cooldown) →
      ∃ t', TotalIs (freeIn b w' ck) t' ∧ 10000 * unstakedBy ck ix + B * t' ≤ B * (t + stakedBy ck ix) := by
    intro h2 h
    refine ⟨t, T.congr fun k => freeIn_keep E fun d d' hd hd' => ?_, ?_⟩
    · obtain ⟨d'', e, D⟩ := effect_del E hd
      rw [hd'] at e; cases e
      exact h k d d' hd hd' D
    · rw [h2, Nat.mul_add]; omega
  have one : ∀ {ck0 sk : Key} {d d' : Delegation}, OneStake ck0 sk w w' d d' →
      ∃ t', TotalIs (freeIn b w' ck) t' ∧ if ck0 = ck then t' + free b d = t + free b d' else t' = t := by
    intro ck0 sk d d' S
    have keep : ∀ k, k ≠ sk → freeIn b w' ck k = freeIn b w ck k := fun k hk => freeIn_keep E fun d d' hd hd' => by
      obtain ⟨d'', e, hs⟩ := S.quiet.del hd
      rw [hd'] at e; cases e
      exact ⟨hs.staked hk, hs.cooldown hk⟩
    by_cases hk : ck0 = ck
    · subst hk
      have e1 := freeIn_eq (b := b) S.bel S.before
      have e2 := freeIn_eq (b := b) S.bel S.after
      have := T.le sk
      refine ⟨t + free b d' - free b d, T.update keep ?_, ?_⟩
      · omega
      · simp only [if_true]; omega
    · refine ⟨t, T.congr fun k => ?_, by simp [hk]⟩
      by_cases hks : k = sk
      · subst hks
        have : ¬ belongs k ck := fun hb => hk (belongs_unique S.bel hb)
        simp [freeIn, this]
      · exact keep k hks
  cases E0 : E with
  | stake ck0 sk amount d d' hi h0 h3 S hst hcd =>
    obtain ⟨t', h1, h2⟩ := one S
    refine ⟨t', h1, ?_⟩
    have e1 : stakedBy ck ix = if ck0 = ck then amount else 0 := by
      rcases hi with hi | hi <;> simp [stakedBy, h0, hi]
    have e2 : unstakedBy ck ix = 0 := by rcases hi with hi | hi <;> simp [unstakedBy, hi]
    rw [e1, e2, Nat.mul_zero, Nat.zero_add]
    refine Nat.mul_le_mul_left _ ?_
    have : free b d' ≤ free b d + amount := by unfold free; rw [hst, hcd]; split_ifs <;> omega
    split_ifs at h2 ⊢ <;> omega
  | unstake ck0 sk amount c d d' hi h0 h3 U =>
    obtain ⟨t', h1, h2⟩ := one U.one
    refine ⟨t', h1, ?_⟩
    have e1 : stakedBy ck ix = 0 := by simp [stakedBy, hi]
    have e2 : unstakedBy ck ix = if ck0 = ck then amount else 0 := by simp [unstakedBy, hi, h0]
    rw [e1, e2]
    by_cases hk : ck0 = ck
    · subst hk
      obtain ⟨g1, g2, g3, g4⟩ := hu amount c hi h0 U.config
      have hn : (o.now : Int) = o.unixTimestamp := by
        unfold Oracle.now
        have : o.unixTimestamp % (U64 : Int) = o.unixTimestamp := Int.emod_eq_of_lt g1 (by unfold U64; omega)
        rw [this]; omega
      have f1 : free b d = d.staked := by
        unfold free; rw [if_pos]; have := U.ready; omega
      have f2 : free b d' = 0 := by
        unfold free; rw [if_neg]
        have := U.cooldown; unfold satAdd U64 at this; omega
      simp only [if_true, f1, f2] at h2 ⊢
      have l1 : 10000 * amount ≤ d.staked * c.maxBps := by
        have := Nat.mul_le_mul_left 10000 U.limit
        exact this.trans (Nat.mul_div_le _ _)
      have l2 : d.staked * c.maxBps ≤ B * d.staked := by rw [Nat.mul_comm B]; exact Nat.mul_le_mul_left _ g4
      have l3 : B * t' + B * d.staked = B * t := by rw [← Nat.mul_add]; congr 1
      simp only [Nat.add_zero]
      omega
    · simp only [hk, if_false] at h2 ⊢
      subst h2; simp
  | slash ck0 sk amount d d' hi h0 h3 S =>
    obtain ⟨t', h1, h2⟩ := one S.one
    refine ⟨t', h1, ?_⟩
    have e2 : unstakedBy ck ix = 0 := by rcases hi with hi | hi <;> simp [unstakedBy, hi]
    rw [e2, Nat.mul_zero, Nat.zero_add]
    refine Nat.mul_le_mul_left _ ?_
    have : free b d' ≤ free b d := by
      unfold free; rw [S.staked, S.cooldown]; split_ifs <;> omega
    split_ifs at h2 <;> omega
  | move ck0 sk tk amount ds dt ds' dt' hi h0 h3 h4 M =>
    have e1 : stakedBy ck ix = 0 := by simp [stakedBy, hi]
    have e2 : unstakedBy ck ix = 0 := by simp [unstakedBy, hi]
    have keep : ∀ k, k ≠ sk → k ≠ tk → freeIn b w' ck k = freeIn b w ck k := fun k hk hk' =>
      freeIn_keep E fun d d' hd hd' => by
        obtain ⟨d'', e, hs⟩ := M.quiet.del hd
        rw [hd'] at e; cases e
        exact ⟨hs.staked (by simp [hk, hk']), hs.cooldown (by simp [hk, hk'])⟩
    rw [e1, e2]
    by_cases hk : ck0 = ck
    · subst hk
      have s1 := freeIn_eq (b := b) M.belS M.s
      have s2 := freeIn_eq (b := b) M.belS M.s'
      have s3 := freeIn_eq (b := b) M.belT M.t
      have s4 := freeIn_eq (b := b) M.belT M.t'
      have hle := T.le_two M.ne
      have q : free b ds' + free b dt' ≤ free b ds + free b dt := by
        unfold free
        rw [M.sStaked, M.tStaked, M.sCooldown, M.tCooldown]
        have := M.le
        split_ifs <;> omega
      have T1 : TotalIs (fun k => if k = sk then free b ds' else freeIn b w ck0 k) (t + free b ds' - free b ds) :=
        T.update (a := sk) (fun k hk => by simp [hk]) (by simp only [if_true]; omega)
      refine ⟨t + free b ds' + free b dt' - free b ds - free b dt, T1.update (a := tk) (fun k hk => ?_) ?_, ?_⟩
      · by_cases hks : k = sk
        · subst hks; simp [s2]
        · simp [hks, keep k hks hk]
      · simp only [M.ne, if_false]; omega
      · rw [Nat.mul_zero, Nat.zero_add]; exact Nat.mul_le_mul_left _ (by omega)
    · refine ⟨t, T.congr fun k => ?_, by simp⟩
      by_cases hks : k = sk ∨ k = tk
      · have hb : belongs k ck0 := by rcases hks with rfl | rfl; exacts [M.belS, M.belT]
        have : ¬ belongs k ck := fun hb' => hk (belongs_unique hb hb')
        simp [freeIn, this]
      · push Not at hks; exact keep k hks.1 hks.2
  | initializeConfig ck0 c hi =>
    obtain ⟨_, _, _, _, _, _, hi⟩ := hi
    exact quiet (by simp [unstakedBy, hi]) fun k d d' hd hd' D => DelChange.still D (by simp [hi])
  | initializeValidatorStake ck0 vote wd c hi =>
    exact quiet (by simp [unstakedBy, hi]) fun k d d' hd hd' D => DelChange.still D (by simp [hi])
  | initializeSolStakerStake ck0 native c v vs hi =>
    exact quiet (by simp [unstakedBy, hi]) fun k d d' hd hd' D => DelChange.still D (by simp [hi])
  | setAuthority ck0 new c c' ty hi =>
    exact quiet (by simp [unstakedBy, hi]) fun k d d' hd hd' D => DelChange.still D (by simp [hi])
  | updateConfig ck0 c f hi =>
    exact quiet (by simp [unstakedBy, hi]) fun k d d' hd hd' D => DelChange.still D (by simp [hi])
  | validatorSyncAuthority ck0 vote wd v hi =>
    exact quiet (by simp [unstakedBy, hi]) fun k d d' hd hd' D => DelChange.still D (by simp [hi])
  | settle ck0 hi h0 Q =>
    refine quiet ?_ ?_
    · rcases hi with hi | hi | hi | ⟨n, hi⟩ <;> simp [unstakedBy, hi]
    intro k d d' hd hd' _
    obtain ⟨d'', e, hs⟩ := Q.del hd
    rw [hd'] at e; cases e
    exact ⟨hs.staked (by simp), hs.cooldown (by simp)⟩

theorem Stretch.reachable {ck : Key} {B b i u : Nat} {start : World} (R : Reachable env start)
    (S : Stretch env ck B b start w i u) : Reachable env w := by
  induction S with
  | start => exact R
  | ext _ E ih => exact .ext ih E
  | exec _ O h _ ih => exact .exec ih O h

/-- **C74.** Within one cooldown period, at most the configured fraction of all tokens of a config can leave it: of the `t` tokens
staked at the start of the stretch and the `i` staked during it, at most `B` basis points are unstaked. Moving tokens between
accounts does not help. -/
theorem C74_outflow_limited (R : Reachable env w) {ck : Key} {B b i u t : Nat} (hb : b < 2 ^ 63)
    (T : TotalIs (stakedIn w ck) t) (S : Stretch env ck B b w w' i u) : 10000 * u ≤ B * (t + i) := by
  obtain ⟨t0, T0, hle⟩ := totalIs_below (f := freeIn b w ck) T (fun k => by
    unfold freeIn stakedIn
    split_ifs
    · cases stakeAt w k with
      | none => simp
      | some d => simp only [Option.map_some, Option.getD_some, free]; split_ifs <;> omega
    · exact Nat.le_refl _)
  suffices h : ∃ t', TotalIs (freeIn b w' ck) t' ∧ 10000 * u + B * t' ≤ B * (t0 + i) by
    obtain ⟨t', _, h⟩ := h
    have : B * (t0 + i) ≤ B * (t + i) := Nat.mul_le_mul_left _ (by omega)
    omega
  induction S with
  | start => exact ⟨t0, T0, by simp⟩
  | ext S E ih =>
    obtain ⟨t', T', e⟩ := ih
    refine ⟨t', T'.congr fun k => ?_, e⟩
    unfold freeIn
    rw [stakeAt_congr (ext_st (reachable_inv (S.reachable R)) E k)]
  | exec S O h hu ih =>
    obtain ⟨t1, T1, e⟩ := ih
    obtain ⟨t2, T2, e2⟩ := free_step (exec_effect (reachable_inv (S.reachable R)) O h) hb T1 hu
    refine ⟨t2, T2, ?_⟩
    simp only [Nat.mul_add] at e e2 ⊢
    omega

/-- In the witness history 150 tokens leave at time 2000; with a cooldown of 100 seconds and a limit of 50% at most 1250 of the 2500
staked tokens can leave until time 2099. -/
example : ∃ i u, Stretch Witness.env cfg 5000 2099 w12 w13 i u ∧ u = 150 := by
  refine ⟨_, _, .exec .start o2_ok (ok_after ok12) ?_, by decide +kernel⟩
  intro n c _ _ hc
  have e : (configAt w12 cfg).map (fun c => (c.cooldownTime, c.maxBps)) = some (100, 5000) := by decide +kernel
  rw [hc] at e
  simp only [Option.map_some, Option.some.injEq, Prod.mk.injEq] at e
  rw [e.1, e.2]
  decide +kernel

end Verif.Props
