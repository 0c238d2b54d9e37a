import Verif.Props.Exit
import Verif.Props.Split
/-!
# C97: how fast a whole config can be drained

C74 bounds the outflow within one cooldown, C96 that of one account. Here the whole config, over any number of cooldowns, with tokens
moving between accounts.
-/

namespace Verif.Props

open Verif Verif.Witness
open scoped BigOperators

variable {env : Env} {o : Oracle} {w w' : World} {ix : Ix} {ck : Key}

/-- A stretch of history whose unstakes from config `ck` fall between the times `a` and `b`, each at a limit of at most `B` basis points
and with a cooldown of at least `Δ` seconds. `z` counts the tokens slashed from the config. -/
inductive Drain (env : Env) (ck : Key) (B Δ a b : Nat) (start : World) : World → Nat → Prop
  | start : Drain env ck B Δ a b start start 0
  | ext {w w' z} : Drain env ck B Δ a b start w z → ExtStep w w' → Drain env ck B Δ a b start w' z
  | exec {w w' o ix z} : Drain env ck B Δ a b start w z → o.Ok → exec env o w ix = .ok w' →
      (∀ n c, ix.decoded = some (.unstakeTokens n) → ix.acct 0 = some ck → configAt w ck = some c →
        (a : Int) ≤ o.unixTimestamp ∧ o.unixTimestamp ≤ b ∧ Δ ≤ c.cooldownTime ∧ c.maxBps ≤ B) →
      Drain env ck B Δ a b start w' (z + slashedBy w ck ix)

theorem Drain.reachable {B Δ a b z : Nat} {start : World} (R : Reachable env start) (S : Drain env ck B Δ a b start w z) :
    Reachable env w := by
  induction S with
  | start => exact R
  | ext _ E ih => exact .ext ih E
  | exec _ O h _ ih => exact .exec ih O h

/-! ## A weight on the tokens -/

/-- The sum over a config of each account's tokens, weighted by a function of its cooldown. -/
def weighIn (W : Nat → Nat) (w : World) (ck k : Key) : Nat :=
  if belongs k ck then ((stakeAt w k).map fun d => d.staked * W d.cooldown).getD 0 else 0

theorem weighIn_eq {W : Nat → Nat} {k : Key} (hb : belongs k ck) {d : Delegation} (hd : stakeAt w k = some d) :
    weighIn W w ck k = d.staked * W d.cooldown := by simp [weighIn, hb, hd]

theorem weighIn_keep (E : Effect env o ix w w') {W : Nat → Nat} {k : Key}
    (h : ∀ d d', stakeAt w k = some d → stakeAt w' k = some d' → d'.staked = d.staked ∧ d'.cooldown = d.cooldown) :
    weighIn W w' ck k = weighIn W w ck k := by
  unfold weighIn
  split_ifs
  · cases hd : stakeAt w k with
    | none =>
      cases hd' : stakeAt w' k with
      | none => rfl
      | some d' => simp [(effect_new E hd hd').1]
    | some d =>
      obtain ⟨d', hd', _⟩ := effect_del E hd
      obtain ⟨h1, h2⟩ := h d d' hd hd'
      rw [hd']; simp [h1, h2]
  · rfl

/-- What one instruction does to the weighted tokens, when the weight grows with the cooldown, is at most `K`, and an unstake does not
lower the weighted tokens of its account. -/
theorem weigh_step (E : Effect env o ix w w') {W : Nat → Nat} {K t : Nat} (mono : ∀ c c', c ≤ c' → W c ≤ W c') (top : ∀ c, W c ≤ K)
    (T : TotalIs (weighIn W w ck) t)
    (hu : ∀ sk n c d d', ix.decoded = some (.unstakeTokens n) → ix.acct 0 = some ck → UnstakeOne o ix.ctx ck sk w w' n c d d' →
      d.staked * W d.cooldown ≤ d'.staked * W d'.cooldown) :
    ∃ t', TotalIs (weighIn W w' ck) t' ∧ t ≤ t' + slashedBy w ck ix * K := by
  have quiet : (∀ k d d', stakeAt w k = some d → stakeAt w' k = some d' → DelChange env o ix w w' k d d' →
        d'.staked = d.staked ∧ d'.cooldown = d.cooldown) →
      ∃ t', TotalIs (weighIn W w' ck) t' ∧ t ≤ t' + slashedBy w ck ix * K := by
    intro h
    refine ⟨t, T.congr fun k => weighIn_keep E fun d d' hd hd' => ?_, by omega⟩
    obtain ⟨d'', e, D⟩ := effect_del E hd
    rw [hd'] at e; cases e
    exact h k d d' hd hd' D
  have one : ∀ {ck0 sk : Key} {d d' : Delegation}, OneStake ck0 sk w w' d d' →
      ∃ t', TotalIs (weighIn W w' ck) t' ∧
        if ck0 = ck then t' + d.staked * W d.cooldown = t + d'.staked * W d'.cooldown else t' = t := by
    intro ck0 sk d d' S
    have keep : ∀ k, k ≠ sk → weighIn W w' ck k = weighIn W w ck k := fun k hk => weighIn_keep E fun d d' hd hd' => by
      obtain ⟨d'', e, hs⟩ := S.quiet.del hd
      rw [hd'] at e; cases e
      exact ⟨hs.staked hk, hs.cooldown hk⟩
    by_cases hk : ck0 = ck
    · subst hk
      have e1 := weighIn_eq (W := W) S.bel S.before
      have e2 := weighIn_eq (W := W) S.bel S.after
      have := T.le sk
      refine ⟨t + d'.staked * W d'.cooldown - d.staked * W d.cooldown, T.update keep ?_, ?_⟩
      · omega
      · simp only [if_true]; omega
    · refine ⟨t, T.congr fun k => ?_, by simp [hk]⟩
      by_cases hks : k = sk
      · subst hks
        have : ¬ belongs k ck := fun hb => hk (belongs_unique S.bel hb)
        simp [weighIn, this]
      · exact keep k hks
  cases E0 : E with
  | stake ck0 sk amount d d' hi h0 h3 S hst hcd =>
    obtain ⟨t', h1, h2⟩ := one S
    refine ⟨t', h1, ?_⟩
    have : d.staked * W d.cooldown ≤ d'.staked * W d'.cooldown := by
      rw [hcd]; exact Nat.mul_le_mul_right _ (by omega)
    split_ifs at h2 <;> omega
  | unstake ck0 sk amount c d d' hi h0 h3 U =>
    obtain ⟨t', h1, h2⟩ := one U.one
    refine ⟨t', h1, ?_⟩
    by_cases hk : ck0 = ck
    · subst hk
      have := hu sk amount c d d' hi h0 U
      simp only [if_true] at h2; omega
    · simp only [hk, if_false] at h2; omega
  | slash ck0 sk amount d d' hi h0 h3 S =>
    obtain ⟨t', h1, h2⟩ := one S.one
    refine ⟨t', h1, ?_⟩
    by_cases hk : ck0 = ck
    · subst hk
      have e : slashedBy w ck0 ix = min amount d.staked := by
        rcases hi with hi | hi <;> simp [slashedBy, h0, h3, hi, S.one.before]
      rw [e]
      simp only [if_true] at h2
      have h5 : d.staked = d'.staked + min amount d.staked := by have := S.staked; omega
      have h6 : d.staked * W d.cooldown ≤ d'.staked * W d.cooldown + min amount d.staked * K := by
        conv_lhs => rw [h5, Nat.add_mul]
        exact Nat.add_le_add_left (Nat.mul_le_mul_left _ (top _)) _
      rw [S.cooldown] at h2
      omega
    · simp only [hk, if_false] at h2; omega
  | move ck0 sk tk amount ds dt ds' dt' hi h0 h3 h4 M =>
    have keep : ∀ k, k ≠ sk → k ≠ tk → weighIn W w' ck k = weighIn W w ck k := fun k hk hk' =>
      weighIn_keep E fun d d' hd hd' => by
        obtain ⟨d'', e, hs⟩ := M.quiet.del hd
        rw [hd'] at e; cases e
        exact ⟨hs.staked (by simp [hk, hk']), hs.cooldown (by simp [hk, hk'])⟩
    by_cases hk : ck0 = ck
    · subst hk
      have s1 := weighIn_eq (W := W) M.belS M.s
      have s2 := weighIn_eq (W := W) M.belS M.s'
      have s3 := weighIn_eq (W := W) M.belT M.t
      have s4 := weighIn_eq (W := W) M.belT M.t'
      have hle := T.le_two M.ne
      have q : ds.staked * W ds.cooldown + dt.staked * W dt.cooldown ≤
          ds'.staked * W ds'.cooldown + dt'.staked * W dt'.cooldown := by
        rw [M.sCooldown, M.tCooldown, M.tStaked, Nat.add_mul]
        have h5 : ds.staked = ds'.staked + amount := by have := M.sStaked; have := M.le; omega
        have h6 : ds.staked * W ds.cooldown = ds'.staked * W ds.cooldown + amount * W ds.cooldown := by
          rw [h5, Nat.add_mul]
        have h7 := Nat.mul_le_mul_left amount (mono _ _ (Nat.le_max_left ds.cooldown dt.cooldown))
        have h8 := Nat.mul_le_mul_left dt.staked (mono _ _ (Nat.le_max_right ds.cooldown dt.cooldown))
        omega
      have T1 : TotalIs (fun k => if k = sk then ds'.staked * W ds'.cooldown else weighIn W w ck0 k)
          (t + ds'.staked * W ds'.cooldown - ds.staked * W ds.cooldown) :=
        T.update (a := sk) (fun k hk => by simp [hk]) (by simp only [if_true]; omega)
      refine ⟨t + ds'.staked * W ds'.cooldown + dt'.staked * W dt'.cooldown - ds.staked * W ds.cooldown -
        dt.staked * W dt.cooldown, T1.update (a := tk) (fun k hk => ?_) ?_, ?_⟩
      · by_cases hks : k = sk
        · subst hks; simp [s2]
        · simp [hks, keep k hks hk]
      · simp only [M.ne, if_false]; omega
      · omega
    · refine ⟨t, T.congr fun k => ?_, by omega⟩
      by_cases hks : k = sk ∨ k = tk
      · have hb : belongs k ck0 := by rcases hks with rfl | rfl; exacts [M.belS, M.belT]
        have : ¬ belongs k ck := fun hb' => hk (belongs_unique hb hb')
        simp [weighIn, this]
      · push Not at hks; exact keep k hks.1 hks.2
  | initializeConfig ck0 c hi =>
    obtain ⟨_, _, _, _, _, _, hi⟩ := hi
    exact quiet fun k d d' hd hd' D => DelChange.still D (by simp [hi])
  | initializeValidatorStake ck0 vote wd c hi =>
    exact quiet fun k d d' hd hd' D => DelChange.still D (by simp [hi])
  | initializeSolStakerStake ck0 native c v vs hi =>
    exact quiet fun k d d' hd hd' D => DelChange.still D (by simp [hi])
  | setAuthority ck0 new c c' ty hi =>
    exact quiet fun k d d' hd hd' D => DelChange.still D (by simp [hi])
  | updateConfig ck0 c f hi =>
    exact quiet fun k d d' hd hd' D => DelChange.still D (by simp [hi])
  | validatorSyncAuthority ck0 vote wd v hi =>
    exact quiet fun k d d' hd hd' D => DelChange.still D (by simp [hi])
  | settle ck0 hi h0 Q =>
    refine quiet ?_
    intro k d d' hd hd' _
    obtain ⟨d'', e, hs⟩ := Q.del hd
    rw [hd'] at e; cases e
    exact ⟨hs.staked (by simp), hs.cooldown (by simp)⟩

/-! ## The weight that works -/

/-- How many more unstakes an account with cooldown `c` can see between `a` and `b`. -/
def chances (Δ a b c : Nat) : Nat := if c ≤ b then (b - max c a) / Δ + 1 else 0

/-- `10000^N` times what is left of a token after that many unstakes. -/
def left (B Δ a b c : Nat) : Nat :=
  (10000 - B) ^ chances Δ a b c * 10000 ^ ((b - a) / Δ + 1 - chances Δ a b c)

theorem chances_le {Δ a b c : Nat} : chances Δ a b c ≤ (b - a) / Δ + 1 := by
  unfold chances
  split_ifs
  · have := Nat.div_le_div_right (c := Δ) (show b - max c a ≤ b - a by omega); omega
  · exact Nat.zero_le _

theorem chances_anti {Δ a b c c' : Nat} (h : c ≤ c') : chances Δ a b c' ≤ chances Δ a b c := by
  unfold chances
  split_ifs
  · have := Nat.div_le_div_right (c := Δ) (show b - max c' a ≤ b - max c a by omega); omega
  · omega
  · exact Nat.zero_le _
  · exact Nat.le_refl _

theorem pow_trade {r m m' N : Nat} (hr : r ≤ 10000) (h : m' ≤ m) (hN : m ≤ N) :
    r ^ m * 10000 ^ (N - m) ≤ r ^ m' * 10000 ^ (N - m') := by
  obtain ⟨j, rfl⟩ := Nat.exists_eq_add_of_le h
  have e : N - m' = j + (N - (m' + j)) := by omega
  rw [e, pow_add, pow_add, Nat.mul_assoc]
  exact Nat.mul_le_mul_left _ (Nat.mul_le_mul_right _ (Nat.pow_le_pow_left hr j))

theorem left_mono {B Δ a b : Nat} : ∀ c c', c ≤ c' → left B Δ a b c ≤ left B Δ a b c' := fun _ _ h =>
  pow_trade (by omega) (chances_anti h) chances_le

theorem left_top {B Δ a b c : Nat} : left B Δ a b c ≤ 10000 ^ ((b - a) / Δ + 1) := by
  have := pow_trade (r := 10000 - B) (by omega) (Nat.zero_le _) (chances_le (Δ := Δ) (a := a) (b := b) (c := c))
  simpa [left] using this

theorem left_bot {B Δ a b c : Nat} : (10000 - B) ^ ((b - a) / Δ + 1) ≤ left B Δ a b c := by
  have := pow_trade (r := 10000 - B) (by omega) (chances_le (Δ := Δ) (a := a) (b := b) (c := c)) (Nat.le_refl _)
  simpa [left] using this

/-- An unstake uses up one chance. -/
theorem chances_used {Δ a b c t cd : Nat} (hΔ : 0 < Δ) (h1 : c ≤ t) (h2 : a ≤ t) (h3 : t ≤ b) (hb : b < 2 ^ 63) (h4 : Δ ≤ cd) :
    chances Δ a b (satAdd t cd) + 1 ≤ chances Δ a b c := by
  unfold chances
  rw [if_pos (show c ≤ b by omega)]
  split_ifs with h5
  · have e : satAdd t cd = t + cd := by unfold satAdd U64 at *; omega
    rw [e] at h5 ⊢
    have h6 : b - max (t + cd) a + Δ ≤ b - max c a := by omega
    have h7 := Nat.div_le_div_right (c := Δ) h6
    rw [Nat.add_div_right _ hΔ] at h7
    omega
  · exact Nat.succ_le_succ (Nat.zero_le _)

theorem left_unstake {B Δ a b c t cd s n : Nat} (hΔ : 0 < Δ) (h1 : c ≤ t) (h2 : a ≤ t) (h3 : t ≤ b) (hb : b < 2 ^ 63)
    (h4 : Δ ≤ cd) (hn : n * 10000 ≤ s * B) (hle : n ≤ s) :
    s * left B Δ a b c ≤ (s - n) * left B Δ a b (satAdd t cd) := by
  have hc := chances_used hΔ h1 h2 h3 hb h4
  set N := (b - a) / Δ + 1 with hN
  set m := chances Δ a b c with hm
  have hmN : m ≤ N := chances_le
  have key : (10000 - B) ^ (m - 1) * 10000 ^ (N - (m - 1)) ≤ left B Δ a b (satAdd t cd) :=
    pow_trade (by omega) (by omega) (by omega)
  have hs : s * (10000 - B) ≤ (s - n) * 10000 := by rw [Nat.mul_sub, Nat.sub_mul]; omega
  refine le_trans ?_ (Nat.mul_le_mul_left _ key)
  obtain ⟨j, hj⟩ : ∃ j, m = j + 1 := ⟨m - 1, by omega⟩
  have e : N - j = (N - (j + 1)) + 1 := by omega
  unfold left
  rw [← hN, ← hm, hj, Nat.add_sub_cancel, e, pow_succ, pow_succ]
  calc s * ((10000 - B) ^ j * (10000 - B) * 10000 ^ (N - (j + 1)))
      = s * (10000 - B) * ((10000 - B) ^ j * 10000 ^ (N - (j + 1))) := by ring
    _ ≤ (s - n) * 10000 * ((10000 - B) ^ j * 10000 ^ (N - (j + 1))) := Nat.mul_le_mul_right _ hs
    _ = (s - n) * ((10000 - B) ^ j * (10000 ^ (N - (j + 1)) * 10000)) := by ring

/-- **C97.** How fast a whole config can be drained. If all unstakes from a config lie between the times `a` and `b`, at a limit of at most
`B` basis points and a cooldown of at least `Δ` seconds, then of the tokens staked at the start at least the fraction
`(1 - B/10000)^((b - a)/Δ + 1)` is still staked at the end or was slashed. Moving tokens between accounts, opening new ones and anything
else does not help. -/
theorem C97_drain_limited (R : Reachable env w) {B Δ a b z t : Nat} (hΔ : 0 < Δ) (hb : b < 2 ^ 63)
    (T : TotalIs (stakedIn w ck) t) (S : Drain env ck B Δ a b w w' z) :
    ∃ t', TotalIs (stakedIn w' ck) t' ∧
      t * (10000 - B) ^ ((b - a) / Δ + 1) ≤ (t' + z) * 10000 ^ ((b - a) / Δ + 1) := by
  have start : ∃ t0, TotalIs (weighIn (left B Δ a b) w ck) t0 ∧ t * (10000 - B) ^ ((b - a) / Δ + 1) ≤ t0 := by
    obtain ⟨F, h0, hs⟩ := T
    refine ⟨_, ⟨F, fun k hk => ?_, rfl⟩, ?_⟩
    · have := h0 k hk
      unfold stakedIn at this; unfold weighIn
      split_ifs at this ⊢
      · cases hd : stakeAt w k with
        | none => rfl
        | some d => rw [hd] at this; simp at this; simp [this]
      · rfl
    · rw [← hs, Finset.sum_mul]
      refine Finset.sum_le_sum fun k _ => ?_
      unfold stakedIn weighIn
      split_ifs
      · cases stakeAt w k with
        | none => simp
        | some d => exact Nat.mul_le_mul_left _ left_bot
      · simp
  obtain ⟨t0, T0, ht0⟩ := start
  have main : ∃ t1, TotalIs (weighIn (left B Δ a b) w' ck) t1 ∧ t0 ≤ t1 + z * 10000 ^ ((b - a) / Δ + 1) := by
    clear ht0
    induction S with
    | start => exact ⟨t0, T0, by omega⟩
    | ext S E ih =>
      obtain ⟨t', T', e⟩ := ih
      refine ⟨t', T'.congr fun k => ?_, e⟩
      unfold weighIn
      rw [stakeAt_congr (ext_st (reachable_inv (S.reachable R)) E k)]
    | @exec w1 w2 o ix z S O h hu ih =>
      obtain ⟨t1, T1, e⟩ := ih
      obtain ⟨t2, T2, e2⟩ := weigh_step (exec_effect (reachable_inv (S.reachable R)) O h) left_mono (fun _ => left_top) T1
        (by
          intro sk n c d d' hi h0 U
          obtain ⟨g1, g2, g3, g4⟩ := hu n c hi h0 U.config
          have hn : (o.now : Int) = o.unixTimestamp := by
            unfold Oracle.now
            have : o.unixTimestamp % (U64 : Int) = o.unixTimestamp := Int.emod_eq_of_lt (by omega) (by unfold U64; omega)
            rw [this]; omega
          rw [U.cooldown, U.staked]
          refine left_unstake hΔ U.ready (by omega) (by omega) hb g3 ?_ U.le
          exact (Nat.mul_le_mul_right _ U.limit).trans ((Nat.div_mul_le_self _ _).trans (Nat.mul_le_mul_left _ g4)))
      refine ⟨t2, T2, ?_⟩
      rw [Nat.add_mul]; omega
  obtain ⟨t1, T1, ht1⟩ := main
  obtain ⟨F, hF⟩ := finite_state (S.reachable R)
  have hF' : ∀ k, k ∉ F → stakeAt w' k = none := fun k hk => stakeAt_none_of_st (hF k hk)
  refine ⟨_, ⟨F, fun k hk => by simp [stakedIn, hF' k hk], rfl⟩, ?_⟩
  have e : t1 = ∑ k ∈ F, weighIn (left B Δ a b) w' ck k :=
    T1.unique ⟨F, fun k hk => by simp [weighIn, hF' k hk], rfl⟩
  have h1 : t1 ≤ (∑ k ∈ F, stakedIn w' ck k) * 10000 ^ ((b - a) / Δ + 1) := by
    rw [e, Finset.sum_mul]
    refine Finset.sum_le_sum fun k _ => ?_
    unfold stakedIn weighIn
    split_ifs
    · cases stakeAt w' k with
      | none => simp
      | some d => exact Nat.mul_le_mul_left _ left_top
    · simp
  rw [Nat.add_mul]
  omega

/-- In the witness history 100 tokens are moved between two accounts of the first SOL staker, then 150 and 125 leave, at times 2000 and
2100. -/
theorem drain_witness : ∃ z, Drain Witness.env cfg 5000 100 2000 2100 w11 w13more z ∧ z = 0 := by
  have key : ∀ {o : Oracle} {w : World} {ix : Ix}, ((configAt w cfg).map fun c => decide (100 ≤ c.cooldownTime ∧ c.maxBps ≤ 5000)) =
        some true → (2000 : Int) ≤ o.unixTimestamp → o.unixTimestamp ≤ 2100 →
      ∀ n c, ix.decoded = some (.unstakeTokens n) → ix.acct 0 = some cfg → configAt w cfg = some c →
        ((2000 : Nat) : Int) ≤ o.unixTimestamp ∧ o.unixTimestamp ≤ (2100 : Nat) ∧ 100 ≤ c.cooldownTime ∧ c.maxBps ≤ 5000 := by
    intro o w ix h h1 h2 n c _ _ hc
    rw [hc] at h
    simp only [Option.map_some, Option.some.injEq, decide_eq_true_eq] at h
    exact ⟨h1, h2, h.1, h.2⟩
  refine ⟨_, .exec (.exec (.exec .start o2_ok (ok_after ok11) (key (by decide +kernel) (by decide) (by decide))) o2_ok
    (ok_after ok12) (key ?_ (by decide) (by decide))) o2later_ok (ok_after ok13more) (key ?_ (by decide) (by decide)), ?_⟩
  · exact (by decide +kernel : ((configAt w12 cfg).map fun c => decide (100 ≤ c.cooldownTime ∧ c.maxBps ≤ 5000)) = some true)
  · exact (by decide +kernel : ((configAt w13 cfg).map fun c => decide (100 ≤ c.cooldownTime ∧ c.maxBps ≤ 5000)) = some true)
  · decide +kernel

example : ∃ t', TotalIs (stakedIn w13more cfg) t' ∧ 2500 * 5000 ^ 2 ≤ t' * 10000 ^ 2 := by
  obtain ⟨z, h, rfl⟩ := drain_witness
  obtain ⟨t, T, ht⟩ := C17_staked_total ledger_w11
  obtain rfl : t = 2500 := ht
  exact C97_drain_limited r11 (by decide) (by decide) T h

end Verif.Props
