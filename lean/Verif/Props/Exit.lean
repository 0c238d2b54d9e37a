import Verif.SpecExit
import Verif.Props.Run
import Verif.Props.Authority
import Verif.WitnessLive
/-!
# C95 and C96: what others can do to a stake, and how fast it can leave
-/

namespace Verif.Props

open Verif Verif.Witness

variable {env : Env} {o : Oracle} {w w' wa : World} {ix : Ix} {ck sk : Key}

theorem OthersOnly.reachable (R : Reachable env w) (S : OthersOnly env ck sk w w') : Reachable env w' := by
  induction S with
  | start => exact R
  | ext _ E ih => exact .ext ih E
  | exec _ O _ h ih => exact .exec ih O h

/-- One instruction by others leaves the limit, the cooldown and both authorities of the config alone. -/
theorem others_config (R : Reachable env w) (O : o.Ok) (B : ix.ByOthers w ck sk) (h : exec env o w ix = .ok w') {c : Config}
    (hc : configAt w ck = some c) :
    ∃ c', configAt w' ck = some c' ∧ settings c' = settings c ∧ c'.slashAuthority = c.slashAuthority := by
  obtain ⟨c', hc', C⟩ := effect_config (reachable_inv R) (exec_effect (reachable_inv R) O h) hc
  refine ⟨c', hc', ?_, ?_⟩
  · by_contra hne
    obtain ⟨h1, h2, _⟩ := C09_settings_need_signature R O h hc hc' hne
    rcases B.config c hc with e | e
    · exact h1 e
    · rw [h2] at e; cases e
  · by_contra hne
    obtain ⟨h1, h2, _⟩ := C10_slash_authority_needs_signature R O h hc hc' hne
    rcases B.slash c hc with e | e
    · exact h1 e
    · rw [h2] at e; cases e

/-- One instruction by others takes no tokens from the account and does not move its cooldown. -/
theorem others_stake (R : Reachable env w) (O : o.Ok) (B : ix.ByOthers w ck sk) (h : exec env o w ix = .ok w')
    (hb : belongs sk ck) {d : Delegation} (hd : stakeAt w sk = some d) :
    ∃ d', stakeAt w' sk = some d' ∧ d.staked ≤ d'.staked ∧ d'.cooldown = d.cooldown := by
  obtain ⟨d', hd', D⟩ := effect_del (exec_effect (reachable_inv R) O h) hd
  refine ⟨d', hd', ?_⟩
  have hn := B.stake d hd
  cases D with
  | same h1 h2 => exact ⟨h1.ge, h2⟩
  | sync _ _ _ _ _ _ _ _ e => rw [e]; exact ⟨Nat.le_refl _, rfl⟩
  | stake _ _ _ _ _ _ h1 h2 => exact ⟨by omega, h2⟩
  | slash ck' _ c _ _ _ hb' hc h1 h2 =>
    rw [belongs_unique hb' hb] at hc
    rcases B.slash c hc with e | e
    · exact absurd e h1
    · rw [h2] at e; cases e
  | unstake _ _ _ _ _ _ _ U => rw [U.signed] at hn; cases hn
  | moveFrom _ _ _ _ _ _ _ _ _ M => rw [M.sSigned] at hn; cases hn
  | moveTo _ _ _ _ _ _ _ _ _ M => rw [M.same, M.sSigned] at hn; cases hn

/-- **C95.** As long as neither the stake account's authority nor the two authorities of its config sign anything, whatever
everybody else does: no token leaves the account, its cooldown stays as it is, and the config's limit, cooldown time, keeper
reward and authorities stay as they are. -/
theorem C95_others_cannot_worsen (R : Reachable env w) (S : OthersOnly env ck sk w w') (hb : belongs sk ck) {c : Config}
    {d : Delegation} (hc : configAt w ck = some c) (hd : stakeAt w sk = some d) :
    ∃ c' d', configAt w' ck = some c' ∧ stakeAt w' sk = some d' ∧ d.staked ≤ d'.staked ∧ d'.cooldown = d.cooldown ∧
      settings c' = settings c ∧ c'.slashAuthority = c.slashAuthority := by
  induction S with
  | start => exact ⟨c, d, hc, hd, Nat.le_refl _, rfl, rfl, rfl⟩
  | ext S E ih =>
    obtain ⟨c', d', hc', hd', h⟩ := ih
    have e := ext_st (reachable_inv (OthersOnly.reachable R S)) E
    exact ⟨c', d', by rw [configAt_congr (e ck)]; exact hc', by rw [stakeAt_congr (e sk)]; exact hd', h⟩
  | exec S O B h ih =>
    obtain ⟨c', d', hc', hd', h1, h2, h3, h4⟩ := ih
    have R1 := OthersOnly.reachable R S
    obtain ⟨c2, hc2, h5, h6⟩ := others_config R1 O B h hc'
    obtain ⟨d2, hd2, h7, h8⟩ := others_stake R1 O B h hb hd'
    exact ⟨c2, d2, hc2, hd2, h1.trans h7, h8.trans h2, h5.trans h3, h6.trans h4⟩

/-- **C95.** So others can neither delay nor shrink a withdrawal that the config's rules allow. -/
theorem C95_withdrawal_kept (R : Reachable env w) (S : OthersOnly env ck sk w w') {t n : Nat} (h : MayWithdraw w ck sk t n) :
    MayWithdraw w' ck sk t n := by
  obtain ⟨c, d, hc, hd, hb, h1, h2, h3⟩ := h
  obtain ⟨c', d', hc', hd', h4, h5, h6, _⟩ := C95_others_cannot_worsen R S hb hc hd
  have e : c'.maxBps = c.maxBps := congrArg Settings.maxBps h6
  exact ⟨c', d', hc', hd', hb, by rw [h5]; exact h1, h2.trans h4, by
    rw [e]; exact h3.trans (Nat.mul_le_mul_right _ h4)⟩

/-- **C95.** These rules are the ones the program applies: an unstake that succeeds was allowed by them at the time of the clock. -/
theorem C95_rules_applied (R : Reachable env w) (O : o.Ok) (h : exec env o w ix = .ok w') {n t : Nat}
    (hi : ix.decoded = some (.unstakeTokens n)) (h3 : ix.acct 3 = some sk) (ht : o.unixTimestamp = t) (hlt : t < 2 ^ 63) :
    ∃ ck, ix.acct 0 = some ck ∧ MayWithdraw w ck sk t n := by
  obtain ⟨ck, s, c, e, e', a0, a3, U⟩ := unstake_facts R O h hi
  rw [h3] at a3; cases a3
  exact ⟨ck, a0, c, e, U.config, U.one.before, U.one.bel, now_eq ht hlt ▸ U.ready, U.le,
    (Nat.mul_le_mul_right _ U.limit).trans (Nat.div_mul_le_self _ _)⟩

theorem byOthers_mk (h1 : ((stakeAt w sk).map fun d => ix.ctx.signer d.authority) = some false)
    (h2 : ((configAt w ck).map fun c => (ix.ctx.signer c.authority, ix.ctx.signer c.slashAuthority)) = some (false, false)) :
    ix.ByOthers w ck sk := by
  refine ⟨fun d hd => ?_, fun c hc => Or.inr ?_, fun c hc => Or.inr ?_⟩
  · rw [hd] at h1; simpa using h1
  · rw [hc] at h2; simp at h2; exact h2.1
  · rw [hc] at h2; simp at h2; exact h2.2

theorem mayWithdraw_mk {t n : Nat} (hb : belongs sk ck)
    (h : ((configAt w ck).bind fun c => (stakeAt w sk).map fun d =>
      decide (d.cooldown ≤ t ∧ n ≤ d.staked ∧ n * 10000 ≤ d.staked * c.maxBps)) = some true) : MayWithdraw w ck sk t n := by
  simp only [Option.bind_eq_some_iff, Option.map_eq_some_iff, decide_eq_true_eq] at h
  obtain ⟨c, hc, d, hd, h1, h2, h3⟩ := h
  exact ⟨c, d, hc, hd, hb, h1, h2, h3⟩

/-- In the witness history others pass on holder rewards, harvest for a validator, and harvest for the staker, with a sync; the
staker's right to withdraw 150 tokens outlasts it. -/
theorem others_witness : OthersOnly Witness.env cfg sol1 w8 w11 := by
  unfold w11 w10 w9
  exact .exec (.exec (.exec .start o1_ok (byOthers_mk (by decide +kernel) (by decide +kernel)) (ok_after ok8)) o1_ok
    (byOthers_mk (by decide +kernel) (by decide +kernel)) (ok_after ok9)) o2_ok
    (byOthers_mk (by decide +kernel) (by decide +kernel)) (ok_after ok10)

example : MayWithdraw w8 cfg sol1 2000 150 ∧ MayWithdraw w11 cfg sol1 2000 150 :=
  have h : MayWithdraw w8 cfg sol1 2000 150 := mayWithdraw_mk (belongs_sol _ _) (by decide +kernel)
  ⟨h, C95_withdrawal_kept r8 others_witness h⟩

/-- Each of the three can worsen it: by an unstake, by a slash, by a change of the settings. -/
example : (stakeAt w12 sol1).map (fun d => (d.staked, d.cooldown)) = some (400, 0) ∧
    (stakeAt w13 sol1).map (fun d => (d.staked, d.cooldown)) = some (250, 2100) ∧
    (stakeAt w14 val1).map (·.staked) = some 2000 ∧ (stakeAt w15 val1).map (·.staked) = some 1700 ∧
    (configAt w18 cfg).map (·.cooldownTime) = some 100 ∧ (configAt w21 cfg).map (·.cooldownTime) = some 200 := by
  decide +kernel

/-! ## C96 -/

theorem Exit.reachable {B Δ : Nat} {ts : List Nat} (R : Reachable env w) (S : Exit env ck sk B Δ w w' ts) :
    Reachable env w' := by
  induction S with
  | start => exact R
  | ext _ E ih => exact .ext ih E
  | other _ O h _ ih => exact .exec ih O h
  | unstake _ O h _ _ _ _ _ _ _ ih => exact .exec ih O h

/-- An instruction that is not of a kind that takes tokens from `sk` does not, and does not move its cooldown back. -/
theorem not_takes (R : Reachable env w) (O : o.Ok) (h : exec env o w ix = .ok w') (hn : ¬ ix.TakesFrom sk) {d : Delegation}
    (hd : stakeAt w sk = some d) : ∃ d', stakeAt w' sk = some d' ∧ d.staked ≤ d'.staked ∧ d.cooldown ≤ d'.cooldown := by
  obtain ⟨d', hd', D⟩ := effect_del (exec_effect (reachable_inv R) O h) hd
  refine ⟨d', hd', ?_⟩
  cases D with
  | same h1 h2 => exact ⟨h1.ge, h2.ge⟩
  | sync _ _ _ _ _ _ _ _ e => rw [e]; exact ⟨Nat.le_refl _, Nat.le_refl _⟩
  | stake _ _ _ _ _ _ h1 h2 => exact ⟨by omega, h2.ge⟩
  | slash _ n _ hi _ h1 => exact absurd (Or.inr (Or.inr ⟨n, hi, h1⟩)) hn
  | unstake _ n _ hi _ h3 => exact absurd (Or.inl ⟨n, hi, h3⟩) hn
  | moveFrom _ _ n _ _ hi _ h3 => exact absurd (Or.inr (Or.inl ⟨n, hi, h3⟩)) hn
  | moveTo _ _ _ _ _ _ _ _ _ M => exact ⟨by have := M.tStaked; omega, by rw [M.tCooldown]; exact Nat.le_max_right _ _⟩

/-- What a successful unstake does to the account it names. -/
theorem unstake_one (R : Reachable env w) (O : o.Ok) (h : exec env o w ix = .ok w') {n : Nat}
    (hi : ix.decoded = some (.unstakeTokens n)) (h3 : ix.acct 3 = some sk) (hb : belongs sk ck) {c : Config} {d : Delegation}
    (hc : configAt w ck = some c) (hd : stakeAt w sk = some d) :
    ∃ d', stakeAt w' sk = some d' ∧ n ≤ d.staked ∧ n ≤ d.staked * c.maxBps / 10000 ∧ d'.staked = d.staked - n ∧
      d.cooldown ≤ o.now ∧ d'.cooldown = satAdd o.now c.cooldownTime := by
  obtain ⟨a, rest, hl, hr⟩ := ran_unstakeTokens h hi
  obtain ⟨c0, d0, d', U⟩ := unstakeTokens_one (reachable_inv R) O hr
  have b3 : ix.acct 3 = some a.stake := by simp [Ix.acct, hl, UnstakeTokensAccts.list]
  rw [h3] at b3; cases b3
  have e := U.one.before; rw [hd] at e; cases e
  have e := U.config; rw [belongs_unique U.one.bel hb, hc] at e; cases e
  exact ⟨d', U.one.after, U.le, U.limit, U.staked, U.ready, U.cooldown⟩

/-- **C96.** However often the authority unstakes, and whatever else happens: after `k` unstakes at a limit of `B` basis points or
less, at least the fraction `(1 - B/10000)^k` of the tokens is still staked. -/
theorem C96_remains (R : Reachable env w) {B Δ : Nat} {ts : List Nat} (S : Exit env ck sk B Δ w w' ts) (hb : belongs sk ck)
    {d : Delegation} (hd : stakeAt w sk = some d) :
    ∃ d', stakeAt w' sk = some d' ∧ d.staked * (10000 - B) ^ ts.length ≤ d'.staked * 10000 ^ ts.length := by
  induction S with
  | start => exact ⟨d, hd, by simp⟩
  | ext S E ih =>
    obtain ⟨d', hd', h⟩ := ih
    exact ⟨d', by rw [stakeAt_congr (ext_st (reachable_inv (Exit.reachable R S)) E sk)]; exact hd', h⟩
  | other S O h hn ih =>
    obtain ⟨d', hd', h1⟩ := ih
    obtain ⟨d2, hd2, h2, _⟩ := not_takes (Exit.reachable R S) O h hn hd'
    exact ⟨d2, hd2, h1.trans (Nat.mul_le_mul_right _ h2)⟩
  | @unstake w1 w2 ts o ix n t c S O h hi h3 hc hB _ _ _ ih =>
    obtain ⟨d', hd', h1⟩ := ih
    obtain ⟨d2, hd2, _, hlim, hst, _⟩ := unstake_one (Exit.reachable R S) O h hi h3 hb hc hd'
    refine ⟨d2, hd2, ?_⟩
    have h2 : n * 10000 ≤ d'.staked * B :=
      (Nat.mul_le_mul_right _ hlim).trans ((Nat.div_mul_le_self _ _).trans (Nat.mul_le_mul_left _ hB))
    have h4 : d'.staked * (10000 - B) ≤ d2.staked * 10000 := by
      rw [hst, Nat.mul_sub, Nat.sub_mul]; omega
    simp only [List.length_cons, pow_succ]
    calc d.staked * ((10000 - B) ^ ts.length * (10000 - B))
        = d.staked * (10000 - B) ^ ts.length * (10000 - B) := by ring
      _ ≤ d'.staked * 10000 ^ ts.length * (10000 - B) := Nat.mul_le_mul_right _ h1
      _ = d'.staked * (10000 - B) * 10000 ^ ts.length := by ring
      _ ≤ d2.staked * 10000 * 10000 ^ ts.length := Nat.mul_le_mul_right _ h4
      _ = d2.staked * (10000 ^ ts.length * 10000) := by ring

/-- The cooldown left by the unstakes so far. -/
theorem exit_cooldown (R : Reachable env w) {B Δ : Nat} {ts : List Nat} (S : Exit env ck sk B Δ w w' ts) (hb : belongs sk ck)
    {d : Delegation} (hd : stakeAt w sk = some d) :
    ∃ d', stakeAt w' sk = some d' ∧ ∀ t ∈ ts.head?, min (t + Δ) (U64 - 1) ≤ d'.cooldown := by
  induction S with
  | start => exact ⟨d, hd, by simp⟩
  | ext S E ih =>
    obtain ⟨d', hd', h⟩ := ih
    exact ⟨d', by rw [stakeAt_congr (ext_st (reachable_inv (Exit.reachable R S)) E sk)]; exact hd', h⟩
  | other S O h hn ih =>
    obtain ⟨d', hd', h1⟩ := ih
    obtain ⟨d2, hd2, _, h2⟩ := not_takes (Exit.reachable R S) O h hn hd'
    exact ⟨d2, hd2, fun t ht => (h1 t ht).trans h2⟩
  | @unstake w1 w2 ts o ix n t c S O h hi h3 hc hB hΔ ht hlt ih =>
    obtain ⟨d', hd', _⟩ := ih
    obtain ⟨d2, hd2, _, _, _, _, hcd⟩ := unstake_one (Exit.reachable R S) O h hi h3 hb hc hd'
    refine ⟨d2, hd2, fun t' ht' => ?_⟩
    simp only [List.head?_cons, Option.mem_some_iff] at ht'
    rw [← ht', hcd, now_eq ht hlt]
    unfold satAdd; omega

/-- **C96.** Between the first and the last of these unstakes lies a full cooldown for every one but the first. -/
theorem C96_apart (R : Reachable env w) {B Δ : Nat} {ts : List Nat} (S : Exit env ck sk B Δ w w' ts) (hb : belongs sk ck)
    {d : Delegation} (hd : stakeAt w sk = some d) {first last : Nat} (h1 : ts.getLast? = some first)
    (h2 : ts.head? = some last) : first + (ts.length - 1) * Δ ≤ last := by
  induction S generalizing last with
  | start => simp at h1
  | ext S E ih => exact ih h1 h2
  | other S O h hn ih => exact ih h1 h2
  | @unstake w1 w2 ts o ix n t c S O h hi h3 hc hB hΔ ht hlt ih =>
    simp only [List.head?_cons, Option.some.injEq] at h2
    subst h2
    cases ts with
    | nil => simp at h1 ⊢; omega
    | cons t1 ts =>
      rw [List.getLast?_cons_cons] at h1
      have := ih h1 (List.head?_cons)
      obtain ⟨d', hd', hcd⟩ := exit_cooldown R S hb hd
      obtain ⟨d2, hd2, _, _, _, hle, _⟩ := unstake_one (Exit.reachable R S) O h hi h3 hb hc hd'
      have h4 := hcd t1 rfl
      rw [now_eq ht hlt] at hle
      simp only [List.length_cons, Nat.add_sub_cancel] at this ⊢
      rw [Nat.succ_mul]
      have : U64 - 1 = 2 ^ 64 - 1 := rfl
      omega

/-- **C96.** How fast a stake can leave: if the unstakes of a stretch of history lie within `T` seconds, at a limit of at most `B`
basis points and a cooldown of at least `Δ` seconds, at least the fraction `(1 - B/10000)^(T/Δ + 1)` is still staked. -/
theorem C96_exit_speed (R : Reachable env w) {B Δ T : Nat} {ts : List Nat} (S : Exit env ck sk B Δ w w' ts)
    (hb : belongs sk ck) {d : Delegation} (hd : stakeAt w sk = some d) (hΔ : 0 < Δ)
    (hT : ∀ t ∈ ts, ∀ t' ∈ ts, t' ≤ t + T) :
    ∃ d', stakeAt w' sk = some d' ∧
      d.staked * (10000 - B) ^ (T / Δ + 1) ≤ d'.staked * 10000 ^ (T / Δ + 1) := by
  obtain ⟨d', hd', h⟩ := C96_remains R S hb hd
  refine ⟨d', hd', ?_⟩
  have hk : ts.length ≤ T / Δ + 1 := by
    cases hl : ts.getLast? with
    | none => rw [List.getLast?_eq_none_iff] at hl; simp [hl]
    | some first =>
      cases ts with
      | nil => simp at hl
      | cons last tl =>
        have h1 := C96_apart R S hb hd hl rfl
        have h2 := hT first (List.mem_of_getLast? hl) last (by simp)
        simp only [List.length_cons, Nat.add_sub_cancel] at h1 ⊢
        have : tl.length ≤ T / Δ := by rw [Nat.le_div_iff_mul_le hΔ]; omega
        omega
  obtain ⟨j, hj⟩ := Nat.exists_eq_add_of_le hk
  rw [hj, pow_add, pow_add, ← Nat.mul_assoc, ← Nat.mul_assoc]
  exact Nat.mul_le_mul h (Nat.pow_le_pow_left (by omega) j)

theorem FullExit.reachable {b k : Nat} (R : Reachable env w) (S : FullExit env ck sk b w w' k) : Reachable env w' := by
  induction S with
  | start => exact R
  | ext _ E ih => exact .ext ih E
  | other _ O h _ ih => exact .exec ih O h
  | unstake _ O h _ _ _ _ _ ih => exact .exec ih O h

/-- **C96.** An authority that takes out the most it may each time gets its tokens out at that rate: after `k` such unstakes at
a limit of `b` basis points, at most the fraction `(1 - b/10000)^k` and `10000/b` tokens are left. -/
theorem C96_full_exit (R : Reachable env w) {b k : Nat} (S : FullExit env ck sk b w w' k) (hb : belongs sk ck) (hle : b ≤ 10000)
    {d : Delegation} (hd : stakeAt w sk = some d) :
    ∃ d', stakeAt w' sk = some d' ∧ b * d'.staked * 10000 ^ k ≤ b * d.staked * (10000 - b) ^ k + 10000 * 10000 ^ k := by
  induction S with
  | start => exact ⟨d, hd, by simp⟩
  | ext S E ih =>
    obtain ⟨d', hd', h⟩ := ih
    exact ⟨d', by rw [stakeAt_congr (ext_st (reachable_inv (FullExit.reachable R S)) E sk)]; exact hd', h⟩
  | other S O h hn ih =>
    obtain ⟨d', hd', h1⟩ := ih
    obtain ⟨d2, hd2, _⟩ := effect_del (exec_effect (reachable_inv (FullExit.reachable R S)) O h) hd'
    exact ⟨d2, hd2, (Nat.mul_le_mul_right _ (Nat.mul_le_mul_left _ (hn _ _ hd' hd2))).trans h1⟩
  | @unstake w1 w2 k o ix c d0 S O h hc hB hd0 hi h3 ih =>
    obtain ⟨d', hd', h1⟩ := ih
    rw [hd0] at hd'; cases hd'
    obtain ⟨d2, hd2, hle', _, hst, _⟩ := unstake_one (FullExit.reachable R S) O h hi h3 hb hc hd0
    refine ⟨d2, hd2, ?_⟩
    have e : d0.staked * b = 10000 * (d0.staked * b / 10000) + d0.staked * b % 10000 := (Nat.div_add_mod _ _).symm
    have e1 : d0.staked * b % 10000 < 10000 := Nat.mod_lt _ (by decide)
    have e2 : d0.staked * (10000 - b) + d0.staked * b = d0.staked * 10000 := by
      rw [← Nat.mul_add, Nat.sub_add_cancel hle]
    have h4 : d2.staked * 10000 ≤ d0.staked * (10000 - b) + 10000 := by omega
    calc b * d2.staked * 10000 ^ (k + 1) = b * 10000 ^ k * (d2.staked * 10000) := by ring
      _ ≤ b * 10000 ^ k * (d0.staked * (10000 - b) + 10000) := Nat.mul_le_mul_left _ h4
      _ = b * d0.staked * 10000 ^ k * (10000 - b) + b * 10000 ^ k * 10000 := by ring
      _ ≤ (b * d.staked * (10000 - b) ^ k + 10000 * 10000 ^ k) * (10000 - b) + b * 10000 ^ k * 10000 :=
          Nat.add_le_add_right (Nat.mul_le_mul_right _ h1) _
      _ = b * d.staked * (10000 - b) ^ (k + 1) + 10000 * 10000 ^ k * ((10000 - b) + b) := by ring
      _ = b * d.staked * (10000 - b) ^ (k + 1) + 10000 * 10000 ^ (k + 1) := by
          rw [Nat.sub_add_cancel hle]; ring

/-- Later on, when the first cooldown is over. -/
def o2later : Oracle := oracle 2100 view2 5000

theorem o2later_ok : o2later.Ok := oracle_ok (by
  intro k v h; unfold view2 at h; split_ifs at h <;> (obtain rfl := Except.ok.inj h; decide))

theorem ok13more : okB o2later w13 ixUnstakeMore = true := by decide +kernel

def w13more : World := after o2later w13 ixUnstakeMore

/-- Two unstakes of the first SOL staker, of 150 out of 400 and of 125 out of 250 tokens. -/
theorem exit_witness : Exit Witness.env cfg sol1 5000 100 w12 w13more [2100, 2000] := by
  have h1 : Exit Witness.env cfg sol1 5000 100 w12 w13 [2000] := by
    unfold w13
    exact .unstake (n := 150) (c := cfgOf w12 cfg) .start o2_ok (ok_after ok12) (by decide +kernel) (by decide +kernel)
      (by decide +kernel) (by decide +kernel) (by decide +kernel) rfl (by decide)
  exact .unstake (n := 125) (c := cfgOf w13 cfg) h1 o2later_ok (ok_after ok13more) (by decide +kernel) (by decide +kernel)
    (by decide +kernel) (by decide +kernel) (by decide +kernel) rfl (by decide)

example : (stakeAt w12 sol1).map (·.staked) = some 400 ∧ (stakeAt w13more sol1).map (·.staked) = some 125 := by
  decide +kernel

/-- The second of the two takes all it may. -/
theorem full_exit_witness : FullExit Witness.env cfg sol1 5000 w13 w13more 1 :=
  .unstake (c := cfgOf w13 cfg) (d := (solOf w13 sol1).del) .start o2later_ok (ok_after ok13more) (by decide +kernel)
    (by decide +kernel) (by decide +kernel) (by decide +kernel) (by decide +kernel)

/-- **C96.** And the last tokens never get out while the limit is below 100%: once the limit on the tokens left is less than one
token, no unstake of one or more succeeds. -/
theorem C96_dust (R : Reachable env w) (O : o.Ok) (hb : belongs sk ck) {c : Config} {d : Delegation}
    (hc : configAt w ck = some c) (hd : stakeAt w sk = some d) (hlow : d.staked * c.maxBps < 10000) {n : Nat} (hn : 0 < n)
    (hi : ix.decoded = some (.unstakeTokens n)) (h3 : ix.acct 3 = some sk) : exec env o w ix ≠ .ok w' := by
  intro h
  obtain ⟨_, _, _, hlim, _⟩ := unstake_one R O h hi h3 hb hc hd
  rw [Nat.div_eq_of_lt hlow] at hlim
  omega

/-- The first SOL staker moves a single token to the second account. -/
def ixMoveOne : Ix := Witness.ix (.solStakerMoveTokens 1) [cfg, holder, staker, sol1, sol2] [staker]

def wdust : World := after o2 w11 ixMoveOne

theorem okdust : okB o2 w11 ixMoveOne = true := by decide +kernel

def ixUnstakeDust : Ix :=
  Witness.ix (.unstakeTokens 1)
    [cfg, pool, poolToken, sol2, staker, vault, vaultAuth, holder, mint, dest, tokenId, rewardsId] [staker]

example : (stakeAt wdust sol2).map (·.staked) = some 1 ∧ ∀ w', exec Witness.env o2 wdust ixUnstakeDust ≠ .ok w' :=
  ⟨by decide +kernel, fun _ =>
    C96_dust (ck := cfg) (sk := sol2) (c := cfgOf wdust cfg) (d := (solOf wdust sol2).del) (n := 1)
      (.exec r11 o2_ok (ok_after okdust)) o2_ok (belongs_sol _ _) (by decide +kernel) (by decide +kernel) (by decide +kernel)
      (by decide) (by decide +kernel) (by decide +kernel)⟩

example : errOf o2 wdust ixUnstakeDust = some (.stake .maximumDeactivationAmountExceeded) := by decide +kernel

end Verif.Props
