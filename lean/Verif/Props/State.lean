import Verif.Witness
/-!
# Properties of every reachable state

C01, C02, C03, C12, C27, C28, C39 (first half), C40.
-/

namespace Verif.Props

open Verif Verif.Witness

variable {env : Env} {w : World}

/-- **C01.** The config's effective total is the sum of the effective amounts of its stake accounts. -/
theorem C01_effective_total_is_sum (R : Reachable env w) {k : Key} {c : Config} (hc : configAt w k = some c) :
    TotalIs (effectiveIn w k) c.effTotal :=
  ((reachable_inv R).config k c hc).total

example : (configAt w16 cfg).map (·.effTotal) = some 1550 ∧ effectiveIn w16 cfg val1 = 1300 ∧
    effectiveIn w16 cfg sol1 = 250 ∧ effectiveIn w16 cfg sol2 = 0 := by decide +kernel

/-- **C02.** Effective stake never exceeds the staked tokens nor the cap (validators). -/
theorem C02_validator_effective_bounded (R : Reachable env w) {k : Key} {v : ValidatorStake}
    (hv : validatorAt w k = some v) :
    v.del.effective ≤ v.del.staked ∧ v.del.effective ≤ 13 * max v.total v.min / 10 := by
  obtain ⟨ho, hd⟩ := validatorAt_eq.1 hv
  have := (reachable_inv R).stake k ho
  rw [hd] at this; exact this

/-- **C02.** Effective stake never exceeds the staked tokens nor the cap (SOL stakers). -/
theorem C02_solStaker_effective_bounded (R : Reachable env w) {k : Key} {s : SolStakerStake}
    (hs : solStakerAt w k = some s) :
    s.del.effective ≤ s.del.staked ∧ s.del.effective ≤ 13 * s.lamports / 10 := by
  obtain ⟨ho, hd⟩ := solStakerAt_eq.1 hs
  have := (reachable_inv R).stake k ho
  rw [hd] at this
  exact ⟨this ▸ Nat.min_le_left _ _, this ▸ Nat.min_le_right _ _⟩

example : (validatorAt w16 val1).map (fun v => (v.del.effective, v.del.staked, v.total, v.min)) =
    some (1300, 1700, 1000, 0) := by decide +kernel

/-- **C03.** A SOL staker's effective amount is exactly the smaller of its staked tokens and its cap. -/
theorem C03_solStaker_effective_exact (R : Reachable env w) {k : Key} {s : SolStakerStake}
    (hs : solStakerAt w k = some s) : s.del.effective = min s.del.staked (13 * s.lamports / 10) := by
  obtain ⟨ho, hd⟩ := solStakerAt_eq.1 hs
  have := (reachable_inv R).stake k ho
  rw [hd] at this; exact this

example : (solStakerAt w16 sol1).map (fun s => (s.del.effective, s.del.staked, s.lamports)) =
    some (250, 250, 3000) := by decide +kernel

/-- **C12.** The deactivation limit of every config is at most 100%. -/
theorem C12_limit_at_most_all (R : Reachable env w) {k : Key} {c : Config} (hc : configAt w k = some c) :
    c.maxBps ≤ 10000 :=
  ((reachable_inv R).config k c hc).bps

example : (configAt w16 cfg).map (·.maxBps) = some 5000 := by decide +kernel

/-- **C27.** A validator stake account lives at the address derived from its vote account and its config. -/
theorem C27_validator_address (R : Reachable env w) {k : Key} {v : ValidatorStake} (hv : validatorAt w k = some v) :
    ∃ c, k = .validatorPda v.del.vote c ∧ (configAt w c).isSome := by
  obtain ⟨ho, hd⟩ := validatorAt_eq.1 hv
  obtain ⟨c, hb, hc⟩ := (reachable_inv R).stake_key (stakeAt_eq.2 ⟨ho, by rw [hd]; rfl⟩)
  have hs := (reachable_inv R).shape k ho
  rcases hb with ⟨x, rfl⟩ | ⟨x, rfl⟩
  · obtain ⟨y, hy, hyv, _⟩ := hs
    rw [hd] at hy; cases hy
    exact ⟨c, by rw [hyv], hc⟩
  · obtain ⟨y, hy, _⟩ := hs
    rw [hd] at hy; simp at hy

/-- **C27.** A SOL staker stake account lives at the address derived from its native stake account and its config. -/
theorem C27_solStaker_address (R : Reachable env w) {k : Key} {s : SolStakerStake} (hs : solStakerAt w k = some s) :
    ∃ c, k = .solStakerPda s.solStake c ∧ (configAt w c).isSome := by
  obtain ⟨ho, hd⟩ := solStakerAt_eq.1 hs
  obtain ⟨c, hb, hc⟩ := (reachable_inv R).stake_key (stakeAt_eq.2 ⟨ho, by rw [hd]; rfl⟩)
  have hsh := (reachable_inv R).shape k ho
  rcases hb with ⟨x, rfl⟩ | ⟨x, rfl⟩
  · obtain ⟨y, hy, _⟩ := hsh
    rw [hd] at hy; simp at hy
  · obtain ⟨y, hy, hyv, _⟩ := hsh
    rw [hd] at hy; cases hy
    exact ⟨c, by rw [hyv], hc⟩

/-- **C27.** Two validator stake accounts of one config with the same vote account are the same account. -/
theorem C27_validator_unique (R : Reachable env w) {k k' c : Key} {v v' : ValidatorStake}
    (hv : validatorAt w k = some v) (hv' : validatorAt w k' = some v') (hk : belongs k c) (hk' : belongs k' c)
    (h : v.del.vote = v'.del.vote) : k = k' := by
  obtain ⟨x, rfl, _⟩ := C27_validator_address R hv
  obtain ⟨x', rfl, _⟩ := C27_validator_address R hv'
  rw [belongs_validator.1 hk, belongs_validator.1 hk', h]

/-- **C27.** Two SOL staker stake accounts of one config with the same native stake are the same account. -/
theorem C27_solStaker_unique (R : Reachable env w) {k k' c : Key} {s s' : SolStakerStake}
    (hs : solStakerAt w k = some s) (hs' : solStakerAt w k' = some s') (hk : belongs k c) (hk' : belongs k' c)
    (h : s.solStake = s'.solStake) : k = k' := by
  obtain ⟨x, rfl, _⟩ := C27_solStaker_address R hs
  obtain ⟨x', rfl, _⟩ := C27_solStaker_address R hs'
  rw [belongs_solStaker.1 hk, belongs_solStaker.1 hk', h]

example : (validatorAt w16 val1).map (·.del.vote) = some vote1 ∧ (validatorAt w16 val2).map (·.del.vote) = some vote2 ∧
    (solStakerAt w16 sol1).map (·.solStake) = some native1 ∧ belongs val1 cfg ∧ belongs sol1 cfg := by decide +kernel

/-- **C28.** Every initialised config is rent exempt. -/
theorem C28_config_rent_exempt (R : Reachable env w) {k : Key} {c : Config} (hc : configAt w k = some c) :
    env.rentMin 192 ≤ (w k).lamports :=
  ((reachable_inv R).config k c hc).rent

/-- **C28.** Every validator stake account is rent exempt. -/
theorem C28_validator_rent_exempt (R : Reachable env w) {k : Key} {v : ValidatorStake}
    (hv : validatorAt w k = some v) : env.rentMin 144 ≤ (w k).lamports := by
  obtain ⟨ho, hd⟩ := validatorAt_eq.1 hv
  have := (reachable_inv R).rent k v.del (stakeAt_eq.2 ⟨ho, by rw [hd]; rfl⟩)
  rw [hd] at this; exact this

/-- **C28.** Every SOL staker stake account is rent exempt. -/
theorem C28_solStaker_rent_exempt (R : Reachable env w) {k : Key} {s : SolStakerStake}
    (hs : solStakerAt w k = some s) : env.rentMin 168 ≤ (w k).lamports := by
  obtain ⟨ho, hd⟩ := solStakerAt_eq.1 hs
  have := (reachable_inv R).rent k s.del (stakeAt_eq.2 ⟨ho, by rw [hd]; rfl⟩)
  rw [hd] at this; exact this

/-- **C39.** The SOL staker authority override account of every authority and config is always empty. -/
theorem C39_override_account_empty (R : Reachable env w) (authority c : Key) :
    (w (.overridePda authority c)).data = .bytes [] := by
  have I := reachable_inv R
  by_cases ho : (w (.overridePda authority c)).owner = progId
  · exact (I.shape _ ho).elim
  · exact (I.unowned _ rfl ho).2

/-- **C40.** Every number stored in a config is within its machine width. -/
theorem C40_config_widths (R : Reachable env w) {k : Key} {c : Config} (hc : configAt w k = some c) :
    c.cooldownTime < 2 ^ 64 ∧ c.effTotal < 2 ^ 64 ∧ c.syncRewards < 2 ^ 64 ∧ c.lamportsLast < 2 ^ 64 ∧
    c.acc < 2 ^ 128 ∧ c.maxBps < 2 ^ 16 ∧ c.bump < 2 ^ 8 := by
  have := ((reachable_inv R).wf.1 k).2
  rw [(configAt_eq.1 hc).2] at this; exact this

/-- **C40.** Every number stored in a validator stake account is within its machine width. -/
theorem C40_validator_widths (R : Reachable env w) {k : Key} {v : ValidatorStake} (hv : validatorAt w k = some v) :
    v.del.staked < 2 ^ 64 ∧ v.del.effective < 2 ^ 64 ∧ v.del.cooldown < 2 ^ 64 ∧ v.del.lastHolder < 2 ^ 128 ∧
    v.del.lastStake < 2 ^ 128 ∧ v.total < 2 ^ 64 ∧ v.min < 2 ^ 64 := by
  have := ((reachable_inv R).wf.1 k).2
  rw [(validatorAt_eq.1 hv).2] at this
  obtain ⟨⟨h1, h2, h3, h4, h5⟩, h6, h7⟩ := this
  exact ⟨h1, h2, h3, h4, h5, h6, h7⟩

/-- **C40.** Every number stored in a SOL staker stake account is within its machine width. -/
theorem C40_solStaker_widths (R : Reachable env w) {k : Key} {s : SolStakerStake} (hs : solStakerAt w k = some s) :
    s.del.staked < 2 ^ 64 ∧ s.del.effective < 2 ^ 64 ∧ s.del.cooldown < 2 ^ 64 ∧ s.del.lastHolder < 2 ^ 128 ∧
    s.del.lastStake < 2 ^ 128 ∧ s.lamports < 2 ^ 64 := by
  have := ((reachable_inv R).wf.1 k).2
  rw [(solStakerAt_eq.1 hs).2] at this
  obtain ⟨⟨h1, h2, h3, h4, h5⟩, h6⟩ := this
  exact ⟨h1, h2, h3, h4, h5, h6⟩

/-- The hypotheses of this file are met in a state where every instruction has been used. -/
example : Reachable Witness.env w16 ∧ (configAt w16 cfg).isSome ∧ (validatorAt w16 val1).isSome ∧
    (solStakerAt w16 sol1).isSome := ⟨r16, by decide +kernel⟩

end Verif.Props
