import Verif.Props.Calls
import Verif.WitnessHistory
import Verif.WitnessLive
/-!
# C119: a frozen vault
-/

namespace Verif.Props

open Verif Verif.Witness

variable {env : Env} {o : Oracle} {w w' : World} {ix : Ix}

/-- The holder of the mint's freeze authority freezes a token account. -/
def freeze (w : World) (k : Key) : World :=
  match (w k).data with
  | .token t => if (w k).owner = tokenId ∧ k.ofProgram = false then
      w.set k { w k with data := .token { t with frozen := true } } else w
  | _ => w

theorem freeze_ext {w : World} (wf : w.WF) {k : Key} : ExtStep w (freeze w k) := by
  have hr : ExtStep w w := extStep_of wf (fun _ => rfl) fun _ _ => ⟨rfl, le_rfl⟩
  unfold freeze
  split
  · rename_i t ht
    split_ifs with hc
    · have wt := (wf.1 k).2; rw [ht] at wt
      have ho : ∀ k', (w.set k { w k with data := .token { t with frozen := true } } k').owner = (w k').owner := by
        intro k'; simp only [World.set_apply]; split_ifs <;> simp_all
      refine extStep_of (wf_of wf ho fun k' => ?_) ho fun k' hk => ?_
      · simp only [World.set_apply]
        split_ifs with e
        · subst e; exact ⟨Or.inl rfl, Or.inr wt⟩
        · exact ⟨Or.inl rfl, Or.inl rfl⟩
      · have : k' ≠ k := by rintro rfl; simp_all
        simp [World.set_apply, this]
    · exact hr
  · exact hr

theorem rFreeze {w : World} (R : Reachable Witness.env w) (k : Key) : Reachable Witness.env (freeze w k) :=
  .ext R (freeze_ext (reachable_inv R).wf)

/-- A token account that is neither the config nor the stake account keeps its data while rewards are settled and the stake is
adjusted. -/
private theorem token_kept {w1 w2 : World} {ck hk auth va sk : Key} {kp : Option Key} {c : Config} {d : Delegation} {hr : HolderRewards}
    {rs rh : Nat} {D' : Data} {c1 : Config} {d1 d2 : Delegation} {k : Key} {t : TokenAccount}
    (H : Harvested env w w1 ck hk auth va sk kp c d hr rs rh) (A : Adjusted w1 w2 ck sk D' c1 d1 d2)
    (ht : tokenAt w k = some t) : tokenAt w2 k = some t := by
  have h := tokenAt_data.1 ht
  have n1 : k ≠ ck := by rintro rfl; rw [H.config] at h; cases h
  have n2 : k ≠ sk := by rintro rfl; have := H.del; rw [h] at this; cases this
  exact tokenAt_data.2 (by rw [A.data' _ n1 n2, H.data' _ n1 n2, h])

/-- **C119.** While the vault of a config is frozen nothing can be staked with the config and nothing can be unstaked from it. -/
theorem C119_frozen_refuses (R : Reachable env w) (O : o.Ok) (C : RewardsContract o) {ck : Key} {c : Config} {t : TokenAccount}
    (hc : configAt w ck = some c) (ht : tokenAt w c.vault = some t) (hf : t.frozen = true) (h0 : ix.acct 0 = some ck) {n : Nat}
    (hi : ix.decoded = some (.validatorStakeTokens n) ∨ ix.decoded = some (.solStakerStakeTokens n) ∨
      ix.decoded = some (.unstakeTokens n)) : ¬ ∃ w', exec env o w ix = .ok w' := by
  have I := reachable_inv R
  rintro ⟨w', h⟩
  have stake : (ix.decoded = some (.validatorStakeTokens n) ∨ ix.decoded = some (.solStakerStakeTokens n)) → False := by
    intro hi
    obtain ⟨a, rest, c', d0, hr, rs, rh, w1, w2, w3, D', c1, d1, d2, ts, td, hl, S, I1, I2, I3, e3, e4⟩ := exec_stake_steps I O h hi
    have e0 : a.config = ck := by simpa [Ix.acct, hl, StakeTokensAccts.list] using h0
    subst e0
    obtain rfl : c' = c := Option.some.inj ((configAt_eq.2 ⟨S.cO, S.harv.config⟩).symm.trans hc)
    have h1 := tokenAt_data.1 (token_kept S.harv S.adj ht)
    rw [← S.vault, S.transfer.dst] at h1
    cases h1
    rw [S.transfer.thawed.2] at hf; cases hf
  rcases hi with hi | hi | hi
  · exact stake (.inl hi)
  · exact stake (.inr hi)
  · obtain ⟨a, rest, c'', d0, hr, rs, rh, w1, w2, w3, D', c1, d1, d2, call, ts, td, hl, S, I1, I2, I3, e3, e4⟩ :=
      exec_unstake_steps I O h hi
    have e0 : a.config = ck := by simpa [Ix.acct, hl, UnstakeTokensAccts.list] using h0
    subst e0
    obtain rfl : c'' = c := Option.some.inj ((configAt_eq.2 ⟨S.cO, S.harv.config⟩).symm.trans hc)
    have h1 := token_kept S.harv S.adj ht
    obtain ⟨t', _, _, _, _, _, _, q1, q2, _⟩ := C.withdraw S.withdraw
    rw [S.call_token, S.vault, h1] at q1
    cases q1
    have q3 := tokenAt_data.1 q2
    rw [S.call_token, S.transfer.src] at q3
    cases q3
    have h2 : t.frozen = false := S.transfer.thawed.1
    rw [hf] at h2; cases h2

/-- An unstake that was about to succeed, and a stake, when the vault has been frozen. -/
example : Reachable Witness.env (freeze w12 vault) ∧ configAt (freeze w12 vault) cfg = some (cfgOf w12 cfg) ∧
    (cfgOf w12 cfg).vault = vault ∧ (tokOf (freeze w12 vault) vault).frozen = true ∧
    tokenAt (freeze w12 vault) vault = some (tokOf (freeze w12 vault) vault) ∧
    ixUnstake.acct 0 = some cfg ∧ ixUnstake.decoded = some (.unstakeTokens 150) ∧ okB o2 w12 ixUnstake = true ∧
    okB o2 (freeze w12 vault) ixUnstake = false ∧ okB o1 w5 ixStakeVal1 = true ∧
    okB o1 (freeze w5 vault) ixStakeVal1 = false :=
  ⟨rFreeze r12 _, by decide +kernel, by decide +kernel, by decide +kernel, by decide +kernel, by decide +kernel,
    by decide +kernel, ok12, by decide +kernel, ok5, by decide +kernel⟩

/-- **C119.** While the vault of a config is frozen a slash takes nothing: it is accepted for an account without tokens only. -/
theorem C119_frozen_slash {ck s : Key} {c : Config} {t : TokenAccount} {d : Delegation} (hc : configAt w ck = some c)
    (ht : tokenAt w c.vault = some t) (hf : t.frozen = true) (h0 : ix.acct 0 = some ck) (h1 : ix.acct 1 = some s)
    (hd : stakeAt w s = some d) (hs : 0 < d.staked) {n : Nat}
    (hi : ix.decoded = some (.slashValidatorStake n) ∨ ix.decoded = some (.slashSolStakerStake n)) :
    ¬ ∃ w', exec env o w ix = .ok w' := by
  rintro ⟨w', h⟩
  obtain ⟨a, k0, k1, _, _, c'', d0, hr, rs, rh, w1, w2, D', c1, d1, d2, S⟩ := exec_slashed h hi
  have e0 : a.config = ck := Option.some.inj (k0.symm.trans h0)
  have e1 : a.stake = s := Option.some.inj (k1.symm.trans h1)
  subst e0 e1
  obtain rfl : c'' = c := Option.some.inj ((configAt_eq.2 ⟨S.cO, S.harv.config⟩).symm.trans hc)
  obtain rfl : d0 = d := Option.some.inj ((stakeAt_eq.2 ⟨S.sO, S.harv.del⟩).symm.trans hd)
  rcases S.burn with ⟨hz, _⟩ | ⟨_, tb, m, B⟩
  · have := S.pos
    omega
  · have hh := tokenAt_data.1 ht
    have n1 : c''.vault ≠ a.config := by intro e; rw [e, S.harv.config] at hh; cases hh
    have n2 : c''.vault ≠ a.stake := by
      intro e
      have h5 := S.harv.del
      rw [← e, hh] at h5
      cases h5
    have hv := B.acct
    rw [S.vault, S.harv.data' _ n1 n2, hh] at hv
    cases hv
    rw [B.thawed] at hf; cases hf

/-- A slash that was about to succeed, when the vault has been frozen. -/
example : Reachable Witness.env (freeze w14 vault) ∧ (tokOf (freeze w14 vault) vault).frozen = true ∧
    ixSlashVal1.acct 1 = some val1 ∧ 0 < (valOf (freeze w14 vault) val1).del.staked ∧
    okB o2 w14 ixSlashVal1 = true ∧ okB o2 (freeze w14 vault) ixSlashVal1 = false :=
  ⟨rFreeze r14 _, by decide +kernel, by decide +kernel, by decide +kernel, ok14, by decide +kernel⟩

/-- **C119.** While the vault of a config is frozen the tokens staked by its accounts change by moves between SOL staker
accounts only. -/
theorem C119_frozen_vault (R : Reachable env w) (O : o.Ok) (C : RewardsContract o) (h : exec env o w ix = .ok w') {ck s : Key}
    {c : Config} {t : TokenAccount} (hc : configAt w ck = some c) (ht : tokenAt w c.vault = some t) (hf : t.frozen = true)
    (hb : belongs s ck) {d d' : Delegation} (hd : stakeAt w s = some d) (hd' : stakeAt w' s = some d')
    (hne : d'.staked ≠ d.staked) : ∃ n, ix.decoded = some (.solStakerMoveTokens n) := by
  have I := reachable_inv R
  obtain ⟨d'', e, D⟩ := effect_del (exec_effect I O h) hd
  rw [hd'] at e; cases e
  have same : ∀ {x y}, belongs s x → belongs s y → x = y := by
    intro x y h1 h2
    rcases h1 with ⟨_, rfl⟩ | ⟨_, rfl⟩ <;> rcases h2 with ⟨_, e⟩ | ⟨_, e⟩ <;> cases e <;> rfl
  cases D with
  | same h1 => exact absurd h1 hne
  | sync _ _ _ _ _ _ _ _ h1 => rw [h1] at hne; exact absurd rfl hne
  | stake ck' n hi h0 h3 hb' =>
    cases same hb hb'
    exact absurd ⟨_, h⟩ (C119_frozen_refuses R O C hc ht hf h0 (hi.imp_right .inl))
  | slash ck' n c' hi h0 h1 hb' _ _ _ h2 =>
    cases same hb hb'
    rcases Nat.eq_zero_or_pos d.staked with hz | hz
    · rw [hz] at h2 hne; simp at h2; exact absurd h2 hne
    · exact absurd ⟨_, h⟩ (C119_frozen_slash hc ht hf h0 h1 hd hz hi)
  | unstake ck' n c' hi h0 h3 hb' U =>
    cases same hb hb'
    exact absurd ⟨_, h⟩ (C119_frozen_refuses R O C hc ht hf h0 (.inr (.inr hi)))
  | moveFrom _ _ n _ _ hi => exact ⟨n, hi⟩
  | moveTo _ _ n _ _ hi => exact ⟨n, hi⟩

/-- Moves go on, and so do harvests of rewards. -/
example : Reachable Witness.env (freeze w11 vault) ∧ okB o2 (freeze w11 vault) ixMove = true ∧
    stakeAt (freeze w11 vault) sol1 = some (solOf (freeze w11 vault) sol1).del ∧
    (solOf (after o2 (freeze w11 vault) ixMove) sol1).del.staked ≠ (solOf (freeze w11 vault) sol1).del.staked ∧
    okB o1 (freeze w9 vault) ixHarvestVal1 = true ∧ okB o2 (freeze w10 vault) ixHarvestSol1 = true ∧
    okB o1 (freeze w8 vault) ixHarvestHolder = true :=
  ⟨rFreeze r11 _, by decide +kernel, by decide +kernel, by decide +kernel, by decide +kernel, by decide +kernel,
    by decide +kernel⟩

/-- **C119.** InitializeConfig does not look at the frozen state of the vault: there is a config whose vault was frozen before it
was created. -/
theorem C119_frozen_vault_is_accepted : ∃ o w ix w' ck c t, Reachable Witness.env w ∧ o.Ok ∧ exec Witness.env o w ix = .ok w' ∧
    configAt w ck = none ∧ configAt w' ck = some c ∧ tokenAt w c.vault = some t ∧ t.frozen = true :=
  have h : okB o1 (freeze w0 vault) ixInitConfig = true := by decide +kernel
  ⟨o1, freeze w0 vault, ixInitConfig, after o1 (freeze w0 vault) ixInitConfig, cfg,
    cfgOf (after o1 (freeze w0 vault) ixInitConfig) cfg, tokOf (freeze w0 vault) vault, rFreeze r0 _, o1_ok, ok_after h,
    by decide +kernel, by decide +kernel, by decide +kernel, by decide +kernel⟩

end Verif.Props
