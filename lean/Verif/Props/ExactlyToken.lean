import Verif.Lemmas.ExactToken
import Verif.Lemmas.Dispatch
import Verif.WitnessLive
/-!
# C102, continued: the instructions that call the rewards program

Whether these are accepted depends on whether the rewards program takes the call. Given that it does (`Ready`, `Pays`), they too
are accepted exactly when the listed conditions hold.
-/

namespace Verif.Props

open Verif Witness

variable {env : Env} {o : Oracle} {w w' : World} {ix : Ix}

/-- **C102.** If the rewards program is ready to take the deposit, ValidatorStakeTokens goes through exactly if vault, vault authority
and record are those of the config, the amount is not zero, the stake account is a validator's whose rewards can be settled, its
authority is the one named, the new amounts fit in 64 bits, the source's owner signs and has the tokens, the vault can take them, and no
reward is due to one of the accounts handed on. (Source and vault differ, and the source is not delegated to its own authority.) -/
theorem C102_stake_validator (R : Reachable env w) {n : Nat} (hi : ix.decoded = some (.validatorStakeTokens n))
    {ck pool pt sk auth src sauth mk va vault hk : Key} {rest : List Key} {c : Config} {ok : TokenAccount → Prop}
    {after : TokenAccount → TokenAccount}
    (hl : ix.ctx.accts = ck :: pool :: pt :: sk :: auth :: src :: sauth :: mk :: va :: vault :: hk :: tokenId :: rewardsId :: rest)
    (hc : configAt w ck = some c) (hau : auth ≠ ck) (hne : src ≠ vault) (hpt : pt ≠ src)
    (hdl : ∀ t, tokenAt w src = some t → t.delegate ≠ some sauth)
    (D : Ready o.deposit w (vaultCall env ck c pool pt mk n) ok after)
    (hok : ∀ t, Receives w c.vault mk t n → ok { t with amount := t.amount + n })
    (hw : ix.Writes [ck, pool, pt, sk, auth, src, va, vault, hk]) :
    (∃ w', exec env o w ix = .ok w') ↔
      va = env.vaultAuth ck ∧ vault = c.vault ∧ hk = vaultRecord env ck ∧ ix.ctx.signer sauth = true ∧ sauth ≠ ck ∧ sauth ≠ sk ∧
      ck ≠ tokenId ∧ 0 < n ∧
      ∃ v ts td mi, validatorAt w sk = some v ∧ auth = v.del.authority ∧ v.del.staked + n < 2 ^ 64 ∧
        Payable env w ck sk c v.del ∧ Fits c v.del (v.del.staked + n) (max v.total v.min) ∧
        Spendable w src mk sauth ts n ∧ Receives w c.vault mk td n ∧ mintAt w mk = some mi ∧
        (auth ∉ [src, mk, vault, sauth, pool, pt, hk, va, tokenId] ∨ accrued env w ck sk = 0) := by
  constructor
  · rintro ⟨w', h⟩
    obtain ⟨⟨a0, a1, a2, a3, a4, a5, a6, a7, a8, a9, a10, a11, a12⟩, r, hl', hr⟩ := ran_validatorStakeTokens h hi
    rw [hl] at hl'
    simp only [StakeTokensAccts.list, List.cons_append, List.nil_append, List.cons.injEq] at hl'
    obtain ⟨rfl, rfl, rfl, rfl, rfl, rfl, rfl, rfl, rfl, rfl, rfl, rfl, rfl, _⟩ := hl'
    obtain ⟨c', v, ts, td, mi, hv, X⟩ := stakeValidator_inv hr hau hne hdl
    obtain rfl : c' = c := Option.some.inj (X.pay.config.symm.trans hc)
    refine ⟨X.vaultAuth, X.vault, X.record, X.signer, X.source.1, X.source.2, X.program, X.pos, v, ts, td, mi, hv, X.payee, X.lt,
      X.pay, X.fits, X.spend, X.receives, X.mint, X.apart.imp (fun h1 h2 => h1 ?_) id⟩
    have e := X.payee
    simp only at e
    rw [← e]
    simp only [StakeTokensAccts.toToken, StakeTokensAccts.toRewards, List.mem_append, List.mem_cons, List.not_mem_nil,
      or_false] at h2 ⊢
    tauto
  · rintro ⟨rfl, rfl, rfl, h1, h2, h3, h4, h5, v, ts, td, mi, hv, rfl, h6, P, F, S, V, hm, h7⟩
    refine live_stakeValidator (reachable_inv R) hi hl h1 hv h5 h6 P F S V hm hne D (hok td V) hpt
      (fun k hk => hw k ?_) (Or.inl (hw _ (by simp))) ⟨h2, h3⟩ h4 h7
    simp only [List.mem_cons, List.not_mem_nil, or_false] at hk ⊢
    tauto

/-- 12000 lamports are due to the validator, and somebody stakes 2000 tokens for it; with a source authority that does not sign,
they cannot. -/
example : accrued Witness.env w9 cfg val1 = 12000 ∧ (∃ w', exec Witness.env o1 w9 ixStakeVal1 = .ok w') ∧
    ¬ ∃ w', exec Witness.env o1 w9 (Witness.ix (.validatorStakeTokens 2000)
      [cfg, pool, poolToken, val1, auth1, source, holderOwner, mint, vaultAuth, vault, holder, tokenId, rewardsId] []) = .ok w' := by
  have D : Ready o1.deposit w9 (vaultCall Witness.env cfg (cfgOf w9 cfg) pool poolToken mint 2000) _ _ :=
    deposit_ready (p := tokOf w9 poolToken) (h := recOf w9 holder) (by decide +kernel) (by decide +kernel)
      (by decide +kernel) (by decide +kernel) (by decide +kernel) (by decide +kernel)
  have hs : ∀ t, tokenAt w9 source = some t → t.delegate ≠ some holderOwner := by
    intro t ht
    rw [(Option.some.inj (ht.symm.trans (by decide +kernel : tokenAt w9 source = some (tokOf w9 source))) : t = tokOf w9 source)]
    decide +kernel
  refine ⟨by decide +kernel,
    (C102_stake_validator r9 (n := 2000) (by decide +kernel) (rest := []) rfl
      (by decide +kernel : configAt w9 cfg = some (cfgOf w9 cfg)) (by decide) (by decide) (by decide) hs D
      (fun t _ => Nat.le_add_left _ _) (ix_writes _ _ _ _)).2
      ⟨by decide +kernel, by decide +kernel, by decide +kernel, by decide +kernel, by decide, by decide, by decide, by decide,
        valOf w9 val1, tokOf w9 source, tokOf w9 vault, mintOf w9 mint, by decide +kernel, by decide +kernel, by decide +kernel,
        payable_mk (belongs_val _ _) (by decide +kernel), by unfold Fits; decide +kernel, spendable_mk (by decide +kernel),
        receives_mk (by decide +kernel), by decide +kernel, Or.inl (by decide +kernel)⟩,
    fun h => ?_⟩
  have := ((C102_stake_validator r9 (n := 2000) (by decide +kernel) (rest := []) rfl
      (by decide +kernel : configAt w9 cfg = some (cfgOf w9 cfg)) (by decide) (by decide) (by decide) hs D
      (fun t _ => Nat.le_add_left _ _) (ix_writes _ _ _ _)).1 h).2.2.2.1
  exact absurd this (by decide +kernel)

/-- **C102.** SolStakerStakeTokens goes through under the same conditions for a SOL staker; in addition the vault's tokens must belong to
the vault authority. -/
theorem C102_stake_sol_staker (R : Reachable env w) {n : Nat} (hi : ix.decoded = some (.solStakerStakeTokens n))
    {ck pool pt sk auth src sauth mk va vault hk : Key} {rest : List Key} {c : Config} {ok : TokenAccount → Prop}
    {after : TokenAccount → TokenAccount}
    (hl : ix.ctx.accts = ck :: pool :: pt :: sk :: auth :: src :: sauth :: mk :: va :: vault :: hk :: tokenId :: rewardsId :: rest)
    (hc : configAt w ck = some c) (hau : auth ≠ ck) (hne : src ≠ vault) (hpt : pt ≠ src)
    (hdl : ∀ t, tokenAt w src = some t → t.delegate ≠ some sauth)
    (D : Ready o.deposit w (vaultCall env ck c pool pt mk n) ok after)
    (hok : ∀ t, Receives w c.vault mk t n → ok { t with amount := t.amount + n })
    (hw : ix.Writes [ck, pool, pt, sk, auth, src, va, vault, hk]) :
    (∃ w', exec env o w ix = .ok w') ↔
      va = env.vaultAuth ck ∧ vault = c.vault ∧ hk = vaultRecord env ck ∧ ix.ctx.signer sauth = true ∧ sauth ≠ ck ∧ sauth ≠ sk ∧
      ck ≠ tokenId ∧ 0 < n ∧
      ∃ v ts td mi, solStakerAt w sk = some v ∧ auth = v.del.authority ∧ v.del.staked + n < 2 ^ 64 ∧
        Payable env w ck sk c v.del ∧ Fits c v.del (v.del.staked + n) v.lamports ∧
        Spendable w src mk sauth ts n ∧ Receives w c.vault mk td n ∧ td.owner = env.vaultAuth ck ∧ mintAt w mk = some mi ∧
        (auth ∉ [src, mk, vault, sauth, pool, pt, hk, va, tokenId] ∨ accrued env w ck sk = 0) := by
  constructor
  · rintro ⟨w', h⟩
    obtain ⟨⟨a0, a1, a2, a3, a4, a5, a6, a7, a8, a9, a10, a11, a12⟩, r, hl', hr⟩ := ran_solStakerStakeTokens h hi
    rw [hl] at hl'
    simp only [StakeTokensAccts.list, List.cons_append, List.nil_append, List.cons.injEq] at hl'
    obtain ⟨rfl, rfl, rfl, rfl, rfl, rfl, rfl, rfl, rfl, rfl, rfl, rfl, rfl, _⟩ := hl'
    obtain ⟨c', v, ts, td, mi, hv, hto, X⟩ := stakeSolStaker_inv hr hau hne hdl
    obtain rfl : c' = c := Option.some.inj (X.pay.config.symm.trans hc)
    refine ⟨X.vaultAuth, X.vault, X.record, X.signer, X.source.1, X.source.2, X.program, X.pos, v, ts, td, mi, hv, X.payee, X.lt,
      X.pay, X.fits, X.spend, X.receives, hto, X.mint, X.apart.imp (fun h1 h2 => h1 ?_) id⟩
    have e := X.payee
    simp only at e
    rw [← e]
    simp only [StakeTokensAccts.toToken, StakeTokensAccts.toRewards, List.mem_append, List.mem_cons, List.not_mem_nil,
      or_false] at h2 ⊢
    tauto
  · rintro ⟨rfl, rfl, rfl, h1, h2, h3, h4, h5, v, ts, td, mi, hv, rfl, h6, P, F, S, V, hto, hm, h7⟩
    refine live_stakeSolStaker (reachable_inv R) hi hl h1 hv h5 h6 P F S V hto hm hne D (hok td V) hpt
      (fun k hk => hw k ?_) (Or.inl (hw _ (by simp))) ⟨h2, h3⟩ h4 h7
    simp only [List.mem_cons, List.not_mem_nil, or_false] at hk ⊢
    tauto

/-- 3000 lamports are due to the SOL staker, and somebody stakes 500 tokens for it. -/
example : accrued Witness.env w10 cfg sol1 = 3000 ∧ ∃ w', exec Witness.env o1 w10 ixStakeSol1 = .ok w' := by
  have D : Ready o1.deposit w10 (vaultCall Witness.env cfg (cfgOf w10 cfg) pool poolToken mint 500) _ _ :=
    deposit_ready (p := tokOf w10 poolToken) (h := recOf w10 holder) (by decide +kernel) (by decide +kernel)
      (by decide +kernel) (by decide +kernel) (by decide +kernel) (by decide +kernel)
  have hs : ∀ t, tokenAt w10 source = some t → t.delegate ≠ some holderOwner := by
    intro t ht
    rw [(Option.some.inj (ht.symm.trans (by decide +kernel : tokenAt w10 source = some (tokOf w10 source))) : t = tokOf w10 source)]
    decide +kernel
  exact ⟨by decide +kernel,
    (C102_stake_sol_staker r10 (n := 500) (by decide +kernel) (rest := []) rfl
      (by decide +kernel : configAt w10 cfg = some (cfgOf w10 cfg)) (by decide) (by decide) (by decide) hs D
      (fun t _ => Nat.le_add_left _ _) (ix_writes _ _ _ _)).2
      ⟨by decide +kernel, by decide +kernel, by decide +kernel, by decide +kernel, by decide, by decide, by decide, by decide,
        solOf w10 sol1, tokOf w10 source, tokOf w10 vault, mintOf w10 mint, by decide +kernel, by decide +kernel, by decide +kernel,
        payable_mk (belongs_sol _ _) (by decide +kernel), by unfold Fits; decide +kernel, spendable_mk (by decide +kernel),
        receives_mk (by decide +kernel), by decide +kernel, by decide +kernel, Or.inl (by decide +kernel)⟩⟩

/-- **C102.** If the rewards program is ready to give the tokens back, UnstakeTokens goes through exactly if vault, vault authority
and record are those of the config, the stake account's authority is the one named and signs, its rewards can be settled, the cooldown
is over, the amount is at most what is staked and what may be withdrawn at once, the new amounts fit in 64 bits, the vault then holds
the tokens and lets the vault authority move them, the destination can take them, and no reward is due to one of the accounts
handed on. -/
theorem C102_unstake (R : Reachable env w) {n : Nat} (hi : ix.decoded = some (.unstakeTokens n))
    {ck pool pt sk auth vault va hk mk dst : Key} {rest : List Key} {c : Config} {ok : TokenAccount → Prop}
    {after : TokenAccount → TokenAccount}
    (hl : ix.ctx.accts = ck :: pool :: pt :: sk :: auth :: vault :: va :: hk :: mk :: dst :: tokenId :: rewardsId :: rest)
    (hc : configAt w ck = some c) (hau : auth ≠ ck)
    (D : Ready o.withdraw w (vaultCall env ck c pool pt mk n) ok after) (hok : ∀ t, tokenAt w c.vault = some t → ok t)
    (hdl : ∀ t, tokenAt w c.vault = some t → (after t).delegate ≠ some (env.vaultAuth ck))
    (hdst : dst ∉ (vaultCall env ck c pool pt mk n).accounts) (hmk : mk ∉ (vaultCall env ck c pool pt mk n).accounts)
    (hw : ix.Writes [ck, pool, pt, sk, auth, vault, va, hk, dst]) :
    (∃ w', exec env o w ix = .ok w') ↔
      va = env.vaultAuth ck ∧ vault = c.vault ∧ hk = vaultRecord env ck ∧ ix.ctx.signer auth = true ∧ ck ≠ tokenId ∧
      ∃ d l tv td mi, ((∃ v, validatorAt w sk = some v ∧ d = v.del ∧ l = max v.total v.min) ∨
          (∃ s, solStakerAt w sk = some s ∧ d = s.del ∧ l = s.lamports)) ∧
        auth = d.authority ∧ d.cooldown ≤ o.now ∧ n ≤ d.staked ∧ n ≤ d.staked * c.maxBps / 10000 ∧
        Payable env w ck sk c d ∧ Fits c d (d.staked - n) l ∧
        tokenAt w vault = some tv ∧ (w vault).owner = tokenId ∧ tv.mint = mk ∧ mintAt w mk = some mi ∧
        (after tv).mint = mk ∧ (after tv).frozen = false ∧ (after tv).owner = va ∧ n ≤ (after tv).amount ∧
        Receives w dst mk td n ∧
        (auth ∉ [pool, pt, hk, vault, mk, va, tokenId, dst] ∨ accrued env w ck sk = 0) := by
  constructor
  · rintro ⟨w', h⟩
    obtain ⟨⟨a0, a1, a2, a3, a4, a5, a6, a7, a8, a9, a10, a11⟩, r, hl', hr⟩ := ran_unstakeTokens h hi
    rw [hl] at hl'
    simp only [UnstakeTokensAccts.list, List.cons_append, List.nil_append, List.cons.injEq] at hl'
    obtain ⟨rfl, rfl, rfl, rfl, rfl, rfl, rfl, rfl, rfl, rfl, rfl, rfl, _⟩ := hl'
    obtain ⟨d, l, tv, td, mi, hk', X⟩ := unstake_inv (reachable_inv R) hr hc hau D hok hdl hdst hmk
    have hv := X.vault
    have hva := X.vaultAuth
    simp only at hv hva
    refine ⟨hva, hv, X.record, X.signer, X.program, d, l, tv, td, mi, hk', X.payee, X.cooldown, X.le, X.limit, X.pay, X.fits,
      by rw [hv]; exact X.token, by rw [hv]; exact X.owned, X.mint_eq, X.mint, X.left.1, X.left.2.1,
      by rw [hva]; exact X.left.2.2.1, X.left.2.2.2, X.receives, X.apart.imp (fun h1 h2 => h1 ?_) id⟩
    have e := X.payee
    simp only at e
    rw [← e]
    simp only [UnstakeTokensAccts.toToken, UnstakeTokensAccts.toRewards, List.mem_append, List.mem_cons, List.not_mem_nil,
      or_false] at h2 ⊢
    tauto
  · rintro ⟨rfl, rfl, rfl, h1, h2, d, l, tv, td, mi, hk', rfl, h3, h4, h5, P, F, g1, g2, g3, hm, g4, g5, g6, g7, V, h6⟩
    refine live_unstake (reachable_inv R) hi hl h1 P ?_ h3 h4 h5 F g1 g2 g3 hm D (hok tv g1) ⟨g4, g5, g6, hdl tv g1, g7⟩ V hdst
      hmk (fun k hk => hw k ?_) (Or.inl (hw _ (by simp))) h2 h6
    · rcases hk' with ⟨v, hv, _, e⟩ | ⟨s, hs, _, e⟩
      · exact Or.inl ⟨v, hv, e⟩
      · exact Or.inr ⟨s, hs, e⟩
    · simp only [List.mem_cons, List.not_mem_nil, or_false] at hk ⊢
      tauto

/-- The SOL staker withdraws 150 of its 500 tokens, but cannot withdraw 300 at once. -/
example : (∃ w', exec Witness.env o2 w10 ixUnstake = .ok w') ∧
    ¬ ∃ w', exec Witness.env o2 w10 (Witness.ix (.unstakeTokens 300)
      [cfg, pool, poolToken, sol1, staker, vault, vaultAuth, holder, mint, dest, tokenId, rewardsId] [staker]) = .ok w' := by
  have ht : tokenAt w10 vault = some (tokOf w10 vault) := by decide +kernel
  have D : ∀ n, n ≤ (tokOf w10 poolToken).amount → n ≤ (recOf w10 holder).deposited →
      Ready o2.withdraw w10 (vaultCall Witness.env cfg (cfgOf w10 cfg) pool poolToken mint n) _ _ := fun n h1 h2 =>
    withdraw_ready (p := tokOf w10 poolToken) (h := recOf w10 holder)
      (by exact (by decide +kernel : callOk w10 (vaultCall Witness.env cfg (cfgOf w10 cfg) pool poolToken mint 0)))
      (by show (w10 poolToken).data = _; decide +kernel) (by show (w10 (vaultRecord Witness.env cfg)).data = _; decide +kernel)
      (by show (w10 pool).owner = _; decide +kernel) h1 h2
  have hok : ∀ n, n ≤ 1000 → ∀ t, tokenAt w10 (cfgOf w10 cfg).vault = some t → t.amount + n < U64 := by
    intro n hn t h
    rw [(by decide +kernel : (cfgOf w10 cfg).vault = vault), ht] at h
    rw [← Option.some.inj h]
    have : (tokOf w10 vault).amount + 1000 < U64 := by decide +kernel
    omega
  have hdl : ∀ n : Nat, ∀ t, tokenAt w10 (cfgOf w10 cfg).vault = some t →
      ({ t with amount := t.amount + n } : TokenAccount).delegate ≠ some (Witness.env.vaultAuth cfg) := by
    intro n t h
    rw [(by decide +kernel : (cfgOf w10 cfg).vault = vault), ht] at h
    show t.delegate ≠ _
    rw [← Option.some.inj h]
    decide +kernel
  refine ⟨(C102_unstake r10 (n := 150) (by decide +kernel) (rest := []) rfl
      (by decide +kernel : configAt w10 cfg = some (cfgOf w10 cfg)) (by decide) (D 150 (by decide +kernel) (by decide +kernel))
      (hok 150 (by decide)) (hdl 150) (by decide +kernel) (by decide +kernel) (ix_writes _ _ _ _)).2
      ⟨by decide +kernel, by decide +kernel, by decide +kernel, by decide +kernel, by decide,
        (solOf w10 sol1).del, (solOf w10 sol1).lamports, tokOf w10 vault, tokOf w10 dest, mintOf w10 mint,
        Or.inr ⟨solOf w10 sol1, by decide +kernel, rfl, rfl⟩, by decide +kernel, by decide +kernel, by decide +kernel,
        by decide +kernel, payable_mk (belongs_sol _ _) (by decide +kernel), by unfold Fits; decide +kernel, ht,
        by decide +kernel, by decide +kernel, by decide +kernel, by decide +kernel, by decide +kernel, by decide +kernel,
        by decide +kernel, receives_mk (by decide +kernel), Or.inl (by decide +kernel)⟩, fun h => ?_⟩
  obtain ⟨_, _, _, _, _, d, l, tv, td, mi, hk, _, _, _, hlim, _⟩ := (C102_unstake r10 (n := 300) (by decide +kernel) (rest := []) rfl
      (by decide +kernel : configAt w10 cfg = some (cfgOf w10 cfg)) (by decide) (D 300 (by decide +kernel) (by decide +kernel))
      (hok 300 (by decide)) (hdl 300) (by decide +kernel) (by decide +kernel) (ix_writes _ _ _ _)).1 h
  have e : d.staked = 500 := by
    rcases hk with ⟨v, hv, _⟩ | ⟨s, hs, rfl, _⟩
    · exact absurd hv (by rw [(by decide +kernel : validatorAt w10 sol1 = none)]; simp)
    · rw [(Option.some.inj (hs.symm.trans (by decide +kernel : solStakerAt w10 sol1 = some (solOf w10 sol1))) : s = solOf w10 sol1)]
      decide +kernel
  rw [e, (by decide +kernel : (cfgOf w10 cfg).maxBps = 5000)] at hlim
  exact absurd hlim (by decide)

/-- **C102.** If the rewards program is ready to pay `p` lamports to the vault authority, HarvestHolderRewards goes through exactly if
vault, vault authority and record are those of the config, the mint is the vault's, the record is the rewards program's, and the
vault authority's lamports then cover its rent and, with the config's, fit in 64 bits. -/
theorem C102_harvest_holder (R : Reachable env w) (hi : ix.decoded = some .harvestHolderRewards)
    {ck pool pt vault hk va mk : Key} {p : Nat} {rest : List Key}
    (hl : ix.ctx.accts = ck :: pool :: pt :: vault :: hk :: va :: mk :: tokenId :: rewardsId :: systemId :: rest)
    (hva : (w (env.vaultAuth ck)).owner = progId)
    (hcall : ck ≠ mk ∧ ck ∉ (harvestCall env ck pool pt mk).accounts)
    (Y : Pays o.harvestRewards w (harvestCall env ck pool pt mk) p) (hw : ix.Writes [ck, pool, pt, hk, va]) :
    (∃ w', exec env o w ix = .ok w') ↔
      va = env.vaultAuth ck ∧ hk = vaultRecord env ck ∧ (w hk).owner = rewardsId ∧
      env.rentMin 0 ≤ (w va).lamports + p ∧ (w va).lamports + p + (w ck).lamports < 2 ^ 64 ∧
      ∃ c t, configAt w ck = some c ∧ vault = c.vault ∧ tokenAt w vault = some t ∧ t.mint = mk := by
  constructor
  · rintro ⟨w', h⟩
    obtain ⟨⟨a0, a1, a2, a3, a4, a5, a6, a7, a8, a9⟩, r, hl', hr⟩ := ran_harvestHolderRewards h hi
    rw [hl] at hl'
    simp only [HarvestHolderRewardsAccts.list, List.cons_append, List.nil_append, List.cons.injEq] at hl'
    obtain ⟨rfl, rfl, rfl, rfl, rfl, rfl, rfl, rfl, rfl, rfl, _⟩ := hl'
    obtain ⟨c, t, h1, h2, h3, h4, h5, h6, h7, h8, h9⟩ := harvestHolder_inv (reachable_inv R) hr hva hcall Y
    simp only at h2 h3 h4
    subst h2 h3 h4
    exact ⟨rfl, rfl, h7, h8, h9, c, t, h1, rfl, h5, h6⟩
  · rintro ⟨rfl, rfl, h1, h2, h3, c, t, hc, rfl, ht, htm⟩
    exact live_harvestHolder (reachable_inv R) hi hl hc ht htm h1 hva h2 hcall Y h3 hw

/-- Accepted in the witness history; with another account in place of the vault, it is not. -/
example : (∃ w', exec Witness.env o1 w8 ixHarvestHolder = .ok w') ∧
    ¬ ∃ w', exec Witness.env o1 w8 (Witness.ix .harvestHolderRewards
      [cfg, pool, poolToken, source, holder, vaultAuth, mint, tokenId, rewardsId, systemId] []) = .ok w' := by
  refine ⟨(C102_harvest_holder r8 (by decide +kernel) (p := 5000) (rest := []) rfl (by decide +kernel) (by decide +kernel)
    (harvest_pays (h := recOf w8 holder) (by decide +kernel) (by decide +kernel)) (ix_writes _ _ _ _)).2
    ⟨by decide +kernel, by decide +kernel, by decide +kernel, by decide +kernel, by decide +kernel, cfgOf w8 cfg, tokOf w8 vault,
      by decide +kernel, by decide +kernel, by decide +kernel, by decide +kernel⟩, fun h => ?_⟩
  obtain ⟨_, _, _, _, _, c, _, hc, hv, _⟩ := (C102_harvest_holder r8 (by decide +kernel) (p := 5000) (rest := []) rfl
    (by decide +kernel) (by decide +kernel) (harvest_pays (h := recOf w8 holder) (by decide +kernel) (by decide +kernel))
    (ix_writes _ _ _ _)).1 h
  rw [(Option.some.inj (hc.symm.trans (by decide +kernel : configAt w8 cfg = some (cfgOf w8 cfg))) : c = cfgOf w8 cfg)] at hv
  exact absurd hv (by decide +kernel)

end Verif.Props
