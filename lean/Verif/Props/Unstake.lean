import Verif.Lemmas.Change
import Verif.Lemmas.Foreign
import Verif.WitnessContract
/-!
# Where the tokens go

C13, C15, C16, C42, C45.
-/

namespace Verif.Props

open Verif Verif.Witness

variable {env : Env} {o : Oracle} {w w' : World} {ix : Ix}

theorem now_eq {t : Nat} (ht : o.unixTimestamp = t) (hlt : t < 2 ^ 63) : o.now = t := by
  unfold Oracle.now
  rw [ht]
  have : ((t : Int) % (U64 : Int)) = t := by
    apply Int.emod_eq_of_lt (by omega)
    have : (2 : Nat) ^ 63 < U64 := by decide
    omega
  rw [this]; rfl

theorem transferred_src {ctx : Ctx} {s m d a : Key} {b : Bool} {n : Nat} {ts td : TokenAccount}
    (T : Transferred ctx w w' s m d a b n ts td) (hne : s ≠ d) :
    ∃ t', tokenAt w' s = some t' ∧ t'.amount + n = ts.amount := by
  refine ⟨spend ts a n, ?_, ?_⟩
  · rw [tokenAt_eq, (T.other hne).2]; simp [World.setD_data, hne]
  · have := T.le; unfold spend; split_ifs <;> simp <;> omega

theorem transferred_dst {ctx : Ctx} {s m d a : Key} {b : Bool} {n : Nat} {ts td : TokenAccount}
    (T : Transferred ctx w w' s m d a b n ts td) (hne : s ≠ d) :
    tokenAt w' d = some { td with amount := td.amount + n } := by
  rw [tokenAt_eq, (T.other hne).2]; simp [World.setD_data]

theorem transferred_other {ctx : Ctx} {s m d a : Key} {b : Bool} {n : Nat} {ts td : TokenAccount}
    (T : Transferred ctx w w' s m d a b n ts td) {k : Key} (h1 : k ≠ s) (h2 : k ≠ d) :
    tokenAt w' k = tokenAt w k := by
  unfold tokenAt; rw [T.data_other h1 h2]

theorem unstake_facts (R : Reachable env w) (O : o.Ok) (h : exec env o w ix = .ok w') {n : Nat}
    (hi : ix.decoded = some (.unstakeTokens n)) :
    ∃ ck s c d d', ix.acct 0 = some ck ∧ ix.acct 3 = some s ∧ UnstakeOne o ix.ctx ck s w w' n c d d' := by
  obtain ⟨a, rest, hl, hr⟩ := ran_unstakeTokens h hi
  obtain ⟨c, d, d', U⟩ := unstakeTokens_one (reachable_inv R) O hr
  exact ⟨a.config, a.stake, c, d, d', by simp [Ix.acct, hl, UnstakeTokensAccts.list],
    by simp [Ix.acct, hl, UnstakeTokensAccts.list], U⟩

/-- **C13.** Unstaking respects the balance, the deactivation limit and the cooldown, takes exactly the requested amount
off the account, starts a new cooldown, and pays exactly the requested amount to the destination (account 9, unless that
is the rewards pool's own token account, account 2). -/
theorem C13_unstake (R : Reachable env w) (O : o.Ok) (C : RewardsContract o) (h : exec env o w ix = .ok w') {amount t : Nat}
    (hi : ix.decoded = some (.unstakeTokens amount)) (ht : o.unixTimestamp = t) (hlt : t < 2 ^ 63) :
    ∃ ck s dest c d d', ix.acct 0 = some ck ∧ ix.acct 3 = some s ∧ ix.acct 9 = some dest ∧ belongs s ck ∧
      configAt w ck = some c ∧ stakeAt w s = some d ∧ stakeAt w' s = some d' ∧ ix.ctx.signer d.authority = true ∧
      amount ≤ d.staked ∧ amount ≤ d.staked * c.maxBps / 10000 ∧ d.cooldown ≤ t ∧
      d'.staked + amount = d.staked ∧ d'.cooldown = min (t + c.cooldownTime) (2 ^ 64 - 1) ∧
      dest ≠ c.vault ∧ (ix.acct 2 ≠ some dest →
        ∃ td, tokenAt w dest = some td ∧ tokenAt w' dest = some { td with amount := td.amount + amount }) := by
  have F := exec_foreign (reachable_inv R).wf h
  cases F with
  | none _ h1 => exact absurd hi (h1 _)
  | stake h1 => rw [hi] at h1; simp at h1
  | slash h1 => rw [hi] at h1; simp at h1
  | holder h1 => rw [hi] at h1; simp at h1
  | @unstake n b rest c d hr rs rh w1 w2 w3 D' c1 d1 d2 call ts td h1 h2 S hf =>
    rw [hi] at h1; cases h1
    have a0 : ix.acct 0 = some b.config := by simp [Ix.acct, h2, UnstakeTokensAccts.list]
    have a3 : ix.acct 3 = some b.stake := by simp [Ix.acct, h2, UnstakeTokensAccts.list]
    have a2 : ix.acct 2 = some b.holderRewardsPoolTokenAccount := by simp [Ix.acct, h2, UnstakeTokensAccts.list]
    have a9 : ix.acct 9 = some b.destinationTokenAccount := by simp [Ix.acct, h2, UnstakeTokensAccts.list]
    have hd : stakeAt w b.stake = some d := stakeAt_eq.2 ⟨S.sO, S.harv.del⟩
    have hc : configAt w b.config = some c := configAt_eq.2 ⟨S.cO, S.harv.config⟩
    have hdest : b.destinationTokenAccount ≠ c.vault := by have := S.dest; rw [S.vault] at this; exact Ne.symm this
    obtain ⟨a', rest', hl', hr'⟩ := ran_unstakeTokens h hi
    obtain ⟨c0, d0, d', U⟩ := unstakeTokens_one (reachable_inv R) O hr'
    have b0 : ix.acct 0 = some a'.config := by simp [Ix.acct, hl', UnstakeTokensAccts.list]
    have b3 : ix.acct 3 = some a'.stake := by simp [Ix.acct, hl', UnstakeTokensAccts.list]
    rw [a0, Option.some.injEq] at b0
    rw [a3, Option.some.injEq] at b3
    rw [← b0, ← b3] at U
    have := U.one.before; rw [hd] at this; cases this
    have hd' := U.one.after
    have := U.config; rw [hc] at this; cases this
    refine ⟨b.config, b.stake, b.destinationTokenAccount, c, d, d', a0, a3, a9, S.bel, hc, hd, hd', U.signed, U.le,
      U.limit, now_eq ht hlt ▸ U.ready, ?_, ?_, hdest, fun hne => ?_⟩
    · have := U.staked; have := U.le; omega
    · rw [U.cooldown, now_eq ht hlt]; rfl
    · obtain ⟨tv, hh, hh', p, _, _, _, htok, htok', hoth⟩ := C.withdraw S.withdraw
      rw [S.call_token, S.vault, S.call_pool] at hoth
      refine ⟨td, ?_, transferred_dst S.transfer S.dest⟩
      rw [← tokenAt_of_fv (congrFun hf _), ← hoth _ hdest (by rintro e; rw [a2, ← e] at hne; exact hne rfl)]
      exact tokenAt_eq.2 S.transfer.dst

example : (stakeAt w12 sol1).map (fun d => (d.staked, d.cooldown)) = some (400, 0) ∧
    (stakeAt w13 sol1).map (fun d => (d.staked, d.cooldown)) = some (250, 2100) ∧
    (tokenAt w12 dest).map (·.amount) = some 0 ∧ (tokenAt w13 dest).map (·.amount) = some 150 ∧
    ixUnstake.decoded = some (.unstakeTokens 150) ∧ o2.unixTimestamp = 2000 ∧
    (configAt w12 cfg).map (fun c => (c.maxBps, c.cooldownTime)) = some (5000, 100) := by decide +kernel

/-- **C15.** Moving tokens takes them from one SOL staker account to a different one with the same config and authority,
which signed. The destination inherits the later cooldown and no token account changes. -/
theorem C15_move (R : Reachable env w) (O : o.Ok) (h : exec env o w ix = .ok w') {amount : Nat}
    (hi : ix.decoded = some (.solStakerMoveTokens amount)) :
    ∃ ck s t x y x' y', ix.acct 0 = some ck ∧ ix.acct 3 = some s ∧ ix.acct 4 = some t ∧ s ≠ t ∧
      belongs s ck ∧ belongs t ck ∧ solStakerAt w s = some x ∧ solStakerAt w t = some y ∧
      solStakerAt w' s = some x' ∧ solStakerAt w' t = some y' ∧
      x.del.authority = y.del.authority ∧ ix.ctx.signer x.del.authority = true ∧ amount ≤ x.del.staked ∧
      x'.del.staked = x.del.staked - amount ∧ y'.del.staked = y.del.staked + amount ∧
      x'.del.cooldown = x.del.cooldown ∧ y'.del.cooldown = max x.del.cooldown y.del.cooldown ∧
      (∀ k, tokenAt w' k = tokenAt w k) ∧
      ∀ k d, k ≠ s → k ≠ t → stakeAt w k = some d → ∃ d', stakeAt w' k = some d' ∧ d'.staked = d.staked ∧
        d'.cooldown = d.cooldown := by
  obtain ⟨a, rest, hl, hr⟩ := ran_solStakerMoveTokens h hi
  obtain ⟨ds, dt, ds', dt', M⟩ := solStakerMoveTokens_two (reachable_inv R) hr
  obtain ⟨x, hx⟩ := Option.isSome_iff_exists.1 M.sol.1
  obtain ⟨y, hy⟩ := Option.isSome_iff_exists.1 M.sol.2
  have I := effect_ident (reachable_inv R) (exec_effect (reachable_inv R) O h)
  obtain ⟨x', hx', _⟩ := I.2 _ x hx
  obtain ⟨y', hy', _⟩ := I.2 _ y hy
  have e1 := M.s; rw [stakeAt_of_solStaker hx] at e1; cases e1
  have e2 := M.t; rw [stakeAt_of_solStaker hy] at e2; cases e2
  have e3 := M.s'; rw [stakeAt_of_solStaker hx'] at e3; cases e3
  have e4 := M.t'; rw [stakeAt_of_solStaker hy'] at e4; cases e4
  refine ⟨a.config, a.sourceSolStakerStake, a.destinationSolStakerStake, x, y, x', y', ?_, ?_, ?_, Ne.symm M.ne, M.belS,
    M.belT, hx, hy, hx', hy', M.same.symm, M.sSigned, M.le, M.sStaked, M.tStaked, M.sCooldown, M.tCooldown, ?_, ?_⟩
  · simp [Ix.acct, hl, SolStakerMoveTokensAccts.list]
  · simp [Ix.acct, hl, SolStakerMoveTokensAccts.list]
  · simp [Ix.acct, hl, SolStakerMoveTokensAccts.list]
  · intro k
    have F := exec_foreign (reachable_inv R).wf h
    cases F with
    | none hf => exact tokenAt_of_fv (congrFun hf k)
    | unstake h1 => rw [hi] at h1; simp at h1
    | stake h1 => rw [hi] at h1; simp at h1
    | slash h1 => rw [hi] at h1; simp at h1
    | holder h1 => rw [hi] at h1; simp at h1
  · intro k d h1 h2 hd
    obtain ⟨d', hd', S⟩ := M.quiet.del hd
    have : ¬ (k = a.sourceSolStakerStake ∨ k = a.destinationSolStakerStake) := by tauto
    exact ⟨d', hd', S.staked this, S.cooldown this⟩

example : (stakeAt w11 sol1).map (·.staked) = some 500 ∧ (stakeAt w11 sol2).map (·.staked) = some 0 ∧
    (stakeAt w12 sol1).map (·.staked) = some 400 ∧ (stakeAt w12 sol2).map (·.staked) = some 100 ∧
    ixMove.decoded = some (.solStakerMoveTokens 100) := by decide +kernel

/-- **C16.** A slash is signed by the slash authority. It takes the requested amount, or all there is, off the stake
account, burns exactly that much from the vault, and changes no other account's staked amount nor token account. -/
theorem C16_slash (R : Reachable env w) (O : o.Ok) (h : exec env o w ix = .ok w') {amount : Nat}
    (hi : ix.decoded = some (.slashValidatorStake amount) ∨ ix.decoded = some (.slashSolStakerStake amount)) :
    ∃ ck s c d d' t t', ix.acct 0 = some ck ∧ ix.acct 1 = some s ∧ belongs s ck ∧ configAt w ck = some c ∧
      stakeAt w s = some d ∧ stakeAt w' s = some d' ∧ 0 < amount ∧
      c.slashAuthority ≠ .default ∧ ix.ctx.signer c.slashAuthority = true ∧
      d'.staked + min amount d.staked = d.staked ∧
      tokenAt w c.vault = some t ∧ tokenAt w' c.vault = some t' ∧ t'.amount + min amount d.staked = t.amount ∧
      (∀ m, mintAt w t.mint = some m →
        ∃ m', mintAt w' t.mint = some m' ∧ m'.supply + min amount d.staked = m.supply) ∧
      (∀ k, k ≠ c.vault → tokenAt w' k = tokenAt w k) ∧
      (∀ k e, k ≠ s → stakeAt w k = some e → ∃ e', stakeAt w' k = some e' ∧ e'.staked = e.staked) := by
  have E := exec_effect (reachable_inv R) O h
  have F := exec_foreign (reachable_inv R).wf h
  have ne : ∀ {n}, ix.decoded = some (.validatorStakeTokens n) ∨ ix.decoded = some (.solStakerStakeTokens n) → False := by
    rintro n (h1 | h1) <;> rcases hi with hi | hi <;> rw [hi] at h1 <;> simp at h1
  cases F with
  | none _ h1 h2 h3 => rcases hi with hi | hi; exacts [absurd hi (h2 _), absurd hi (h3 _)]
  | stake h1 => exact absurd h1 ne
  | unstake h1 => rcases hi with hi | hi <;> rw [hi] at h1 <;> simp at h1
  | holder h1 => rcases hi with hi | hi <;> rw [hi] at h1 <;> simp at h1
  | @slash n a c d hr rs rh w1 w2 D' c1 d1 d2 h1 h0 hs S hf1 hf2 =>
    have hn : n = amount := by
      rcases hi with hi | hi <;> rcases h1 with h1 | h1 <;> rw [hi] at h1 <;> simp at h1 <;> exact h1.symm
    subst hn
    have hd : stakeAt w a.stake = some d := stakeAt_eq.2 ⟨S.sO, S.harv.del⟩
    have hc : configAt w a.config = some c := configAt_eq.2 ⟨S.cO, S.harv.config⟩
    obtain ⟨d', hd', D⟩ := effect_del E hd
    obtain ⟨tv, htv, htm⟩ := S.vaultMint
    have htv' : tokenAt w c.vault = some tv := by
      rw [← tokenAt_of_fv (congrFun hf1 _), ← S.vault]; exact tokenAt_eq.2 htv
    have hmin := Nat.min_le_right n d.staked
    have hst : d'.staked + min n d.staked = d.staked := by
      have : d' = d2 := by
        have : stakeAt w' a.stake = some d2 := by
          refine stakeAt_eq.2 ⟨?_, by rw [S.adj.stake']; exact S.adj.del'⟩
          rcases S.burn with ⟨_, e⟩ | ⟨_, t, m, B⟩
          · rw [S.adj.owner, e, S.harv.owner]; exact S.sO
          · rw [S.adj.owner, B.eq]; simp [S.harv.owner, S.sO]
        rw [this] at hd'; simpa using hd'.symm
      rw [this, S.staked]; omega
    have hburn : ∃ t', tokenAt w' c.vault = some t' ∧ t'.amount + min n d.staked = tv.amount ∧
        (∀ m, mintAt w tv.mint = some m → ∃ m', mintAt w' tv.mint = some m' ∧
          m'.supply + min n d.staked = m.supply) ∧ (∀ k, k ≠ c.vault → tokenAt w' k = tokenAt w k) := by
      rcases S.burn with ⟨hz, e⟩ | ⟨_, t, m, B⟩
      · have hf : fv w' = fv w := by rw [hf2, e, hf1]
        rw [hz]
        exact ⟨tv, (tokenAt_of_fv (congrFun hf _)).trans htv', rfl,
          fun m hm => ⟨m, (mintAt_of_fv (congrFun hf _)).trans hm, rfl⟩, fun k _ => tokenAt_of_fv (congrFun hf k)⟩
      · have ht : t = tv := by have := B.acct; rw [htv] at this; simpa using this.symm
        subst ht
        have hne : a.mint ≠ a.vault := by intro e; have := B.mintD; rw [e, B.acct] at this; simp at this
        refine ⟨spend t a.vaultAuthority (min n d.staked), ?_, ?_, ?_, ?_⟩
        · rw [tokenAt_of_fv (congrFun hf2 _), tokenAt_eq, B.eq, ← S.vault]
          simp [World.setD_data, Ne.symm hne]
        · have := B.le; unfold spend; split_ifs <;> simp <;> omega
        · intro m0 hm0
          rw [← mintAt_of_fv (congrFun hf1 _), htm, mintAt_eq, B.mintD] at hm0
          cases hm0
          refine ⟨{ m with supply := m.supply - min n d.staked }, ?_, Nat.sub_add_cancel B.supply⟩
          rw [mintAt_of_fv (congrFun hf2 _), htm, mintAt_eq, B.eq]
          simp [World.setD_data]
        · intro k hk
          rw [tokenAt_of_fv (congrFun hf2 _), ← tokenAt_of_fv (congrFun hf1 _)]
          rw [← S.vault] at hk
          unfold tokenAt; rw [B.eq]
          simp only [World.setD_data]
          by_cases hm : k = a.mint
          · subst hm; rw [if_pos rfl, B.mintD]
          · rw [if_neg hm, if_neg hk]
    obtain ⟨t', b1, b2, b3, b4⟩ := hburn
    refine ⟨a.config, a.stake, c, d, d', tv, t', h0, hs, S.bel, hc, hd, hd', S.pos, S.set, S.auth ▸ S.signer, hst, htv',
      b1, b2, b3, b4, fun k e hk he => ?_⟩
    obtain ⟨e', he', K⟩ := effect_del E he
    refine ⟨e', he', ?_⟩
    cases K with
    | same h1 => exact h1
    | sync ck vote wd hi' => rcases hi with hi | hi <;> rw [hi] at hi' <;> simp at hi'
    | stake ck amount hi' => exact absurd hi' ne
    | slash ck amount c _ _ h2 => rw [hs] at h2; simp at h2; exact absurd h2.symm hk
    | unstake ck amount c hi' => rcases hi with hi | hi <;> rw [hi] at hi' <;> simp at hi'
    | moveFrom ck t amount dt dt' hi' => rcases hi with hi | hi <;> rw [hi] at hi' <;> simp at hi'
    | moveTo ck t amount ds ds' hi' => rcases hi with hi | hi <;> rw [hi] at hi' <;> simp at hi'

example : (stakeAt w14 val1).map (·.staked) = some 2000 ∧ (stakeAt w15 val1).map (·.staked) = some 1700 ∧
    (tokenAt w14 vault).map (·.amount) = some 5000 ∧ (tokenAt w15 vault).map (·.amount) = some 4700 ∧
    (mintAt w14 mint).map (·.supply) = some 1000000000 ∧ (mintAt w15 mint).map (·.supply) = some 999999700 ∧
    ixSlashVal1.decoded = some (.slashValidatorStake 300) := by decide +kernel
example : (stakeAt w15 sol2).map (·.staked) = some 100 ∧ (stakeAt w16 sol2).map (·.staked) = some 0 ∧
    (tokenAt w16 vault).map (·.amount) = some 4600 ∧
    ixSlashSol2.decoded = some (.slashSolStakerStake 1000) := by decide +kernel

/-- **C42.** Only stake, unstake and slash instructions change any token account. -/
theorem C42_other_instructions_move_no_tokens (R : Reachable env w) (C : RewardsContract o)
    (h : exec env o w ix = .ok w') {k : Key} (hne : tokenAt w' k ≠ tokenAt w k) :
    ∃ n, ix.decoded = some (.unstakeTokens n) ∨ ix.decoded = some (.slashValidatorStake n) ∨
      ix.decoded = some (.slashSolStakerStake n) ∨ ix.decoded = some (.validatorStakeTokens n) ∨
      ix.decoded = some (.solStakerStakeTokens n) := by
  cases exec_foreign (reachable_inv R).wf h with
  | none hf => exact absurd (tokenAt_of_fv (congrFun hf k)) hne
  | @unstake n => exact ⟨n, by tauto⟩
  | @stake n => exact ⟨n, by tauto⟩
  | @slash n => exact ⟨n, by tauto⟩
  | holder _ _ _ hf _ hcall _ _ hf' =>
    obtain ⟨_, _, _, _, _, ht⟩ := C.harvestRewards hcall
    exact absurd (by rw [tokenAt_of_fv (congrFun hf' k), ht, tokenAt_of_fv (congrFun hf k)]) hne

/-- **C42.** In an unstake the vault receives the amount from the rewards program and sends it on to the destination:
its own balance does not change, and the amount sent is the drop in the staked amount of an account whose authority
signed. -/
theorem C42_unstake_leaves_the_vault (R : Reachable env w) (O : o.Ok) (C : RewardsContract o)
    (h : exec env o w ix = .ok w') {amount : Nat} (hi : ix.decoded = some (.unstakeTokens amount)) :
    ∃ ck s c d d' t t', ix.acct 0 = some ck ∧ ix.acct 3 = some s ∧ belongs s ck ∧ configAt w ck = some c ∧
      stakeAt w s = some d ∧ stakeAt w' s = some d' ∧ ix.ctx.signer d.authority = true ∧
      d'.staked + amount = d.staked ∧ tokenAt w c.vault = some t ∧ tokenAt w' c.vault = some t' ∧
      t'.amount = t.amount := by
  cases exec_foreign (reachable_inv R).wf h with
  | none _ h1 => exact absurd hi (h1 _)
  | stake h1 => rw [hi] at h1; simp at h1
  | slash h1 => rw [hi] at h1; simp at h1
  | holder h1 => rw [hi] at h1; simp at h1
  | @unstake n b rest c d hr rs rh w1 w2 w3 D' c1 d1 d2 call ts td h1 h2 S hf =>
    rw [hi] at h1; cases h1
    have a0 : ix.acct 0 = some b.config := by simp [Ix.acct, h2, UnstakeTokensAccts.list]
    have a3 : ix.acct 3 = some b.stake := by simp [Ix.acct, h2, UnstakeTokensAccts.list]
    have hd : stakeAt w b.stake = some d := stakeAt_eq.2 ⟨S.sO, S.harv.del⟩
    have hc : configAt w b.config = some c := configAt_eq.2 ⟨S.cO, S.harv.config⟩
    obtain ⟨a', rest', hl', hr'⟩ := ran_unstakeTokens h hi
    obtain ⟨c0, d0, d', U⟩ := unstakeTokens_one (reachable_inv R) O hr'
    have b0 : ix.acct 0 = some a'.config := by simp [Ix.acct, hl', UnstakeTokensAccts.list]
    have b3 : ix.acct 3 = some a'.stake := by simp [Ix.acct, hl', UnstakeTokensAccts.list]
    rw [a0, Option.some.injEq] at b0
    rw [a3, Option.some.injEq] at b3
    rw [← b0, ← b3] at U
    have := U.one.before; rw [hd] at this; cases this
    obtain ⟨tv, hh, hh', p, _, _, _, htok, htok', hoth⟩ := C.withdraw S.withdraw
    rw [S.call_token] at htok htok'
    obtain ⟨t', e1, e2⟩ := transferred_src S.transfer S.dest
    have e3 := S.transfer.src
    rw [← tokenAt_eq, htok', Option.some.injEq] at e3
    refine ⟨b.config, b.stake, c, d, d', tv, t', a0, a3, S.bel, hc, hd, U.one.after, U.signed, ?_, ?_, ?_, ?_⟩
    · have := U.staked; have := U.le; omega
    · rw [← S.vault, ← tokenAt_of_fv (congrFun hf _)]; exact htok
    · rw [← S.vault]; exact e1
    · rw [← e3, S.call_amount] at e2; simp at e2; exact e2

/-- **C45.** A stake instruction passes the tokens through the vault to the rewards program: the vault's own balance
does not change. -/
theorem C45_stake_leaves_the_vault (R : Reachable env w) (C : RewardsContract o) (h : exec env o w ix = .ok w')
    {amount : Nat}
    (hi : ix.decoded = some (.validatorStakeTokens amount) ∨ ix.decoded = some (.solStakerStakeTokens amount)) :
    ∃ ck c t t', ix.acct 0 = some ck ∧ configAt w ck = some c ∧ tokenAt w c.vault = some t ∧
      tokenAt w' c.vault = some t' ∧ (ix.acct 5 ≠ some c.vault → t'.amount = t.amount) := by
  have no : ∀ {i}, ix.decoded = some i → (∀ n, i ≠ .validatorStakeTokens n) → (∀ n, i ≠ .solStakerStakeTokens n) →
      False := by
    intro i hi' h1 h2
    rcases hi with hi | hi <;> rw [hi] at hi' <;> cases hi'
    · exact h1 _ rfl
    · exact h2 _ rfl
  cases exec_foreign (reachable_inv R).wf h with
  | none _ _ _ _ h1 h2 => rcases hi with hi | hi; exacts [absurd hi (h1 _), absurd hi (h2 _)]
  | slash h1 => rcases h1 with h1 | h1 <;> exact (no h1 (by simp) (by simp)).elim
  | holder h1 => exact (no h1 (by simp) (by simp)).elim
  | unstake h1 => exact (no h1 (by simp) (by simp)).elim
  | @stake n a rest c d hr rs rh w1 w2 w3 D' c1 d1 d2 ts td h1 h2 S hf =>
    obtain ⟨tv, hh, hh', p, _, _, htok, _, htok', _⟩ := C.deposit S.deposit
    simp only [StakeTokensAccts.call] at htok htok'
    have e := S.transfer.dst
    rw [S.vault, ← tokenAt_eq, tokenAt_of_fv (congrFun hf _)] at e
    refine ⟨a.config, c, td, _, by simp [Ix.acct, h2, StakeTokensAccts.list], configAt_eq.2 ⟨S.cO, S.harv.config⟩, e,
      S.vault ▸ htok', fun hne => ?_⟩
    have hs : a.sourceTokenAccount ≠ a.vault := by
      intro e; apply hne; rw [← S.vault, ← e]; simp [Ix.acct, h2, StakeTokensAccts.list]
    rw [transferred_dst S.transfer hs] at htok
    cases htok
    simp

/-- **C45.** With a rewards program that meets the contract, the balance of a config's vault only ever falls by slashing,
or by a stake instruction that names the vault itself as the source and is signed by its owner or delegate. -/
theorem C45_vault_falls_only_by_slash (R : Reachable env w) (O : o.Ok) (C : RewardsContract o)
    (h : exec env o w ix = .ok w') {k : Key} {t t' : TokenAccount} (hk : ∃ ck c, ix.acct 0 = some ck ∧
      configAt w ck = some c ∧ c.vault = k) (ht : tokenAt w k = some t) (ht' : tokenAt w' k = some t')
    (hlt : t'.amount < t.amount) :
    (∃ n, ix.decoded = some (.slashValidatorStake n) ∨ ix.decoded = some (.slashSolStakerStake n)) ∨
    (∃ n auth, (ix.decoded = some (.validatorStakeTokens n) ∨ ix.decoded = some (.solStakerStakeTokens n)) ∧
      ix.acct 5 = some k ∧ ix.acct 6 = some auth ∧ ix.ctx.signer auth = true ∧
      (t.owner = auth ∨ t.delegate = some auth)) := by
  obtain ⟨ck, c, h0, hc, rfl⟩ := hk
  cases hF : ix.decoded with
  | none => exact absurd hF (by
      obtain ⟨n, hn⟩ := C42_other_instructions_move_no_tokens (k := c.vault) R C h (by rw [ht, ht']; rintro ⟨⟩; omega)
      rcases hn with hn | hn | hn | hn | hn <;> rw [hn] <;> simp)
  | some i =>
  cases exec_foreign (reachable_inv R).wf h with
  | none hf => rw [tokenAt_of_fv (congrFun hf _), ht] at ht'; cases ht'; omega
  | @slash n _ _ _ _ _ _ _ _ _ _ _ _ h1 => left; rw [← hF]; exact ⟨n, h1⟩
  | holder _ _ _ hf _ hcall _ _ hf' =>
    obtain ⟨_, _, _, _, _, hh⟩ := C.harvestRewards hcall
    rw [tokenAt_of_fv (congrFun hf' _), hh, tokenAt_of_fv (congrFun hf _), ht] at ht'; cases ht'; omega
  | @unstake n b rest _ d hr rs rh w1 w2 w3 D' c1 d1 d2 call ts td h1 h2 S hf =>
    obtain ⟨ck', s, c', d0, d0', t0, t0', e0, _, _, ec, _, _, _, _, et, et', eq⟩ :=
      C42_unstake_leaves_the_vault R O C h h1
    rw [h0] at e0; cases e0
    rw [hc] at ec; cases ec
    rw [ht] at et; cases et
    rw [ht'] at et'; cases et'
    omega
  | @stake n a rest c' d hr rs rh w1 w2 w3 D' c1 d1 d2 ts td h1 h2 S hf =>
    have a0 : ix.acct 0 = some a.config := by simp [Ix.acct, h2, StakeTokensAccts.list]
    rw [h0] at a0; cases a0
    have ec := configAt_eq.2 ⟨S.cO, S.harv.config⟩
    rw [hc] at ec; cases ec
    by_cases hs : a.sourceTokenAccount = a.vault
    · right
      refine ⟨n, a.sourceTokenAccountAuthority, by rw [← hF]; exact h1, ?_, ?_, S.transfer.signed_eq, ?_⟩
      · rw [← S.vault, ← hs]; simp [Ix.acct, h2, StakeTokensAccts.list]
      · simp [Ix.acct, h2, StakeTokensAccts.list]
      · have e := S.transfer.src
        rw [hs, S.vault, ← tokenAt_eq, tokenAt_of_fv (congrFun hf _), ht] at e
        cases e
        have := S.transfer.auth
        split_ifs at this with hd
        · exact Or.inr hd
        · exact Or.inl this.symm
    · exfalso
      obtain ⟨tv, hh, hh', p, _, _, htok, _, htok', _⟩ := C.deposit S.deposit
      simp only [StakeTokensAccts.call] at htok htok'
      rw [transferred_dst S.transfer hs] at htok
      cases htok
      rw [S.vault, ht'] at htok'; cases htok'
      have e := S.transfer.dst
      rw [S.vault, ← tokenAt_eq, tokenAt_of_fv (congrFun hf _), ht] at e
      cases e
      simp at hlt

/-- In the witness history 2000 tokens are staked on the first validator, yet a slash of 300 fails, because the vault
holds nothing until somebody sends tokens to it. -/
example : (stakeAt w13 val1).map (·.staked) = some 2000 ∧ (tokenAt w13 vault).map (·.amount) = some 0 ∧
    okB o2 w13 ixSlashVal1 = false ∧ okB o2 w14 ixSlashVal1 = true := by decide +kernel

end Verif.Props
