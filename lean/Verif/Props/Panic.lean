import Verif.Lemmas.CalmIx
import Verif.Props.State
import Verif.Props.Codec
import Verif.Props.Effective
import Verif.Props.Solvency
import Verif.WitnessHistory
/-!
# C79: when an instruction panics
-/

namespace Verif.Props

open Verif Verif.Witness

variable {env : Env} {o : Oracle} {w w' : World} {ix : Ix}

theorem unpack_calm (b : List UInt8) : StakeInstruction.unpack b ≠ .error .panic := by
  intro h
  have := C31_rejected b h
  simp at this

/-- **C79.** An instruction panics only for one of these reasons:

1. the config does not hold what the stake accounts that the instruction settles would be paid plus its own rent minimum;
2. a move or a SOL staker harvest settles two or more accounts, one of which names the config itself as its authority;
3. `ValidatorSyncAuthority` names an address at which there is no validator stake account;
4. `HarvestSolStakerRewards` of an account that records lamports without a validator (see C43).

In particular none of the other instructions, and no instruction data or account list whatsoever, makes the program panic. -/
theorem C79_panics (R : Reachable env w) (P : o.Plain) (h : exec env o w ix = .error .panic) :
    (∃ ck l, ix.config = some ck ∧ l ≠ [] ∧ l.Nodup ∧ (∀ k ∈ l, k ∈ ix.ctx.accts) ∧ Unfunded env w ck l) ∨
    (((∃ n, ix.decoded = some (.solStakerMoveTokens n)) ∨ ix.decoded = some .harvestSolStakerRewards) ∧
      ∃ ck k, ix.config = some ck ∧ k ∈ ix.ctx.accts ∧ authorityOf w k = some ck) ∨
    (ix.decoded = some .validatorSyncAuthority ∧ ∃ k, ix.acct 1 = some k ∧ validatorAt w k = none) ∨
    (ix.decoded = some .harvestSolStakerRewards ∧
      ∃ k s, ix.acct 3 = some k ∧ solStakerAt w k = some s ∧ s.del.vote = .default ∧ s.lamports ≠ 0) := by
  have I := reachable_inv R
  simp only [exec, processInstruction, bind_panic, require_panic, pure_panic, reduceCtorEq, and_false, or_false, exists_false] at h
  rcases h with h | ⟨i, hi, hd⟩
  · exact absurd h (unpack_calm _)
  rw [← decoded_eq] at hi
  have one : ∀ {ck k : Key}, ix.config = some ck → k ∈ ix.ctx.accts →
      (w ck).lamports < accrued env w ck k + env.rentMin configLen →
      ∃ ck l, ix.config = some ck ∧ l ≠ [] ∧ l.Nodup ∧ (∀ k ∈ l, k ∈ ix.ctx.accts) ∧ Unfunded env w ck l := by
    intro ck k h1 h2 h3
    have S := Short.one (accts := ix.ctx.accts) h2 h3
    exact ⟨ck, [k], h1, by simp, S.nodup, S.mem, S.unfunded⟩
  have cfg0 : ∀ {k0 : Key} {l : List Key}, ix.ctx.accts = k0 :: l → ix.decoded ≠ some .harvestSolStakerRewards →
      ix.config = some k0 := by
    intro k0 l hl hn
    unfold Ix.config Ix.acct
    rw [hl]
    split
    · exact absurd (by assumption) hn
    · rfl
  have cfg1 : ∀ {k0 k1 : Key} {l : List Key}, ix.ctx.accts = k0 :: k1 :: l → ix.decoded = some .harvestSolStakerRewards →
      ix.config = some k1 := by
    intro k0 k1 l hl h
    unfold Ix.config Ix.acct
    rw [h, hl]
    rfl
  unfold dispatch at hd
  split at hd
  · exact (initializeConfig_calm hd).elim
  · exact (initializeValidatorStake_calm hd).elim
  · rename_i hl
    exact .inl (one (cfg0 hl (by simp [hi])) (by simp [hl]) (validatorStakeTokens_calm P hd))
  · exact (harvestHolderRewards_calm P hd).elim
  · rename_i hl
    exact .inl (one (cfg0 hl (by simp [hi])) (by simp [hl]) (harvestValidatorRewards_calm hd))
  · rename_i hl
    exact .inl (one (cfg0 hl (by simp [hi])) (by simp [hl]) (slashValidatorStake_calm I hd))
  · exact (setAuthority_calm hd).elim
  · exact (updateConfig_calm hd).elim
  · exact (initializeSolStakerStake_calm P hd fun x => C39_override_account_empty R x _).elim
  · rename_i hl
    exact .inl (one (cfg0 hl (by simp [hi])) (by simp [hl]) (solStakerStakeTokens_calm P hd))
  · rename_i hl
    have hc := cfg1 hl hi
    rcases harvestSol_calm I P hd (accts := ix.ctx.accts) (by simp [hl]) (by simp [hl]) (by simp [hl]) with
      ⟨l, hne, S⟩ | ⟨k, hk, e⟩ | ⟨s, hs, h1, h2⟩
    · exact .inl ⟨_, l, hc, hne, S.nodup, S.mem, S.unfunded⟩
    · exact .inr (.inl ⟨.inr hi, _, k, hc, hk, e⟩)
    · exact .inr (.inr (.inr ⟨hi, _, s, by unfold Ix.acct; rw [hl]; rfl, hs, h1, h2⟩))
  · rename_i hl
    exact .inl (one (cfg0 hl (by simp [hi])) (by simp [hl]) (unstakeTokens_calm P hd))
  · rename_i hl
    exact .inl (one (cfg0 hl (by simp [hi])) (by simp [hl]) (slashSolStakerStake_calm I hd))
  · rename_i hl
    have hc := cfg0 hl (by simp [hi])
    rcases solStakerMoveTokens_calm I hd with h1 | ⟨hne, h1⟩ | h1
    · exact .inl (one hc (by simp [hl]) h1)
    · exact .inl ⟨_, [_, _], hc, by simp, by simpa using Ne.symm hne, by simp [hl],
        by simp only [Unfunded, List.map_cons, List.map_nil, List.sum_cons, List.sum_nil]; simpa [Nat.add_assoc] using h1⟩
    · exact .inr (.inl ⟨.inl ⟨_, hi⟩, _, _, hc, by simp [hl], h1⟩)
  · rename_i hl
    exact .inl (one (cfg0 hl (by simp [hi])) (by simp [hl]) (validatorOverride_calm hd))
  · rename_i hl
    exact .inr (.inr (.inl ⟨hi, _, by unfold Ix.acct; rw [hl]; rfl, validatorSyncAuthority_calm hd⟩))
  · simp at hd

/-- **C79.** If the stake view program reports zero effective lamports for undelegated native stakes (C43) and no stake account
has the config as its authority, the only panics left are a config that cannot pay and the sync of a validator that has no
stake account. -/
theorem C79_panics_ordinarily (R : ReachableWith env IdleViews w) (P : o.Plain)
    (hauth : ∀ ck k, ix.config = some ck → authorityOf w k ≠ some ck) (h : exec env o w ix = .error .panic) :
    (∃ ck l, ix.config = some ck ∧ l ≠ [] ∧ l.Nodup ∧ (∀ k ∈ l, k ∈ ix.ctx.accts) ∧ Unfunded env w ck l) ∨
    (ix.decoded = some .validatorSyncAuthority ∧ ∃ k, ix.acct 1 = some k ∧ validatorAt w k = none) := by
  rcases C79_panics R.reachable P h with h | ⟨_, ck, k, hc, _, e⟩ | h | ⟨_, k, s, _, hs, hv, hl⟩
  · exact .inl h
  · exact absurd e (hauth ck k hc)
  · exact .inr h
  · exact absurd (C43_undelegated_has_no_lamports R hs hv) hl

theorem TotalIs.list_le {f : Key → Nat} {n : Nat} (h : TotalIs f n) {l : List Key} (hl : l.Nodup) : (l.map f).sum ≤ n := by
  obtain ⟨S, hz, rfl⟩ := h
  rw [← List.sum_toFinset f hl]
  refine Finset.sum_le_sum_of_ne_zero fun k _ hk => ?_
  by_contra hn
  exact hk (hz k hn)

/-- **C79.** In a history in which no deposit settled holder rewards and no keeper was the config (C22), a config that cannot
pay is short by at most the lamports that still wait at its vault authority plus the number of settlements: harvesting the
holder rewards, and one lamport per settlement, is enough to end the panics. -/
theorem C79_shortfall_bounded {ck : Key} {c : Config} {n : Nat} (H : History env ck (Careful env ck) w n)
    (hc : configAt w ck = some c) {l : List Key} (hl : l.Nodup) :
    (l.map (accrued env w ck)).sum + env.rentMin configLen ≤
      (w ck).lamports + ((w (env.vaultAuth ck)).lamports + n) := by
  obtain ⟨t, ht, hle⟩ := C22_claims_covered_partial H hc
  have := TotalIs.list_le ht hl
  omega

/-- **C79.** The sync of a vote account that has no validator stake account under the config always panics: `unwrap` is
called before any of the remaining checks. -/
theorem C79_sync_unregistered (R : Reachable env w) {ck vote : Key} {c : Config}
    (hi : ix.decoded = some .validatorSyncAuthority) (hl : ix.ctx.accts = [ck, .validatorPda vote ck, vote])
    (hc : configAt w ck = some c) (hv : validatorAt w (.validatorPda vote ck) = none) :
    exec env o w ix = .error .panic := by
  have I := reachable_inv R
  rw [decoded_eq] at hi
  obtain ⟨ho, hd⟩ := configAt_eq.1 hc
  have hn : ∀ v, (w (.validatorPda vote ck)).data ≠ .validator v := by
    intro v e
    by_cases hp : (w (.validatorPda vote ck)).owner = progId
    · rw [validatorAt_eq.2 ⟨hp, e⟩] at hv
      simp at hv
    · rw [(I.unowned _ rfl hp).2] at e
      simp at e
  simp only [exec, processInstruction, bind_panic, hi, Except.ok.injEq, exists_eq_left', dispatch, hl]
  simp only [validatorSyncAuthority, bind_panic, require_ok, ho, exists_unit, unpackConfig_ok, hd, true_and]
  exact .inl (.inr (.inr (.inr ⟨c, rfl, .inr trivial⟩)))

/-! ## The cases occur -/

/-- Whether an instruction panics. -/
def panicB (o : Oracle) (w : World) (i : Ix) : Bool :=
  match exec Witness.env o w i with
  | .error .panic => true
  | _ => false

theorem panic_of {o : Oracle} {w : World} {i : Ix} (h : panicB o w i = true) : exec Witness.env o w i = .error .panic := by
  unfold panicB at h
  split at h
  · assumption
  · simp at h

/-- The reference programs never fail with a panic. -/
theorem o1_plain : o1.Plain where
  view k h := by change view1 k = _ at h; unfold view1 at h; split_ifs at h; simp at h
  harvestRewards w c h := by
    change Witness.harvestRewards _ w c = _ at h; unfold Witness.harvestRewards at h; split at h <;> (try split_ifs at h) <;> simp at h
  deposit w c h := by
    change Witness.deposit w c = _ at h; unfold Witness.deposit at h; split at h <;> (try split_ifs at h) <;> simp at h
  withdraw w c h := by
    change Witness.withdraw w c = _ at h; unfold Witness.withdraw at h; split at h <;> (try split_ifs at h) <;> simp at h

/-- Stake 240000 more tokens. -/
def ixStakeSome : Ix :=
  Witness.ix (.validatorStakeTokens 240000)
    [cfg, pool, poolToken, val1, auth1, source, holderOwner, mint, vaultAuth, vault, holder, tokenId, rewardsId]
    [holderOwner]

def p8 : World := after Witness.o3 w7 ixStakeSome
theorem okp8 : okB Witness.o3 w7 ixStakeSome = true := by decide +kernel
theorem rp8 : Reachable Witness.env p8 := by unfold p8; exact .exec r7 Witness.o3_ok (ok_after okp8)

/-- Cause 1 occurs: after a deposit that settled holder rewards, the validator is owed more than the config can pay. -/
example : Reachable Witness.env p8 ∧ o1.Plain ∧ exec Witness.env o1 p8 ixHarvestVal1 = .error .panic ∧
    Unfunded Witness.env p8 cfg [val1] :=
  ⟨rp8, o1_plain, panic_of (by decide +kernel), by unfold Unfunded; decide +kernel⟩

/-- Cause 3 occurs: the second validator's vote account before it has a stake account. -/
example : Reachable Witness.env w1 ∧
    exec Witness.env o1 w1 (Witness.ix .validatorSyncAuthority [cfg, .validatorPda vote2 cfg, vote2] []) = .error .panic :=
  ⟨r1, panic_of (by decide +kernel)⟩

/-- The hypotheses of the bound on the shortfall are met with claims that are not zero. -/
example : History Witness.env cfg (Careful Witness.env cfg) w8 0 ∧ (configAt w8 cfg).isSome = true ∧
    0 < ([val1, val2].map (accrued Witness.env w8 cfg)).sum :=
  ⟨h8, by decide +kernel, by decide +kernel⟩

end Verif.Props
