import Verif.Lemmas.CallsIx
import Verif.WitnessHistory
/-!
# C112: what an instruction asks of other programs, and where the program signs
-/

namespace Verif.Props

open Verif Verif.Witness

variable {env : Env} {o : Oracle} {w w' : World} {ix : Ix}

/-- **C112.** An accepted instruction consists of the calls of other programs listed in `Calls` for its kind, in this order, and of the
program's own writing before, between and after them, which neither changes the data nor lowers the lamports of an account of another
program. Each call has the signature it needs and is about accounts that were handed to the instruction. -/
theorem C112_calls (R : Reachable env w) (h : exec env o w ix = .ok w') :
    ∃ i ck ms, ix.decoded = some i ∧ ix.acct 0 = some ck ∧ Calls env w ix ck i ms ∧ Trace o ix.ctx w ms w' ∧
      ∀ m ∈ ms, ∀ k ∈ m.op.accounts, k ∈ ix.ctx.accts := by
  have I := reachable_inv R
  have bump : ∀ {k c}, configAt w k = some c → Key.vaultPda k c.bump = env.vaultAuth k := fun hc => by
    rw [(I.config _ _ hc).bump]; rfl
  rcases exec_ran h with ⟨a, s, c, hh, t, b, y, rest, hi, hl, hr⟩ | ⟨a, rest, hi, hl, hr⟩ | ⟨a, n, rest, hi, hl, hr⟩ | ⟨a, rest, hi, hl, hr⟩ |
    ⟨a, rest, hi, hl, hr⟩ | ⟨a, n, rest, hi, hl, hr⟩ | ⟨a, t, rest, hi, hl, hr⟩ | ⟨a, f, rest, hi, hl, hr⟩ | ⟨a, rest, hi, hl, hr⟩ |
    ⟨a, n, rest, hi, hl, hr⟩ | ⟨a, kp, rest, hi, hl, hk, hr⟩ | ⟨a, n, rest, hi, hl, hr⟩ | ⟨a, n, rest, hi, hl, hr⟩ | ⟨a, n, rest, hi, hl, hr⟩ |
    ⟨a, n, rest, hi, hl, hr⟩ | ⟨a, rest, hi, hl, hr⟩
  · obtain ⟨hv, T⟩ := initializeConfig_does (o := o) hr
    exact ⟨_, a.config, _, hi, by rw [Ix.acct, hl]; rfl, ⟨by rw [Ix.acct, hl, ← hv]; rfl, by rw [hv]⟩, T,
      by simp [hl, Op.accounts, InitializeConfigAccts.list]⟩
  · have T := initializeValidatorStake_does (o := o) hr
    obtain ⟨_, _, _, _, _, _, _, hk, hd, ho, _, _⟩ := initializeValidatorStake_ok hr
    refine ⟨_, a.config, _, hi, by rw [Ix.acct, hl]; rfl, ⟨a.validatorVote, by rw [Ix.acct, hl]; rfl, by rw [Ix.acct, hl, ← hk]; rfl, hk ▸ ⟨ho, hd⟩, ?_⟩, T,
      by simp [hl, Op.accounts, InitializeValidatorStakeAccts.list]⟩
    rw [← hk]
  · obtain ⟨c, dec, hc, hv, hp, hh, T, hm⟩ := validatorStakeTokens_does hr
    refine ⟨_, a.config, _, hi, by rw [Ix.acct, hl]; rfl,
      ⟨c, a.sourceTokenAccount, a.sourceTokenAccountAuthority, a.mint, dec, a.call n, hc, by rw [Ix.acct, hl]; rfl,
        by rw [Ix.acct, hl]; rfl, by rw [Ix.acct, hl]; rfl, by rw [Ix.acct, hl, ← hp]; rfl, by rw [Ix.acct, hl, ← hv]; rfl,
        by rw [Ix.acct, hl]; rfl, ⟨hp, hh, hv, rfl, by rw [Ix.acct, hl]; rfl, by rw [Ix.acct, hl]; rfl, rfl⟩, ?_⟩, T,
      fun m h k hk => ?_⟩
    · rw [← hv]
    · rw [hl]; exact List.mem_append_left _ (hm m h k hk)
  · obtain ⟨c, r, hc, hp, h1, h2, ⟨e1, e2, e3, e4⟩, T, hm⟩ := harvestHolderRewards_does (ctx := ix.ctx) hr
    rw [bump hc] at hp
    refine ⟨_, a.config, _, hi, by rw [Ix.acct, hl]; rfl, ⟨c, r, hc, by rw [Ix.acct, hl, e1]; rfl,
      by rw [Ix.acct, hl, e2]; rfl, by rw [Ix.acct, hl, e3]; rfl, by rw [Ix.acct, hl, h1]; rfl, by rw [Ix.acct, hl, e4]; rfl,
      h1.trans hp, hp ▸ h2, rfl⟩, T, fun m h k hk => ?_⟩
    rw [hl]; exact List.mem_append_left _ (hm m h k hk)
  · exact ⟨_, a.config, [], hi, by rw [Ix.acct, hl]; rfl, rfl, .done (harvestValidatorRewards_own hr), by simp⟩
  · obtain ⟨c, d, ms, hc, hv, hp, ht, hd, T, hms⟩ := slashValidatorStake_does (o := o) hr
    rw [bump hc] at hp
    refine ⟨_, a.config, ms, hi, by rw [Ix.acct, hl]; rfl, ⟨c, a.stake, d, a.mint, hc, by rw [Ix.acct, hl]; rfl, hd,
      by rw [Ix.acct, hl, ← hv]; rfl, by rw [Ix.acct, hl]; rfl, by rw [Ix.acct, hl, ← ht]; rfl, ?_⟩, T, ?_⟩
    · rcases hms with hms | ⟨h0, dec, hms⟩
      · exact .inl hms
      · exact .inr ⟨h0, dec, by rw [hms, hv, hp]⟩
    · rcases hms with ⟨_, rfl⟩ | ⟨_, dec, rfl⟩ <;> simp [hl, Op.accounts, SlashAccts.listValidator]
  · exact ⟨_, a.account, [], hi, by rw [Ix.acct, hl]; rfl, rfl, .done (setAuthority_own hr), by simp⟩
  · exact ⟨_, a.config, [], hi, by rw [Ix.acct, hl]; rfl, rfl, .done (updateConfig_own hr), by simp⟩
  · obtain ⟨hv, T⟩ := initializeSolStakerStake_does hr
    obtain ⟨_, _, _, _, _, _, _, _, _, _, _, _, _, _, hk, hd, ho, _⟩ := initializeSolStakerStake_ok hr
    refine ⟨_, a.config, _, hi, by rw [Ix.acct, hl]; rfl, ⟨a.solStakerNativeStake, a.sysvarStakeHistory, by rw [Ix.acct, hl]; rfl,
      by rw [Ix.acct, hl]; rfl, by rw [Ix.acct, hl, ← hv]; rfl, by rw [Ix.acct, hl, ← hk]; rfl, hk ▸ ⟨ho, hd⟩, ?_⟩, T,
      by simp [hl, Op.accounts, InitializeSolStakerStakeAccts.list]⟩
    rw [← hk]
  · obtain ⟨c, dec, hc, hv, hp, hh, T, hm⟩ := solStakerStakeTokens_does hr
    refine ⟨_, a.config, _, hi, by rw [Ix.acct, hl]; rfl,
      ⟨c, a.sourceTokenAccount, a.sourceTokenAccountAuthority, a.mint, dec, a.call n, hc, by rw [Ix.acct, hl]; rfl,
        by rw [Ix.acct, hl]; rfl, by rw [Ix.acct, hl]; rfl, by rw [Ix.acct, hl, ← hp]; rfl, by rw [Ix.acct, hl, ← hv]; rfl,
        by rw [Ix.acct, hl]; rfl, ⟨hp, hh, hv, rfl, by rw [Ix.acct, hl]; rfl, by rw [Ix.acct, hl]; rfl, rfl⟩, ?_⟩, T,
      fun m h k hk => ?_⟩
    · rw [← hv]
    · rw [hl]; exact List.mem_append_left _ (hm m h k hk)
  · obtain ⟨hv, T⟩ := harvestSolStakerRewards_does (ctx := ix.ctx) hr
    exact ⟨_, a.solStakeViewProgram, _, hi, by rw [Ix.acct, hl]; rfl, ⟨a.solStakerNativeStake, a.sysvarStakeHistory,
      by rw [Ix.acct, hl]; rfl, by rw [Ix.acct, hl]; rfl, by rw [Ix.acct, hl, ← hv]; rfl, rfl⟩, T,
      by simp [hl, Op.accounts, HarvestSolStakerRewardsAccts.list]⟩
  · obtain ⟨c, dec, hc, hv, hp, hh, T, hm⟩ := unstakeTokens_does hr
    refine ⟨_, a.config, _, hi, by rw [Ix.acct, hl]; rfl,
      ⟨c, a.destinationTokenAccount, a.mint, dec, a.call n, hc, by rw [Ix.acct, hl, ← hv]; rfl, by rw [Ix.acct, hl, ← hp]; rfl,
        by rw [Ix.acct, hl]; rfl, by rw [Ix.acct, hl]; rfl, by rw [Ix.acct, hl]; rfl,
        ⟨hp, hh, hv, rfl, by rw [Ix.acct, hl]; rfl, by rw [Ix.acct, hl]; rfl, rfl⟩, ?_⟩, T,
      fun m h k hk => ?_⟩
    · rw [← hv, ← hp]
    · rw [hl]; exact List.mem_append_left _ (hm m h k hk)
  · obtain ⟨c, d, ms, hc, hv, hp, ht, hd, T, hms⟩ := slashSolStakerStake_does (o := o) hr
    rw [bump hc] at hp
    refine ⟨_, a.config, ms, hi, by rw [Ix.acct, hl]; rfl, ⟨c, a.stake, d, a.mint, hc, by rw [Ix.acct, hl]; rfl, hd,
      by rw [Ix.acct, hl]; rfl, by rw [Ix.acct, hl, ← hv]; rfl, by rw [Ix.acct, hl, ← ht]; rfl, ?_⟩, T, ?_⟩
    · rcases hms with hms | ⟨h0, dec, hms⟩
      · exact .inl hms
      · exact .inr ⟨h0, dec, by rw [hms, hv, hp]⟩
    · rcases hms with ⟨_, rfl⟩ | ⟨_, dec, rfl⟩ <;> simp [hl, Op.accounts, SlashAccts.listSolStaker]
  · exact ⟨_, a.config, [], hi, by rw [Ix.acct, hl]; rfl, rfl, .done (solStakerMoveTokens_own hr), by simp⟩
  · exact ⟨_, a.config, [], hi, by rw [Ix.acct, hl]; rfl, rfl, .done (validatorOverride_own hr), by simp⟩
  · exact ⟨_, a.config, [], hi, by rw [Ix.acct, hl]; rfl, rfl, .done (validatorSyncAuthority_own hr), by simp⟩

/-- **C112.** An accepted instruction is made of calls of the system program, the token program, the rewards program and the stake view
program, and of the program's own writing. The program adds its own signature only for the vault authority of the config that was
passed first, towards the token program and the rewards program (towards the system program in InitializeConfig, to
take the address into possession), and for a stake account of that config at an address that was blank, towards the system program. -/
theorem C112_signature (R : Reachable env w) (h : exec env o w ix = .ok w') :
    ∃ ck ms, ix.acct 0 = some ck ∧ Trace o ix.ctx w ms w' ∧ ∀ m ∈ ms, m.program ∈ [systemId, tokenId, rewardsId, viewId] ∧
      (m.lent = true → ∃ k, m.op.signer = some k ∧
        ((k = env.vaultAuth ck ∧ (m.program = tokenId ∨ m.program = rewardsId ∨
            (m.op = .assign k ∧ ∃ s c t b y hash, ix.decoded = some (.initializeConfig s c t b y hash)))) ∨
          (belongs k ck ∧ Blank w k ∧ m.program = systemId))) := by
  obtain ⟨i, ck, ms, hi, hk, C, T, _⟩ := C112_calls R h
  refine ⟨ck, ms, hk, T, fun m hm => ?_⟩
  cases i <;> simp only [Calls] at C
  case initializeConfig s c t b y hash =>
    obtain ⟨_, rfl⟩ := C
    obtain rfl := List.mem_singleton.1 hm
    exact ⟨by simp, fun _ => ⟨_, rfl, .inl ⟨rfl, .inr (.inr ⟨rfl, _, _, _, _, _, _, hi⟩)⟩⟩⟩
  case initializeValidatorStake =>
    obtain ⟨v, _, _, hb, rfl⟩ := C
    simp only [List.mem_cons, List.not_mem_nil, or_false] at hm
    rcases hm with rfl | rfl <;> exact ⟨by simp, fun _ => ⟨_, rfl, .inr ⟨.inl ⟨_, rfl⟩, hb, rfl⟩⟩⟩
  case initializeSolStakerStake =>
    obtain ⟨v, _, _, _, _, _, hb, rfl⟩ := C
    simp only [List.mem_cons, List.not_mem_nil, or_false] at hm
    rcases hm with rfl | rfl | rfl
    · exact ⟨by simp, by simp⟩
    all_goals exact ⟨by simp, fun _ => ⟨_, rfl, .inr ⟨.inr ⟨_, rfl⟩, hb, rfl⟩⟩⟩
  case validatorStakeTokens n =>
    obtain ⟨c, _, _, _, _, r, _, _, _, _, _, _, _, hr, rfl⟩ := C
    simp only [List.mem_cons, List.not_mem_nil, or_false] at hm
    rcases hm with rfl | rfl
    · exact ⟨by simp, by simp⟩
    · exact ⟨by simp, fun _ => ⟨_, rfl, .inl ⟨hr.1, .inr (.inl rfl)⟩⟩⟩
  case solStakerStakeTokens n =>
    obtain ⟨c, _, _, _, _, r, _, _, _, _, _, _, _, hr, rfl⟩ := C
    simp only [List.mem_cons, List.not_mem_nil, or_false] at hm
    rcases hm with rfl | rfl
    · exact ⟨by simp, by simp⟩
    · exact ⟨by simp, fun _ => ⟨_, rfl, .inl ⟨hr.1, .inr (.inl rfl)⟩⟩⟩
  case unstakeTokens n =>
    obtain ⟨c, _, _, _, r, _, _, _, _, _, _, hr, rfl⟩ := C
    simp only [List.mem_cons, List.not_mem_nil, or_false] at hm
    rcases hm with rfl | rfl
    · exact ⟨by simp, fun _ => ⟨_, rfl, .inl ⟨hr.1, .inr (.inl rfl)⟩⟩⟩
    · exact ⟨by simp, fun _ => ⟨_, rfl, .inl ⟨rfl, .inl rfl⟩⟩⟩
  case slashValidatorStake n =>
    obtain ⟨c, k, d, mint, _, _, _, _, _, _, ⟨_, rfl⟩ | ⟨_, dec, rfl⟩⟩ := C
    · simp at hm
    · obtain rfl := List.mem_singleton.1 hm
      exact ⟨by simp, fun _ => ⟨_, rfl, .inl ⟨rfl, .inl rfl⟩⟩⟩
  case slashSolStakerStake n =>
    obtain ⟨c, k, d, mint, _, _, _, _, _, _, ⟨_, rfl⟩ | ⟨_, dec, rfl⟩⟩ := C
    · simp at hm
    · obtain rfl := List.mem_singleton.1 hm
      exact ⟨by simp, fun _ => ⟨_, rfl, .inl ⟨rfl, .inl rfl⟩⟩⟩
  case harvestHolderRewards =>
    obtain ⟨c, r, _, _, _, _, _, _, h1, _, rfl⟩ := C
    obtain rfl := List.mem_singleton.1 hm
    exact ⟨by simp, fun _ => ⟨_, rfl, .inl ⟨h1, .inr (.inl rfl)⟩⟩⟩
  case harvestSolStakerRewards =>
    obtain ⟨_, _, _, _, _, rfl⟩ := C
    obtain rfl := List.mem_singleton.1 hm
    exact ⟨by simp, by simp⟩
  all_goals
    subst C
    simp at hm

/-! ## The cases are met -/

/-- The unstake of the example: the tokens leave the vault of the config by one transfer, signed by the program. -/
example : ∃ mint dest dec r, r.amount = 150 ∧ Trace o2 ixUnstake.ctx w12
    [⟨rewardsId, .withdraw r, true⟩, ⟨tokenId, .transfer vault mint dest (Witness.env.vaultAuth cfg) 150 dec, true⟩] w13 := by
  obtain ⟨i, ck, ms, hi, hk, C, T, _⟩ := C112_calls r12 (ok_after ok12)
  obtain rfl : i = .unstakeTokens 150 := Option.some.inj (hi.symm.trans (by decide +kernel))
  obtain rfl : ck = cfg := Option.some.inj (hk.symm.trans (by decide +kernel))
  obtain ⟨c, dest, mint, dec, r, hc, _, _, _, _, _, hr, rfl⟩ := C
  have hv : c.vault = vault := by
    have : (configAt w12 cfg).map (·.vault) = some vault := by decide +kernel
    rw [hc] at this; exact Option.some.inj this
  rw [hv] at T
  exact ⟨mint, dest, dec, r, hr.2.2.2.1, T⟩

/-- The slash of the example burns tokens of the vault. -/
example : ∃ mint dec n, 0 < n ∧ Trace o2 ixSlashVal1.ctx w14
    [⟨tokenId, .burn vault mint (Witness.env.vaultAuth cfg) n dec, true⟩] w15 := by
  obtain ⟨i, ck, ms, hi, hk, C, T, _⟩ := C112_calls r14 (ok_after ok14)
  obtain rfl : i = .slashValidatorStake 300 := Option.some.inj (hi.symm.trans (by decide +kernel))
  obtain rfl : ck = cfg := Option.some.inj (hk.symm.trans (by decide +kernel))
  obtain ⟨c, k, d, mint, hc, hk', hd, _, _, _, hm⟩ := C
  have hv : c.vault = vault := by
    have : (configAt w14 cfg).map (·.vault) = some vault := by decide +kernel
    rw [hc] at this; exact Option.some.inj this
  obtain rfl : k = val1 := Option.some.inj (hk'.symm.trans (by decide +kernel))
  have h0 : 0 < d.staked := by
    have : (stakeAt w14 val1).map (fun d => decide (0 < d.staked)) = some true := by decide +kernel
    rw [hd] at this; simpa using this
  obtain ⟨h, _⟩ | ⟨_, dec, rfl⟩ := hm
  · omega
  · rw [hv] at T
    exact ⟨mint, dec, _, by omega, T⟩

end Verif.Props
