import Verif.Lemmas.Client
import Verif.Props.Settle
import Verif.Props.Layout
import Verif.Props.Footprint
/-!
# The generated Rust client

C64: a request of the client is the instruction it is named after. C65: the flags it sets suffice. C66: with two exceptions.
C67: it decodes the program's accounts.
-/

namespace Verif.Props

open Verif Verif.Client Verif.Witness Verif.Layout

variable {env : Env} {o : Oracle} {w w' : World} {c : Call} {payer : Key}

/-! ## Requests -/

/-- **C64.** The data of a request decodes, by the program's own decoder, to the instruction the call stands for, with the
arguments of the call. -/
theorem C64_client_decodes (hT : c.Typed) : (c.request.ix payer).decoded = some c.meaning :=
  decoded_eq.2 (call_unpack hT)

/-- **C64.** A request is addressed to the stake program. -/
theorem C64_client_program : c.request.program = progId := rfl

/-- **C64.** Processing a request runs the handler of the call on the accounts as the call names them. -/
theorem C64_client_runs (hT : c.Typed) :
    processInstruction env o w (c.request.ix payer) = c.run env o (c.request.ix payer).ctx w := by
  have h : StakeInstruction.unpack (c.request.ix payer).data = .ok c.meaning := call_unpack hT
  simp only [processInstruction, h]
  exact call_dispatch hT rfl

/-- **C64.** A request asks for the signature of the one account whose consent the instruction needs, and no other. -/
theorem C64_client_signers {k : Key} : (c.request.ix payer).ctx.signer k = true ↔ k = payer ∨ k ∈ c.signers :=
  ix_signer

/-- Staking 2000 tokens for the first validator of the witness history, built by the client. -/
def stakeVal1 : Call :=
  .validatorStakeTokens
    { config := cfg, holderRewardsPool := pool, holderRewardsPoolTokenAccount := poolToken, stake := val1
      stakeAuthority := auth1, sourceTokenAccount := source, sourceTokenAccountAuthority := holderOwner, mint := mint
      vaultPda := vaultAuth, vault := vault, vaultHolderRewards := holder, tokenProgram := tokenId
      rewardsProgram := rewardsId } 2000
/-- Moving 100 tokens between the staker's accounts, built by the client. -/
def move100 : Call :=
  .solStakerMoveTokens
    { config := cfg, vaultHolderRewards := holder, solStakerAuthority := staker, sourceSolStakerStake := sol1
      destinationSolStakerStake := sol2 } 100
/-- Harvesting the first SOL staker's rewards with a keeper, built by the client. -/
def harvestSol1 : Call :=
  .harvestSolStakerRewards
    { solStakeViewProgram := viewId, config := cfg, vaultHolderRewards := holder, solStakerStake := sol1
      solStakerStakeAuthority := staker, solStakerNativeStake := native1, previousValidatorStake := val1
      previousValidatorStakeAuthority := auth1, currentValidatorStake := val2, currentValidatorStakeAuthority := auth2
      sysvarStakeHistory := .raw 9, keeperRecipient := some keeper }

theorem stakeVal1_typed : stakeVal1.Typed := show 2000 < 2 ^ 64 by decide
theorem move100_typed : move100.Typed := show 100 < 2 ^ 64 by decide
theorem harvestSol1_typed : harvestSol1.Typed := show some keeper ≠ some progId by decide

example : (stakeVal1.request.ix holderOwner).decoded = some (.validatorStakeTokens 2000) :=
  C64_client_decodes stakeVal1_typed
example : (harvestSol1.request.ix keeper).decoded = some .harvestSolStakerRewards := C64_client_decodes harvestSol1_typed

/-! ## Flags -/

/-- **C65.** Take an instruction of the client that succeeds when all its accounts sign and are writable. With only the flags
the client sets it succeeds too, with the same result, if and only if it leaves alone the accounts that are listed as unflagged
and not writable for another reason. Unflagged are the authority of ValidatorStakeTokens and of SolStakerMoveTokens and the
pool's token account of HarvestHolderRewards. -/
theorem C65_client_flags (R : Reachable env w) (L : o.Local) (hT : c.Typed)
    (h : exec env o w (c.request.ix payer).unrestricted = .ok w') :
    exec env o w (c.request.ix payer) = .ok w' ↔
      ∀ k ∈ c.unflagged, (c.request.ix payer).ctx.writable k = true ∨ w' k = w k :=
  client_flags (reachable_inv R).wf L hT h

/-- **C65.** For the other instructions the client's flags always suffice. -/
theorem C65_client_flags_suffice (R : Reachable env w) (L : o.Local) (hT : c.Typed) (hu : c.unflagged = [])
    (h : exec env o w (c.request.ix payer).unrestricted = .ok w') : exec env o w (c.request.ix payer) = .ok w' :=
  (C65_client_flags R L hT h).2 (by simp [hu])

/-- The staker's harvest of the witness history, built by the client and paid by a stranger. -/
example : ∃ w', exec Witness.env o2 w10 (harvestSol1.request.ix holderOwner) = .ok w' :=
  ⟨_, C65_client_flags_suffice r10 (oracle_local _ _ _) harvestSol1_typed rfl
    (ok_after (i := (harvestSol1.request.ix holderOwner).unrestricted) (by decide +kernel))⟩

/-- The first stake of the witness history: nothing is pending, so the read-only authority does no harm. -/
example : ∃ w', exec Witness.env o1 w5 (stakeVal1.request.ix holderOwner) = .ok w' :=
  ⟨_, (C65_client_flags r5 (oracle_local _ _ _) stakeVal1_typed
    (ok_after (i := (stakeVal1.request.ix holderOwner).unrestricted) (by decide +kernel))).2 (by decide +kernel)⟩

/-! ## Where they do not suffice -/

/-- **C66.** A ValidatorStakeTokens of the client fails whenever rewards are pending for the validator and the validator's
authority neither pays the fee nor occurs elsewhere in the call: the payout would change an account passed read-only. -/
theorem C66_client_stake_fails (L : o.Local) {a : StakeTokensAccts} {n : Nat}
    (hn : n < 2 ^ 64) (hp : 0 < accrued env w a.config a.stake) (hf : payer ≠ a.stakeAuthority)
    (ho : a.stakeAuthority ∉ [a.config, a.holderRewardsPool, a.holderRewardsPoolTokenAccount, a.stake, a.sourceTokenAccount,
      a.vaultPda, a.vault, a.vaultHolderRewards]) :
    ∀ w', exec env o w ((Call.validatorStakeTokens a n).request.ix payer) ≠ .ok w' := by
  intro w' h
  have hT : (Call.validatorStakeTokens a n).Typed := hn
  obtain ⟨hr, hs, _⟩ := (exec_client hT rfl rfl).1 h
  have hx := hs a.stakeAuthority (by simp [ix_accts, Call.metas, reads])
  have hw : ¬ ((Call.validatorStakeTokens a n).request.ix payer).ctx.writable a.stakeAuthority = true := by
    rw [ix_writable]
    rintro (e | e)
    · exact hf e.symm
    · exact ho (by simpa [Call.written, Call.metas, reads, writes, signs] using e)
  have hx := hx.resolve_left hw
  obtain ⟨c, s, hr', rs, rh, w1, w2, w3, c1, ts, td, _, _, S⟩ := validatorStakeTokens_ok hr
  simp only [List.mem_cons, List.not_mem_nil, or_false, not_or] at ho
  obtain ⟨g1, g2, g3, g4, g5, g6, g7, g8⟩ := ho
  have e := L.deposit S.deposit a.stakeAuthority (by simp [RewardsCall.accounts, StakeTokensAccts.call, *])
  rw [S.transfer.same g5 g7, S.adj.same g1 g4] at e
  have m := S.harv.moves (by simp) (by rw [← S.harv.auth_eq]; exact g1) a.stakeAuthority
  rw [S.harv.paid S.cO S.sO S.bel, ← e, hx, ← S.harv.auth_eq] at m
  simp only [keeperReward, if_neg g1, reduceCtorEq, if_false, if_true, Nat.sub_zero, Nat.add_zero] at m
  omega

/-- 12000 lamports are pending for the first validator. Everything else about the request is in order: with the authority
writable it goes through. -/
example : (∀ w', exec Witness.env o1 w9 (stakeVal1.request.ix holderOwner) ≠ .ok w') ∧
    ∃ w', exec Witness.env o1 w9 (stakeVal1.request.ix holderOwner).unrestricted = .ok w' :=
  ⟨C66_client_stake_fails (oracle_local _ _ _) (by decide) (by decide +kernel) (by decide +kernel) (by decide +kernel),
    _, ok_after (by decide +kernel)⟩

/-- **C66.** A SolStakerMoveTokens of the client fails whenever rewards are pending for one of the two accounts and the staker's
authority neither pays the fee nor occurs elsewhere in the call. -/
theorem C66_client_move_fails (R : Reachable env w) {a : SolStakerMoveTokensAccts} {n : Nat}
    (hn : n < 2 ^ 64)
    (hp : 0 < accrued env w a.config a.sourceSolStakerStake + accrued env w a.config a.destinationSolStakerStake)
    (hf : payer ≠ a.solStakerAuthority)
    (ho : a.solStakerAuthority ∉ [a.config, a.sourceSolStakerStake, a.destinationSolStakerStake]) :
    ∀ w', exec env o w ((Call.solStakerMoveTokens a n).request.ix payer) ≠ .ok w' := by
  intro w' h
  have hT : (Call.solStakerMoveTokens a n).Typed := hn
  obtain ⟨hr, hs, _⟩ := (exec_client hT rfl rfl).1 h
  have hx := hs a.solStakerAuthority (by simp [ix_accts, Call.metas, signs])
  have hw : ¬ ((Call.solStakerMoveTokens a n).request.ix payer).ctx.writable a.solStakerAuthority = true := by
    rw [ix_writable]
    rintro (e | e)
    · exact hf e.symm
    · exact ho (by simpa [Call.written, Call.metas, reads, writes, signs] using e)
  have hx := hx.resolve_left hw
  obtain ⟨c, c', s, t, hr', rs, rh, rs', rh', w1, w2, wx, cs, ct, ds, dt, ds', dt', M⟩ := solStakerMoveTokens_ok hr
  have hst := stakeAt_eq.2 ⟨M.sO, by rw [M.src]; rfl⟩
  simp only [List.mem_cons, List.not_mem_nil, or_false, not_or] at ho
  have hau : s.del.authority ≠ a.config := by rw [← M.harvS.auth_eq]; exact ho.1
  obtain ⟨c0, d, e, d', e', _, hd, _, _, _, _, _, _, _, _, _, hm⟩ :=
    C50_move R h (C64_client_decodes hT) (ck := a.config) (sk := a.sourceSolStakerStake)
      (tk := a.destinationSolStakerStake) rfl rfl rfl (by
        unfold authorityOf; rw [hst]
        intro e; exact hau (Option.some.inj e))
  have hdd : d = s.del := Option.some.inj (hd.symm.trans hst)
  have := hm a.solStakerAuthority
  rw [hx, hdd, ← M.harvS.auth_eq, if_neg ho.1, if_pos rfl] at this
  omega

/-- 3000 lamports are pending for the source. -/
example : (∀ w', exec Witness.env o2 w10 (move100.request.ix keeper) ≠ .ok w') ∧
    (∃ w', exec Witness.env o2 w10 (move100.request.ix keeper).unrestricted = .ok w') ∧
    ∃ w', exec Witness.env o2 w10 (move100.request.ix staker) = .ok w' :=
  ⟨C66_client_move_fails r10 (by decide) (by decide +kernel) (by decide +kernel) (by decide +kernel),
    ⟨_, ok_after (by decide +kernel)⟩, _, ok_after (by decide +kernel)⟩

/-! ## Accounts -/

/-- The client's view of a delegation of the program. -/
def viewDelegation (d : RawDelegation) : ClientDelegation :=
  { stakedAmount := d.staked, effectiveAmount := d.effective, unstakeCooldown := d.cooldown, authority := d.authority
    validatorVote := d.vote, lastSeenHolderRewardsPerToken := d.lastHolder, lastSeenStakeRewardsPerToken := d.lastStake }

/-- The client's view of a config of the program. -/
def viewConfig (r : RawConfig) : ClientConfig :=
  { discriminator := configDisc, authority := r.authority, slashAuthority := r.slashAuthority, vault := r.vault
    cooldownTimeSeconds := r.cooldownTime, tokenAmountEffective := r.effTotal, syncRewardsLamports := r.syncRewards
    lamportsLast := r.lamportsLast, dunaDocumentHash := r.dunaHash, accumulatedStakeRewardsPerToken := r.acc
    maxDeactivationBasisPoints := r.maxBps, vaultAuthorityBump := r.bump, padding := r.padding }

theorem readBytes_append {a b : List UInt8} {n : Nat} (h : a.length = n) : readBytes n (a ++ b) = some (a, b) := by
  subst h; simp [readBytes]

theorem readInt_append {m n : Nat} {b : List UInt8} (h : m < 256 ^ n) : readInt n (leBytes n m ++ b) = some (m, b) := by
  have e : (leBytes n m).length = n := leBytes_length _ _
  have t : (leBytes n m ++ b).take n = leBytes n m := by
    conv_lhs => rw [← e]
    simp
  have d : (leBytes n m ++ b).drop n = b := by
    conv_lhs => rw [← e]
    simp
  unfold readInt
  rw [if_pos (by simp), t, d, leNat_leBytes h]

theorem readDelegation_write {d : RawDelegation} {b : List UInt8} (h : FitsDelegation d) :
    readDelegation (d.write b) = some (viewDelegation d, b) := by
  simp only [readDelegation, RawDelegation.write, bind, Option.bind, readBytes_append h.authority, readBytes_append h.vote,
    readInt_append (n := 8) (m := d.staked) (by simpa using h.staked),
    readInt_append (n := 8) (m := d.effective) (by simpa using h.effective),
    readInt_append (n := 8) (m := d.cooldown) (by simpa using h.cooldown),
    readInt_append (n := 16) (m := d.lastHolder) (by simpa using h.lastHolder),
    readInt_append (n := 16) (m := d.lastStake) (by simpa using h.lastStake)]
  rfl

/-- **C67.** The client decodes every account the program accepts as a config, to the same values. -/
theorem C67_client_config {b : List UInt8} {r : RawConfig} (h : readConfig b = .ok r) :
    configFromBytes b = some (viewConfig r) := by
  obtain ⟨f, rfl⟩ := C32_config_write_read h
  simp only [configFromBytes, RawConfig.write, bind, Option.bind, readBytes_append (show configDisc.length = 8 from rfl),
    readBytes_append f.authority, readBytes_append f.slashAuthority, readBytes_append f.vault, readBytes_append f.dunaHash,
    readBytes_append f.padding,
    readInt_append (n := 8) (m := r.cooldownTime) (by simpa using f.cooldownTime),
    readInt_append (n := 8) (m := r.effTotal) (by simpa using f.effTotal),
    readInt_append (n := 8) (m := r.syncRewards) (by simpa using f.syncRewards),
    readInt_append (n := 8) (m := r.lamportsLast) (by simpa using f.lamportsLast),
    readInt_append (n := 16) (m := r.acc) (by simpa using f.acc),
    readInt_append (n := 2) (m := r.maxBps) (by simpa using f.maxBps),
    readInt_append (n := 1) (m := r.bump) (by simpa using f.bump)]
  rfl

/-- **C67.** The same for validator stake accounts. -/
theorem C67_client_validator {b : List UInt8} {r : RawValidator} (h : readValidator b = .ok r) :
    validatorStakeFromBytes b = some
      { discriminator := validatorDisc, delegation := viewDelegation r.del, totalStakedLamportsAmount := r.total
        totalStakedLamportsAmountMin := r.min } := by
  obtain ⟨⟨fd, ft, fm⟩, rfl⟩ := C32_validator_write_read h
  simp only [validatorStakeFromBytes, RawValidator.write, bind, Option.bind,
    readBytes_append (show validatorDisc.length = 8 from rfl), readDelegation_write fd,
    readInt_append (n := 8) (m := r.total) (by simpa using ft), readInt_append (n := 8) (m := r.min) (by simpa using fm)]
  rfl

/-- **C67.** The same for SOL staker stake accounts. -/
theorem C67_client_sol_staker {b : List UInt8} {r : RawSolStaker} (h : readSolStaker b = .ok r) :
    solStakerStakeFromBytes b = some
      { discriminator := solStakerDisc, delegation := viewDelegation r.del, lamportsAmount := r.lamports
        solStake := r.solStake } := by
  obtain ⟨⟨fd, fl, fs⟩, rfl⟩ := C32_sol_staker_write_read h
  simp only [solStakerStakeFromBytes, RawSolStaker.write, bind, Option.bind,
    readBytes_append (show solStakerDisc.length = 8 from rfl), readDelegation_write fd,
    readInt_append (n := 8) (m := r.lamports) (by simpa using fl), readBytes_append fs]
  rfl

theorem readInt_step {α : Type} {n t : Nat} {b : List UInt8} {f : Nat × List UInt8 → Option α} (m : Nat) (e : n + m = t)
    (h : ∀ v b', (f (v, b')).isSome = true ↔ m ≤ b'.length) : (readInt n b >>= f).isSome = true ↔ t ≤ b.length := by
  unfold readInt
  split_ifs with hl
  · simp only [bind, Option.bind_some, h, List.length_drop]; omega
  · simp; omega

theorem readBytes_step {α : Type} {n t : Nat} {b : List UInt8} {f : List UInt8 × List UInt8 → Option α} (m : Nat)
    (e : n + m = t) (h : ∀ v b', (f (v, b')).isSome = true ↔ m ≤ b'.length) :
    (readBytes n b >>= f).isSome = true ↔ t ≤ b.length := by
  unfold readBytes
  split_ifs with hl
  · simp only [bind, Option.bind_some, h, List.length_drop]; omega
  · simp; omega

theorem readDelegation_step {α : Type} {t : Nat} {b : List UInt8} {f : ClientDelegation × List UInt8 → Option α} (m : Nat)
    (e : 120 + m = t) (h : ∀ v b', (f (v, b')).isSome = true ↔ m ≤ b'.length) :
    (readDelegation b >>= f).isSome = true ↔ t ≤ b.length := by
  unfold readDelegation
  rw [show ∀ x : Option (ClientDelegation × List UInt8), (x >>= f) = x.bind f from fun _ => rfl]
  simp only [bind, Option.bind_assoc]
  refine readInt_step (m + 112) (by omega) fun _ b => ?_
  refine readInt_step (m + 104) (by omega) fun _ b => ?_
  refine readInt_step (m + 96) (by omega) fun _ b => ?_
  refine readBytes_step (m + 64) (by omega) fun _ b => ?_
  refine readBytes_step (m + 32) (by omega) fun _ b => ?_
  refine readInt_step (m + 16) (by omega) fun _ b => ?_
  refine readInt_step m (by omega) fun _ b => ?_
  exact h _ _

/-- **C67.** What the client decodes as a config is any string of at least 192 bytes: neither the discriminator nor the
length is checked. -/
theorem C67_client_accepts_config {b : List UInt8} : (configFromBytes b).isSome = true ↔ 192 ≤ b.length := by
  unfold configFromBytes
  refine readBytes_step 184 rfl fun _ b => ?_
  refine readBytes_step 152 rfl fun _ b => ?_
  refine readBytes_step 120 rfl fun _ b => ?_
  refine readBytes_step 88 rfl fun _ b => ?_
  refine readInt_step 80 rfl fun _ b => ?_
  refine readInt_step 72 rfl fun _ b => ?_
  refine readInt_step 64 rfl fun _ b => ?_
  refine readInt_step 56 rfl fun _ b => ?_
  refine readBytes_step 24 rfl fun _ b => ?_
  refine readInt_step 8 rfl fun _ b => ?_
  refine readInt_step 6 rfl fun _ b => ?_
  refine readInt_step 5 rfl fun _ b => ?_
  refine readBytes_step 0 rfl fun _ b => ?_
  simp

/-- **C67.** The client does not tell the account types apart: it decodes any 144 bytes and more as a validator stake, so every
config and every SOL staker stake too, which the program rejects. A caller has to compare the discriminator. -/
theorem C67_client_accepts_validator {b : List UInt8} : (validatorStakeFromBytes b).isSome = true ↔ 144 ≤ b.length := by
  unfold validatorStakeFromBytes
  refine readBytes_step 136 rfl fun _ b => ?_
  refine readDelegation_step 16 rfl fun _ b => ?_
  refine readInt_step 8 rfl fun _ b => ?_
  refine readInt_step 0 rfl fun _ b => ?_
  simp

/-- **C67.** The same for SOL staker stakes: any 168 bytes and more. -/
theorem C67_client_accepts_sol_staker {b : List UInt8} : (solStakerStakeFromBytes b).isSome = true ↔ 168 ≤ b.length := by
  unfold solStakerStakeFromBytes
  refine readBytes_step 160 rfl fun _ b => ?_
  refine readDelegation_step 40 rfl fun _ b => ?_
  refine readInt_step 32 rfl fun _ b => ?_
  refine readBytes_step 0 rfl fun _ b => ?_
  simp

/-- A validator stake with extreme values: what the program wrote is what the client shows. -/
example : validatorStakeFromBytes (RawValidator.write { del := bigDelegation, total := 2 ^ 64 - 1, min := 3 }) = some
    { discriminator := validatorDisc, delegation := viewDelegation bigDelegation
      totalStakedLamportsAmount := 2 ^ 64 - 1, totalStakedLamportsAmountMin := 3 } :=
  C67_client_validator (C32_validator_read_write _ ⟨bigDelegation_fits, by decide, by decide⟩)
/-- A config decodes as a validator stake in the client, not in the program. -/
example {r : RawConfig} (f : FitsConfig r) : (validatorStakeFromBytes r.write).isSome = true ∧
    readValidator r.write = .error .invalidAccountData := by
  have hl : r.write.length = 192 := by
    simp [RawConfig.write, configDisc, f.authority, f.slashAuthority, f.vault, f.dunaHash, f.padding]
  exact ⟨C67_client_accepts_validator.2 (by omega), by simp [readValidator, hl]⟩

end Verif.Props
