import Verif.SpecClient
import Verif.Lemmas.Footprint
import Verif.Props.Codec
/-!
# The client's requests
-/

namespace Verif.Client

open Verif Verif.Props

variable {env : Env} {o : Oracle} {w w' : World} {c : Call} {payer : Key}

theorem ofNat_toNat (n : Nat) (h : n < 256) : (UInt8.ofNat (n % 256)).toNat = n := by
  simp; omega

theorem call_pack (c : Call) : c.data = c.meaning.pack := by
  cases c with
  | setAuthority a t => cases t <;> rfl
  | updateConfig a f => cases f <;> rfl
  | initializeConfig a x =>
    simp [Call.data, Call.meaning, StakeInstruction.pack, borshU8, borshU16, borshU64, leBytes]
  | _ => rfl

theorem call_inRange (h : c.Typed) : InRange c.meaning := by
  cases c with
  | setAuthority a t => trivial
  | updateConfig a f => cases f <;> exact h
  | _ => first | exact h | trivial

theorem call_unpack (h : c.Typed) : StakeInstruction.unpack c.data = .ok c.meaning := by
  rw [call_pack]; exact C30_unpack_pack _ (call_inRange h)

theorem call_dispatch (h : c.Typed) {ctx : Ctx} (hc : ctx.accts = c.metas.map (·.key)) :
    dispatch env o ctx w c.meaning = c.run env o ctx w := by
  unfold dispatch
  rw [hc]
  cases c with
  | harvestSolStakerRewards a =>
    obtain ⟨a0, a1, a2, a3, a4, a5, a6, a7, a8, a9, a10, keeper⟩ := a
    cases keeper with
    | none => rfl
    | some k =>
      have : k ≠ progId := by simpa [Call.Typed] using h
      simp only [Call.meaning, Call.metas, Call.run, List.map_cons, List.map_nil, reads, writes, if_neg this]
  | _ => rfl

/-! ## The flags a handler looks at -/

section
variable {c1 c2 : Ctx}

theorem tokenTransfer_ctx {s d m a : Key} {sg : Bool} {n dec : Nat} (h1 : c1.writable s = c2.writable s)
    (h2 : c1.writable d = c2.writable d) : tokenTransfer c1 w s m d a sg n dec = tokenTransfer c2 w s m d a sg n dec := by
  simp only [tokenTransfer, h1, h2]

theorem tokenBurn_ctx {s m a : Key} {n dec : Nat} (h1 : c1.writable s = c2.writable s)
    (h2 : c1.writable m = c2.writable m) : tokenBurn c1 w s m a n dec = tokenBurn c2 w s m a n dec := by
  simp only [tokenBurn, h1, h2]

theorem systemAllocate_ctx {k : Key} {n : Nat} (h : c1.writable k = c2.writable k) :
    systemAllocate c1 w k n = systemAllocate c2 w k n := by
  simp only [systemAllocate, h]

theorem systemAssign_ctx {k : Key} (h : c1.writable k = c2.writable k) : systemAssign c1 w k = systemAssign c2 w k := by
  simp only [systemAssign, h]

theorem slashDelegation_ctx {u : World} {k s m v a t : Key} {n : Nat} (h1 : c1.writable v = c2.writable v)
    (h2 : c1.writable m = c2.writable m) : slashDelegation c1 u w k s m v a t n = slashDelegation c2 u w k s m v a t n := by
  have : ∀ w n dec, tokenBurn c1 w v m a n dec = tokenBurn c2 w v m a n dec := fun _ _ _ => tokenBurn_ctx h1 h2
  simp only [slashDelegation, this]

/-- Accounts whose writable flag the handler of a call (through the token and system programs) looks at. -/
def Call.checkedWritable : Call → List Key
  | .initializeConfig a _ => [a.vaultPda]
  | .initializeValidatorStake a => [a.validatorStake]
  | .initializeSolStakerStake a => [a.solStakerStake]
  | .validatorStakeTokens a _ | .solStakerStakeTokens a _ => [a.sourceTokenAccount, a.vault]
  | .unstakeTokens a _ => [a.vault, a.destinationTokenAccount]
  | .slashValidatorStake a _ | .slashSolStakerStake a _ => [a.vault, a.mint]
  | _ => []

theorem run_ctx (hs : ∀ k ∈ c.signers, c1.signer k = c2.signer k)
    (hw : ∀ k ∈ c.checkedWritable, c1.writable k = c2.writable k) : c.run env o c1 w = c.run env o c2 w := by
  cases c with
  | initializeConfig a x =>
    have h : ∀ w, systemAssign c1 w a.vaultPda = systemAssign c2 w a.vaultPda :=
      fun _ => systemAssign_ctx (hw _ (by simp [Call.checkedWritable]))
    simp only [Call.run, Verif.initializeConfig, h]
  | initializeValidatorStake a =>
    have h1 : ∀ w, systemAssign c1 w a.validatorStake = systemAssign c2 w a.validatorStake :=
      fun _ => systemAssign_ctx (hw _ (by simp [Call.checkedWritable]))
    have h2 : ∀ w n, systemAllocate c1 w a.validatorStake n = systemAllocate c2 w a.validatorStake n :=
      fun _ _ => systemAllocate_ctx (hw _ (by simp [Call.checkedWritable]))
    simp only [Call.run, Verif.initializeValidatorStake, h1, h2]
  | initializeSolStakerStake a =>
    have h1 : ∀ w, systemAssign c1 w a.solStakerStake = systemAssign c2 w a.solStakerStake :=
      fun _ => systemAssign_ctx (hw _ (by simp [Call.checkedWritable]))
    have h2 : ∀ w n, systemAllocate c1 w a.solStakerStake n = systemAllocate c2 w a.solStakerStake n :=
      fun _ _ => systemAllocate_ctx (hw _ (by simp [Call.checkedWritable]))
    simp only [Call.run, Verif.initializeSolStakerStake, h1, h2]
  | validatorStakeTokens a n =>
    have h1 : ∀ w sg dec, tokenTransfer c1 w a.sourceTokenAccount a.mint a.vault a.sourceTokenAccountAuthority sg n dec =
        tokenTransfer c2 w a.sourceTokenAccount a.mint a.vault a.sourceTokenAccountAuthority sg n dec :=
      fun _ _ _ => tokenTransfer_ctx (hw _ (by simp [Call.checkedWritable])) (hw _ (by simp [Call.checkedWritable]))
    have h2 := hs a.sourceTokenAccountAuthority (by simp [Call.signers])
    simp only [Call.run, Verif.validatorStakeTokens, h1, h2]
  | solStakerStakeTokens a n =>
    have h1 : ∀ w sg dec, tokenTransfer c1 w a.sourceTokenAccount a.mint a.vault a.sourceTokenAccountAuthority sg n dec =
        tokenTransfer c2 w a.sourceTokenAccount a.mint a.vault a.sourceTokenAccountAuthority sg n dec :=
      fun _ _ _ => tokenTransfer_ctx (hw _ (by simp [Call.checkedWritable])) (hw _ (by simp [Call.checkedWritable]))
    have h2 := hs a.sourceTokenAccountAuthority (by simp [Call.signers])
    simp only [Call.run, Verif.solStakerStakeTokens, h1, h2]
  | unstakeTokens a n =>
    have h1 : ∀ w sg dec, tokenTransfer c1 w a.vault a.mint a.destinationTokenAccount a.vaultPda sg n dec =
        tokenTransfer c2 w a.vault a.mint a.destinationTokenAccount a.vaultPda sg n dec :=
      fun _ _ _ => tokenTransfer_ctx (hw _ (by simp [Call.checkedWritable])) (hw _ (by simp [Call.checkedWritable]))
    have h2 := hs a.stakeAuthority (by simp [Call.signers])
    simp only [Call.run, Verif.unstakeTokens, h1, h2]
  | slashValidatorStake a n =>
    have h1 : ∀ u w n, slashDelegation c1 u w a.config a.stake a.mint a.vault a.vaultAuthority a.tokenProgram n =
        slashDelegation c2 u w a.config a.stake a.mint a.vault a.vaultAuthority a.tokenProgram n :=
      fun _ _ _ => slashDelegation_ctx (hw _ (by simp [Call.checkedWritable])) (hw _ (by simp [Call.checkedWritable]))
    have h2 := hs a.slashAuthority (by simp [Call.signers])
    simp only [Call.run, Verif.slashValidatorStake, h1, h2]
  | slashSolStakerStake a n =>
    have h1 : ∀ u w n, slashDelegation c1 u w a.config a.stake a.mint a.vault a.vaultAuthority a.tokenProgram n =
        slashDelegation c2 u w a.config a.stake a.mint a.vault a.vaultAuthority a.tokenProgram n :=
      fun _ _ _ => slashDelegation_ctx (hw _ (by simp [Call.checkedWritable])) (hw _ (by simp [Call.checkedWritable]))
    have h2 := hs a.slashAuthority (by simp [Call.signers])
    simp only [Call.run, Verif.slashSolStakerStake, h1, h2]
  | setAuthority a t =>
    have h2 := hs a.authority (by simp [Call.signers])
    simp only [Call.run, Verif.setAuthority, h2]
  | updateConfig a f =>
    have h2 := hs a.configAuthority (by simp [Call.signers])
    simp only [Call.run, Verif.updateConfig, h2]
  | solStakerMoveTokens a n =>
    have h2 := hs a.solStakerAuthority (by simp [Call.signers])
    simp only [Call.run, Verif.solStakerMoveTokens, h2]
  | validatorOverrideStakedLamports a n =>
    have h2 := hs a.configAuthority (by simp [Call.signers])
    simp only [Call.run, Verif.validatorOverrideStakedLamports, h2]
  | _ => rfl

end

/-! ## The flags a request carries -/

theorem ix_accts : (c.request.ix payer).ctx.accts = c.metas.map (·.key) := rfl

theorem ix_signer {k : Key} : (c.request.ix payer).ctx.signer k = true ↔ k = payer ∨ k ∈ c.signers := by
  cases c with
  | harvestSolStakerRewards a =>
    obtain ⟨a0, a1, a2, a3, a4, a5, a6, a7, a8, a9, a10, keeper⟩ := a
    cases keeper <;> simp [Request.ix, Call.request, Call.metas, Call.signers, reads, writes]
  | _ => simp [Request.ix, Call.request, Call.metas, Call.signers, reads, writes, signs, signsWrites, @eq_comm Key k]

/-- The accounts a call passes as writable. -/
def Call.written (c : Call) : List Key := (c.metas.filter (·.writable)).map (·.key)

theorem ix_writable {k : Key} : (c.request.ix payer).ctx.writable k = true ↔ k = payer ∨ k ∈ c.written := by
  simp [Request.ix, Call.request, Call.written, and_comm, and_left_comm, and_assoc]

theorem checked_written {k : Key} (h : k ∈ c.checkedWritable) : k ∈ c.written := by
  cases c <;> simp only [Call.checkedWritable, List.mem_cons, List.not_mem_nil, or_false] at h <;>
    (try rcases h with rfl | rfl) <;> simp [Call.written, Call.metas, reads, writes, signs, signsWrites]

/-- Every position of the footprint is passed as writable or listed as unflagged. -/
theorem footprint_flagged {p : Nat} {k : Key} (h : p ∈ footprint c.meaning) (hk : (c.request.ix payer).acct p = some k) :
    k ∈ c.written ∨ k ∈ c.unflagged ∨ (∃ a, c = .harvestSolStakerRewards a ∧ a.keeperRecipient = none ∧ k = progId) := by
  cases c with
  | harvestSolStakerRewards a =>
    obtain ⟨a0, a1, a2, a3, a4, a5, a6, a7, a8, a9, a10, keeper⟩ := a
    cases keeper <;>
    simp only [Call.meaning, footprint, List.mem_cons, List.not_mem_nil, or_false] at h <;>
    rcases h with rfl | rfl | rfl | rfl | rfl | rfl | rfl | rfl <;>
    simp [Ix.acct, Request.ix, Call.request, Call.metas, reads, writes] at hk <;> subst hk <;>
    simp [Call.written, Call.metas, reads, writes]
  | _ =>
    simp only [Call.meaning, footprint, List.mem_cons, List.not_mem_nil, or_false] at h
    rcases h with rfl | rfl | rfl | rfl | rfl | rfl | rfl | rfl | rfl <;>
    simp [Ix.acct, Request.ix, Call.request, Call.metas, reads, writes, signs, signsWrites] at hk <;> subst hk <;>
    simp [Call.written, Call.unflagged, Call.metas, reads, writes, signs, signsWrites]

theorem exec_client (hT : c.Typed) {ix : Ix} (hd : ix.data = c.data) (ha : ix.ctx.accts = c.metas.map (·.key)) :
    exec env o w ix = .ok w' ↔ c.run env o ix.ctx w = .ok w' ∧
      (∀ k ∈ ix.ctx.accts, ix.ctx.writable k = true ∨ w' k = w k) ∧
      lamportSum w' ix.ctx.accts = lamportSum w ix.ctx.accts := by
  simp only [exec, processInstruction, bind_ok, require_ok, exists_unit, pure_ok, hd, call_unpack hT]
  constructor
  · rintro ⟨_, ⟨i, hi, h⟩, h1, h2, rfl⟩
    cases hi
    rw [call_dispatch hT ha] at h
    exact ⟨h, h1, h2⟩
  · rintro ⟨h, h1, h2⟩
    exact ⟨w', ⟨_, rfl, by rw [call_dispatch hT ha]; exact h⟩, h1, h2, rfl⟩

/-- With the flags of the client an instruction does the same as with all flags set, as long as it leaves the unflagged
accounts alone. -/
theorem client_flags (W : w.WF) (L : o.Local) (hT : c.Typed)
    (h : exec env o w (c.request.ix payer).unrestricted = .ok w') :
    exec env o w (c.request.ix payer) = .ok w' ↔
      ∀ k ∈ c.unflagged, (c.request.ix payer).ctx.writable k = true ∨ w' k = w k := by
  have h0 := (exec_client hT (ix := (c.request.ix payer).unrestricted) rfl rfl).1 h
  have hr : c.run env o (c.request.ix payer).ctx w = .ok w' := by
    rw [← h0.1]
    refine run_ctx (fun k hk => ?_) fun k hk => ?_
    · rw [ix_signer.2 (Or.inr hk)]; rfl
    · rw [ix_writable.2 (Or.inr (checked_written hk))]; rfl
  have hu : ∀ k ∈ c.unflagged, k ∈ c.metas.map (·.key) := by
    intro k hk
    cases c <;> simp only [Call.unflagged, List.mem_cons, List.not_mem_nil, or_false] at hk <;> subst hk <;>
      simp [Call.metas, reads, writes, signs]
  constructor
  · intro h' k hk
    exact ((exec_client hT rfl rfl).1 h').2.1 k (hu k hk)
  · intro hx
    refine (exec_client hT rfl rfl).2 ⟨hr, fun k _ => ?_, h0.2.2⟩
    by_cases hw : k ∈ c.written
    · exact Or.inl (ix_writable.2 (Or.inr hw))
    · by_cases hk : k ∈ c.unflagged
      · exact hx k hk
      · right
        by_cases hn : ∃ a, c = .harvestSolStakerRewards a ∧ a.keeperRecipient = none
        · obtain ⟨a, rfl, hn⟩ := hn
          refine harvestSolStakerRewards_same W hr ?_ (by rw [hn]; simp)
          intro hm; apply hw
          simp only [List.mem_cons, List.not_mem_nil, or_false] at hm
          rcases hm with rfl | rfl | rfl | rfl | rfl | rfl | rfl <;> simp [Call.written, Call.metas, reads, writes]
        · refine exec_same W L h (i := c.meaning) (decoded_eq.2 (call_unpack hT)) fun p hp e => ?_
          rcases footprint_flagged (payer := payer) hp e with g | g | ⟨a, g1, g2, _⟩
          · exact hw g
          · exact hk g
          · exact hn ⟨a, g1, g2⟩

end Verif.Client
