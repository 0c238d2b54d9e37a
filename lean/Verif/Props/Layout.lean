import Verif.Model.Layout
import Verif.Model.Shared
import Verif.Lemmas.Codec
import Mathlib.Tactic.SplitIfs
/-!
# Account layouts

C32.
-/

namespace Verif.Props

open Verif Verif.Layout

/-! ## Values that fit -/

/-- 64-bit and 128-bit numbers, 32-byte keys. -/
structure FitsDelegation (d : RawDelegation) : Prop where
  staked : d.staked < 2 ^ 64
  effective : d.effective < 2 ^ 64
  cooldown : d.cooldown < 2 ^ 64
  authority : d.authority.length = 32
  vote : d.vote.length = 32
  lastHolder : d.lastHolder < 2 ^ 128
  lastStake : d.lastStake < 2 ^ 128

/-- Numbers of the declared widths, 32-byte keys and hash, five bytes of padding. -/
structure FitsConfig (r : RawConfig) : Prop where
  authority : r.authority.length = 32
  slashAuthority : r.slashAuthority.length = 32
  vault : r.vault.length = 32
  cooldownTime : r.cooldownTime < 2 ^ 64
  effTotal : r.effTotal < 2 ^ 64
  syncRewards : r.syncRewards < 2 ^ 64
  lamportsLast : r.lamportsLast < 2 ^ 64
  dunaHash : r.dunaHash.length = 32
  acc : r.acc < 2 ^ 128
  maxBps : r.maxBps < 2 ^ 16
  bump : r.bump < 2 ^ 8
  padding : r.padding.length = 5

def FitsValidator (r : RawValidator) : Prop := FitsDelegation r.del ∧ r.total < 2 ^ 64 ∧ r.min < 2 ^ 64
def FitsSolStaker (r : RawSolStaker) : Prop := FitsDelegation r.del ∧ r.lamports < 2 ^ 64 ∧ r.solStake.length = 32

/-! ## Fields -/

theorem chunks_cons {n : Nat} {ns : List Nat} {a b : List UInt8} (h : a.length = n) :
    chunks (n :: ns) (a ++ b) = a :: chunks ns b := by
  subst h; simp [chunks]

theorem chunks_flatten {ns : List Nat} {b : List UInt8} (h : b.length = ns.sum) : (chunks ns b).flatten = b := by
  induction ns generalizing b with
  | nil => simp at h; simp [chunks, h]
  | cons n ns ih =>
    simp only [List.sum_cons] at h
    simp only [chunks, List.flatten_cons]
    rw [ih (by simp; omega)]; simp

theorem chunks_lengths {ns : List Nat} {b : List UInt8} (h : b.length = ns.sum) : (chunks ns b).map List.length = ns := by
  induction ns generalizing b with
  | nil => rfl
  | cons n ns ih =>
    simp only [List.sum_cons] at h
    simp only [chunks, List.map_cons]
    rw [ih (by simp; omega)]; simp; omega

theorem le_inv {len n : Nat} {m : Nat} (hm : 256 ^ len = m) (h : n < m) : leNat (leBytes len n) = n :=
  leNat_leBytes (by omega)

theorem leNat_lt' {b : List UInt8} {len m : Nat} (hm : 256 ^ len = m) (h : b.length = len) : leNat b < m := by
  rw [← hm, ← h]; exact leNat_lt_pow b

/-! ## Config -/

/-- **C32.** Reading a written config gives the same config. -/
theorem C32_config_read_write (r : RawConfig) (h : FitsConfig r) : readConfig r.write = .ok r := by
  have hl : r.write.length = configLen := by
    simp [RawConfig.write, configDisc, h.authority, h.slashAuthority, h.vault, h.dunaHash, h.padding]
  unfold readConfig
  rw [if_pos hl]
  simp only [configSizes, RawConfig.write]
  rw [chunks_cons (show configDisc.length = 8 from rfl), chunks_cons h.authority, chunks_cons h.slashAuthority, chunks_cons h.vault,
    chunks_cons (leBytes_length _ _), chunks_cons (leBytes_length _ _), chunks_cons (leBytes_length _ _),
    chunks_cons (leBytes_length _ _), chunks_cons h.dunaHash, chunks_cons (leBytes_length _ _),
    chunks_cons (leBytes_length _ _), chunks_cons (leBytes_length _ _), chunks_cons h.padding]
  simp only [chunks, if_true]
  rw [le_inv rfl h.cooldownTime, le_inv rfl h.effTotal, le_inv rfl h.syncRewards, le_inv rfl h.lamportsLast,
    le_inv rfl h.acc, le_inv rfl h.maxBps, le_inv rfl h.bump]

/-- **C32.** Bytes read as a config are the bytes of that config. -/
theorem C32_config_write_read {b : List UInt8} {r : RawConfig} (h : readConfig b = .ok r) :
    FitsConfig r ∧ r.write = b := by
  unfold readConfig at h
  split_ifs at h with hl
  · have hf := chunks_flatten (ns := configSizes) (b := b) (by rw [hl]; rfl)
    have hn := chunks_lengths (ns := configSizes) (b := b) (by rw [hl]; rfl)
    split at h
    · rename_i d a s v ct et sr ll dh ac mb bu pa hc
      split_ifs at h with hd
      rw [hc] at hf hn
      simp only [List.map_cons, List.map_nil, configSizes, List.cons.injEq, and_true] at hn
      obtain ⟨h0, h1, h2, h3, h4, h5, h6, h7, h8, h9, h10, h11, h12⟩ := hn
      obtain rfl := (Except.ok.inj h).symm
      refine ⟨⟨h1, h2, h3, leNat_lt' rfl h4, leNat_lt' rfl h5, leNat_lt' rfl h6, leNat_lt' rfl h7, h8, leNat_lt' rfl h9,
        leNat_lt' rfl h10, leNat_lt' rfl h11, h12⟩, ?_⟩
      simp only [RawConfig.write]
      rw [leBytes_leNat' h4, leBytes_leNat' h5, leBytes_leNat' h6, leBytes_leNat' h7, leBytes_leNat' h9,
        leBytes_leNat' h10, leBytes_leNat' h11, ← hd]
      exact hf
    · simp at h

/-! ## Stake accounts -/

/-- **C32.** Reading a written validator stake gives the same validator stake. -/
theorem C32_validator_read_write (r : RawValidator) (h : FitsValidator r) : readValidator r.write = .ok r := by
  obtain ⟨hd, ht, hm⟩ := h
  have hl : r.write.length = validatorLen := by
    simp [RawValidator.write, RawDelegation.write, validatorDisc, hd.authority, hd.vote]
  unfold readValidator
  rw [if_pos hl]
  simp only [validatorSizes, RawValidator.write, RawDelegation.write]
  rw [chunks_cons (show validatorDisc.length = 8 from rfl), chunks_cons (leBytes_length _ _), chunks_cons (leBytes_length _ _),
    chunks_cons (leBytes_length _ _), chunks_cons hd.authority, chunks_cons hd.vote, chunks_cons (leBytes_length _ _),
    chunks_cons (leBytes_length _ _), chunks_cons (leBytes_length _ _), chunks_cons (leBytes_length _ _)]
  simp only [chunks, if_true]
  rw [le_inv rfl hd.staked, le_inv rfl hd.effective, le_inv rfl hd.cooldown, le_inv rfl hd.lastHolder,
    le_inv rfl hd.lastStake, le_inv rfl ht, le_inv rfl hm]

/-- **C32.** Bytes read as a validator stake are the bytes of that validator stake. -/
theorem C32_validator_write_read {b : List UInt8} {r : RawValidator} (h : readValidator b = .ok r) :
    FitsValidator r ∧ r.write = b := by
  unfold readValidator at h
  split_ifs at h with hl
  · have hf := chunks_flatten (ns := validatorSizes) (b := b) (by rw [hl]; rfl)
    have hn := chunks_lengths (ns := validatorSizes) (b := b) (by rw [hl]; rfl)
    split at h
    · rename_i d st ef co au vo lh ls to mi hc
      split_ifs at h with hd
      rw [hc] at hf hn
      simp only [List.map_cons, List.map_nil, validatorSizes, List.cons.injEq, and_true] at hn
      obtain ⟨h0, h1, h2, h3, h4, h5, h6, h7, h8, h9⟩ := hn
      obtain rfl := (Except.ok.inj h).symm
      refine ⟨⟨⟨leNat_lt' rfl h1, leNat_lt' rfl h2, leNat_lt' rfl h3, h4, h5, leNat_lt' rfl h6, leNat_lt' rfl h7⟩,
        leNat_lt' rfl h8, leNat_lt' rfl h9⟩, ?_⟩
      simp only [RawValidator.write, RawDelegation.write]
      rw [leBytes_leNat' h1, leBytes_leNat' h2, leBytes_leNat' h3, leBytes_leNat' h6, leBytes_leNat' h7,
        leBytes_leNat' h8, leBytes_leNat' h9, ← hd]
      exact hf
    · simp at h

/-- **C32.** Reading a written SOL staker stake gives the same SOL staker stake. -/
theorem C32_sol_staker_read_write (r : RawSolStaker) (h : FitsSolStaker r) : readSolStaker r.write = .ok r := by
  obtain ⟨hd, ht, hm⟩ := h
  have hl : r.write.length = solStakerLen := by
    simp [RawSolStaker.write, RawDelegation.write, solStakerDisc, hd.authority, hd.vote, hm]
  unfold readSolStaker
  rw [if_pos hl]
  simp only [solStakerSizes, RawSolStaker.write, RawDelegation.write]
  rw [chunks_cons (show solStakerDisc.length = 8 from rfl), chunks_cons (leBytes_length _ _), chunks_cons (leBytes_length _ _),
    chunks_cons (leBytes_length _ _), chunks_cons hd.authority, chunks_cons hd.vote, chunks_cons (leBytes_length _ _),
    chunks_cons (leBytes_length _ _), chunks_cons (leBytes_length _ _), chunks_cons hm]
  simp only [chunks, if_true]
  rw [le_inv rfl hd.staked, le_inv rfl hd.effective, le_inv rfl hd.cooldown, le_inv rfl hd.lastHolder,
    le_inv rfl hd.lastStake, le_inv rfl ht]

/-- **C32.** Bytes read as a SOL staker stake are the bytes of that SOL staker stake. -/
theorem C32_sol_staker_write_read {b : List UInt8} {r : RawSolStaker} (h : readSolStaker b = .ok r) :
    FitsSolStaker r ∧ r.write = b := by
  unfold readSolStaker at h
  split_ifs at h with hl
  · have hf := chunks_flatten (ns := solStakerSizes) (b := b) (by rw [hl]; rfl)
    have hn := chunks_lengths (ns := solStakerSizes) (b := b) (by rw [hl]; rfl)
    split at h
    · rename_i d st ef co au vo lh ls la so hc
      split_ifs at h with hd
      rw [hc] at hf hn
      simp only [List.map_cons, List.map_nil, solStakerSizes, List.cons.injEq, and_true] at hn
      obtain ⟨h0, h1, h2, h3, h4, h5, h6, h7, h8, h9⟩ := hn
      obtain rfl := (Except.ok.inj h).symm
      refine ⟨⟨⟨leNat_lt' rfl h1, leNat_lt' rfl h2, leNat_lt' rfl h3, h4, h5, leNat_lt' rfl h6, leNat_lt' rfl h7⟩,
        leNat_lt' rfl h8, h9⟩, ?_⟩
      simp only [RawSolStaker.write, RawDelegation.write]
      rw [leBytes_leNat' h1, leBytes_leNat' h2, leBytes_leNat' h3, leBytes_leNat' h6, leBytes_leNat' h7,
        leBytes_leNat' h8, ← hd]
      exact hf
    · simp at h

/-! ## No confusion -/

theorem readConfig_head {b : List UInt8} {r : RawConfig} (h : readConfig b = .ok r) :
    b.length = 192 ∧ b.take 8 = configDisc := by
  obtain ⟨_, rfl⟩ := C32_config_write_read h
  refine ⟨?_, by simp [RawConfig.write, configDisc]⟩
  unfold readConfig at h; split_ifs at h with hl; exact hl

theorem readValidator_head {b : List UInt8} {r : RawValidator} (h : readValidator b = .ok r) :
    b.length = 144 ∧ b.take 8 = validatorDisc := by
  obtain ⟨_, rfl⟩ := C32_validator_write_read h
  refine ⟨?_, by simp [RawValidator.write, validatorDisc]⟩
  unfold readValidator at h; split_ifs at h with hl; exact hl

theorem readSolStaker_head {b : List UInt8} {r : RawSolStaker} (h : readSolStaker b = .ok r) :
    b.length = 168 ∧ b.take 8 = solStakerDisc := by
  obtain ⟨_, rfl⟩ := C32_sol_staker_write_read h
  refine ⟨?_, by simp [RawSolStaker.write, solStakerDisc]⟩
  unfold readSolStaker at h; split_ifs at h with hl; exact hl

/-- **C32.** No byte string is accepted as two account types. Already the first eight bytes decide the type. -/
theorem C32_no_confusion (b b' : List UInt8) (he : b.take 8 = b'.take 8) :
    (∀ r s, readConfig b = .ok r → readValidator b' ≠ .ok s) ∧
    (∀ r s, readConfig b = .ok r → readSolStaker b' ≠ .ok s) ∧
    (∀ r s, readValidator b = .ok r → readSolStaker b' ≠ .ok s) := by
  refine ⟨fun r s h h' => ?_, fun r s h h' => ?_, fun r s h h' => ?_⟩
  · rw [(readConfig_head h).2, (readValidator_head h').2] at he; revert he; decide
  · rw [(readConfig_head h).2, (readSolStaker_head h').2] at he; revert he; decide
  · rw [(readValidator_head h).2, (readSolStaker_head h').2] at he; revert he; decide

/-- **C32.** Data that starts with eight zero bytes, in particular all-zero data, and data shorter than eight bytes are
accepted as no account type. -/
theorem C32_uninitialised_rejected (b : List UInt8) (h : b.take 8 = List.replicate 8 0 ∨ b.length < 8) :
    (∀ r, readConfig b ≠ .ok r) ∧ (∀ r, readValidator b ≠ .ok r) ∧ ∀ r, readSolStaker b ≠ .ok r := by
  refine ⟨fun r hr => ?_, fun r hr => ?_, fun r hr => ?_⟩
  · obtain ⟨hl, ht⟩ := readConfig_head hr
    rcases h with h | h
    · rw [h] at ht; revert ht; decide
    · omega
  · obtain ⟨hl, ht⟩ := readValidator_head hr
    rcases h with h | h
    · rw [h] at ht; revert ht; decide
    · omega
  · obtain ⟨hl, ht⟩ := readSolStaker_head hr
    rcases h with h | h
    · rw [h] at ht; revert ht; decide
    · omega

/-! ## The structured data of the model stands for bytes -/

theorem readConfig_err {b : List UInt8} {e : Err} (h : readConfig b = .error e) :
    e = if b.length = configLen then .uninitializedAccount else .invalidAccountData := by
  unfold readConfig at h
  split_ifs at h with hl
  · rw [if_pos hl]
    split at h
    · split_ifs at h; exact (Except.error.inj h).symm
    · rename_i hn
      have := chunks_lengths (ns := configSizes) (b := b) (by rw [hl]; rfl)
      exfalso
      generalize hc : chunks configSizes b = l at this hn
      match l, this with
      | [_, _, _, _, _, _, _, _, _, _, _, _, _], _ => exact hn _ _ _ _ _ _ _ _ _ _ _ _ _ rfl
  · rw [if_neg hl]; exact (Except.error.inj h).symm

theorem readValidator_err {b : List UInt8} {e : Err} (h : readValidator b = .error e) :
    e = if b.length = validatorLen then .uninitializedAccount else .invalidAccountData := by
  unfold readValidator at h
  split_ifs at h with hl
  · rw [if_pos hl]
    split at h
    · split_ifs at h; exact (Except.error.inj h).symm
    · rename_i hn
      have := chunks_lengths (ns := validatorSizes) (b := b) (by rw [hl]; rfl)
      exfalso
      generalize hc : chunks validatorSizes b = l at this hn
      match l, this with
      | [_, _, _, _, _, _, _, _, _, _], _ => exact hn _ _ _ _ _ _ _ _ _ _ rfl
  · rw [if_neg hl]; exact (Except.error.inj h).symm

theorem readSolStaker_err {b : List UInt8} {e : Err} (h : readSolStaker b = .error e) :
    e = if b.length = solStakerLen then .uninitializedAccount else .invalidAccountData := by
  unfold readSolStaker at h
  split_ifs at h with hl
  · rw [if_pos hl]
    split at h
    · split_ifs at h; exact (Except.error.inj h).symm
    · rename_i hn
      have := chunks_lengths (ns := solStakerSizes) (b := b) (by rw [hl]; rfl)
      exfalso
      generalize hc : chunks solStakerSizes b = l at this hn
      match l, this with
      | [_, _, _, _, _, _, _, _, _, _], _ => exact hn _ _ _ _ _ _ _ _ _ _ rfl
  · rw [if_neg hl]; exact (Except.error.inj h).symm

theorem absData_len (key : List UInt8 → Key) (b : List UInt8) : (absData key b).len = b.length := by
  unfold absData
  split
  · rename_i h; exact (readConfig_head h).1.symm
  · split
    · rename_i h; exact (readValidator_head h).1.symm
    · split
      · rename_i h; exact (readSolStaker_head h).1.symm
      · rfl

/-- **C32.** The handlers' way of reading accounts in the model is exactly the byte-level one: same values, same
errors. -/
theorem C32_model_reads_bytes (key : List UInt8 → Key) (w : World) (k : Key) (b : List UInt8)
    (h : (w k).data = absData key b) :
    unpackConfig w k = (readConfig b).map (fun r =>
      { authority := key r.authority, slashAuthority := key r.slashAuthority, vault := key r.vault
        cooldownTime := r.cooldownTime, effTotal := r.effTotal, syncRewards := r.syncRewards
        lamportsLast := r.lamportsLast, dunaHash := r.dunaHash, acc := r.acc, maxBps := r.maxBps, bump := r.bump }) ∧
    unpackValidator w k = (readValidator b).map (fun r =>
      { del := { staked := r.del.staked, effective := r.del.effective, cooldown := r.del.cooldown
                 authority := key r.del.authority, vote := key r.del.vote, lastHolder := r.del.lastHolder
                 lastStake := r.del.lastStake }
        total := r.total, min := r.min }) ∧
    unpackSolStaker w k = (readSolStaker b).map (fun r =>
      { del := { staked := r.del.staked, effective := r.del.effective, cooldown := r.del.cooldown
                 authority := key r.del.authority, vote := key r.del.vote, lastHolder := r.del.lastHolder
                 lastStake := r.del.lastStake }
        lamports := r.lamports, solStake := key r.solStake }) := by
  have hlen := absData_len key b
  have e1 : ∀ e, readConfig b = .error e → ∀ c, absData key b ≠ .config c := by
    intro e he c hc; unfold absData at hc; rw [he] at hc
    dsimp only at hc
    repeat' split at hc
    all_goals simp at hc
  have e2 : ∀ e, readValidator b = .error e → ∀ c, absData key b ≠ .validator c := by
    intro e he c hc; unfold absData at hc; rw [he] at hc
    dsimp only at hc
    repeat' split at hc
    all_goals simp at hc
  have e3 : ∀ e, readSolStaker b = .error e → ∀ c, absData key b ≠ .solStaker c := by
    intro e he c hc; unfold absData at hc; rw [he] at hc
    dsimp only at hc
    repeat' split at hc
    all_goals simp at hc
  refine ⟨?_, ?_, ?_⟩
  · unfold unpackConfig; rw [h]
    cases hc : readConfig b with
    | ok r =>
      have : absData key b = .config (r.abs key) := by unfold absData; rw [hc]
      rw [this]; rfl
    | error e =>
      split
      · rename_i c hd; exact absurd hd (e1 e hc c)
      · rename_i d hd; rw [readConfig_err hc, hlen]; rfl
  · unfold unpackValidator; rw [h]
    cases hc : readValidator b with
    | ok r =>
      have : absData key b = .validator (r.abs key) := by
        unfold absData
        split
        · rename_i s hs; exact absurd hc ((C32_no_confusion b b rfl).1 s r hs)
        · rw [hc]
      rw [this]; rfl
    | error e =>
      split
      · rename_i c hd; exact absurd hd (e2 e hc c)
      · rename_i d hd; rw [readValidator_err hc, hlen]; rfl
  · unfold unpackSolStaker; rw [h]
    cases hc : readSolStaker b with
    | ok r =>
      have : absData key b = .solStaker (r.abs key) := by
        unfold absData
        split
        · rename_i s hs; exact absurd hc ((C32_no_confusion b b rfl).2.1 s r hs)
        · split
          · rename_i s hs; exact absurd hc ((C32_no_confusion b b rfl).2.2 s r hs)
          · rw [hc]
      rw [this]; rfl
    | error e =>
      split
      · rename_i c hd; exact absurd hd (e3 e hc c)
      · rename_i d hd; rw [readSolStaker_err hc, hlen]; rfl

/-! ## Examples -/

/-- A delegation with extreme values. -/
def bigDelegation : RawDelegation :=
  { staked := 2 ^ 64 - 1, effective := 7, cooldown := 2 ^ 63, authority := List.replicate 32 255
    vote := List.replicate 32 1, lastHolder := 2 ^ 128 - 1, lastStake := 0 }

theorem bigDelegation_fits : FitsDelegation bigDelegation := by
  constructor <;> simp [bigDelegation]

example : FitsValidator { del := bigDelegation, total := 2 ^ 64 - 1, min := 3 } :=
  ⟨bigDelegation_fits, by decide, by decide⟩
example : FitsSolStaker { del := bigDelegation, lamports := 5, solStake := List.replicate 32 8 } :=
  ⟨bigDelegation_fits, by decide, by decide⟩
example : FitsConfig
    { authority := List.replicate 32 1, slashAuthority := List.replicate 32 0, vault := List.replicate 32 3
      cooldownTime := 2 ^ 64 - 1, effTotal := 4, syncRewards := 5, lamportsLast := 6, dunaHash := List.replicate 32 7
      acc := 2 ^ 128 - 1, maxBps := 65535, bump := 255, padding := [0, 0, 0, 0, 0] } := by
  constructor <;> simp
set_option maxRecDepth 5000 in
/-- Fresh data of the right length is rejected as uninitialised, data of another length as invalid. -/
example : readConfig (List.replicate 192 0) = .error .uninitializedAccount ∧
    readConfig (List.replicate 144 0) = .error .invalidAccountData ∧
    readValidator (List.replicate 144 0) = .error .uninitializedAccount := ⟨rfl, rfl, rfl⟩

end Verif.Props
