import Verif.Lemmas.Codec
import Verif.Model.Exec
import Mathlib.Tactic.SplitIfs
/-!
# Instruction encoding

C30, C31.
-/

namespace Verif.Props

open Verif

/-- The values an instruction can carry in the code: 32-byte keys and hashes, 64-bit and 16-bit integers. -/
def InRange : StakeInstruction → Prop
  | .initializeConfig s c t b y h =>
    s.length = 32 ∧ c.length = 32 ∧ t < 2 ^ 64 ∧ b < 2 ^ 16 ∧ y < 2 ^ 64 ∧ h.length = 32
  | .validatorStakeTokens a | .slashValidatorStake a | .solStakerStakeTokens a | .unstakeTokens a
  | .slashSolStakerStake a | .solStakerMoveTokens a | .validatorOverrideStakedLamports a => a < 2 ^ 64
  | .updateConfig (.cooldownTimeSeconds v) | .updateConfig (.syncRewardsLamports v) => v < 2 ^ 64
  | .updateConfig (.maxDeactivationBasisPoints v) => v < 2 ^ 16
  | _ => True

theorem le8 {n : Nat} (h : n < 2 ^ 64) : leNat (leBytes 8 n) = n := leNat_leBytes (by simpa using h)
theorem le2 {n : Nat} (h : n < 2 ^ 16) : leNat (leBytes 2 n) = n := leNat_leBytes (by simpa using h)

theorem unpackU64_pack {n : Nat} (h : n < 2 ^ 64) (f : Nat → StakeInstruction) :
    unpackU64 (leBytes 8 n) f = .ok (f n) := by
  simp [unpackU64, slice_zero_all, le8 h]

/-- **C30.** Unpacking a packed instruction gives the instruction back. -/
theorem C30_unpack_pack (i : StakeInstruction) (h : InRange i) : StakeInstruction.unpack i.pack = .ok i := by
  cases i with
  | initializeConfig s c t b y d =>
    obtain ⟨hs, hc, ht, hb, hy, hd⟩ := h
    have e1 : slice (s ++ c ++ leBytes 8 t ++ leBytes 2 b ++ leBytes 8 y ++ d) 0 32 = s := by
      simp only [List.append_assoc]; exact slice_append_left hs
    have e2 : slice (s ++ c ++ leBytes 8 t ++ leBytes 2 b ++ leBytes 8 y ++ d) 32 32 = c := by
      simp only [List.append_assoc]
      rw [slice_append_right (by omega), hs]; exact slice_append_left hc
    have e3 : slice (s ++ c ++ leBytes 8 t ++ leBytes 2 b ++ leBytes 8 y ++ d) 64 8 = leBytes 8 t := by
      simp only [List.append_assoc]
      rw [slice_append_right (by omega), slice_append_right (by omega), hs, hc]; exact slice_append_left (by simp)
    have e4 : slice (s ++ c ++ leBytes 8 t ++ leBytes 2 b ++ leBytes 8 y ++ d) 72 2 = leBytes 2 b := by
      rw [show s ++ c ++ leBytes 8 t ++ leBytes 2 b ++ leBytes 8 y ++ d =
        (s ++ c ++ leBytes 8 t) ++ (leBytes 2 b ++ (leBytes 8 y ++ d)) by simp,
        slice_append_right (by simp; omega)]
      have : (s ++ c ++ leBytes 8 t).length = 72 := by simp; omega
      rw [this]; exact slice_append_left (by simp)
    have e5 : slice (s ++ c ++ leBytes 8 t ++ leBytes 2 b ++ leBytes 8 y ++ d) 74 8 = leBytes 8 y := by
      rw [show s ++ c ++ leBytes 8 t ++ leBytes 2 b ++ leBytes 8 y ++ d =
        (s ++ c ++ leBytes 8 t ++ leBytes 2 b) ++ (leBytes 8 y ++ d) by simp,
        slice_append_right (by simp; omega)]
      have : (s ++ c ++ leBytes 8 t ++ leBytes 2 b).length = 74 := by simp; omega
      rw [this]; exact slice_append_left (by simp)
    have e6 : slice (s ++ c ++ leBytes 8 t ++ leBytes 2 b ++ leBytes 8 y ++ d) 82 32 = d := by
      rw [slice_append_right (by simp; omega)]
      have : (s ++ c ++ leBytes 8 t ++ leBytes 2 b ++ leBytes 8 y).length = 82 := by simp; omega
      rw [this]; exact slice_zero_all hd
    have hl : (s ++ c ++ leBytes 8 t ++ leBytes 2 b ++ leBytes 8 y ++ d).length = 32 + 32 + 8 + 2 + 8 + 32 := by
      simp; omega
    have hp : StakeInstruction.pack (.initializeConfig s c t b y d) =
        0 :: (s ++ c ++ leBytes 8 t ++ leBytes 2 b ++ leBytes 8 y ++ d) := by simp [StakeInstruction.pack]
    rw [hp]
    simp only [StakeInstruction.unpack]
    rw [show (0 : UInt8).toNat = 0 from rfl]
    simp only []
    rw [if_pos hl, e1, e2, e3, e4, e5, e6, le8 ht, le8 hy, le2 hb]
  | setAuthority t => cases t <;> rfl
  | updateConfig f =>
    cases f with
    | cooldownTimeSeconds v =>
      simp [StakeInstruction.pack, StakeInstruction.unpack, unpackField, slice_zero_all, le8 h]
    | maxDeactivationBasisPoints v =>
      simp [StakeInstruction.pack, StakeInstruction.unpack, unpackField, slice_zero_all, le2 h]
    | syncRewardsLamports v =>
      simp [StakeInstruction.pack, StakeInstruction.unpack, unpackField, slice_zero_all, le8 h]
  | initializeValidatorStake => rfl
  | harvestHolderRewards => rfl
  | harvestValidatorRewards => rfl
  | initializeSolStakerStake => rfl
  | harvestSolStakerRewards => rfl
  | validatorSyncAuthority => rfl
  | validatorStakeTokens a => exact unpackU64_pack h _
  | slashValidatorStake a => exact unpackU64_pack h _
  | solStakerStakeTokens a => exact unpackU64_pack h _
  | unstakeTokens a => exact unpackU64_pack h _
  | slashSolStakerStake a => exact unpackU64_pack h _
  | solStakerMoveTokens a => exact unpackU64_pack h _
  | validatorOverrideStakedLamports a => exact unpackU64_pack h _

/-- **C30.** Distinct instructions have distinct encodings. -/
theorem C30_pack_injective {i j : StakeInstruction} (hi : InRange i) (hj : InRange j) (h : i.pack = j.pack) : i = j := by
  have := C30_unpack_pack i hi
  rw [h, C30_unpack_pack j hj] at this
  exact (Except.ok.inj this).symm

/-- An instruction of the largest size with extreme values. -/
example : InRange (.initializeConfig (List.replicate 32 255) (List.replicate 32 0) (2 ^ 64 - 1) 65535 (2 ^ 64 - 1)
    (List.replicate 32 9)) := by simp [InRange]

/-! ## C31 -/

/-- The instructions without arguments, which tolerate trailing bytes. -/
def NoArguments (i : StakeInstruction) : Prop :=
  i = .initializeValidatorStake ∨ i = .harvestHolderRewards ∨ i = .harvestValidatorRewards ∨
  i = .initializeSolStakerStake ∨ i = .harvestSolStakerRewards ∨ i = .validatorSyncAuthority

theorem unpackU64_ok {rest : List UInt8} {f : Nat → StakeInstruction} {i : StakeInstruction} :
    unpackU64 rest f = .ok i ↔ ∃ n, n < 2 ^ 64 ∧ i = f n ∧ rest = leBytes 8 n := by
  unfold unpackU64
  split_ifs with h
  · rw [slice_zero_all h]
    constructor
    · intro e
      have := leNat_lt_pow rest
      rw [h] at this
      exact ⟨_, by simpa using this, (Except.ok.inj e).symm, (leBytes_leNat' h).symm⟩
    · rintro ⟨n, hn, rfl, rfl⟩; rw [le8 hn]
  · simp only [false_iff]
    rintro ⟨n, _, _, rfl⟩; simp at h

theorem leNat_lt8 {b : List UInt8} (h : b.length = 8) : leNat b < 2 ^ 64 := by
  have := leNat_lt_pow b; rw [h] at this; simpa using this
theorem leNat_lt2 {b : List UInt8} (h : b.length = 2) : leNat b < 2 ^ 16 := by
  have := leNat_lt_pow b; rw [h] at this; simpa using this

theorem pack_of_unpack {b : List UInt8} {i : StakeInstruction} (h : StakeInstruction.unpack b = .ok i) :
    InRange i ∧ ∃ rest, b = i.pack ++ rest ∧ (rest = [] ∨ NoArguments i) := by
  cases b with
  | nil => simp [StakeInstruction.unpack] at h
  | cons tag rest =>
    have tageq : ∀ n : Nat, tag.toNat = n → n < 256 → tag = UInt8.ofNat n := by
      intro n e _; rw [← e]; exact (UInt8.ofNat_toNat).symm
    simp only [StakeInstruction.unpack] at h
    split at h
    · rename_i e
      obtain rfl := tageq 0 e (by omega)
      split_ifs at h with hl
      obtain rfl := (Except.ok.inj h).symm
      have hs : ∀ {s n}, s + n ≤ 114 → (slice rest s n).length = n := fun h => slice_length (by omega)
      refine ⟨⟨hs (by omega), hs (by omega), leNat_lt8 (hs (by omega)), leNat_lt2 (hs (by omega)),
        leNat_lt8 (hs (by omega)), hs (by omega)⟩, [], ?_, Or.inl rfl⟩
      simp only [StakeInstruction.pack, List.append_nil]
      rw [leBytes_leNat' (hs (by omega)), leBytes_leNat' (hs (by omega)), leBytes_leNat' (hs (by omega))]
      have e : slice rest 0 32 ++ (slice rest 32 32 ++ (slice rest 64 8 ++ (slice rest 72 2 ++
          (slice rest 74 8 ++ slice rest 82 32)))) = rest := by
        rw [slice_append rest 74 8 32, slice_append rest 72 2 40, slice_append rest 64 8 42, slice_append rest 32 32 50,
          slice_append rest 0 32 82]
        exact slice_zero_all hl
      exact (congrArg (List.cons 0) e.symm).trans (by simp)
    · rename_i e; obtain rfl := tageq 1 e (by omega); obtain rfl := (Except.ok.inj h).symm
      exact ⟨trivial, rest, rfl, Or.inr (by simp [NoArguments])⟩
    · rename_i e; obtain rfl := tageq 2 e (by omega)
      obtain ⟨n, hn, rfl, rfl⟩ := unpackU64_ok.1 h
      exact ⟨hn, [], by simp [StakeInstruction.pack], Or.inl rfl⟩
    · rename_i e; obtain rfl := tageq 3 e (by omega); obtain rfl := (Except.ok.inj h).symm
      exact ⟨trivial, rest, rfl, Or.inr (by simp [NoArguments])⟩
    · rename_i e; obtain rfl := tageq 4 e (by omega); obtain rfl := (Except.ok.inj h).symm
      exact ⟨trivial, rest, rfl, Or.inr (by simp [NoArguments])⟩
    · rename_i e; obtain rfl := tageq 5 e (by omega)
      obtain ⟨n, hn, rfl, rfl⟩ := unpackU64_ok.1 h
      exact ⟨hn, [], by simp [StakeInstruction.pack], Or.inl rfl⟩
    · rename_i e; obtain rfl := tageq 6 e (by omega)
      unfold unpackAuthorityType at h
      split at h
      · rename_i x
        have xeq : ∀ n : Nat, x.toNat = n → x = UInt8.ofNat n := by
          intro n e; rw [← e]; exact (UInt8.ofNat_toNat).symm
        split at h
        · rename_i e; obtain rfl := xeq 0 e; obtain rfl := (Except.ok.inj h).symm
          exact ⟨trivial, [], rfl, Or.inl rfl⟩
        · rename_i e; obtain rfl := xeq 1 e; obtain rfl := (Except.ok.inj h).symm
          exact ⟨trivial, [], rfl, Or.inl rfl⟩
        · simp at h
      · simp at h
    · rename_i e; obtain rfl := tageq 7 e (by omega)
      unfold unpackField at h
      split at h
      · simp at h
      · rename_i x rest
        have xeq : ∀ n : Nat, x.toNat = n → x = UInt8.ofNat n := by
          intro n e; rw [← e]; exact (UInt8.ofNat_toNat).symm
        split at h
        · rename_i e; obtain rfl := xeq 0 e
          split_ifs at h with hl
          obtain rfl := (Except.ok.inj h).symm
          rw [slice_zero_all hl]
          exact ⟨leNat_lt8 hl, [], by simp [StakeInstruction.pack, leBytes_leNat' hl], Or.inl rfl⟩
        · rename_i e; obtain rfl := xeq 1 e
          split_ifs at h with hl
          obtain rfl := (Except.ok.inj h).symm
          rw [slice_zero_all hl]
          exact ⟨leNat_lt2 hl, [], by simp [StakeInstruction.pack, leBytes_leNat' hl], Or.inl rfl⟩
        · rename_i e; obtain rfl := xeq 2 e
          split_ifs at h with hl
          obtain rfl := (Except.ok.inj h).symm
          rw [slice_zero_all hl]
          exact ⟨leNat_lt8 hl, [], by simp [StakeInstruction.pack, leBytes_leNat' hl], Or.inl rfl⟩
        · simp at h
    · rename_i e; obtain rfl := tageq 8 e (by omega); obtain rfl := (Except.ok.inj h).symm
      exact ⟨trivial, rest, rfl, Or.inr (by simp [NoArguments])⟩
    · rename_i e; obtain rfl := tageq 9 e (by omega)
      obtain ⟨n, hn, rfl, rfl⟩ := unpackU64_ok.1 h
      exact ⟨hn, [], by simp [StakeInstruction.pack], Or.inl rfl⟩
    · rename_i e; obtain rfl := tageq 10 e (by omega); obtain rfl := (Except.ok.inj h).symm
      exact ⟨trivial, rest, rfl, Or.inr (by simp [NoArguments])⟩
    · rename_i e; obtain rfl := tageq 11 e (by omega)
      obtain ⟨n, hn, rfl, rfl⟩ := unpackU64_ok.1 h
      exact ⟨hn, [], by simp [StakeInstruction.pack], Or.inl rfl⟩
    · rename_i e; obtain rfl := tageq 12 e (by omega)
      obtain ⟨n, hn, rfl, rfl⟩ := unpackU64_ok.1 h
      exact ⟨hn, [], by simp [StakeInstruction.pack], Or.inl rfl⟩
    · rename_i e; obtain rfl := tageq 13 e (by omega)
      obtain ⟨n, hn, rfl, rfl⟩ := unpackU64_ok.1 h
      exact ⟨hn, [], by simp [StakeInstruction.pack], Or.inl rfl⟩
    · rename_i e; obtain rfl := tageq 14 e (by omega)
      obtain ⟨n, hn, rfl, rfl⟩ := unpackU64_ok.1 h
      exact ⟨hn, [], by simp [StakeInstruction.pack], Or.inl rfl⟩
    · rename_i e; obtain rfl := tageq 15 e (by omega); obtain rfl := (Except.ok.inj h).symm
      exact ⟨trivial, rest, rfl, Or.inr (by simp [NoArguments])⟩
    · simp at h

/-- **C31.** A byte string unpacks to an instruction exactly when it is the encoding of that instruction, followed by
nothing, or by anything when the instruction has no arguments. -/
theorem C31_accepted (b : List UInt8) (i : StakeInstruction) :
    StakeInstruction.unpack b = .ok i ↔
      InRange i ∧ ∃ rest, b = i.pack ++ rest ∧ (rest = [] ∨ NoArguments i) := by
  constructor
  · exact pack_of_unpack
  · rintro ⟨hr, rest, rfl, rfl | hn⟩
    · rw [List.append_nil]; exact C30_unpack_pack i hr
    · rcases hn with rfl | rfl | rfl | rfl | rfl | rfl <;> rfl

theorem unpackU64_err {rest : List UInt8} {f : Nat → StakeInstruction} {e : Err} (h : unpackU64 rest f = .error e) :
    e = .invalidInstructionData := by
  unfold unpackU64 at h; split_ifs at h; exact (Except.error.inj h).symm

/-- **C31.** Every other byte string is rejected with InvalidInstructionData. -/
theorem C31_rejected (b : List UInt8) {e : Err} (h : StakeInstruction.unpack b = .error e) :
    e = .invalidInstructionData := by
  unfold StakeInstruction.unpack unpackAuthorityType unpackField at h
  repeat' split at h
  all_goals first
    | exact (Except.error.inj h).symm
    | exact unpackU64_err h
    | simp at h

/-- **C31.** The length of an accepted byte string: the documented payload length for each tag, and for the tags
without payload any length. -/
theorem C31_lengths (tag : UInt8) (rest : List UInt8) :
    (∃ i, StakeInstruction.unpack (tag :: rest) = .ok i) ↔
      (tag = 0 ∧ rest.length = 114) ∨
      (tag ∈ [1, 3, 4, 8, 10, 15]) ∨
      (tag ∈ [2, 5, 9, 11, 12, 13, 14] ∧ rest.length = 8) ∨
      (tag = 6 ∧ (rest = [0] ∨ rest = [1])) ∨
      (tag = 7 ∧ ∃ f p, rest = f :: p ∧ ((f = 0 ∧ p.length = 8) ∨ (f = 1 ∧ p.length = 2) ∨ (f = 2 ∧ p.length = 8))) := by
  constructor
  · rintro ⟨i, h⟩
    obtain ⟨hr, r, hb, hn⟩ := pack_of_unpack h
    cases i with
    | initializeConfig s c t b y d =>
      obtain ⟨hs, hc, _, _, _, hd⟩ := hr
      have hr : r = [] := hn.resolve_right (by simp [NoArguments])
      subst hr
      simp only [StakeInstruction.pack, List.append_nil, List.cons_append, List.nil_append, List.cons.injEq] at hb
      refine Or.inl ⟨hb.1, ?_⟩
      rw [hb.2]; simp; omega
    | setAuthority t =>
      have hr : r = [] := hn.resolve_right (by simp [NoArguments])
      subst hr
      cases t <;> simp [StakeInstruction.pack] at hb <;> simp [hb]
    | updateConfig f =>
      have hr : r = [] := hn.resolve_right (by simp [NoArguments])
      subst hr
      cases f <;> simp [StakeInstruction.pack] at hb <;>
        exact Or.inr (Or.inr (Or.inr (Or.inr ⟨hb.1, _, _, hb.2, by simp⟩)))
    | _ =>
      first
      | (simp [StakeInstruction.pack] at hb; simp [hb]; done)
      | (have hr : r = [] := hn.resolve_right (by simp [NoArguments])
         subst hr
         simp [StakeInstruction.pack] at hb
         simp [hb])
  · rintro (⟨rfl, h⟩ | h | ⟨h, hl⟩ | ⟨rfl, rfl | rfl⟩ | ⟨rfl, f, p, rfl, h⟩)
    · simp [StakeInstruction.unpack, h]
    · simp only [List.mem_cons, List.not_mem_nil, or_false] at h
      rcases h with rfl | rfl | rfl | rfl | rfl | rfl <;> exact ⟨_, rfl⟩
    · simp only [List.mem_cons, List.not_mem_nil, or_false] at h
      rcases h with rfl | rfl | rfl | rfl | rfl | rfl | rfl <;> simp [StakeInstruction.unpack, unpackU64, hl]
    · exact ⟨_, rfl⟩
    · exact ⟨_, rfl⟩
    · rcases h with ⟨rfl, h⟩ | ⟨rfl, h⟩ | ⟨rfl, h⟩ <;> simp [StakeInstruction.unpack, unpackField, h]

/-- Rejected: nothing, an unknown tag, a short amount, a trailing byte. -/
example : StakeInstruction.unpack [] = .error .invalidInstructionData ∧
    StakeInstruction.unpack [16] = .error .invalidInstructionData ∧
    StakeInstruction.unpack [2, 1, 0, 0] = .error .invalidInstructionData ∧
    StakeInstruction.unpack [2, 1, 0, 0, 0, 0, 0, 0, 0, 0] = .error .invalidInstructionData ∧
    StakeInstruction.unpack [6, 2] = .error .invalidInstructionData := ⟨rfl, rfl, rfl, rfl, rfl⟩
/-- Accepted: an amount, and an instruction without arguments followed by junk. -/
example : StakeInstruction.unpack [2, 1, 1, 0, 0, 0, 0, 0, 0] = .ok (.validatorStakeTokens 257) ∧
    StakeInstruction.unpack [3, 9, 9] = .ok .harvestHolderRewards := ⟨rfl, rfl⟩

end Verif.Props
