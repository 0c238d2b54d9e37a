import Verif.Model.ClientAccounts
import Verif.Props.Client
/-!
# C118: accounts written with the Rust client
-/

namespace Verif.Props

open Verif Verif.Client Verif.Layout

/-! ## Values the Rust types can hold -/

/-- Numbers of the declared widths and 32-byte keys. -/
structure TypedDelegation (d : ClientDelegation) : Prop where
  staked : d.stakedAmount < 2 ^ 64
  effective : d.effectiveAmount < 2 ^ 64
  cooldown : d.unstakeCooldown < 2 ^ 64
  authority : d.authority.length = 32
  vote : d.validatorVote.length = 32
  holder : d.lastSeenHolderRewardsPerToken < 2 ^ 128
  stake : d.lastSeenStakeRewardsPerToken < 2 ^ 128

/-- Numbers of the declared widths, and arrays of the declared lengths. -/
structure TypedConfig (c : ClientConfig) : Prop where
  discriminator : c.discriminator.length = 8
  authority : c.authority.length = 32
  slashAuthority : c.slashAuthority.length = 32
  vault : c.vault.length = 32
  cooldown : c.cooldownTimeSeconds < 2 ^ 64
  effective : c.tokenAmountEffective < 2 ^ 64
  sync : c.syncRewardsLamports < 2 ^ 64
  last : c.lamportsLast < 2 ^ 64
  hash : c.dunaDocumentHash.length = 32
  acc : c.accumulatedStakeRewardsPerToken < 2 ^ 128
  bps : c.maxDeactivationBasisPoints < 2 ^ 16
  bump : c.vaultAuthorityBump < 2 ^ 8
  padding : c.padding.length = 5

structure TypedValidator (v : ClientValidatorStake) : Prop where
  discriminator : v.discriminator.length = 8
  delegation : TypedDelegation v.delegation
  total : v.totalStakedLamportsAmount < 2 ^ 64
  min : v.totalStakedLamportsAmountMin < 2 ^ 64

structure TypedSolStaker (s : ClientSolStakerStake) : Prop where
  discriminator : s.discriminator.length = 8
  delegation : TypedDelegation s.delegation
  lamports : s.lamportsAmount < 2 ^ 64
  solStake : s.solStake.length = 32

/-! ## Readers -/

theorem readBytes_some {n : Nat} {b x r : List UInt8} : readBytes n b = some (x, r) ↔ x.length = n ∧ b = x ++ r := by
  constructor
  · intro h
    unfold readBytes at h
    split_ifs at h with hl
    simp only [Option.some.injEq, Prod.mk.injEq] at h
    obtain ⟨rfl, rfl⟩ := h
    exact ⟨by simpa using hl, (List.take_append_drop n b).symm⟩
  · rintro ⟨h, rfl⟩; exact readBytes_append h

theorem readInt_some {n v : Nat} {b r : List UInt8} : readInt n b = some (v, r) ↔ v < 256 ^ n ∧ b = leBytes n v ++ r := by
  constructor
  · intro h
    unfold readInt at h
    split_ifs at h with hl
    simp only [Option.some.injEq, Prod.mk.injEq] at h
    obtain ⟨rfl, rfl⟩ := h
    have hn : (b.take n).length = n := by simpa using hl
    refine ⟨?_, ?_⟩
    · have := leNat_lt (b.take n); rwa [hn] at this
    · rw [leBytes_leNat' hn, List.take_append_drop]
  · rintro ⟨h, rfl⟩; exact readInt_append h

theorem readDelegation_some {d : ClientDelegation} {b r : List UInt8} :
    readDelegation b = some (d, r) ↔ TypedDelegation d ∧ b = d.toBytes ++ r := by
  constructor
  · intro h
    simp only [readDelegation, bind, Option.bind_eq_some_iff, Prod.exists, readInt_some, readBytes_some, pure, Option.some.injEq,
      Prod.mk.injEq] at h
    obtain ⟨_, _, ⟨h1, rfl⟩, _, _, ⟨h2, rfl⟩, _, _, ⟨h3, rfl⟩, _, _, ⟨h4, rfl⟩, _, _, ⟨h5, rfl⟩, _, _, ⟨h6, rfl⟩, _, _, ⟨h7, rfl⟩,
      rfl, rfl⟩ := h
    exact ⟨⟨by simpa using h1, by simpa using h2, by simpa using h3, h4, h5, by simpa using h6, by simpa using h7⟩,
      by simp [ClientDelegation.toBytes]⟩
  · rintro ⟨T, rfl⟩
    simp only [readDelegation, ClientDelegation.toBytes, List.append_assoc, bind, Option.bind, readBytes_append T.authority,
      readBytes_append T.vote, readInt_append (n := 8) (m := d.stakedAmount) (by simpa using T.staked),
      readInt_append (n := 8) (m := d.effectiveAmount) (by simpa using T.effective),
      readInt_append (n := 8) (m := d.unstakeCooldown) (by simpa using T.cooldown),
      readInt_append (n := 16) (m := d.lastSeenHolderRewardsPerToken) (by simpa using T.holder),
      readInt_append (n := 16) (m := d.lastSeenStakeRewardsPerToken) (by simpa using T.stake)]
    rfl

/-! ## The client's own round trips -/

/-- **C118.** The client reads a config from some bytes exactly when they begin with what it writes for that config. -/
theorem C118_config {c : ClientConfig} {b : List UInt8} :
    configFromBytes b = some c ↔ TypedConfig c ∧ ∃ rest, b = c.toBytes ++ rest := by
  constructor
  · intro h
    unfold configFromBytes at h
    rename' h => g0
    obtain ⟨⟨_, b1⟩, e, g1⟩ := Option.bind_eq_some_iff.1 g0
    clear g0
    obtain ⟨h1, rfl⟩ := readBytes_some.1 e
    clear e
    obtain ⟨⟨_, b2⟩, e, g2⟩ := Option.bind_eq_some_iff.1 g1
    clear g1
    obtain ⟨h2, rfl⟩ := readBytes_some.1 e
    clear e
    obtain ⟨⟨_, b3⟩, e, g3⟩ := Option.bind_eq_some_iff.1 g2
    clear g2
    obtain ⟨h3, rfl⟩ := readBytes_some.1 e
    clear e
    obtain ⟨⟨_, b4⟩, e, g4⟩ := Option.bind_eq_some_iff.1 g3
    clear g3
    obtain ⟨h4, rfl⟩ := readBytes_some.1 e
    clear e
    obtain ⟨⟨_, b5⟩, e, g5⟩ := Option.bind_eq_some_iff.1 g4
    clear g4
    obtain ⟨h5, rfl⟩ := readInt_some.1 e
    clear e
    obtain ⟨⟨_, b6⟩, e, g6⟩ := Option.bind_eq_some_iff.1 g5
    clear g5
    obtain ⟨h6, rfl⟩ := readInt_some.1 e
    clear e
    obtain ⟨⟨_, b7⟩, e, g7⟩ := Option.bind_eq_some_iff.1 g6
    clear g6
    obtain ⟨h7, rfl⟩ := readInt_some.1 e
    clear e
    obtain ⟨⟨_, b8⟩, e, g8⟩ := Option.bind_eq_some_iff.1 g7
    clear g7
    obtain ⟨h8, rfl⟩ := readInt_some.1 e
    clear e
    obtain ⟨⟨_, b9⟩, e, g9⟩ := Option.bind_eq_some_iff.1 g8
    clear g8
    obtain ⟨h9, rfl⟩ := readBytes_some.1 e
    clear e
    obtain ⟨⟨_, b10⟩, e, g10⟩ := Option.bind_eq_some_iff.1 g9
    clear g9
    obtain ⟨h10, rfl⟩ := readInt_some.1 e
    clear e
    obtain ⟨⟨_, b11⟩, e, g11⟩ := Option.bind_eq_some_iff.1 g10
    clear g10
    obtain ⟨h11, rfl⟩ := readInt_some.1 e
    clear e
    obtain ⟨⟨_, b12⟩, e, g12⟩ := Option.bind_eq_some_iff.1 g11
    clear g11
    obtain ⟨h12, rfl⟩ := readInt_some.1 e
    clear e
    obtain ⟨⟨_, r⟩, e, g13⟩ := Option.bind_eq_some_iff.1 g12
    clear g12
    obtain ⟨h13, rfl⟩ := readBytes_some.1 e
    clear e
    cases g13
    exact ⟨⟨h1, h2, h3, h4, by simpa using h5, by simpa using h6, by simpa using h7, by simpa using h8, h9, by simpa using h10,
      by simpa using h11, by simpa using h12, h13⟩, r, by simp [ClientConfig.toBytes]⟩
  · rintro ⟨T, rest, rfl⟩
    simp only [configFromBytes, ClientConfig.toBytes, List.append_assoc, bind, Option.bind, readBytes_append T.discriminator,
      readBytes_append T.authority, readBytes_append T.slashAuthority, readBytes_append T.vault, readBytes_append T.hash,
      readBytes_append T.padding,
      readInt_append (n := 8) (m := c.cooldownTimeSeconds) (by simpa using T.cooldown),
      readInt_append (n := 8) (m := c.tokenAmountEffective) (by simpa using T.effective),
      readInt_append (n := 8) (m := c.syncRewardsLamports) (by simpa using T.sync),
      readInt_append (n := 8) (m := c.lamportsLast) (by simpa using T.last),
      readInt_append (n := 16) (m := c.accumulatedStakeRewardsPerToken) (by simpa using T.acc),
      readInt_append (n := 2) (m := c.maxDeactivationBasisPoints) (by simpa using T.bps),
      readInt_append (n := 1) (m := c.vaultAuthorityBump) (by simpa using T.bump)]
    rfl

/-- **C118.** The same for validator stakes. -/
theorem C118_validator {v : ClientValidatorStake} {b : List UInt8} :
    validatorStakeFromBytes b = some v ↔ TypedValidator v ∧ ∃ rest, b = v.toBytes ++ rest := by
  constructor
  · intro h
    simp only [validatorStakeFromBytes, bind, Option.bind_eq_some_iff, Prod.exists, readInt_some, readBytes_some,
      readDelegation_some, pure, Option.some.injEq] at h
    obtain ⟨_, _, ⟨h1, rfl⟩, _, _, ⟨h2, rfl⟩, _, _, ⟨h3, rfl⟩, _, r, ⟨h4, rfl⟩, rfl⟩ := h
    exact ⟨⟨h1, h2, by simpa using h3, by simpa using h4⟩, r, by simp [ClientValidatorStake.toBytes]⟩
  · rintro ⟨T, rest, rfl⟩
    simp only [validatorStakeFromBytes, ClientValidatorStake.toBytes, List.append_assoc, bind, Option.bind,
      readBytes_append T.discriminator, readDelegation_some.2 ⟨T.delegation, rfl⟩,
      readInt_append (n := 8) (m := v.totalStakedLamportsAmount) (by simpa using T.total),
      readInt_append (n := 8) (m := v.totalStakedLamportsAmountMin) (by simpa using T.min)]
    rfl

/-- **C118.** The same for SOL staker stakes. -/
theorem C118_sol_staker {s : ClientSolStakerStake} {b : List UInt8} :
    solStakerStakeFromBytes b = some s ↔ TypedSolStaker s ∧ ∃ rest, b = s.toBytes ++ rest := by
  constructor
  · intro h
    simp only [solStakerStakeFromBytes, bind, Option.bind_eq_some_iff, Prod.exists, readInt_some, readBytes_some,
      readDelegation_some, pure, Option.some.injEq] at h
    obtain ⟨_, _, ⟨h1, rfl⟩, _, _, ⟨h2, rfl⟩, _, _, ⟨h3, rfl⟩, _, r, ⟨h4, rfl⟩, rfl⟩ := h
    exact ⟨⟨h1, h2, by simpa using h3, h4⟩, r, by simp [ClientSolStakerStake.toBytes]⟩
  · rintro ⟨T, rest, rfl⟩
    simp only [solStakerStakeFromBytes, ClientSolStakerStake.toBytes, List.append_assoc, bind, Option.bind,
      readBytes_append T.discriminator, readDelegation_some.2 ⟨T.delegation, rfl⟩,
      readInt_append (n := 8) (m := s.lamportsAmount) (by simpa using T.lamports), readBytes_append T.solStake]
    rfl

/-! ## What the program makes of it -/

/-- **C118.** The program accepts what the client writes for a config exactly when the discriminator in it is the one of
configs, and then reads the same values. -/
theorem C118_program_reads_config {c : ClientConfig} (T : TypedConfig c) {r : RawConfig} :
    readConfig c.toBytes = .ok r ↔ c.discriminator = configDisc ∧ viewConfig r = c := by
  constructor
  · intro h
    have e := C67_client_config h
    rw [(C118_config (b := c.toBytes)).2 ⟨T, [], by simp⟩] at e
    cases e
    exact ⟨rfl, rfl⟩
  · rintro ⟨_, rfl⟩
    have F : FitsConfig r := ⟨T.authority, T.slashAuthority, T.vault, T.cooldown, T.effective, T.sync, T.last, T.hash, T.acc,
      T.bps, T.bump, T.padding⟩
    have e : (viewConfig r).toBytes = r.write := by simp [ClientConfig.toBytes, RawConfig.write, viewConfig]
    rw [e]; exact C32_config_read_write r F

theorem fits_of_typed {d : RawDelegation} (T : TypedDelegation (viewDelegation d)) : FitsDelegation d :=
  ⟨T.staked, T.effective, T.cooldown, T.authority, T.vote, T.holder, T.stake⟩

/-- **C118.** The same for validator stakes. -/
theorem C118_program_reads_validator {v : ClientValidatorStake} (T : TypedValidator v) {r : RawValidator} :
    readValidator v.toBytes = .ok r ↔ v.discriminator = validatorDisc ∧ viewDelegation r.del = v.delegation ∧
      r.total = v.totalStakedLamportsAmount ∧ r.min = v.totalStakedLamportsAmountMin := by
  constructor
  · intro h
    have e := C67_client_validator h
    rw [(C118_validator (b := v.toBytes)).2 ⟨T, [], by simp⟩] at e
    cases e
    exact ⟨rfl, rfl, rfl, rfl⟩
  · rintro ⟨h1, h2, h3, h4⟩
    have e : v.toBytes = r.write := by
      simp [ClientValidatorStake.toBytes, RawValidator.write, RawDelegation.write, ClientDelegation.toBytes, h1, ← h2, ← h3, ← h4,
        viewDelegation]
    rw [e]
    exact C32_validator_read_write r ⟨fits_of_typed (h2 ▸ T.delegation), h3 ▸ T.total, h4 ▸ T.min⟩

/-- **C118.** The same for SOL staker stakes. -/
theorem C118_program_reads_sol_staker {s : ClientSolStakerStake} (T : TypedSolStaker s) {r : RawSolStaker} :
    readSolStaker s.toBytes = .ok r ↔ s.discriminator = solStakerDisc ∧ viewDelegation r.del = s.delegation ∧
      r.lamports = s.lamportsAmount ∧ r.solStake = s.solStake := by
  constructor
  · intro h
    have e := C67_client_sol_staker h
    rw [(C118_sol_staker (b := s.toBytes)).2 ⟨T, [], by simp⟩] at e
    cases e
    exact ⟨rfl, rfl, rfl, rfl⟩
  · rintro ⟨h1, h2, h3, h4⟩
    have e : s.toBytes = r.write := by
      simp [ClientSolStakerStake.toBytes, RawSolStaker.write, RawDelegation.write, ClientDelegation.toBytes, h1, ← h2, ← h3, ← h4,
        viewDelegation]
    rw [e]
    exact C32_sol_staker_read_write r ⟨fits_of_typed (h2 ▸ T.delegation), h3 ▸ T.lamports, h4 ▸ T.solStake⟩

/-- A validator stake with extreme values goes through both ways. -/
example : ∃ v r, TypedValidator v ∧ v.delegation.lastSeenStakeRewardsPerToken = 2 ^ 128 - 1 ∧
    validatorStakeFromBytes (v.toBytes ++ [1, 2]) = some v ∧ readValidator v.toBytes = .ok r ∧ r.total = 2 ^ 64 - 1 := by
  let d : RawDelegation :=
    { staked := 2 ^ 64 - 1, effective := 7, cooldown := 2 ^ 64 - 1, authority := List.replicate 32 255
      vote := List.replicate 32 1, lastHolder := 0, lastStake := 2 ^ 128 - 1 }
  have T : TypedValidator { discriminator := validatorDisc, delegation := viewDelegation d
                            totalStakedLamportsAmount := 2 ^ 64 - 1, totalStakedLamportsAmountMin := 3 } :=
    ⟨rfl, ⟨by decide, by decide, by decide, by decide, by decide, by decide, by decide⟩, by decide, by decide⟩
  exact ⟨_, { del := d, total := 2 ^ 64 - 1, min := 3 }, T, rfl, C118_validator.2 ⟨T, _, rfl⟩,
    (C118_program_reads_validator T).2 ⟨rfl, rfl, rfl, rfl⟩, rfl⟩

/-! ## Optional values -/

/-- **C118.** An optional address comes back from the client's wrapper, except that the all-zero address comes back as none; the
same for the wrapper of optional numbers and 0. -/
theorem C118_nullable {a : Option (List UInt8)} {n : Option Nat} :
    (nullable (nullableFrom a) = a ↔ a ≠ some (List.replicate 32 0)) ∧ (nullableU64 (nullableU64From n) = n ↔ n ≠ some 0) := by
  constructor
  · cases a with
    | none => simp [nullable, nullableFrom]
    | some x =>
      show (if x = List.replicate 32 0 then none else some x) = some x ↔ _
      rw [Ne, Option.some.injEq]
      split_ifs with h
      · exact ⟨fun e => (by cases e), fun e => (e h).elim⟩
      · exact ⟨fun _ => h, fun _ => rfl⟩
  · cases n with
    | none => simp [nullableU64, nullableU64From]
    | some x => by_cases h : x = 0 <;> simp [nullableU64, nullableU64From, h]

end Verif.Props
