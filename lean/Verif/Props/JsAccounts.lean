import Verif.Lemmas.JsAccounts
/-!
# The account codecs of the JavaScript client

C85: the decoders show what the program stored, the encoders are their inverses, and the codec of nullable numbers cannot be used.
-/

namespace Verif.Props

open Verif Verif.Client Verif.Layout

variable {b : List UInt8}

/-! ## Decoding -/

/-- **C85.** The client decodes every account the program accepts as a config, to the same values; an authority that is not set
is null. -/
theorem C85_js_config {r : RawConfig} (h : readConfig b = .ok r) : Js.decodeConfig b = some (Js.showConfig r) := by
  rw [Js.decodeConfig_eq, C67_client_config h]; rfl

/-- **C85.** The same for validator stake accounts. -/
theorem C85_js_validator {r : RawValidator} (h : readValidator b = .ok r) :
    Js.decodeValidatorStake b = some (Js.showValidatorStake r) := by
  rw [Js.decodeValidatorStake_eq, C67_client_validator h]; rfl

/-- **C85.** The same for SOL staker stake accounts. -/
theorem C85_js_sol_staker {r : RawSolStaker} (h : readSolStaker b = .ok r) :
    Js.decodeSolStakerStake b = some (Js.showSolStakerStake r) := by
  rw [Js.decodeSolStakerStake_eq, C67_client_sol_staker h]; rfl

/-! ## Encoding -/

/-- **C85.** Encoding what was decoded gives back the bytes of the account. -/
theorem C85_js_config_encode {r : Js.Config} (h : Js.decodeConfig b = some r) :
    Js.encodeConfig r.asArgs = some (b.take Js.configSize) := by
  unfold Js.decodeConfig at h
  simp only [Js.readNullable_eq] at h
  obtain ⟨⟨a1, b1⟩, h1, h⟩ := Option.bind_eq_some_iff.1 h
  obtain ⟨⟨a2, b2⟩, h2, h⟩ := Option.bind_eq_some_iff.1 h
  obtain ⟨⟨a3, b3⟩, h3, h⟩ := Option.bind_eq_some_iff.1 h
  obtain ⟨⟨a4, b4⟩, h4, h⟩ := Option.bind_eq_some_iff.1 h
  obtain ⟨⟨a5, b5⟩, h5, h⟩ := Option.bind_eq_some_iff.1 h
  obtain ⟨⟨a6, b6⟩, h6, h⟩ := Option.bind_eq_some_iff.1 h
  obtain ⟨⟨a7, b7⟩, h7, h⟩ := Option.bind_eq_some_iff.1 h
  obtain ⟨⟨a8, b8⟩, h8, h⟩ := Option.bind_eq_some_iff.1 h
  obtain ⟨⟨a9, b9⟩, h9, h⟩ := Option.bind_eq_some_iff.1 h
  obtain ⟨⟨a10, b10⟩, h10, h⟩ := Option.bind_eq_some_iff.1 h
  obtain ⟨⟨a11, b11⟩, h11, h⟩ := Option.bind_eq_some_iff.1 h
  obtain ⟨⟨a12, b12⟩, h12, h⟩ := Option.bind_eq_some_iff.1 h
  obtain ⟨⟨a13, b13⟩, h13, h⟩ := Option.bind_eq_some_iff.1 h
  cases h
  obtain ⟨⟨k2, c2⟩, g2, e2⟩ := Option.map_eq_some_iff.1 h2
  cases e2
  obtain ⟨⟨k3, c3⟩, g3, e3⟩ := Option.map_eq_some_iff.1 h3
  cases e3
  obtain ⟨rfl, l1⟩ := Js.readBytes_inv h1
  obtain ⟨rfl, l2⟩ := Js.readBytes_inv g2
  obtain ⟨rfl, l3⟩ := Js.readBytes_inv g3
  obtain ⟨rfl, l4⟩ := Js.readBytes_inv h4
  obtain ⟨rfl, l5⟩ := Js.readInt_inv h5
  obtain ⟨rfl, l6⟩ := Js.readInt_inv h6
  obtain ⟨rfl, l7⟩ := Js.readInt_inv h7
  obtain ⟨rfl, l8⟩ := Js.readInt_inv h8
  obtain ⟨rfl, l9⟩ := Js.readBytes_inv h9
  obtain ⟨rfl, l10⟩ := Js.readInt_inv h10
  obtain ⟨rfl, l11⟩ := Js.readInt_inv h11
  obtain ⟨rfl, l12⟩ := Js.readInt_inv h12
  obtain ⟨rfl, l13⟩ := Js.readBytes_inv h13
  unfold Js.encodeConfig Js.Config.asArgs
  dsimp only
  rw [Js.encodeArray_iff.2 ⟨rfl, l1⟩, Js.encodeNullable_shown l2, Js.encodeNullable_shown l3, Js.encode32 rfl l4,
    Js.encodeInt_nat l5, Js.encodeInt_nat l6, Js.encodeInt_nat l7, Js.encodeInt_nat l8, Js.fixSize_exact l9,
    Js.encodeInt_nat l10, Js.encodeInt_nat l11, Js.encodeInt_nat l12, Js.encodeArray_iff.2 ⟨rfl, l13⟩]
  have : ∀ x : List UInt8, x.length = 192 → ∀ y z, y = x ++ z → some x = some (y.take Js.configSize) := by
    rintro x hx y z rfl
    rw [List.take_left' (by rw [hx]; rfl)]
  refine this _ ?_ _ b13 ?_
  · simp [l1, l2, l3, l4, l9, l13]
  · simp only [List.append_assoc]

/-- **C85.** The same for validator stake accounts. -/
theorem C85_js_validator_encode {r : Js.ValidatorStake} (h : Js.decodeValidatorStake b = some r) :
    Js.encodeValidatorStake r.asArgs = some (b.take Js.validatorStakeSize) := by
  unfold Js.decodeValidatorStake at h
  obtain ⟨⟨a1, b1⟩, h1, h⟩ := Option.bind_eq_some_iff.1 h
  obtain ⟨⟨a2, b2⟩, h2, h⟩ := Option.bind_eq_some_iff.1 h
  obtain ⟨⟨a3, b3⟩, h3, h⟩ := Option.bind_eq_some_iff.1 h
  obtain ⟨⟨a4, b4⟩, h4, h⟩ := Option.bind_eq_some_iff.1 h
  cases h
  obtain ⟨rfl, l1⟩ := Js.readBytes_inv h1
  obtain ⟨x, rfl, l2, e2⟩ := Js.delegation_inv h2
  obtain ⟨rfl, l3⟩ := Js.readInt_inv h3
  obtain ⟨rfl, l4⟩ := Js.readInt_inv h4
  unfold Js.encodeValidatorStake Js.ValidatorStake.asArgs
  dsimp only
  rw [Js.encodeArray_iff.2 ⟨rfl, l1⟩, e2, Js.encodeInt_nat l3, Js.encodeInt_nat l4]
  have : ∀ x : List UInt8, x.length = 144 → ∀ y z, y = x ++ z → some x = some (y.take Js.validatorStakeSize) := by
    rintro x hx y z rfl
    rw [List.take_left' (by rw [hx]; rfl)]
  refine this _ ?_ _ b4 ?_
  · simp [l1, l2]
  · simp only [List.append_assoc]

/-- **C85.** The same for SOL staker stake accounts. -/
theorem C85_js_sol_staker_encode {r : Js.SolStakerStake} (h : Js.decodeSolStakerStake b = some r) :
    Js.encodeSolStakerStake r.asArgs = some (b.take Js.solStakerStakeSize) := by
  unfold Js.decodeSolStakerStake at h
  obtain ⟨⟨a1, b1⟩, h1, h⟩ := Option.bind_eq_some_iff.1 h
  obtain ⟨⟨a2, b2⟩, h2, h⟩ := Option.bind_eq_some_iff.1 h
  obtain ⟨⟨a3, b3⟩, h3, h⟩ := Option.bind_eq_some_iff.1 h
  obtain ⟨⟨a4, b4⟩, h4, h⟩ := Option.bind_eq_some_iff.1 h
  cases h
  obtain ⟨rfl, l1⟩ := Js.readBytes_inv h1
  obtain ⟨x, rfl, l2, e2⟩ := Js.delegation_inv h2
  obtain ⟨rfl, l3⟩ := Js.readInt_inv h3
  obtain ⟨rfl, l4⟩ := Js.readBytes_inv h4
  unfold Js.encodeSolStakerStake Js.SolStakerStake.asArgs
  dsimp only
  rw [Js.encodeArray_iff.2 ⟨rfl, l1⟩, e2, Js.encodeInt_nat l3, Js.encode32 rfl l4]
  have : ∀ x : List UInt8, x.length = 168 → ∀ y z, y = x ++ z → some x = some (y.take Js.solStakerStakeSize) := by
    rintro x hx y z rfl
    rw [List.take_left' (by rw [hx]; rfl)]
  refine this _ ?_ _ b4 ?_
  · simp [l1, l2, l4]
  · simp only [List.append_assoc]

/-- **C85.** What the encoder writes has the size the client states and decodes to what was given, except that an authority of 32
zero bytes becomes null and that the hash is cut or padded with zeros to 32 bytes. -/
theorem C85_js_config_decode {v : Js.ConfigArgs} (h : Js.encodeConfig v = some b) :
    b.length = Js.configSize ∧ ∃ r, Js.decodeConfig b = some r ∧ r.asArgs =
      { v with
        authority := v.authority.bind Js.shown
        slashAuthority := v.slashAuthority.bind Js.shown
        dunaDocumentHash := v.dunaDocumentHash.take 32 ++ List.replicate (32 - v.dunaDocumentHash.length) 0 } := by
  obtain ⟨v1, v2, v3, v4, v5, v6, v7, v8, v9, v10, v11, v12, v13⟩ := v
  unfold Js.encodeConfig at h
  obtain ⟨x1, h1, h⟩ := Option.bind_eq_some_iff.1 h
  obtain ⟨x2, h2, h⟩ := Option.bind_eq_some_iff.1 h
  obtain ⟨x3, h3, h⟩ := Option.bind_eq_some_iff.1 h
  obtain ⟨x4, h4, h⟩ := Option.bind_eq_some_iff.1 h
  obtain ⟨x5, h5, h⟩ := Option.bind_eq_some_iff.1 h
  obtain ⟨x6, h6, h⟩ := Option.bind_eq_some_iff.1 h
  obtain ⟨x7, h7, h⟩ := Option.bind_eq_some_iff.1 h
  obtain ⟨x8, h8, h⟩ := Option.bind_eq_some_iff.1 h
  obtain ⟨x10, h10, h⟩ := Option.bind_eq_some_iff.1 h
  obtain ⟨x11, h11, h⟩ := Option.bind_eq_some_iff.1 h
  obtain ⟨x12, h12, h⟩ := Option.bind_eq_some_iff.1 h
  obtain ⟨x13, h13, h⟩ := Option.bind_eq_some_iff.1 h
  cases h
  obtain ⟨rfl, l1⟩ := Js.encodeArray_iff.1 h1
  obtain ⟨e2, l2⟩ := Js.encodeNullable_inv h2
  obtain ⟨e3, l3⟩ := Js.encodeNullable_inv h3
  obtain ⟨rfl, l4⟩ := Js.encodeAddress_inv h4
  obtain ⟨n5, rfl, l5, rfl⟩ := Js.encodeInt_inv h5
  obtain ⟨n6, rfl, l6, rfl⟩ := Js.encodeInt_inv h6
  obtain ⟨n7, rfl, l7, rfl⟩ := Js.encodeInt_inv h7
  obtain ⟨n8, rfl, l8, rfl⟩ := Js.encodeInt_inv h8
  obtain ⟨n10, rfl, l10, rfl⟩ := Js.encodeInt_inv h10
  obtain ⟨n11, rfl, l11, rfl⟩ := Js.encodeInt_inv h11
  obtain ⟨n12, rfl, l12, rfl⟩ := Js.encodeInt_inv h12
  obtain ⟨rfl, l13⟩ := Js.encodeArray_iff.1 h13
  have l9 : (Js.fixSize 32 v9).length = 32 := Js.fixSize_length
  have e : ∀ {x : List UInt8} {v : Option (List UInt8)}, x = v.getD (List.replicate 32 0) → v.bind Js.shown = Js.shown x := by
    rintro x (_ | v) rfl
    · exact (if_pos rfl).symm
    · rfl
  refine ⟨?_, ⟨x1, Js.shown x2, Js.shown x3, x4, n5, n6, n7, n8, Js.fixSize 32 v9, n10, n11, n12, x13⟩, ?_, ?_⟩
  · simp [l1, l2, l3, l4, l9, l13, Js.configSize]
  · unfold Js.decodeConfig
    simp only [Js.readNullable_eq]
    rw [readBytes_append l1]; dsimp only [bind, Option.bind]
    rw [readBytes_append l2]; dsimp only [bind, Option.bind, Option.map]
    rw [readBytes_append l3]; dsimp only [bind, Option.bind, Option.map]
    rw [readBytes_append l4]; dsimp only [bind, Option.bind]
    rw [readInt_append l5]; dsimp only [bind, Option.bind]
    rw [readInt_append l6]; dsimp only [bind, Option.bind]
    rw [readInt_append l7]; dsimp only [bind, Option.bind]
    rw [readInt_append l8]; dsimp only [bind, Option.bind]
    rw [readBytes_append l9]; dsimp only [bind, Option.bind]
    rw [readInt_append l10]; dsimp only [bind, Option.bind]
    rw [readInt_append l11]; dsimp only [bind, Option.bind]
    rw [readInt_append l12]; dsimp only [bind, Option.bind]
    have t := readBytes_append (b := []) l13
    rw [List.append_nil] at t
    rw [t]; rfl
  · rw [e e2, e e3]; rfl

/-- **C85.** The same for validator stake accounts. -/
theorem C85_js_validator_decode {v : Js.ValidatorStakeArgs} (h : Js.encodeValidatorStake v = some b) :
    b.length = Js.validatorStakeSize ∧ ∃ r, Js.decodeValidatorStake b = some r ∧ r.asArgs = v := by
  obtain ⟨v1, v2, v3, v4⟩ := v
  unfold Js.encodeValidatorStake at h
  obtain ⟨x1, h1, h⟩ := Option.bind_eq_some_iff.1 h
  obtain ⟨x2, h2, h⟩ := Option.bind_eq_some_iff.1 h
  obtain ⟨x3, h3, h⟩ := Option.bind_eq_some_iff.1 h
  obtain ⟨x4, h4, h⟩ := Option.bind_eq_some_iff.1 h
  cases h
  obtain ⟨rfl, l1⟩ := Js.encodeArray_iff.1 h1
  obtain ⟨d, rfl, l2, e2⟩ := Js.delegation_encode h2
  obtain ⟨n3, rfl, l3, rfl⟩ := Js.encodeInt_inv h3
  obtain ⟨n4, rfl, l4, rfl⟩ := Js.encodeInt_inv h4
  refine ⟨by simp [l1, l2, Js.validatorStakeSize], ⟨x1, d, n3, n4⟩, ?_, rfl⟩
  have t : ∀ x : List UInt8, x = x ++ [] := fun x => (List.append_nil x).symm
  unfold Js.decodeValidatorStake
  rw [readBytes_append l1]; dsimp only [bind, Option.bind]
  rw [e2]; dsimp only [bind, Option.bind]
  rw [readInt_append l3]; dsimp only [bind, Option.bind]
  rw [t (leBytes 8 n4), readInt_append l4]; rfl

/-- **C85.** The same for SOL staker stake accounts. -/
theorem C85_js_sol_staker_decode {v : Js.SolStakerStakeArgs} (h : Js.encodeSolStakerStake v = some b) :
    b.length = Js.solStakerStakeSize ∧ ∃ r, Js.decodeSolStakerStake b = some r ∧ r.asArgs = v := by
  obtain ⟨v1, v2, v3, v4⟩ := v
  unfold Js.encodeSolStakerStake at h
  obtain ⟨x1, h1, h⟩ := Option.bind_eq_some_iff.1 h
  obtain ⟨x2, h2, h⟩ := Option.bind_eq_some_iff.1 h
  obtain ⟨x3, h3, h⟩ := Option.bind_eq_some_iff.1 h
  obtain ⟨x4, h4, h⟩ := Option.bind_eq_some_iff.1 h
  cases h
  obtain ⟨rfl, l1⟩ := Js.encodeArray_iff.1 h1
  obtain ⟨d, rfl, l2, e2⟩ := Js.delegation_encode h2
  obtain ⟨n3, rfl, l3, rfl⟩ := Js.encodeInt_inv h3
  obtain ⟨rfl, l4⟩ := Js.encodeAddress_inv h4
  refine ⟨by simp [l1, l2, l4, Js.solStakerStakeSize], ⟨x1, d, n3, x4⟩, ?_, rfl⟩
  have t := readBytes_append (b := []) l4
  rw [List.append_nil] at t
  unfold Js.decodeSolStakerStake
  rw [readBytes_append l1]; dsimp only [bind, Option.bind]
  rw [e2]; dsimp only [bind, Option.bind]
  rw [readInt_append l3]; dsimp only [bind, Option.bind]
  rw [t]; rfl

/-- **C85.** The codec of nullable numbers cannot be used: building it throws. -/
theorem C85_js_nullable_u64 : Js.nullableU64Codec = none := rfl

/-- **C85.** Its encoder writes null and zero alike. -/
theorem C85_js_nullable_u64_zero : Js.encodeNullableU64 none = Js.encodeNullableU64 (some 0) ∧
    ∀ rest, (Js.encodeNullableU64 (some 0)).bind (fun x => Js.readNullableU64 (x ++ rest)) = some (none, rest) :=
  ⟨rfl, fun rest => by
    have h : Js.encodeNullableU64 (some 0) = some (leBytes 8 0) := by decide
    rw [h]
    show Js.readNullableU64 (leBytes 8 0 ++ rest) = _
    unfold Js.readNullableU64
    rw [readInt_append (by decide)]
    rfl⟩

/-- A config without slash authority, as the program writes it. -/
def noSlash : RawConfig :=
  { authority := List.replicate 32 7, slashAuthority := List.replicate 32 0, vault := List.replicate 32 9, cooldownTime := 60
    maxBps := 500, syncRewards := 1, effTotal := 2 ^ 64 - 1, lamportsLast := 3, dunaHash := List.replicate 32 5
    acc := 2 ^ 128 - 1, bump := 254, padding := [1, 2, 3, 4, 5] }

theorem noSlash_read : readConfig noSlash.write = .ok noSlash :=
  C32_config_read_write _ ⟨rfl, rfl, rfl, by decide, by decide, by decide, by decide, rfl, by decide, by decide, by decide, rfl⟩

/-- It decodes to a config without slash authority and encodes back to itself. -/
example : ∃ r, Js.decodeConfig noSlash.write = some r ∧ r.authority = some (List.replicate 32 7) ∧ r.slashAuthority = none ∧
    Js.encodeConfig r.asArgs = some noSlash.write :=
  ⟨_, C85_js_config noSlash_read, rfl, rfl, by
    rw [C85_js_config_encode (C85_js_config noSlash_read)]; decide +kernel⟩

end Verif.Props
