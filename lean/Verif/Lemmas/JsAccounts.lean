import Verif.Lemmas.Js
/-!
# The account codecs of the JavaScript client
-/

namespace Verif.Client.Js

open Verif Verif.Client Verif.Props

theorem readInt_inv {n m : Nat} {b c : List UInt8} (h : readInt n b = some (m, c)) : b = leBytes n m ++ c ∧ m < 256 ^ n := by
  unfold readInt at h
  split_ifs at h with hl
  cases h
  have e : (b.take n).length = n := by simp [hl]
  rw [leBytes_leNat' e, List.take_append_drop]
  exact ⟨rfl, by have := leNat_lt_pow (b.take n); rwa [e] at this⟩

theorem readBytes_inv {n : Nat} {b x c : List UInt8} (h : readBytes n b = some (x, c)) : b = x ++ c ∧ x.length = n := by
  unfold readBytes at h
  split_ifs at h with hl
  cases h
  exact ⟨(List.take_append_drop _ _).symm, by simp [hl]⟩

theorem encodeInt_inv {n : Nat} {v : Int} {b : List UInt8} (h : encodeInt n v = some b) :
    ∃ m : Nat, v = m ∧ m < 256 ^ n ∧ b = leBytes n m := by
  unfold encodeInt at h
  split_ifs at h with hv
  cases h
  refine ⟨v.toNat, (Int.toNat_of_nonneg hv.1).symm, ?_, rfl⟩
  exact (Int.toNat_lt hv.1).2 (by exact_mod_cast hv.2)

theorem encodeAddress_inv {v b : List UInt8} (h : encodeAddress v = some b) : b = v ∧ v.length = 32 := by
  unfold encodeAddress at h
  split_ifs at h with hv
  cases h
  exact ⟨rfl, hv⟩

theorem encode_byte (x : UInt8) : encodeInt 1 (jsByte x) = some [x] := by
  unfold jsByte
  rw [encodeInt_nat (by have := x.toNat_lt; simpa using this)]
  simp [leBytes]

theorem encode_byte_inv {v : Int} {b : List UInt8} (h : encodeInt 1 v = some b) : ∃ x, b = [x] ∧ v = jsByte x := by
  obtain ⟨m, rfl, hm, rfl⟩ := encodeInt_inv h
  refine ⟨UInt8.ofNat (m % 256), by simp [leBytes], ?_⟩
  unfold jsByte
  rw [ofNat_toNat m (by simpa using hm)]

theorem mapM_bytes (b : List UInt8) : ((b.map jsByte).mapM (encodeInt 1)).map List.flatten = some b := by
  induction b with
  | nil => rfl
  | cons x b ih =>
    obtain ⟨c, hc, rfl⟩ := Option.map_eq_some_iff.1 ih
    rw [List.map_cons, List.mapM_cons, encode_byte, hc]
    rfl

theorem mapM_bytes_inv : ∀ {v : List Int} {b : List UInt8}, (v.mapM (encodeInt 1)).map List.flatten = some b → v = b.map jsByte
  | [], b, h => by cases h; rfl
  | x :: v, b, h => by
    obtain ⟨c, hc, rfl⟩ := Option.map_eq_some_iff.1 h
    rw [List.mapM_cons] at hc
    obtain ⟨y, hy, hc⟩ := Option.bind_eq_some_iff.1 hc
    obtain ⟨d, hd, hc⟩ := Option.bind_eq_some_iff.1 hc
    cases hc
    obtain ⟨z, rfl, rfl⟩ := encode_byte_inv hy
    have := mapM_bytes_inv (v := v) (b := d.flatten) (by rw [hd]; rfl)
    rw [List.flatten_cons, List.singleton_append, List.map_cons, this]

theorem encodeArray_iff {n : Nat} {v : List Int} {b : List UInt8} :
    encodeArray n v = some b ↔ v = b.map jsByte ∧ b.length = n := by
  unfold encodeArray
  constructor
  · intro h
    split_ifs at h with hl
    have := mapM_bytes_inv h
    exact ⟨this, by rw [this] at hl; simpa using hl⟩
  · rintro ⟨rfl, h⟩
    rw [if_pos (by simpa using h)]
    exact mapM_bytes b

theorem readNullable_eq {b : List UInt8} : readNullable b = (readBytes 32 b).map fun p => (shown p.1, p.2) := by
  unfold readNullable shown
  cases readBytes 32 b <;> rfl

theorem encodeNullable_shown {k : List UInt8} (h : k.length = 32) : encodeNullable (shown k) = some k := by
  unfold shown
  split_ifs with e
  · subst e; rfl
  · exact if_pos h

theorem encodeNullable_inv {v : Option (List UInt8)} {b : List UInt8} (h : encodeNullable v = some b) :
    b = v.getD (List.replicate 32 0) ∧ b.length = 32 := by
  cases v with
  | none => obtain ⟨rfl, -⟩ := encodeAddress_inv h; exact ⟨rfl, rfl⟩
  | some x => obtain ⟨rfl, h⟩ := encodeAddress_inv h; exact ⟨rfl, h⟩

theorem fixSize_length {n : Nat} {b : List UInt8} : (fixSize n b).length = n := by
  simp only [fixSize, List.length_append, List.length_take, List.length_replicate]; omega

/-! ## Delegations -/

/-- The delegation as the Rust client shows it, as this client shows it. -/
def ofDelegation (d : ClientDelegation) : Js.Delegation :=
  { stakedAmount := d.stakedAmount, effectiveAmount := d.effectiveAmount, unstakeCooldown := d.unstakeCooldown
    authority := d.authority, validatorVote := d.validatorVote
    lastSeenHolderRewardsPerToken := d.lastSeenHolderRewardsPerToken
    lastSeenStakeRewardsPerToken := d.lastSeenStakeRewardsPerToken }

theorem readDelegation_eq (b : List UInt8) :
    readDelegation b = (Client.readDelegation b).map fun p => (ofDelegation p.1, p.2) := by
  unfold readDelegation Client.readDelegation
  rcases readInt 8 b with _ | ⟨_, b⟩; · rfl
  dsimp only [bind, Option.bind]
  rcases readInt 8 b with _ | ⟨_, b⟩; · rfl
  dsimp only [bind, Option.bind]
  rcases readInt 8 b with _ | ⟨_, b⟩; · rfl
  dsimp only [bind, Option.bind]
  rcases readBytes 32 b with _ | ⟨_, b⟩; · rfl
  dsimp only [bind, Option.bind]
  rcases readBytes 32 b with _ | ⟨_, b⟩; · rfl
  dsimp only [bind, Option.bind]
  rcases readInt 16 b with _ | ⟨_, b⟩; · rfl
  dsimp only [bind, Option.bind]
  rcases readInt 16 b with _ | ⟨_, b⟩; · rfl
  rfl

theorem delegation_inv {b c : List UInt8} {d : Delegation} (h : readDelegation b = some (d, c)) :
    ∃ x, b = x ++ c ∧ x.length = 120 ∧ encodeDelegation d.asArgs = some x := by
  unfold readDelegation at h
  obtain ⟨⟨a1, b1⟩, h1, h⟩ := Option.bind_eq_some_iff.1 h
  obtain ⟨⟨a2, b2⟩, h2, h⟩ := Option.bind_eq_some_iff.1 h
  obtain ⟨⟨a3, b3⟩, h3, h⟩ := Option.bind_eq_some_iff.1 h
  obtain ⟨⟨a4, b4⟩, h4, h⟩ := Option.bind_eq_some_iff.1 h
  obtain ⟨⟨a5, b5⟩, h5, h⟩ := Option.bind_eq_some_iff.1 h
  obtain ⟨⟨a6, b6⟩, h6, h⟩ := Option.bind_eq_some_iff.1 h
  obtain ⟨⟨a7, b7⟩, h7, h⟩ := Option.bind_eq_some_iff.1 h
  cases h
  obtain ⟨rfl, l1⟩ := readInt_inv h1
  obtain ⟨rfl, l2⟩ := readInt_inv h2
  obtain ⟨rfl, l3⟩ := readInt_inv h3
  obtain ⟨rfl, l4⟩ := readBytes_inv h4
  obtain ⟨rfl, l5⟩ := readBytes_inv h5
  obtain ⟨rfl, l6⟩ := readInt_inv h6
  obtain ⟨rfl, l7⟩ := readInt_inv h7
  refine ⟨leBytes 8 a1 ++ (leBytes 8 a2 ++ (leBytes 8 a3 ++ (a4 ++ (a5 ++ (leBytes 16 a6 ++ leBytes 16 a7))))), ?_, ?_, ?_⟩
  · simp only [List.append_assoc]
  · simp [l4, l5]
  · unfold encodeDelegation Delegation.asArgs
    dsimp only
    rw [encodeInt_nat l1, encodeInt_nat l2, encodeInt_nat l3, encode32 rfl l4, encode32 rfl l5, encodeInt_nat l6,
      encodeInt_nat l7]
    rfl

theorem delegation_encode {v : DelegationArgs} {x : List UInt8} (h : encodeDelegation v = some x) :
    ∃ d : Delegation, v = d.asArgs ∧ x.length = 120 ∧ ∀ c, readDelegation (x ++ c) = some (d, c) := by
  obtain ⟨v1, v2, v3, v4, v5, v6, v7⟩ := v
  unfold encodeDelegation at h
  obtain ⟨x1, h1, h⟩ := Option.bind_eq_some_iff.1 h
  obtain ⟨x2, h2, h⟩ := Option.bind_eq_some_iff.1 h
  obtain ⟨x3, h3, h⟩ := Option.bind_eq_some_iff.1 h
  obtain ⟨x4, h4, h⟩ := Option.bind_eq_some_iff.1 h
  obtain ⟨x5, h5, h⟩ := Option.bind_eq_some_iff.1 h
  obtain ⟨x6, h6, h⟩ := Option.bind_eq_some_iff.1 h
  obtain ⟨x7, h7, h⟩ := Option.bind_eq_some_iff.1 h
  cases h
  obtain ⟨n1, rfl, l1, rfl⟩ := encodeInt_inv h1
  obtain ⟨n2, rfl, l2, rfl⟩ := encodeInt_inv h2
  obtain ⟨n3, rfl, l3, rfl⟩ := encodeInt_inv h3
  obtain ⟨rfl, l4⟩ := encodeAddress_inv h4
  obtain ⟨rfl, l5⟩ := encodeAddress_inv h5
  obtain ⟨n6, rfl, l6, rfl⟩ := encodeInt_inv h6
  obtain ⟨n7, rfl, l7, rfl⟩ := encodeInt_inv h7
  refine ⟨⟨n1, n2, n3, x4, x5, n6, n7⟩, rfl, by simp [l4, l5], fun c => ?_⟩
  unfold readDelegation
  simp only [List.append_assoc]
  rw [readInt_append l1]; dsimp only [bind, Option.bind]
  rw [readInt_append l2]; dsimp only [bind, Option.bind]
  rw [readInt_append l3]; dsimp only [bind, Option.bind]
  rw [readBytes_append l4]; dsimp only [bind, Option.bind]
  rw [readBytes_append l5]; dsimp only [bind, Option.bind]
  rw [readInt_append l6]; dsimp only [bind, Option.bind]
  rw [readInt_append l7]; rfl

/-! ## Accounts -/

/-- The config as the Rust client shows it, as this client shows it. -/
def ofConfig (r : ClientConfig) : Config :=
  { discriminator := r.discriminator, authority := shown r.authority, slashAuthority := shown r.slashAuthority
    vault := r.vault, cooldownTimeSeconds := r.cooldownTimeSeconds, tokenAmountEffective := r.tokenAmountEffective
    syncRewardsLamports := r.syncRewardsLamports, lamportsLast := r.lamportsLast, dunaDocumentHash := r.dunaDocumentHash
    accumulatedStakeRewardsPerToken := r.accumulatedStakeRewardsPerToken
    maxDeactivationBasisPoints := r.maxDeactivationBasisPoints, vaultAuthorityBump := r.vaultAuthorityBump
    padding := r.padding }

theorem decodeConfig_eq (b : List UInt8) : decodeConfig b = (configFromBytes b).map ofConfig := by
  unfold decodeConfig configFromBytes
  simp only [readNullable_eq]
  rcases readBytes 8 b with _ | ⟨_, b⟩; · rfl
  dsimp only [bind, Option.bind, Option.map]
  rcases readBytes 32 b with _ | ⟨_, b⟩; · rfl
  dsimp only [bind, Option.bind, Option.map]
  rcases readBytes 32 b with _ | ⟨_, b⟩; · rfl
  dsimp only [bind, Option.bind, Option.map]
  rcases readBytes 32 b with _ | ⟨_, b⟩; · rfl
  dsimp only [bind, Option.bind]
  rcases readInt 8 b with _ | ⟨_, b⟩; · rfl
  dsimp only [bind, Option.bind]
  rcases readInt 8 b with _ | ⟨_, b⟩; · rfl
  dsimp only [bind, Option.bind]
  rcases readInt 8 b with _ | ⟨_, b⟩; · rfl
  dsimp only [bind, Option.bind]
  rcases readInt 8 b with _ | ⟨_, b⟩; · rfl
  dsimp only [bind, Option.bind]
  rcases readBytes 32 b with _ | ⟨_, b⟩; · rfl
  dsimp only [bind, Option.bind]
  rcases readInt 16 b with _ | ⟨_, b⟩; · rfl
  dsimp only [bind, Option.bind]
  rcases readInt 2 b with _ | ⟨_, b⟩; · rfl
  dsimp only [bind, Option.bind]
  rcases readInt 1 b with _ | ⟨_, b⟩; · rfl
  dsimp only [bind, Option.bind]
  rcases readBytes 5 b with _ | ⟨_, b⟩ <;> rfl

/-- The validator stake as the Rust client shows it, as this client shows it. -/
def ofValidatorStake (r : ClientValidatorStake) : ValidatorStake :=
  { discriminator := r.discriminator, delegation := ofDelegation r.delegation
    totalStakedLamportsAmount := r.totalStakedLamportsAmount
    totalStakedLamportsAmountMin := r.totalStakedLamportsAmountMin }

theorem decodeValidatorStake_eq (b : List UInt8) :
    decodeValidatorStake b = (validatorStakeFromBytes b).map ofValidatorStake := by
  unfold decodeValidatorStake validatorStakeFromBytes
  simp only [readDelegation_eq]
  rcases readBytes 8 b with _ | ⟨_, b⟩; · rfl
  dsimp only [bind, Option.bind, Option.map]
  rcases Client.readDelegation b with _ | ⟨_, b⟩; · rfl
  dsimp only [bind, Option.bind]
  rcases readInt 8 b with _ | ⟨_, b⟩; · rfl
  dsimp only [bind, Option.bind]
  rcases readInt 8 b with _ | ⟨_, b⟩ <;> rfl

/-- The SOL staker stake as the Rust client shows it, as this client shows it. -/
def ofSolStakerStake (r : ClientSolStakerStake) : SolStakerStake :=
  { discriminator := r.discriminator, delegation := ofDelegation r.delegation, lamportsAmount := r.lamportsAmount
    solStake := r.solStake }

theorem decodeSolStakerStake_eq (b : List UInt8) :
    decodeSolStakerStake b = (solStakerStakeFromBytes b).map ofSolStakerStake := by
  unfold decodeSolStakerStake solStakerStakeFromBytes
  simp only [readDelegation_eq]
  rcases readBytes 8 b with _ | ⟨_, b⟩; · rfl
  dsimp only [bind, Option.bind, Option.map]
  rcases Client.readDelegation b with _ | ⟨_, b⟩; · rfl
  dsimp only [bind, Option.bind]
  rcases readInt 8 b with _ | ⟨_, b⟩; · rfl
  dsimp only [bind, Option.bind]
  rcases readBytes 32 b with _ | ⟨_, b⟩ <;> rfl

end Verif.Client.Js
