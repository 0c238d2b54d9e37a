import Verif.Model.Codec
/-!
# Account layouts

Models the bytes of the three account types of `/repo/program/src/state/*.rs` and `unpack_initialized(_mut)`,
`/repo/program/src/processor/mod.rs` 213-235. Keys are 32-byte strings here.

Simplification: `bytemuck::try_from_bytes` also checks that the data is aligned to 8 bytes, which the runtime guarantees
for account data.
-/

namespace Verif.Layout

open Verif

/-- `SplDiscriminate` with `discriminator_hash_input("stake::state::config")`, `config.rs` 10: the first eight bytes of
the SHA-256 hash of that string. -/
def configDisc : List UInt8 := [29, 229, 41, 226, 127, 163, 182, 254]
/-- `discriminator_hash_input("validator_stake")`, `validator_stake.rs` 16. -/
def validatorDisc : List UInt8 := [197, 173, 152, 124, 46, 252, 77, 146]
/-- `discriminator_hash_input("sol_staker_stake")`, `sol_staker_stake.rs` 17. -/
def solStakerDisc : List UInt8 := [192, 163, 150, 81, 162, 252, 198, 62]

/-- `Delegation`, `state/mod.rs` 227-252. -/
structure RawDelegation where
  staked : Nat
  effective : Nat
  cooldown : Nat
  authority : List UInt8
  vote : List UInt8
  lastHolder : Nat
  lastStake : Nat
  deriving DecidableEq

/-- `Config`, `config.rs` 11-61, without the discriminator. -/
structure RawConfig where
  authority : List UInt8
  slashAuthority : List UInt8
  vault : List UInt8
  cooldownTime : Nat
  effTotal : Nat
  syncRewards : Nat
  lamportsLast : Nat
  dunaHash : List UInt8
  acc : Nat
  maxBps : Nat
  bump : Nat
  padding : List UInt8
  deriving DecidableEq

/-- `ValidatorStake`, `validator_stake.rs` 17-39, without the discriminator. -/
structure RawValidator where
  del : RawDelegation
  total : Nat
  min : Nat
  deriving DecidableEq

/-- `SolStakerStake`, `sol_staker_stake.rs` 18-40, without the discriminator. -/
structure RawSolStaker where
  del : RawDelegation
  lamports : Nat
  solStake : List UInt8
  deriving DecidableEq

/-- Split bytes into consecutive fields of the given sizes (`#[repr(C)]` without internal padding). -/
def chunks : List Nat → List UInt8 → List (List UInt8)
  | [], _ => []
  | n :: ns, b => b.take n :: chunks ns (b.drop n)

/-- Field sizes of `Config`, `config.rs` 17-60. -/
def configSizes : List Nat := [8, 32, 32, 32, 8, 8, 8, 8, 32, 16, 2, 1, 5]
/-- Field sizes of `ValidatorStake` with those of `Delegation`, `validator_stake.rs` 26-38, `state/mod.rs` 229-251. -/
def validatorSizes : List Nat := [8, 8, 8, 8, 32, 32, 16, 16, 8, 8]
/-- Field sizes of `SolStakerStake` with those of `Delegation`, `sol_staker_stake.rs` 27-39. -/
def solStakerSizes : List Nat := [8, 8, 8, 8, 32, 32, 16, 16, 8, 32]

/-- The bytes of a config. -/
def RawConfig.write (r : RawConfig) : List UInt8 :=
  configDisc ++ (r.authority ++ (r.slashAuthority ++ (r.vault ++ (leBytes 8 r.cooldownTime ++ (leBytes 8 r.effTotal ++
    (leBytes 8 r.syncRewards ++ (leBytes 8 r.lamportsLast ++ (r.dunaHash ++ (leBytes 16 r.acc ++
      (leBytes 2 r.maxBps ++ (leBytes 1 r.bump ++ (r.padding ++ []))))))))))))

/-- The bytes of a delegation in front of some other bytes. -/
def RawDelegation.write (d : RawDelegation) (rest : List UInt8) : List UInt8 :=
  leBytes 8 d.staked ++ (leBytes 8 d.effective ++ (leBytes 8 d.cooldown ++ (d.authority ++ (d.vote ++
    (leBytes 16 d.lastHolder ++ (leBytes 16 d.lastStake ++ rest))))))

/-- The bytes of a validator stake. -/
def RawValidator.write (r : RawValidator) : List UInt8 :=
  validatorDisc ++ r.del.write (leBytes 8 r.total ++ (leBytes 8 r.min ++ []))

/-- The bytes of a SOL staker stake. -/
def RawSolStaker.write (r : RawSolStaker) : List UInt8 :=
  solStakerDisc ++ r.del.write (leBytes 8 r.lamports ++ (r.solStake ++ []))

/-- `unpack_initialized::<Config>`. -/
def readConfig (b : List UInt8) : Res RawConfig :=
  if b.length = configLen then
    match chunks configSizes b with
    | [d, a, s, v, ct, et, sr, ll, dh, ac, mb, bu, pa] =>
      if d = configDisc then
        .ok { authority := a, slashAuthority := s, vault := v, cooldownTime := leNat ct, effTotal := leNat et
              syncRewards := leNat sr, lamportsLast := leNat ll, dunaHash := dh, acc := leNat ac, maxBps := leNat mb
              bump := leNat bu, padding := pa }
      else .error .uninitializedAccount
    | _ => .error .invalidAccountData
  else .error .invalidAccountData

/-- `unpack_initialized::<ValidatorStake>`. -/
def readValidator (b : List UInt8) : Res RawValidator :=
  if b.length = validatorLen then
    match chunks validatorSizes b with
    | [d, st, ef, co, au, vo, lh, ls, to, mi] =>
      if d = validatorDisc then
        .ok { del := { staked := leNat st, effective := leNat ef, cooldown := leNat co, authority := au, vote := vo
                       lastHolder := leNat lh, lastStake := leNat ls }
              total := leNat to, min := leNat mi }
      else .error .uninitializedAccount
    | _ => .error .invalidAccountData
  else .error .invalidAccountData

/-- `unpack_initialized::<SolStakerStake>`. -/
def readSolStaker (b : List UInt8) : Res RawSolStaker :=
  if b.length = solStakerLen then
    match chunks solStakerSizes b with
    | [d, st, ef, co, au, vo, lh, ls, la, so] =>
      if d = solStakerDisc then
        .ok { del := { staked := leNat st, effective := leNat ef, cooldown := leNat co, authority := au, vote := vo
                       lastHolder := leNat lh, lastStake := leNat ls }
              lamports := leNat la, solStake := so }
      else .error .uninitializedAccount
    | _ => .error .invalidAccountData
  else .error .invalidAccountData

/-! ## Abstraction

How the data of an account of the program appears in the rest of the model. `key` is `Pubkey::new_from_array`. -/

def RawDelegation.abs (key : List UInt8 → Key) (d : RawDelegation) : Delegation :=
  { staked := d.staked, effective := d.effective, cooldown := d.cooldown, authority := key d.authority
    vote := key d.vote, lastHolder := d.lastHolder, lastStake := d.lastStake }

def RawConfig.abs (key : List UInt8 → Key) (r : RawConfig) : Config :=
  { authority := key r.authority, slashAuthority := key r.slashAuthority, vault := key r.vault
    cooldownTime := r.cooldownTime, effTotal := r.effTotal, syncRewards := r.syncRewards, lamportsLast := r.lamportsLast
    dunaHash := r.dunaHash, acc := r.acc, maxBps := r.maxBps, bump := r.bump }

def RawValidator.abs (key : List UInt8 → Key) (r : RawValidator) : ValidatorStake :=
  { del := r.del.abs key, total := r.total, min := r.min }

def RawSolStaker.abs (key : List UInt8 → Key) (r : RawSolStaker) : SolStakerStake :=
  { del := r.del.abs key, lamports := r.lamports, solStake := key r.solStake }

/-- The `Data` that stands for a byte string on an account of the program. -/
def absData (key : List UInt8 → Key) (b : List UInt8) : Data :=
  match readConfig b with
  | .ok r => .config (r.abs key)
  | .error _ =>
    match readValidator b with
    | .ok r => .validator (r.abs key)
    | .error _ =>
      match readSolStaker b with
      | .ok r => .solStaker (r.abs key)
      | .error _ => .bytes b

end Verif.Layout
