import Verif.Model.Shared
/-!
# An exported function that no instruction uses

`/repo/program/src/processor/mod.rs` 237-272. The crate exports it (`pub mod processor`), so other code may build on it.
-/

namespace Verif

/-- `unpack_delegation_mut_checked`, `processor/mod.rs` 243-272. The account type is chosen by the first eight bytes of the data, the
discriminator; taking them from shorter data panics. `unpack_initialized_mut` fails for data of another length. As elsewhere, a typed value
stands for the bytes that decode to it (`Model/Layout.lean`), so `.bytes b` are bytes that no stake account decodes from. The function
does not look at the owner of the account. -/
def unpackDelegationMutChecked (data : Data) (stake config : Key) : Res Delegation :=
  match data with
  -- 250-257
  | .solStaker s => do
    require (stake = .solStakerPda s.solStake config) .invalidSeeds
    return s.del
  -- 258-265
  | .validator v => do
    require (stake = .validatorPda v.del.vote config) .invalidSeeds
    return v.del
  -- 249 (slice), 266, and the failures of `unpack_initialized_mut`
  | d => .error (if d.len < 8 then .panic else .invalidAccountData)

end Verif
