import Verif.Model.Client
/-!
# Writing accounts with the Rust client

`/repo/clients/rust/src/generated/accounts/*.rs` and `types/delegation.rs`: derived `BorshSerialize`, the fields one after the
other in the order of their declaration. `/repo/clients/rust/src/hooked/nullable_address.rs` and `nullable_u64.rs`.
-/

namespace Verif.Client

/-- `Delegation`, `types/delegation.rs` 14-30. -/
def ClientDelegation.toBytes (d : ClientDelegation) : List UInt8 :=
  leBytes 8 d.stakedAmount ++ (leBytes 8 d.effectiveAmount ++ (leBytes 8 d.unstakeCooldown ++ (d.authority ++ (d.validatorVote ++
    (leBytes 16 d.lastSeenHolderRewardsPerToken ++ leBytes 16 d.lastSeenStakeRewardsPerToken)))))

/-- `Config`, `accounts/config.rs` 13-33. -/
def ClientConfig.toBytes (c : ClientConfig) : List UInt8 :=
  c.discriminator ++ (c.authority ++ (c.slashAuthority ++ (c.vault ++ (leBytes 8 c.cooldownTimeSeconds ++
    (leBytes 8 c.tokenAmountEffective ++ (leBytes 8 c.syncRewardsLamports ++ (leBytes 8 c.lamportsLast ++ (c.dunaDocumentHash ++
      (leBytes 16 c.accumulatedStakeRewardsPerToken ++ (leBytes 2 c.maxDeactivationBasisPoints ++
        (leBytes 1 c.vaultAuthorityBump ++ c.padding)))))))))))

/-- `ValidatorStake`, `accounts/validator_stake.rs` 12-19. -/
def ClientValidatorStake.toBytes (v : ClientValidatorStake) : List UInt8 :=
  v.discriminator ++ (v.delegation.toBytes ++ (leBytes 8 v.totalStakedLamportsAmount ++ leBytes 8 v.totalStakedLamportsAmountMin))

/-- `SolStakerStake`, `accounts/sol_staker_stake.rs` 13-24. -/
def ClientSolStakerStake.toBytes (s : ClientSolStakerStake) : List UInt8 :=
  s.discriminator ++ (s.delegation.toBytes ++ (leBytes 8 s.lamportsAmount ++ s.solStake))

/-- `NullableAddress::from(Option<Pubkey>)`, `hooked/nullable_address.rs` 18-22. -/
def nullableFrom (value : Option (List UInt8)) : List UInt8 := value.getD (List.replicate 32 0)

/-- `NullableU64::from(Option<u64>)`, `hooked/nullable_u64.rs` 17-21. -/
def nullableU64From (value : Option Nat) : Nat := value.getD 0

/-- `NullableU64::value`, `hooked/nullable_u64.rs` 7-15. -/
def nullableU64 (n : Nat) : Option Nat := if n = 0 then none else some n

end Verif.Client
