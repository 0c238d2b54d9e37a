{
 "claims": [
  {
   "property": "C01",
   "status": "proved",
   "theorems": [
    "Verif.Props.C01_effective_total_is_sum"
   ],
   "note": ""
  },
  {
   "property": "C02",
   "status": "proved",
   "theorems": [
    "Verif.Props.C02_validator_effective_bounded",
    "Verif.Props.C02_solStaker_effective_bounded"
   ],
   "note": ""
  },
  {
   "property": "C03",
   "status": "proved",
   "theorems": [
    "Verif.Props.C03_solStaker_effective_exact"
   ],
   "note": ""
  },
  {
   "property": "C04",
   "status": "proved",
   "theorems": [
    "Verif.Props.C04_stake",
    "Verif.Props.C04_unstake",
    "Verif.Props.C04_slash",
    "Verif.Props.C04_override",
    "Verif.Props.C04_sync",
    "Verif.Props.C04_not_always_exact"
   ],
   "note": ""
  },
  {
   "property": "C05",
   "status": "proved",
   "theorems": [
    "Verif.Props.C05_total"
   ],
   "note": ""
  },
  {
   "property": "C06",
   "status": "proved",
   "theorems": [
    "Verif.Props.C06_shrink_needs_signature"
   ],
   "note": ""
  },
  {
   "property": "C07",
   "status": "proved",
   "theorems": [
    "Verif.Props.C07_growth_is_paid"
   ],
   "note": ""
  },
  {
   "property": "C08",
   "status": "proved",
   "theorems": [
    "Verif.Props.C08_solStaker_authority_fixed",
    "Verif.Props.C08_validator_authority_synced"
   ],
   "note": ""
  },
  {
   "property": "C09",
   "status": "proved",
   "theorems": [
    "Verif.Props.C09_settings_need_signature",
    "Verif.Props.C09_settings_frozen"
   ],
   "note": ""
  },
  {
   "property": "C10",
   "status": "proved",
   "theorems": [
    "Verif.Props.C10_slash_authority_needs_signature",
    "Verif.Props.C10_slash_authority_stays_unset",
    "Verif.Props.C10_no_slash_once_unset"
   ],
   "note": ""
  },
  {
   "property": "C11",
   "status": "proved",
   "theorems": [
    "Verif.Props.C11_fixed_at_creation",
    "Verif.Props.C11_bump_canonical"
   ],
   "note": ""
  },
  {
   "property": "C12",
   "status": "proved",
   "theorems": [
    "Verif.Props.C12_limit_at_most_all"
   ],
   "note": ""
  },
  {
   "property": "C13",
   "status": "proved",
   "theorems": [
    "Verif.Props.C13_unstake"
   ],
   "note": ""
  },
  {
   "property": "C14",
   "status": "proved",
   "theorems": [
    "Verif.Props.C14_cooldown_never_decreases",
    "Verif.Props.C14_unstakes_apart"
   ],
   "note": ""
  },
  {
   "property": "C15",
   "status": "proved",
   "theorems": [
    "Verif.Props.C15_move"
   ],
   "note": ""
  },
  {
   "property": "C16",
   "status": "proved",
   "theorems": [
    "Verif.Props.C16_slash"
   ],
   "note": ""
  },
  {
   "property": "C17",
   "status": "proved",
   "theorems": [
    "Verif.Props.C17_staked_total"
   ],
   "note": ""
  },
  {
   "property": "C18",
   "status": "proved",
   "theorems": [
    "Verif.Props.C18_staked_backed"
   ],
   "note": ""
  },
  {
   "property": "C19",
   "status": "proved",
   "theorems": [
    "Verif.Props.C19_validator_harvest",
    "Verif.Props.C19_sol_staker_harvest"
   ],
   "note": ""
  },
  {
   "property": "C20",
   "status": "proved",
   "theorems": [
    "Verif.Props.C20_validator_repeat",
    "Verif.Props.C20_sol_staker_repeat"
   ],
   "note": ""
  },
  {
   "property": "C21",
   "status": "proved",
   "theorems": [
    "Verif.Props.C21_keeper_share"
   ],
   "note": ""
  },
  {
   "property": "C22",
   "status": "partial",
   "theorems": [
    "Verif.Props.C22_claims_covered_partial",
    "Verif.Props.C22_fails_with_settling_deposits",
    "Verif.Props.C22_fails_with_config_keeper"
   ],
   "note": "Proved for histories in which no Deposit moves the vault's accumulator and no sync names the config as keeper; each exclusion alone is not enough: C22_fails_with_settling_deposits and C22_fails_with_config_keeper refute the statements without one or the other. C94 bounds the shortfall in every history, with no exclusions."
  },
  {
   "property": "C23",
   "status": "proved",
   "theorems": [
    "Verif.Props.C23_lamports_last",
    "Verif.Props.C23_effective_total",
    "Verif.Props.C23_validator_total"
   ],
   "note": ""
  },
  {
   "property": "C24",
   "status": "proved",
   "theorems": [
    "Verif.Props.C24_other_configs_unchanged",
    "Verif.Props.C24_other_stakes_unchanged",
    "Verif.Props.C24_one_config"
   ],
   "note": ""
  },
  {
   "property": "C25",
   "status": "proved",
   "theorems": [
    "Verif.Props.C25_config_permanent",
    "Verif.Props.C25_validator_permanent",
    "Verif.Props.C25_solStaker_permanent",
    "Verif.Props.C25_initialize_config_once",
    "Verif.Props.C25_initialize_stake_once"
   ],
   "note": ""
  },
  {
   "property": "C26",
   "status": "proved",
   "theorems": [
    "Verif.Props.C26_validator_stake",
    "Verif.Props.C26_sol_staker_stake",
    "Verif.Props.C26_no_signature_needed"
   ],
   "note": ""
  },
  {
   "property": "C27",
   "status": "proved",
   "theorems": [
    "Verif.Props.C27_validator_address",
    "Verif.Props.C27_solStaker_address",
    "Verif.Props.C27_validator_unique",
    "Verif.Props.C27_solStaker_unique"
   ],
   "note": ""
  },
  {
   "property": "C28",
   "status": "proved",
   "theorems": [
    "Verif.Props.C28_config_rent_exempt",
    "Verif.Props.C28_validator_rent_exempt",
    "Verif.Props.C28_solStaker_rent_exempt"
   ],
   "note": ""
  },
  {
   "property": "C29",
   "status": "proved",
   "theorems": [
    "Verif.Props.C29_conserved",
    "Verif.Props.C29_debits"
   ],
   "note": ""
  },
  {
   "property": "C30",
   "status": "proved",
   "theorems": [
    "Verif.Props.C30_unpack_pack",
    "Verif.Props.C30_pack_injective"
   ],
   "note": ""
  },
  {
   "property": "C31",
   "status": "proved",
   "theorems": [
    "Verif.Props.C31_accepted",
    "Verif.Props.C31_rejected",
    "Verif.Props.C31_lengths"
   ],
   "note": ""
  },
  {
   "property": "C32",
   "status": "proved",
   "theorems": [
    "Verif.Props.C32_config_read_write",
    "Verif.Props.C32_config_write_read",
    "Verif.Props.C32_validator_read_write",
    "Verif.Props.C32_validator_write_read",
    "Verif.Props.C32_sol_staker_read_write",
    "Verif.Props.C32_sol_staker_write_read",
    "Verif.Props.C32_no_confusion",
    "Verif.Props.C32_uninitialised_rejected",
    "Verif.Props.C32_model_reads_bytes"
   ],
   "note": ""
  },
  {
   "property": "C33",
   "status": "proved",
   "theorems": [
    "Verif.Props.C33_eligible_rewards",
    "Verif.Props.C33_no_overflow"
   ],
   "note": ""
  },
  {
   "property": "C34",
   "status": "proved",
   "theorems": [
    "Verif.Props.C34_rewards_per_token"
   ],
   "note": ""
  },
  {
   "property": "C35",
   "status": "proved",
   "theorems": [
    "Verif.Props.C35_cap_exact",
    "Verif.Props.C35_cap_monotone"
   ],
   "note": ""
  },
  {
   "property": "C36",
   "status": "proved",
   "theorems": [
    "Verif.Props.C36_proportional_share",
    "Verif.Props.C36_between_two_harvests",
    "Verif.Props.C36_loss_above_two",
    "Verif.Props.C36_nobody"
   ],
   "note": ""
  },
  {
   "property": "C37",
   "status": "proved",
   "theorems": [
    "Verif.Props.C37_stake_settles",
    "Verif.Props.C37_empty_accrues_nothing"
   ],
   "note": ""
  },
  {
   "property": "C38",
   "status": "proved",
   "theorems": [
    "Verif.Props.C38_holder_rewards_pass_through",
    "Verif.Props.C38_no_stake_reward"
   ],
   "note": ""
  },
  {
   "property": "C39",
   "status": "proved",
   "theorems": [
    "Verif.Props.C39_authority_is_withdrawer",
    "Verif.Props.C39_override_account_empty"
   ],
   "note": ""
  },
  {
   "property": "C40",
   "status": "proved",
   "theorems": [
    "Verif.Props.C40_config_widths",
    "Verif.Props.C40_validator_widths",
    "Verif.Props.C40_solStaker_widths"
   ],
   "note": ""
  },
  {
   "property": "C41",
   "status": "proved",
   "theorems": [
    "Verif.Props.C41_stakes_unchanged",
    "Verif.Props.C41_tokens_unchanged",
    "Verif.Props.C41_foreign_data_unchanged"
   ],
   "note": ""
  },
  {
   "property": "C42",
   "status": "proved",
   "theorems": [
    "Verif.Props.C42_other_instructions_move_no_tokens",
    "Verif.Props.C42_unstake_leaves_the_vault"
   ],
   "note": ""
  },
  {
   "property": "C43",
   "status": "proved",
   "theorems": [
    "Verif.Props.C43_undelegated_has_no_lamports",
    "Verif.Props.C43_view_hypothesis_needed"
   ],
   "note": ""
  },
  {
   "property": "C44",
   "status": "partial",
   "theorems": [
    "Verif.Props.C44_no_past_holder_rewards_partial",
    "Verif.Props.C44_claim_after_stake",
    "Verif.Props.C44_fails_with_settling_deposits"
   ],
   "note": "Proved when the Deposit does not move the vault's accumulator, with the exact claim in general; the unrestricted statement is refuted by C44_fails_with_settling_deposits."
  },
  {
   "property": "C45",
   "status": "proved",
   "theorems": [
    "Verif.Props.C45_stake_leaves_the_vault",
    "Verif.Props.C45_vault_falls_only_by_slash"
   ],
   "note": ""
  },
  {
   "property": "C46",
   "status": "proved",
   "theorems": [
    "Verif.Props.C46_new_config",
    "Verif.Props.C46_vault_program_unchecked",
    "Verif.Props.C46_false_vault_takes_no_tokens"
   ],
   "note": ""
  },
  {
   "property": "C47",
   "status": "proved",
   "theorems": [
    "Verif.Props.C47_set_authority",
    "Verif.Props.C47_update_config"
   ],
   "note": ""
  },
  {
   "property": "C48",
   "status": "proved",
   "theorems": [
    "Verif.Props.C48_minimum_changes_only_by_override",
    "Verif.Props.C48_override_sets_minimum"
   ],
   "note": ""
  },
  {
   "property": "C49",
   "status": "proved",
   "theorems": [
    "Verif.Props.C49_record_follows_native_stake",
    "Verif.Props.C49_record_changes_only_by_harvest",
    "Verif.Props.C49_total_changes_only_by_sync"
   ],
   "note": ""
  },
  {
   "property": "C50",
   "status": "proved",
   "theorems": [
    "Verif.Props.C50_stake",
    "Verif.Props.C50_unstake",
    "Verif.Props.C50_slash",
    "Verif.Props.C50_move",
    "Verif.Props.C50_override"
   ],
   "note": ""
  },
  {
   "property": "C51",
   "status": "proved",
   "theorems": [
    "Verif.Props.C51_zero_stake_rejected",
    "Verif.Props.C51_deposit_call",
    "Verif.Props.C51_withdraw_call"
   ],
   "note": ""
  },
  {
   "property": "C52",
   "status": "proved",
   "theorems": [
    "Verif.Props.C52_set_authority_accepted",
    "Verif.Props.C52_update_config_accepted"
   ],
   "note": ""
  },
  {
   "property": "C53",
   "status": "proved",
   "theorems": [
    "Verif.Props.C53_sync_authority_accepted"
   ],
   "note": ""
  },
  {
   "property": "C54",
   "status": "proved",
   "theorems": [
    "Verif.Props.C54_harvest_validator_accepted"
   ],
   "note": ""
  },
  {
   "property": "C55",
   "status": "proved",
   "theorems": [
    "Verif.Props.C55_override_accepted"
   ],
   "note": ""
  },
  {
   "property": "C56",
   "status": "proved",
   "theorems": [
    "Verif.Props.C56_move_accepted"
   ],
   "note": ""
  },
  {
   "property": "C57",
   "status": "proved",
   "theorems": [
    "Verif.Props.C57_slash_validator_accepted",
    "Verif.Props.C57_slash_sol_staker_accepted"
   ],
   "note": ""
  },
  {
   "property": "C58",
   "status": "proved",
   "theorems": [
    "Verif.Props.C58_unstake_accepted"
   ],
   "note": ""
  },
  {
   "property": "C59",
   "status": "proved",
   "theorems": [
    "Verif.Props.C59_stake_validator_accepted",
    "Verif.Props.C59_stake_sol_staker_accepted"
   ],
   "note": ""
  },
  {
   "property": "C60",
   "status": "proved",
   "theorems": [
    "Verif.Props.C60_harvest_sol_staker_accepted",
    "Verif.Props.C60_sync_sol_staker_accepted"
   ],
   "note": ""
  },
  {
   "property": "C61",
   "status": "proved",
   "theorems": [
    "Verif.Props.C61_initialize_validator_accepted",
    "Verif.Props.C61_initialize_sol_staker_accepted",
    "Verif.Props.C61_initialize_config_accepted"
   ],
   "note": ""
  },
  {
   "property": "C62",
   "status": "proved",
   "theorems": [
    "Verif.Props.C62_harvest_holder_accepted"
   ],
   "note": ""
  },
  {
   "property": "C63",
   "status": "proved",
   "theorems": [
    "Verif.Props.C63_footprint"
   ],
   "note": ""
  },
  {
   "property": "C64",
   "status": "proved",
   "theorems": [
    "Verif.Props.C64_client_decodes",
    "Verif.Props.C64_client_program",
    "Verif.Props.C64_client_runs",
    "Verif.Props.C64_client_signers"
   ],
   "note": ""
  },
  {
   "property": "C65",
   "status": "proved",
   "theorems": [
    "Verif.Props.C65_client_flags",
    "Verif.Props.C65_client_flags_suffice"
   ],
   "note": ""
  },
  {
   "property": "C66",
   "status": "proved",
   "theorems": [
    "Verif.Props.C66_client_stake_fails",
    "Verif.Props.C66_client_move_fails"
   ],
   "note": ""
  },
  {
   "property": "C67",
   "status": "proved",
   "theorems": [
    "Verif.Props.C67_client_config",
    "Verif.Props.C67_client_validator",
    "Verif.Props.C67_client_sol_staker",
    "Verif.Props.C67_client_accepts_config",
    "Verif.Props.C67_client_accepts_validator",
    "Verif.Props.C67_client_accepts_sol_staker"
   ],
   "note": ""
  },
  {
   "property": "C68",
   "status": "proved",
   "theorems": [
    "Verif.Props.C68_addresses_distinct",
    "Verif.Props.C68_vault_bump_canonical",
    "Verif.Props.C68_signer_seeds",
    "Verif.Props.C68_derivation_total"
   ],
   "note": ""
  },
  {
   "property": "C69",
   "status": "proved",
   "theorems": [
    "Verif.Props.C69_rust_client_addresses",
    "Verif.Props.C69_js_vault_address_wrong"
   ],
   "note": ""
  },
  {
   "property": "C70",
   "status": "proved",
   "theorems": [
    "Verif.Props.C70_sees_only_its_accounts",
    "Verif.Props.C70_changes_only_writable"
   ],
   "note": ""
  },
  {
   "property": "C71",
   "status": "proved",
   "theorems": [
    "Verif.Props.C71_order_does_not_matter"
   ],
   "note": ""
  },
  {
   "property": "C72",
   "status": "proved",
   "theorems": [
    "Verif.Props.C72_accumulator_kept",
    "Verif.Props.C72_accrued_kept",
    "Verif.Props.C72_waiting_costs_nothing",
    "Verif.Props.C72_sol_staker_waiting"
   ],
   "note": ""
  },
  {
   "property": "C73",
   "status": "proved",
   "theorems": [
    "Verif.Props.C73_never_empties"
   ],
   "note": ""
  },
  {
   "property": "C74",
   "status": "proved",
   "theorems": [
    "Verif.Props.C74_outflow_limited"
   ],
   "note": ""
  },
  {
   "property": "C75",
   "status": "proved",
   "theorems": [
    "Verif.Props.C75_sync_keeps_rewards",
    "Verif.Props.C75_new_authority_paid"
   ],
   "note": ""
  },
  {
   "property": "C76",
   "status": "proved",
   "theorems": [
    "Verif.Props.C76_accounts_checked",
    "Verif.Props.C76_signatures_checked"
   ],
   "note": ""
  },
  {
   "property": "C77",
   "status": "proved",
   "theorems": [
    "Verif.Props.C77_slashes_are_prepaid",
    "Verif.Props.C77_no_slash_before_funding"
   ],
   "note": ""
  },
  {
   "property": "C78",
   "status": "proved",
   "theorems": [
    "Verif.Props.C78_deposit_keeps_slashed",
    "Verif.Props.C78_slashed_deposit_is_stuck"
   ],
   "note": ""
  },
  {
   "property": "C79",
   "status": "proved",
   "theorems": [
    "Verif.Props.C79_panics",
    "Verif.Props.C79_panics_ordinarily",
    "Verif.Props.C79_shortfall_bounded",
    "Verif.Props.C79_sync_unregistered"
   ],
   "note": ""
  },
  {
   "property": "C80",
   "status": "proved",
   "theorems": [
    "Verif.Props.C80_builder",
    "Verif.Props.C80_builder_panics",
    "Verif.Props.C80_builder_runs"
   ],
   "note": ""
  },
  {
   "property": "C81",
   "status": "proved",
   "theorems": [
    "Verif.Props.C81_cpi_instruction",
    "Verif.Props.C81_cpi_panics",
    "Verif.Props.C81_cpi_accounts",
    "Verif.Props.C81_cpi_allowed",
    "Verif.Props.C81_cpi_runs"
   ],
   "note": ""
  },
  {
   "property": "C82",
   "status": "proved",
   "theorems": [
    "Verif.Props.C82_cpi_flags",
    "Verif.Props.C82_cpi_refused"
   ],
   "note": ""
  },
  {
   "property": "C83",
   "status": "proved",
   "theorems": [
    "Verif.Props.C83_js_request",
    "Verif.Props.C83_js_throws",
    "Verif.Props.C83_js_missing",
    "Verif.Props.C83_js_hash"
   ],
   "note": ""
  },
  {
   "property": "C84",
   "status": "proved",
   "theorems": [
    "Verif.Props.C84_js_parse",
    "Verif.Props.C84_js_identify",
    "Verif.Props.C84_js_decode",
    "Verif.Props.C84_js_parse_unchecked"
   ],
   "note": ""
  },
  {
   "property": "C85",
   "status": "proved",
   "theorems": [
    "Verif.Props.C85_js_config",
    "Verif.Props.C85_js_validator",
    "Verif.Props.C85_js_sol_staker",
    "Verif.Props.C85_js_config_encode",
    "Verif.Props.C85_js_validator_encode",
    "Verif.Props.C85_js_sol_staker_encode",
    "Verif.Props.C85_js_config_decode",
    "Verif.Props.C85_js_validator_decode",
    "Verif.Props.C85_js_sol_staker_decode",
    "Verif.Props.C85_js_nullable_u64",
    "Verif.Props.C85_js_nullable_u64_zero"
   ],
   "note": ""
  },
  {
   "property": "C86",
   "status": "proved",
   "theorems": [
    "Verif.Props.C86_error_reason",
    "Verif.Props.C86_never_returned",
    "Verif.Props.C86_returned"
   ],
   "note": ""
  },
  {
   "property": "C87",
   "status": "proved",
   "theorems": [
    "Verif.Props.C87_code_injective",
    "Verif.Props.C87_rust_client",
    "Verif.Props.C87_js_client",
    "Verif.Props.C87_lists"
   ],
   "note": ""
  },
  {
   "property": "C88",
   "status": "proved",
   "theorems": [
    "Verif.Props.C88_decode_encode",
    "Verif.Props.C88_encode_decode",
    "Verif.Props.C88_idl_request",
    "Verif.Props.C88_idl_runs",
    "Verif.Props.C88_idl_nothing_missing",
    "Verif.Props.C88_idl_config",
    "Verif.Props.C88_idl_validator",
    "Verif.Props.C88_idl_sol_staker",
    "Verif.Props.C88_idl_accounts_undefined",
    "Verif.Props.C88_idl_sizes"
   ],
   "note": ""
  },
  {
   "property": "C89",
   "status": "proved",
   "theorems": [
    "Verif.Props.C89_extra_accounts_ignored",
    "Verif.Props.C89_extra_accounts_unchanged",
    "Verif.Props.C89_too_few_accounts"
   ],
   "note": ""
  },
  {
   "property": "C90",
   "status": "proved",
   "theorems": [
    "Verif.Props.C90_paid_once",
    "Verif.Props.C90_paid_every_time"
   ],
   "note": ""
  },
  {
   "property": "C91",
   "status": "proved",
   "theorems": [
    "Verif.Props.C91_splitting_adds_no_stake",
    "Verif.Props.C91_splitting_adds_no_rewards",
    "Verif.Props.C91_totals_exist",
    "Verif.Props.C91_effective_total_bounded"
   ],
   "note": ""
  },
  {
   "property": "C92",
   "status": "proved",
   "theorems": [
    "Verif.Props.C92_own_accounts_not_handed",
    "Verif.Props.C92_handed_payee_had_nothing_due",
    "Verif.Props.C92_own_tokens_refused",
    "Verif.Props.C92_own_tokens_unbalanced_validator",
    "Verif.Props.C92_own_tokens_unbalanced_sol_staker",
    "Verif.Props.C92_harvest_first"
   ],
   "note": ""
  },
  {
   "property": "C93",
   "status": "proved",
   "theorems": [
    "Verif.Props.C93_not_overpaid",
    "Verif.Props.C93_nothing_lost",
    "Verif.Props.C93_claims_total",
    "Verif.Props.C93_ledger_continues",
    "Verif.Props.C93_paid_from_config"
   ],
   "note": ""
  },
  {
   "property": "C94",
   "status": "proved",
   "theorems": [
    "Verif.Props.C94_shortfall_bounded",
    "Verif.Props.C94_every_history",
    "Verif.Props.C94_two_causes",
    "Verif.Props.C94_stake_credit"
   ],
   "note": ""
  },
  {
   "property": "C95",
   "status": "proved",
   "theorems": [
    "Verif.Props.C95_others_cannot_worsen",
    "Verif.Props.C95_withdrawal_kept",
    "Verif.Props.C95_rules_applied"
   ],
   "note": ""
  },
  {
   "property": "C96",
   "status": "proved",
   "theorems": [
    "Verif.Props.C96_remains",
    "Verif.Props.C96_apart",
    "Verif.Props.C96_exit_speed",
    "Verif.Props.C96_full_exit",
    "Verif.Props.C96_dust"
   ],
   "note": ""
  },
  {
   "property": "C97",
   "status": "proved",
   "theorems": [
    "Verif.Props.C97_drain_limited"
   ],
   "note": ""
  },
  {
   "property": "C98",
   "status": "proved",
   "theorems": [
    "Verif.Props.C98_history"
   ],
   "note": "Instructions of other programs in the transaction obey the rules for other programs (ExtStep)."
  },
  {
   "property": "C99",
   "status": "proved",
   "theorems": [
    "Verif.Props.C99_commits_iff",
    "Verif.Props.C99_small_reward_refused",
    "Verif.Props.C99_top_up",
    "Verif.Props.C99_harvest_after_top_up",
    "Verif.Props.C99_slash_after_top_up",
    "Verif.Props.C99_slash_sol_staker_after_top_up"
   ],
   "note": "The fee and the exemption of the incinerator account from the rent check are not modelled. The rewards program is assumed to leave accounts that it debits or resizes rent exempt."
  },
  {
   "property": "C100",
   "status": "proved",
   "theorems": [
    "Verif.Props.C100_unwritable_authority"
   ],
   "note": "That the runtime demotes reserved addresses to read-only is the hypothesis that the address is not writable."
  },
  {
   "property": "C101",
   "status": "proved",
   "theorems": [
    "Verif.Props.C101_slashed_rewards_are_stuck",
    "Verif.Props.C101_every_history",
    "Verif.Props.C101_deposit_includes_slashed"
   ],
   "note": ""
  },
  {
   "property": "C102",
   "status": "proved",
   "theorems": [
    "Verif.Props.C102_set_authority",
    "Verif.Props.C102_update_config",
    "Verif.Props.C102_sync_authority",
    "Verif.Props.C102_harvest_validator",
    "Verif.Props.C102_override",
    "Verif.Props.C102_move",
    "Verif.Props.C102_slash_validator",
    "Verif.Props.C102_slash_sol_staker",
    "Verif.Props.C102_harvest_sol_staker",
    "Verif.Props.C102_initialize_validator",
    "Verif.Props.C102_initialize_sol_staker",
    "Verif.Props.C102_initialize_config",
    "Verif.Props.C102_sync_sol_staker",
    "Verif.Props.C102_stake_validator",
    "Verif.Props.C102_stake_sol_staker",
    "Verif.Props.C102_unstake",
    "Verif.Props.C102_harvest_holder"
   ],
   "note": ""
  },
  {
   "property": "C103",
   "status": "proved",
   "theorems": [
    "Verif.Props.C103_clock_for_unstake_only",
    "Verif.Props.C103_cooldown_changes"
   ],
   "note": ""
  },
  {
   "property": "C104",
   "status": "proved",
   "theorems": [
    "Verif.Props.C104_standard_errors",
    "Verif.Props.C104_returned"
   ],
   "note": ""
  },
  {
   "property": "C105",
   "status": "proved",
   "theorems": [
    "Verif.Props.C105_harvest_validator",
    "Verif.Props.C105_override",
    "Verif.Props.C105_slash_validator",
    "Verif.Props.C105_slash_sol_staker",
    "Verif.Props.C105_move",
    "Verif.Props.C105_harvest_sol_unchanged",
    "Verif.Props.C105_harvest_sol_changed",
    "Verif.Props.C105_set_authority",
    "Verif.Props.C105_update_config",
    "Verif.Props.C105_sync_authority",
    "Verif.Props.C105_initialize_validator",
    "Verif.Props.C105_initialize_sol_staker",
    "Verif.Props.C105_initialize_config",
    "Verif.Props.C105_stake_validator",
    "Verif.Props.C105_stake_sol_staker",
    "Verif.Props.C105_unstake",
    "Verif.Props.C105_harvest_holder"
   ],
   "note": ""
  },
  {
   "property": "C106",
   "status": "proved",
   "theorems": [
    "Verif.Props.C106_objections",
    "Verif.Props.C106_no_objection",
    "Verif.Props.C106_objections_occur"
   ],
   "note": ""
  },
  {
   "property": "C107",
   "status": "proved",
   "theorems": [
    "Verif.Props.C107_never_returns",
    "Verif.Props.C107_nothing_passed_on",
    "Verif.Props.C107_funded_stays",
    "Verif.Props.C107_initialised",
    "Verif.Props.C107_locked"
   ],
   "note": ""
  },
  {
   "property": "C108",
   "status": "proved",
   "theorems": [
    "Verif.Props.C108_idle_lamports_are_stuck",
    "Verif.Props.C108_every_history",
    "Verif.Props.C108_no_claim",
    "Verif.Props.C108_stake_account_keeps"
   ],
   "note": ""
  },
  {
   "property": "C109",
   "status": "proved",
   "theorems": [
    "Verif.Props.C109_first_come"
   ],
   "note": ""
  },
  {
   "property": "C110",
   "status": "proved",
   "theorems": [
    "Verif.Props.C110_sol_staker_signed",
    "Verif.Props.C110_validator_signed_or_synced",
    "Verif.Props.C110_never_signed_no_sol_staker",
    "Verif.Props.C110_sync_needs_no_signature"
   ],
   "note": ""
  },
  {
   "property": "C111",
   "status": "proved",
   "theorems": [
    "Verif.Props.C111_no_more_than_share",
    "Verif.Props.C111_no_less_than_share"
   ],
   "note": ""
  },
  {
   "property": "C112",
   "status": "proved",
   "theorems": [
    "Verif.Props.C112_calls",
    "Verif.Props.C112_signature"
   ],
   "note": ""
  },
  {
   "property": "C113",
   "status": "proved",
   "theorems": [
    "Verif.Props.C113_no_more",
    "Verif.Props.C113_no_less",
    "Verif.Props.C113_paid"
   ],
   "note": ""
  },
  {
   "property": "C114",
   "status": "proved",
   "theorems": [
    "Verif.Props.C114_native_stake_looked_at",
    "Verif.Props.C114_harvest_brings_up_to_date",
    "Verif.Props.C114_new_account_up_to_date",
    "Verif.Props.C114_stays_up_to_date",
    "Verif.Props.C114_bounded_when_up_to_date",
    "Verif.Props.C114_counted_twice",
    "Verif.Props.C114_staked_on_nothing"
   ],
   "note": ""
  },
  {
   "property": "C115",
   "status": "proved",
   "theorems": [
    "Verif.Props.C115_calls_permitted"
   ],
   "note": ""
  },
  {
   "property": "C116",
   "status": "proved",
   "theorems": [
    "Verif.Props.C116_accessor",
    "Verif.Props.C116_accessor_panics"
   ],
   "note": ""
  },
  {
   "property": "C117",
   "status": "proved",
   "theorems": [
    "Verif.Props.C117_stake_is_not_limited",
    "Verif.Props.C117_totals_are_not_staked_tokens",
    "Verif.Props.C117_unstake_pays_at_once",
    "Verif.Props.C117_validators_untouched",
    "Verif.Props.C117_set_authority_on_configs_only"
   ],
   "note": ""
  },
  {
   "property": "C118",
   "status": "proved",
   "theorems": [
    "Verif.Props.C118_config",
    "Verif.Props.C118_validator",
    "Verif.Props.C118_sol_staker",
    "Verif.Props.C118_program_reads_config",
    "Verif.Props.C118_program_reads_validator",
    "Verif.Props.C118_program_reads_sol_staker",
    "Verif.Props.C118_nullable"
   ],
   "note": ""
  },
  {
   "property": "C119",
   "status": "proved",
   "theorems": [
    "Verif.Props.C119_frozen_refuses",
    "Verif.Props.C119_frozen_slash",
    "Verif.Props.C119_frozen_vault",
    "Verif.Props.C119_frozen_vault_is_accepted"
   ],
   "note": ""
  },
  {
   "property": "C120",
   "status": "proved",
   "theorems": [
    "Verif.Props.C120_moved_tokens_are_not_slashed"
   ],
   "note": ""
  },
  {
   "property": "C121",
   "status": "proved",
   "theorems": [
    "Verif.Props.C121_no_minimum_time",
    "Verif.Props.C121_in_and_out"
   ],
   "note": ""
  },
  {
   "property": "C122",
   "status": "proved",
   "theorems": [
    "Verif.Props.C122_limit_at_once",
    "Verif.Props.C122_cooldown_time_later",
    "Verif.Props.C122_withdrawals_stopped",
    "Verif.Props.C122_locked_for_ever"
   ],
   "note": ""
  },
  {
   "property": "C123",
   "status": "proved",
   "theorems": [
    "Verif.Props.C123_others_write_nothing",
    "Verif.Props.C123_program_is_the_machine",
    "Verif.Props.C123_every_book",
    "Verif.Props.C123_what_the_machine_keeps"
   ],
   "note": ""
  },
  {
   "property": "C124",
   "status": "proved",
   "theorems": [
    "Verif.Props.C124_any_keeper_reward",
    "Verif.Props.C124_keeper_takes_all",
    "Verif.Props.C124_own_keeper"
   ],
   "note": ""
  },
  {
   "property": "C125",
   "status": "proved",
   "theorems": [
    "Verif.Props.C125_refused",
    "Verif.Props.C125_unstake_nothing",
    "Verif.Props.C125_move_nothing"
   ],
   "note": ""
  },
  {
   "property": "C126",
   "status": "proved",
   "theorems": [
    "Verif.Props.C126_stake_in_parts",
    "Verif.Props.C126_slash_in_parts",
    "Verif.Props.C126_move_in_parts",
    "Verif.Props.C126_same_effective"
   ],
   "note": ""
  },
  {
   "property": "C127",
   "status": "proved",
   "theorems": [
    "Verif.Props.C127_fetch_config",
    "Verif.Props.C127_fetch_validator",
    "Verif.Props.C127_fetch_sol_staker",
    "Verif.Props.C127_no_type_check",
    "Verif.Props.C127_config_as_validator",
    "Verif.Props.C127_fetch_all",
    "Verif.Props.C127_missing_are_named",
    "Verif.Props.C127_refused_is_named"
   ],
   "note": ""
  },
  {
   "property": "C128",
   "status": "proved",
   "theorems": [
    "Verif.Props.C128_machine",
    "Verif.Props.C128_any_order",
    "Verif.Props.C128_same_effective"
   ],
   "note": ""
  },
  {
   "property": "C129",
   "status": "proved",
   "theorems": [
    "Verif.Props.C129_line_is_determined",
    "Verif.Props.C129_journal_gives_book",
    "Verif.Props.C129_there_is_a_journal"
   ],
   "note": ""
  },
  {
   "property": "C130",
   "status": "proved",
   "theorems": [
    "Verif.Props.C130_accounted_for",
    "Verif.Props.C130_exact",
    "Verif.Props.C130_unsigned",
    "Verif.Props.C130_out_is_signed",
    "Verif.Props.C130_slash_is_signed"
   ],
   "note": ""
  },
  {
   "property": "C131",
   "status": "proved",
   "theorems": [
    "Verif.Props.C131_lock_is_from_a_withdrawal",
    "Verif.Props.C131_validator",
    "Verif.Props.C131_validator_last",
    "Verif.Props.C131_own_doing",
    "Verif.Props.C131_unsigned_is_unlocked"
   ],
   "note": ""
  },
  {
   "property": "C132",
   "status": "proved",
   "theorems": [
    "Verif.Props.C132_update_config",
    "Verif.Props.C132_sync_authority",
    "Verif.Props.C132_harvest_validator",
    "Verif.Props.C132_override",
    "Verif.Props.C132_harvest_sol_staker",
    "Verif.Props.C132_set_authority",
    "Verif.Props.C132_initialize",
    "Verif.Props.C132_unstake"
   ],
   "note": ""
  },
  {
   "property": "C133",
   "status": "proved",
   "theorems": [
    "Verif.Props.C133_together",
    "Verif.Props.C133_exact",
    "Verif.Props.C133_signed",
    "Verif.Props.C133_listed"
   ],
   "note": ""
  },
  {
   "property": "C134",
   "status": "proved",
   "theorems": [
    "Verif.Props.C134_settings",
    "Verif.Props.C134_owner",
    "Verif.Props.C134_entitled"
   ],
   "note": ""
  },
  {
   "property": "C135",
   "status": "proved",
   "theorems": [
    "Verif.Props.C135_config_once",
    "Verif.Props.C135_stake_once",
    "Verif.Props.C135_same_journal"
   ],
   "note": ""
  }
 ]
}