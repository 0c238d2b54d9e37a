{"id": "C01", "title": "The config's effective total equals the sum over its stake accounts", "statement": "At every moment, for every initialised config, token_amount_effective equals the sum of effective_amount over all validator stake and SOL staker stake accounts that belong to that config.", "quantifier": "every history of program instructions (any bytes, any account lists, any aliasing, any signers) interleaved with arbitrary activity of other programs; every config; any number of stake accounts", "why_tests_cant": "The total is maintained incrementally by seven instructions; tests look at one or two accounts after one or two instructions, the claim is about sums over unboundedly many accounts after unboundedly many steps.", "anchors": ["program/src/processor/mod.rs: sync_effective", "program/src/state/config.rs: Config::token_amount_effective", "program/src/processor/*.rs"]}
{"id": "C02", "title": "Effective stake never exceeds the tokens staked nor the 1.3 cap", "statement": "At every moment every stake account has effective_amount <= staked_amount and effective_amount <= floor(1.3 * L), where L is the recorded lamports (for a validator: the larger of its recorded total and its override minimum).", "quantifier": "every history, every stake account", "why_tests_cant": "The cap has to survive every interleaving of staking, unstaking, slashing, moving, syncing and overriding; tests check single transitions.", "anchors": ["program/src/processor/mod.rs: sync_effective", "program/src/state/mod.rs: calculate_maximum_stake_for_lamports_amount"]}
{"id": "C03", "title": "A SOL staker's effective stake is exactly min(staked, floor(1.3 * lamports))", "statement": "At every moment every SOL staker stake account has effective_amount = min(staked_amount, floor(13 * lamports_amount / 10)).", "quantifier": "every history, every SOL staker stake account", "why_tests_cant": "Equality (no staleness) must be re-established by each instruction that changes either side; a test cannot cover all instruction orders.", "anchors": ["program/src/processor/mod.rs: sync_effective", "program/src/processor/harvest_sol_staker_rewards.rs", "program/src/processor/sol_staker_stake_tokens.rs", "program/src/processor/sol_staker_move_tokens.rs", "program/src/processor/slash_sol_staker_stake.rs", "program/src/processor/unstake_tokens.rs"]}
{"id": "C04", "title": "A validator's effective stake is exact whenever its stake account was just settled", "statement": "After every successful instruction that settles a validator stake account (stake, unstake, slash, override, and a SOL staker sync away from or onto it) its effective_amount equals min(staked_amount, floor(1.3 * max(total, minimum))). It is not exact at every moment: InitializeSolStakerStake raises the total and leaves effective_amount behind.", "quantifier": "every reachable state, every successful instruction of the listed kinds; plus a reachable counterexample for the unrestricted claim", "why_tests_cant": "A test that initialises a SOL staker checks the total only; the gap appears only in later states.", "anchors": ["program/src/processor/initialize_sol_staker_stake.rs", "program/src/processor/mod.rs: sync_effective"]}
{"id": "C05", "title": "A validator's lamport total is the sum of its delegated stakers' lamports", "statement": "At every moment a validator stake account's total_staked_lamports_amount equals the sum of lamports_amount over the SOL staker stake accounts of the same config whose validator_vote is that validator's vote account.", "quantifier": "every history, every validator stake account, any number of stakers, any values reported by the stake view program", "why_tests_cant": "Incrementally maintained total over unboundedly many accounts, including redelegation to the same validator, to another, to a non-Paladin validator and undelegation.", "anchors": ["program/src/processor/harvest_sol_staker_rewards.rs", "program/src/processor/initialize_sol_staker_stake.rs", "program/src/state/validator_stake.rs"]}
{"id": "C06", "title": "A stake can only shrink with the right signature", "statement": "If an instruction lowers the staked_amount of a stake account, then either the account's authority signed and the instruction is UnstakeTokens or SolStakerMoveTokens, or the config's slash authority signed and the instruction is a slash.", "quantifier": "every reachable state, every instruction bytes, every account list and signer set", "why_tests_cant": "Tests try a handful of missing signatures; the claim covers every instruction and every way of passing accounts.", "anchors": ["program/src/processor/unstake_tokens.rs", "program/src/processor/sol_staker_move_tokens.rs", "program/src/processor/slash_validator_stake.rs", "program/src/processor/slash_sol_staker_stake.rs"]}
{"id": "C07", "title": "A stake only grows by tokens actually paid in or moved in", "statement": "If an instruction raises the staked_amount of a stake account by d then either it is a stake instruction with amount d, whose source token account lost d tokens under the signature of its owner or delegate, or it is SolStakerMoveTokens and another stake account with the same authority and config shrank by d. (If the source is the rewards pool's own token account, the Deposit that follows gives it the tokens back.)", "quantifier": "every reachable state, every instruction, account list and signer set", "why_tests_cant": "Requires considering all account aliasing (source = vault, source = destination and so on).", "anchors": ["program/src/processor/validator_stake_tokens.rs", "program/src/processor/sol_staker_stake_tokens.rs", "program/src/processor/sol_staker_move_tokens.rs"]}
{"id": "C08", "title": "Stake authorities change only by syncing with the vote account", "statement": "The authority of a SOL staker stake account never changes after it is created. The authority of a validator stake account changes only through ValidatorSyncAuthority, and then to the withdraw authority stored in its own vote account.", "quantifier": "every reachable state, every instruction", "why_tests_cant": "Universal over all instructions and accounts.", "anchors": ["program/src/processor/validator_sync_authority.rs", "program/src/processor/set_authority.rs"]}
{"id": "C09", "title": "Config settings change only with the config authority's signature", "statement": "If an instruction changes cooldown_time_seconds, max_deactivation_basis_points, sync_rewards_lamports or the config authority of an initialised config then the current config authority is set and signed. Once the config authority is unset these values are frozen forever.", "quantifier": "every reachable state, every instruction; for the frozen part every later history", "why_tests_cant": "Frozen forever is a statement about all futures.", "anchors": ["program/src/processor/update_config.rs", "program/src/processor/set_authority.rs"]}
{"id": "C10", "title": "The slash authority changes only with its own signature", "statement": "If an instruction changes the slash authority of an initialised config then the current slash authority is set and signed. Once unset it stays unset, and no stake of that config can ever be slashed again.", "quantifier": "every reachable state, every instruction; every later history", "why_tests_cant": "Statement about all futures and all instructions.", "anchors": ["program/src/processor/set_authority.rs", "program/src/processor/slash_validator_stake.rs", "program/src/processor/slash_sol_staker_stake.rs"]}
{"id": "C11", "title": "Vault, vault bump and document hash are fixed at creation", "statement": "The vault address, the vault authority bump and the DUNA document hash of an initialised config never change, and the stored bump is always the canonical one, so the two ways the program derives the vault authority agree.", "quantifier": "every history, every config", "why_tests_cant": "Invariance over all histories.", "anchors": ["program/src/processor/initialize_config.rs", "program/src/state/mod.rs: find_vault_pda, create_vault_pda"]}
{"id": "C12", "title": "The deactivation limit is always a proportion of at most 100%", "statement": "At every moment every initialised config has max_deactivation_basis_points <= 10000.", "quantifier": "every history, every config", "why_tests_cant": "Two entry points set it; the claim is about all histories.", "anchors": ["program/src/processor/initialize_config.rs", "program/src/processor/update_config.rs"]}
{"id": "C13", "title": "Unstaking respects the limit, the cooldown and the balance", "statement": "If UnstakeTokens succeeds with amount a at time t then a <= staked_amount, a <= floor(staked_amount * bps / 10000), t is not before the account's unstake_cooldown, the staked_amount drops by exactly a, the destination token account gains exactly a, and the new unstake_cooldown is t plus the configured cooldown (saturating). (The destination's gain is said of a destination other than the rewards pool's own token account, under the rewards program's contract; the clock is not negative.)", "quantifier": "every reachable state, every successful UnstakeTokens", "why_tests_cant": "Boundary values and overflow over the whole input range.", "anchors": ["program/src/processor/unstake_tokens.rs"]}
{"id": "C14", "title": "Two unstakes of one account are a full cooldown apart", "statement": "After a successful UnstakeTokens on an account at time t under cooldown d, no UnstakeTokens on the same account succeeds before time t + d, whatever happens in between. The unstake_cooldown of an account never decreases.", "quantifier": "every history between the two unstakes, any instructions, any clock values", "why_tests_cant": "Quantifies over all intermediate histories, including moving tokens back and forth.", "anchors": ["program/src/processor/unstake_tokens.rs", "program/src/processor/sol_staker_move_tokens.rs"]}
{"id": "C15", "title": "Moving tokens conserves them and never advances a withdrawal", "statement": "If SolStakerMoveTokens succeeds with amount a then source and destination are different accounts of the same config with the same signing authority, the source drops by exactly a, the destination rises by exactly a, the destination's cooldown becomes the larger of the two, the source's cooldown is unchanged and no token account changes.", "quantifier": "every reachable state, every successful SolStakerMoveTokens, any aliasing", "why_tests_cant": "Self-move and overflow cases over all inputs.", "anchors": ["program/src/processor/sol_staker_move_tokens.rs"]}
{"id": "C16", "title": "A slash burns exactly what it takes", "statement": "If a slash with amount a succeeds then a > 0, the configured slash authority signed, the staked_amount drops by exactly min(a, staked_amount), the vault token balance and the mint supply drop by the same amount, and no other stake account's staked_amount changes.", "quantifier": "every reachable state, every successful slash", "why_tests_cant": "All amounts including larger than the stake, all account lists.", "anchors": ["program/src/processor/mod.rs: process_slash_for_delegation", "program/src/processor/slash_validator_stake.rs", "program/src/processor/slash_sol_staker_stake.rs"]}
{"id": "C17", "title": "Total staked tokens equal tokens paid in minus tokens taken out", "statement": "Over every history, the sum of staked_amount over all stake accounts of a config equals the sum of amounts of its successful stake instructions minus the amounts of its successful unstakes minus the amounts actually slashed.", "quantifier": "every history, every config, any number of accounts", "why_tests_cant": "Global accounting identity over unbounded histories.", "anchors": ["program/src/processor/validator_stake_tokens.rs", "program/src/processor/sol_staker_stake_tokens.rs", "program/src/processor/unstake_tokens.rs", "program/src/processor/mod.rs: process_slash_for_delegation", "program/src/processor/sol_staker_move_tokens.rs"]}
{"id": "C18", "title": "Staked tokens are backed by the rewards program deposit", "statement": "If the rewards program's Deposit and Withdraw move exactly the requested amount and nobody else can move the vault authority's deposit, then at every moment the sum of staked_amount of a config is at most the amount the rewards program records as deposited for the config's vault authority.", "quantifier": "every history under the stated contract for the rewards program; every config", "why_tests_cant": "Solvency over all histories.", "anchors": ["program/src/processor/validator_stake_tokens.rs", "program/src/processor/sol_staker_stake_tokens.rs", "program/src/processor/unstake_tokens.rs"]}
{"id": "C19", "title": "A harvest pays exactly the accrued rewards, to the authority", "statement": "When a stake account is settled it is paid floor(dS*effective/1e18) + floor(dH*staked/1e18), where dS and dH are the growth (modulo 2^128) of the two accumulators since the account was last settled; the amount leaves the config account and goes to the account's authority (less the keeper share), and the account's markers move to the current accumulators. (For HarvestSolStakerRewards the config itself must not be one of the recipients named.)", "quantifier": "every reachable state, every successful harvest instruction, all 128-bit accumulator values", "why_tests_cant": "128-bit wrap-around arithmetic over the full range.", "anchors": ["program/src/processor/mod.rs: harvest", "program/src/state/mod.rs: calculate_eligible_rewards"]}
{"id": "C20", "title": "Rewards cannot be claimed twice", "statement": "If a validator or SOL staker harvest succeeds and is repeated with no new lamports and no change of the holder accumulator, then the repeat pays nothing to anyone. (For HarvestSolStakerRewards the config itself must not be one of the recipients named.)", "quantifier": "every reachable state, every pair of consecutive harvests of one account, any choice of accounts passed", "why_tests_cant": "All states and both harvest instructions.", "anchors": ["program/src/processor/mod.rs: harvest", "program/src/processor/harvest_validator_rewards.rs", "program/src/processor/harvest_sol_staker_rewards.rs"]}
{"id": "C21", "title": "The keeper is paid only for a needed sync, and at most the configured amount", "statement": "HarvestSolStakerRewards pays the keeper min(total reward, sync_rewards_lamports) when the recorded lamports or vote differ from the live native stake, and nothing otherwise. The keeper never receives more than the staker had accrued. (The config itself must not be one of the recipients named, and the keeper's amount is said of a keeper that is not also the authority of an account being settled.)", "quantifier": "every reachable state, every successful HarvestSolStakerRewards", "why_tests_cant": "All reward sizes and view results.", "anchors": ["program/src/processor/harvest_sol_staker_rewards.rs", "program/src/processor/mod.rs: harvest"]}
{"id": "C22", "title": "Reward claims are always covered", "statement": "At every moment the rewards accrued by all stake accounts of a config together (stake rewards and holder rewards) are at most the config's lamports above its rent-exempt minimum, plus the lamports waiting in the vault authority, plus one lamport per holder-rewards payout so far.", "quantifier": "every history under the stated contract for the rewards program; every config; any number of accounts; including accumulator wrap-around", "why_tests_cant": "A sum over all accounts after all histories with rounding.", "anchors": ["program/src/processor/mod.rs: harvest, sync_config_lamports", "program/src/processor/harvest_holder_rewards.rs", "program/src/state/mod.rs"]}
{"id": "C23", "title": "Settlement cannot be blocked by the config's own bookkeeping", "statement": "In every reachable state the subtractions in settling an account never underflow: config lamports are at least lamports_last, the effective total is at least each account's effective amount, and a validator's total is at least each of its stakers' lamports.", "quantifier": "every reachable state, every account", "why_tests_cant": "Absence of a failure in all reachable states.", "anchors": ["program/src/processor/mod.rs: sync_config_lamports, sync_effective", "program/src/processor/harvest_sol_staker_rewards.rs"]}
{"id": "C24", "title": "Configs are isolated", "statement": "An instruction that names config A changes no data of any other config and no data of any stake account belonging to another config, and takes no lamports from them.", "quantifier": "every reachable state with any number of configs, every instruction, any account list", "why_tests_cant": "Adversarial account substitution over all lists.", "anchors": ["program/src/processor/*.rs", "program/src/state/mod.rs: find_validator_stake_pda, find_sol_staker_stake_pda"]}
{"id": "C25", "title": "Initialised accounts are permanent and keep their identity", "statement": "Once a config, validator stake or SOL staker stake account is initialised it stays initialised with the same type forever; a validator stake keeps its vote account, a SOL staker stake keeps its SOL stake account, and it can never be initialised again.", "quantifier": "every history", "why_tests_cant": "All futures.", "anchors": ["program/src/processor/initialize_config.rs", "program/src/processor/initialize_validator_stake.rs", "program/src/processor/initialize_sol_staker_stake.rs"]}
{"id": "C26", "title": "New stake accounts start empty and belong to the right party", "statement": "A newly created stake account has zero staked, zero effective, zero cooldown; a validator stake's authority is the vote account's withdraw authority, a SOL staker's authority is the withdrawer reported by the stake view program; the governing document was signed by that party; creation needs no signature from that party.", "quantifier": "every reachable state, every successful initialisation", "why_tests_cant": "All inputs; also needs the invariant that override accounts are never created.", "anchors": ["program/src/processor/initialize_validator_stake.rs", "program/src/processor/initialize_sol_staker_stake.rs", "program/src/processor/mod.rs: check_duna_document_signed"]}
{"id": "C27", "title": "One stake account per validator and per SOL stake", "statement": "For each config there is at most one validator stake account per vote account and at most one SOL staker stake account per native stake account, and each lives at its derived address.", "quantifier": "every reachable state", "why_tests_cant": "All histories.", "anchors": ["program/src/state/mod.rs: find_validator_stake_pda, find_sol_staker_stake_pda"]}
{"id": "C28", "title": "Initialised accounts stay rent exempt", "statement": "At every moment every initialised config, validator stake and SOL staker stake account holds at least its rent-exempt minimum.", "quantifier": "every history, every account", "why_tests_cant": "All histories and reward sizes.", "anchors": ["program/src/processor/mod.rs: harvest"]}
{"id": "C29", "title": "Only the config and the vault authority are ever debited", "statement": "A successful instruction conserves lamports over the accounts it names, and lowers the lamports of no account except the config and (in HarvestHolderRewards) the vault authority, apart from what other programs do to their own accounts when called.", "quantifier": "every reachable state, every instruction", "why_tests_cant": "All aliasings, e.g. keeper or authority equal to the config.", "anchors": ["program/src/processor/mod.rs: harvest, transfer_excess_lamports"]}
{"id": "C30", "title": "Instruction encoding round-trips", "statement": "Unpacking a packed instruction gives back the same instruction; distinct instructions have distinct encodings.", "quantifier": "every instruction value, all integers in range", "why_tests_cant": "All 64-bit values and keys.", "anchors": ["program/src/instruction.rs: StakeInstruction::pack, StakeInstruction::unpack"]}
{"id": "C31", "title": "Malformed instruction data is rejected", "statement": "Unpacking succeeds exactly on the documented byte strings (tag 0..15 with the fixed payload length; trailing bytes tolerated only for tags 1, 3, 4, 8, 10, 15), and every other byte string is rejected with InvalidInstructionData; unpacking never reads out of bounds.", "quantifier": "every byte string of any length", "why_tests_cant": "All byte strings.", "anchors": ["program/src/instruction.rs: StakeInstruction::unpack"]}
{"id": "C32", "title": "Account layouts round-trip and cannot be confused", "statement": "Writing and reading a Config, ValidatorStake or SolStakerStake gives the same values back; no byte string is accepted as two different account types; all-zero data is accepted as none of them.", "quantifier": "every account value, every byte string", "why_tests_cant": "All byte strings.", "anchors": ["program/src/state/config.rs", "program/src/state/validator_stake.rs", "program/src/state/sol_staker_stake.rs", "program/src/processor/mod.rs: unpack_initialized"]}
{"id": "C33", "title": "Eligible rewards are exact, including wrap-around", "statement": "If the true (unbounded) accumulator grew by g < 2^128 since the marker was taken, the eligible reward for balance b is floor(g*b/1e18), or ArithmeticOverflow exactly when g*b >= 2^128 or the result does not fit in 64 bits.", "quantifier": "all accumulator values, growths and 64-bit balances", "why_tests_cant": "2^320 input combinations.", "anchors": ["program/src/state/mod.rs: calculate_eligible_rewards"]}
{"id": "C34", "title": "Rewards per token never overflow and never over-distribute", "statement": "calculate_stake_rewards_per_token never fails on 64-bit inputs and its result r satisfies r*stake <= rewards*1e18 < (r+1)*stake for stake > 0, and is 0 for stake = 0.", "quantifier": "all 64-bit rewards and stake amounts", "why_tests_cant": "2^128 input combinations.", "anchors": ["program/src/state/mod.rs: calculate_stake_rewards_per_token"]}
{"id": "C35", "title": "The stake cap is an exact, monotone floor", "statement": "calculate_maximum_stake_for_lamports_amount returns floor(13*x/10), fails exactly when that does not fit in 64 bits, and is monotone.", "quantifier": "all 64-bit inputs", "why_tests_cant": "2^64 inputs.", "anchors": ["program/src/state/mod.rs: calculate_maximum_stake_for_lamports_amount"]}
{"id": "C36", "title": "Rewards are shared in proportion to effective stake", "statement": "When lamports x arrive while the effective total is E > 0, an account with effective stake e that is settled before and after earns at most e*x/E lamports of stake reward, and loses less than 1 + e/10^18 lamports to rounding: it earns more than e*x/E - 2 whenever e is at most 10^18 base units. Lamports that arrive while E = 0 are credited to nobody.", "quantifier": "all x, E, e and accumulator values within range", "why_tests_cant": "All values, with rounding and wrap-around.", "anchors": ["program/src/processor/mod.rs: sync_config_lamports, harvest"]}
{"id": "C37", "title": "A new or empty stake earns nothing for the past", "statement": "Staking into an account pays it nothing for accumulator growth that happened while it had no stake: immediately after a successful stake instruction the account's accrued stake reward is zero. (Supposing that the Deposit puts no lamports on the config.)", "quantifier": "every reachable state, every successful stake instruction", "why_tests_cant": "All accumulator states and histories.", "anchors": ["program/src/processor/mod.rs: harvest", "program/src/processor/validator_stake_tokens.rs", "program/src/processor/sol_staker_stake_tokens.rs"]}
{"id": "C38", "title": "Holder rewards passing through the config are not counted as stake rewards", "statement": "HarvestHolderRewards moves exactly the vault authority's lamports above its rent-exempt minimum to the config, and raises the stake reward accumulator only for lamports that were already on the config.", "quantifier": "every reachable state, every successful HarvestHolderRewards, any payout by the rewards program", "why_tests_cant": "All payouts and prior balances.", "anchors": ["program/src/processor/harvest_holder_rewards.rs", "program/src/processor/mod.rs: transfer_excess_lamports, sync_config_lamports"]}
{"id": "C39", "title": "The authority override is never in effect", "statement": "No instruction writes the SOL staker authority override account, so in every reachable state it is empty and every SOL staker stake account's authority is the withdrawer reported at creation.", "quantifier": "every history", "why_tests_cant": "Absence over all histories.", "anchors": ["program/src/state/mod.rs: find_sol_staker_authority_override_pda", "program/src/processor/initialize_sol_staker_stake.rs"]}
{"id": "C40", "title": "All stored numbers stay within their machine width", "statement": "In every reachable state every 64-bit and 128-bit field of every initialised account is within range, so no stored value is ever truncated.", "quantifier": "every history, every account and field", "why_tests_cant": "All histories.", "anchors": ["program/src/state/*.rs", "program/src/processor/*.rs"]}
{"id": "C41", "title": "Harvest and sync instructions never change staked tokens", "statement": "HarvestHolderRewards, HarvestValidatorRewards, HarvestSolStakerRewards, ValidatorSyncAuthority, ValidatorOverrideStakedLamports, SetAuthority, UpdateConfig and the initialisations change no existing account's staked_amount or unstake_cooldown and move no tokens out of the vault, although several of them can be sent by anyone. (Under the rewards program's contract.)", "quantifier": "every reachable state, every such instruction", "why_tests_cant": "All account lists.", "anchors": ["program/src/processor/*.rs"]}
{"id": "C42", "title": "Vault tokens leave only by authorised unstake, slash or deposit", "statement": "A successful instruction lowers the vault token balance only if it is an unstake, a slash or a stake deposit; in an unstake the amount that leaves for the destination equals the drop in staked_amount of an account whose authority signed. (Under the rewards program's contract.)", "quantifier": "every reachable state, every instruction, any account list", "why_tests_cant": "All account substitutions.", "anchors": ["program/src/processor/unstake_tokens.rs", "program/src/processor/mod.rs: process_slash_for_delegation"]}
{"id": "C43", "title": "An undelegated staker can always be synced again", "statement": "If the stake view program reports zero effective lamports for every undelegated native stake, then in every reachable state a SOL staker stake account without a validator has zero recorded lamports, so the assertion in HarvestSolStakerRewards never fires.", "quantifier": "every history with such view results", "why_tests_cant": "Absence of a panic over all histories.", "anchors": ["program/src/processor/harvest_sol_staker_rewards.rs"]}
{"id": "C44", "title": "A stake deposit earns no rewards from before it", "statement": "After a successful ValidatorStakeTokens or SolStakerStakeTokens the pending holder rewards of the account, (vault record's last_accumulated_rewards_per_token minus the account's last_seen_holder_rewards_per_token) times staked_amount, are zero: newly staked tokens have no claim on rewards that were distributed before they were staked.", "quantifier": "every reachable state, every successful stake, every rewards program that meets the stated contract, including one whose Deposit settles pending rewards", "why_tests_cant": "The existing tests deposit when no holder rewards are pending in the rewards program, so the accumulator does not move during the Deposit call.", "anchors": ["program/src/processor/validator_stake_tokens.rs", "program/src/processor/sol_staker_stake_tokens.rs", "program/src/processor/mod.rs"]}
{"id": "C45", "title": "Only slashing lowers the vault balance", "statement": "When the rewards program takes and returns exactly the requested amounts, a successful stake or unstake leaves the vault's own token balance unchanged, and among the instructions that name a config only a slash lowers its vault balance (or a stake whose source is the vault itself, signed by the vault's owner or delegate). A slash therefore succeeds only if somebody sent tokens to the vault.", "quantifier": "every reachable state, every successful instruction, every rewards program that meets the stated contract", "why_tests_cant": "The slash tests mint tokens straight into the vault, so no test sees the balance that staking leaves there.", "anchors": ["program/src/processor/validator_stake_tokens.rs", "program/src/processor/sol_staker_stake_tokens.rs", "program/src/processor/unstake_tokens.rs", "program/src/processor/mod.rs"]}
{"id": "C46", "title": "A new config stores exactly what was asked for, and its vault is under the program's control", "statement": "A successful InitializeConfig turns an account that was no config into one that stores exactly the requested authorities, cooldown, limit, sync reward and document hash and the canonical bump; its effective total and accumulator are zero and the lamports it already holds count as distributed. The vault is an empty token account of the named mint owned by the derived vault authority with no delegate and no close authority. No lamports move and no other data changes. The owning program of vault and mint is not checked; but a config whose vault does not belong to the token program takes no stakes.", "quantifier": "every state, every successful InitializeConfig, any account list", "why_tests_cant": "All settings and all account substitutions.", "anchors": ["program/src/processor/initialize_config.rs"]}
{"id": "C47", "title": "Changing a setting changes that setting only", "statement": "A successful SetAuthority or UpdateConfig replaces exactly the named authority or setting by exactly the given value; no other field of the config and no other account changes, and no lamports move.", "quantifier": "every state, every successful SetAuthority or UpdateConfig", "why_tests_cant": "All values of all other fields and all other accounts.", "anchors": ["program/src/processor/set_authority.rs", "program/src/processor/update_config.rs"]}
{"id": "C48", "title": "The override minimum is set by the config authority only", "statement": "A validator stake account's minimum changes only through ValidatorOverrideStakedLamports for that account, signed by the config authority (which must be set), and then to the requested amount; that instruction leaves the recorded total, staked tokens, cooldown and authority of the account alone and recomputes its effective stake.", "quantifier": "every reachable state, every successful instruction", "why_tests_cant": "All instructions and account lists.", "anchors": ["program/src/processor/validator_override_staked_lamports.rs"]}
{"id": "C49", "title": "The recorded native stake follows the live one, through harvests only", "statement": "After a successful HarvestSolStakerRewards the staker's recorded lamports and vote account equal what the stake view program reports; if the reported validator has no stake account and the record was out of date they are zero and none. No other instruction changes a staker's recorded lamports or vote account; a validator's recorded total changes only in a harvest that syncs a staker away from or onto it or when a SOL staker account is created on it.", "quantifier": "every reachable state, every successful instruction, every result of the view program", "why_tests_cant": "All instructions and account lists.", "anchors": ["program/src/processor/harvest_sol_staker_rewards.rs", "program/src/processor/initialize_sol_staker_stake.rs"]}
{"id": "C50", "title": "Accrued rewards are paid before the stake changes", "statement": "Stake, unstake, slash, move (both accounts) and the lamports override first pay the accounts' accrued rewards of the state before, from the config to the authority, and set their markers to the accumulators of that moment; a change of stake never changes what was already earned. The config must not be the account's own authority.", "quantifier": "every reachable state, every such successful instruction; for stake and unstake every address whose lamports the called Deposit or Withdraw leaves alone", "why_tests_cant": "All states and amounts.", "anchors": ["program/src/processor/mod.rs: harvest", "program/src/processor/*.rs"]}
{"id": "C51", "title": "Deposits and withdrawals are made for the config's vault, in the amount of the stake change", "statement": "A stake instruction with amount zero is rejected. A successful stake of n ends with a Deposit of n by the config's vault authority from the config's vault, which by then has received the n tokens from the source; a successful unstake of n calls Withdraw of n by the vault authority into the config's vault before n tokens leave the vault.", "quantifier": "every reachable state, every successful stake or unstake, any account list", "why_tests_cant": "All account substitutions.", "anchors": ["program/src/processor/validator_stake_tokens.rs", "program/src/processor/sol_staker_stake_tokens.rs", "program/src/processor/unstake_tokens.rs"]}
{"id": "C52", "title": "Authorities can always use their configuration rights", "statement": "A SetAuthority signed by the current authority, and an UpdateConfig signed by the config authority with a value in range, on a writable config, is accepted in every state and records the new value; no other account can block it.", "quantifier": "every state with a config, every authority type, field and value", "why_tests_cant": "Acceptance in all such states, including ones that only long histories reach; tests try single states.", "anchors": ["program/src/processor/set_authority.rs", "program/src/processor/update_config.rs"]}
{"id": "C53", "title": "Anybody can sync a validator's authority", "statement": "ValidatorSyncAuthority for an existing validator stake account and its vote account is accepted without any signature and records the vote account's withdraw authority.", "quantifier": "every state, every vote account", "why_tests_cant": "Acceptance in all such states, including ones that only long histories reach; tests try single states.", "anchors": ["program/src/processor/validator_sync_authority.rs"]}
{"id": "C54", "title": "Due validator rewards can be collected by anybody", "statement": "HarvestValidatorRewards is accepted without any signature whenever the rewards can be settled: the products fit in 128 bits, the config can pay them and keep its rent, the payee is not the config and has room.", "quantifier": "every reachable state in which the stated conditions hold, any outside state", "why_tests_cant": "Acceptance in all such states, including ones that only long histories reach; tests try single states.", "anchors": ["program/src/processor/harvest_validator_rewards.rs", "program/src/processor/mod.rs: harvest"]}
{"id": "C55", "title": "The config authority can override a validator's lamports", "statement": "ValidatorOverrideStakedLamports signed by the config authority is accepted whenever the account's rewards can be settled and the new effective stake fits in 64 bits.", "quantifier": "every reachable state in which the stated conditions hold, any outside state", "why_tests_cant": "Acceptance in all such states, including ones that only long histories reach; tests try single states.", "anchors": ["program/src/processor/validator_override_staked_lamports.rs"]}
{"id": "C56", "title": "Stakers can move stake between their accounts", "statement": "SolStakerMoveTokens signed by the common authority is accepted for every amount up to the stake of the source whenever the rewards of both accounts can be settled and the amounts fit; cooldown and unstake limit do not matter.", "quantifier": "every reachable state in which the stated conditions hold, any outside state", "why_tests_cant": "Acceptance in all such states, including ones that only long histories reach; tests try single states.", "anchors": ["program/src/processor/sol_staker_move_tokens.rs"]}
{"id": "C57", "title": "The slash authority can slash", "statement": "A slash signed by the slash authority is accepted for every positive amount, also above the stake, whenever the rewards can be settled and the vault token account and mint allow burning the smaller of amount and stake, provided no reward is due to one of the accounts handed to the called programs (C92).", "quantifier": "every reachable state in which the stated conditions hold, any outside state", "why_tests_cant": "Acceptance in all such states, including ones that only long histories reach; tests try single states.", "anchors": ["program/src/processor/slash_validator_stake.rs", "program/src/processor/slash_sol_staker_stake.rs", "program/src/processor/mod.rs: process_slash_for_delegation"]}
{"id": "C58", "title": "Stake can be withdrawn after the cooldown", "statement": "UnstakeTokens signed by the stake authority is accepted once the cooldown has passed, for every amount up to the config's share of the stake, whenever the rewards can be settled, the rewards program takes the withdrawal and the destination can receive the tokens, provided no reward is due to one of the accounts handed to the called programs (C92).", "quantifier": "every reachable state in which the stated conditions hold, any outside state", "why_tests_cant": "Acceptance in all such states, including ones that only long histories reach; tests try single states.", "anchors": ["program/src/processor/unstake_tokens.rs"]}
{"id": "C59", "title": "Token owners can stake", "statement": "ValidatorStakeTokens and SolStakerStakeTokens signed by the owner of the source tokens are accepted without the stake authority's signature whenever the rewards can be settled, the amounts fit and the rewards program takes the deposit. The stake authority account needs to be writable only if rewards are due. Exception: a reward must not be due to one of the accounts handed to the called programs, in particular not to the signing owner of the tokens (C92).", "quantifier": "every reachable state in which the stated conditions hold, any outside state", "why_tests_cant": "Acceptance in all such states, including ones that only long histories reach; tests try single states.", "anchors": ["program/src/processor/validator_stake_tokens.rs", "program/src/processor/sol_staker_stake_tokens.rs"]}
{"id": "C60", "title": "A SOL staker can always be brought up to date", "statement": "HarvestSolStakerRewards is accepted without any signature whenever the rewards of the staker can be settled and, if the native stake has changed, those of the previous and the current validator too, whatever the new delegation is (none, a validator with or without stake account, the same validator with other lamports), provided payees have room, sums fit, and a staker recorded without delegation is recorded with no lamports; the native stake and the stake history must not be the config or the stake account.", "quantifier": "every reachable state in which the stated conditions hold, every new view of the native stake", "why_tests_cant": "Acceptance in all such states and for all changes of the native stake.", "anchors": ["program/src/processor/harvest_sol_staker_rewards.rs", "program/src/processor/mod.rs: harvest, sync_effective"]}
{"id": "C61", "title": "Accounts can be initialised when their prerequisites are there", "statement": "InitializeConfig, InitializeValidatorStake and InitializeSolStakerStake are accepted whenever the account does not exist yet, the rent has been paid in and the documented prerequisites (vault, mint, vote account, native stake, DUNA signature) are met; nobody has to sign.", "quantifier": "every reachable state in which the stated conditions hold, any outside state", "why_tests_cant": "Acceptance in all such states, including ones that only long histories reach; tests try single states.", "anchors": ["program/src/processor/initialize_config.rs", "program/src/processor/initialize_validator_stake.rs", "program/src/processor/initialize_sol_staker_stake.rs"]}
{"id": "C62", "title": "Holder rewards of the vault can be passed on by anybody", "statement": "HarvestHolderRewards is accepted without any signature whenever the rewards program pays, provided the vault authority account is owned by the program, holds the rent minimum and sums do not overflow.", "quantifier": "every reachable state in which the stated conditions hold, any outside state", "why_tests_cant": "Acceptance in all such states, including ones that only long histories reach; tests try single states.", "anchors": ["program/src/processor/harvest_holder_rewards.rs"]}
{"id": "C63", "title": "An instruction changes only the accounts of its footprint", "statement": "A successful instruction changes lamports, owner and data of no account other than the ones its documentation lets it change (for example config, stake account, stake authority, source, vault and the rewards program's accounts for ValidatorStakeTokens; only the stake account for ValidatorSyncAuthority), whatever further accounts are passed and however they are flagged.", "quantifier": "every reachable state, every instruction, every account list and every rewards program that changes only accounts it is called with", "why_tests_cant": "A frame property over all accounts of the chain; tests only compare the accounts they look at.", "anchors": ["program/src/instruction.rs", "program/src/processor/mod.rs"]}
{"id": "C64", "title": "A client request is the instruction it is named after", "statement": "The data built by each constructor of the generated Rust client decodes with the program's decoder to that instruction with the given arguments; the program then runs that instruction's handler on the accounts in the roles the client gives them; and the request asks for exactly the signature of the account whose consent the instruction needs.", "quantifier": "every constructor, all accounts, all argument values of the Rust types, every fee payer and state", "why_tests_cant": "The repository's tests use the client only for chosen values; agreement of two independent encodings and account orders has to hold for all arguments.", "anchors": ["clients/rust/src/generated/instructions", "clients/rust/src/generated/types", "program/src/instruction.rs", "program/src/processor/mod.rs"]}
{"id": "C65", "title": "The writable and signer flags of the client suffice", "statement": "An instruction built by the client that would succeed with all accounts signing and writable also succeeds, with the same result, with the client's flags; the only exceptions are instructions that change an account the client passes read-only: the validator authority in ValidatorStakeTokens, the staker authority in SolStakerMoveTokens and the pool's token account in HarvestHolderRewards.", "quantifier": "every reachable state, every client call with arguments of the Rust types, every fee payer, every rewards program that changes only accounts it is called with", "why_tests_cant": "Whether a flag is missing only shows in the states in which the account is really changed.", "anchors": ["clients/rust/src/generated/instructions", "program/idl.json"]}
{"id": "C66", "title": "Client requests that pay pending rewards to a read-only authority fail", "statement": "ValidatorStakeTokens and SolStakerMoveTokens built by the client fail whenever rewards are pending for the account (one of the accounts) and the authority to be paid is not the fee payer and not one of the other writable accounts, although the program would accept the instruction with the authority marked writable.", "quantifier": "every state with pending rewards, every client call of the two kinds", "why_tests_cant": "The failure depends on pending rewards and on who pays the fee; tests that stake before rewards arrive never see it.", "anchors": ["clients/rust/src/generated/instructions/validator_stake_tokens.rs", "clients/rust/src/generated/instructions/sol_staker_move_tokens.rs", "program/src/instruction.rs", "program/idl.json"]}
{"id": "C67", "title": "The client decodes the program's accounts correctly, but does not check their type", "statement": "from_bytes of the client returns, for every byte string the program accepts as a config, validator stake or SOL staker stake, exactly the program's values. It checks neither the discriminator nor the length: any 192 bytes or more decode as a config, any 144 or more as a validator stake, any 168 or more as a SOL staker stake, and nothing shorter does.", "quantifier": "all byte strings", "why_tests_cant": "Two independently defined layouts have to agree on all byte strings.", "anchors": ["clients/rust/src/generated/accounts", "program/src/state"]}
{"id": "C68", "title": "Derived addresses do not collide", "statement": "Addresses derived for a vault authority, a config, a SOL staker stake, an authority override, a validator stake or a DUNA document are equal only if they were derived for the same purpose from the same keys, or the two strings hashed form a SHA-256 collision. The vault authority is the one with the largest valid bump, the seeds used for signing reproduce the address that was checked, and no seed is ever too long.", "quantifier": "all keys, all program ids, every hash function and curve predicate, all bumps", "why_tests_cant": "Seeds are concatenated without separators, so two schemas could overlap for some keys; that none does is a statement about all keys.", "anchors": ["program/src/state/mod.rs find_vault_pda", "find_sol_staker_stake_pda", "find_validator_stake_pda", "find_sol_staker_authority_override_pda", "find_duna_document_pda"]}
{"id": "C69", "title": "Clients derive the program's addresses, except the JavaScript vault helper", "statement": "The Rust client's address functions return what the program derives, for all inputs. The JavaScript client's findVaultPda uses another constant seed and never returns a vault authority of the program, short of a SHA-256 collision between the two strings hashed.", "quantifier": "all keys and program ids, every hash function", "why_tests_cant": "Agreement is needed on all inputs, and the failing helper is not exercised by any test.", "anchors": ["clients/rust/src/pdas.rs", "clients/js/src/generated/pdas/vault.ts findVaultPda"]}
{"id": "C70", "title": "An instruction depends only on the accounts it names", "statement": "Whether an instruction succeeds, the error it fails with and what it leaves in the accounts it names depend only on those accounts (and on the clock, the stake view program and the rewards program). It changes no account that it does not name as writable.", "quantifier": "all instructions, all states agreeing on the named accounts (not only reachable ones), all rewards programs that see and change only the accounts they are called with", "why_tests_cant": "A test fixes the rest of the chain; the claim is about every possible rest, and about failing as well as succeeding executions.", "anchors": ["program/src/processor/mod.rs process_instruction"]}
{"id": "C71", "title": "Instructions that do not conflict may run in any order", "statement": "If no two instructions of a batch share an account that one of them may write, then executing the batch in any order either fails or gives the same final state as in any other order; a batch that succeeds in one order succeeds in all.", "quantifier": "all batches of any length, all permutations, all starting states", "why_tests_cant": "The number of orders is factorial in the length and the states are unbounded.", "anchors": ["program/src/processor/mod.rs process_instruction"]}
{"id": "C72", "title": "Waiting with a claim costs nothing", "statement": "The reward an account has earned but not collected does not change while others harvest, stake, move, unstake or are slashed. When the account finally harvests, its authority is paid exactly the amount that was due at the beginning, provided no new rewards arrived in between.", "quantifier": "all reachable states, any number of steps by others of any kind, all accounts", "why_tests_cant": "It quantifies over every interleaving of other people's instructions between earning and collecting; every one of them can change the shared accumulators and the config balance.", "anchors": ["program/src/processor/mod.rs harvest, sync_config_lamports", "program/src/processor/harvest_validator_rewards.rs", "program/src/processor/harvest_sol_staker_rewards.rs"]}
{"id": "C73", "title": "Unstaking cannot empty an account while the limit is below 100%", "statement": "When the config's max_deactivation_basis_points is below 10000, UnstakeTokens leaves at least (10000 - max)/10000 of the staked amount behind; in particular an account that holds tokens still holds some afterwards, so a full exit by unstaking alone is impossible.", "quantifier": "all reachable states, all unstake instructions, all limits below 100%", "why_tests_cant": "A claim about all amounts and limits including the rounding of the limit.", "anchors": ["program/src/processor/unstake_tokens.rs"]}
{"id": "C74", "title": "Outflow of a config within one cooldown is limited", "statement": "If all unstakes from a config during a stretch of history take place within one cooldown period and each is subject to a limit of at most B basis points, then the total unstaked is at most B/10000 of the tokens staked in the config at the start plus those staked during the stretch, no matter how tokens are moved between accounts, slashed or restaked.", "quantifier": "all reachable states, all histories of any length, any number of accounts, any sequence of moves, limits and cooldowns that may be reconfigured during the stretch", "why_tests_cant": "The attack is a long sequence (unstake, move, unstake again from another account); no finite set of sequences covers all of them.", "anchors": ["program/src/processor/unstake_tokens.rs", "program/src/processor/sol_staker_move_tokens.rs"]}
{"id": "C75", "title": "A synced authority takes over unclaimed rewards", "statement": "ValidatorSyncAuthority moves no lamports and leaves every account's earned rewards as they are, so the next harvest pays what was earned under the old authority to the vote account's new withdraw authority.", "quantifier": "all reachable states, any number of steps by others between the sync and the harvest", "why_tests_cant": "The payment happens in a later instruction, with arbitrary activity in between.", "anchors": ["program/src/processor/validator_sync_authority.rs", "program/src/processor/harvest_validator_rewards.rs"]}
{"id": "C76", "title": "No account can be substituted", "statement": "Whenever an instruction succeeds, every account it names at a position that has a prescribed identity is the prescribed one: the config is an initialized config, stake accounts are the derived accounts of that config, the account paid is the recorded authority of the stake account, the vault, mint, vault authority and vault rewards record are those of the config, governing documents are the accepted document of the right signer, and the signer is the authority recorded on chain. Every instruction that takes tokens out of a stake account or changes settings carries that authority's signature.", "quantifier": "all reachable states, all sixteen instructions, all account lists, all outside programs that respect the rules", "why_tests_cant": "Each handler takes up to thirteen accounts; a test tries a few wrong accounts in a few positions, while an attacker may put any account anywhere, including duplicates.", "anchors": ["program/src/instruction.rs", "program/src/processor/mod.rs", "program/src/processor/"]}
{"id": "C77", "title": "Slashing is limited to tokens that others sent to the vault", "statement": "Over any stretch of history, the tokens slashed from a config plus the tokens left on its vault are at most the tokens the vault held at the start plus the tokens others sent to it. Staked tokens are held by the rewards program and never come back to the vault for a slash; so from the creation of a config on, every slash of an account with a stake fails until somebody sends tokens to the vault.", "quantifier": "all histories of any length, all interleavings with other programs and other configs, all rewards programs that keep their contract", "why_tests_cant": "The existing tests put tokens on the vault by hand before they slash. That no sequence of instructions ever does so is a statement about all histories.", "anchors": ["program/src/processor/mod.rs", "program/src/processor/slash_validator_stake.rs", "program/src/processor/slash_sol_staker_stake.rs"]}
{"id": "C78", "title": "The rewards deposit changes by stakes and unstakes only; slashed tokens stay deposited", "statement": "Over any stretch of history, the amount the rewards program records as deposited for a config changes by exactly the change in the config's staked tokens plus the tokens slashed. The deposit of slashed tokens can therefore never be withdrawn by any instruction.", "quantifier": "all histories of any length, all rewards programs that keep their contract", "why_tests_cant": "It is an accounting identity between two programs over unbounded histories.", "anchors": ["program/src/processor/mod.rs", "program/src/processor/unstake_tokens.rs", "program/src/processor/validator_stake_tokens.rs"]}
{"id": "C79", "title": "When an instruction panics", "statement": "An instruction aborts by a panic (instead of returning an error) only when (1) the config holds less than what the stake accounts it settles would be paid plus the config's rent minimum, (2) a move or SOL staker harvest involves a stake account whose authority is the config itself, (3) ValidatorSyncAuthority names an address without a validator stake account, or (4) HarvestSolStakerRewards names an undelegated account that records lamports. No instruction data and no account list makes any other instruction panic. Case 3 always panics. As long as no Deposit settled holder rewards, the shortfall in case 1 is at most the lamports waiting at the vault authority plus one lamport per settlement.", "quantifier": "all reachable states, all instruction data, all account lists, all called programs that report failures as errors", "why_tests_cant": "The code contains unwrap, assert and index operations whose safety depends on every state the program can reach; a test only shows that the states it builds do not trip them.", "anchors": ["program/src/processor/mod.rs", "program/src/processor/validator_sync_authority.rs", "program/src/processor/harvest_sol_staker_rewards.rs", "program/src/processor/initialize_sol_staker_stake.rs"]}
{"id": "C80", "title": "The Rust client's builders build the instruction that was asked for", "statement": "Whatever methods are called on a builder and in whatever order, instruction() returns the request of the direct constructor for the accounts and arguments last given, with the documented defaults (token program, system program, stake history sysvar) for accounts never given, followed by the remaining accounts in the order added. It panics exactly when an argument or an account without default has never been given. Sent in a transaction, the request runs the handler of that instruction on the accounts as given by name.", "quantifier": "all sixteen builders, all sequences of method calls, all values, all chain states", "why_tests_cant": "A test calls the setters once in one order; the claim is about every sequence of calls, including repeated and missing ones.", "anchors": ["clients/rust/src/generated/instructions/*.rs"]}
{"id": "C81", "title": "The Rust client's CPI wrappers invoke the same instruction", "statement": "invoke_signed of a CPI builder issues the request of the direct constructor for the accounts and arguments last given. It hands over the program and exactly the accounts the instruction names, and passes on the seeds. It panics exactly when an argument or an account other than the optional keeper is missing. Without remaining accounts, the runtime lets the invocation through exactly when the account that must consent has signed for the caller or is one of its derived addresses, and the accounts flagged writable are writable for the caller.", "quantifier": "all sixteen CPI builders, all sequences of method calls, all seeds, all calling contexts", "why_tests_cant": "The repository has no test of the CPI wrappers; the claim covers every sequence of calls and every calling program.", "anchors": ["clients/rust/src/generated/instructions/*.rs"]}
{"id": "C82", "title": "CPI builders exchange the flags of remaining accounts", "statement": "The documentation of add_remaining_account and add_remaining_accounts says that each account is given with is_writable and then is_signer. The instruction invoked carries the two flags exchanged: it is as documented exactly when every remaining account was declared both or neither. An account added as writable only, which has not signed for the caller, makes the runtime refuse the invocation.", "quantifier": "all sixteen CPI builders, all sequences of method calls", "why_tests_cant": "No test passes remaining accounts, and a test with both flags equal would not notice.", "anchors": ["clients/rust/src/generated/instructions/*.rs"]}
{"id": "C83", "title": "The JavaScript client builds the same instructions as the Rust client, and reports too little", "statement": "Given the accounts and arguments of a call by name, with accounts that have a default left out or not, and with signers exactly where the type of the input asks for one, each get...Instruction function returns the program, account list with flags, and data that the Rust client builds for the call. It throws exactly when a number is negative or too wide, an address does not have 32 bytes, or an authority type is not one of the two. A required account that is missing is not reported: the program's own address is passed in its place, read-only. A document hash that does not have 32 bytes is not reported: the instruction carries its first 32 bytes, or the hash followed by zeros.", "quantifier": "all sixteen functions, all inputs", "why_tests_cant": "The claim covers every input of sixteen functions in another language than the program, and what happens to wrong inputs.", "anchors": ["clients/js/src/generated/instructions/*.ts", "clients/js/src/generated/shared/index.ts"]}
{"id": "C84", "title": "The JavaScript client reads instructions as the program does", "statement": "parse...Instruction gives back the accounts and arguments of a call by name, with the signers marked, whatever further accounts follow. identifyPaladinStakeProgramInstruction tells the instruction by the first byte and throws when that is not one of the sixteen numbers. Every byte string that the program accepts as an instruction is identified as that instruction and decoded to the same arguments. parse...Instruction does not check that it was given its own instruction: neither the program address nor the first byte of the data makes a difference to its result.", "quantifier": "all sixteen instructions, all byte strings, all account lists", "why_tests_cant": "The repository does not test the parsers; agreement with the program's decoder concerns all byte strings.", "anchors": ["clients/js/src/generated/instructions/*.ts", "clients/js/src/generated/programs/paladinStakeProgram.ts"]}
{"id": "C85", "title": "The JavaScript account codecs show what the program stored", "statement": "Every account that the program accepts as a config, validator stake or SOL staker stake is decoded by the JavaScript client to the same values, where an authority that is not set is shown as null. Encoding what was decoded gives back the bytes. What an encoder writes has the size the client states and decodes to what was given, except that an authority of 32 zero bytes becomes null and the hash is cut off or filled up to 32 bytes. The codec of nullable numbers, which no account uses, cannot be built: the function throws, since its parts declare different sizes; and its parts do not tell null from zero.", "quantifier": "all byte strings, all values", "why_tests_cant": "The round trips concern all byte strings of three layouts and all values of every field; tests sample a few.", "anchors": ["clients/js/src/generated/accounts/*.ts", "clients/js/src/generated/types/delegation.ts", "clients/js/src/hooked/*.ts"]}
{"id": "C86", "title": "An error code means what it says", "statement": "When an instruction fails with one of the program's own error codes, the fact named by the code is true of the state before the instruction and of the accounts and arguments passed: for example ActiveUnstakeCooldown means that the unstaking account's cooldown ends after the current time, InvalidMint that the mint passed is not the vault's, InvalidAuthority that an account passed as an authority is not the one on record. Six of the 26 declared codes are never returned; each of the other twenty is returned by some instruction in some reachable state. (Called programs are supposed to fail under their own codes.)", "quantifier": "all instructions, all account lists, all reachable states, all 26 codes", "why_tests_cant": "Tests check that a chosen mistake gives a chosen code. The claim is the converse: whatever produces the code, the fact it names holds, also when it is detected after part of the instruction has changed the state; and that a code is never produced cannot be tested.", "anchors": ["program/src/error.rs", "program/src/processor/*.rs"]}
{"id": "C87", "title": "Clients show the program's errors", "statement": "Different errors have different numbers. The Rust client turns each number the program uses into the variant of the same name and text, and turns no other number into an error. The JavaScript client shows the program's text for each number, except in production bundles, where it shows none. The interface description and both clients list the same 26 errors.", "quantifier": "all error codes, all numbers", "why_tests_cant": "No test of the repository compares the four lists; the numbers in the program are implicit in the order of declaration, so inserting a variant silently renumbers the rest.", "anchors": ["program/src/error.rs", "program/idl.json", "clients/rust/src/generated/errors/paladin_stake_program.rs", "clients/js/src/generated/errors/paladinStakeProgram.ts"]}
{"id": "C88", "title": "The interface description suffices to talk to the program", "statement": "A tool that knows only the IDL and the corrections of the client generator, and is given the accounts and arguments of an instruction by name, builds exactly the request of the Rust client, and the program runs the named instruction on the named accounts. It builds nothing when an argument, or an account other than the keeper, is missing. It decodes every account of the program to the program's values. Its encoding of arguments and accounts is invertible in both directions. Without the corrections no account can be decoded, because the IDL uses two types it does not define.", "quantifier": "all sixteen instructions, all accounts and arguments of the declared types; all byte strings; all types an IDL can describe (for the encoding)", "why_tests_cant": "The description is used by explorers, wallets and other languages that the repository's tests never run; agreement is needed for every instruction and all arguments.", "anchors": ["program/idl.json", "scripts/generate-clients.mjs", "program/src/instruction.rs", "program/src/state"]}
{"id": "C89", "title": "Accounts too many, accounts too few", "statement": "An instruction takes a fixed number of accounts, the length of its documented list. Accounts passed after them are ignored: whatever they are and whatever rights they are passed with, the result (the state or the error) is the same, and they are unchanged. With fewer accounts the instruction fails with NotEnoughAccountKeys, whatever the state. The optional keeper counts: its place must be filled.", "quantifier": "all sixteen instructions, all account lists, all rights, all states", "why_tests_cant": "Tests pass the documented lists. The claim is about every longer and shorter list, and about every account that could be appended, including the program's own accounts as writable.", "anchors": ["program/src/instruction.rs", "program/src/processor/mod.rs"]}
{"id": "C90", "title": "A keeper is paid once per change of a native stake, except at an unregistered validator", "statement": "After a HarvestSolStakerRewards has seen a native stake as undelegated or as delegated to a validator that has a stake account, later harvests pay the keeper they name nothing and the staker everything, as long as the native stake stays the same, whatever else happens. For a native stake delegated to a validator without a stake account every harvest counts as a sync: each one pays its keeper the smaller of the accrued reward and the config's sync reward, although nothing has changed, and leaves the account in the same situation.", "quantifier": "all reachable states, all accounts, all histories between two harvests", "why_tests_cant": "A test repeats a harvest once, directly. The claim covers every history between two harvests, and the exception is a combination (unregistered validator, repeated harvest) that the tests do not contain.", "anchors": ["program/src/processor/harvest_sol_staker_rewards.rs", "program/src/processor/mod.rs (harvest)"]}
{"id": "C91", "title": "Splitting a stake gains nothing, and native stake bounds a config's effective stake", "statement": "Any set of SOL staker accounts together has at most the effective stake that one account with all their tokens and all their native lamports would have, and accounts that were last settled together accrue at most what one account with all their stake would. The effective total of a config is at most 1.3 times twice the native lamports of its SOL stakers (once for the stakers, once for their validators) plus 1.3 times the minimums set by the config authority.", "quantifier": "all reachable states, all sets of accounts, all configs", "why_tests_cant": "The bounds concern sums over any number of accounts after any history.", "anchors": ["program/src/processor/mod.rs (sync_effective, harvest)", "program/src/state/mod.rs (calculate_maximum_stake_for_lamports_amount, calculate_eligible_rewards)"]}
{"id": "C92", "title": "A reward cannot be paid to an account that is handed to another program", "statement": "Staking, unstaking and slashing pay the reward due before they call the token and rewards programs. The config, which pays, is never handed to them. So if the stake authority is one of the accounts handed on and a reward is due, the instruction fails. In particular a staker who owns the source tokens themselves cannot stake them while any reward is due: although everything else is in order, the runtime refuses the call with UnbalancedInstruction. Harvesting first makes it work. The config and the stake account cannot stand in for any of the accounts handed on.", "quantifier": "all reachable states, all accounts, all amounts, all behaviours of the called programs", "why_tests_cant": "The tests stake with a token owner that is not the stake authority, or stake for the first time, when no reward is due. The failure needs both together, and the rule concerns all accounts handed on.", "anchors": ["program/src/processor/validator_stake_tokens.rs", "program/src/processor/sol_staker_stake_tokens.rs", "program/src/processor/unstake_tokens.rs", "program/src/processor/mod.rs (harvest, process_slash_for_delegation)"]}
{"id": "C93", "title": "Stake rewards are paid out in full, and never more", "statement": "Take all lamports ever sent to a config while it had effective stake, all stake rewards ever paid from it, and all stake rewards still claimed. The rewards paid and claimed never exceed those received. As long as the accumulator has not wrapped (fewer than 3.4e20 lamports received), they also fall short by no more than rounding: less than one lamport for each account settled and less than the total effective stake times 1e-18 lamports for each instruction on the config. An instruction other than HarvestHolderRewards takes from the config exactly the accrued rewards of the accounts it settles. The config must not be named in another role, such as payee.", "quantifier": "all histories of any length, all configs, any number of stake accounts, all amounts, all behaviours of other programs", "why_tests_cant": "A sum over unboundedly many accounts and an unbounded history, with rounding at every step. Tests check single payments.", "anchors": ["program/src/processor/mod.rs (harvest, sync_config_lamports)", "program/src/state/mod.rs calculate_stake_rewards_per_token, calculate_eligible_rewards", "program/src/processor/harvest_sol_staker_rewards.rs", "program/src/processor/sol_staker_move_tokens.rs"]}
{"id": "C94", "title": "Claims exceed funds by no more than what two flaws credit", "statement": "In every history the rewards accrued by all stake accounts of a config are at most its lamports above rent, plus the lamports waiting at the vault authority, plus one lamport per holder-rewards payout, plus the lamports credited without cover. Only two kinds of instruction credit without cover: a stake whose Deposit pays out pending holder rewards, by the rise of the accumulator times the tokens being staked, and a sync that names the config as its own keeper, by the stake reward it leaves to the account it has just settled. No history is excluded.", "quantifier": "every history under the stated contract for the rewards program, including those in which C22 fails; every config; any number of accounts; accumulator wrap-around included", "why_tests_cant": "A bound on a sum over all accounts after every history, in the presence of two defects; a test can show the defect but not that it is the whole of the damage.", "anchors": ["program/src/processor/mod.rs: harvest, sync_config_lamports", "program/src/processor/validator_stake_tokens.rs", "program/src/processor/sol_staker_stake_tokens.rs", "program/src/processor/harvest_sol_staker_rewards.rs"]}
{"id": "C95", "title": "Nobody else can delay or shrink a withdrawal", "statement": "As long as neither a stake account's authority nor its config's authority nor its slash authority signs an instruction, then whatever everybody else does, with whatever instructions and accounts: no token leaves the stake account, its cooldown does not move, and the config's deactivation limit, cooldown time, keeper reward and authorities stay as they are. So a withdrawal that the config's rules allow at some time stays allowed at that time. These rules are the ones an unstake is held to.", "quantifier": "all reachable states, all histories of instructions by others interleaved with any outside activity, all stake accounts of both kinds, all amounts and times", "why_tests_cant": "It quantifies over everything that anybody else can do, in any number of steps, including staking into the account, syncing it, and passing it in unusual roles.", "anchors": ["program/src/processor/unstake_tokens.rs", "program/src/processor/validator_stake_tokens.rs", "program/src/processor/sol_staker_stake_tokens.rs", "program/src/processor/sol_staker_move_tokens.rs", "program/src/processor/set_authority.rs", "program/src/processor/update_config.rs", "program/src/processor/mod.rs process_slash_for_delegation"]}
{"id": "C96", "title": "A stake leaves at the configured rate, no faster and no slower", "statement": "If tokens leave a stake account by unstaking only, at a limit of at most B basis points and with a cooldown of at least D seconds, then after unstakes spread over T seconds at least the fraction (1 - B/10000)^(T/D + 1) of the tokens is still staked, whatever else happens. An authority that takes out the most it may k times has at most the fraction (1 - b/10000)^k plus 10000/b tokens left. Once the limit on what is left is below one token, nothing more can be taken out until the limit is raised or tokens are added.", "quantifier": "all histories with any number of unstakes and anything else in between, all limits, cooldowns and amounts, both kinds of stake account", "why_tests_cant": "A bound after any number of unstakes, with rounding in each; tests perform one or two.", "anchors": ["program/src/processor/unstake_tokens.rs", "program/src/state/config.rs"]}
{"id": "C97", "title": "A config cannot be drained faster than its settings allow", "statement": "If all unstakes from a config lie within T seconds, each at a limit of at most B basis points and with a cooldown of at least D seconds, then of all tokens staked in the config at the start at least the fraction (1 - B/10000)^(T/D + 1) is still staked at the end, or was slashed. Splitting stakes, moving tokens between accounts, opening new accounts or anything else does not speed it up.", "quantifier": "all histories of any length, any number of stakers and accounts acting together, all settings, all amounts", "why_tests_cant": "A bound on the joint outflow of arbitrarily many accounts over arbitrarily many cooldowns, with tokens moving between them.", "anchors": ["program/src/processor/unstake_tokens.rs", "program/src/processor/sol_staker_move_tokens.rs"]}
{"id": "C98", "title": "Transactions add no behaviour", "statement": "A transaction that commits, with any number of instructions of this and of other programs in any order, takes the chain through steps that the other properties cover. So what they say of every reachable state and of every two states of a history holds for the states before and after transactions.", "quantifier": "all transactions of any length, all instructions of this program in them, arbitrary instructions of other programs between them", "why_tests_cant": "A test sends particular transactions; the property is about every combination of instructions.", "anchors": ["program/src/processor/mod.rs", "program/src/entrypoint.rs"]}
{"id": "C99", "title": "The rent check of the runtime stops exactly payments into wallets that stay below their rent minimum", "statement": "A transaction of one instruction commits exactly if the instruction succeeds and every writable account that has gained lamports ends with at least its rent minimum. In particular, while nobody has an account at a stake's authority and the reward due is positive but below the rent minimum of a wallet, no harvest of a validator, slash, stake, unstake or override of that stake commits. Sending the rent minimum to the authority in front of the instruction, in the same transaction, lifts this for harvests of validators and slashes, under the conditions under which they succeed otherwise. (The rewards program is supposed to leave the authority's lamports alone.)", "quantifier": "all reachable states, all instructions and their accounts, all rent functions that are least for empty accounts, all payers with twice the rent minimum", "why_tests_cant": "The tests call the program with funded authorities; the check is made by the runtime after the program and depends on balances before and after.", "anchors": ["program/src/processor/mod.rs", "program/src/processor/harvest_validator_rewards.rs", "program/src/processor/slash_validator_stake.rs", "program/src/processor/slash_sol_staker_stake.rs"]}
{"id": "C100", "title": "An authority that cannot be written blocks the settlement of its stake", "statement": "While a reward is due to a stake whose authority is an address that the instruction may not write, no harvest of a validator, slash, stake, unstake or override of that stake succeeds, whoever sends it. The runtime makes the addresses of sysvars and built-in programs read-only in every transaction, and the program does not exclude them as authorities. (The authority is not the config itself, and the rewards program leaves its lamports alone.)", "quantifier": "all reachable states, all instructions that settle one stake, all senders and amounts", "why_tests_cant": "Quantifies over all states and all further accounts; tests use ordinary wallets as authorities.", "anchors": ["program/src/processor/mod.rs", "program/src/processor/slash_validator_stake.rs", "program/src/processor/validator_sync_authority.rs"]}
{"id": "C101", "title": "Holder rewards earned by slashed tokens stay on the config for ever", "statement": "The rewards program goes on paying holder rewards for tokens that were slashed, because a slash does not withdraw them. At every time the lamports of the config and the vault authority are at least: what all stake accounts would be paid now, plus the config's rent-exempt minimum, plus all holder rewards ever paid for tokens after they were slashed; up to one lamport for each payout and the lamports credited without cover (C94). That sum never falls, so no history of instructions ever pays those lamports to anybody.", "quantifier": "all histories from genesis in which the rewards program keeps its contract, all configs, all instructions and senders", "why_tests_cant": "A bound over histories of any length with running totals; a test sees one history.", "anchors": ["program/src/processor/mod.rs", "program/src/processor/slash_validator_stake.rs", "program/src/processor/slash_sol_staker_stake.rs", "program/src/processor/harvest_holder_rewards.rs"]}
{"id": "C102", "title": "An instruction is accepted exactly when its conditions hold", "statement": "For SetAuthority, UpdateConfig, ValidatorSyncAuthority, HarvestValidatorRewards, ValidatorOverrideStakedLamports, SolStakerMoveTokens, both slashes of a stake with tokens, HarvestSolStakerRewards (of an unchanged native stake and of a changed one), the three initialisations, and (given that the rewards program is ready to take the call they make) both ways of staking, UnstakeTokens and HarvestHolderRewards, the program accepts the instruction exactly if the listed conditions hold: the given accounts are the right ones, the right party signs, the rewards can be settled, the tokens are there, and the new numbers fit in 64 bits. None of the conditions can be circumvented and there is no further one. (The accounts are marked writable as the interface says; the payee is not the config itself; for slashes the vault is not delegated to its own authority. When staking, the source is not the vault and not delegated to its own authority. For a changed native stake no recipient's balance passes 64 bits with all lamports of the config added, nor the effective total with all tokens concerned.)", "quantifier": "all reachable states, all account lists of the right length with any further accounts, all signers and amounts", "why_tests_cant": "An equivalence over all states and account lists: tests show single rejections and acceptances but not that no other input is rejected or accepted.", "anchors": ["program/src/processor/set_authority.rs", "program/src/processor/update_config.rs", "program/src/processor/validator_sync_authority.rs", "program/src/processor/harvest_validator_rewards.rs", "program/src/processor/validator_override_staked_lamports.rs", "program/src/processor/sol_staker_move_tokens.rs", "program/src/processor/slash_validator_stake.rs", "program/src/processor/slash_sol_staker_stake.rs", "program/src/processor/harvest_sol_staker_rewards.rs", "program/src/processor/initialize_config.rs", "program/src/processor/initialize_validator_stake.rs", "program/src/processor/initialize_sol_staker_stake.rs", "program/src/processor/validator_stake_tokens.rs", "program/src/processor/sol_staker_stake_tokens.rs", "program/src/processor/unstake_tokens.rs", "program/src/processor/harvest_holder_rewards.rs"]}
{"id": "C103", "title": "The clock counts for withdrawals only", "statement": "Every instruction except UnstakeTokens has the same outcome (the same error, or the same resulting state) whatever the time is. The unstake cooldown of a stake changes only when the stake's authority signs an UnstakeTokens from it, or a SolStakerMoveTokens into it from a stake of theirs whose cooldown ends later, in which case it becomes that later one. So staking starts no lock: tokens staked just before a reward arrives share in it and can be withdrawn (up to the limit) at the same time.", "quantifier": "all states, oracles, instructions and times; for the cooldown all reachable states and accepted instructions", "why_tests_cant": "Independence of an input for all states and instructions; a test compares two clock values in one state.", "anchors": ["program/src/processor/unstake_tokens.rs", "program/src/processor/sol_staker_move_tokens.rs", "program/src/processor/validator_stake_tokens.rs", "program/src/processor/sol_staker_stake_tokens.rs"]}
{"id": "C104", "title": "Standard error codes mean what they say", "statement": "When an instruction fails with one of Solana's standard error codes, what the code names is the case: InvalidInstructionData only for data that decode to no instruction; NotEnoughAccountKeys only for too few accounts (or a missing keeper account in a HarvestSolStakerRewards whose native stake has changed); MissingRequiredSignature only if an account that must sign did not; InvalidAccountOwner only if an account that must belong to a given program does not; UninitializedAccount and InvalidAccountData only if an account that is read is uninitialised or holds something else (or the native stake has no withdrawer); BorshIoError only for a rewards record that is none; AccountAlreadyInitialized only if the account to create (or the vault authority) is not blank; AccountNotRentExempt only if the account to create is not funded; InvalidSeeds only if an account is not at the address derived for it; IncorrectProgramId only for the wrong token or stake view program; InvalidArgument only for basis points above 10000; InsufficientFunds only if the vault authority is below its rent; AccountBorrowFailed only if the config or a stake is passed twice; ReadonlyDataModified only if an account was passed read-only. Each of these codes does occur.", "quantifier": "all reachable states, instructions and oracles whose failures count as failures of a called program", "why_tests_cant": "A statement about the cause of every failure: a test shows that a given mistake gives a given code, not that the code has no other cause.", "anchors": ["program/src/processor/mod.rs", "program/src/state/mod.rs", "program/src/processor/harvest_sol_staker_rewards.rs", "program/src/processor/initialize_config.rs"]}
{"id": "C105", "title": "What each instruction does, in full", "statement": "For every instruction that is accepted, the state afterwards is exactly the one described: which account pays how many lamports to which, the new value of every field of every account whose contents change, and that no other account, owner, field or lamport changes. Harvests pay the accrued rewards from the config to the stake's authority and bring the config and the stake up to date; staking, unstaking, slashing, moving and overriding settle the rewards in the same way, change the staked amount by the amount given, recompute the effective stake and the config's total, and move or burn exactly those tokens; a SOL staker harvest with a changed native stake also pays the keeper, settles the validators left and joined and adjusts their SOL totals; the initialisations write the given settings and zeros; SetAuthority, UpdateConfig and ValidatorSyncAuthority change the one field. Where the rewards program is called, it is called in the state described with the call described, and what is done with its result is described too.", "quantifier": "every environment, every reachable state, every account list and instruction data, every behaviour of the programs called (for the holder harvest and the SOL staker harvest with changed native stake: every behaviour within their interface); for staking, unstaking and the SOL staker harvest with changed native stake, the authorities paid are not the config account itself", "why_tests_cant": "a test compares the fields it looks at in the states it sets up; a field changed by mistake in an account it does not look at, or in another state, goes unnoticed", "anchors": ["program/src/processor/*.rs", "program/src/state/mod.rs", "program/src/processor/mod.rs"]}
{"id": "C106", "title": "The runtime has nothing to object to", "statement": "The Solana runtime stops an instruction that changes data of an account of another program, takes lamports from an account of another program, creates or destroys lamports, or changes an account passed as read-only. No instruction of the stake program is ever stopped for changing foreign data. It is stopped for taking foreign lamports only when HarvestHolderRewards is called and the vault authority does not belong to the program or was empty. It is stopped for creating or destroying lamports only when an account that may be paid (the authority of a stake account, the previous or current validator's authority, the keeper) is passed in another position as well. It is stopped for changing a read-only account only when an account of the instruction's footprint was passed as read-only. So with distinct accounts, the right flags and a funded vault authority none of these errors can occur.", "quantifier": "All reachable states, all instructions (any data, accounts, signers and flags), all behaviours of the called programs that follow the runtime's rules, touch only the accounts they are called with, conserve lamports and fail as calls.", "why_tests_cant": "Tests see the runtime object, or not, for the accounts they pass; that no combination of accounts, states and answers of the called programs can lead to another objection is a statement about all of them.", "anchors": ["program/src/processor/mod.rs", "program/src/processor/harvest_holder_rewards.rs", "program/src/processor/unstake_tokens.rs", "program/src/processor/slash_sol_staker_stake.rs", "program/src/processor/initialize_config.rs"]}
{"id": "C107", "title": "A vault authority set up without lamports loses the holder rewards", "statement": "InitializeConfig hands the vault authority to the program but accepts it empty, and the runtime removes empty accounts. A vault authority that does not belong to the program never comes back to it and never loses a lamport, whatever anybody does; HarvestHolderRewards then passes nothing on to the config and, once the vault authority has more than its rent minimum, is never accepted again. Stakers keep their claims on those rewards, so that stake can be locked in: there is a history in which the payment of the vault's rewards makes a validator's harvest and withdrawal fail. Conversely a vault authority that belongs to the program and has lamports keeps both for ever.", "quantifier": "every environment, every reachable state with an initialised config, every continuation by any instructions and any activity of other programs; the locked stake is an existence statement about a reachable history", "why_tests_cant": "the tests fund the vault authority before they create the config, and a test can only run the continuation it was written for, not all of them", "anchors": ["program/src/processor/initialize_config.rs:38-61", "program/src/processor/harvest_holder_rewards.rs", "program/src/processor/mod.rs:299-386"]}
{"id": "C108", "title": "Lamports that reach a config nobody has stake in stay there for ever", "statement": "Lamports that arrive on a config while its effective stake is zero give nobody a claim, then or later. At every time the lamports of the config and the vault authority are at least: what all stake accounts would be paid now, plus the config's rent-exempt minimum, plus the holder rewards ever paid for slashed tokens, plus all lamports that ever arrived while the config had no effective stake (up to one lamport for each payout of holder rewards and the lamports credited without cover). That last amount only grows, so these lamports never leave. Likewise no lamport ever leaves a stake account.", "quantifier": "every environment, every history of instructions and activity of other programs in which the rewards program keeps its contract; for stake accounts every reachable state and every continuation", "why_tests_cant": "the loss shows only when arrivals, stakes, slashes and payouts of a whole history are added up; a test sees one arrival and one harvest", "anchors": ["program/src/processor/mod.rs:299-386", "program/src/processor/harvest_holder_rewards.rs", "program/src/state/mod.rs"]}
{"id": "C109", "title": "Whoever comes first sets up the config", "statement": "InitializeConfig asks for no signature. Whenever somebody can initialise a config, anybody can do it instead, with the same accounts and with authorities and settings of their own choice; the config then has these authorities and the intended initialisation is never accepted again, whatever happens. Creating the account and initialising the config therefore belong in one transaction.", "quantifier": "every environment, every reachable state in which an InitializeConfig is accepted, every other request for the same config with any signers and any settings within range, every continuation", "why_tests_cant": "a test initialises its own config; it cannot show that no signature of any kind stands in the way in any state, nor that no continuation repairs it", "anchors": ["program/src/processor/initialize_config.rs:25-157", "program/src/instruction.rs:12-60"]}
{"id": "C110", "title": "Who has signed the governing document", "statement": "The authority of a SOL staker stake account had signed the document whose hash the config carries before the account was created; whoever never signed is never the authority of such an account. The authority of a validator stake account had signed before the account was created or was put there by a later ValidatorSyncAuthority, and that asks for no signed document: whoever never signed can become the authority of any validator stake account whose vote account names them, with the tokens staked on it.", "quantifier": "every environment, every reachable state, every config and stake account, every history in which a party has signed in no state, every validator stake account whose vote account still exists", "why_tests_cant": "a test checks that creation is refused without the document; whether every authority at any time has signed depends on all histories and on every other instruction that can set an authority", "anchors": ["program/src/processor/mod.rs:528-552", "program/src/processor/initialize_validator_stake.rs:60-75", "program/src/processor/initialize_sol_staker_stake.rs:80-95", "program/src/processor/validator_sync_authority.rs:20-70"]}
{"id": "C111", "title": "Every stake account is paid its share, over its whole life", "statement": "Divide every lamport of stake rewards that reaches a config in exact proportion to the effective stakes at the moment of arrival. Whatever happens in between - stakes, moves, slashes, harvests, at any times and in any number - the stake rewards that an account has been paid plus those it claims never exceed its share so computed. They fall short of it by less than one lamport for each time the account was settled and 10^-18 lamports per unit of its effective stake for each instruction on the config, as long as fewer than 3.4e20 lamports have arrived. (The config is not named in another role, such as payee.)", "quantifier": "every environment, every config, every stake account, every history of successful instructions and activity of other programs, of any length", "why_tests_cant": "the share of an account depends on the complete history of arrivals and of everybody's effective stake; a test follows one history", "anchors": ["program/src/processor/mod.rs:274-420", "program/src/state/mod.rs:160-200"]}
{"id": "C112", "title": "The program lends its signature only for the vault of the config at hand and for accounts it creates", "statement": "An accepted instruction consists of the program's own writing, which neither changes the data nor lowers the lamports of an account of another program, and of a fixed list of calls that depends only on the kind of instruction: of the system program, the token program, the rewards program and the stake view program, never of a program chosen by the sender. Every call has the signature it needs and is about accounts passed to the instruction. The program adds its own signature only for the vault authority of the config passed first (towards the token and rewards programs, and once towards the system program when the config is created) and for a stake account of that config whose address was still blank (towards the system program). Tokens are moved into the vault with the sender's signature only; with the program's signature tokens leave the vault by one transfer of the unstaked amount to the destination, or by one burn of the slashed amount.", "quantifier": "every environment, every behaviour of the called programs, every reachable state, every successful instruction with any accounts and data", "why_tests_cant": "tests see the net effect of the calls they happen to make; that no account list whatsoever makes the program sign for another config's vault or towards another program is a statement about all of them", "anchors": ["program/src/processor/validator_stake_tokens.rs:143-184", "program/src/processor/sol_staker_stake_tokens.rs:152-193", "program/src/processor/unstake_tokens.rs:187-229", "program/src/processor/harvest_holder_rewards.rs:103-121", "program/src/processor/mod.rs:468-493", "program/src/processor/initialize_config.rs:57-61", "program/src/processor/initialize_validator_stake.rs:110-119", "program/src/processor/initialize_sol_staker_stake.rs:58-70,171-183"]}
{"id": "C113", "title": "Every stake account is paid the holder rewards of its tokens", "statement": "Whenever the accumulator in the rewards program's record of the vault authority rises, each stake account of the config earns that rise for each of its tokens (the tokens it has at the end of the step in which the record rises; tokens being staked thus already count for a rise caused by their own deposit). Over the whole life of an account, through any number of stakes, unstakes, moves, slashes and harvests by anybody, the holder rewards it has been paid and still claims never exceed what it earned. As long as the accumulator has not wrapped, they fall short by less than a lamport for each time the account was settled. What an account is paid in a settlement is its stake rewards and its holder rewards, each rounded down.", "quantifier": "every environment, every behaviour of the called programs, every history of the chain in which the config is not named as payee, every config and stake account", "why_tests_cant": "a test follows one sequence of deposits and harvests; the statement sums over histories of any length, with any interleaving of other accounts and of the rewards program", "anchors": ["program/src/processor/mod.rs:274-420", "program/src/state/mod.rs:160-200"]}
{"id": "C114", "title": "Native stake counts as it was when the account was created or last harvested", "statement": "Whether an instruction is accepted and what it does depends on the native stake (what the stake view program reports) only for InitializeSolStakerStake and HarvestSolStakerRewards, and then only on the native stake account passed to it. After either of these the recorded native stake of the account is at most what is there; no instruction makes an account out of date, only native stake that moves does. If all SOL staker accounts of a config are up to date, its effective stake is at most 1.3 times twice all native stake there is, plus 1.3 times the minimums set by the config authority. Otherwise it is not bounded by it: the same native stake can back the stake of two accounts in full, and tokens can be staked on native stake that has gone.", "quantifier": "every environment, every behaviour of the called programs, every reachable state, every instruction, every config; the last sentence: a concrete history in which all native stake together always is the same", "why_tests_cant": "tests run with one fixed native stake per account; the bound is about all accounts together, and independence of the view program is about every instruction in every state", "anchors": ["program/src/processor/initialize_sol_staker_stake.rs:58-83", "program/src/processor/harvest_sol_staker_rewards.rs:107-126", "program/src/processor/sol_staker_stake_tokens.rs:132-150", "program/src/processor/unstake_tokens.rs:70-108"]}
{"id": "C115", "title": "The runtime lets the calls of a client's instruction through", "statement": "The runtime lets a program call another only if the called program and every account handed on are among the accounts of the instruction, what the called program wants to write is writable in the instruction, and what has to sign has signed or is signed for by the caller. When the program accepts an instruction built by the client, with the system, token and rewards programs in the places named after them, all calls it makes meet these conditions.", "quantifier": "every environment, every behaviour of the called programs, every reachable state, every client call with arguments of the Rust types, every fee payer", "why_tests_cant": "tests send single requests in prepared states; that the flags of all sixteen builders cover every call in every state is a statement about all of them", "anchors": ["clients/rust/src/generated/instructions", "program/src/processor/initialize_config.rs:57-61", "program/src/processor/initialize_validator_stake.rs:110-119", "program/src/processor/initialize_sol_staker_stake.rs:171-183", "program/src/processor/validator_stake_tokens.rs:143-186", "program/src/processor/sol_staker_stake_tokens.rs:152-195", "program/src/processor/unstake_tokens.rs:187-230", "program/src/processor/harvest_holder_rewards.rs:103-121", "program/src/processor/mod.rs:474-492"]}
{"id": "C116", "title": "The exported accessor of delegations accepts stake accounts of the config only", "statement": "unpack_delegation_mut_checked, which the crate exports, succeeds exactly for the stake accounts (of validators and of SOL stakers) of the given config, and then gives the account's delegation; although it does not look at the owner of the account, nothing else passes. It panics exactly on data shorter than eight bytes, for instance on an account that does not exist.", "quantifier": "every reachable state, every account, every config; the panic: all data", "why_tests_cant": "no instruction and no test of the repository uses the function; that nothing forged passes is a statement about all accounts in all states", "anchors": ["program/src/processor/mod.rs:237-272"]}
{"id": "C117", "title": "Where the documentation and the program differ", "statement": "Statements of README.md and of the doc comments that the program does not keep. (1) 'The total amount of staked tokens is limited to 1.3 times the SOL staked': a validator and a SOL staker can both have more tokens staked than that; only the effective stake is capped. (2) 'The config tracks the total of staked tokens' and 'the vault holds all the staked tokens': one stake account can have more tokens staked than its config's total says and than the vault holds. (3) 'After a deactivation a number of seconds must pass before the stake can be withdrawn' and 'permissionless, anybody can finish deactivating': every successful UnstakeTokens was signed by the authority of the stake, and the tokens are in the destination account when it ends. (4) 'When stake is added or removed the validator stake's totals are updated': SolStakerStakeTokens, and UnstakeTokens on a SOL staker's account, leave every validator stake account as it is. (5) 'Sets new authority on a config or stake account': SetAuthority succeeds on configs only.", "quantifier": "1 and 2: a reachable state that refutes the sentence; 3 to 5: every reachable state and every successful instruction (3: provided the rewards program keeps its contract and the destination is not the rewards pool's own token account)", "why_tests_cant": "the sentences speak about all executions; the tests of the repository follow the program, not the sentences", "anchors": ["README.md", "program/src/instruction.rs:95-100", "program/src/instruction.rs:332", "program/src/instruction.rs:420-425", "program/src/instruction.rs:579-585", "program/src/state/config.rs:25-34"]}
{"id": "C118", "title": "Accounts written with the Rust client are read back, by the client and by the program", "statement": "For each of the three account types of the Rust client: from_bytes yields a value exactly when the bytes begin with the Borsh encoding of that value, so that reading and writing are inverse to each other and nothing is lost. The program accepts the encoding of a value exactly when the discriminator in it is the one of the type, and then reads the same fields. The wrappers of optional values give back what was put in, except that an address of 32 zeros and the number 0 come back as None.", "quantifier": "all values of the client's types, all byte strings", "why_tests_cant": "all field values up to 2^128 and all byte strings; a test can only round-trip samples", "anchors": ["clients/rust/src/generated/accounts/config.rs:13-54", "clients/rust/src/generated/accounts/validator_stake.rs:12-40", "clients/rust/src/generated/accounts/sol_staker_stake.rs:13-46", "clients/rust/src/generated/types/delegation.rs:12-30", "clients/rust/src/hooked/nullable_address.rs", "clients/rust/src/hooked/nullable_u64.rs"]}
{"id": "C119", "title": "A frozen vault stops staking, unstaking and slashing", "statement": "While the vault token account of a config is frozen, no ValidatorStakeTokens, SolStakerStakeTokens or UnstakeTokens of that config succeeds, no slash of an account with tokens succeeds, and the staked tokens of the config's accounts change by SolStakerMoveTokens only. InitializeConfig does not look at the frozen state, so that a config can have a frozen vault from the beginning.", "quantifier": "all reachable states in which the vault is frozen, all instructions, all behaviours of the rewards program that keep its contract", "why_tests_cant": "a statement about every instruction that could take tokens while the vault is frozen; a test can only show single rejections", "anchors": ["program/src/processor/initialize_config.rs:71-103", "program/src/processor/validator_stake_tokens.rs", "program/src/processor/sol_staker_stake_tokens.rs", "program/src/processor/unstake_tokens.rs", "program/src/processor/mod.rs"]}
{"id": "C120", "title": "Moving tokens before a slash saves them from it", "statement": "If a SOL staker moves n tokens from one account to another and the first account is then slashed, by any amount, the slash takes at most what was left in the first account, burns that much from the vault, and leaves the second account's tokens as they were moved. So a staker who sees a slash coming can save all tokens from it by a move, which neither the cooldown nor the limit stands against (C56); the slash authority has to name the other account.", "quantifier": "all reachable states, all amounts of the move and of the slash, any outside state", "why_tests_cant": "a statement about all pairs of a move and a slash from every reachable state", "anchors": ["program/src/processor/sol_staker_move_tokens.rs:11-156", "program/src/processor/slash_sol_staker_stake.rs", "program/src/processor/mod.rs:417-480"]}
{"id": "C121", "title": "A new stake can leave at once", "statement": "After a successful stake of n tokens into an account whose cooldown is over, the rules allow to withdraw the configured share of the whole stake, new tokens included, at the same time by the clock: staking starts no cooldown. In particular, where the limit is 100%, somebody without a stake can stake before rewards arrive and leave with all tokens and a share of the rewards at the same clock time.", "quantifier": "all reachable states, all successful stakes for validators and SOL stakers, all times and amounts; the second sentence by a concrete history", "why_tests_cant": "what the rules allow after every possible stake in every state; a test can only try single sequences", "anchors": ["program/src/processor/validator_stake_tokens.rs", "program/src/processor/sol_staker_stake_tokens.rs", "program/src/processor/unstake_tokens.rs:148-179"]}
{"id": "C122", "title": "What a change of the settings does to stakes that exist already", "statement": "A new unstake limit holds at once for all stake accounts, a new cooldown time changes nothing for the next withdrawal of any account. The config authority can set the limit to zero at any time; from then on, whatever everybody else does, no token of the config can be unstaked until it signs again. There is no upper bound on the cooldown time: whoever unstakes while it is 2^63 seconds or more never unstakes from that account again, even if the setting is lowered later.", "quantifier": "all reachable states, all configs with an authority, all later histories, all times and amounts", "why_tests_cant": "claims about every later history and about all existing stake accounts at once", "anchors": ["program/src/processor/update_config.rs:14-79", "program/src/processor/unstake_tokens.rs:148-179", "program/src/processor/sol_staker_move_tokens.rs:123-141"]}
{"id": "C123", "title": "The program implements a staking machine of one page", "statement": "Take for each config only its terms (authorities, vault, cooldown time, limit, keeper reward) and for each of its stake accounts the owner, the staked tokens and the time until which they are locked. Then every instruction that succeeds is one operation of a small machine, the operation it asks for, in the book of the one config it names, and that operation is allowed: open an empty entry for the withdrawer of the vote or stake account, hand a validator's entry over to the present withdrawer, add a deposit of more than nothing, withdraw with the owner's signature after the lock has ended and within the limit and lock again, slash more than nothing with the slash authority's signature, move between two entries of one owner with the lock of both, change the terms with the signature of the authority concerned, or nothing at all. The books of all other configs stay as they are and nothing outside the program changes a book. So every book is one the machine leads to, and what the machine keeps holds of all books.", "quantifier": "all reachable states, all instructions with any accounts, data and signatures, all configs, all histories", "why_tests_cant": "a refinement: every execution of the whole program, with all its accounts and bytes, is an execution of the abstract machine", "anchors": ["program/src/processor/mod.rs:52-210", "program/src/state/mod.rs:1-383", "program/src/processor/unstake_tokens.rs:148-179", "program/src/processor/sol_staker_move_tokens.rs:123-141", "program/src/processor/update_config.rs:14-79", "program/src/processor/set_authority.rs:14-70"]}
{"id": "C124", "title": "The keeper reward has no upper bound and applies to rewards earned before", "statement": "The config authority can set the keeper reward to any amount at any time. It applies at once to rewards a SOL staker has accrued under another setting: the next harvest that finds the native stake changed pays everything accrued, up to that amount, to whatever account its caller names as the keeper, and if the accrued reward is no larger the staker's authority gets nothing. A staker who harvests first and names their own authority as the keeper gets all of it.", "quantifier": "all reachable states, all configs with an authority, all amounts, all stakers, all callers and keepers", "why_tests_cant": "a claim about every accrued amount and every setting; the tests use fixed small keeper rewards", "anchors": ["program/src/processor/update_config.rs:66-72", "program/src/processor/mod.rs:350-372", "program/src/processor/harvest_sol_staker_rewards.rs:24-240"]}
{"id": "C125", "title": "Instructions about no tokens at all", "statement": "Staking zero tokens and slashing zero tokens are refused in every state. Unstaking zero tokens is a withdrawal like any other: it needs the authority's signature and an account that is not locked, leaves the tokens and locks the account for the cooldown time. Moving zero tokens needs the signature of the authority of both accounts, leaves all tokens and locks the destination for as long as the source is locked.", "quantifier": "all states for the refusals; all reachable states, accounts and times for the effects", "why_tests_cant": "the refusals are about every state, the effects about every account and lock", "anchors": ["program/src/processor/validator_stake_tokens.rs:122", "program/src/processor/sol_staker_stake_tokens.rs:134", "program/src/processor/mod.rs:449-454", "program/src/processor/unstake_tokens.rs:148-179", "program/src/processor/sol_staker_move_tokens.rs:123-141"]}
{"id": "C126", "title": "Amounts can be given in parts", "statement": "Staking a tokens and then b into an account leaves the terms of the config, the owner, tokens and lock of all its stake accounts, and the effective stakes of its SOL stakers exactly as staking a + b at once does. The same holds for slashing an account, also if it holds fewer tokens than are slashed, and for moving between two accounts.", "quantifier": "all reachable states, all amounts, all accounts, any clock and any behaviour of the called programs in each of the instructions", "why_tests_cant": "relates three executions for all states and amounts", "anchors": ["program/src/processor/validator_stake_tokens.rs:110-187", "program/src/processor/sol_staker_stake_tokens.rs:120-196", "program/src/processor/mod.rs:430-500", "program/src/processor/sol_staker_move_tokens.rs:100-156"]}
{"id": "C127", "title": "Fetching accounts with the JavaScript client", "statement": "fetchConfig, fetchValidatorStake and fetchSolStakerStake, asked for an account that the program reads as one of that type, give the address and the values that the program has stored. Fetching a list of accounts succeeds exactly when fetching each of them alone does and gives the same accounts in the same order; if some do not exist and the others decode, the error names exactly those that do not exist. The error for a single account names it and tells whether it does not exist or is too short. Apart from existence only the length is checked, not the owner and not the discriminator: fetchConfig succeeds for every account of at least 192 bytes, fetchValidatorStake of at least 144, fetchSolStakerStake of at least 168.", "quantifier": "all answers of the node, all addresses, all lists of addresses", "why_tests_cant": "all account data and lists of addresses; tests fetch accounts of the expected type", "anchors": ["clients/js/src/generated/accounts/config.ts:125-176", "clients/js/src/generated/accounts/validatorStake.ts:81-140", "clients/js/src/generated/accounts/solStakerStake.ts:83-142"]}
{"id": "C128", "title": "The order of instructions about different stakes does not matter", "statement": "Take two instructions, each a stake, unstake, slash, move or harvest, that do not name the same stake account for it. If they are carried out in one order, or in the other from the same state and at the same times, then in the end every config has the same terms and every stake account the same owner, tokens and lock; if neither is a SOL staker's harvest, every SOL staker also has the same effective stake. By the rules of the machine of C123 they are allowed in the one order exactly when they are allowed in the other.", "quantifier": "all reachable states, all pairs of such instructions, all times, any behaviour of the called programs in each of the four executions", "why_tests_cant": "relates two executions for all pairs of instructions and all states", "anchors": ["program/src/processor/unstake_tokens.rs:60-200", "program/src/processor/validator_stake_tokens.rs:110-187", "program/src/processor/sol_staker_stake_tokens.rs:120-196", "program/src/processor/sol_staker_move_tokens.rs:100-156", "program/src/processor/mod.rs:430-500"]}
{"id": "C129", "title": "The stakes of a config can be computed from its instructions alone", "statement": "Write down for every successful instruction on a config who has signed, the time and what it asks for; the line is determined by the instruction and the vote or stake account it names. Starting with an empty book and following these lines by the rules of the machine of C123, one is never stopped, and ends with the terms of the config and the owner, tokens and lock of each of its stake accounts as they are on the chain. Failed instructions, instructions on other configs and what other programs do need not be looked at. Every history has such a journal.", "quantifier": "every environment, every config, every history of any length, including activity of other programs and on other configs", "why_tests_cant": "induction over histories of any length", "anchors": ["program/src/processor/mod.rs:50-193", "program/src/state/config.rs:1-60", "program/src/state/mod.rs:1-40"]}
{"id": "C130", "title": "Every token of a stake account is accounted for", "statement": "Add up over the successful instructions on a config what was deposited in a stake account and moved to it, what was withdrawn and moved from it, and what slashes of it asked for. What the account holds and what was taken out of it never exceeds what was put in, and falls short by no more than what slashes asked for; without slashes it is equal. Each withdrawal and each move from the account was signed by its owner at that moment, each slash by the slash authority of the config at that moment. A SOL staker who has signed none of the instructions on the config has lost nothing but what slashes asked for, whoever else has signed what.", "quantifier": "every environment, every config, every stake account, every history of any length, including activity of other programs and on other configs", "why_tests_cant": "an account over histories of any length", "anchors": ["program/src/processor/validator_stake_tokens.rs:110-187", "program/src/processor/sol_staker_stake_tokens.rs:120-196", "program/src/processor/unstake_tokens.rs:140-232", "program/src/processor/mod.rs:430-500", "program/src/processor/sol_staker_move_tokens.rs:100-156"]}
{"id": "C131", "title": "A lock always comes from a withdrawal the owner has signed", "statement": "The lock (unstake cooldown) of a stake account is zero, or equals the time of some earlier successful withdrawal plus the cooldown the config had at that moment (capped at the largest 64-bit number), and that withdrawal was from an account of the same config and signed by that account's owner of that moment. For a validator's account it was the last withdrawal from that very account, and the lock is zero only if there was none or that sum is zero. For a SOL staker's account the withdrawal was from one of the staker's own accounts and signed by the staker: nobody else can lock a SOL staker's tokens, by moves or otherwise, and a SOL staker who has signed nothing on the config is not locked.", "quantifier": "every environment, every config, every stake account, every history of any length, including activity of other programs and on other configs", "why_tests_cant": "the origin of a stored value over histories of any length, through moves between accounts and changes of the config", "anchors": ["program/src/processor/unstake_tokens.rs:140-190", "program/src/processor/sol_staker_move_tokens.rs:100-156", "program/src/processor/update_config.rs:1-60"]}
{"id": "C132", "title": "Sending an instruction a second time", "statement": "Somebody who does not know whether an instruction went through can send it again. If it did go through, then immediately afterwards: UpdateConfig, ValidatorSyncAuthority, ValidatorOverrideStakedLamports and HarvestValidatorRewards go through again and change nothing at all, whatever the clock or the programs called say; so does HarvestSolStakerRewards while the same native stake is reported and is with a validator of the config or with nobody (payees other than the config itself). SetAuthority is refused unless the new authority is the old one. An initialisation is refused at any later time. UnstakeTokens is refused until the cooldown is over.", "quantifier": "every environment, every reachable state, every instruction of these kinds with any account list and signers (the accounts it writes are passed as writable), every behaviour of other programs at the second time", "why_tests_cant": "equality of whole states for all states and inputs", "anchors": ["program/src/processor/update_config.rs:1-79", "program/src/processor/validator_sync_authority.rs:1-70", "program/src/processor/validator_override_staked_lamports.rs:1-96", "program/src/processor/harvest_validator_rewards.rs:1-93", "program/src/processor/harvest_sol_staker_rewards.rs:1-278", "program/src/processor/set_authority.rs:1-78", "program/src/processor/unstake_tokens.rs:140-190"]}
{"id": "C133", "title": "What the accounts of a SOL staker hold together", "statement": "Take all SOL staker stake accounts of a config whose authority is a given key. What they hold together plus everything ever withdrawn from them never exceeds everything ever deposited in them, and falls short by no more than what slashes of them asked for; without slashes it is equal. Moves do not count: no tokens come to or leave a staker's accounts by moves. Every withdrawal from one of these accounts was signed by the staker. The accounts can be listed in every state.", "quantifier": "every environment, every config, every key, every history of any length, including activity of other programs and on other configs", "why_tests_cant": "a sum over any number of accounts and a history of any length", "anchors": ["program/src/processor/sol_staker_move_tokens.rs: process_sol_staker_move_tokens", "program/src/processor/unstake_tokens.rs: process_unstake_tokens", "program/src/processor/sol_staker_stake_tokens.rs: process_sol_staker_stake_tokens", "program/src/processor/slash_sol_staker_stake.rs: process_slash_sol_staker_stake"]}
{"id": "C134", "title": "What is in force is what was asked for last", "statement": "The cooldown time, unstake limit, keeper reward, config authority, slash authority and vault stored in a config are those asked for last: at its creation, or by the last successful UpdateConfig or SetAuthority for that value; nothing that happened in between has altered them. Except for the creation, each change of a setting or of the config authority was signed by the config authority in force at that moment, each change of the slash authority by the slash authority in force. The authority of a stake account is the one given to it last: the withdrawer found when it was created, or for validators at the last ValidatorSyncAuthority.", "quantifier": "every environment, every config, every stake account, every history of any length, including activity of other programs and on other configs", "why_tests_cant": "a statement about histories of any length with instructions of all kinds in between", "anchors": ["program/src/processor/update_config.rs: process_update_config", "program/src/processor/set_authority.rs: process_set_authority", "program/src/processor/initialize_config.rs: process_initialize_config", "program/src/processor/validator_sync_authority.rs: process_validator_sync_authority", "program/src/processor/initialize_validator_stake.rs: process_initialize_validator_stake", "program/src/processor/initialize_sol_staker_stake.rs: process_initialize_sol_staker_stake"]}
{"id": "C135", "title": "Every account of the program comes from exactly one initialisation", "statement": "Over the whole history, the number of successful InitializeConfig instructions for an address is one if a config is there now and zero otherwise; the number of successful initialisations of a stake account, with its config, is one if the stake account exists now and zero otherwise. So no account of the program appears without an initialisation, none is initialised twice and none vanishes. Two histories with the same successful instructions on a config, whatever else happened in them, end with the same terms and the same stake accounts with the same owners, tokens and locks.", "quantifier": "every environment, every config, every stake account, every history of any length, including activity of other programs and on other configs", "why_tests_cant": "a count over histories of any length", "anchors": ["program/src/processor/initialize_config.rs: process_initialize_config", "program/src/processor/initialize_validator_stake.rs: process_initialize_validator_stake", "program/src/processor/initialize_sol_staker_stake.rs: process_initialize_sol_staker_stake"]}
