# Formal model of the Paladin stake program: design

Source: `/repo` (paladin-bladesmith/stake-program): the Rust program under `program/src`, the generated Rust client under
`clients/rust/src`, and the JavaScript client under `clients/js/src`.
Model and proofs: `/verif/lean/Verif`, Lean 4.33.0 with Mathlib.

## 1. What is modelled

Function by function, from the text of the source:

| Rust | Lean module |
|---|---|
| `state/mod.rs` arithmetic (`calculate_*`), constants | `Verif/Model/Arith.lean` |
| `state/*.rs` account types, addresses | `Verif/Model/Basic.lean` |
| `processor/mod.rs` (`unpack_initialized`, `sync_config_lamports`, `harvest`, `sync_effective`, `process_slash_for_delegation`, `transfer_excess_lamports`, `check_duna_document_signed`) | `Verif/Model/Shared.lean` |
| `processor/mod.rs` `unpack_delegation_mut_checked` (exported, no caller) | `Verif/Model/Exported.lean` |
| `clients/rust/src/generated/accounts/*.rs` (serialising), `hooked/*.rs` | `Verif/Model/ClientAccounts.lean` |
| the sixteen `processor/*.rs` instruction handlers | `Verif/Model/Instr.lean` |
| `instruction.rs` `pack` / `unpack` | `Verif/Model/Codec.lean` |
| `process_instruction` dispatch, runtime rules, histories | `Verif/Model/Exec.lean` |
| (runtime) transactions and their rent check | `Verif/Model/Tx.lean` |
| byte layout of the three account types, `bytemuck` and `unpack_initialized` on bytes | `Verif/Model/Layout.lean` |
| derivation of addresses from seeds (`state/mod.rs` 37-154, `clients/rust/src/pdas.rs`, `clients/js/.../pdas/vault.ts`) | `Verif/Model/Pda.lean` |
| `clients/rust/src/generated`: instruction constructors, argument types, account decoders | `Verif/Model/Client.lean` |
| `clients/rust/src/generated/instructions`: builders and CPI wrappers | `Verif/Model/ClientBuild.lean` |
| `error.rs`, the "errors" of `idl.json`, `generated/errors` of both clients | `Verif/Model/Errors.lean` |
| `program/idl.json`, `scripts/generate-clients.mjs` (types, names and sizes), a generic tool driven by it | `Verif/Model/Idl.lean` |
| `clients/js/src`: instruction functions, parsers, codecs of accounts and types; the fetch functions | `Verif/Model/Js.lean`; `Verif/Model/JsFetch.lean` |

A *world* is a function from addresses to accounts (lamports, owner, data). Accounts passed to an
instruction are addresses into that world, so passing one account in two roles (aliasing) is modelled
exactly. Handlers update the world in place and in the order of the Rust code, in an error monad; a Rust
panic (`assert!`, `unwrap`, slice index) is the error value `panic`.

Other activity on the chain is a relation `ExtStep` between worlds that says only what the Solana runtime
guarantees to this program: accounts it owns keep owner and data and do not lose lamports (an account
with zero lamports may vanish), an account can be handed to this program only with all-zero data, and
addresses derived from this program's id can only receive lamports.

A *history* is any interleaving of `ExtStep`s and successful instructions, starting from a world where
this program owns no initialised account. Failed instructions have no effect (the runtime discards them).

### Parameters, not axioms

* `Env`: canonical bump of each vault address, the on-curve predicate, the rent function, the decoding of
  32-byte keys. Theorems hold for every `Env`.
* `Oracle`, chosen afresh for each instruction: the clock, the result of the stake view program, and the
  effect of the three rewards-program calls. Theorems hold for every oracle that satisfies the runtime
  frame rule (`ExtStep`); the solvency theorems (C18, C22) add an explicit contract for the rewards program,
  stated as a hypothesis and shown satisfiable by a concrete implementation.

### Simplifications

* Addresses are a free algebra (`Key`): an ordinary key or one of the derived forms with its seeds. So
  derived addresses are injective in their seeds and never equal an ordinary key. This idealises collision
  resistance of SHA-256; a hypothesis of injectivity over 32-byte strings would be false.
* Account data is typed (`Data`): a value stands for the bytes that decode to it. `Model/Layout.lean`
  proves separately that the byte layouts decode uniquely and that the types are disjoint.
* spl-token `TransferChecked` and `BurnChecked` are modelled for ordinary (not wrapped-SOL) mints, with owner
  and delegate authority. Multisig owners always fail because the program passes no extra signers.
* Signer and writable flags are per address rather than per account slot (the runtime merges duplicates).
* Two checks the runtime makes at the boundary of a cross-program call are modelled (`callOut`): none of the accounts passed on may
  be mutably borrowed by the caller, and the lamports must balance. The runtime learns the caller's lamport changes only for the
  accounts passed on, and compares the sum with that at the start; so a change of an account passed on must be balanced by other
  accounts passed on. Initialisation is left out of this: its handlers hold shared borrows only and move lamports only through
  calls. Inside the handlers, borrowing the data of an account that is passed twice and already borrowed fails with
  `AccountBorrowFailed` (`Model/Instr.lean`, header). Which accounts and signatures a call
  needs is covered by C112. Compute budget, call depth, the writable privileges and the presence of the called program's account are not modelled;
  that the client's instructions meet the last two is C115. They only make more executions fail, so every theorem about successful executions and reachable states still covers the real ones; a
  theorem that an instruction is accepted (C54 to C61) says that the program and the modelled checks accept it.
* Histories are sequences of instructions. Transactions, which group instructions and end with the runtime's rent check, are modelled on
  top of that (`Model/Tx.lean`): C98 says that they add no histories, C99 when a transaction that the instructions accept is refused.
* The runtime's rule that a read-only account must not change, and that an instruction conserves lamports, are checked once,
  at the end of the instruction (`exec`). The rule that only the owner may lower lamports or change data is checked at the write.
* `transfer_excess_lamports` adds lamports without overflow check. An execution in which two accounts together hold 2^64 lamports
  is treated as failing; the total supply of lamports is below that.
* `BurnChecked` has an exemption from the owner check for accounts owned by the system program or the incinerator. The
  vault is owned by the vault authority, so it does not apply and is left out.
* `World.WF` (part of `Genesis` and `ExtStep`): all numbers are in machine range, and the account at the all-zero address
  (the system program) is not a vote account.
* `Oracle.Ok` says that the called programs obey the runtime's rules. For the rewards program, which receives the vault authority's
  signature, it includes that the signature is not passed on to spend from or reassign the vault authority's account.
* Logging is not modelled.

### Vocabulary of the statements

Small files, none of which mentions a handler or one of its helpers:

| File | Says what is meant by |
|---|---|
| `Spec.lean` | config / stake account / token account at an address, belongs to a config, sum over all accounts, decoded instruction |
| `Contract.lean` | contract of the rewards program, histories in which it is kept, accrued rewards |
| `SpecLive.lean` | conditions under which an instruction is accepted (C52-C62). "Accepted" is relative to the model: limits on compute and call depth and the writable privileges of cross-program calls are not part of it |
| `SpecFoot.lean` | which positions an instruction may change; oracles that change only accounts they are given (`Local`) |
| `SpecClient.lean` | what a client call stands for |
| `SpecJs.lean` | which accounts must consent, by name; what a JavaScript value stands for and which values are accepted; accounts as the JavaScript client shows them |
| `SpecBuild.lean` | accounts and arguments of a client call by name; what a builder has been told; what the runtime requires of a cross-program invocation |
| `SpecOrder.lean` | agreement of two states on some accounts; oracles that see only accounts they are given (`Sees`); batches |
| `SpecAccrual.lean` | steps of the chain in which an account takes no part |
| `SpecAccounts.lean` | which account belongs in which position |
| `SpecIdl.lean` | the values of a call's arguments and of an account's fields, as a tool driven by the IDL sees them |
| `SpecExtra.lean` | how many accounts an instruction takes, and when two requests give them the same rights |
| `SpecKeeper.lean` | histories during which a native stake does not change |
| `SpecSplit.lean` | recorded lamports and minimums of one account, to be summed |
| `SpecErrors.lean` | which account an instruction expects where, by role; for each error code what is wrong; called programs that do not use this program's codes |
| `SpecFaults.lean` | what each account must hold, which program must own it, who must sign, which address is right; for each standard error code what is wrong |
| `SpecHand.lean` | which accounts an instruction hands to the programs it calls |
| `SpecLedger.lean` | stake rewards claimed, paid and received over a history |
| `SpecShortfall.lean` | lamports credited without cover |
| `SpecOrphan.lean` | histories with the tokens slashed and the holder rewards paid for them |
| `SpecExit.lean` | instructions by others, allowed withdrawals, stretches of history in which a stake leaves |
| `SpecSettings.lean` | stretches of history in which somebody signs nothing |
| `SpecBook.lean` | the abstract machine of C123: terms, entries, operations, and the book of a config |
| `SpecSwap.lean` | operations and instructions about stakes, and the stakes they are about |
| `SpecJournal.lean` | the journal of the instructions on a config, and the book it leads to |
| `SpecTally.lean` | what a journal says was put into a stake account and taken out of it |
| `SpecTx.lean` | rent exemption, vacant addresses, wallets, transactions of one instruction with and without a payment in front |
| `SpecEffect.lean` | the state after each instruction, account by account and field by field |
| `SpecRules.lean` | which rules of the runtime an instruction can break, and how; called programs that conserve lamports |
| `SpecSettles.lean`, `SpecIdle.lean` | which instructions count new lamports; lamports counted without effective stake; histories that add them up |
| `SpecDuna.lean` | who has signed the governing document |
| `SpecShare.lean` | the share of one account in all stake rewards, over a history |
| `SpecHolderShare.lean` | the share of one account in the holder rewards, over a history |
| `SpecNative.lean` | the native stake that is there, as opposed to the recorded one |
| `SpecPrivilege.lean` | what the runtime demands of a call of another program |
| `SpecCalls.lean` | what other programs are asked to do, with whose signature; which calls each instruction makes |
| `SpecPanic.lean` | called programs that do not make the caller panic; a config that cannot pay |

`Witness*.lean` contain concrete histories (two validators, two SOL stakers, a reference rewards program) that meet the hypotheses of
the theorems; the `example`s beside the theorems refer to them.

### Agreement with the repository's tests

The program cannot be run here, but its tests record what it did when it was run. `Replay.lean` evaluates all 149 integration
tests of `/repo/clients/rust/tests` in the model, each with its fixture, its inputs and its expected result (fields and balances, or the
error code). All agree. Writing it down corrected the model in two error codes: an account of a mint's or token account's size that was never
initialised is refused with `UninitializedAccount` (it was `InvalidAccountData`), and an undecodable holder rewards record with
`BorshIoError`. These are tests of the model, not proofs; no theorem depends on them.

## 2. Trusted base

* Lean's kernel. Every property theorem depends on at most `propext`, `Classical.choice`, `Quot.sound`
  (listed per theorem in section 5 by `#print axioms`). No axioms are added; no `sorry`, `native_decide`, `bv_decide`.
* That the Lean definitions say what the Rust source says (each cites file and lines), and that the parts not
  modelled behave as assumed: the Solana runtime rules listed above, spl-token, shank's account context (all
  accounts must be present; the optional keeper is absent when the program's own id is passed), bytemuck.
* Not modelled: the rewards program and stake view program themselves (only contracts), the DUNA program, log messages. Of the clients: the `serde` feature of the Rust client, its `anchor` feature (which does not compile: `anchor_lang` is not among the dependencies), the network behind the fetch functions,
  and the library `@solana/web3.js`, whose codecs are modelled by their assumed behaviour. The account flags in the IDL and in both clients are the same (C83, C88).
* In `Model/Pda.lean`, SHA-256 and the curve test are parameters. C68 says that derived addresses collide only if SHA-256 does.

## 3. Plan per property

Proof shapes: **I** invariant by induction over histories; **D** decision logic of one instruction
(from success, conclude the checks and the effect); **H** property of whole histories; **A** arithmetic; **R** round-trip.

| Id | Shape | Plan |
|---|---|---|
| C01 | I | `effTotal` is the sum of a finitely supported function; each micro-step (harvest, sync_effective, data write) preserves it |
| C02 | I | per-account invariant; `sync_effective` re-establishes it, other writes only raise the limit |
| C03 | I | as C02 with equality for SOL stakers |
| C04 | D + witness | equality from `sync_effective` as last write; a concrete history where it fails after InitializeSolStakerStake |
| C05 | I | sum over stakers with a given vote; the two instructions that change it are done explicitly |
| C06, C07, C08 | D over all instructions | per-instruction effect summary on stake accounts, then case analysis |
| C09, C10 | D + H | effect summary on configs; frozen part by induction over histories |
| C11, C12 | I | |
| C13 | D | inversion of UnstakeTokens and of the token transfer |
| C14 | H | cooldown is monotone along histories |
| C15, C16 | D | |
| C17 | H | ghost counters of amounts along a history, by induction |
| C18 | I under contract | sum of staked amounts against `deposited` |
| C19, C20, C21 | D | inversion of `harvest` |
| C22 | I under contract | scaled liabilities bounded by scaled lamports; modular growth is at most true growth |
| C23 | I | from C01, C05 and lamports_last <= lamports |
| C24 | D over all instructions | effect summary, addresses carry the config |
| C25, C26, C27 | I / D | |
| C28 | I | |
| C29 | D | runtime balance check plus per-instruction lamport summary |
| C30, C31, C32 | R | list-of-bytes codecs |
| C33, C34, C35, C36 | A | |
| C37, C38 | D | |
| C39 | I | |
| C40 | I | width invariant |
| C41, C42 | D over all instructions | |
| C43 | I under a hypothesis on the view program | |
| C44 | D + witness | claim after a stake is growth during the instruction times all tokens; refutation by a settling Deposit |
| C45 | D over all instructions | token summary of each instruction under the rewards contract |
| C46, C47, C48, C49 | D | exact effect of one instruction, and "only this instruction" by case analysis |
| C50 | D | settlement is the first micro-step of each instruction that changes a stake; accrued rewards are read off the old state |
| C51 | D | the call made to the rewards program, by an oracle that insists on it |
| C52-C62 | D, forward | run each handler from sufficient conditions on the accounts |
| C63 | D over all instructions | frame rule per handler |
| C64-C67 | R | client request decodes to the instruction; flags compared with the footprint; byte decoders against `Model/Layout` |
| C68, C69 | R | seeds have fixed lengths and distinct prefixes, so preimages differ |
| C70, C71 | relational | two runs on states that agree on the named accounts; batches by induction |
| C72 | H | settlements of others leave an account's accrued rewards alone; induction over steps |
| C73 | H | limit below 100% leaves at least one token, induction over unstakes |
| C74 | H | potential: tokens whose cooldown has not been spent in the stretch; each unstake uses it up |
| C75 | D + H | sync changes one field; harvest afterwards by C19 |
| C76 | D over all instructions | the checks of each handler, read off the inversion lemmas |
| C77 | H | vault balance plus slashed tokens never grows by an instruction of the config |
| C78 | H | accounting identity between staked total and rewards record |
| C79 | D over all instructions | when the bind of two steps panics; invariant rules out the rest; C22 for the shortfall |
| C80-C82 | R | what a builder holds is what was last given, by induction over the calls made on it; then per instruction |
| C83-C85 | R | the JavaScript functions against the Rust client's requests, the program's decoder (C31) and the program's layouts (C32, C67), field by field |
| C86 | D over all instructions | the first failing step of each handler; values read after a settlement traced back to the state before it |
| C87 | D over all codes | comparison of the tables, which are finite |
| C88 | R | induction over types for the generic codec; the generic builder against the Rust client's requests (C64), the generic decoder against the layouts (C32) |
| C89 | R | a handler sees of a request only its leading accounts and their rights (case analysis of the dispatcher); with the locality of C70 the runtime's two checks agree as well |
| C90 | D + H | C49 gives the record after a harvest; induction over the steps in between; C19 for the payments |
| C91 | I + H | sums of C02 and C03 over finite sets; double counting with C05; induction over histories for finiteness |
| C92 | F over settling instructions | the called accounts keep their lamports except the payee's; what the balance check then forces |
| C93 | I over histories with running totals | per instruction: an account keeps its markers and stake or is settled and paid what it is due; arriving lamports raise claims by all but the remainder of a division |
| C94 | I over histories with running totals | as C22, with the part of a claim that nobody paid for added to the bound at the two places where C22 fails |
| C95 | I over histories of others' instructions | every change of a delegation or config is classified by the signature it needs (C06, C09, C10); a withdrawal rule is monotone in what is left |
| C96 | I over histories with the times of unstakes | one unstake multiplies the stake by at least 1 - B/10000; the stored cooldown separates the times; rounding summed as a geometric series |
| C97 | I over histories, potential function | each token is weighted by what is left of it after the unstakes its account can still see; no step lowers the weighted sum by more than the slashed tokens |
| C98 | I over the instructions of a transaction | each is a step of a history |
| C99 | D for all instructions | in one instruction an account ends rent exempt, or with the same size and no fewer lamports; so only a credit that ends below the minimum can be refused; C54 and C57 after the payment |
| C100 | D, from C19 and C50 | the payment changes the authority's account, which must then be writable |
| C101 | I over histories with running totals | as C94; the recorded deposit exceeds the staked tokens by the slashed ones (C78), so each payout leaves the share of the slashed tokens beside the claims |
| C102 | D, equivalence: C52–C61 for one direction, inversion of each handler for the other | `Payable`, `Spendable` and `Fits` turn out to be necessary as well as enough; for the instructions that call the rewards program, relative to its accepting the call; for a harvest of a changed native stake, with room in 64 bits for every balance and total concerned |
| C103 | D: each handler but one does not read the clock (equality of functions); cooldown by cases of `DelChange` | `Verif/Props/Clock.lean` |
| C104 | D: every `require` and every unpacking of every handler against its reason (`Verif/SpecFaults.lean`), through the states inside a handler (`Alike`) | `Verif/Props/Faults.lean` |
| C105 | D: forward description of each handler as one change of the state (`Turns`, `Verif/SpecEffect.lean`), composed from the changes of its steps | `Verif/Props/Effects.lean` |
| C106 | D: case split over every error exit of every handler (owners tracked through the steps), footprint for the read-only rule, the sum of lamports over the accounts for the balance rule; `Objection` in `Verif/SpecRules.lean` | `Verif/Props/Rules.lean` |
| C107 | I over steps: the vault authority stays on its side of the ownership line (`Verif/Lemmas/Lost.lean`); a concrete history for the locked stake | `Verif/Props/Lost.lean` |
| C108 | I over histories: the coverage invariant of C94/C101 with the stranded lamports as a further reserve (`Primed` in `Verif/Lemmas/Cover.lean`) | `Verif/Props/Idle.lean` |
| C109 | D from C102, C105 and C25 | `Verif/Props/First.lean` |
| C110 | I (over histories), from C26, C08, C11 and C102 | `Verif/SpecDuna.lean`, `Verif/Props/Consent.lean` |
| C111 | I over histories with running totals (rationals), account by account: what C93 shows for all accounts together | `Verif/SpecShare.lean`, `Verif/Props/Share.lean` |
| C112 | R: every accepted instruction refines a list of calls with the program's own writing in between | `Verif/SpecCalls.lean`, `Verif/Props/Signature.lean` |
| C113 | I: a ledger of one account's holder rewards over the whole history | `Verif/SpecHolderShare.lean`, `Verif/Props/HolderShare.lean` |
| C114 | D (independence of the view program), I (accounts stay up to date), C91 for the bound; the refutation is a history of six instructions | `Verif/SpecNative.lean`, `Verif/Props/Native.lean` |
| C115 | D; the calls and their positions come from C112 | `Verif/SpecPrivilege.lean`, `Verif/Props/Privilege.lean` |
| C116 | D from the invariant about accounts at derived addresses | `Verif/Props/Exported.lean` |
| C117 | N (refuting states) for what can fail, D for what always differs | `Verif/Props/Docs.lean` |
| C118 | R | `Verif/Props/ClientAccounts.lean` |
| C119 | D, N (a config with a frozen vault) | `Verif/Props/Frozen.lean` |
| C120 | D (two instructions in succession) | `Verif/Props/Timing.lean` |
| C121 | D, N (a history) | `Verif/Props/Timing.lean` |
| C122 | D, I (histories in which the config authority signs nothing) | `Verif/Props/Settings.lean`, vocabulary in `Verif/SpecSettings.lean` |
| C123 | R (refinement of an abstract machine), I | `Verif/Props/Book.lean`, the machine in `Verif/SpecBook.lean` |
| C124 | D (two instructions in succession) | `Verif/Props/KeeperReward.lean` |
| C125 | D, from the refinement of C123 | `Verif/Props/Nothing.lean` |
| C126 | D, from the refinement of C123, for three executions | `Verif/Props/Parts.lean` |
| C127 | R, on C67 and C85 | `Verif/Props/JsFetch.lean` |
| C128 | D, commutation in the machine of C123, carried over by its refinement | `Verif/Props/Swap.lean` |
| C129 | I, over histories with their journal, each step by C123 | `Verif/Props/Journal.lean` |
| C130 | I, over journals in the machine of C123, carried over by C129 | `Verif/Props/Tally.lean` |
| C131 | I, over journals in the machine of C123, carried over by C129 | `Verif/Props/Locks.lean` |
| C132 | D, the conditions of C102 hold again in the state described by C105, and that description is then the identity | `Verif/Props/Again.lean` |
| C133 | I, C130 summed over the accounts of one owner; moves stay among them because an owner never changes | `Verif/Props/Holdings.lean` |
| C134 | I, over journals in the machine of C123, carried over by C129 | `Verif/Props/Last.lean` |
| C135 | I, over journals in the machine of C123, carried over by C129 | `Verif/Props/Once.lean` |

Statements live in `Verif/Props/*.lean` and use the small vocabulary of `Verif/Spec.lean`
(what a config, a stake account, a sum over accounts is), not the handlers' helpers. Each has a
non-vacuity `example` built from concrete histories in `Verif/Witness.lean`.

## 4. Findings

What the proofs turned up about the code. Each is backed by the theorem or example named.

1. **Claims can exceed funds (C22, C44).** If the rewards program's Deposit pays out pending holder rewards, the stake program credits
   the newly staked tokens with those past rewards: `harvest` runs before the Deposit, with the old accumulator, so the next
   settlement pays the growth caused by the Deposit on the new, larger stake. `C22_fails_with_settling_deposits` and
   `C44_fails_with_settling_deposits` are concrete histories; C22 and C44 are proved with that case excluded (see also finding 15).
   C94 covers all histories: it adds what the two flaws credit to the bound, and shows that there is no third cause.
2. **Slashing does not reach the staked tokens (C45, C77, C78, C101).** Staked tokens are moved on to the rewards program, but a slash burns
   from the vault. A slash therefore fails unless somebody has sent tokens to the vault (`C77_no_slash_before_funding`), and the
   deposit of a slashed account stays with the rewards program for good (`C78_slashed_deposit_is_stuck`). The rewards program goes on
   paying holder rewards for it; these lamports reach the config and can never be claimed (`C101_slashed_rewards_are_stuck`).
3. **Validator effective stake can be stale (C04).** InitializeSolStakerStake raises the validator's lamport total without recomputing
   its effective stake: `C04_not_always_exact`. It is recomputed at the next settlement of that account.
4. **A sync hands pending rewards to the new authority (C75).** ValidatorSyncAuthority does not settle first.
5. **A staker that undelegates with lamports left would be stuck (C43).** The `assert_eq!` in HarvestSolStakerRewards fails for an
   undelegated account with lamports. It cannot happen if the stake view program reports 0 effective lamports for an undelegated
   stake; `C43_view_hypothesis_needed` shows that this is needed.
6. **Client requests that pay a read-only authority fail (C66).** ValidatorStakeTokens and SolStakerMoveTokens pay pending rewards to the
   stake authority, which the IDL and both clients mark read-only. With rewards pending the request built by the client fails.
7. **The JavaScript `findVaultPda` never gives the program's address (C69).** Its constant seed is
   `token-vault`; the program's is `token-owner`.
8. **Client decoders ignore the discriminator (C67),** so a client may take one account type for another of the same length or longer.
9. **Rounding (C36).** The loss of one account between two harvests is below 2 lamports when its effective stake is at most 10^18, and
   can be larger beyond that: `C36_loss_above_two`. Holder rewards are rounded down as well; the dust stays on the config.
10. **Below 100% an account can never be emptied (C73).** With a limit under 10000 basis points, repeated unstaking leaves at least
    one token; when `staked * limit < 10000` only an unstake of 0 is accepted.
11. **Unstaking 0 tokens is accepted** and starts a new cooldown (C13 with amount 0).
12. **Staking needs no signature of the stake authority** (C76 lists the signatures); anybody may add tokens to anybody's stake, which
    settles it.
13. **The authority override is never in effect (C39).** No instruction writes the override account, so it is always empty.
14. **Config authority and withdrawals.** The config authority may set the limit to 0 or the cooldown to 2^64-1 (C47), which stops
    withdrawals.
15. **Keeper equal to the config (C22).** A keeper payment to the config account itself is overwritten by the debit of the config, so
    the lamport sum falls by the payment `t` and the runtime rejects the instruction, unless something else raises the sum by `t`.
    A validator whose vote account's withdraw authority is the config address does that: its settlement in the same sync pays the
    config. `C22_fails_with_config_keeper` is a history in which such a sync succeeds, the config counts lamports that it already
    owes as fresh rewards, and the staker that is being synced ends up with a claim larger than everything the config holds. It
    needs no signature of the config's authority and no misbehaviour of another program. C22 excludes a keeper that is the config.
16. **Panics (C79).** ValidatorSyncAuthority calls `.unwrap()` where the other instructions return an error, so syncing a vote account
    without a stake account panics (`C79_sync_unregistered`). The `assert!` on the config's rent in `harvest` can fail after finding 1.
17. **CPI builders exchange the flags of remaining accounts (C82).** `add_remaining_account` documents the tuple as
    (account, is_writable, is_signer), and `invoke_signed` reads it as (account, is_signer, is_writable). An account added as writable is
    passed as a signer, and the runtime refuses the invocation.
18. **The JavaScript client does not report wrong inputs (C83, C84, C85).** A required account that is missing is replaced by the
    program's address, so the transaction fails on chain instead of in the client (TypeScript's types catch the omission, plain
    JavaScript does not). A document hash of the wrong length is cut off or filled up with zeros. `parse...Instruction` checks
    neither the program nor the discriminator. `getNullableU64Codec` always throws, since its decoder declares 32 bytes and its
    encoder 8; nothing uses it.
19. **Six declared errors are never returned (C86):** InvalidTransferHookProgramId, MissingTransferHook, InvalidTokenAccountExtension,
    InvalidSlashAmount, TotalStakeAmountExceedsSolLimit, InvalidHolderRewards (`C86_never_returned`). The other twenty are
    (`C86_returned`). The same mistake is not always reported under the same code: a wrong vault authority is InvalidAuthority in
    the slashes and HarvestHolderRewards, and IncorrectVaultPdaAccount elsewhere; a wrong rewards record is
    InvalidVaultHolderRewardsSeeds or, in HarvestSolStakerRewards, InvalidSeeds. A called program's own custom code passes through
    unchanged, so a client cannot tell it from one of this program (hypothesis `Oracle.Foreign`).
20. **The IDL does not define all its types (C88).** `OptionalNonZeroPubkey` and `PodU128` are used and not defined, so a tool that
    knows only the IDL cannot decode any account (`C88_idl_accounts_undefined`). `generate-clients.mjs` replaces them by field name; a
    new field of these types under another name would not be replaced. Four of its transformations match nothing any more
    (`deactivationTimestamp`, and the arguments of three instructions that do not exist), and it is the source of the wrong seed of
    `findVaultPda` (C69).
21. **A keeper can be paid again and again (C90).** HarvestSolStakerRewards records a native stake that is delegated to a validator
    without a stake account as undelegated, so the record never agrees with the live stake and every harvest counts as a sync. Each
    pays its keeper up to the sync reward out of the staker's rewards (`C90_paid_every_time`); anybody can be the keeper, and may
    repeat it whenever holder rewards have accrued. A staker whose rewards between two such harvests are below the sync reward gets
    nothing.
22. Not proved, only noted while reading: the seed of the governing document is spelled "consitution"; nothing prevents a vault
    authority account without lamports from being collected by the runtime, after which HarvestHolderRewards fails its owner
    check until the account is assigned again.
23. **Own tokens cannot be staked while a reward is due (C92).** ValidatorStakeTokens and SolStakerStakeTokens pay the reward due
    (config to stake authority) and then call `transfer_checked`, which passes on the owner of the source token account but not the
    config. If that owner is the stake authority, the runtime sees its account gain lamports that nobody lost and refuses the call
    with UnbalancedInstruction. So a staker who keeps the tokens in an account of their own can stake the first time, when nothing
    is due, and later only after a separate harvest. `C92_own_tokens_refused`, `C92_own_tokens_unbalanced_*`, `C92_harvest_first`.
24. **An empty wallet or a reserved address as authority blocks settlement (C99, C100).** Every instruction that changes a stake first
    pays the reward due to its authority. If the authority's wallet has been emptied and the reward is below the rent minimum of a
    wallet (890880 lamports with Solana's parameters), the runtime refuses the transaction, also a slash. Whoever sends it has to
    fund the wallet first (`C99_*_after_top_up`). If the authority is an address that no transaction may write (a sysvar or
    built-in program; a validator can set any address as withdraw authority of its vote account, and anybody can then sync it), nothing
    helps: the stake can be neither harvested nor slashed as soon as a reward is due (`C100_unwritable_authority`). The tokens of
    such a stake are lost to its owner as well.
25. **InitializeConfig does not check the program that owns vault and mint (C46).** It unpacks their data and nothing more, so a config
    can be created with a vault that another program writes (`C46_vault_program_unchecked`). Such a config takes no stakes, because the
    transfer into the vault fails (`C46_false_vault_takes_no_tokens`).
26. **Staking starts no lock (C103).** The cooldown begins with the first withdrawal. Somebody who stakes just before a reward arrives gets
    a share as if they had been staking all along, and can withdraw (up to the limit) at the same second. The history in
    `Verif/Props/Clock.lean` stakes 500 tokens at time 1000, receives 2000 of a reward of 10000, and withdraws 250, all at time 1000.
27. **An unfunded vault authority loses the holder rewards and can lock in stakes (C106, C107).** InitializeConfig assigns the vault
    authority to the program without asking for lamports. If it is empty then, the runtime removes it at the end of the transaction,
    and no instruction assigns it again. Rewards paid to it later cannot be forwarded (`C107_nothing_passed_on`), but stakers have
    claims on them, which the config has to meet from other funds; when these do not suffice, harvests and withdrawals fail
    (`C107_locked`). A vault authority that has a lamport when the config is created stays with the program (`C107_funded_stays`).
28. **Lamports sent to a config without effective stake are lost (C108).** The next instruction that counts arrivals notes them in
    `lamports_last` but divides them among nobody. No later instruction pays them out; they can at most cover shortfalls from other
    causes (C94). There is also no instruction that closes a stake account, so its rent is never returned.
29. **InitializeConfig can be run by anybody (C109).** It needs no signature, not even of the config account. If the account is created
    in one transaction and initialised in another, somebody else can come in between and name themselves as authorities.
30. **ValidatorSyncAuthority does not ask for the governing document (C110).** Creating a stake account needs the document signed by
    the authority; a new withdraw authority of the vote account takes over the stake account by a sync without ever having signed.
31. **Native stake that has moved counts until somebody harvests (C114).** Only InitializeSolStakerStake and HarvestSolStakerRewards ask
    the stake view program; staking, unstaking, moving and slashing go by the recorded lamports. After registering one native stake
    account a staker can move the same SOL to another one and register that as well: both accounts then have full effective stake
    (`C114_counted_twice`), until anybody harvests the first. The keeper reward is the only incentive to do so.
32. **The documentation describes an earlier program (C117).** README.md and the doc comments say that staked tokens are limited
    (only the effective stake is), that unstaked tokens wait for a cooldown and can be released by anybody (they are paid out at once,
    with the authority's signature), that the config and the validator accounts keep totals of staked tokens (they do not), and that
    SetAuthority works on stake accounts (it does not).
33. **Whoever holds the freeze authority of the mint can lock all stakes (C119).** InitializeConfig checks the owner, the close
    authority, the delegate, the mint and the amount of the vault token account, but neither its frozen state nor the freeze
    authority of the mint. While the vault is frozen nobody can stake or unstake, and the slash authority cannot take tokens from
    anyone; rewards go on and SOL stakers can still move tokens between their accounts.
34. **A move saves tokens from a slash (C120).** A slash names one stake account and takes at most what it holds; it is accepted even
    if nothing is left. A SOL staker with a second account can move the tokens there first, at any time and without limit.
35. **There is no minimum staking time (C121).** Staking starts no cooldown and the limit counts new tokens at once, so that tokens can
    be staked just before rewards arrive and be withdrawn, up to the limit, right after.
36. **The settings have no safe range (C122).** UpdateConfig accepts a limit of zero, which stops all withdrawals at once, also of
    tokens staked under other terms, and any cooldown time. An unstake under an excessive cooldown time locks the account for good:
    lowering the setting does not release it, and a move carries the lock to the destination account (C15).
37. **The keeper reward has no upper bound (C124).** UpdateConfig accepts any `sync_rewards_lamports`, and the value in force when
    a harvest runs applies to rewards earned before. With a large value, whoever syncs a staker whose native stake has changed (it
    changes with every native reward) takes all that the staker has accrued. The staker can only be faster.
38. **Zero amounts are treated unevenly (C125).** Stakes and slashes of zero tokens are refused; an unstake of zero tokens is accepted
    and locks the account for a whole cooldown, and a move of zero tokens carries the lock of the source to the destination. Only
    the authority of the accounts can do this to itself.
39. **The JavaScript client fetches accounts of any type and program (C127).** `fetchValidatorStake` of the address of a config, or
    of a large enough account of another program, returns a validator stake made of its bytes. A caller has to check the owner and
    the discriminator itself.

## 5. Axioms per theorem

Output of `#print axioms` for every theorem named in `MANIFEST.json`:

<!-- axioms -->
* none (5): `C64_client_program`, `C85_js_nullable_u64`, `C87_code_injective`, `C87_js_client`, `C87_lists`
* propext (11): `C26_no_signature_needed`, `C31_rejected`, `C36_loss_above_two`, `C84_js_identify`, `C88_idl_sizes`, `C94_every_history`, `C101_every_history`, `C103_clock_for_unstake_only`, `C108_every_history`, `C116_accessor_panics`, `C118_nullable`
* Quot.sound, propext (42): `C32_config_write_read`, `C32_validator_write_read`, `C32_sol_staker_write_read`, `C32_no_confusion`, `C32_uninitialised_rejected`, `C32_model_reads_bytes`, `C34_rewards_per_token`, `C52_set_authority_accepted`, `C52_update_config_accepted`, `C53_sync_authority_accepted`, `C64_client_signers`, `C70_sees_only_its_accounts`, `C70_changes_only_writable`, `C71_order_does_not_matter`, `C80_builder`, `C81_cpi_instruction`, `C82_cpi_flags`, `C82_cpi_refused`, `C83_js_missing`, `C87_rust_client`, `C88_encode_decode`, `C88_idl_nothing_missing`, `C88_idl_accounts_undefined`, `C92_harvest_first`, `C94_stake_credit`, `C102_set_authority`, `C102_update_config`, `C105_set_authority`, `C105_update_config`, `C105_initialize_validator`, `C105_initialize_config`, `C105_stake_validator`, `C105_stake_sol_staker`, `C105_unstake`, `C114_native_stake_looked_at`, `C124_any_keeper_reward`, `C125_refused`, `C127_fetch_all`, `C128_machine`, `C129_line_is_determined`, `C132_update_config`, `C132_set_authority`
* Classical.choice, Quot.sound, propext (365): `C01_effective_total_is_sum`, `C02_validator_effective_bounded`, `C02_solStaker_effective_bounded`, `C03_solStaker_effective_exact`, `C04_stake`, `C04_unstake`, `C04_slash`, `C04_override`, `C04_sync`, `C04_not_always_exact`, `C05_total`, `C06_shrink_needs_signature`, `C07_growth_is_paid`, `C08_solStaker_authority_fixed`, `C08_validator_authority_synced`, `C09_settings_need_signature`, `C09_settings_frozen`, `C10_slash_authority_needs_signature`, `C10_slash_authority_stays_unset`, `C10_no_slash_once_unset`, `C11_fixed_at_creation`, `C11_bump_canonical`, `C12_limit_at_most_all`, `C13_unstake`, `C14_cooldown_never_decreases`, `C14_unstakes_apart`, `C15_move`, `C16_slash`, `C17_staked_total`, `C18_staked_backed`, `C19_validator_harvest`, `C19_sol_staker_harvest`, `C20_validator_repeat`, `C20_sol_staker_repeat`, `C21_keeper_share`, `C22_claims_covered_partial`, `C22_fails_with_settling_deposits`, `C22_fails_with_config_keeper`, `C23_lamports_last`, `C23_effective_total`, `C23_validator_total`, `C24_other_configs_unchanged`, `C24_other_stakes_unchanged`, `C24_one_config`, `C25_config_permanent`, `C25_validator_permanent`, `C25_solStaker_permanent`, `C25_initialize_config_once`, `C25_initialize_stake_once`, `C26_validator_stake`, `C26_sol_staker_stake`, `C27_validator_address`, `C27_solStaker_address`, `C27_validator_unique`, `C27_solStaker_unique`, `C28_config_rent_exempt`, `C28_validator_rent_exempt`, `C28_solStaker_rent_exempt`, `C29_conserved`, `C29_debits`, `C30_unpack_pack`, `C30_pack_injective`, `C31_accepted`, `C31_lengths`, `C32_config_read_write`, `C32_validator_read_write`, `C32_sol_staker_read_write`, `C33_eligible_rewards`, `C33_no_overflow`, `C35_cap_exact`, `C35_cap_monotone`, `C36_proportional_share`, `C36_between_two_harvests`, `C36_nobody`, `C37_stake_settles`, `C37_empty_accrues_nothing`, `C38_holder_rewards_pass_through`, `C38_no_stake_reward`, `C39_authority_is_withdrawer`, `C39_override_account_empty`, `C40_config_widths`, `C40_validator_widths`, `C40_solStaker_widths`, `C41_stakes_unchanged`, `C41_tokens_unchanged`, `C41_foreign_data_unchanged`, `C42_other_instructions_move_no_tokens`, `C42_unstake_leaves_the_vault`, `C43_undelegated_has_no_lamports`, `C43_view_hypothesis_needed`, `C44_no_past_holder_rewards_partial`, `C44_claim_after_stake`, `C44_fails_with_settling_deposits`, `C45_stake_leaves_the_vault`, `C45_vault_falls_only_by_slash`, `C46_new_config`, `C46_vault_program_unchecked`, `C46_false_vault_takes_no_tokens`, `C47_set_authority`, `C47_update_config`, `C48_minimum_changes_only_by_override`, `C48_override_sets_minimum`, `C49_record_follows_native_stake`, `C49_record_changes_only_by_harvest`, `C49_total_changes_only_by_sync`, `C50_stake`, `C50_unstake`, `C50_slash`, `C50_move`, `C50_override`, `C51_zero_stake_rejected`, `C51_deposit_call`, `C51_withdraw_call`, `C54_harvest_validator_accepted`, `C55_override_accepted`, `C56_move_accepted`, `C57_slash_validator_accepted`, `C57_slash_sol_staker_accepted`, `C58_unstake_accepted`, `C59_stake_validator_accepted`, `C59_stake_sol_staker_accepted`, `C60_harvest_sol_staker_accepted`, `C60_sync_sol_staker_accepted`, `C61_initialize_validator_accepted`, `C61_initialize_sol_staker_accepted`, `C61_initialize_config_accepted`, `C62_harvest_holder_accepted`, `C63_footprint`, `C64_client_decodes`, `C64_client_runs`, `C65_client_flags`, `C65_client_flags_suffice`, `C66_client_stake_fails`, `C66_client_move_fails`, `C67_client_config`, `C67_client_validator`, `C67_client_sol_staker`, `C67_client_accepts_config`, `C67_client_accepts_validator`, `C67_client_accepts_sol_staker`, `C68_addresses_distinct`, `C68_vault_bump_canonical`, `C68_signer_seeds`, `C68_derivation_total`, `C69_rust_client_addresses`, `C69_js_vault_address_wrong`, `C72_accumulator_kept`, `C72_accrued_kept`, `C72_waiting_costs_nothing`, `C72_sol_staker_waiting`, `C73_never_empties`, `C74_outflow_limited`, `C75_sync_keeps_rewards`, `C75_new_authority_paid`, `C76_accounts_checked`, `C76_signatures_checked`, `C77_slashes_are_prepaid`, `C77_no_slash_before_funding`, `C78_deposit_keeps_slashed`, `C78_slashed_deposit_is_stuck`, `C79_panics`, `C79_panics_ordinarily`, `C79_shortfall_bounded`, `C79_sync_unregistered`, `C80_builder_panics`, `C80_builder_runs`, `C81_cpi_panics`, `C81_cpi_accounts`, `C81_cpi_allowed`, `C81_cpi_runs`, `C83_js_request`, `C83_js_throws`, `C83_js_hash`, `C84_js_parse`, `C84_js_decode`, `C84_js_parse_unchecked`, `C85_js_config`, `C85_js_validator`, `C85_js_sol_staker`, `C85_js_config_encode`, `C85_js_validator_encode`, `C85_js_sol_staker_encode`, `C85_js_config_decode`, `C85_js_validator_decode`, `C85_js_sol_staker_decode`, `C85_js_nullable_u64_zero`, `C86_error_reason`, `C86_never_returned`, `C86_returned`, `C88_decode_encode`, `C88_idl_request`, `C88_idl_runs`, `C88_idl_config`, `C88_idl_validator`, `C88_idl_sol_staker`, `C89_extra_accounts_ignored`, `C89_extra_accounts_unchanged`, `C89_too_few_accounts`, `C90_paid_once`, `C90_paid_every_time`, `C91_splitting_adds_no_stake`, `C91_splitting_adds_no_rewards`, `C91_totals_exist`, `C91_effective_total_bounded`, `C92_own_accounts_not_handed`, `C92_handed_payee_had_nothing_due`, `C92_own_tokens_refused`, `C92_own_tokens_unbalanced_validator`, `C92_own_tokens_unbalanced_sol_staker`, `C93_not_overpaid`, `C93_nothing_lost`, `C93_claims_total`, `C93_ledger_continues`, `C93_paid_from_config`, `C94_shortfall_bounded`, `C94_two_causes`, `C95_others_cannot_worsen`, `C95_withdrawal_kept`, `C95_rules_applied`, `C96_remains`, `C96_apart`, `C96_exit_speed`, `C96_full_exit`, `C96_dust`, `C97_drain_limited`, `C98_history`, `C99_commits_iff`, `C99_small_reward_refused`, `C99_top_up`, `C99_harvest_after_top_up`, `C99_slash_after_top_up`, `C99_slash_sol_staker_after_top_up`, `C100_unwritable_authority`, `C101_slashed_rewards_are_stuck`, `C101_deposit_includes_slashed`, `C102_sync_authority`, `C102_harvest_validator`, `C102_override`, `C102_move`, `C102_slash_validator`, `C102_slash_sol_staker`, `C102_harvest_sol_staker`, `C102_initialize_validator`, `C102_initialize_sol_staker`, `C102_initialize_config`, `C102_sync_sol_staker`, `C102_stake_validator`, `C102_stake_sol_staker`, `C102_unstake`, `C102_harvest_holder`, `C103_cooldown_changes`, `C104_standard_errors`, `C104_returned`, `C105_harvest_validator`, `C105_override`, `C105_slash_validator`, `C105_slash_sol_staker`, `C105_move`, `C105_harvest_sol_unchanged`, `C105_harvest_sol_changed`, `C105_sync_authority`, `C105_initialize_sol_staker`, `C105_harvest_holder`, `C106_objections`, `C106_no_objection`, `C106_objections_occur`, `C107_never_returns`, `C107_nothing_passed_on`, `C107_funded_stays`, `C107_initialised`, `C107_locked`, `C108_idle_lamports_are_stuck`, `C108_no_claim`, `C108_stake_account_keeps`, `C109_first_come`, `C110_sol_staker_signed`, `C110_validator_signed_or_synced`, `C110_never_signed_no_sol_staker`, `C110_sync_needs_no_signature`, `C111_no_more_than_share`, `C111_no_less_than_share`, `C112_calls`, `C112_signature`, `C113_no_more`, `C113_no_less`, `C113_paid`, `C114_harvest_brings_up_to_date`, `C114_new_account_up_to_date`, `C114_stays_up_to_date`, `C114_bounded_when_up_to_date`, `C114_counted_twice`, `C114_staked_on_nothing`, `C115_calls_permitted`, `C116_accessor`, `C117_stake_is_not_limited`, `C117_totals_are_not_staked_tokens`, `C117_unstake_pays_at_once`, `C117_validators_untouched`, `C117_set_authority_on_configs_only`, `C118_config`, `C118_validator`, `C118_sol_staker`, `C118_program_reads_config`, `C118_program_reads_validator`, `C118_program_reads_sol_staker`, `C119_frozen_refuses`, `C119_frozen_slash`, `C119_frozen_vault`, `C119_frozen_vault_is_accepted`, `C120_moved_tokens_are_not_slashed`, `C121_no_minimum_time`, `C121_in_and_out`, `C122_limit_at_once`, `C122_cooldown_time_later`, `C122_withdrawals_stopped`, `C122_locked_for_ever`, `C123_others_write_nothing`, `C123_program_is_the_machine`, `C123_every_book`, `C123_what_the_machine_keeps`, `C124_keeper_takes_all`, `C124_own_keeper`, `C125_unstake_nothing`, `C125_move_nothing`, `C126_stake_in_parts`, `C126_slash_in_parts`, `C126_move_in_parts`, `C126_same_effective`, `C127_fetch_config`, `C127_fetch_validator`, `C127_fetch_sol_staker`, `C127_no_type_check`, `C127_config_as_validator`, `C127_missing_are_named`, `C127_refused_is_named`, `C128_any_order`, `C128_same_effective`, `C129_journal_gives_book`, `C129_there_is_a_journal`, `C130_accounted_for`, `C130_exact`, `C130_unsigned`, `C130_out_is_signed`, `C130_slash_is_signed`, `C131_lock_is_from_a_withdrawal`, `C131_validator`, `C131_validator_last`, `C131_own_doing`, `C131_unsigned_is_unlocked`, `C132_sync_authority`, `C132_harvest_validator`, `C132_override`, `C132_harvest_sol_staker`, `C132_initialize`, `C132_unstake`, `C133_together`, `C133_exact`, `C133_signed`, `C133_listed`, `C134_settings`, `C134_owner`, `C134_entitled`, `C135_config_once`, `C135_stake_once`, `C135_same_journal`
<!-- /axioms -->

## 6. Tests against wrong programs

`seeded/LOG.jsonl` has one line per wrong program tried. Each is an edit of a definition in `Verif/Model`, made in a scratch copy.

First round: judged by running the edited model. Random histories over two configs are executed and the *statements* of the theorems (as
decidable checks) are evaluated on every step. A theorem whose statement is false of the edited model cannot be proved for it; such theorems
are listed as failed. Edits that no check caught were looked at one by one: either the edit is equivalent, or a theorem excludes it
that the random histories did not exercise, or a theorem was added or tightened.

Later rounds (`R2-` to `R9-`): judged by rebuilding. The edited model and every file that depends on it are built. `theorems_failed` lists the
property theorems that no longer build, and those of the claim concerned whose proofs use a lemma that no longer builds; the note names
these lemmas. For each edit it was checked that a theorem *stating* the broken claim is among them, not only a theorem whose proof happens to pass
through the edited definition. Where no such theorem failed, one was added or tightened (`theorems_tightened`).
