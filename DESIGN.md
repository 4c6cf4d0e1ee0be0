# Formal model of Native Token Transfers (Solana programs)

Target: `/repo/solana` (Rust) at the pinned commit; `/repo/evm` is used for comparison (and as a
later extension).  Tool: Lean 4.33.0, core library plus single Mathlib modules where needed.
The code is read as text; it is neither built nor run.

* `properties.jsonl`: the properties, in English.
* `MANIFEST.json`: for each property, its status and the theorems that prove it.
* `lean/Verif/Model/*`: the model.  Every definition cites the file and lines it models and names any
  simplification.
* `lean/Verif/Spec/*`: the vocabulary of the statements, independent of proofs.
* `lean/Verif/Props/*`: the property theorems, each with an `example` meeting its hypotheses.
* `lean/Verif/Lemmas/*`: proofs.  `lean/Verif/Example/*`: concrete histories used by the examples.
* `seeded/LOG.jsonl`: wrong programs tried against the theorems.

## Shape of the model

* Rust `Result` and panics: `Except Err`.  A panic (assert, arithmetic with `overflow-checks = true`,
  `unwrap`) is an ordinary error value, because on Solana both abort the transaction and roll back every
  account.
* Integers: `u8/u16/u64` are `UInt8/UInt16/UInt64` and statements speak about their `.toNat`; `u128`
  intermediate values are `Nat` with an explicit range check where the Rust type can overflow; `i64`
  timestamps are `Int` with explicit range checks where the code adds to them.
* Accounts: one typed map per Anchor account type (the 8-byte discriminator and the owner check are
  what separates the types).  Accounts found through PDA seeds are keyed by the seed parameters;
  accounts that the program does not pin to a PDA are chosen freely by the instruction (adversary).
* Anchor constraints (`seeds`, `has_one`, `constraint`, `address`, `Signer`, `init`, ...) are `require`s
  with the generic error `constraint`; where the code names an error, the model has that error.
* Transactions: `exec env rt s ix : Except Err (State × List Event)`; `submit` makes it all-or-nothing;
  `run` folds a list of transactions.  A history is *any* list of transactions: any caller, any
  instruction of the program, any arguments and accounts, any clock value (monotone clock is a
  hypothesis only where needed), any fee function of the token, plus direct use of the token program,
  of the loader and of foreign programs' accounts by anybody.
* Several instructions in one transaction: see `Props/Transactions.lean`.  A transaction with several
  instructions either has no effect or the effect of its instructions one after the other, so every
  such history has the outcome of a history of single instructions, to which the theorems apply.
* Events: debits, payouts, posted wormhole messages, "mark released" notifications.  They are ghosts:
  each is produced exactly where the code moves the tokens or calls the core bridge / returns `true` to
  the transceiver.

## Plan and proof per property

| id | model | proof |
|----|-------|-------|
| C01-C04 | byte codecs (`Model/Bytes`, `Model/Messages`) as functions on byte lists, generic in the payload codec | round-trip by unfolding field by field; prefix-rejection by a consumption lemma for each reader |
| C05 | same | false of the code (length prefixes are ignored): negation with a witness (`C05_claim_false`), and the partial theorem "canonical up to the ignored length fields" |
| C06 | Borsh layout of the stored account (`Model/Borsh`) and the zero-copy slice accessors | direct computation on lists |
| C07-C10 | `Model/TrimmedAmount` | `Nat` division lemmas; specification `Spec/Amount` |
| C11-C15, C17 | `Model/RateLimit` | invariants by induction over operation lists; amortised potential for C12; refinement of `Spec/LeakyBucket` for C17 |
| C16 | same | false in the last day representable by `i64` (`C16_claim_false`); proved for all other times |
| C18-C19 | `Model/Bitmap` (`BitVec 128`) | bit lemmas; count = cardinality of a filtered range |
| C20-C31, C36-C42, C44 | `Model/Manager` state machine | inversion lemma per instruction (`Lemmas/Inbound`, `Outbound`, `Effect`, ...); invariants and step relations by induction over transaction lists |
| C32-C35 | same, with a token program that charges an arbitrary fee | sums over execution traces |
| C43 | `Model/Seeds` | list-prefix reasoning over the table of seeds |
| C45-C46 | `Spec/Network`: any number of managers, connected by authentic attestations | global invariant, sums over all chains |
| C47-C50 | `Model/Quoter` | arithmetic, invariants by induction over transaction lists |
| C51-C53 | `Model/Governance` | codec; state machine over arbitrary call trees |
| C54 | `Model/Standalone` (standalone transceiver calling the manager) | equality of outcomes, then simulation of whole histories |
| C55 | `Model/Manager` | false of the code (`set_peer` installs a fresh, full limiter): negation with witness; partial theorem says what an update of a peer does |
| C56 | `Model/Messages` | equality with the documented byte layout written out in `Spec/WireFormat` |
| C57 | `Spec/Transactions` over `Model/Manager` | a history of transactions equals a history of single instructions |
| C58 | `Model/Manager` | potential-function argument over any window of any history |
| C59 | `Model/Manager` | case analysis of all instructions against `Spec/Requests` |
| C60 | `Model/Manager`, `Model/Messages` | every event of a history, against the documented bytes in `Spec/WireFormat` |
| C61 | `Model/Manager` | the potential argument of C58 with one further `L` per limit change |
| C62 | `Model/Manager`, `Model/RateLimit` | exact effect of each instruction on each limiter |
| C63 | `Model/Messages` | inversion of the reader; both directions |
| C64 | `Model/RateLimit` | refinement of the leaky bucket, both directions |
| C65 | `Model/Accounts` | round-trip and canonicity lemma per Borsh combinator, composed per account; invariant for times |
| C66 | `Model/Quoter` | case analysis against `Spec/QuoterRequests`; provenance invariant over histories |
| C67 | `Model/Raw`, `Model/Accounts`, `Model/Seeds` | forward simulation of the raw-account program by `Model/Manager`, one lemma per instruction, induction over histories |
| C68 | `Model/Raw` | invariant proved along with the simulation of C67 |
| C69 | `Model/Raw` | follow the raw history in the typed model step by step (`Tracks`), carry C32, C21, C22, C36, C37 over |
| C70 | `Model/Raw` | invariant that addresses derived from the program id hold nothing or whole accounts of the program (`Neat`), one lemma per instruction that it succeeds with the canonical accounts |
| C71 | `Model/Entry`, `Model/Sha256` | round trip and canonicity of the Borsh codecs (`Borsh.Good`) per instruction; selectors and discriminators by evaluating SHA-256 in the kernel on 33 fixed strings |
| C72 | `Model/Entry` | per instruction: destructure the account list, compare with `accountList`; a Hoare-style rule per primitive (`Fr`) for what is written |
| C73 | `Model/System` | transactions as a relation on call trees (`Ran`); induction: other programs never hash a string of the manager's form, so the record of elementary actions is a history of `Model/Raw` without the manager's signatures (`Flat`); then C67-C70; frame lemmas per instruction for token accounts |
| C74 | `Model/System` | induction on call trees: where the authority's signature comes from; the first action changing the administration needs an administrator (C37, C38 through the typed model); markers stay and are fresh (`Once`) |
| C75 | `Model/System`, `Spec/SystemNet` | follow all ledgers at once in the typed network (`NTracks`: induction over the interleaved history, C73 and C67 per chain), then C46 |
| C76 | `Model/System`, `Spec/SystemNet` | the same, then C45 |
| C77 | `Model/System`, `Spec/System` | C70 on the steps (C73), then the bytes and accounts of one instruction: `resolve_accountList`, `signers_needed`, `right_programs`, `submit_one` |
| C78 | `Spec/Network`, `Spec/Delivery` | the message received is that of the transfer (`received_content`), redeemable and payable whatever happens (C26), release at most a day after approval (`approved_within_a_day`), what is filed under the digest is this transfer (`inbox_content`); hub: C45 and `inFlightFrom_ge` |
| C79 | `Model/Idl`, `Model/Client`, `Spec/Client` | addresses: seeds compared; per order the instruction is computed from the IDL and compared with `accountList` and `wire` (C71, C72); effect: C77's accounts are unique, so the client's call is the one that succeeds (`same_call`), then `submit_more` |
| C80 | `Model/Lut`, `Spec/Lut` | invariant over all histories: tables with the program's authority change only in `initialize_lut`, whose accounts are those of the (immutable) configuration by C67's canonicity; progress from C70's completeness |
| C81 | `Model/QuoterRaw`, `Spec/QuoterRaw` | forward simulation of every successful call by the named call of `Model/Quoter` (`sim_entry`), with the invariant that everything the quoter owns is zero-filled or at its canonical address (`QInv`); the guarantees follow from C47, C49, C50 |
| C82 | `Model/QuoterRaw`, `Spec/QuoterRaw` (`qdocumented`) | from a named call that succeeds to the documented account list and bytes, which succeed (`do_any`), using that unused derived addresses are vacant (`QInv.placed`) |
| C83 | `Model/TransceiverRaw`, `Spec/TransceiverRaw` | forward simulation of every successful transaction on a ledger with both programs by one of `Model/Standalone` or `Model/Manager` (`lrun_sim`): each program's part of the ledger is framed by the other's instructions (`manager_frame`, `exec_frame`), canonicity of both parts is the invariant; composed with C54 and C20 |
| C84 | `Model/TransceiverRaw` (entry point) | case analysis over the requests; selectors computed from SHA-256 by the kernel |
| C85 | `Model/TransceiverRaw`, `Spec/TransceiverRaw` (last section) | invariant that every derived address of either program is free or holds a well-formed account (`Kept`, preserved by `lrun_kept`), then for each typed instruction that succeeds the accounts and bytes that make the program do it (`tstep_complete`, `mstep_complete`) |
| C86 | `Model/Evm` (`TransceiverStructs.sol`), `Spec/Evm`, `Spec/WireFormat` | each EVM parser is shown to accept exactly the documented encodings (reads inside of the array see the array; the final length check rules out the rest), each encoder to write them; composed with C56 and C63 |
| C87 | `Model/Evm` (`TrimmedAmount.sol`, what `NttManager.sol` puts into and takes out of a message) | exact characterisation of `scale`, `trim`, `shift` (`scale_iff`, `trim_iff`, `shift_iff`), then arithmetic with powers of ten; composed with C08, C10 and C86 |
| C88 | `Model/Hook` (`dummy-transfer-hook`), `Spec/Hook` | exact characterisation of both instructions over raw accounts and bytes (`callHook_iff`, `initializeList_iff`), invariant over histories, and evaluation of the list for an arbitrary transfer (`addExtras_example`) |
| C89 | `Model/Hook` (`clientKeys`, `transferExtras`, `hookCall`) | resolution of a list depends only on the accounts before each entry and on the bytes its recipes use (`resolve_transfer`, by induction over the list), and restricting it to the accounts passed changes nothing if it succeeds (`addExtras_free`) |
| C90 | `Model/Governance`, `Model/System` | an address that nobody signs for and whose string is not hashed stays vacant (`Ran.free`, by induction over call trees; symbolic execution of every instruction); the marker's string is hashed only by executing its message (`Ran.marker`); construction of the transaction, with C70 for the accounts |
| C91 | `Model/EvmManager`, `Spec/EvmManager` | every call is a sequence of a few kinds of steps or a change of the registry (`call_steps`); invariants by induction over histories (`run_induct`): attestation bits are the attestations made (`Att`), executed messages (`Once`), origin of queue entries (`queue_run`) |
| C92 | `Model/EvmManager` (`TransceiverRegistry.sol`) | invariant `Registry.Inv`, under which adding and removing are characterised exactly (`set_iff`, `remove_iff`); bitmaps by bit extensionality |
| C93 | `Model/EvmManager`, `Spec/EvmManager` | invariants over histories: the numbers used are an initial segment (`out_run`), a settled number is neither queued nor unused, a queue entry comes from a debit (`kept_run`); the message's bytes by C86 |
| C94 | `Model/EvmManager`, `Spec/EvmManager` | every call moves the token in one of a few ways (`call_moves`); sums by induction over histories (`locked_run`, `minted_run`), queue entries are worth what was taken (`waiting_run`) |
| C95 | `Model/EvmManager` (`RateLimiter.sol`), `Spec/EvmLimits` | every call uses, refills or sets limits in one of a few ways (`call_flows`); a potential argument over the window: used capacity grows by what is sent, shrinks with time (`out_window`, `in_window`) |
| C96 | `Model/EvmManager` (`PausableOwnable.sol`, `PausableUpgradeable.sol`, `OwnableUpgradeable.sol`), `Spec/EvmRights` | case analysis of every call (`call_manager`, `call_wh`, `call_limits`, `call_paused`), then induction over the history |
| C97 | `Model/EvmManager` (`TransceiverStructs.sol`, `ManagerBase.sol`), `Spec/EvmInstructions` | induction over the rounds of the reader (`parseLoop_iff`; offsets only grow, so the final length check covers all reads); prices by induction over the transceivers (`quote_iff`); payment enters a call in one place only (`sendTransfer_value`) |
| C98 | `Model/EvmManager`, `Spec/EvmLiveness` | success of each call from the invariants of C91, C92, C93, C95 (limits well-formed `Flows.ok_in`, attestation bits `Att`, executed means paid or queued `used_run`, queued means peer known `waiting_peer`, value of a queued amount `Worth`); a queue entry never changes (`outQueue_stays`) |
| C99 | `Spec/MixedNetwork`, both models | origin of a payment: a Solana inbox item or an attested EVM message was published by an emitter (`solana_origin`, `evm_origin`), whatever has the Wormhole prefix and was published is the recorded transfer (`published_sent`, by C56, C86, C93), amounts convert back exactly (`converted_twice`); transfers to payments one to one (`debit_of`), totals by an injection of what is given into what was taken (`given_le_taken`), custody by C32, C33 and C94 |
| C100 | `Spec/MixedDelivery`, both models | one chain first: received, redeemed/executed, released, whatever happens in between (`sol_arrives` from C26, `Evm.arrives` from C98); then the contents of what is received or filed are those of the published message (`sol_received`, `sol_inbox`, `published_reads`); all open transfers are further keys in the injection of C99 (`given_open_le_taken`) |
| C101 | `Model/EvmManager` with `noLimits`, `Spec/EvmNoLimits` | every call leaves limits and queues as they are (`call_free`, by cases on the calls), so every run does (`run_free`); what succeeds is read off the `_ok` lemmas; conversely each check passes (`pull_can`, `sendTransfer_iff`) |
| C102 | `Model/EvmGovernance` (`Governance.sol`), `Spec/EvmGovernance` | codec read backwards (`parseGovMessage_iff`); histories are trees of calls: mutual induction shows that each amounts to a list of steps (`GovRun`, closed under composition), whose calls the deployment sees in order; then C96 |
| C103 | `Model/EvmReentrancy` (the sending functions with the points at which they call others), `Spec/EvmReentrancy` | at each such point the call has written all it writes, and reads only what calls inside cannot change; so the calls inside commute to the end (`sendAllNested_ok`, `callNested_ok`), by induction whole histories do |
| C104 | `Model/EvmUpgrade` (proxies, implementations with their constants, `Initializable`, `Implementation`), `Spec/EvmUpgrade` | exact characterisation of initialising and upgrading (`initializeManager_blank`, `managerUpgrade_ok`, `transceiverUpgrade_ok`), no call but the token's succeeds on storage never initialised (`call_blank`), and by induction over histories that upgrades leave storage and constants as they were (`runProxy_installed`) |
| C105 | `Model/EvmRelaying` (`_quoteDeliveryPrice`, `_sendMessage`, the settings, and the manager's calls with them), `Spec/EvmRelaying` | exact characterisation of quote and send for each route (`quoteWormhole_iff`, `sendWormhole_iff`), carried through the manager's loop over the transceivers by induction (`requests_sendAll`); histories by induction |
| C106 | `Model/EvmHooks` (the manager's functions with control handed to others at each movement of tokens, refund and call of a transceiver; calls as trees), `Spec/EvmHooks` | what an invariant must withstand at each such point is an interface (`Keeps`); one proof by mutual induction over the trees that every invariant with it holds in all histories (`runHooked_keeps`); the claims are instances; without calls inside it equals the plain model (`callWith_nobody`) |
| C107 | `Model/QuoterClient` (numbers, quotes, orders; `Model/QuoterIdl`), `Spec/QuoterClient` (the exact price, what orders mean) | doubles are rationals with rounding (`double`); one relation (`Near n`: equal up to `n` roundings) closed under products, quotients, sums and rounding gives all error bounds; orders: the built instruction is the documented one of C82, with which the call succeeds |
| C108 | `Model/Sdk` (layouts, digest, instructions, limits, amounts of the TypeScript SDK), `Spec/Sdk` (the documented bytes, with what may follow a transfer) | reading and writing characterised exactly item by item; then compared with what C86 says of the Solana programs and EVM contracts by cancelling fields of fixed length; amounts: shown and paid amounts have the same value (C87), which determines them |
| C109 | `Model/SdkTrack` (what the SDK asks of both chains, `track`, `finalize`), `Spec/SdkTrack` (paid, stages of a transfer) | the status of an inbox item is tied to the events of the history by an invariant (released exactly if paid; EVM: executed exactly if paid or in the queue); `track` by the moves between receipts that it can make, each with the answer that justifies it |
| C110 | `Model/SdkFlows` (the transactions of `transfer` and `redeem` on Solana), `Spec/SdkFlows` (one transaction, the documented message, what a sender needs) | the instructions are executed one after the other; each success is inverted to what it implies (sound), and from the invariants of reachable states each is shown to succeed (works); the findings follow from what is kept for ever (C44) and from the account checks of the release |
| C111 | `Model/EvmAllowance` (the contracts together with the allowances of the token), `Spec/EvmAllowance` (what a history takes and approves) | equivalence per call; `taken + allowance ≤ approved` by induction over histories; each history with allowances is simulated by a history of contract calls and own moves |
| C112 | `Model/SdkFlowsEvm` (`quoteDeliveryPrice`, `transfer`, `redeem`), `Spec/SdkFlowsEvm` (what was submitted, what a transfer asks for) | the plan is characterised with C97 and C108; that it works from C98 through the simulation of C111; soundness by inverting each success |
| C113 | `Model/SdkRoutes` (configuration, `validate`, `quote`, `initiate`, `resume`), `Spec/SdkRoutes` (unambiguous configurations, what a message carries) | contracts by induction on the configuration; amounts from C108; sending from C110-C112 by inverting success; arriving from C110 and C112, as conversions of what can be carried are exact |
| C114 | `Model/SdkAdmin` (settings, transactions and calls built for them, what is shown, the client's memory), `Spec/SdkAdmin` (everything shown, as one record; what it should be after a setting) | by cases on the setting, inverting success of the instruction or call; possible settings from the invariant of the limits |
| C115 | `Model/Cli` (limits as text, `diffObjects`, `pushDeployment`, what is pulled), `Spec/Cli` (the number a text stands for, what is at a path, what is shown after steps) | splitting at the point, with the library's facts on decimal digits; mutual induction over values and their entries; the difference of two configurations computed once and for all, then pushed field by field |
| C116 | `Model/CliPeers` (`missingConfigs`, what `push` adds), `Spec/CliPeers` (`Connected`, `Wanted`, what is read after transactions) | membership in the collected lists for every kind of transaction; for each value that can be read, the last transaction that sets it decides, and all that set it agree |
| C117 | `Model/CliConfig` (configuration of the tool), `Spec/CliConfig` (the first value given, what changed) | case analysis of what is given where |

## Trusted base

1. Lean's kernel.
2. Axioms: each of the theorems in `MANIFEST.json` depends on a subset of `propext`,
   `Classical.choice`, `Quot.sound` (checked with `#print axioms` / `Lean.collectAxioms`; list at the end
   of this file).  The development adds none of its own.
3. The reading of the code recorded in the comments of `Model/*`, and the behaviour assumed of things
   outside the repository:
   * **Solana runtime**: transactions are atomic and sequential; `Signer` means the address signed (or
     is a PDA for which the calling program signed); a program cannot be re-entered through another one
     (only the direct caller chain of governance is modelled as a call tree).
   * **Anchor**: `init` fails on an existing account, `init_if_needed` yields a zeroed one, `Account<T>`
     checks owner and discriminator, `seeds` pins the address, `close` moves the lamports.  Account
     contents are stored in the Borsh format, `INIT_SPACE` sizes and discriminator as in `Model/Accounts`; the other
     models work on typed values, which C65 justifies (C06 for the zero-copy readers of the transceiver message).
     `Model/Raw` states the checks of `init`, `init_if_needed`, `Account<T>`, `seeds`, `bump`, `address`, `has_one` on
     raw accounts explicitly, and C67 shows that nothing depends on which accounts the caller passes.
   * **SHA-256 and `find_program_address`** (`REnv.sha`, `REnv.findBump`, C67, C68 and what builds on them): arbitrary functions; assumed
     not to collide on the seed strings of the history at hand (`NoShaCollision`).
   * **keccak256** (`Env.hash`) is an arbitrary function; nothing is assumed except, where stated, that it
     does not collide on the messages of the history at hand (`NoCollision`, `NoDigestCollision`).
   * **PDA derivation**: addresses are arbitrary values of `Env`.  Where stated: for the arguments of the transfers of the
     history at hand, the session authority derived from the token authority is not the token authority (`UserSigned`), and the
     one derived from the owner of the account the claim is about is not that owner (`NotOwnSession`); both are about
     finitely many hashes.  PDAs of the program have not signed anything by themselves (`UserSigned`, for raw transactions `WalletSigned`).
   * **SPL token program** (`Model/Token`): transfer, burn, mint, approve, revoke, close, set-authority as
     far as they touch balance, supply, owner, delegate, mint authority.  The fee of a transfer is an
     arbitrary function supplied per transaction.  Not modelled: freezing, multisig authorities, permanent
     delegate, confidential transfers.  A transfer hook can make a transfer fail; since it gets no signatures and cannot re-enter the
     token program or the manager, whatever else it does counts as a call next to the manager's instruction (`Model/System`).
   * **Wormhole core bridge**: `post_message` publishes the bytes it is given under the program's emitter;
     a posted VAA is an arbitrary triple (chain, emitter, payload) except in `Authentic` (C45, C46), which
     says VAAs in the name of a participating emitter have been published by it.
   * **BPF upgradeable loader**: the upgrade authority can be changed only by the current authority.
   * **Runtime** (`Model/System`, C73 to C77, C90): who can sign, derived addresses, ownership of accounts, creation of accounts, atomicity, as
     listed at the top of that file.  What instructions for the system, token and loader programs mean is an arbitrary function.
     Curve membership is an arbitrary predicate of which only what `Sane` lists is assumed.
   * **Lookup tables** (`Model/Lut`, C80 only): the address lookup table program (create does nothing if the table exists; extend, freeze,
     deactivate and close need the authority's signature; 256 entries at most; a table is closed only after deactivation).
   * **Client** (`Model/Client`, C79 only): Anchor's JavaScript library 0.29 (lookup of accounts and arguments by name in the order of the IDL,
     flags of the IDL, selector from the name, well-known accounts may be omitted, numbers out of range throw), `bn.js`, the layouts of
     `sdk-base`, `@solana/web3.js` and `spl-token` are not in `/repo`.  `Model/Idl` is the IDL in `/repo/solana/ts/idl/3_0_0`.
   * **Solidity** (`Model/Evm`, `Model/EvmManager`, C86, C87, C91 and later): checked arithmetic on 256 bits, `abi.encodePacked`, packed value types; `BytesParsing`,
     `toWormholeFormat`, `fromWormholeFormat` (Wormhole Solidity SDK) and `SafeCast` (OpenZeppelin) are not in `/repo`.
     Keccak is an arbitrary function.  The core bridge's verification of a VAA, the relayers' prices and deliveries, the token (a ledger of balances with
     any fee on transfers, mint and burn) and transceivers other than the Wormhole one (any address that the owner enables) are external.
   * **Transfer hooks** (`Model/Hook`, C88 and C89 only): list format and resolution of `spl-tlv-account-resolution` 0.6.3, `invoke_transfer_checked`
     and `invoke_execute` of `spl-transfer-hook-interface`, the call of the hook by Token-2022, Anchor's checks of token accounts and mints.
   * **Clock**: an arbitrary integer per transaction; monotone only where a theorem says `ClockFrom`.

### Modelled, function by function

`P` = `programs/example-native-token-transfers/src`, `M` = `modules/ntt-messages/src`.

| code | model |
|------|-------|
| `M/{chain_id,mode,ntt,ntt_manager,transceiver,transceivers/wormhole,trimmed_amount,utils,errors}.rs`, `wormhole-io` reads and writes | `Model/{Bytes,Messages,TrimmedAmount,Errors}` |
| `P/queue/rate_limit.rs`, `P/clock.rs` | `Model/RateLimit` |
| `P/bitmap.rs` | `Model/Bitmap` |
| `P/messages.rs` (stored attestation, zero-copy readers), anchor account layout | `Model/Borsh` |
| all `#[account]` structs of manager, transceiver, quoter and governance as bytes | `Model/Accounts` |
| all PDA seeds of manager, quoter (and governance) | `Model/Seeds`, `Spec/Governance` |
| `P/instructions/*` (initialize, transfer burn/lock, redeem, release inbound unlock/mint, admin, mark_outbox_item_as_released, luts, broadcast), `P/queue/{inbox,outbox}.rs`, `P/config.rs`, `P/peer.rs`, `P/registered_transceiver.rs`, `P/transceivers/wormhole/*`, `P/transceivers/accounts/peer.rs` | `Model/Manager` (with `Model/Token`) |
| the `#[derive(Accounts)]` structs of all instructions of `P`, over raw accounts (owner and bytes per address) chosen by the caller | `Model/Raw` |
| `#[program]` dispatch of `P/lib.rs`: selectors, argument decoding, order and flags of accounts | `Model/Entry` (with `Model/Sha256`) |
| Anchor's built-in IDL instructions (over-approximated: anything they could write) | `RIx.idl` in `Model/Raw` |
| whole transactions: manager and governance called by and next to arbitrary programs (runtime rules) | `Model/System` |
| `programs/ntt-quoter/src/*` | `Model/Quoter`; over raw accounts and bytes, with the `#[derive(Accounts)]` structs and the dispatch: `Model/QuoterRaw` |
| `programs/wormhole-governance/src/*` (selector, accounts and flags; Anchor's IDL instructions over-approximated) | `Model/Governance`; markers as accounts: `governance`, `governanceIdl` in `Model/System` |
| `programs/ntt-transceiver/src/*` | `Model/Standalone`; over raw accounts and bytes, with the `#[derive(Accounts)]` structs and the dispatch: `Model/TransceiverRaw` |
| `ts/lib/{ntt,utils}.ts` (addresses, message digest, one builder per instruction), `ts/idl/3_0_0` | `Model/Client`, `Model/Idl` |
| `P/instructions/luts.rs`, the contents of the tables | `Model/Lut` |
| `evm/src/libraries/{TransceiverStructs,TrimmedAmount}.sol` (except transceiver instructions), the message built by and the amount paid by `evm/src/NttManager/NttManager.sol` and `evm/src/Transceiver/WormholeTransceiver/WormholeTransceiver.sol` | `Model/Evm` |
| `evm/src/NttManager/{NttManager,NttManagerNoRateLimiting,ManagerBase,TransceiverRegistry}.sol`, `evm/src/libraries/{RateLimiter,TrimmedAmount,PausableOwnable,PausableUpgradeable,TransceiverHelpers}.sol`, `evm/src/Transceiver/{Transceiver,WormholeTransceiver/*}.sol` as a state machine, with transceiver instructions | `Model/EvmManager` |
| `evm/src/wormhole/Governance.sol`, called by and calling anything, next to a deployment | `Model/EvmGovernance` |
| the same with calls back into the manager during refunds and sends, `evm/src/libraries/external/ReentrancyGuardUpgradeable.sol` | `Model/EvmReentrancy` |
| `evm/src/libraries/Implementation.sol`, `evm/src/libraries/external/Initializable.sol`, the constructors, `_initialize`, `_migrate` and `_checkImmutables` of manager and transceivers | `Model/EvmUpgrade` |
| `evm/src/Transceiver/WormholeTransceiver/WormholeTransceiver.sol:125-247` with the settings of `WormholeTransceiverState.sol` | `Model/EvmRelaying` |
| the functions of `evm/src/NttManager` that move tokens, with a token that calls others, and `libraries/external/ReentrancyGuardUpgradeable.sol` | `Model/EvmHooks` |
| `ts/lib/quoter.ts`, `U64` and `quoterAddresses` of `ts/lib/utils.ts`, the quoter's part of `ts/sdk/ntt.ts:527-544,861-878` | `Model/QuoterClient`, `Model/QuoterIdl` |
| `/repo/sdk/definitions/src/layouts/*.ts`, `/repo/sdk/definitions/src/ntt.ts:99-125`, `/repo/evm/ts/src/ntt.ts` (flags, options, transfer call, limits, scaling), `/repo/sdk/route/src` (trimming, shown amounts, warnings) | `Model/Sdk` |
| `/repo/solana/ts/sdk/ntt.ts:1026-1214`, `/repo/evm/ts/src/ntt.ts:311-347,573-602`, `/repo/sdk/route/src/{automatic,manual}.ts` (`track`, `finalize`) | `Model/SdkTrack` |
| `/repo/solana/ts/sdk/ntt.ts:790-1024` (`transfer`, `createAta`, `redeem`), `/repo/solana/ts/lib/ntt.ts:67-80` | `Model/SdkFlows` |
| `/repo/evm/ts/src/ntt.ts:136-144`, `214-235`, `425-526`, `638-650` (quote, `transfer`, `redeem`, `receive`) | `Model/SdkFlowsEvm` |
| `/repo/sdk/route/src/types.ts:106-206`, `manual.ts:99-313`, `automatic.ts:113-334` (resolving contracts, `validate`, `quote`, `initiate`, `resume`) | `Model/SdkRoutes` |
| `/repo/solana/ts/sdk/ntt.ts:185-228,461-525,574-603,693-788,1033-1090`, `/repo/evm/ts/src/ntt.ts:80-119,257-289,357-370,436-459,532-567,604-636` (administration and what is shown) | `Model/SdkAdmin` |
| `/repo/cli/src/diff.ts:18-53`, `/repo/cli/src/index.ts:1553-1648,1699-1751,1842-1864,1898-1925` (differences, `push`, what is pulled, limits as text) | `Model/Cli` |
| `/repo/cli/src/index.ts:652-722,900-908,1440-1551` (what is missing between the chains, and adding it) | `Model/CliPeers` |
| `/repo/cli/src/configuration.ts` (values for chains) | `Model/CliConfig` |
| allowances of an ERC-20 (external), as used at `/repo/evm/src/NttManager/NttManager.sol:406` | `Model/EvmAllowance` |
| `programs/dummy-transfer-hook/src/lib.rs`, `addExtraAccountMetasForExecute` of `ts/lib/ntt.ts`, the remaining accounts of transfers and payouts | `Model/Hook` |

### Not modelled

* compute budget, rent (except the lamports of relay requests), logging, the `idl`/`no-entrypoint` features;
* the TypeScript SDK beyond the builders of `ts/lib/ntt.ts` and `ts/lib/quoter.ts` and what `Model/Sdk`, `Model/SdkTrack`, `Model/SdkFlows`, `Model/SdkFlowsEvm`, `Model/SdkRoutes` and `Model/SdkAdmin` have (reading accounts, fetching attestations, posting VAAs and sending
  transactions, older IDL versions), the CLI except differences, limits, `push` (C115, C116) and its configuration (C117), deployment scripts, tests;
* the `version` instruction beyond being read-only;
* of the Solidity code: upgrades to code that is not in the repository, token permits, the prices of the relayers (external),
  the example tokens;
* program upgrades: the loader lets the upgrade authority replace the program.  The theorems are about
  histories in which the program stays the one modelled.

## Findings

Where the code does something a reader of the documentation may not expect.  Items marked (false) refute a
property as first stated; the others are recorded because they shaped statements.

1. (C55, false) `set_peer` on an existing peer installs a fresh inbound limiter with full capacity
   (`P/instructions/admin.rs` `set_peer`), so the owner re-registering a peer with the same limit makes the
   whole inbound limit available again at once.  `set_inbound_limit` on the other hand preserves what is used.
2. (C05, false) The readers skip the length prefixes of the manager payload, the transfer payload and the
   transceiver payload without comparing them to what is read.  Two different byte strings can therefore parse to
   the same message; the digest is computed from the re-encoded message.  The EVM parser does check the lengths.
3. (C16, false) A delayed transfer computes `now + 86400` on `i64` and panics during the last day representable.
   Harmless in practice.
4. `threshold` is set to 1 by `initialize` and no instruction changes it; the theorems about votes are stated for an
   arbitrary threshold in the initial state (`FreshInbox`).
5. `redeem` is not stopped by pausing (it moves nothing); transfers and releases are.  Broadcasts are not either.
6. A vote after approval is refused (`release_after` fails), so late votes revert instead of being recorded.
7. The limiter is charged with the amount of the message that brings the approving vote, while the amount paid is that
   of the first vote; they differ only if keccak collides.
8. `transfer_ownership` works a second time only after claiming (the upgrade authority has moved to the lock);
   the nomination can be taken back by the old owner claiming for themselves.
9. `GovernanceMessage::written_size` and some `written_size`s of the messages omit fields (governance: 32 bytes);
   `GovernanceAction::Undefined` writes nothing.
10. The governance program executes the program id of the message even if the account passed as `program` is another
    one; the runtime looks the program up among all accounts, so this is harmless.
11. Comparing two trimmed amounts of different decimals panics (`PartialEq`).
12. The comment of the overflow check of `10^n` in `trimmed_amount.rs` is off by one exponent.
13. A limiter starts with `last_tx_timestamp = 0` and its full capacity.
14. Transfers of amount zero (after trimming) are accepted.
15. The owner can register the program's own chain as a peer, and transfers to the own chain are accepted.
16. A message can name the token authority as recipient; its associated account is custody, so such a payout in locking
    mode leaves custody unchanged (C32 states the exception).
17. The digest of a manager message covers source chain, id, sender and payload, not the manager addresses; the
    addresses are compared with the registered peer instead.
18. Quoter: the assistant is "none" iff it is the zero address; lamports already at a relay request's address lower
    the rent charged to the payer; after closing, the same item can be requested again.
19. A received message with additional payload is accepted under `EmptyPayload`: the additional payload is taken for the transceiver's payload
    and the latter is left unread at the end (C86).
20. EVM: the last enabled transceiver cannot be removed (C92); to replace it, the new one has to be added first.
21. Lowering a limit below what is used and raising it again frees capacity (`set_limit` 0, then `L`), like
    re-registering a peer; C61 bounds both.
22. `initialize_lut` can be called by anybody and again later, replacing the table; the core bridge's `fee_collector` and
    `sequence` accounts put into it are not checked.  The table is a convenience for clients; nothing reads it on chain.
23. Client: `createTransferOwnershipInstruction` names two of six accounts, so it always throws (C79).
24. Client: `inboxItemAccount` hashes the additional payload, the program does not; for a message with additional payload the client's
    `redeem` and payout name a wrong inbox item (C79).
25. Client: `SolanaNtt.transfer` passes the gas dropoff in gwei to `createRequestRelayInstruction`, which takes ETH and multiplies by 10⁹
    again: any non-zero dropoff is asked for 10⁹ times too large, and refused.  `quoteDeliveryPrice` tests a promise
    (`!this.quoter.isRelayEnabled(...)`), which is never false.
26. Client: `createCloseRelayInstruction` of the quoter does not name `feeRecipient`, so it always throws.
27. A transfer from Solana to an EVM chain can be accepted by the Solana program and never be payable: the EVM contracts convert the amount to at
    most 8 decimals in 64 bits (`NttManager.sol:243`).  A token with 6 decimals on Solana and 18 on the EVM chain has this limit at 184 billion tokens,
    although Solana can hold and send 18 trillion.  In the other direction the EVM contracts check the same conversion before sending
    (`NttManager.sol:479`).  Likewise the Solana program accepts recipients whose first 12 bytes are not zero, which no EVM chain can pay (C87).
28. The example hook's counter has one fixed address and is created together with a mint's list, so the program can be initialised for one mint
    only, by anybody, whoever is first; and anybody can call it directly with accounts of that mint, without a transfer (C88).
29. Client: accounts of a transfer hook are resolved for the amount 0 (a TODO in `ts/lib/ntt.ts:439`), so hooks whose accounts depend on the amount
    cannot be used.  A caller of the manager who leaves out the account with the list makes Token-2022 call the hook with four accounts only: a hook
    has to refuse that itself, as the example does (C89).
30. EVM: in a deployment of the ordinary `NttManager` without rate limits (`rateLimitDuration == 0`), the capacity is taken to be the largest
    number, so `_setLimit` always finds that the new capacity exceeds the limit: after the first `setPeer` of a chain, `setPeer` and
    `setInboundLimit` for that chain revert for good, unless the first limit was the largest there is (C95).
31. EVM: `quoteDeliveryPrice` reads the transceiver instructions for the number of *enabled* transceivers, a transfer for the number of *registered*
    ones.  After a removal the public quote refuses instructions that a transfer accepts, or reads out of bounds and reverts (C97, `C97_no_quote_after_removal`).
32. EVM: `executeMsg` does not look at the manager address it is given; the digest does not contain it.  Only what was attested can be executed, and
    attesting compares the address with the peer (C91).
33. EVM: for a chain without peer the registered address is zero; `_verifyPeer` compares with it, so a transceiver that reports the zero address as
    source manager would be believed.  A Wormhole transceiver has no peer there either, and no VAA has the zero address as emitter.
34. EVM: `transferOwnership` of the manager hands over the transceivers that are registered at that time only.  A Wormhole transceiver that was deployed
    before but is registered later still belongs to the former owner, who can name its peers and, where one attestation suffices, be paid for
    messages that nobody sent (C96, `C96_stale_transceiver`).
35. EVM: a transfer that is put into the outbound queue is stored with its transceiver instructions unread.  If they cannot be read, no call completes
    it ever; only its sender can cancel it (C98, `C98_unreadable_instructions_stay`).
36. EVM: a message that asks for a payment to the zero address is accepted into the inbound queue, where it stays: OpenZeppelin tokens refuse such
    payments (the hypothesis `account` of `C98_complete_inbound`).  Executed at once it reverts.
37. EVM: the ordinary `NttManager` with a delay of zero still converts the amount of a transfer to eight decimals in 64 bits and reverts if it does not
    fit; `NttManagerNoRateLimiting` does not, so it sends more to peers with fewer decimals (C101, the last example).
38. EVM: a Wormhole transceiver with standard relaying switched on for a chain on which it has no peer does not refuse: the message is sent, paid,
    to the zero address (C105_no_peer). Manual publishing is not affected, since the message can be redelivered after the peer is set.
39. EVM: the refund address is not checked when a transfer is put in the queue; one that is not an EVM address (natural for a sender
    who thinks of Solana) makes the completion revert as long as the route is the standard relayer; the sender can cancel (C105_refund_stays). And while
    standard relaying is switched on before the chain is marked as EVM chain, all transfers there revert that do not skip the relayers
    (C105_contradictory).
40. EVM: what a transfer takes is the difference of the manager's balances before and after the tokens move. With a token that calls
    others, a payment in between (messages can be received then) makes the difference smaller: the sender is credited with less than they
    gave (example in `Props/EvmHooks`). Never with more (C106).
41. Quoter client: an automatic transfer with a gas drop-off of w wei (`ts/sdk/ntt.ts:873-875`) divides by the number of wei per gwei, and
    `createRequestRelayInstruction` takes the result as ETH and multiplies by the number of gwei per ETH: the program is asked for w gwei. It
    refuses (or, from about 0.009 ETH on, the client throws): the transfer of tokens in the same transaction does not happen
    (`C107_dropoff_mistaken`, `C107_dropoff_refused`).
42. Quoter client: a paused chain has the base price 2^64 - 1, which `getRegisteredChain` converts with `toNumber`; that throws from 2^53 on. So
    `isRelayEnabled` and `isRelayingAvailable` throw for paused chains and never return false for a registered one (`C107_enabled`). Likewise
    an owner cannot use the client to change the assistant while the stored SOL price is 2^53 or more (`getInstance`).
43. Quoter client: `createCloseRelayInstruction` leaves out the account `feeRecipient`, which the IDL requires: it always throws
    (`C107_close_not_built`). Two checks test a promise instead of its result and do nothing (`ts/lib/quoter.ts:217`, `ts/sdk/ntt.ts:537`).
    There is no order that removes the assistant.
44. SDK: a transfer that says explicitly that its additional payload is empty (two zero bytes) is accepted by the EVM contracts, but the SDK
    drops the two bytes and computes another digest, so that it never finds the transfer executed or queued (`C108_digest_evm`). The deployed contracts
    do not write such transfers.
45. SDK: the Solana programs leave an additional payload out of the digest, the SDK puts it in: it derives the address of another inbox item, and
    a transfer with an additional payload cannot be redeemed on Solana through the SDK (`C108_digest_solana`).
46. SDK: for a transfer that is not automatic only the transceiver registered first is told to skip relayers (`encodeOptions`): a second
    Wormhole transceiver with relaying turned on is still paid for relaying (`C108_call`). Refunds are sent to the receiver's address.
47. SDK: `getIsApproved` on Solana is true as soon as one transceiver has attested, whatever the threshold: `track` then says that the transfer is
    redeemed (`C109_approved_solana`, with an example).
48. SDK: the capacities shown on Solana are those after the last transfer, not the current ones: what has flowed back since is not counted, so that the
    routes warn of transfers that would not have to wait (`C109_capacity_outbound`; never the other way round).
49. SDK: `finalize` on Solana asks not to fail if it is too early (`revertOnDelay: false`), and then says that the transfer is complete although nothing
    was paid (`C109_finalize_solana`, with an example).
50. SDK: an EVM transfer that was paid, and then lost its approval because a transceiver was removed or the threshold raised, is never seen as
    complete by `track` if the receipt still says attested (`C109_track_evm_done`, with an example).
51. SDK: the amount of a waiting transfer on an EVM chain is the packed word, 256 times the trimmed amount plus the decimals (`C109_shown_evm`).
52. SDK: `NttManagerNoRateLimiting` reverts in `getInboundQueuedTransfer`, which the SDK always asks: it never finds out that a transfer to such a
    deployment is complete (`C109_no_limits`).
53. SDK: `redeem` on Solana always hands the message to the transceiver again, in the same transaction as redeeming and releasing. Whoever hands it in first
    (anybody can) makes this transaction fail for ever; the transfer must then be redeemed in another way (`C110_received_first`).
54. SDK: `redeem` on Solana creates the token account of the payer, not that of the recipient: for a recipient without an account nobody else can redeem
    with it (`C110_no_account`).
55. SDK: messages with an additional payload, which the program accepts, cannot be redeemed with the SDK: it looks for the transfer under another digest
    (`C110_additional_payload`, see also 45).
56. SDK: after a transceiver of an EVM manager has been removed while the one registered last is enabled, the SDK cannot send: `quoteDeliveryPrice` reverts
    (see C97), though the contract would still send (`C112_no_send_after_removal`, with an example).
57. SDK: a message that says explicitly that its additional payload is empty is accepted by the EVM contracts, but `redeem` writes it anew without saying so,
    and the core bridge refuses these bytes (`C112_redeem_not`, with an example).
58. SDK: the callback given to `filter` at `/repo/evm/ts/src/ntt.ts:220-222` returns nothing: other transceivers are dropped silently; the error that should be
    thrown for them is never thrown, and `redeem` asks for one message only.
59. SDK: if a token is in two groups of the routes' configuration, the destination tokens of both are offered for it, but contracts are looked up by the token
    alone, and those of the first group are taken: a transfer to the second group's token is sent by the first group's manager (`C113_mixed`, with an example).
60. SDK: a client on Solana reads the configuration once and keeps it (`/repo/solana/ts/sdk/ntt.ts:574-577`): after a pause, or a change of owner, also by
    this very client, it shows the old values for ever (`C114_kept`, with an example), and it refuses, or builds, transfers according to the old pause.
61. SDK: `setOwner` on Solana only proposes (on EVM chains the owner changes at once), and the SDK has no function with which the new owner claims
    (`C114_owner_solana`).
62. CLI: `formatNumber` (`/repo/cli/src/index.ts:1842-1852`) does not fill up with zeros: a limit of less than a tenth of a token is shown as a larger number
    (5 thousandths as 0.5), and a limit of a token without decimals as a fraction (120 as 0.120); `status` and `push` then refuse the file that `pull` has just
    written. It is still read back as the same number (`C115_limit_shown`, with examples). If the file is corrected to 0.005, it differs from what is shown for ever.
63. CLI: if a configuration file does not have `paused`, `push` takes this for a wish to unpause (`C115_paused_left_out`).
64. CLI: a peer (of a manager or a transceiver) that has another address or other decimals than the deployment is only mentioned on the terminal; `push` does not
    mend it, and the tool then ends as if everything were connected (`C116_after_push`, example).
65. CLI: `ntt config set-chain --local` is refused, as `--global` is on unless it is switched off (`C117_options`), and `ntt config get-chain` fails always, as it
    uses an option that does not exist (`C117_get_chain_fails`).

## Axioms per theorem

(All names are in `Ntt.Props`.)

* `[]`: `C16_claim_false`, `C53_instruction_round_trip`, `C79_governance_addresses`, `C117_get_chain_fails`
* `[propext, Classical.choice, Quot.sound]`: `C01_transfer_roundtrip`, `C01_manager_roundtrip`, `C01_transceiver_roundtrip`, `C01_registration_roundtrip`, `C01_layers_lawful`, `C02_digest_input_injective`, `C03_consumes_exactly`, `C05_canonical_up_to_lengths_partial`, `C05_ignored_lengths_accepted`, `stored_attestation_reads_back`, `C07_trim_refused`, `C08_removeDust_total`, `C12_window_bound`, `C15_set_limit_preserves_used`, `C18_unset_removes_exactly_one`, `C18_count_is_distinct_enabled`, `C19_voting_twice`, `C19_threshold_needs_distinct_transceivers`, `C20_paid_at_most_once`, `C20_message_paid_at_most_once`, `C21_payout_attested`, `C21_same_message`, `C22_payout_as_announced`, `C23_inbound_progress`, `C23_release_time_fixed`, `C24_rate_limit_holds_back`, `C25_no_second_redeem`, `C25_capacity_used_on_approval`, `C25_capacity_used_once`, `C26_redeem_never_blocked`, `C26_release_never_blocked`, `C27_at_most_one_message`, `C28_message_says_what_was_sent`, `C29_not_before_release_time`, `C29_no_room_no_agreement_no_effect`, `C29_release_possible`, `C30_only_enabled_transceiver`, `C30_recorded_iff_sent`, `C31_outbound_immutable`, `C31_ids_distinct`, `C32_custody_accounting`, `C32_drained_only_by_payouts`, `C32_custody_covers_locked`, `C33_supply_accounting`, `C33_custody_unchanged`, `C34_locking_never_mints`, `C34_burning_never_locks`, `C35_fee_cannot_underfund`, `C36_only_as_authorised`, `C36_not_exceeded_or_redirected`, `C36_arguments_determine_input`, `C37_only_owner_changes_settings`, `C37_others_are_refused`, `C37_nothing_before_initialisation`, `C38_owner_changes_only`, `C38_nominated_by_owner`, `C38_take_back_or_claim`, `C39_owner_is_upgrade_authority`, `C40_initialised_once`, `C40_parameters_fixed`, `C41_nothing_moves_while_paused`, `C41_outbound_released_after_unpause`, `C41_inbound_released_after_unpause`, `C42_ids_are_positions`, `C42_at_most_128`, `manager_seeds_injective`, `quoter_seeds_injective`, `addresses_never_coincide`, `C44_from_registered_peer`, `C44_never_changes`, `C44_accepts`, `C45_value_conserved`, `C45_hub_and_spokes`, `C45_backing_kept`, `C45_bridged_supply_backed`, `C46_payouts_match_debits`, `C46_payouts_distinct`, `C47_charge_exact`, `C49_message_was_emitted`, `C49_fees_stay_until_closed`, `C51_only_from_governance`, `C51_can_be_executed`, `governance_seeds_injective`, `C52_exact_instruction`, `C53_round_trip`, `C53_canonical`, `C53_written_size_short`, `C54_history_equivalent`, `C58_outbound_throughput`, `C58_inbound_throughput`, `C59_settings_as_requested`, `C59_touches_nothing_else`, `C59_limiters`, `C60_every_publication`, `C61_outbound_with_changes`, `C61_inbound_with_changes`, `C62_redeem`, `C62_nothing_else`, `C63_accepts_exactly`, `C63_same_message_iff`, `C64_aborts_iff`, `C65_manager_accounts`, `C65_other_accounts`, `C65_times_fit`, `C67_substitution`, `C67_account_pays_once`, `C68_well_placed`, `C69_custody_covers_locked`, `C69_payouts_attested`, `C69_payouts_as_announced`, `C69_only_as_authorised`, `C69_only_owner_changes_settings`, `C70_unobstructed`, `C70_accounts_can_be_supplied`, `C70_payout_never_blocked`, `C71_understood`, `C71_nothing_else`, `C71_one_meaning`, `C72_sound`, `C72_complete`, `C72_writes`, `C73_elementary`, `C73_custody_covers_locked`, `C73_pays_once`, `C73_payouts_attested`, `C73_unobstructed`, `C73_administration`, `C73_tokens`, `C74_only_by_vote`, `C74_as_voted`, `C74_at_most_once`, `C75_payouts_match_debits`, `C75_payouts_distinct`, `C76_bridged_supply_backed`, `C77_can_be_done`, `C77_payout_never_blocked`, `C78_transfer_arrives`, `C78_hub_can_pay`, `C79_addresses`, `C79_derived_from_contents`, `C79_idl_matches_program`, `C79_builds`, `C79_never_truncates`, `C79_works`, `C79_transfer_ownership_not_built`, `C80_as_listed`, `C80_noted`, `C80_anybody_can`, `C81_data_meaning`, `C81_same_effect`, `C81_history`, `C81_charge_exact`, `C81_fees_stay_until_closed`, `C81_settings_by_owner_or_assistant`, `C81_assistant_by_owner`, `C81_message_was_sent`, `C82_can_be_called`, `C83_substitution`, `C83_well_placed`, `C83_attestations_genuine`, `C83_builtin`, `C83_account_pays_once`, `C84_understood`, `C84_nothing_else`, `C84_one_meaning`, `C84_sound`, `C84_complete`, `C84_writes`, `C85_unobstructed`, `C85_transceiver`, `C85_manager`, `C85_receive_never_blocked`, `C85_release_never_blocked`, `C86_evm_accepts_exactly`, `C86_evm_reads_solana`, `C86_solana_reads_evm`, `C86_same_language`, `C86_additional_payload`, `C86_announcements`, `C87_same_trim`, `C87_evm_sends_exactly`, `C87_evm_to_solana`, `C87_solana_to_evm`, `C87_stuck_on_evm`, `C88_accepts_exactly`, `C88_counts`, `C88_transfer_is_counted`, `C88_only_these_accounts`, `C90_accepted_iff`, `C90_not_blocked`, `C90_carried_out`, `C90_anything_can_be_voted`, `C91_paid_at_most_once`, `C91_payout_justified`, `C91_approved_means`, `C91_attestation_origin`, `C91_delivered_once`, `C92_registry_consistent`, `C92_threshold_in_range`, `C92_add_transceiver`, `C92_remove_transceiver`, `C92_set_threshold`, `C92_no_assertion_fails`, `C93_numbers`, `C93_settled_once`, `C93_sent_as_debited`, `C93_cancelled_as_debited`, `C93_nothing_lost`, `C94_locked`, `C94_minted`, `C94_own_tokens`, `C94_received`, `C94_can_be_cancelled`, `C95_outbound_limit`, `C95_inbound_limit`, `C95_waits_iff`, `C95_paid_or_waits`, `C95_backflow`, `C95_limit_can_be_set`, `C95_unlimited_peer_set_once`, `C96_changes_need_rights`, `C96_outsiders`, `C96_handover`, `C96_transceiver_follows`, `C96_stale_transceiver`, `C97_instructions_iff`, `C97_round_trip`, `C97_quote_iff`, `C97_transfer_price`, `C97_complete_price`, `C97_quote_is_price`, `C97_no_quote_after_removal`, `C98_execute`, `C98_attest`, `C98_deliver`, `C98_complete_inbound`, `C98_complete_outbound_iff`, `C98_transfer`, `C98_unreadable_instructions_stay`, `C99_payouts_match_debits`, `C99_paid_at_most_once`, `C99_no_unbacked_value`, `C99_supply_backed`, `C100_arrives_on_evm`, `C100_arrives_on_solana`, `C100_all_backed`, `C100_hub_can_pay`, `C101_nothing_waits`, `C101_sent_at_once`, `C101_set_peer_iff`, `C101_transfer_iff`, `C102_layout`, `C102_one_recipient`, `C102_not_for_solana`, `C102_only_as_voted`, `C102_once`, `C102_performed_iff`, `C102_one_after_another`, `C102_changes_are_voted`, `C102_no_vote_no_change`, `C103_paid_at_most_once`, `C103_locked`, `C103_minted`, `C104_nobody_before`, `C104_initialize_manager`, `C104_deployed`, `C104_implementation_unusable`, `C104_upgrade_manager`, `C104_paid_at_most_once`, `C104_locked`, `C105_told`, `C105_quote`, `C105_send`, `C105_skip`, `C105_contradictory`, `C105_transfer`, `C105_complete`, `C105_no_peer`, `C105_refund_stays`, `C106_paid_at_most_once`, `C106_paid_as_asked`, `C106_given_back_at_most_once`, `C106_locked`, `C106_minted`, `C106_refused`, `C107_numbers`, `C107_exact`, `C107_shows`, `C107_quote_close`, `C107_quotes`, `C107_quote_covers`, `C107_cost_covers`, `C107_builds`, `C107_works`, `C107_automatic`, `C107_dropoff_mistaken`, `C107_dropoff_refused`, `C107_enabled`, `C107_close_not_built`, `C108_reads`, `C108_round_trip`, `C108_reads_solana`, `C108_reads_evm`, `C108_digest_evm`, `C108_digest_solana`, `C108_announcements`, `C108_call`, `C108_limit_shown`, `C108_limit_set`, `C108_amount`, `C108_evm_sends`, `C108_shown_on_solana`, `C108_shown_on_evm`, `C108_shown_between_evm`, `C108_warned`, `C109_executed_solana`, `C109_queued_solana`, `C109_waiting_solana`, `C109_approved_solana`, `C109_capacity_outbound`, `C109_capacity_inbound`, `C109_finalize_solana`, `C109_queued_evm`, `C109_shown_evm`, `C109_executed_evm`, `C109_approved_evm`, `C109_finalize_evm`, `C109_track_forward`, `C109_track_solana`, `C109_track_solana_done`, `C109_track_evm`, `C109_track_evm_done`, `C110_transfer`, `C110_transfer_works`, `C110_redeem`, `C110_redeem_works`, `C110_received_first`, `C110_no_account`, `C110_additional_payload`, `C111_leave`, `C111_own_tokens`, `C111_same_histories`, `C111_locked`, `C112_plan`, `C112_send_works`, `C112_send_effect`, `C112_no_send_after_removal`, `C112_redeem_iff`, `C112_redeem_not`, `C112_redeem`, `C112_redeem_works`, `C113_same_deployment`, `C113_mixed`, `C113_resume`, `C113_quote`, `C113_starts_evm`, `C113_sends_evm`, `C113_sends_solana`, `C113_arrives_evm`, `C113_arrives_solana`, `C113_evm_to_evm`, `C113_evm_to_solana`, `C113_solana_to_evm`, `C114_shown_solana`, `C114_works_solana`, `C114_evm`, `C114_works_evm`, `C115_limit_accepted`, `C115_limit_read`, `C115_limit_shown`, `C115_push`, `C115_up_to_date`, `C115_paused_left_out`, `C116_after_push`, `C116_connected`, `C116_whole_push`
* `[propext, Quot.sound]`: `C01_info_roundtrip`, `C01_write_fails_only_if_too_long`, `C02_digest_input_total`, `C03_rejects_truncated`, `C03_rejects_wrong_prefix`, `C04_domain_separation`, `C05_claim_false`, `zero_copy_agrees_with_full`, `C07_trim_rounds_down`, `C08_debit_equals_announced`, `C09_value_preserved`, `C10_scale_exact`, `C10_scale_refused`, `C11_capacity_refills`, `C13_delay_exact`, `C14_backflow_exact`, `C14_send_then_backflow`, `C16_never_aborts_partial`, `C17_refines_leaky_bucket`, `C18_vote_adds_exactly_one`, `C34_other_mode_refused`, `C38_owner_keeps_powers`, `C38_others_cannot_claim`, `C40_initialised_by_upgrade_authority`, `C44_once`, `C47_fee_is_quote`, `C47_overflow_refused`, `C47_accepted`, `C48_fee_monotone`, `C48_smaller_not_refused`, `C49_opened_only_if_sent`, `C49_one_open_per_transfer`, `C49_close_pays_fee_recipient`, `C50_settings_by_owner_or_assistant`, `C50_assistant_by_owner`, `C50_initialised_by_upgrade_authority`, `C50_price_never_zero_again`, `C51_at_most_once`, `C51_authority_only_through_messages`, `C52_exactly_these_calls`, `C53_too_long_refused`, `C54_release_equivalent`, `C54_other_registration_refused`, `C54_others_equivalent`, `C55_peer_update_partial`, `C55_claim_false`, `C56_matches_documentation`, `C57_single_instructions_suffice`, `C57_all_or_nothing`, `C59_owner_can`, `C60_announcing_changes_nothing`, `C62_transfer`, `C65_new_account`, `C65_attestation`, `C66_as_requested`, `C66_touches_nothing_else`, `C66_administrators_can`, `C66_fee_from_explicit_settings`, `C67_genesis`, `C68_one_type`, `C73_signatures`, `C79_additional_payload_lost`, `C80_append_only`, `C83_genesis`, `C86_same_bytes`, `C86_same_digest`, `C88_initialises_exactly`, `C89_gets_what_it_asked`, `C89_client_suffices`, `C89_amount_not_supported`, `C96_paused_stops_all`, `C96_pause_iff`, `C96_wormhole_peer_stays`, `C97_encoder`, `C101_executed_is_paid`, `C101_queue_calls_refused`, `C101_limits_ignored`, `C103_call_first`, `C103_one_after_another`, `C103_nothing_inside`, `C104_initialize_transceiver`, `C104_history`, `C104_refused`, `C104_upgrade_transceiver`, `C105_others`, `C105_settings`, `C105_history`, `C106_given_back_as_taken`, `C106_nothing_inside`, `C108_writes`, `C108_instructions`, `C109_no_limits`, `C110_own_account`, `C111_transfer_iff`, `C111_others_iff`, `C111_own_approval`, `C114_solana`, `C114_owner_solana`, `C114_kept`, `C114_register`, `C114_no_limits`, `C114_verify`, `C115_no_difference`, `C116_push`, `C116_nothing_missing`, `C116_settings_keep_peers`, `C117_get`, `C117_get_fails`, `C117_set`, `C117_set_then_get`
* `[propext]`: `C10_change_decimals`, `preimage_injective`, `C50_never_divides_by_zero`, `C65_other_type_refused`, `C71_discriminators`, `C81_discriminators`, `C88_codes`, `C90_codes`, `C113_contracts`, `C117_options`
