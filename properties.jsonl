{"id": "C01", "title": "Protocol messages survive encode/decode", "statement": "Serialising any native-token-transfer, manager message, transceiver message, transceiver-info or transceiver-registration value and parsing the bytes again yields exactly the original value; if the bytes are followed by anything else, precisely those extra bytes are left unread. Serialisation only fails when a variable-length part does not fit a 16-bit length.", "quantifier": "every field value of every message type, every additional payload type whose own codec round-trips, every trailing byte string", "why_tests_cant": "the value space is 2^(hundreds of bits) and payload types are generic; fixtures check two hex strings", "anchors": ["solana/modules/ntt-messages/src/ntt.rs:NativeTokenTransfer", "solana/modules/ntt-messages/src/ntt_manager.rs:NttManagerMessage", "solana/modules/ntt-messages/src/transceiver.rs:TransceiverMessage", "solana/modules/ntt-messages/src/transceivers/wormhole.rs:WormholeTransceiverInfo", "solana/modules/ntt-messages/src/transceivers/wormhole.rs:WormholeTransceiverRegistration"]}
{"id": "C02", "title": "Message digests cannot be confused", "statement": "The bytes hashed to identify an inbound message determine the source chain and the complete message: two different (source chain, message) pairs never produce the same hash input, so they can share an identity only through a keccak256 collision.", "quantifier": "every pair of source chain ids and every pair of manager messages", "why_tests_cant": "absence of colliding encodings is a universal statement over pairs of values", "anchors": ["solana/modules/ntt-messages/src/ntt_manager.rs:keccak256", "solana/programs/example-native-token-transfers/src/instructions/redeem.rs:Redeem"]}
{"id": "C03", "title": "Truncated or mis-prefixed input is rejected", "statement": "Parsing never accepts a proper prefix of a valid encoding, never accepts input whose 4-byte type prefix is wrong, and never reads bytes beyond its input: on success the input is exactly the consumed bytes followed by the returned remainder, and the number of consumed bytes is the length of the re-encoded message.", "quantifier": "every byte string, of every length", "why_tests_cant": "byte strings are unbounded; fuzzing samples them", "anchors": ["solana/modules/ntt-messages/src/ntt.rs:NativeTokenTransfer::read", "solana/modules/ntt-messages/src/transceiver.rs:TransceiverMessage::read", "solana/modules/ntt-messages/src/transceivers/wormhole.rs"]}
{"id": "C04", "title": "Message kinds are domain separated", "statement": "No byte string is accepted both as a transfer-carrying transceiver message and as a transceiver-info or transceiver-registration announcement (nor as both announcements), so an announcement can never be replayed as a transfer.", "quantifier": "every byte string", "why_tests_cant": "universal over all byte strings", "anchors": ["solana/modules/ntt-messages/src/transceivers/wormhole.rs:PREFIX", "solana/modules/ntt-messages/src/transceiver.rs:TransceiverMessage::read"]}
{"id": "C05", "title": "Parsed bytes are the canonical encoding", "statement": "Whenever a transceiver message is accepted, re-encoding the parsed value gives back exactly the bytes that were read, so the relayer cannot present two different byte strings for the same message. (Full statement: every accepted input is canonical.)", "quantifier": "every byte string accepted by the parser", "why_tests_cant": "non-canonical encodings have to be searched for; no example-based test demonstrates their absence", "anchors": ["solana/modules/ntt-messages/src/transceiver.rs:TransceiverMessage::read", "solana/modules/ntt-messages/src/ntt_manager.rs:NttManagerMessage::read", "solana/modules/ntt-messages/src/ntt.rs:NativeTokenTransfer::read"]}
{"id": "C06", "title": "Stored attestations read back the same through both readers", "statement": "For every attested message stored in an account, the zero-copy field readers used when redeeming (source chain, source manager, recipient manager, manager message) return the same values as full deserialisation of the account, and trailing unused account space never influences them.", "quantifier": "every stored message value and every zero or non-zero trailing padding", "why_tests_cant": "layout agreement must hold for every field value; offset bugs show only on particular byte patterns", "anchors": ["solana/programs/example-native-token-transfers/src/messages.rs:ValidatedTransceiverMessage", "solana/modules/ntt-messages/src/transceiver.rs:TransceiverMessageDataBytes"]}
{"id": "C07", "title": "Trimming rounds down by less than one unit", "statement": "Converting an amount to the wire representation uses min(8, source decimals, destination decimals) decimals, never increases the represented value, and loses strictly less than one unit of the wire precision.", "quantifier": "every u64 amount and every pair of u8 decimals", "why_tests_cant": "2^80 inputs; boundary rounding errors appear only at particular remainders", "anchors": ["solana/modules/ntt-messages/src/trimmed_amount.rs:trim"]}
{"id": "C08", "title": "The sender is debited exactly what the message announces", "statement": "The amount taken from the sender has exactly the same value as the amount written in the outgoing message: it never exceeds the requested amount, the un-bridgeable remainder left with the sender is less than one unit of wire precision, and sending the debited amount again would leave no remainder.", "quantifier": "every requested amount and decimals configuration for which the transfer succeeds", "why_tests_cant": "an off-by-one in any of the 2^80 combinations would create or destroy value", "anchors": ["solana/modules/ntt-messages/src/trimmed_amount.rs:remove_dust", "solana/programs/example-native-token-transfers/src/instructions/transfer.rs:transfer_burn", "solana/programs/example-native-token-transfers/src/instructions/transfer.rs:transfer_lock"]}
{"id": "C09", "title": "Value is preserved across chains with different decimals", "statement": "If the destination token's decimals equal those registered for the peer at the source, the amount credited at the destination represents exactly the same value as the amount debited at the source, whatever the two tokens' decimals; the only other outcome is a reported overflow.", "quantifier": "every amount, every pair of decimals", "why_tests_cant": "needs the composition of two programs' rounding for every decimals pair", "anchors": ["solana/modules/ntt-messages/src/trimmed_amount.rs:untrim", "solana/programs/example-native-token-transfers/src/instructions/redeem.rs:redeem", "solana/programs/example-native-token-transfers/src/instructions/transfer.rs:transfer_lock"]}
{"id": "C10", "title": "Decimal scaling is exact or refused", "statement": "Changing the decimals of an amount yields the mathematically exact result (floor when shrinking) or an explicit error; it never wraps. It is refused exactly when the decimals differ by 20 or more, or the scaled amount does not fit 64 bits.", "quantifier": "every u64 amount and every pair of u8 decimals", "why_tests_cant": "overflow boundaries depend on the product of amount and power of ten; sampling misses them", "anchors": ["solana/modules/ntt-messages/src/trimmed_amount.rs:scale", "solana/modules/ntt-messages/src/trimmed_amount.rs:change_decimals", "solana/modules/ntt-messages/src/errors.rs:ScalingError"]}
{"id": "C11", "title": "Available capacity stays within the limit and refills linearly", "statement": "At every moment the available capacity is between zero and the configured limit; with no traffic it never decreases, it grows by limit/day (rounded down), and it equals the full limit at the latest 24 hours after the last use.", "quantifier": "every limiter state reachable by any history of transfers, backflows and limit changes, every later time", "why_tests_cant": "histories are unbounded and time is a free variable", "anchors": ["solana/programs/example-native-token-transfers/src/queue/rate_limit.rs:capacity_at"]}
{"id": "C12", "title": "Throughput over any time window is bounded", "statement": "In any history during which the limit is not changed, the total amount let through immediately between two times is at most the limit, plus limit/day times the elapsed time, plus the total backflow in the same period.", "quantifier": "every finite sequence of sends, queue attempts and backflows with non-decreasing timestamps, unbounded length", "why_tests_cant": "it is a statement about sums over arbitrary traces; rounding could leak capacity only over long runs", "anchors": ["solana/programs/example-native-token-transfers/src/queue/rate_limit.rs:consume_or_delay", "solana/programs/example-native-token-transfers/src/queue/rate_limit.rs:refill"]}
{"id": "C13", "title": "Delay decision is exact", "statement": "A transfer passes immediately if and only if its amount is at most the available capacity, and then capacity drops by exactly that amount; otherwise it is delayed by exactly 24 hours and the limiter is left untouched.", "quantifier": "every limiter state, time and amount", "why_tests_cant": "boundary (equality) and no-side-effect conditions over all states", "anchors": ["solana/programs/example-native-token-transfers/src/queue/rate_limit.rs:consume_or_delay"]}
{"id": "C14", "title": "Backflow refills but never exceeds the limit", "statement": "A transfer in the opposite direction adds exactly its amount to the available capacity, capped at the limit; sending an amount and immediately receiving the same amount back restores the previous capacity exactly.", "quantifier": "every limiter state, time and amount", "why_tests_cant": "saturation boundaries over 64-bit amounts", "anchors": ["solana/programs/example-native-token-transfers/src/queue/rate_limit.rs:refill", "solana/programs/example-native-token-transfers/src/instructions/redeem.rs:redeem", "solana/programs/example-native-token-transfers/src/instructions/transfer.rs:insert_into_outbox"]}
{"id": "C15", "title": "Changing a limit preserves what has been used", "statement": "Raising a limit by d makes exactly d more available; lowering it by d removes exactly d from what is available (never below zero). Capacity in use carries over, so an administrator cannot accidentally refill or exceed the new limit.", "quantifier": "every limiter state, every new limit, every time", "why_tests_cant": "the case split on old/new limit and saturation has to hold for all 64-bit values", "anchors": ["solana/programs/example-native-token-transfers/src/queue/rate_limit.rs:set_limit"]}
{"id": "C16", "title": "Rate limiting never aborts", "statement": "With a clock that starts non-negative and never goes backwards, no limiter operation on any reachable state overflows, underflows or trips its assertion, so rate limiting can never make a transfer or an administrative limit change fail by a panic.", "quantifier": "every history of limiter operations, every non-decreasing clock within the i64 range", "why_tests_cant": "intermediate products reach 2^127; tests use small numbers", "anchors": ["solana/programs/example-native-token-transfers/src/queue/rate_limit.rs:RateLimitState"]}
{"id": "C17", "title": "Limiter refines a simple leaky-bucket specification", "statement": "Seen from outside, the limiter behaves as a bucket holding 'used' tokens that leak at limit/day: every decision (pass/delay) and every reported capacity of the implementation equals that of the specification, for all operation sequences.", "quantifier": "all operation sequences over all states", "why_tests_cant": "equivalence with a specification over all traces", "anchors": ["solana/programs/example-native-token-transfers/src/queue/rate_limit.rs:RateLimitState"]}
{"id": "C18", "title": "Vote bitmap behaves as a set of at most 128 transceivers", "statement": "Recording a transceiver's vote adds exactly that transceiver and no other; the number of votes counted is the number of distinct, currently enabled transceivers that voted (never more than 128); indices of 128 or more are refused rather than wrapped.", "quantifier": "every 128-bit map, every u8 index, every sequence of votes", "why_tests_cant": "2^128 maps; bit arithmetic errors hit specific positions", "anchors": ["solana/programs/example-native-token-transfers/src/bitmap.rs:Bitmap"]}
{"id": "C19", "title": "Voting twice does not count twice", "statement": "Repeating an attestation through the same transceiver never increases the number of votes, so reaching a threshold of n needs n distinct enabled transceivers.", "quantifier": "every sequence of redeem calls", "why_tests_cant": "needs induction over histories", "anchors": ["solana/programs/example-native-token-transfers/src/instructions/redeem.rs:redeem", "solana/programs/example-native-token-transfers/src/bitmap.rs:count_enabled_votes"]}
{"id": "C20", "title": "Each inbound transfer pays out at most once", "statement": "For any message (source chain and message contents), over the whole life of the deployment and whatever instructions anybody submits in whatever order, tokens are paid out (minted or unlocked) at most once.", "quantifier": "every finite sequence of instructions by any callers, every message", "why_tests_cant": "double-spend freedom is a universally quantified statement over instruction histories", "anchors": ["solana/programs/example-native-token-transfers/src/queue/inbox.rs:try_release", "solana/programs/example-native-token-transfers/src/instructions/release_inbound.rs", "solana/programs/example-native-token-transfers/src/instructions/redeem.rs"]}
{"id": "C21", "title": "No payout without attestation by the registered peer", "statement": "Every payout stems from a message that at least the threshold number of distinct registered and enabled transceivers attested on this program, whose source manager was the registered peer for the source chain, whose destination chain is this chain and whose recipient manager is this program.", "quantifier": "every reachable state, every payout in every history", "why_tests_cant": "an authorisation bypass is the absence of a check on some path; only a proof over all paths excludes it", "anchors": ["solana/programs/example-native-token-transfers/src/instructions/redeem.rs:Redeem", "solana/programs/example-native-token-transfers/src/instructions/release_inbound.rs:ReleaseInbound", "solana/programs/example-native-token-transfers/src/messages.rs:ValidatedTransceiverMessage::try_from"]}
{"id": "C22", "title": "Payout goes to the announced recipient for the announced amount", "statement": "Whoever submits the redeem and release instructions, the payout credits the token account of exactly the recipient named in the message, with exactly the message's amount converted to the local decimals.", "quantifier": "every history and every caller-chosen set of accounts", "why_tests_cant": "account-substitution attacks are adversarial choices of inputs", "anchors": ["solana/programs/example-native-token-transfers/src/instructions/release_inbound.rs:ReleaseInbound", "solana/programs/example-native-token-transfers/src/instructions/redeem.rs:redeem"]}
{"id": "C23", "title": "An approved inbound transfer never changes", "statement": "Once an inbound transfer has been recorded its recipient and amount never change; its status only moves forward (awaiting votes, approved with a release time, paid); once approved its release time never changes, and recorded votes are never lost.", "quantifier": "every history from every reachable state", "why_tests_cant": "monotonicity over all interleavings", "anchors": ["solana/programs/example-native-token-transfers/src/queue/inbox.rs:InboxItem", "solana/programs/example-native-token-transfers/src/queue/inbox.rs:release_after", "solana/programs/example-native-token-transfers/src/queue/inbox.rs:try_release"]}
{"id": "C24", "title": "Inbound rate limiting holds back payouts", "statement": "A payout never happens before the inbound transfer's release time; that time is the moment of approval if the inbound capacity for the source chain covered the amount, and otherwise exactly 24 hours after approval.", "quantifier": "every history with a non-decreasing clock", "why_tests_cant": "time-dependent behaviour over all schedules", "anchors": ["solana/programs/example-native-token-transfers/src/instructions/redeem.rs:redeem", "solana/programs/example-native-token-transfers/src/queue/inbox.rs:try_release"]}
{"id": "C25", "title": "Each inbound transfer uses rate-limit capacity at most once", "statement": "However many transceivers attest a message and however often redemption is attempted, the message consumes inbound capacity at most once and refills outbound capacity at most once.", "quantifier": "every history of redeem calls for one message interleaved with anything else", "why_tests_cant": "relies on whole-transaction rollback after a late failure on every path", "anchors": ["solana/programs/example-native-token-transfers/src/instructions/redeem.rs:redeem", "solana/programs/example-native-token-transfers/src/queue/inbox.rs:release_after"]}
{"id": "C26", "title": "An attested transfer can always be completed", "statement": "If a message for this deployment has been validated by an enabled transceiver, comes from the registered peer and its amount fits the local decimals, and the program is not paused, then redeeming succeeds, and releasing succeeds at any time at or after the release time (given custody holds the tokens in locking mode); nobody but the owner (or a pending owner) can prevent this by submitting other instructions in between.", "quantifier": "every reachable state and every interleaved sequence of instructions in which the owner does not administrate", "why_tests_cant": "availability against every adversarial interleaving", "anchors": ["solana/programs/example-native-token-transfers/src/instructions/redeem.rs", "solana/programs/example-native-token-transfers/src/instructions/release_inbound.rs"]}
{"id": "C27", "title": "At most one message per transfer and transceiver", "statement": "For every outbound transfer and every registered transceiver, at most one cross-chain message is ever posted, whatever sequence of instructions is submitted.", "quantifier": "every history, every outbound transfer, every transceiver", "why_tests_cant": "replay freedom over all histories", "anchors": ["solana/programs/example-native-token-transfers/src/queue/outbox.rs:try_release", "solana/programs/example-native-token-transfers/src/transceivers/wormhole/instructions/release_outbound.rs", "solana/programs/example-native-token-transfers/src/instructions/mark_outbox_item_as_released.rs"]}
{"id": "C28", "title": "Posted messages say exactly what was sent", "statement": "Every posted transfer message carries, byte for byte, the encoding of: this manager as source, the peer registered when the transfer was made, the transfer's own unique id, the sender, the debited amount, this token, the requested recipient and chain. Parsing the posted bytes with the protocol parser gives these values back.", "quantifier": "every history, every posted message", "why_tests_cant": "field mix-ups and stale configuration appear only for particular interleavings", "anchors": ["solana/programs/example-native-token-transfers/src/transceivers/wormhole/instructions/release_outbound.rs:release_outbound", "solana/programs/example-native-token-transfers/src/instructions/transfer.rs:insert_into_outbox"]}
{"id": "C29", "title": "Queued outbound transfers wait and then can be released", "statement": "No message is posted before the transfer's release time; the release time is the time of the request when outbound capacity sufficed, otherwise exactly 24 hours later and only if the sender agreed to queueing. Without that agreement the transfer has no effect at all. The release time is fixed at creation and nothing can postpone it.", "quantifier": "every history with a non-decreasing clock", "why_tests_cant": "time-dependent over all schedules", "anchors": ["solana/programs/example-native-token-transfers/src/instructions/transfer.rs:insert_into_outbox", "solana/programs/example-native-token-transfers/src/queue/outbox.rs:try_release"]}
{"id": "C30", "title": "Only an enabled transceiver can emit a transfer", "statement": "A transfer is marked as sent through a transceiver only by that transceiver itself (the built-in one, or the signer derived from the registered external program), only while the transceiver is enabled and the program not paused.", "quantifier": "every history, every caller", "why_tests_cant": "absence of an unauthorised path", "anchors": ["solana/programs/example-native-token-transfers/src/instructions/mark_outbox_item_as_released.rs", "solana/programs/example-native-token-transfers/src/transceivers/wormhole/instructions/release_outbound.rs"]}
{"id": "C31", "title": "Recorded outbound transfers are immutable", "statement": "Once created, an outbound transfer's amount, sender, recipient, destination, peer and release time never change, its set of transceivers already used only grows, and it is never removed; message ids of distinct transfers are distinct.", "quantifier": "every history", "why_tests_cant": "frame property over every instruction", "anchors": ["solana/programs/example-native-token-transfers/src/queue/outbox.rs:OutboxItem", "solana/programs/example-native-token-transfers/src/instructions/transfer.rs"]}
{"id": "C32", "title": "Locked tokens are fully accounted for", "statement": "In locking mode the custody balance always equals its initial balance plus everything locked by transfers plus direct deposits minus everything unlocked by payouts; hence custody is never drained except by attested payouts, and it covers all locked-but-not-unlocked tokens.", "quantifier": "every history of instructions and third-party token movements", "why_tests_cant": "conservation over unbounded histories", "anchors": ["solana/programs/example-native-token-transfers/src/instructions/transfer.rs:transfer_lock", "solana/programs/example-native-token-transfers/src/instructions/release_inbound.rs:release_inbound_unlock"]}
{"id": "C33", "title": "Burn and mint change supply exactly", "statement": "In burning mode the token supply changes, through this program, by exactly minus the sum of debited amounts plus the sum of payouts; each transfer and each payout leaves the custody balance as it was (except that a payout whose announced recipient is the program's own token authority stays in custody).", "quantifier": "every history", "why_tests_cant": "conservation over unbounded histories", "anchors": ["solana/programs/example-native-token-transfers/src/instructions/transfer.rs:transfer_burn", "solana/programs/example-native-token-transfers/src/instructions/release_inbound.rs:release_inbound_mint"]}
{"id": "C34", "title": "Modes do not mix", "statement": "A deployment in locking mode never mints or burns and one in burning mode never locks or unlocks: for its whole life the token supply of a locking deployment is unchanged by the program, and each instruction of the other mode is refused.", "quantifier": "every history", "why_tests_cant": "universal over histories", "anchors": ["solana/programs/example-native-token-transfers/src/instructions/transfer.rs", "solana/programs/example-native-token-transfers/src/instructions/release_inbound.rs", "solana/programs/example-native-token-transfers/src/config.rs:Config"]}
{"id": "C35", "title": "Fee-charging tokens cannot under-fund custody", "statement": "Whatever fee the token program withholds on transfers, a transfer succeeds only if custody (locking) received, or the burn removed, exactly the amount announced to the destination; otherwise it has no effect.", "quantifier": "every fee function and every transfer", "why_tests_cant": "the token's fee behaviour is an arbitrary external function", "anchors": ["solana/programs/example-native-token-transfers/src/instructions/transfer.rs:transfer_lock", "solana/programs/example-native-token-transfers/src/instructions/transfer.rs:transfer_burn"]}
{"id": "C36", "title": "Tokens leave a user's account only as the user authorised", "statement": "A transfer debits a token account only if its owner delegated to an authority that is derived from exactly the amount, destination chain, recipient and queueing choice of that transfer; nobody can redirect, change or exceed it. Different transfer arguments always have different authority derivation inputs.", "quantifier": "every token account, every transfer argument, every caller", "why_tests_cant": "confused-deputy freedom is universal over adversarial callers and arguments", "anchors": ["solana/programs/example-native-token-transfers/src/instructions/transfer.rs:TransferArgs::keccak256", "solana/programs/example-native-token-transfers/src/instructions/transfer.rs:TransferBurn"]}
{"id": "C37", "title": "Only the owner administers", "statement": "Peers, limits, pause flag, registered transceivers and transceiver peers change only through an instruction signed by the current owner; every such instruction by any other signer fails, and no other instruction changes any of them except rate-limit usage.", "quantifier": "every reachable state, every instruction, every signer", "why_tests_cant": "access control has to hold on every path", "anchors": ["solana/programs/example-native-token-transfers/src/instructions/admin.rs", "solana/programs/example-native-token-transfers/src/transceivers/wormhole/instructions/admin.rs"]}
{"id": "C38", "title": "Two-step ownership hand-over", "statement": "In the two-step flow ownership moves only to the key nominated by the owner and only when that key itself claims; until then the owner keeps all administrative powers (except starting another hand-over before taking the first one back), the nominee has none, and the owner can take the nomination back.", "quantifier": "every history of ownership instructions by any signers", "why_tests_cant": "all interleavings of nominate/claim/cancel", "anchors": ["solana/programs/example-native-token-transfers/src/instructions/admin.rs:transfer_ownership", "solana/programs/example-native-token-transfers/src/instructions/admin.rs:claim_ownership"]}
{"id": "C39", "title": "Owner and upgrade authority stay together", "statement": "If the upgrade authority is only changed through this program, then at all times the program's upgrade authority is the owner, or the program-held lock exactly while a hand-over is pending.", "quantifier": "every history after initialisation", "why_tests_cant": "joint invariant of two pieces of state over all histories", "anchors": ["solana/programs/example-native-token-transfers/src/instructions/admin.rs:transfer_ownership", "solana/programs/example-native-token-transfers/src/instructions/admin.rs:transfer_ownership_one_step_unchecked", "solana/programs/example-native-token-transfers/src/instructions/admin.rs:claim_ownership", "solana/programs/example-native-token-transfers/src/instructions/initialize.rs"]}
{"id": "C40", "title": "Deployment parameters are fixed at initialisation", "statement": "Initialisation happens at most once and only by the upgrade authority; mint, token program, mode, chain id, custody account and vote threshold never change afterwards.", "quantifier": "every history", "why_tests_cant": "immutability is a frame property over all instructions", "anchors": ["solana/programs/example-native-token-transfers/src/instructions/initialize.rs:initialize", "solana/programs/example-native-token-transfers/src/config.rs:Config"]}
{"id": "C41", "title": "Pausing stops value movement without losing transfers", "statement": "While paused no transfer is accepted, nothing is paid out, no attestation is received and no transfer message is posted (only the informational broadcasts remain possible); queued transfers remain intact and are releasable after unpausing.", "quantifier": "every instruction sequence submitted while paused", "why_tests_cant": "must hold for every instruction and every interleaving", "anchors": ["solana/programs/example-native-token-transfers/src/config.rs:NotPausedConfig", "solana/programs/example-native-token-transfers/src/instructions/admin.rs:set_paused"]}
{"id": "C42", "title": "Transceiver ids are unique and dense", "statement": "Registered transceivers get ids 0,1,2,... in order of registration; no id is shared or reused, at most 128 can ever be registered, every registered transceiver stays enabled, and the enabled set is exactly the set of assigned ids.", "quantifier": "every history of registrations", "why_tests_cant": "u8/128-bit boundary behaviour over arbitrarily many registrations", "anchors": ["solana/programs/example-native-token-transfers/src/instructions/admin.rs:register_transceiver", "solana/programs/example-native-token-transfers/src/registered_transceiver.rs", "solana/programs/example-native-token-transfers/src/bitmap.rs"]}
{"id": "C43", "title": "Account addresses of different roles never coincide", "statement": "The seed byte strings from which the program derives its accounts (configuration, peers, limiters, inbox items, attestations, transceivers, session authorities, message accounts, ...) are pairwise different for different roles or different parameters, for every bump, so two logical records never share an address unless SHA-256 collides.", "quantifier": "every pair of roles and every parameter value", "why_tests_cant": "seeds are concatenated without separators; ambiguity is a property of all parameter values", "anchors": ["solana/programs/example-native-token-transfers/src/instructions", "solana/programs/example-native-token-transfers/src/peer.rs:SEED_PREFIX", "solana/programs/example-native-token-transfers/src/queue/inbox.rs:SEED_PREFIX", "solana/programs/example-native-token-transfers/src/registered_transceiver.rs:SEED_PREFIX", "solana/programs/example-native-token-transfers/src/lib.rs:SESSION_AUTHORITY_SEED"]}
{"id": "C44", "title": "Attestations are accepted only from the registered transceiver peer, once", "statement": "A received Wormhole message is recorded as an attestation only if its emitter is the transceiver peer registered for the emitter chain and it is addressed to this chain; at most one attestation is ever recorded per (source chain, message id), it records exactly the message's contents, and it never changes.", "quantifier": "every history, every VAA", "why_tests_cant": "adversarial VAAs and orderings", "anchors": ["solana/programs/example-native-token-transfers/src/transceivers/wormhole/instructions/receive_message.rs", "solana/programs/example-native-token-transfers/src/transceivers/wormhole/peer.rs"]}
{"id": "C45", "title": "Bridged supply is backed across all chains", "statement": "For a hub-and-spoke deployment over any number of chains with matching configuration, in every execution the value locked on the hub changes exactly as the value circulating on the spokes plus the value in flight, except that anybody may give tokens to the hub's custody account or destroy their own spoke tokens; so tokens that are backed once stay backed, and no execution creates unbacked tokens.", "quantifier": "any number of chains, any decimals, every interleaving of transfers, message deliveries, replays and delays", "why_tests_cant": "a global invariant of a distributed system", "anchors": ["solana/programs/example-native-token-transfers/src/instructions/transfer.rs", "solana/programs/example-native-token-transfers/src/instructions/redeem.rs", "solana/programs/example-native-token-transfers/src/instructions/release_inbound.rs", "solana/programs/example-native-token-transfers/src/transceivers/wormhole/instructions/release_outbound.rs"]}
{"id": "C46", "title": "Every payout matches a unique earlier debit", "statement": "Across all chains, each payout corresponds to one earlier debit on another chain with the same recipient and the same value, and two payouts never correspond to the same debit.", "quantifier": "every execution of any number of chains", "why_tests_cant": "injectivity of a correspondence over unbounded executions", "anchors": ["solana/programs/example-native-token-transfers/src/instructions/release_inbound.rs", "solana/programs/example-native-token-transfers/src/instructions/transfer.rs"]}
{"id": "C47", "title": "Relay fee is exact and bounded by the user's maximum", "statement": "A relay request charges exactly the larger of the rent minimum and the quoted fee computed from the registered prices (each division rounded down), less whatever part of the rent was already lying at the request account before; it never charges more than the maximum the user stated, and any arithmetic overflow refuses the request instead of charging a wrong amount.", "quantifier": "every price configuration, gas dropoff, gas cost and user maximum", "why_tests_cant": "64/128-bit arithmetic over all price combinations", "anchors": ["solana/programs/ntt-quoter/src/processor/request_relay.rs:request_relay", "solana/programs/ntt-quoter/src/processor/request_relay.rs:mul_div"]}
{"id": "C48", "title": "Relay fee is monotone", "statement": "Asking for more destination gas, or higher registered prices, never makes the quoted fee smaller; a higher SOL price never makes it larger.", "quantifier": "every pair of comparable configurations", "why_tests_cant": "relational property over pairs of inputs", "anchors": ["solana/programs/ntt-quoter/src/processor/request_relay.rs:request_relay"]}
{"id": "C49", "title": "Relay requests only for sent transfers, once each", "statement": "A relay request is created only for a transfer that was already emitted through the transceiver named in the registration and whose destination chain is registered and enabled; at most one is open per transfer, and closing it pays its entire balance to the configured fee recipient only.", "quantifier": "every history of quoter instructions", "why_tests_cant": "history property with adversarial accounts", "anchors": ["solana/programs/ntt-quoter/src/processor/request_relay.rs:RequestRelay", "solana/programs/ntt-quoter/src/processor/close_relay.rs"]}
{"id": "C50", "title": "Only the owner or assistant administers the quoter", "statement": "Prices, chain parameters and registrations change only by owner or assistant, the assistant and fee recipient only by the owner; once set the SOL price is never zero again, so quoting never divides by zero.", "quantifier": "every history, every signer", "why_tests_cant": "access control over all paths", "anchors": ["solana/programs/ntt-quoter/src/processor/admin.rs", "solana/programs/ntt-quoter/src/processor/update_prices.rs", "solana/programs/ntt-quoter/src/state.rs"]}
{"id": "C51", "title": "Governance messages execute at most once and only from the governance emitter", "statement": "A cross-chain governance instruction is executed only for a message emitted by the designated governance emitter on the designated chain and addressed to this program, and each such message (emitter chain, emitter, sequence) is executed at most once.", "quantifier": "every history of submitted VAAs", "why_tests_cant": "replay/authorisation over all histories", "anchors": ["solana/programs/wormhole-governance/src/instructions/governance.rs:Governance", "solana/programs/wormhole-governance/src/instructions/governance.rs:ReplayProtection"]}
{"id": "C52", "title": "Governance executes exactly the instruction voted on", "statement": "The executed instruction has exactly the program, data and account list (order, signer and writable flags) of the governance message, with only the two documented placeholder accounts replaced (owner by the governance authority, payer by the submitter).", "quantifier": "every governance message", "why_tests_cant": "account lists of arbitrary length and content", "anchors": ["solana/programs/wormhole-governance/src/instructions/governance.rs:governance", "solana/programs/wormhole-governance/src/instructions/governance.rs:GovernanceMessage"]}
{"id": "C53", "title": "Governance messages survive encode/decode", "statement": "Encoding a governance message and parsing it gives the original for every account list and data; messages with more than 65535 accounts or data bytes are refused rather than truncated.", "quantifier": "every governance message, every size", "why_tests_cant": "unbounded lists and 16-bit length boundaries", "anchors": ["solana/programs/wormhole-governance/src/instructions/governance.rs:GovernanceMessage"]}
{"id": "C54", "title": "The standalone transceiver is equivalent to the built-in one", "statement": "Emitting a transfer through the standalone transceiver program produces the same message bytes and the same bookkeeping as the built-in transceiver would, and fails in the same circumstances (paused, disabled, already sent, not yet due is a no-op or error as requested).", "quantifier": "every manager state and every outbound transfer", "why_tests_cant": "equivalence of two implementations over all states", "anchors": ["solana/programs/ntt-transceiver/src/wormhole/instructions/release_outbound.rs", "solana/programs/example-native-token-transfers/src/transceivers/wormhole/instructions/release_outbound.rs"]}
{"id": "C55", "title": "Re-registering a peer cannot bypass the inbound limit", "statement": "Updating the peer of a chain keeps the inbound capacity already used, so routine peer maintenance never lets more than the configured inbound limit through in a day.", "quantifier": "every reachable state and every peer update by the owner", "why_tests_cant": "interaction of an administrative instruction with the limiter over all histories", "anchors": ["solana/programs/example-native-token-transfers/src/instructions/admin.rs:set_peer", "solana/programs/example-native-token-transfers/src/queue/rate_limit.rs"]}
{"id": "C56", "title": "Messages on the wire have exactly the documented layout", "statement": "The bytes produced for a transfer, a manager message, a transceiver message, a transceiver-info announcement and a peer-registration announcement are byte for byte the concatenation of fields documented in docs/ (big-endian integers, 32-byte addresses, 16-bit length prefixes holding the true length of what follows), so any other implementation of the documentation can read them.", "quantifier": "every message of every type, every additional payload type that obeys the codec contract", "why_tests_cant": "layout equality over all field values, including length prefixes near the 16-bit boundary", "anchors": ["docs/NttManager.md", "docs/Transceiver.md", "solana/modules/ntt-messages/src/ntt.rs", "solana/modules/ntt-messages/src/ntt_manager.rs", "solana/modules/ntt-messages/src/transceiver.rs", "solana/modules/ntt-messages/src/transceivers/wormhole.rs"]}
{"id": "C57", "title": "Transactions are all-or-nothing and single instructions suffice", "statement": "A transaction of several instructions has the effects of all of them in order or none at all, and every history of such transactions has the same outcome and visible effects as a history of single instructions; so bundling instructions gives an attacker nothing.", "quantifier": "every history of transactions of any number of instructions", "why_tests_cant": "unbounded lists of lists of instructions with failures anywhere", "anchors": ["solana/programs/example-native-token-transfers/src/lib.rs", "solana/programs/example-native-token-transfers/src/instructions/"]}
{"id": "C58", "title": "Throughput in any time window is bounded by the limits", "statement": "In any stretch of a history between times t1 and t2 in which the owner does not change the limit, what is sent at once is at most limit + limit/day*(t2-t1) plus what is approved for payout at once meanwhile; what is approved for payout at once from a chain is at most limit + limit/day*(t2-t1) of that chain plus what is sent to it at once meanwhile.", "quantifier": "every history, every window in it, every number of transfers", "why_tests_cant": "a bound over unboundedly many interleaved transfers, refills and backflows", "anchors": ["solana/programs/example-native-token-transfers/src/queue/rate_limit.rs", "solana/programs/example-native-token-transfers/src/instructions/transfer.rs", "solana/programs/example-native-token-transfers/src/instructions/redeem.rs"]}
{"id": "C59", "title": "Administrative instructions do exactly what they say", "statement": "Every instruction of the owner changes exactly the settings it names to exactly the values asked for (a limit change keeps what is used up), touches no other setting, balance, transfer, received message or limiter, and no other instruction changes any setting.", "quantifier": "every state, every instruction and argument", "why_tests_cant": "frame conditions over all states and instructions", "anchors": ["solana/programs/example-native-token-transfers/src/instructions/admin.rs", "solana/programs/example-native-token-transfers/src/transceivers/wormhole/instructions/admin.rs"]}
{"id": "C60", "title": "Everything published is a transfer or a truthful announcement", "statement": "Every message the program publishes is a transfer message, or the documented announcement of this program's address, mode, token and decimals, or the documented announcement of a registered transceiver peer for its chain. Announcing is possible for anybody at any time and changes nothing.", "quantifier": "every history, every message published in it", "why_tests_cant": "all publications over unbounded histories", "anchors": ["solana/programs/example-native-token-transfers/src/transceivers/wormhole/instructions/broadcast_id.rs", "solana/programs/example-native-token-transfers/src/transceivers/wormhole/instructions/broadcast_peer.rs"]}
{"id": "C61", "title": "Changing a limit lets at most one further limit through", "statement": "In any stretch of a history in which the owner sets the outbound limit k times, never above L, what is sent at once is at most L*(1+k) + L/day*(t2-t1) plus what is approved for payout at once meanwhile; likewise for the inbound limit of a chain, counting both limit changes and re-registrations of its peer.", "quantifier": "every history, every window in it, every number of limit changes and transfers", "why_tests_cant": "a bound over unboundedly many interleaved transfers and administrative instructions", "anchors": ["solana/programs/example-native-token-transfers/src/queue/rate_limit.rs:set_limit", "solana/programs/example-native-token-transfers/src/instructions/admin.rs:set_peer"]}
{"id": "C62", "title": "Transfers and approvals move exactly their amount through the limiters", "statement": "A transfer that may be sent at once takes exactly its amount from the outbound limit and gives it back to the inbound limit of its destination (up to that limit); a message approved for payout at once takes exactly its amount from the inbound limit of its source chain and gives it back to the outbound limit. Delayed transfers and messages touch no limiter, limiters of other chains are never touched, and apart from initialisation and the owner's instructions nothing else touches any limiter.", "quantifier": "every state, instruction and argument", "why_tests_cant": "exact effects and frame conditions over all states", "anchors": ["solana/programs/example-native-token-transfers/src/instructions/transfer.rs", "solana/programs/example-native-token-transfers/src/instructions/redeem.rs", "solana/programs/example-native-token-transfers/src/queue/rate_limit.rs"]}
{"id": "C63", "title": "The parser accepts exactly the documented encodings up to two ignored length fields", "statement": "A byte string is accepted as a transfer message exactly if it is the documented encoding of that message with arbitrary values in the two inner length fields, followed by the bytes left unread; two byte strings accepted in full denote the same message exactly if they agree outside those four bytes.", "quantifier": "all byte strings", "why_tests_cant": "a characterisation of acceptance over all byte strings of all lengths", "anchors": ["solana/modules/ntt-messages/src/ntt.rs", "solana/modules/ntt-messages/src/ntt_manager.rs", "solana/modules/ntt-messages/src/transceiver.rs", "docs/Transceiver.md"]}
{"id": "C64", "title": "Rate limiting aborts only at the end of time", "statement": "A sequence of operations on a limiter aborts exactly if the leaky bucket delays an operation so that its release time is not a representable timestamp.", "quantifier": "every limit, every sequence of consumptions, refills and limit changes at non-decreasing times", "why_tests_cant": "an exact characterisation of panics over unbounded histories", "anchors": ["solana/programs/example-native-token-transfers/src/queue/rate_limit.rs"]}
{"id": "C65", "title": "Account contents survive storage", "statement": "Every account of the manager, the quoter and the governance program has the size it was created with in every state, whatever is stored in it is read back unchanged whatever was stored there before, what is read and stored again leaves every byte as it was, and an account of one type is refused where another is expected. A new inbox item reads as not initialised. All times the program ever records fit their fields.", "quantifier": "all contents of all account types, all previous buffer contents, every reachable state", "why_tests_cant": "round trips over all field values including optional fields of varying length", "anchors": ["solana/programs/example-native-token-transfers/src/config.rs", "solana/programs/example-native-token-transfers/src/queue/inbox.rs", "solana/programs/example-native-token-transfers/src/queue/outbox.rs", "solana/programs/example-native-token-transfers/src/queue/rate_limit.rs", "solana/programs/example-native-token-transfers/src/peer.rs", "solana/programs/example-native-token-transfers/src/registered_transceiver.rs", "solana/programs/ntt-quoter/src/state.rs"]}
{"id": "C66", "title": "Administering the quoter does exactly what is asked", "statement": "Every administrative instruction of the quoter changes exactly the settings it names to the values asked for and touches no relay request and no lamports; owner and assistant can always use them; and a fee is only ever computed from values that have been set explicitly, so a newly registered chain cannot be relayed to before its base price has been set.", "quantifier": "every state, instruction, argument and history", "why_tests_cant": "frame conditions over all states; provenance of settings over unbounded histories", "anchors": ["solana/programs/ntt-quoter/src/processor/admin.rs", "solana/programs/ntt-quoter/src/processor/update_prices.rs", "solana/programs/ntt-quoter/src/processor/request_relay.rs"]}
{"id": "C67", "title": "The accounts a caller passes cannot change what an instruction does", "statement": "Whatever accounts callers pass to instructions (accounts of other programs with copied contents, zero-filled accounts owned by the program, accounts of another type, chain or transfer, the same account twice), every transaction that succeeds has exactly the effect described in terms of the one configuration, the peer and limiter of the named chain, the transfer with the given digest, the registration of the named transceiver and so on; everything else fails. In particular the account recording one inbound transfer pays out at most once.", "quantifier": "every history of transactions with arbitrary accounts, every behaviour of other programs towards their own accounts", "why_tests_cant": "an attacker chooses all accounts of all calls; a simulation over unbounded histories", "anchors": ["solana/programs/example-native-token-transfers/src/instructions/*.rs", "solana/programs/example-native-token-transfers/src/transceivers/wormhole/instructions/*.rs"]}
{"id": "C68", "title": "Accounts of the program are where they belong", "statement": "At any time, anything the program accepts as one of its accounts (except outbox items) is at the address derived, with the canonical bump, from what the account is about: the chain, digest, program or message id; and nothing is ever accepted as two different types.", "quantifier": "every history of transactions with arbitrary accounts", "why_tests_cant": "an invariant over unbounded histories and all addresses", "anchors": ["solana/programs/example-native-token-transfers/src/instructions/admin.rs", "solana/programs/example-native-token-transfers/src/instructions/redeem.rs", "solana/programs/example-native-token-transfers/src/instructions/initialize.rs", "solana/programs/example-native-token-transfers/src/transceivers/wormhole/instructions/receive_message.rs"]}
{"id": "C69", "title": "The main safety guarantees hold for the bytes on the ledger", "statement": "Whatever accounts callers pass: in locking mode, the custody account named in the configuration holds at least what transfers debited minus what was paid out; every payout for an inbox item account was preceded by successful redemptions naming that very account with attestations owned by at least threshold different registered and enabled programs, goes to the associated account of the recipient named in such an attestation, for its amount; tokens leave a user's account through this program only in a transfer whose owner, amount and arguments the user delegated; and no account holding settings changes except by an instruction signed by the owner named in the configuration.", "quantifier": "every history of transactions with arbitrary accounts, every behaviour of other programs", "why_tests_cant": "combines the substitution argument with the accounting invariants over unbounded histories; the accounts are chosen by an attacker", "anchors": ["solana/programs/example-native-token-transfers/src/instructions/transfer.rs", "solana/programs/example-native-token-transfers/src/instructions/redeem.rs", "solana/programs/example-native-token-transfers/src/instructions/release_inbound.rs", "solana/programs/example-native-token-transfers/src/instructions/admin.rs"]}
{"id": "C70", "title": "Nobody can get in the way of the program's accounts", "statement": "Whatever accounts others create, fund, fill with bytes or pass to the program: at the address of every account the program keeps there is always either nothing at all or an account of the right type and size; every instruction that the state allows can be called successfully, with suitable accounts, having exactly that effect; and an approved inbound transfer can be paid by anybody from its release time on.", "quantifier": "every history of transactions with arbitrary accounts, every behaviour of other programs, every instruction", "why_tests_cant": "absence of a blocking sequence of account creations is a claim about all histories and account choices", "anchors": ["solana/programs/example-native-token-transfers/src/instructions/transfer.rs", "solana/programs/example-native-token-transfers/src/instructions/redeem.rs", "solana/programs/example-native-token-transfers/src/instructions/release_inbound.rs", "solana/programs/example-native-token-transfers/src/instructions/admin.rs", "solana/programs/example-native-token-transfers/src/instructions/initialize.rs"]}
{"id": "C71", "title": "Instruction data have exactly one meaning", "statement": "The data of an instruction are the first eight bytes of SHA-256 of 'global:' and the function name followed by its arguments in Borsh encoding. Data beginning with the bytes of a request are understood as that request; data that do not begin with the bytes of any request are refused and change nothing; no data can be read as two different requests. Likewise the discriminators computed from the names of the account types differ from each other, from zero and from that of IDL accounts.", "quantifier": "all byte strings, all account lists, all states", "why_tests_cant": "all byte strings; injectivity of the encoding of all requests", "anchors": ["solana/programs/example-native-token-transfers/src/lib.rs:68-189", "solana/programs/example-native-token-transfers/src/instructions/initialize.rs:91-96", "solana/programs/example-native-token-transfers/src/instructions/transfer.rs:85-91", "solana/programs/example-native-token-transfers/src/instructions/admin.rs"]}
{"id": "C72", "title": "Calls are exactly as good as their account lists", "statement": "Whatever bytes and account list the manager is called with: if the call succeeds, the list begins with the accounts of the instruction in the documented order, every account that has to sign is flagged as signer, every account that is written is flagged writable, programs are the right ones, and the effect is that of the instruction on those accounts. Conversely an instruction that the state allows succeeds with exactly these accounts and flags, no matter what follows. Nothing changes in any account that was not passed as writable.", "quantifier": "all byte strings, all account lists, all states", "why_tests_cant": "quantifies over all calls; a missing writable or signer flag shows only in particular states", "anchors": ["solana/programs/example-native-token-transfers/src/lib.rs:68-189", "solana/programs/example-native-token-transfers/src/instructions/*.rs", "solana/programs/example-native-token-transfers/src/transceivers/wormhole/accounts.rs", "solana/programs/example-native-token-transfers/src/transceivers/wormhole/instructions/*.rs"]}
{"id": "C73", "title": "No other program can act for the manager or for anybody else", "statement": "Transactions are trees of calls of the manager, governance, the programs of the chain and arbitrary other programs, which may create, write, close and hand over accounts of their own, sign for addresses derived from their own id, and call anything. Whatever they do: the effect is that of a sequence of single actions, none of them signed by an address of the manager; who signs for an action has signed the transaction or is an address some other program derived; the guarantees about custody, single payouts, attested payouts and unobstructed accounts hold; a transaction that no administrator takes part in leaves the whole administration (settings, owner, nominee, upgrade authority) unchanged; and a transaction that neither owner nor delegate of a token account takes part in takes nothing from it, except through the manager in a transfer of exactly the arguments delegated for.", "quantifier": "every history of transactions, every tree of calls, every behaviour of other programs", "why_tests_cant": "quantifies over arbitrary other programs and unbounded call trees; forging a signature is a property of all of them", "anchors": ["solana/programs/example-native-token-transfers/src/lib.rs:68-189", "solana/programs/example-native-token-transfers/src/instructions/*.rs", "/repo/solana/programs/wormhole-governance/src/instructions/governance.rs"]}
{"id": "C74", "title": "A manager owned by governance changes only by vote", "statement": "If only the governance authority (and addresses of the manager itself) has a say in the administration, then every transaction that changes any setting, the owner, the nominee or the upgrade authority executes a governance message carrying the authority's signature; if the message is for the manager or the loader, the first change is exactly the instruction in the message: its bytes and its accounts. Every message executed was posted on Wormhole by the governance emitter on Solana, is addressed to the governance program, and what is called is exactly its content with the two placeholders filled in. No message is executed twice, even if programs in between call governance again.", "quantifier": "every history of transactions, every tree of calls, every behaviour of other programs, every message", "why_tests_cant": "combines two programs, the runtime's signature rules and an unbounded history", "anchors": ["/repo/solana/programs/wormhole-governance/src/instructions/governance.rs", "/repo/solana/programs/wormhole-governance/src/instructions/governance.rs:60-130", "solana/programs/example-native-token-transfers/src/instructions/admin.rs"]}
{"id": "C75", "title": "Across chains, every payout is matched by exactly one debit, whatever else the transactions contain", "statement": "Several deployments on different chains are registered with each other as agreed. On every chain anybody submits whole transactions containing calls of the manager by and next to arbitrary other programs. Then every payout is for a transfer that an earlier transaction made on another participating chain: the same value, for this chain, for the wallet whose associated token account is paid. No two payouts are for the same transfer, and no inbox item is paid for twice.", "quantifier": "any number of chains, every interleaved history of transactions on them, every tree of calls, every behaviour of other programs", "why_tests_cant": "quantifies over interleaved unbounded histories of several ledgers with arbitrary programs", "anchors": ["solana/programs/example-native-token-transfers/src/instructions/transfer.rs", "solana/programs/example-native-token-transfers/src/instructions/redeem.rs", "solana/programs/example-native-token-transfers/src/instructions/release_inbound.rs", "solana/programs/example-native-token-transfers/src/transceivers/wormhole/instructions/receive_message.rs", "solana/programs/example-native-token-transfers/src/transceivers/wormhole/instructions/release_outbound.rs"]}
{"id": "C76", "title": "Bridged tokens are backed, whatever else the transactions contain", "statement": "With one locking hub and any number of burning spokes registered with each other as agreed, no tokens on the spokes at first: after any history of whole transactions on these chains, the tokens in existence on all spokes are together worth no more than what the custody account named in the hub's configuration holds.", "quantifier": "any number of spokes, every interleaved history of transactions, every tree of calls, every behaviour of other programs", "why_tests_cant": "a global invariant of several ledgers over unbounded histories with arbitrary programs", "anchors": ["solana/programs/example-native-token-transfers/src/instructions/transfer.rs", "solana/programs/example-native-token-transfers/src/instructions/release_inbound.rs", "solana/programs/example-native-token-transfers/src/instructions/redeem.rs", "solana/programs/example-native-token-transfers/src/transceivers/wormhole/instructions/receive_message.rs"]}
{"id": "C77", "title": "Whatever may be done can be done with one transaction", "statement": "After any history of whole transactions: every instruction that the state allows for a set of wallets succeeds as the only instruction of a transaction which they sign, with the documented bytes and accounts, and has exactly that effect. In particular, once an inbound transfer is approved with a release time and the manager is not paused, then whatever transactions follow in which neither owner nor nominee takes part, from the release time on any wallet can have it paid to the recipient's associated token account with one transaction of its own, unless that has already happened.", "quantifier": "every history of transactions, every tree of calls, every behaviour of other programs, every instruction, every wallet", "why_tests_cant": "absence of a blocking sequence of transactions is a claim about all histories and all other programs", "anchors": ["solana/programs/example-native-token-transfers/src/lib.rs:68-189", "solana/programs/example-native-token-transfers/src/instructions/*.rs", "solana/programs/example-native-token-transfers/src/instructions/release_inbound.rs"]}
{"id": "C78", "title": "A transfer that was sent arrives", "statement": "Several deployments are registered with each other as agreed. Once a transfer has been made on one chain and its message published, and the destination is set up, not paused and accepts transfers from that chain: if anybody submits on the destination the attested message, a redeem request and, a day after it, a payout request, then the recipient's associated token account is paid the full value, no matter which other transactions anybody submitted before and in between on any of the chains, provided the administrators of the destination do not intervene, the value can be expressed with the destination's decimals, and the token program is able to make the payment. With a locking hub and burning spokes, custody on the hub always holds enough for any transfer on its way to the hub.", "quantifier": "any number of chains, every interleaved history of transactions, every transfer", "why_tests_cant": "absence of a sequence of transactions that blocks, delays or diverts a transfer is a claim about all interleaved histories of several chains", "anchors": ["solana/programs/example-native-token-transfers/src/instructions/transfer.rs", "solana/programs/example-native-token-transfers/src/transceivers/wormhole/instructions/release_outbound.rs", "solana/programs/example-native-token-transfers/src/transceivers/wormhole/instructions/receive_message.rs", "solana/programs/example-native-token-transfers/src/instructions/redeem.rs", "solana/programs/example-native-token-transfers/src/instructions/release_inbound.rs", "solana/programs/example-native-token-transfers/src/queue/inbox.rs"]}
{"id": "C79", "title": "The client library and the program mean the same thing", "statement": "Every address the client library derives is that of the account with this role on chain. For every order it offers (initialise, lookup table, transfers, redeem, payouts, administration, transceiver and broadcasts) it builds exactly the instruction the program documents: selector, argument bytes, and every account with its flags at the place where the program looks for it; numbers that do not fit are refused instead of cut off. After any history of whole transactions, if the state allows what the order means, then the transaction of just the instruction the client builds, signed by those named in the order, does exactly that. Two exceptions: for messages with an additional payload the client computes another inbox item than the program, and the instruction to transfer the ownership is never built.", "quantifier": "every order with every argument, every history of transactions, every ledger and configuration", "why_tests_cant": "agreement between two programs in different languages over all inputs, and effect of every client instruction on every reachable ledger", "anchors": ["/repo/solana/ts/lib/ntt.ts", "/repo/solana/ts/lib/utils.ts", "/repo/solana/ts/idl/3_0_0/json/example_native_token_transfers.json", "solana/programs/example-native-token-transfers/src/lib.rs:68-189", "solana/programs/example-native-token-transfers/src/instructions/*.rs"]}
{"id": "C80", "title": "The lookup table lists the deployment and stays usable", "statement": "Anybody may have the program create or extend its address lookup table, and anybody may use the lookup table program directly. Even so, a table under the program's authority only ever holds repetitions of one fixed listing: the program, its configuration, custody, token program, mint, token authority and outbound limiter as configured, and the core bridge's accounts. The table the program's note points to exists, is in use and lists them all. No table of the program is ever deactivated, closed or handed over, and an address in it keeps its place. After any history, anybody who pays can have the table of a recent slot made, even if somebody else created it first, unless it is already full.", "quantifier": "every history of transactions by anybody, with any accounts, interleaved with any direct use of the lookup table program", "why_tests_cant": "what a table holds after all interleavings with strangers who also use the lookup table program cannot be enumerated", "anchors": ["solana/programs/example-native-token-transfers/src/instructions/luts.rs:1-178", "solana/programs/example-native-token-transfers/src/transceivers/wormhole/accounts.rs:17-41"]}
{"id": "C81", "title": "The quoter does what was asked with whatever accounts and bytes are passed to it", "statement": "Anybody may call the quoter with any list of accounts, any flags and any bytes, and other programs may write anything into their own accounts and pay lamports around. Bytes ask for an operation exactly if they start with its documented selector and arguments. A call that succeeds has the effect of the operation it asks for on the accounts stored at the quoter's own derived addresses. So: a relay request charges at most what the user allowed and exactly the larger of rent and the quote from the stored prices, for a transfer of a registered manager whose message was really sent; lamports leave an open request only when the owner or the assistant closes it, and then all go to the configured fee recipient; prices and registrations change only with the owner's or assistant's signature, assistant and fee recipient only with the owner's, and the owner never.", "quantifier": "every history of calls with any accounts, flags and bytes, every content of other programs' accounts", "why_tests_cant": "account substitution attacks range over all accounts and bytes and all histories", "anchors": ["solana/programs/ntt-quoter/src/lib.rs:22-74", "solana/programs/ntt-quoter/src/state.rs", "solana/programs/ntt-quoter/src/processor/request_relay.rs", "solana/programs/ntt-quoter/src/processor/close_relay.rs", "solana/programs/ntt-quoter/src/processor/admin.rs", "solana/programs/ntt-quoter/src/processor/update_prices.rs"]}
{"id": "C82", "title": "Whatever the quoter allows can be called", "statement": "After any history in which anybody called the quoter with any accounts and bytes and wrote to their own accounts: every operation that the quoter's rules allow for a set of signers succeeds when called with the documented accounts and bytes, signed by nobody else, and has exactly that effect. Nobody can occupy an address that a future relay request, registration or the configuration needs.", "quantifier": "every history of calls with any accounts, flags and bytes, every operation, every set of signers", "why_tests_cant": "absence of a sequence of calls that blocks an operation is a claim about all histories", "anchors": ["solana/programs/ntt-quoter/src/lib.rs:22-74", "solana/programs/ntt-quoter/src/state.rs", "solana/programs/ntt-quoter/src/processor/request_relay.rs", "solana/programs/ntt-quoter/src/processor/close_relay.rs", "solana/programs/ntt-quoter/src/processor/admin.rs", "solana/programs/ntt-quoter/src/processor/update_prices.rs"]}
{"id": "C83", "title": "The standalone transceiver does what was asked with whatever accounts and bytes are passed to it", "statement": "In a deployment where the transceiver is a program of its own, anybody may call it with any list of accounts, any flags and any bytes, call the manager with any accounts, and write anything into accounts of other programs. Every call that succeeds has the effect of the operation it asks for on the accounts stored at the addresses derived from the two programs' ids. Everything the manager will count as an attestation of this transceiver was received by it from a message published on the chain named by the address that the owner registered for that chain, and has the contents of that message. The deployment behaves like one with the manager's built-in transceiver: same transfers, same payouts, same published messages; in particular an inbound transfer is paid at most once.", "quantifier": "every history of calls with any accounts, flags and bytes, every content of other programs' accounts", "why_tests_cant": "account substitution attacks range over all accounts and bytes and all histories", "anchors": ["solana/programs/ntt-transceiver/src/lib.rs:12-49", "solana/programs/ntt-transceiver/src/wormhole/instructions/receive_message.rs:17-76", "solana/programs/ntt-transceiver/src/wormhole/instructions/release_outbound.rs:17-141", "solana/programs/ntt-transceiver/src/wormhole/instructions/admin.rs:6-47", "solana/programs/example-native-token-transfers/src/instructions/mark_outbox_item_as_released.rs:9-60"]}
{"id": "C84", "title": "The bytes and accounts the standalone transceiver is called with mean one thing", "statement": "Data ask the standalone transceiver for an operation exactly if they begin with its documented selector and arguments, and never for two. A call that succeeds passed the operation's accounts in the documented order with at least the documented flags, and every operation that is allowed succeeds when called that way, whatever accounts and bytes follow. A call changes only accounts passed as writable and never touches token balances, mints or the upgrade authority.", "quantifier": "all byte strings, all account lists and flags, all states", "why_tests_cant": "all byte strings and account lists cannot be enumerated", "anchors": ["solana/programs/ntt-transceiver/src/lib.rs:12-49", "solana/programs/ntt-transceiver/src/wormhole/instructions/release_outbound.rs:17-64", "solana/programs/ntt-transceiver/src/wormhole/instructions/receive_message.rs:17-63", "solana/programs/ntt-transceiver/src/wormhole/instructions/admin.rs:8-29", "solana/programs/ntt-transceiver/src/wormhole/instructions/broadcast_id.rs:7-31", "solana/programs/ntt-transceiver/src/wormhole/instructions/broadcast_peer.rs:6-32"]}
{"id": "C85", "title": "Nobody can get in the way of the standalone transceiver", "statement": "In a deployment where the transceiver is a program of its own, after any history in which anybody called both programs with any accounts and bytes and wrote to their own accounts: at the address of every account that either program keeps there is nothing, or an account of the right type and size. Every operation of either program that its rules allow succeeds when called with the documented accounts and bytes, signed by nobody else, and has exactly that effect. In particular, while the manager is not paused, a message attested by the guardians and published by the registered peer for this chain can be received by anybody unless it already was, and a transfer whose time has come can be sent by anybody through the registered, enabled transceiver unless it already was; what is published says what was asked for.", "quantifier": "every history of calls with any accounts, flags and bytes, every operation, every set of signers", "why_tests_cant": "absence of a sequence of calls that blocks an operation is a claim about all histories", "anchors": ["solana/programs/ntt-transceiver/src/lib.rs:12-49", "solana/programs/ntt-transceiver/src/wormhole/instructions/receive_message.rs:17-76", "solana/programs/ntt-transceiver/src/wormhole/instructions/release_outbound.rs:17-141", "solana/programs/ntt-transceiver/src/wormhole/instructions/admin.rs:6-47", "solana/programs/example-native-token-transfers/src/instructions/mark_outbox_item_as_released.rs:9-60"]}
{"id": "C86", "title": "The Solana programs and the EVM contracts speak the same language", "statement": "For every plain transfer message the encoding functions of the EVM contracts produce, byte for byte, what the Solana programs produce, and both sides hash the same bytes for the message's digest. Every message that the Solana programs write is accepted by the EVM contracts and read as the same message, whatever lies in memory behind the byte array (the EVM parsers read without bounds checks and compare lengths at the end); every plain transfer that the EVM contracts write is read by the Solana programs, to the last byte, as the same message. The byte strings that the EVM contracts accept as plain transfers are exactly those the Solana programs write; in general each EVM parser accepts exactly the documented encodings. The announcements of a transceiver and of a peer are the same bytes and are read back the same. A transfer to which an EVM deployment adds a payload of its own is read on Solana as the plain transfer, its payload taken for the transceiver's, and with a digest that is not the source chain's.", "quantifier": "all messages, all byte strings, all contents of memory", "why_tests_cant": "agreement of two independent codecs on all inputs, with memory contents as a further input, cannot be sampled", "anchors": ["evm/src/libraries/TransceiverStructs.sol:58-307", "evm/src/libraries/TransceiverStructs.sol:409-465", "solana/modules/ntt-messages/src/ntt.rs:26-113", "solana/modules/ntt-messages/src/ntt_manager.rs:20-85", "solana/modules/ntt-messages/src/transceiver.rs:64-214", "solana/modules/ntt-messages/src/transceivers/wormhole.rs:15-160"]}
{"id": "C87", "title": "Value crosses between the Solana programs and the EVM contracts unchanged", "statement": "The EVM contracts trim an amount to the same amount and decimals as the Solana programs. An EVM transfer is sent exactly if amount and recipient are not zero, the peer's decimals are recorded, no digit would be lost and the amount with at most 8 decimals fits 64 bits; the message then names the sender, token, recipient and chain of the transfer, is worth what was sent, and what Solana releases for it is worth exactly what was sent, unless no 64-bit amount is. A transfer that the Solana program debits and announces pays on the EVM chain exactly the value debited if the recipient is an EVM address and the amount with at most 8 decimals fits 64 bits; otherwise the EVM contracts refuse it whenever it is delivered, although the Solana program accepted it.", "quantifier": "all amounts, decimals, addresses, sequence numbers and contents of memory", "why_tests_cant": "overflow and rounding corner cases lie at boundaries that depend on both chains' decimals", "anchors": ["evm/src/libraries/TrimmedAmount.sol:14-206", "evm/src/NttManager/NttManager.sol:228-260", "evm/src/NttManager/NttManager.sol:386-467", "evm/src/NttManager/NttManager.sol:521-641", "evm/src/NttManager/NttManager.sol:663-685", "evm/src/Transceiver/WormholeTransceiver/WormholeTransceiver.sol:63-82", "evm/src/Transceiver/WormholeTransceiver/WormholeTransceiver.sol:178-196", "solana/modules/ntt-messages/src/trimmed_amount.rs:45-115"]}
{"id": "C88", "title": "The example transfer hook counts every transfer of its mint once", "statement": "The example hook can be initialised once, for one mint; this writes a fixed list of accounts and a counter of zero. Other than that a call succeeds exactly if it is a hook call (or the direct call) with a token account, its mint, another token account of the mint, any fourth account, the mint's list, the address derived from the owner of the first account, and the counter, writable; it then adds one to the counter and changes nothing else. So at any time, whatever anybody called and whatever other programs did, the counter is the number of successful calls since initialisation. When a transfer of the mint is made by the manager with the accounts that the client library adds, the hook is called with exactly these accounts, accepts, and counts it; with whatever other accounts somebody calls the manager, the hook gets exactly these accounts or the transfer fails.", "quantifier": "all histories of calls with any accounts, flags and bytes, all transfers, all contents of other programs' accounts", "why_tests_cant": "all account lists and all histories cannot be enumerated", "anchors": ["solana/programs/dummy-transfer-hook/src/lib.rs:1-171", "solana/programs/example-native-token-transfers/src/instructions/transfer.rs:194-208", "solana/programs/example-native-token-transfers/src/instructions/transfer.rs:319-333", "solana/programs/example-native-token-transfers/src/instructions/release_inbound.rs:127-141", "solana/programs/example-native-token-transfers/src/instructions/release_inbound.rs:177-191", "solana/ts/lib/ntt.ts:424-447", "solana/ts/lib/ntt.ts:928-1020"]}
{"id": "C89", "title": "A transfer hook gets the accounts its list asks for", "statement": "Whatever accounts the caller of the manager passes behind the documented ones, the transfer hook of the mint is called with exactly the accounts that its list asks for and with the amount that is transferred; only if the caller left out the account with the list it is called with source, mint, destination and authority alone. The accounts that the client library adds always suffice for the hook to be called, if the list does not use the amount and the list and what it refers to have not changed since. A list that uses the amount is not supported by the client library, which resolves it for the amount zero: there is such a list for which its instruction fails though another would not.", "quantifier": "all hooks, lists, ledgers, transfers and account lists", "why_tests_cant": "lists are small programs over the contents of accounts: all of them cannot be tested", "anchors": ["solana/programs/example-native-token-transfers/src/instructions/transfer.rs:194-208", "solana/programs/example-native-token-transfers/src/instructions/transfer.rs:319-333", "solana/programs/example-native-token-transfers/src/instructions/release_inbound.rs:127-141", "solana/programs/example-native-token-transfers/src/instructions/release_inbound.rs:177-191", "solana/ts/lib/ntt.ts:424-447", "solana/ts/lib/ntt.ts:928-1020"]}
{"id": "C90", "title": "What governance has voted for can be carried out, by anybody and exactly", "statement": "As long as a message of governance has not been executed, nobody can put anything at the address of its replay marker, whatever whole transactions are submitted (arbitrary trees of calls of arbitrary programs). Once it is posted, any wallet can have it executed with one transaction signed by it alone, if what it asks for is an instruction of the manager that would succeed with the signatures of the governance authority and of that wallet; the effect is then exactly the effect of that instruction, plus the marker. Every instruction of the manager which the authority may have executed (other than receiving a message) can be put into such a message. The governance program accepts exactly the instructions with its selector, the documented accounts in order, the submitter's signature, the flags, and all accounts of the call.", "quantifier": "all histories of whole transactions, all ledgers, messages, submitters, instructions and account lists", "why_tests_cant": "an attacker's transactions and programs cannot be enumerated", "anchors": ["solana/programs/wormhole-governance/src/instructions/governance.rs:28-78", "solana/programs/wormhole-governance/src/instructions/governance.rs:455-494", "solana/programs/wormhole-governance/src/lib.rs:10-17"]}
{"id": "C91", "title": "An EVM deployment pays for a message at most once, and only what enough transceivers have attested to", "statement": "In every history of transactions by anybody, starting from a new deployment of the EVM contracts (manager with its rate limiter and transceiver registry, any number of Wormhole transceivers, token): each message (identified by its digest) is paid for at most once. Every payment is for a message that asks for exactly it: recipient and chain are those in the message, and the amount is the message's amount, with at most eight decimals and rounded down, in the token's units. By the end of the transaction at least `threshold` (and at least one) of the enabled transceivers have attested to the message, or they had when an earlier transaction put it in the queue, at least the queue's delay ago. What the contract answers when asked whether a message is approved is whether that many enabled transceivers have attested. A Wormhole transceiver attests to a message only if the transceiver registered as its peer on the source chain published it, for this manager and on behalf of the manager registered as its peer, and only while enabled; what was delivered to it once cannot be delivered again.", "quantifier": "all histories of transactions by all callers with all arguments, all tokens with any fees, all configurations", "why_tests_cant": "all interleavings of deliveries, attestations, changes of the registry and of the threshold cannot be sampled", "anchors": ["evm/src/NttManager/NttManager.sol:185-322", "evm/src/NttManager/NttManager.sol:613-661", "evm/src/NttManager/ManagerBase.sol:135-175", "evm/src/NttManager/ManagerBase.sol:288-320", "evm/src/NttManager/ManagerBase.sol:418-460", "evm/src/libraries/RateLimiter.sol:236-335", "evm/src/Transceiver/Transceiver.sol:145-157", "evm/src/Transceiver/WormholeTransceiver/WormholeTransceiver.sol:63-126", "evm/src/Transceiver/WormholeTransceiver/WormholeTransceiver.sol:249-284"]}
{"id": "C92", "title": "The registry of transceivers of an EVM deployment is consistent, and the threshold stays in range", "statement": "In every state that a history of transactions by anybody can lead to: no transceiver is listed twice, only registered ones are enabled, there are at most 64, the counters are the lengths of the lists, each transceiver keeps the index at which it was registered, and the bitmap tells which are enabled. Once there is a transceiver, the threshold is at least one and at most the number of enabled ones. Adding works exactly if the owner asks, it is not the zero address, not enabled, and there is room; removing exactly if the owner asks, it is enabled and not the only one; the threshold is lowered if needed. The threshold can be set by the owner to any value in range. None of the contract's assertions about the registry ever fails.", "quantifier": "all histories, all callers, all addresses", "why_tests_cant": "the assertions are checked by the contract at run time; that they never fail needs an invariant over all histories", "anchors": ["evm/src/NttManager/TransceiverRegistry.sol:28-319", "evm/src/NttManager/ManagerBase.sol:353-414", "evm/src/NttManager/ManagerBase.sol:476-498"]}
{"id": "C93", "title": "An EVM deployment sends each transfer at most once, exactly as it was taken, and loses none", "statement": "In every history of transactions by anybody, starting from a new deployment of the EVM contracts: the transfers are numbered 0, 1, 2 and so on as they are taken. Each is sent in at most one transaction or cancelled in at most one, never both. What is sent was taken: the message carries the number, the sender, the recipient, the chain and the value that was taken; it is addressed to the registered peer on that chain and given to every enabled transceiver, and the Wormhole transceivers publish it; it was taken in the same transaction, or in an earlier one that put it in the queue at least the queue's delay ago. What is cancelled goes back to its sender, who asked for it, in full. Every transfer that was taken has been sent or cancelled, or is in the queue with its sender, chain, recipient and value.", "quantifier": "all histories of transactions by all callers with all arguments, all tokens with any fees, all configurations", "why_tests_cant": "all interleavings of queueing, completing, cancelling and reconfiguring cannot be sampled", "anchors": ["evm/src/NttManager/NttManager.sol:151-182", "evm/src/NttManager/NttManager.sol:324-588", "evm/src/NttManager/ManagerBase.sol:181-273", "evm/src/NttManager/ManagerBase.sol:462-465", "evm/src/libraries/RateLimiter.sol:218-234", "evm/src/libraries/RateLimiter.sol:298-318", "evm/src/Transceiver/WormholeTransceiver/WormholeTransceiver.sol:178-247"]}
{"id": "C94", "title": "An EVM deployment holds what it took, mints what it owes, and takes from nobody but the sender", "statement": "In every history of transactions by anybody: a manager that locks holds at least what it has taken and not yet given back or paid; for a manager that burns, the supply of the token is the initial supply less what was taken plus what was paid or given back (less what holders burned themselves). No transaction lowers the balance of anybody but the sender, and that by no more than the amount they offered. Those who are paid, or given back what they wanted to send, receive the full amount (less the token's own fee on a transfer). A transfer that waits can always be cancelled by its sender while the manager is not paused, if a locking manager has that much or the supply of a minted token allows for it.", "quantifier": "all histories of transactions by all callers, all tokens with any fees on transfers", "why_tests_cant": "solvency is an invariant over all histories; tests see a few", "anchors": ["evm/src/NttManager/NttManager.sol:354-467", "evm/src/NttManager/NttManager.sol:613-641"]}
{"id": "C95", "title": "The rate limits of an EVM deployment bound what is sent and paid at once, in any window of time", "statement": "For a deployment with a rate limit duration: in any stretch of time in which the outbound limit L is not changed, what is sent at once is at most L, plus L for every full duration (and the corresponding part of it for less), plus what came in meanwhile; and likewise for what is paid at once for messages from one chain. A transfer waits exactly if more was received than the capacity that the contract shows, and otherwise the capacity shown is smaller by just that afterwards; likewise for a message that comes in. What comes in raises the outbound capacity by the same amount, at most to the limit, and what is sent raises the capacity of the destination chain. The owner can always set the outbound limit; what was used of the old limit counts against the new one. Where it fails: in a deployment without rate limits (duration zero), once a peer was set (with a limit other than the largest), neither the peer nor the limit of that chain can ever be changed again.", "quantifier": "all histories of transactions by all callers at all times, all limits, all windows of time", "why_tests_cant": "the bound over every window needs an invariant of the capacity between any two points of any history", "anchors": ["evm/src/libraries/RateLimiter.sol:71-335", "evm/src/NttManager/NttManager.sol:104-148", "evm/src/NttManager/NttManager.sol:277-299", "evm/src/NttManager/NttManager.sol:469-519"]}
{"id": "C96", "title": "Who may change an EVM deployment, and what a pause stops", "statement": "Whatever the state is, a call changes a setting (owner, pauser, pause, transceivers, threshold, peers, limits, the peers and the owner of a Wormhole transceiver) only if the sender has the right to: the owner everything of the manager, the pauser who may pause and that it is paused but not that it runs again, the owner of a Wormhole transceiver its peers and its owner. However many transactions those without any right send, no setting changes. Once paused and until unpaused nothing is taken, sent, attested, queued, paid or given back, by whomever and however it is asked for; the token moves only by its own functions, and only peers of transceivers are announced. The owner and the pauser can always pause, the owner can always unpause and hand over, which hands over the registered Wormhole transceivers too. A peer of a Wormhole transceiver, once set, stays. Where it fails: a Wormhole transceiver that is registered only after a hand-over still belongs to its deployer.", "quantifier": "all calls by all senders in all states; all histories of transactions", "why_tests_cant": "that nobody else can change a setting is a statement about every call and every sequence of calls, not about the ones that tests make", "anchors": ["evm/src/libraries/PausableOwnable.sol:1-44", "evm/src/libraries/PausableUpgradeable.sol:100-165", "evm/src/libraries/external/OwnableUpgradeable.sol:74-121", "evm/src/NttManager/ManagerBase.sol:320-415", "evm/src/Transceiver/Transceiver.sol:55-72"]}
{"id": "C97", "title": "Instructions for transceivers are read as documented, and a transfer costs what the transceivers ask for", "statement": "The reader of transceiver instructions accepts exactly the documented encodings (number, then index, length and payload of each) of instructions with strictly increasing indices below the number of transceivers, whatever lies in memory behind them; every transceiver gets its own instruction, or an empty one. What the encoder writes is read back so, and the encoder refuses just what does not fit. A transfer that is sent at once, and the completion of one that waited, cost the sum of the prices that the enabled transceivers name for what they are told: with any payment that covers it the call does the same, with less it is refused. As long as all registered transceivers are enabled, quoteDeliveryPrice tells that sum. Where it fails: once a transceiver has been removed while the one registered last is enabled, no price is quoted at all, though transfers are possible.", "quantifier": "all byte arrays, all memory contents, all numbers of transceivers, all states, payments and prices", "why_tests_cant": "the encodings that are refused and the independence of memory are statements about all inputs; the mismatch of quote and price needs a removal that tests of the quote do not make", "anchors": ["evm/src/libraries/TransceiverStructs.sol:308-407", "evm/src/NttManager/ManagerBase.sol:99-133", "evm/src/NttManager/ManagerBase.sol:215-273"]}
{"id": "C98", "title": "An EVM deployment can always go on: what is approved can be paid, what waits can be completed, what may be sent is taken", "statement": "In every state that a history of transactions by anybody can lead to, while the manager is not paused: a well-formed message of the peer that enough transceivers attested to and that was neither paid nor queued can be executed by anybody, and is paid at once if the shown capacity allows it and queued otherwise. An enabled transceiver can attest to every such message that it has not attested to, and as soon as the attestations suffice the message is paid or queued in that transaction; a VAA with such a message from the registered emitter, not delivered before, is accepted. What waits to be paid is paid in full to its recipient by whoever asks after the delay. What waits to be sent is sent when anybody asks exactly if the delay has passed and the transceivers can be asked and paid. A transfer by somebody who has the tokens, of an amount both sides can represent, to a known chain, is taken: within the shown capacity exactly if the transceivers can be asked and paid, beyond it into the queue. Where it fails: instructions for transceivers are not read when a transfer is put into the queue, so one with unreadable instructions is taken and can never be sent by anybody, only cancelled by its sender.", "quantifier": "all histories of transactions by all callers with a clock that does not go back; all messages, senders, recipients and amounts", "why_tests_cant": "that nothing gets stuck is a statement about all reachable states; tests try to complete what they have queued themselves", "anchors": ["evm/src/NttManager/NttManager.sol:184-375", "evm/src/NttManager/NttManager.sol:377-519", "evm/src/NttManager/ManagerBase.sol:139-213", "evm/src/Transceiver/WormholeTransceiver/WormholeTransceiver.sol:62-150"]}
{"id": "C99", "title": "Solana programs and EVM contracts connected with each other never pay what was not taken", "statement": "Consider any number of chains, each with the Solana programs or with the EVM contracts, whose owners register each other's managers, emitters and decimals truthfully, and any interleaved history of transactions by anybody on all of them, in which attestations are authentic. Every payment on any chain is for a transfer that was made before on another chain, whose tokens were taken there, for the same recipient and of exactly the same value in spite of different decimals; no two payments on whatever chains are for the same transfer; and the tokens of a transfer that was paid are never given back to its sender. The total value paid or given back never exceeds the total value taken. With one locking hub and burning spokes, of either kind, everything that circulates on the spokes is at all times backed by tokens that the manager of the hub holds.", "quantifier": "all numbers of chains, all assignments of the two implementations and of decimals to them, all finite interleaved histories", "why_tests_cant": "the two implementations are written in different languages and have separate test suites; no test runs both, and the claim is about all interleavings", "anchors": ["solana/programs/example-native-token-transfers/src/instructions/redeem.rs:redeem", "solana/programs/example-native-token-transfers/src/instructions/release_inbound.rs:release_inbound_mint", "solana/programs/example-native-token-transfers/src/instructions/transfer.rs:transfer_burn", "evm/src/NttManager/NttManager.sol:184-519", "evm/src/NttManager/ManagerBase.sol:139-213", "evm/src/Transceiver/WormholeTransceiver/WormholeTransceiver.sol:62-150"]}
{"id": "C100", "title": "Every transfer between Solana programs and EVM contracts arrives, and a hub can pay all that is on its way", "statement": "Consider the chains of the previous property. Once the message of a transfer was published on one chain, with either implementation, three requests that anybody may make on the destination chain bring the tokens to the recipient: deliver the attested message, execute it (EVM) or redeem it (Solana), and, after the rate limit's delay, complete it. The recipient is then paid exactly the value that was taken from the sender, no matter what anybody else submitted before and in between on any of the chains and whether the requests themselves were refused as already done, provided that the destination accepts the source (it is not paused, and source manager and emitter are registered), that those with rights there do not intervene meanwhile, that the amount can be represented there, and that the manager can give out the tokens. With one locking hub and burning spokes of either kind the hub's manager holds at all times enough for all that circulates on the spokes and all published transfers that have not been paid, together; so it can pay every transfer that is on its way to it.", "quantifier": "all numbers of chains, all assignments of implementations and decimals, all finite interleaved histories before and between the requests", "why_tests_cant": "no test connects the two implementations; that interference cannot prevent the payment is a statement about everything that anybody could do in between", "anchors": ["solana/programs/example-native-token-transfers/src/instructions/redeem.rs:redeem", "solana/programs/example-native-token-transfers/src/instructions/release_inbound.rs:release_inbound_unlock", "solana/programs/example-native-token-transfers/src/transceivers/wormhole/instructions/receive_message.rs:receive_message", "evm/src/NttManager/NttManager.sol:184-299", "evm/src/NttManager/ManagerBase.sol:139-213", "evm/src/Transceiver/WormholeTransceiver/WormholeTransceiver.sol:62-150"]}
{"id": "C101", "title": "The EVM contract without rate limits never makes anybody wait, and needs nothing of the limits", "statement": "In a deployment of the EVM contract without rate limits, whatever anybody submits: no transfer and no payment is ever put in a queue and nothing is cancelled; a transfer that succeeds is handed to every enabled transceiver in the same transaction with exactly the value that was taken; a message that counts as executed has been paid. All calls that complete or cancel something queued are refused in every state; the limits are shown as zero and setting them changes nothing. The owner can set a peer again at any time (in the ordinary contract with a delay of zero they cannot, see the limits of the EVM contracts). A transfer of a token without fees is accepted exactly if the manager runs, knows the peer, the sender has the tokens, the amount is not zero, has no digits that are lost on the way and fits in 64 bits with the decimals with which it travels (the ordinary contract also needs that it fits with eight), the addresses are not zero, there are numbers left and the transceivers can be asked and paid. All that is claimed of the ordinary contract about payments, custody, rights, instructions and delivery holds as well.", "quantifier": "all histories of transactions by all callers, all states, all amounts, peers and recipients", "why_tests_cant": "the contract overrides a dozen functions of another one; that no path through what is inherited reaches a queue is a statement about all histories", "anchors": ["evm/src/NttManager/NttManagerNoRateLimiting.sol:14-112", "evm/src/NttManager/NttManager.sol:104-148", "evm/src/NttManager/NttManager.sol:184-519"]}
{"id": "C102", "title": "The EVM governance contract does exactly what was voted for, once, and a deployment it owns changes only by vote", "statement": "Consider the governance contract on an EVM chain next to a deployment, and any history in which anybody hands it messages and calls the deployment, and in which the contracts it calls do what they like, including handing it messages while it is still carrying one out. Everything it does is the call that a message names, of exactly the named contract with exactly the named data, and the message comes from the governance emitter on the governance chain and names this contract on this chain and the action for EVM calls. Each message is carried out at most once; it is used up exactly if it was carried out, so a message whose call failed can be handed in again. Handing in succeeds exactly if the message is such a message, was not carried out before, and the called contract accepts the call. The message is read exactly as documented, independently of other memory; it is for one contract on one chain and says one thing; the governance program on Solana accepts none of them. However calls are nested, the deployment behaves as if they came one after the other; if nobody but the governance contract has a right in it, its settings change only in a step that carries out a voted call to it.", "quantifier": "all messages, payloads and contents of memory, all histories with arbitrarily nested calls, all behaviours of the called contracts", "why_tests_cant": "what a called contract may do inside the call is unlimited; tests use a few mock contracts and none that calls back", "anchors": ["evm/src/wormhole/Governance.sol:83-141", "evm/src/wormhole/Governance.sol:143-180"]}
{"id": "C103", "title": "Calls back into the EVM manager while it is sending achieve nothing that calls afterwards would not", "statement": "While the EVM manager sends a transfer it hands control to others: to the sender, which may be a contract, when it refunds what was paid too much, and to transceivers. Whatever calls of the manager, the transceivers and the token they make meanwhile, in any transaction of any history: starting, completing or cancelling transfers is refused meanwhile, and the whole has the same effect on all balances, queues, limits, attestations and settings, and announces the same events up to their order, as the call alone followed by the others' calls. So every history with such calls ends like a history of separate transactions: no message is paid twice, a locking manager holds all that was taken and not given, a minted token's supply is covered. (If the owner changes a peer while being refunded, the message goes to the new peer.)", "quantifier": "all histories, all contracts as senders and transceivers, all calls made by them at each point at which they get control", "why_tests_cant": "the number of possible calls inside calls is unlimited; tests have no sender or transceiver that calls back", "anchors": ["evm/src/NttManager/ManagerBase.sol:181-285", "evm/src/NttManager/NttManager.sol:161-182", "evm/src/NttManager/NttManager.sol:302-375", "evm/src/NttManager/NttManager.sol:469-588", "evm/src/libraries/external/ReentrancyGuardUpgradeable.sol:75-103"]}
{"id": "C104", "title": "Only the deployer can initialise the EVM contracts, once; only owners can upgrade them, only to matching ones, and this changes nothing else", "statement": "New proxies of the EVM manager and its transceivers can be used by nobody, whatever they try, before the account that created the implementation has initialised them; it does so exactly once, becomes the owner, and leaves the contracts empty, with each transceiver announced. The implementation contracts themselves can be used by nobody. Afterwards nobody can initialise again or run a migration by itself; the manager is upgraded exactly if its owner asks for it and the new implementation is a manager for the same token, mode, chain and limit duration; a transceiver exactly if its owner asks for it and the new one has the same manager, token, Wormhole contracts and finality. An upgrade changes the implementation and its version only: every history with attempts at initialising, migrating and upgrading by whomever has the same effects and announcements as the history without them, so that no message is paid twice and everything locked stays covered across upgrades.", "quantifier": "all deployments, all implementation contracts of the repository at whatever addresses, all histories", "why_tests_cant": "tests upgrade a few times at a few points; no set of tests covers all histories before, between and after upgrades, or all attempts of strangers", "anchors": ["evm/src/libraries/Implementation.sol:12-107", "evm/src/libraries/external/Initializable.sol:107-212", "evm/src/NttManager/ManagerBase.sol:46-57", "evm/src/NttManager/ManagerBase.sol:323-327", "evm/src/NttManager/ManagerBase.sol:470-474", "evm/src/NttManager/NttManager.sol:47-73", "evm/src/NttManager/NttManager.sol:153-157", "evm/src/Transceiver/Transceiver.sol:38-86", "evm/src/Transceiver/WormholeTransceiver/WormholeTransceiverState.sol:52-103"]}
{"id": "C105", "title": "The Wormhole transceiver on EVM chains hands each message over once, on the route that settings and sender choose, exactly paid", "statement": "The Wormhole transceiver hands the manager's messages to others: it publishes them, or hands them to the standard relayer, or publishes them and asks the special relayer. Which of these is decided by its settings for the destination and by the sender, who can tell it to skip the relayers, in every setting, for the fee of one message. The price it names is what the route costs, and the manager forwards that price: every request is paid exactly as charged, all of it by the sender, and exactly the messages that the events tell of are handed over, once each. A transfer or the completion of one is accepted exactly when the manager accepts it at these prices and each message that goes over the standard relayer has EVM addresses to go to (the transceiver's peer and the refund address). Only its manager can make a transceiver send; only its owner changes its settings, one at a time. Everything else is as if there were no routes. Two things do not hold: a transceiver that uses the standard relayer and has no peer on the destination takes the transfer and sends the message to the zero address; and a transfer in the queue with a refund address that is not an EVM address cannot be completed while its route is the standard relayer.", "quantifier": "all settings, prices, instructions, messages, histories", "why_tests_cant": "tests use mocked relayers with fixed prices and one route at a time; the combinations of settings, instructions and prices per transceiver are unlimited", "anchors": ["evm/src/Transceiver/WormholeTransceiver/WormholeTransceiver.sol:125-247", "evm/src/Transceiver/WormholeTransceiver/WormholeTransceiverState.sol:140-171", "evm/src/Transceiver/WormholeTransceiver/WormholeTransceiverState.sol:247-291", "evm/src/Transceiver/Transceiver.sol:105-131", "evm/src/NttManager/ManagerBase.sol:113-133", "evm/src/NttManager/ManagerBase.sol:181-213", "evm/src/libraries/BooleanFlag.sol:8-41"]}
{"id": "C106", "title": "A token that calls others while tokens move cannot be used against the EVM manager", "statement": "The manager accepts any token, also one that calls senders and recipients (or anyone) before and after its tokens move. Whatever those who are called do (any calls to the manager, its transceivers or the token, during which others are called again, without a bound), every message is paid for at most once, and what is paid goes to whom and is as much as the message asks for; a transfer that waits is given back at most once, to whom it was taken from, exactly as much as was taken, and never if it was handed to a transceiver; a manager that locks always holds at least what it has taken and not given, one that burns has minted no more than it has given and burned all it has taken. While a transfer is being made, completed or cancelled, nobody can make, complete or cancel another; receiving messages stays possible. (Without the guard against such calls an amount could be counted twice.)", "quantifier": "all tokens with any fees and hooks, all trees of calls, all histories from deployment", "why_tests_cant": "tests cannot enumerate what contracts called in the middle of a transfer may do; a wrong order of effects shows only for a particular nesting", "anchors": ["evm/src/NttManager/NttManager.sol:185-260", "evm/src/NttManager/NttManager.sol:302-375", "evm/src/NttManager/NttManager.sol:384-460", "evm/src/NttManager/NttManager.sol:521-641", "evm/src/NttManager/ManagerBase.sol:181-285", "evm/src/libraries/external/ReentrancyGuardUpgradeable.sol:75-103"]}
{"id": "C107", "title": "The relay quoter's client quotes enough and not much too much, and builds what was asked for", "statement": "The client library quotes the price of a relay with JavaScript numbers. Whenever it quotes, the quote is 1.05 times the exact price and rent, up to one part in 2^49 and half a lamport, and it covers what the program charges even if prices rise by 4.9 % in the meantime; it does quote whenever the settings are below 2^53, prices are set and the drop-off is allowed. Every number put into an instruction is within half a unit of the one given, and decimal numbers below 2^51 units are exact; what it shows of settings and requests is what is stored, up to one part in 2^53. For every order except closing a request the instruction built is the documented one, and does what was ordered whenever the quoter's rules allow it. An automatic transfer without drop-off asks for a relay for at most the quote, and is accepted. Not so: an automatic transfer with a drop-off of w wei asks for w gwei and is refused; a paused chain is not reported as paused, an error is thrown; closing a request is never possible with the client.", "quantifier": "all settings, prices, amounts, orders, histories of the ledger", "why_tests_cant": "rounding errors depend on all values together; tests use round numbers, for which all is exact", "anchors": ["solana/ts/lib/quoter.ts:58-141", "solana/ts/lib/quoter.ts:143-408", "solana/ts/lib/utils.ts:73-117", "solana/ts/sdk/ntt.ts:527-544", "solana/ts/sdk/ntt.ts:861-878", "solana/ts/idl/2_0_0/json/ntt_quoter.json:5-340", "solana/programs/ntt-quoter/src/processor/request_relay.rs:113-173"]}
{"id": "C108", "title": "The TypeScript SDK reads, writes, identifies and shows transfers as the programs and contracts do", "statement": "The SDK writes exactly the documented bytes of messages and reads exactly these (for chains it knows and with an empty payload of the transceiver): whatever the Solana programs write or the EVM contracts accept as a transfer it reads as the same sender, recipient, amount, token and chain. The digest by which it looks up a transfer is that of the EVM contracts except for transfers that say explicitly that their additional payload is empty, and that of the Solana programs exactly for transfers without an additional payload. Announcements are read exactly as documented. Instructions for EVM transceivers are encoded as the contracts read them; the call it builds for a transfer has the given amount, chain and receiver, refunds go to the receiver, and relayers are skipped by transceiver number 0 if the transfer is not automatic (other transceivers are always told to use them). Limits of EVM managers are shown as the contract takes them, after being set as what was set, rounded down to eight digits. Of the amount asked for, the SDK sends the most that a message can carry, never refused for digits too many, and what it shows as received is exactly what is paid on the other side, from EVM to Solana, Solana to EVM and EVM to EVM. It warns of every transfer to an EVM chain that will have to wait.", "quantifier": "all messages, byte strings, amounts, decimals, instructions, chains, states", "why_tests_cant": "the layouts were written three times, in Rust, Solidity and TypeScript; tests compare a few messages", "anchors": ["sdk/definitions/src/layouts/amount.ts:5-8", "sdk/definitions/src/layouts/manager.ts:17-21", "sdk/definitions/src/layouts/prefix.ts:2-8", "sdk/definitions/src/layouts/transceiver.ts:23-54", "sdk/definitions/src/layouts/transceiverInstructions.ts:12-15", "sdk/definitions/src/layouts/transfer.ts:18-61", "sdk/definitions/src/layouts/wormhole.ts:11-20", "sdk/definitions/src/ntt.ts:99-125", "evm/ts/src/ntt.ts:76-78", "evm/ts/src/ntt.ts:385-394", "evm/ts/src/ntt.ts:461-559", "evm/ts/src/ntt.ts:653-688", "sdk/route/src/types.ts:210-228", "sdk/route/src/automatic.ts:125-178", "sdk/route/src/manual.ts:106-181"]}
{"id": "C109", "title": "The TypeScript SDK tells truly how far a transfer has come", "statement": "Whatever has happened on the destination chain: on Solana the SDK says that a transfer is executed exactly if it has been paid; on an EVM chain with rate limits, if it says so the transfer has been paid, and if it denies it the transfer had not been paid when it was asked. What it shows as waiting has not been paid, and (on EVM chains) all that was put in the queue and is not paid is shown; the recipient and the time shown are those at which the transfer is paid, on Solana also the amount. Nothing is paid on Solana that was not shown as waiting. Approved means on EVM chains that enough of the enabled transceivers have attested; on Solana, that one has. The capacities shown on Solana are never more than there is. Following a transfer never goes back and stays with one message; each receipt that it hands out is true in this sense, even if other transactions come between its questions; and once the transfer is paid it says that it is complete, except on an EVM chain if it is not approved any more and the SDK had not seen that it was. Completing a transfer that waits pays it to the recipient shown, not before the time shown, if the SDK says that it is complete; on Solana the SDK also says so, and nothing happens, if it is too early. With an EVM manager without rate limits the SDK never says that a transfer is complete: it fails when it is asked about one that is executed. The amount shown as waiting on an EVM chain is not an amount but the stored word (256 times the trimmed amount plus its decimals).", "quantifier": "all histories, messages, chains, moments of the questions, receipts", "why_tests_cant": "tests ask about a few transfers at a few moments, with nothing happening between the questions; the answers depend on the whole history of the chain", "anchors": ["solana/ts/sdk/ntt.ts:1026-1031", "solana/ts/sdk/ntt.ts:1053-1058", "solana/ts/sdk/ntt.ts:1090-1214", "evm/ts/src/ntt.ts:311-347", "evm/ts/src/ntt.ts:573-602", "sdk/route/src/automatic.ts:338-456", "sdk/route/src/manual.ts:315-416", "evm/src/NttManager/NttManagerNoRateLimiting.sol:50-54"]}
{"id": "C110", "title": "The TypeScript SDK sends and redeems on Solana what it was asked to", "statement": "The transaction that the SDK builds for a transfer from Solana approves, transfers and releases. If it succeeds, exactly the amount asked for, without the digits that cannot be carried, has been taken from the sender's own associated token account, and the message for it (same value, chain and recipient asked for) has been posted in the same transaction; or, only if the user agreed to queue, the transfer waits for a day and nothing is posted. In every state a deployment can get into it does succeed if the program is not paused, knows the other chain, the sender has the tokens and there is room or the user agrees to wait. The last transaction it builds for redeeming receives, redeems and releases. If it succeeds, the message came from the registered transceiver and was not handed in before, and the recipient has been paid the amount of the message into their associated account, or nothing has been paid since votes are missing or the transfer must wait; for a fresh message of a peer it does succeed if the recipient can be paid, and pays at once if there is room. But it fails for ever once anybody has handed the message to the transceiver, it pays nothing if the recipient has no token account and is not the payer (only the payer's is created), and it fails for messages with an additional payload.", "quantifier": "all reachable states, all amounts, chains, recipients, payers and messages, both modes, all clocks; the findings for all later histories", "why_tests_cant": "tests send and redeem a few transfers of one user who redeems for themselves, in a state that nobody else touches", "anchors": ["solana/ts/sdk/ntt.ts:790-1024", "solana/ts/sdk/ntt.ts:97-121", "solana/ts/lib/ntt.ts:67-80", "solana/ts/lib/ntt.ts:800-850"]}
{"id": "C111", "title": "On EVM chains allowances bound what others take, and the manager takes only what it was allowed", "statement": "A transfer through the manager goes through exactly if the sender has allowed the manager at least the amount and the call would go through otherwise; the allowance then shrinks by the amount (unless it is unlimited). No other call of the contracts needs or changes an allowance. An allowance grows only by the holder's own approval. Over any history, what a spender (the manager or anybody else) has taken from a holder is at most what the holder has approved for them, if they never approved everything. No transaction of somebody else reduces the tokens of a holder except within an allowance of the holder. Whatever is approved and spent, the contracts get only into states that they can get into by contract calls and by holders moving their own tokens, so that all that is said of those states (C94-C107) holds; in particular a locking manager always holds what it owes.", "quantifier": "all histories of contract calls, approvals, transferFrom and burnFrom by anybody, in any order; all amounts, holders and spenders", "why_tests_cant": "tests approve exactly what they transfer; the bound concerns sums over unbounded histories of several spenders", "anchors": ["evm/src/NttManager/NttManager.sol:395-430", "evm/src/NttManager/NttManager.sol:620-640", "evm/src/mocks/DummyToken.sol:36-48"]}
{"id": "C112", "title": "The TypeScript SDK sends and redeems on EVM chains what it was asked to", "statement": "For a transfer from an EVM chain the SDK hands the wallet an approval of exactly the amount, if and only if the allowance is too small, and then the transfer that was asked for, with exactly the sum that the enabled transceivers ask for. In every state a deployment can get into, if a price is quoted and the sender may transfer, both go through: the amount is on its way or, beyond the limit and if the user agreed, in the queue. In whatever state they arrive, at most one debit is made, of the sender, of at most the amount, for the chain and the receiver asked for; no other allowance changes; nothing is left of an allowance that had to be made. To redeem, the SDK hands exactly one signed message unchanged to the transceiver it knows, if and only if it is a documented transfer for a chain it knows. If that goes through, the message came from both peers, and the transfer attested to, and possibly paid or queued, is the one the SDK tracks, with the account and amount the SDK reads; and it does go through if the transfer can be paid and was not attested to. What does not hold: after a transceiver is removed while the one registered last is enabled the SDK cannot send though the contract would; a message with an explicitly empty additional payload, which the contract accepts, cannot be redeemed with the SDK.", "quantifier": "all reachable states, histories, amounts, chains, receivers, options, prices, messages", "why_tests_cant": "tests send a few transfers with fixed amounts and a fixed allowance and set of transceivers; the findings need a removed transceiver or an unusual encoding", "anchors": ["evm/ts/src/ntt.ts:425-526", "evm/ts/src/ntt.ts:136-144", "evm/ts/src/ntt.ts:214-235", "evm/ts/src/ntt.ts:638-650"]}
{"id": "C113", "title": "The routes of the TypeScript SDK use the right contracts, and quote what is sent and what arrives", "statement": "For a source token, and a destination token that the route offers for it, the contracts chosen at both ends are those of one group of the configuration, for the chains and tokens asked for, if no token or manager is in two groups and no group has two entries for a chain; a transfer that is found again by its message is completed with the same contracts, for the same amount. What is quoted is the amount asked for without the digits that cannot be carried, and the same value in the token of the destination; of waiting is warned exactly if what arrives is more than 95 hundredths of the capacity there; a price for relaying is quoted exactly if relaying was asked for.  From an EVM chain the transfer asks for relaying exactly then. If the transfer started by the route goes through (from Solana, or from an EVM chain with a token without fees), the sender is debited exactly what was quoted, nothing is queued at the source, and the message carries exactly this value to the chain and receiver. Whatever the SDK's redeeming then pays, on an EVM chain or on Solana, goes to the receiver and is exactly what was quoted to arrive. What does not hold: if a token is in two groups, the route offers the destination tokens of both, but sends with the contracts of the first, so that the contracts at the ends belong to different deployments.", "quantifier": "all configurations, tokens, amounts, decimals, states of the contracts and programs, messages", "why_tests_cant": "tests use one configuration with one group and fixed decimals; the equality of quote and payment concerns all pairs of decimals and two implementations of the conversion", "anchors": ["sdk/route/src/types.ts:106-206", "sdk/route/src/manual.ts:99-313", "sdk/route/src/automatic.ts:113-334"]}
{"id": "C114", "title": "What is set with the TypeScript SDK is what it then shows", "statement": "The transaction that the SDK builds to pause or unpause, to set a peer with its decimals and limit, the peer of the transceiver, the limits, the owner or the pauser takes effect only for the owner (on EVM chains the pauser may pause and hand on their role, and the peer of a transceiver is for its owner). After it a new client shows what was given, and everything else it shows is as before: whether it is paused, owner, pauser, threshold, mode, all peers and their limits, all peers of the transceiver, both limits; on EVM chains limits lose the digits beyond what limits have. Setting a peer of the transceiver also announces it in the documented form; nothing else is announced. On Solana the owner gets a setting exactly if it is possible (numbers fit, the transceiver had no peer for that chain, there is a peer whose limit is set, the owner holds the upgrade authority they hand over), also while the manager is paused, and registering the transceiver registers, enables and announces it and changes nothing shown. On an EVM chain with limits the owner gets a setting exactly if it is possible: pausing and unpausing change something, nothing is set to zero, the peer is on another chain, numbers fit, and the transceiver has the same owner and had no peer for that chain. Checking the addresses on an EVM chain finds no difference exactly if the token given is the manager's and the transceiver given is the first enabled one. What does not hold: on Solana setting the owner only proposes one, who is shown after claiming, for which the SDK has no function; a client on Solana that has once read the configuration shows the same pause and owner for ever, whatever happens; with managers without limits, setting limits changes nothing.", "quantifier": "all settings, states of programs and contracts (for success: all reachable ones), chains, numbers, signers, clients", "why_tests_cant": "tests set a few values and read them back in a fresh client; that nothing else changes, for all values, states and chains, and the stale configuration of a client that is kept, need all states", "anchors": ["solana/ts/sdk/ntt.ts:185-228", "solana/ts/sdk/ntt.ts:461-525", "solana/ts/sdk/ntt.ts:574-603", "solana/ts/sdk/ntt.ts:693-788", "solana/ts/sdk/ntt.ts:1033-1090", "evm/ts/src/ntt.ts:80-119", "evm/ts/src/ntt.ts:257-289", "evm/ts/src/ntt.ts:357-370", "evm/ts/src/ntt.ts:436-459", "evm/ts/src/ntt.ts:532-567", "evm/ts/src/ntt.ts:604-636"]}
{"id": "C115", "title": "The command line tool finds every difference, pushes exactly the settings that differ, and reads limits as they are written", "statement": "`diffObjects` finds no difference between a local and a pulled configuration exactly if they have the same value at every path. If they differ only in version, pause, owner, pausers (of manager and transceiver) and limits, `push` upgrades first, exactly if the version differs, from the version on the chain to that in the file, then sets exactly those of the settings that differ, to the values in the file, and the owner after all others; if the versions and the transceivers' pausers are the same, everything it sends goes through and is then shown as C114 says, pulling gives the file. A limit in a file is accepted exactly if it has one point and as many characters behind it as the token has decimals; it is then read as the number written there, in the smallest units of the token (and refused if there is none); a limit that the tool shows is read back as the same number. What does not hold: the text that is shown for a limit is the right number, and accepted in a file, exactly if the limit is zero or has at least as many digits as the token has decimals, and there are some (five thousandths are shown as 0.5); if `paused` is left out in the file, `push` unpauses.", "quantifier": "all configurations (objects of any depth, without arrays), texts, limits, decimals, chains and addresses", "why_tests_cant": "tests compare a few configurations and run the tool against one deployment with large limits; equality at every path of arbitrary objects and the texts of all numbers cannot be enumerated", "anchors": ["cli/src/diff.ts:18-53", "cli/src/index.ts:910-932", "cli/src/index.ts:1553-1648", "cli/src/index.ts:1699-1751", "cli/src/index.ts:1842-1864", "cli/src/index.ts:1898-1925"]}
{"id": "C116", "title": "The command line tool connects the chains of a deployment, and adds exactly what is missing", "statement": "The tool says that nothing is missing exactly if on every chain of the deployment the manager and the transceiver have a peer for every other chain, EVM chains are marked as such and relayed to (standard relaying to EVM chains, special relaying to Solana), and on Solana the transceiver is registered and the lookup table up to date. `push` sends to each chain exactly what is missing there, and stops before sending anything exactly if a limit for a missing peer cannot be read from the file. If everything goes through, a manager that had no peer on another chain has the manager there, with the decimals of the token there and the limit in the file (zero if it has none), and the same for transceivers; what was there, and everything about chains outside of the deployment, is as before; the tool then finds nothing missing and would send nothing more. Pushing settings afterwards (C115) changes no peer, whatever the file says; if that goes through too, the tool pulls from the chain what is in the file. What does not hold: peers with other addresses or decimals than those of the deployment are not missing, so that they are never mended.", "quantifier": "all deployments with any number of chains, all states of the chains, all files", "why_tests_cant": "tests connect two or three fixed chains from nothing; that exactly the missing parts are added concerns all subsets of parts that can be missing on any number of chains", "anchors": ["cli/src/index.ts:652-722", "cli/src/index.ts:900-908", "cli/src/index.ts:1440-1551"]}
{"id": "C117", "title": "The command line tool uses the configured value that goes first, and setting changes exactly one value", "statement": "At the root of a project, with a home directory, the tool uses for a chain and a key the value in the environment, else that of the project, else that in the home directory, empty values not counting; otherwise it fails exactly if it has to look into a file whose directory is not there. `config set-chain` and `unset-chain` change exactly the value of that chain and key in the file that the options choose, and fail exactly if they choose none or its directory is not there; what was set is then used, unless a value goes before it. What does not hold: `--local` alone is refused (the project is chosen only if `--global` is switched off explicitly as well), and `config get-chain` fails always.", "quantifier": "all environments, files, chains, keys, values and options", "why_tests_cant": "there are no tests of this; precedence and what stays unchanged concern all combinations of sources, and the findings all inputs", "anchors": ["cli/src/configuration.ts:32-106", "cli/src/configuration.ts:109-200"]}
