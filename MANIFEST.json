{
 "claims": [
  {
   "property": "C01",
   "status": "proved",
   "theorems": [
    "Ntt.Props.C01_transfer_roundtrip",
    "Ntt.Props.C01_manager_roundtrip",
    "Ntt.Props.C01_transceiver_roundtrip",
    "Ntt.Props.C01_info_roundtrip",
    "Ntt.Props.C01_registration_roundtrip",
    "Ntt.Props.C01_layers_lawful",
    "Ntt.Props.C01_write_fails_only_if_too_long"
   ],
   "note": ""
  },
  {
   "property": "C02",
   "status": "proved",
   "theorems": [
    "Ntt.Props.C02_digest_input_injective",
    "Ntt.Props.C02_digest_input_total"
   ],
   "note": "Injectivity of the hash input; collision resistance of keccak256 itself is trusted."
  },
  {
   "property": "C03",
   "status": "proved",
   "theorems": [
    "Ntt.Props.C03_rejects_truncated",
    "Ntt.Props.C03_rejects_wrong_prefix",
    "Ntt.Props.C03_consumes_exactly"
   ],
   "note": ""
  },
  {
   "property": "C04",
   "status": "proved",
   "theorems": [
    "Ntt.Props.C04_domain_separation"
   ],
   "note": ""
  },
  {
   "property": "C05",
   "status": "partial",
   "theorems": [
    "Ntt.Props.C05_claim_false",
    "Ntt.Props.C05_canonical_up_to_lengths_partial",
    "Ntt.Props.C05_ignored_lengths_accepted"
   ],
   "note": "The claim is false of the code (length fields are ignored); negation proved with a witness, and exactly what is accepted is characterised."
  },
  {
   "property": "C06",
   "status": "proved",
   "theorems": [
    "Ntt.Props.stored_attestation_reads_back",
    "Ntt.Props.zero_copy_agrees_with_full"
   ],
   "note": "Both for accounts written by the program with any trailing bytes and for arbitrary account bytes accepted by full deserialisation."
  },
  {
   "property": "C07",
   "status": "proved",
   "theorems": [
    "Ntt.Props.C07_trim_rounds_down",
    "Ntt.Props.C07_trim_refused"
   ],
   "note": ""
  },
  {
   "property": "C08",
   "status": "proved",
   "theorems": [
    "Ntt.Props.C08_debit_equals_announced",
    "Ntt.Props.C08_removeDust_total"
   ],
   "note": ""
  },
  {
   "property": "C09",
   "status": "proved",
   "theorems": [
    "Ntt.Props.C09_value_preserved"
   ],
   "note": ""
  },
  {
   "property": "C10",
   "status": "proved",
   "theorems": [
    "Ntt.Props.C10_scale_exact",
    "Ntt.Props.C10_scale_refused",
    "Ntt.Props.C10_change_decimals"
   ],
   "note": ""
  },
  {
   "property": "C11",
   "status": "proved",
   "theorems": [
    "Ntt.Props.C11_capacity_refills"
   ],
   "note": ""
  },
  {
   "property": "C12",
   "status": "proved",
   "theorems": [
    "Ntt.Props.C12_window_bound"
   ],
   "note": ""
  },
  {
   "property": "C13",
   "status": "proved",
   "theorems": [
    "Ntt.Props.C13_delay_exact"
   ],
   "note": ""
  },
  {
   "property": "C14",
   "status": "proved",
   "theorems": [
    "Ntt.Props.C14_backflow_exact",
    "Ntt.Props.C14_send_then_backflow"
   ],
   "note": ""
  },
  {
   "property": "C15",
   "status": "proved",
   "theorems": [
    "Ntt.Props.C15_set_limit_preserves_used"
   ],
   "note": ""
  },
  {
   "property": "C16",
   "status": "partial",
   "theorems": [
    "Ntt.Props.C16_never_aborts_partial",
    "Ntt.Props.C16_claim_false"
   ],
   "note": "Holds for every clock that stays 24 hours away from the end of the i64 range; in those last 24 hours (292 billion years from now) the release time of a delayed transfer overflows, proved as the negation of the unrestricted claim."
  },
  {
   "property": "C17",
   "status": "proved",
   "theorems": [
    "Ntt.Props.C17_refines_leaky_bucket"
   ],
   "note": ""
  },
  {
   "property": "C18",
   "status": "proved",
   "theorems": [
    "Ntt.Props.C18_vote_adds_exactly_one",
    "Ntt.Props.C18_unset_removes_exactly_one",
    "Ntt.Props.C18_count_is_distinct_enabled"
   ],
   "note": ""
  },
  {
   "property": "C19",
   "status": "proved",
   "theorems": [
    "Ntt.Props.C19_voting_twice",
    "Ntt.Props.C19_threshold_needs_distinct_transceivers"
   ],
   "note": "For every vote threshold, including those no instruction of this code can set."
  },
  {
   "property": "C20",
   "status": "proved",
   "theorems": [
    "Ntt.Props.C20_paid_at_most_once",
    "Ntt.Props.C20_message_paid_at_most_once"
   ],
   "note": ""
  },
  {
   "property": "C21",
   "status": "proved",
   "theorems": [
    "Ntt.Props.C21_payout_attested",
    "Ntt.Props.C21_same_message"
   ],
   "note": ""
  },
  {
   "property": "C22",
   "status": "proved",
   "theorems": [
    "Ntt.Props.C22_payout_as_announced"
   ],
   "note": "NoCollision states that keccak256 did not collide on the messages attested in the history."
  },
  {
   "property": "C23",
   "status": "proved",
   "theorems": [
    "Ntt.Props.C23_inbound_progress",
    "Ntt.Props.C23_release_time_fixed"
   ],
   "note": ""
  },
  {
   "property": "C24",
   "status": "proved",
   "theorems": [
    "Ntt.Props.C24_rate_limit_holds_back"
   ],
   "note": ""
  },
  {
   "property": "C25",
   "status": "proved",
   "theorems": [
    "Ntt.Props.C25_no_second_redeem",
    "Ntt.Props.C25_capacity_used_on_approval",
    "Ntt.Props.C25_capacity_used_once"
   ],
   "note": ""
  },
  {
   "property": "C26",
   "status": "proved",
   "theorems": [
    "Ntt.Props.C26_redeem_never_blocked",
    "Ntt.Props.C26_release_never_blocked"
   ],
   "note": "Reachable states; any intervening instructions, except administrative ones signed by the owner or pending owner. Needs the environment facts listed in DESIGN.md (distinct program-derived addresses)."
  },
  {
   "property": "C27",
   "status": "proved",
   "theorems": [
    "Ntt.Props.C27_at_most_one_message"
   ],
   "note": ""
  },
  {
   "property": "C28",
   "status": "proved",
   "theorems": [
    "Ntt.Props.C28_message_says_what_was_sent"
   ],
   "note": ""
  },
  {
   "property": "C29",
   "status": "proved",
   "theorems": [
    "Ntt.Props.C29_not_before_release_time",
    "Ntt.Props.C29_no_room_no_agreement_no_effect",
    "Ntt.Props.C29_release_possible"
   ],
   "note": "That nothing can postpone the release time is C31_outbound_immutable together with C29_release_possible, whose intervening history is arbitrary."
  },
  {
   "property": "C30",
   "status": "proved",
   "theorems": [
    "Ntt.Props.C30_only_enabled_transceiver",
    "Ntt.Props.C30_recorded_iff_sent"
   ],
   "note": ""
  },
  {
   "property": "C31",
   "status": "proved",
   "theorems": [
    "Ntt.Props.C31_outbound_immutable",
    "Ntt.Props.C31_ids_distinct"
   ],
   "note": ""
  },
  {
   "property": "C32",
   "status": "proved",
   "theorems": [
    "Ntt.Props.C32_custody_accounting",
    "Ntt.Props.C32_drained_only_by_payouts",
    "Ntt.Props.C32_custody_covers_locked"
   ],
   "note": "Attested: see C21. Payouts to custody itself are not counted as unlocked."
  },
  {
   "property": "C33",
   "status": "proved",
   "theorems": [
    "Ntt.Props.C33_supply_accounting",
    "Ntt.Props.C33_custody_unchanged"
   ],
   "note": ""
  },
  {
   "property": "C34",
   "status": "proved",
   "theorems": [
    "Ntt.Props.C34_locking_never_mints",
    "Ntt.Props.C34_burning_never_locks",
    "Ntt.Props.C34_other_mode_refused"
   ],
   "note": ""
  },
  {
   "property": "C35",
   "status": "proved",
   "theorems": [
    "Ntt.Props.C35_fee_cannot_underfund"
   ],
   "note": ""
  },
  {
   "property": "C36",
   "status": "proved",
   "theorems": [
    "Ntt.Props.C36_only_as_authorised",
    "Ntt.Props.C36_not_exceeded_or_redirected",
    "Ntt.Props.C36_arguments_determine_input"
   ],
   "note": "NotOwnSession is a fact about the addresses derived in the transactions at hand, see DESIGN.md."
  },
  {
   "property": "C37",
   "status": "proved",
   "theorems": [
    "Ntt.Props.C37_only_owner_changes_settings",
    "Ntt.Props.C37_others_are_refused",
    "Ntt.Props.C37_nothing_before_initialisation"
   ],
   "note": ""
  },
  {
   "property": "C38",
   "status": "proved",
   "theorems": [
    "Ntt.Props.C38_owner_changes_only",
    "Ntt.Props.C38_nominated_by_owner",
    "Ntt.Props.C38_owner_keeps_powers",
    "Ntt.Props.C38_take_back_or_claim",
    "Ntt.Props.C38_others_cannot_claim"
   ],
   "note": "That the nominee has no powers is C37_others_are_refused."
  },
  {
   "property": "C39",
   "status": "proved",
   "theorems": [
    "Ntt.Props.C39_owner_is_upgrade_authority"
   ],
   "note": ""
  },
  {
   "property": "C40",
   "status": "proved",
   "theorems": [
    "Ntt.Props.C40_initialised_by_upgrade_authority",
    "Ntt.Props.C40_initialised_once",
    "Ntt.Props.C40_parameters_fixed"
   ],
   "note": ""
  },
  {
   "property": "C41",
   "status": "proved",
   "theorems": [
    "Ntt.Props.C41_nothing_moves_while_paused",
    "Ntt.Props.C41_outbound_released_after_unpause",
    "Ntt.Props.C41_inbound_released_after_unpause"
   ],
   "note": ""
  },
  {
   "property": "C42",
   "status": "proved",
   "theorems": [
    "Ntt.Props.C42_ids_are_positions",
    "Ntt.Props.C42_at_most_128"
   ],
   "note": ""
  },
  {
   "property": "C43",
   "status": "proved",
   "theorems": [
    "Ntt.Props.manager_seeds_injective",
    "Ntt.Props.quoter_seeds_injective",
    "Ntt.Props.preimage_injective",
    "Ntt.Props.addresses_never_coincide"
   ],
   "note": "Seeds of the manager (with built-in transceiver) and of the quoter; preimages also separate programs."
  },
  {
   "property": "C44",
   "status": "proved",
   "theorems": [
    "Ntt.Props.C44_from_registered_peer",
    "Ntt.Props.C44_never_changes",
    "Ntt.Props.C44_once",
    "Ntt.Props.C44_accepts"
   ],
   "note": ""
  },
  {
   "property": "C45",
   "status": "proved",
   "theorems": [
    "Ntt.Props.C45_value_conserved",
    "Ntt.Props.C45_hub_and_spokes",
    "Ntt.Props.C45_backing_kept",
    "Ntt.Props.C45_bridged_supply_backed"
   ],
   "note": "Assumes Wormhole attests only published messages (Authentic), owners configure as agreed and keccak does not collide on the transfer messages of the history."
  },
  {
   "property": "C46",
   "status": "proved",
   "theorems": [
    "Ntt.Props.C46_payouts_match_debits",
    "Ntt.Props.C46_payouts_distinct"
   ],
   "note": "Needs no collision hypothesis."
  },
  {
   "property": "C47",
   "status": "proved",
   "theorems": [
    "Ntt.Props.C47_fee_is_quote",
    "Ntt.Props.C47_charge_exact",
    "Ntt.Props.C47_overflow_refused",
    "Ntt.Props.C47_accepted"
   ],
   "note": ""
  },
  {
   "property": "C48",
   "status": "proved",
   "theorems": [
    "Ntt.Props.C48_fee_monotone",
    "Ntt.Props.C48_smaller_not_refused"
   ],
   "note": ""
  },
  {
   "property": "C49",
   "status": "proved",
   "theorems": [
    "Ntt.Props.C49_opened_only_if_sent",
    "Ntt.Props.C49_message_was_emitted",
    "Ntt.Props.C49_one_open_per_transfer",
    "Ntt.Props.C49_close_pays_fee_recipient",
    "Ntt.Props.C49_fees_stay_until_closed"
   ],
   "note": "C49_message_was_emitted joins the quoter with the manager history."
  },
  {
   "property": "C50",
   "status": "proved",
   "theorems": [
    "Ntt.Props.C50_settings_by_owner_or_assistant",
    "Ntt.Props.C50_assistant_by_owner",
    "Ntt.Props.C50_initialised_by_upgrade_authority",
    "Ntt.Props.C50_price_never_zero_again",
    "Ntt.Props.C50_never_divides_by_zero"
   ],
   "note": ""
  },
  {
   "property": "C51",
   "status": "proved",
   "theorems": [
    "Ntt.Props.C51_only_from_governance",
    "Ntt.Props.C51_at_most_once",
    "Ntt.Props.C51_authority_only_through_messages",
    "Ntt.Props.C51_can_be_executed",
    "Ntt.Props.governance_seeds_injective"
   ],
   "note": "Transactions are arbitrary call trees, including re-entrancy into the governance program."
  },
  {
   "property": "C52",
   "status": "proved",
   "theorems": [
    "Ntt.Props.C52_exact_instruction",
    "Ntt.Props.C52_exactly_these_calls"
   ],
   "note": ""
  },
  {
   "property": "C53",
   "status": "proved",
   "theorems": [
    "Ntt.Props.C53_round_trip",
    "Ntt.Props.C53_too_long_refused",
    "Ntt.Props.C53_canonical",
    "Ntt.Props.C53_instruction_round_trip",
    "Ntt.Props.C53_written_size_short"
   ],
   "note": "C53_written_size_short records that the size the code declares for a governance message is 32 bytes short."
  },
  {
   "property": "C54",
   "status": "proved",
   "theorems": [
    "Ntt.Props.C54_release_equivalent",
    "Ntt.Props.C54_other_registration_refused",
    "Ntt.Props.C54_others_equivalent",
    "Ntt.Props.C54_history_equivalent"
   ],
   "note": "Besides emitting (the claim), the other instructions of the standalone transceiver and whole histories are shown equivalent."
  },
  {
   "property": "C55",
   "status": "partial",
   "theorems": [
    "Ntt.Props.C55_peer_update_partial",
    "Ntt.Props.C55_claim_false"
   ],
   "note": "The claim is false of the code: set_peer installs a fresh limiter, refilling the inbound capacity. C55_claim_false is a reachable counterexample; the partial theorem states what holds."
  },
  {
   "property": "C56",
   "status": "proved",
   "theorems": [
    "Ntt.Props.C56_matches_documentation"
   ],
   "note": ""
  },
  {
   "property": "C57",
   "status": "proved",
   "theorems": [
    "Ntt.Props.C57_single_instructions_suffice",
    "Ntt.Props.C57_all_or_nothing"
   ],
   "note": ""
  },
  {
   "property": "C58",
   "status": "proved",
   "theorems": [
    "Ntt.Props.C58_outbound_throughput",
    "Ntt.Props.C58_inbound_throughput"
   ],
   "note": ""
  },
  {
   "property": "C59",
   "status": "proved",
   "theorems": [
    "Ntt.Props.C59_settings_as_requested",
    "Ntt.Props.C59_touches_nothing_else",
    "Ntt.Props.C59_limiters",
    "Ntt.Props.C59_owner_can"
   ],
   "note": ""
  },
  {
   "property": "C60",
   "status": "proved",
   "theorems": [
    "Ntt.Props.C60_every_publication",
    "Ntt.Props.C60_announcing_changes_nothing"
   ],
   "note": ""
  },
  {
   "property": "C61",
   "status": "proved",
   "theorems": [
    "Ntt.Props.C61_outbound_with_changes",
    "Ntt.Props.C61_inbound_with_changes"
   ],
   "note": ""
  },
  {
   "property": "C62",
   "status": "proved",
   "theorems": [
    "Ntt.Props.C62_transfer",
    "Ntt.Props.C62_redeem",
    "Ntt.Props.C62_nothing_else"
   ],
   "note": ""
  },
  {
   "property": "C63",
   "status": "proved",
   "theorems": [
    "Ntt.Props.C63_accepts_exactly",
    "Ntt.Props.C63_same_message_iff"
   ],
   "note": "Completes what is missing from C05 by an exact characterisation."
  },
  {
   "property": "C64",
   "status": "proved",
   "theorems": [
    "Ntt.Props.C64_aborts_iff"
   ],
   "note": ""
  },
  {
   "property": "C65",
   "status": "proved",
   "theorems": [
    "Ntt.Props.C65_manager_accounts",
    "Ntt.Props.C65_other_accounts",
    "Ntt.Props.C65_other_type_refused",
    "Ntt.Props.C65_new_account",
    "Ntt.Props.C65_attestation",
    "Ntt.Props.C65_times_fit"
   ],
   "note": "Anchor and Borsh are external; their encoding rules are stated in Model/Accounts. Type confusion is excluded for different discriminators."
  },
  {
   "property": "C66",
   "status": "proved",
   "theorems": [
    "Ntt.Props.C66_as_requested",
    "Ntt.Props.C66_touches_nothing_else",
    "Ntt.Props.C66_administrators_can",
    "Ntt.Props.C66_fee_from_explicit_settings"
   ],
   "note": "The prices of gas and of the native token may still be zero when a request is made; everything else has been set."
  },
  {
   "property": "C67",
   "status": "proved",
   "theorems": [
    "Ntt.Props.C67_substitution",
    "Ntt.Props.C67_genesis",
    "Ntt.Props.C67_account_pays_once"
   ],
   "note": "Assumes SHA-256 does not collide on the seed strings of the history and that the ten discriminators are different and not zero. C67_genesis connects to the histories of all other claims."
  },
  {
   "property": "C68",
   "status": "proved",
   "theorems": [
    "Ntt.Props.C68_well_placed",
    "Ntt.Props.C68_one_type"
   ],
   "note": "Same assumptions as C67."
  },
  {
   "property": "C69",
   "status": "proved",
   "theorems": [
    "Ntt.Props.C69_custody_covers_locked",
    "Ntt.Props.C69_payouts_attested",
    "Ntt.Props.C69_payouts_as_announced",
    "Ntt.Props.C69_only_as_authorised",
    "Ntt.Props.C69_only_owner_changes_settings"
   ],
   "note": "C32, C21, C22, C36 and C37 carried over to raw accounts through C67. Same assumptions as C67; WalletSigned is UserSigned for raw transactions."
  },
  {
   "property": "C70",
   "status": "proved",
   "theorems": [
    "Ntt.Props.C70_unobstructed",
    "Ntt.Props.C70_accounts_can_be_supplied",
    "Ntt.Props.C70_payout_never_blocked"
   ],
   "note": "Converse of C67. Assumes that no address derived from the program id signs, and that none of them is occupied before the program is deployed. Lamports are not modelled: prefunding an address does not stop init (the source handles it), and is not represented."
  },
  {
   "property": "C71",
   "status": "proved",
   "theorems": [
    "Ntt.Props.C71_understood",
    "Ntt.Props.C71_nothing_else",
    "Ntt.Props.C71_one_meaning",
    "Ntt.Props.C71_discriminators"
   ],
   "note": "SHA-256 is computed in the kernel on the names (Model/Sha256). The code generated by Anchor is not in the repository; its behaviour is taken from Anchor 0.29. Anchor's IDL selector is treated separately (RIx.idl)."
  },
  {
   "property": "C72",
   "status": "proved",
   "theorems": [
    "Ntt.Props.C72_sound",
    "Ntt.Props.C72_complete",
    "Ntt.Props.C72_writes"
   ],
   "note": "On top of C67: the raw instructions are reached through bytes and flags. Transfer hook accounts after the struct are not modelled."
  },
  {
   "property": "C73",
   "status": "proved",
   "theorems": [
    "Ntt.Props.C73_elementary",
    "Ntt.Props.C73_signatures",
    "Ntt.Props.C73_custody_covers_locked",
    "Ntt.Props.C73_pays_once",
    "Ntt.Props.C73_payouts_attested",
    "Ntt.Props.C73_unobstructed",
    "Ntt.Props.C73_administration",
    "Ntt.Props.C73_tokens"
   ],
   "note": "Assumptions in Spec/System.Sane: SHA-256 does not collide on the strings hashed in the history, derived addresses are off the curve, the manager's addresses are vacant at first. The rules of the runtime are those listed in Model/System."
  },
  {
   "property": "C74",
   "status": "proved",
   "theorems": [
    "Ntt.Props.C74_only_by_vote",
    "Ntt.Props.C74_as_voted",
    "Ntt.Props.C74_at_most_once"
   ],
   "note": "If the message calls some third program, the theorem says that the authority's signature was given to it and nothing about what it does with it."
  },
  {
   "property": "C75",
   "status": "proved",
   "theorems": [
    "Ntt.Props.C75_payouts_match_debits",
    "Ntt.Props.C75_payouts_distinct"
   ],
   "note": "C46 for whole transactions. Operated: Sane per chain, owners configure as agreed (the steps actually executed), the core bridge is authentic."
  },
  {
   "property": "C76",
   "status": "proved",
   "theorems": [
    "Ntt.Props.C76_bridged_supply_backed"
   ],
   "note": "C45 for whole transactions (plain inequality; C45 also accounts for what is in flight). NoMessageCollision is about the messages of the transfers actually made."
  },
  {
   "property": "C77",
   "status": "proved",
   "theorems": [
    "Ntt.Props.C77_can_be_done",
    "Ntt.Props.C77_payout_never_blocked"
   ],
   "note": "Converse of C73. Payable says what the token program needs (the recipient's account exists, no overflow, custody is funded); GoodMint that the mint belongs to one of the two token programs. Lamports for fees and rent are not modelled."
  },
  {
   "property": "C78",
   "status": "proved",
   "theorems": [
    "Ntt.Props.C78_transfer_arrives",
    "Ntt.Props.C78_hub_can_pay"
   ],
   "note": "Liveness counterpart of C46 and C45. Publishing itself is C29. The three transactions on the destination may fail because somebody else was faster: the conclusion is about the payout. NoDigestCollision: Keccak-256 does not collide on the messages of transfers made in the history."
  },
  {
   "property": "C79",
   "status": "proved",
   "theorems": [
    "Ntt.Props.C79_addresses",
    "Ntt.Props.C79_derived_from_contents",
    "Ntt.Props.C79_governance_addresses",
    "Ntt.Props.C79_idl_matches_program",
    "Ntt.Props.C79_builds",
    "Ntt.Props.C79_never_truncates",
    "Ntt.Props.C79_works",
    "Ntt.Props.C79_additional_payload_lost",
    "Ntt.Props.C79_transfer_ownership_not_built"
   ],
   "note": "Anchor's JavaScript library, web3.js, spl-token, bn.js and the layout library of sdk-base are not in the repository and modelled from their documentation. C79_works: Means says what the order is for (who the owner is, whose tokens, which message), Faithful that addresses derived by other programs are the ones the program expects."
  },
  {
   "property": "C80",
   "status": "proved",
   "theorems": [
    "Ntt.Props.C80_as_listed",
    "Ntt.Props.C80_noted",
    "Ntt.Props.C80_append_only",
    "Ntt.Props.C80_anybody_can"
   ],
   "note": "The address lookup table program is not in the repository; Model/Lut models it from its documentation. The derived authority of the program signs no transaction (it has no private key). Fee collector and sequence account are the caller's choice (finding 22)."
  },
  {
   "property": "C81",
   "status": "proved",
   "theorems": [
    "Ntt.Props.C81_data_meaning",
    "Ntt.Props.C81_discriminators",
    "Ntt.Props.C81_same_effect",
    "Ntt.Props.C81_history",
    "Ntt.Props.C81_charge_exact",
    "Ntt.Props.C81_fees_stay_until_closed",
    "Ntt.Props.C81_settings_by_owner_or_assistant",
    "Ntt.Props.C81_assistant_by_owner",
    "Ntt.Props.C81_message_was_sent"
   ],
   "note": "C47, C49 and C50 carried over to accounts and bytes. Assumes that SHA-256 does not collide on the strings hashed in the history (QNoShaCollision), that nobody signs for the quoter's derived addresses (the quoter itself never does) and that nothing is at its addresses before deployment. C81_message_was_sent links the quoter's ledger with the manager's (C67). The quoter's generated dispatch code is not in the repository; taken from Anchor 0.29."
  },
  {
   "property": "C82",
   "status": "proved",
   "theorems": [
    "Ntt.Props.C82_can_be_called"
   ],
   "note": "Converse of C81. The payer of a request is a wallet (an account without data, as the system program demands). The quoter's own program id cannot be named as assistant: Anchor reads it as 'none'."
  },
  {
   "property": "C83",
   "status": "proved",
   "theorems": [
    "Ntt.Props.C83_substitution",
    "Ntt.Props.C83_well_placed",
    "Ntt.Props.C83_attestations_genuine",
    "Ntt.Props.C83_genesis",
    "Ntt.Props.C83_builtin",
    "Ntt.Props.C83_account_pays_once"
   ],
   "note": "C67, C68 and C54 for the standalone transceiver over accounts and bytes. Assumes that SHA-256 does not collide on the strings hashed in the history (for each of the two programs), that neither program has accounts before deployment, and the runtime rules at lexec (nobody else writes the transceiver's accounts, signs for addresses derived from its id or creates accounts there). C83_builtin and C83_account_pays_once: nobody uses the manager's own transceiver (UsesStandalone)."
  },
  {
   "property": "C84",
   "status": "proved",
   "theorems": [
    "Ntt.Props.C84_understood",
    "Ntt.Props.C84_nothing_else",
    "Ntt.Props.C84_one_meaning",
    "Ntt.Props.C84_sound",
    "Ntt.Props.C84_complete",
    "Ntt.Props.C84_writes"
   ],
   "note": "C71 and C72 for the standalone transceiver. The generated dispatch code is not in the repository; taken from Anchor 0.29. The accounts the core bridge writes itself are not part of the ledger."
  },
  {
   "property": "C85",
   "status": "proved",
   "theorems": [
    "Ntt.Props.C85_unobstructed",
    "Ntt.Props.C85_transceiver",
    "Ntt.Props.C85_manager",
    "Ntt.Props.C85_receive_never_blocked",
    "Ntt.Props.C85_release_never_blocked"
   ],
   "note": "Converse of C83; C70 for a ledger with both programs. Assumes, besides the assumptions of C83: nothing is at derived addresses before deployment, derived addresses have no private keys, and the addresses derived from one program's id for the roles used are not derived from the other's (Apart). tSupplied says what the caller brings: a signer who pays, the account where the guardians' message is posted, the core bridge's configuration. Lamports are not modelled."
  },
  {
   "property": "C86",
   "status": "proved",
   "theorems": [
    "Ntt.Props.C86_evm_accepts_exactly",
    "Ntt.Props.C86_same_bytes",
    "Ntt.Props.C86_same_digest",
    "Ntt.Props.C86_evm_reads_solana",
    "Ntt.Props.C86_solana_reads_evm",
    "Ntt.Props.C86_same_language",
    "Ntt.Props.C86_additional_payload",
    "Ntt.Props.C86_announcements"
   ],
   "note": "The Solidity SDK's BytesParsing library is not in the repository: modelled as loads from memory at an offset (behind the array: arbitrary bytes) and a final comparison of offset and length. abi.encodePacked as documented."
  },
  {
   "property": "C87",
   "status": "proved",
   "theorems": [
    "Ntt.Props.C87_same_trim",
    "Ntt.Props.C87_evm_sends_exactly",
    "Ntt.Props.C87_evm_to_solana",
    "Ntt.Props.C87_solana_to_evm",
    "Ntt.Props.C87_stuck_on_evm"
   ],
   "note": "Message and amount only: tokens, rate limits, queues, attestations and storage of the EVM contracts are not modelled (waiting in a queue changes neither message nor amount). The decimals recorded for a peer are assumed to be its token's. SafeCast, toWormholeFormat and fromWormholeFormat are not in the repository."
  },
  {
   "property": "C88",
   "status": "proved",
   "theorems": [
    "Ntt.Props.C88_codes",
    "Ntt.Props.C88_accepts_exactly",
    "Ntt.Props.C88_initialises_exactly",
    "Ntt.Props.C88_counts",
    "Ntt.Props.C88_transfer_is_counted",
    "Ntt.Props.C88_only_these_accounts"
   ],
   "note": "Anchor's account checks, the list format (spl-tlv-account-resolution 0.6.3) and the call of the hook by Token-2022 are not in the repository and modelled from their documentation. ByOthers says what other programs can do to the ledger (nothing to the hook's accounts and addresses). C88_transfer_is_counted: the derived address of the owner and the authority are not the counter's address (no collision of derived addresses)."
  },
  {
   "property": "C89",
   "status": "proved",
   "theorems": [
    "Ntt.Props.C89_gets_what_it_asked",
    "Ntt.Props.C89_client_suffices",
    "Ntt.Props.C89_amount_not_supported"
   ],
   "note": "Asked reads the list and resolves its entries against the ledger without limits on the accounts passed. C89_amount_not_supported is a witness that AmountFree is needed (the code has a TODO there). External: spl-tlv-account-resolution and spl-transfer-hook-interface 0.6.3, Token-2022."
  },
  {
   "property": "C90",
   "status": "proved",
   "theorems": [
    "Ntt.Props.C90_codes",
    "Ntt.Props.C90_accepted_iff",
    "Ntt.Props.C90_not_blocked",
    "Ntt.Props.C90_carried_out",
    "Ntt.Props.C90_anything_can_be_voted"
   ],
   "note": "Converse of C74. Assumptions of C73 (Sane), and: SHA-256 does not collide on the marker's string and the strings hashed in the history, the marker's address is not on the curve, and no custody account is at it. The instruction the message asks for is for the manager; accounts and arguments the same for all submitters except where the placeholder for the submitter is used. Left out of the statement 'anything': receive_message, whose effect depends on what is posted."
  },
  {
   "property": "C91",
   "status": "proved",
   "theorems": [
    "Ntt.Props.C91_paid_at_most_once",
    "Ntt.Props.C91_payout_justified",
    "Ntt.Props.C91_approved_means",
    "Ntt.Props.C91_attestation_origin",
    "Ntt.Props.C91_delivered_once"
   ],
   "note": "Digests: equal digests count as the same message (keccak is an arbitrary function). Not modelled: reentrancy (all entry points that move tokens are nonReentrant or effects come first; the token is a plain ledger with any fee on transfers), allowances, upgrades, the variant without rate limiting. C91_payout_justified: timestamps fit 64 bits. C91_attestation_origin: transceiver contracts send no transactions of their own; a verified VAA is what the core bridge says it is, and the relayer delivers what it was asked to."
  },
  {
   "property": "C92",
   "status": "proved",
   "theorems": [
    "Ntt.Props.C92_registry_consistent",
    "Ntt.Props.C92_threshold_in_range",
    "Ntt.Props.C92_add_transceiver",
    "Ntt.Props.C92_remove_transceiver",
    "Ntt.Props.C92_set_threshold",
    "Ntt.Props.C92_no_assertion_fails"
   ],
   "note": ""
  },
  {
   "property": "C93",
   "status": "proved",
   "theorems": [
    "Ntt.Props.C93_numbers",
    "Ntt.Props.C93_settled_once",
    "Ntt.Props.C93_sent_as_debited",
    "Ntt.Props.C93_cancelled_as_debited",
    "Ntt.Props.C93_nothing_lost"
   ],
   "note": "Same model as C91. C93_sent_as_debited and C93_nothing_lost: block times fit 64 bits (and are not zero). The value sent equals the value taken (the contract refuses dust)."
  },
  {
   "property": "C94",
   "status": "proved",
   "theorems": [
    "Ntt.Props.C94_locked",
    "Ntt.Props.C94_minted",
    "Ntt.Props.C94_own_tokens",
    "Ntt.Props.C94_received",
    "Ntt.Props.C94_can_be_cancelled"
   ],
   "note": "The token is a plain ledger with any fee on transfers, the manager is its minter, and the manager itself makes no calls as a user. C94_minted: the balances of the token add up to at most its supply at the start. Allowances and reentrancy are not modelled."
  },
  {
   "property": "C95",
   "status": "proved",
   "theorems": [
    "Ntt.Props.C95_outbound_limit",
    "Ntt.Props.C95_inbound_limit",
    "Ntt.Props.C95_waits_iff",
    "Ntt.Props.C95_paid_or_waits",
    "Ntt.Props.C95_backflow",
    "Ntt.Props.C95_limit_can_be_set",
    "Ntt.Props.C95_unlimited_peer_set_once"
   ],
   "note": "Block times never go back and fit 64 bits. Limits count in units of at most 8 decimals (evmUnit). C95_limit_can_be_set: token of at most 60 decimals, and the limit fits 64 bits in these units. C95_unlimited_peer_set_once is a finding about deployments of the ordinary contract with duration 0 (C101_set_peer_iff: not so in NttManagerNoRateLimiting)."
  },
  {
   "property": "C96",
   "status": "proved",
   "theorems": [
    "Ntt.Props.C96_changes_need_rights",
    "Ntt.Props.C96_outsiders",
    "Ntt.Props.C96_paused_stops_all",
    "Ntt.Props.C96_pause_iff",
    "Ntt.Props.C96_handover",
    "Ntt.Props.C96_wormhole_peer_stays",
    "Ntt.Props.C96_transceiver_follows",
    "Ntt.Props.C96_stale_transceiver"
   ],
   "note": "Upgrades and the settings that only choose between relaying routes are not modelled. C96_stale_transceiver is a finding."
  },
  {
   "property": "C97",
   "status": "proved",
   "theorems": [
    "Ntt.Props.C97_instructions_iff",
    "Ntt.Props.C97_encoder",
    "Ntt.Props.C97_round_trip",
    "Ntt.Props.C97_quote_iff",
    "Ntt.Props.C97_transfer_price",
    "Ntt.Props.C97_complete_price",
    "Ntt.Props.C97_quote_is_price",
    "Ntt.Props.C97_no_quote_after_removal"
   ],
   "note": "The prices that transceivers name are external (any function of transceiver, chain and payload). C97_transfer_price and C97_complete_price: the sender accepts refunds. C97_no_quote_after_removal is a finding."
  },
  {
   "property": "C98",
   "status": "proved",
   "theorems": [
    "Ntt.Props.C98_execute",
    "Ntt.Props.C98_attest",
    "Ntt.Props.C98_deliver",
    "Ntt.Props.C98_complete_inbound",
    "Ntt.Props.C98_complete_outbound_iff",
    "Ntt.Props.C98_transfer",
    "Ntt.Props.C98_unreadable_instructions_stay"
   ],
   "note": "Tokens of at most 57 decimals (beyond, the contract's own conversion overflows). EvmFunds: a locking manager holds the amount (C94 says when), a burning one can mint it without overflow of the supply. The token is a plain ledger that refuses only the zero address and amounts beyond the balance; C98_transfer is for tokens without a fee on the amount. C98_unreadable_instructions_stay is a finding. The prices are arbitrary here, and transceivers that are paid do not refuse; C105 adds the prices of the Wormhole transceiver and when it refuses."
  },
  {
   "property": "C99",
   "status": "proved",
   "theorems": [
    "Ntt.Props.C99_payouts_match_debits",
    "Ntt.Props.C99_paid_at_most_once",
    "Ntt.Props.C99_no_unbacked_value",
    "Ntt.Props.C99_supply_backed"
   ],
   "note": "Assumptions in MProper: fresh deployments; the owners register as agreed (MAgreed; other transceivers than the Wormhole ones are not registered); what is attested in the name of an emitter of a participating chain was published by it before, nothing is attested in the name of the zero address; the hash of the EVM chains does not collide on what is hashed in the history. The programs and managers make no transactions of their own in C99_supply_backed."
  },
  {
   "property": "C100",
   "status": "proved",
   "theorems": [
    "Ntt.Props.C100_arrives_on_evm",
    "Ntt.Props.C100_arrives_on_solana",
    "Ntt.Props.C100_all_backed",
    "Ntt.Props.C100_hub_can_pay"
   ],
   "note": "Assumptions as for C99 (MProper). C100_arrives_on_evm: the attesting transceiver together with earlier attestations reaches the threshold (EvmAccepts), the hash of the attestation was not used for another message before, tokens of at most 57 decimals, clock does not go back. C100_arrives_on_solana: the threshold is 1 in these programs; the hash does not collide on the published messages (SolanaNoCollision); Payable is what the token program needs."
  },
  {
   "property": "C101",
   "status": "proved",
   "theorems": [
    "Ntt.Props.C101_nothing_waits",
    "Ntt.Props.C101_sent_at_once",
    "Ntt.Props.C101_executed_is_paid",
    "Ntt.Props.C101_queue_calls_refused",
    "Ntt.Props.C101_limits_ignored",
    "Ntt.Props.C101_set_peer_iff",
    "Ntt.Props.C101_transfer_iff"
   ],
   "note": "The theorems of C91-C94 and C96-C100 quantify over deployments of both contracts (noLimits). C101_transfer_iff and C101_set_peer_iff: tokens of at most 57 decimals. C101_transfer_iff: no fee on the amount, the sender is not the manager itself."
  },
  {
   "property": "C102",
   "status": "proved",
   "theorems": [
    "Ntt.Props.C102_layout",
    "Ntt.Props.C102_one_recipient",
    "Ntt.Props.C102_not_for_solana",
    "Ntt.Props.C102_only_as_voted",
    "Ntt.Props.C102_once",
    "Ntt.Props.C102_performed_iff",
    "Ntt.Props.C102_one_after_another",
    "Ntt.Props.C102_changes_are_voted",
    "Ntt.Props.C102_no_vote_no_change"
   ],
   "note": "The core contract's verification of signatures and Solidity's decoding of call data (decode) are external. A contract outside the deployment that is called may do any acts in its own name and then succeed or fail; calls of the deployment do not call out (as in Model/EvmManager)."
  },
  {
   "property": "C103",
   "status": "proved",
   "theorems": [
    "Ntt.Props.C103_call_first",
    "Ntt.Props.C103_one_after_another",
    "Ntt.Props.C103_nothing_inside",
    "Ntt.Props.C103_paid_at_most_once",
    "Ntt.Props.C103_locked",
    "Ntt.Props.C103_minted"
   ],
   "note": "EvmPeersLeft: the refunded sender does not change a peer (only the owner could). The token does not call others (no hooks as in ERC-777), the Wormhole core contract and relayers do not call back."
  },
  {
   "property": "C104",
   "status": "proved",
   "theorems": [
    "Ntt.Props.C104_nobody_before",
    "Ntt.Props.C104_initialize_manager",
    "Ntt.Props.C104_initialize_transceiver",
    "Ntt.Props.C104_deployed",
    "Ntt.Props.C104_implementation_unusable",
    "Ntt.Props.C104_history",
    "Ntt.Props.C104_refused",
    "Ntt.Props.C104_upgrade_manager",
    "Ntt.Props.C104_upgrade_transceiver",
    "Ntt.Props.C104_paid_at_most_once",
    "Ntt.Props.C104_locked"
   ],
   "note": "Implementations are those of this repository (an owner who upgrades to other code can do anything); a manager with rate limits is not exchanged for one of the variant without (EvmSameKind). The token has decimals other than 0 where nobody has initialised yet, at most 57 where the deployer does. The first initialisations are in one piece in C104_deployed. The proxies (ERC-1967) themselves are external."
  },
  {
   "property": "C105",
   "status": "proved",
   "theorems": [
    "Ntt.Props.C105_told",
    "Ntt.Props.C105_quote",
    "Ntt.Props.C105_send",
    "Ntt.Props.C105_skip",
    "Ntt.Props.C105_contradictory",
    "Ntt.Props.C105_transfer",
    "Ntt.Props.C105_complete",
    "Ntt.Props.C105_others",
    "Ntt.Props.C105_settings",
    "Ntt.Props.C105_history",
    "Ntt.Props.C105_no_peer",
    "Ntt.Props.C105_refund_stays"
   ],
   "note": "The core contract and the two relayers are external: what they charge is arbitrary (per transaction), what they are asked is recorded, and they do not refuse what is paid as charged. Transceivers are those of this manager (own). C105_contradictory, C105_no_peer and C105_refund_stays are findings. Publishing a registration or the announcement of a transceiver (also through the core contract) is not among the requests."
  },
  {
   "property": "C106",
   "status": "proved",
   "theorems": [
    "Ntt.Props.C106_paid_at_most_once",
    "Ntt.Props.C106_paid_as_asked",
    "Ntt.Props.C106_given_back_at_most_once",
    "Ntt.Props.C106_given_back_as_taken",
    "Ntt.Props.C106_locked",
    "Ntt.Props.C106_minted",
    "Ntt.Props.C106_refused",
    "Ntt.Props.C106_nothing_inside"
   ],
   "note": "Whoever is called may do any calls in the model, to any depth; a called contract that reverts reverts the call that called it, which then counts as not made. The fee a token keeps goes to its collector without another call. The Wormhole core contract and the relayers do not call back (external). C106_nothing_inside: with nobody calling back, this is the model of the other properties."
  },
  {
   "property": "C107",
   "status": "proved",
   "theorems": [
    "Ntt.Props.C107_numbers",
    "Ntt.Props.C107_exact",
    "Ntt.Props.C107_shows",
    "Ntt.Props.C107_quote_close",
    "Ntt.Props.C107_quotes",
    "Ntt.Props.C107_quote_covers",
    "Ntt.Props.C107_cost_covers",
    "Ntt.Props.C107_builds",
    "Ntt.Props.C107_works",
    "Ntt.Props.C107_automatic",
    "Ntt.Props.C107_dropoff_mistaken",
    "Ntt.Props.C107_dropoff_refused",
    "Ntt.Props.C107_enabled",
    "Ntt.Props.C107_close_not_built"
   ],
   "note": "JavaScript numbers are rationals, every operation rounded to 53 significant bits (ties to even) as in IEEE 754, without a largest or smallest exponent. Anchor's library, bn.js and sdk-base are external, modelled from their documentation. The rent is at least 11 lamports (1 for C107_cost_covers). C107_dropoff_mistaken, C107_dropoff_refused, C107_enabled and C107_close_not_built are findings: the last sentence of the statement is proved, not assumed."
  },
  {
   "property": "C108",
   "status": "proved",
   "theorems": [
    "Ntt.Props.C108_writes",
    "Ntt.Props.C108_reads",
    "Ntt.Props.C108_round_trip",
    "Ntt.Props.C108_reads_solana",
    "Ntt.Props.C108_reads_evm",
    "Ntt.Props.C108_digest_evm",
    "Ntt.Props.C108_digest_solana",
    "Ntt.Props.C108_announcements",
    "Ntt.Props.C108_instructions",
    "Ntt.Props.C108_call",
    "Ntt.Props.C108_limit_shown",
    "Ntt.Props.C108_limit_set",
    "Ntt.Props.C108_amount",
    "Ntt.Props.C108_evm_sends",
    "Ntt.Props.C108_shown_on_solana",
    "Ntt.Props.C108_shown_on_evm",
    "Ntt.Props.C108_shown_between_evm",
    "Ntt.Props.C108_warned"
   ],
   "note": "The interpreter of layouts, the list of known chains, truncation and scaling of amounts are in sdk-base and external, modelled from their documentation. Values are in the range of their items. C108_shown_*: the decimals that the sender has recorded for the peer are those of the token there, which is also what the SDK uses. C108_warned: the capacity shown is that of the time of the payment."
  },
  {
   "property": "C109",
   "status": "proved",
   "theorems": [
    "Ntt.Props.C109_executed_solana",
    "Ntt.Props.C109_queued_solana",
    "Ntt.Props.C109_waiting_solana",
    "Ntt.Props.C109_approved_solana",
    "Ntt.Props.C109_capacity_outbound",
    "Ntt.Props.C109_capacity_inbound",
    "Ntt.Props.C109_finalize_solana",
    "Ntt.Props.C109_queued_evm",
    "Ntt.Props.C109_shown_evm",
    "Ntt.Props.C109_executed_evm",
    "Ntt.Props.C109_approved_evm",
    "Ntt.Props.C109_no_limits",
    "Ntt.Props.C109_finalize_evm",
    "Ntt.Props.C109_track_forward",
    "Ntt.Props.C109_track_solana",
    "Ntt.Props.C109_track_solana_done",
    "Ntt.Props.C109_track_evm",
    "Ntt.Props.C109_track_evm_done"
   ],
   "note": "The message is one the SDK can write down (SdkNames); the digest is that of the SDK (C108 says when it is the chain's). Transfers that came through the relayer are said not to be executed on Solana, where there is none. Nodes answer from the current state; sending and waiting for transactions (sdk-connect) is external. The release times of Solana are below 2^53 where the SDK shows them. EVM: the clock is not 0 modulo 2^64; C109_shown_evm: tokens of at most 60 decimals, the clock below 2^64. The last two sentences of the statement, the one about approval on Solana and those about finalize are findings that are proved."
  },
  {
   "property": "C110",
   "status": "proved",
   "theorems": [
    "Ntt.Props.C110_transfer",
    "Ntt.Props.C110_transfer_works",
    "Ntt.Props.C110_redeem",
    "Ntt.Props.C110_redeem_works",
    "Ntt.Props.C110_received_first",
    "Ntt.Props.C110_no_account",
    "Ntt.Props.C110_own_account",
    "Ntt.Props.C110_additional_payload"
   ],
   "note": "The instructions are those of Model/Manager; which accounts the builders name is C92. The configuration kept by the client is the current one; posting the VAA to the core bridge, lookup tables and sending are external; the relay request is C107. C110_redeem: the message carries no additional payload (otherwise C110_additional_payload, where the two digests do not collide). C110_transfer_works: the token takes no fee, and the token authority is not the sender. The last sentence of the statement is proved as three findings."
  },
  {
   "property": "C111",
   "status": "proved",
   "theorems": [
    "Ntt.Props.C111_transfer_iff",
    "Ntt.Props.C111_others_iff",
    "Ntt.Props.C111_own_approval",
    "Ntt.Props.C111_leave",
    "Ntt.Props.C111_own_tokens",
    "Ntt.Props.C111_same_histories",
    "Ntt.Props.C111_locked"
   ],
   "note": "The token is external: an ERC-20 like OpenZeppelin's, with transferFrom and burnFrom within allowances; permits are not modelled. C111_leave: the holder never approved the largest amount, which such tokens take as everything (what is then taken is bounded by the balance only)."
  },
  {
   "property": "C112",
   "status": "proved",
   "theorems": [
    "Ntt.Props.C112_plan",
    "Ntt.Props.C112_send_works",
    "Ntt.Props.C112_send_effect",
    "Ntt.Props.C112_no_send_after_removal",
    "Ntt.Props.C112_redeem_iff",
    "Ntt.Props.C112_redeem_not",
    "Ntt.Props.C112_redeem",
    "Ntt.Props.C112_redeem_works"
   ],
   "note": "Sending to the chain, gas and reading the contract are external; price and allowance are read in the same state, and for C112_send_works nobody else's transaction comes between reading and sending and the prices are unchanged. The core bridge refuses bytes that were not signed (external). The findings are C112_no_send_after_removal and C112_redeem_not."
  },
  {
   "property": "C113",
   "status": "proved",
   "theorems": [
    "Ntt.Props.C113_contracts",
    "Ntt.Props.C113_same_deployment",
    "Ntt.Props.C113_mixed",
    "Ntt.Props.C113_resume",
    "Ntt.Props.C113_quote",
    "Ntt.Props.C113_starts_evm",
    "Ntt.Props.C113_sends_evm",
    "Ntt.Props.C113_sends_solana",
    "Ntt.Props.C113_arrives_evm",
    "Ntt.Props.C113_arrives_solana",
    "Ntt.Props.C113_evm_to_evm",
    "Ntt.Props.C113_evm_to_solana",
    "Ntt.Props.C113_solana_to_evm"
   ],
   "note": "Amounts are in units (amount.parse is external); what the destination says about its duration and capacity, and the relayers' price, are given. The decimals of the request are those of the tokens at both ends (hypotheses). From EVM chains: the token takes no fee and the sender is not the manager. On Solana, C113_arrives_solana is about the first vote for a transfer (no entry in the inbox). From Solana, the decimals that the program has recorded for the peer are those of the token there. The last sentence of the statement is a finding (C113_mixed). C113_resume: the SDK writes the address of the manager as the configuration does, up to upper and lower case."
  },
  {
   "property": "C114",
   "status": "proved",
   "theorems": [
    "Ntt.Props.C114_solana",
    "Ntt.Props.C114_owner_solana",
    "Ntt.Props.C114_shown_solana",
    "Ntt.Props.C114_works_solana",
    "Ntt.Props.C114_kept",
    "Ntt.Props.C114_register",
    "Ntt.Props.C114_evm",
    "Ntt.Props.C114_works_evm",
    "Ntt.Props.C114_no_limits",
    "Ntt.Props.C114_verify"
   ],
   "note": "What is shown is that of a client which remembers nothing (Solana; see C114_kept for the other ones). EVM: C114_evm is for managers with limits; C114_works_evm also for tokens of at most 60 decimals; isPaused, owner, pauser, getThreshold and getMode are read from the contract (external). Numbers that do not fit are refused by the encoders (external). The last sentence of the statement: C114_owner_solana, C114_kept, C114_no_limits."
  },
  {
   "property": "C115",
   "status": "proved",
   "theorems": [
    "Ntt.Props.C115_limit_accepted",
    "Ntt.Props.C115_limit_read",
    "Ntt.Props.C115_limit_shown",
    "Ntt.Props.C115_no_difference",
    "Ntt.Props.C115_push",
    "Ntt.Props.C115_up_to_date",
    "Ntt.Props.C115_paused_left_out"
   ],
   "note": "Writing and reading addresses and the names of chains are parameters (external, the SDK); of BigInt only texts of digits are modelled. C115_up_to_date: every chain named has a peer, limits are multiples of the unit that limits have. The last sentence of the statement: C115_limit_shown, C115_paused_left_out."
  },
  {
   "property": "C116",
   "status": "proved",
   "theorems": [
    "Ntt.Props.C116_push",
    "Ntt.Props.C116_nothing_missing",
    "Ntt.Props.C116_after_push",
    "Ntt.Props.C116_connected",
    "Ntt.Props.C116_settings_keep_peers",
    "Ntt.Props.C116_whole_push"
   ],
   "note": "What the tool reads from the chains is given; every transaction goes through and is then read as it should be (for peers, C114). Chains have only one deployment (the file is an object with a key for each). Of BigInt only texts of digits are modelled (C115). The last sentence of the statement: C116_after_push (peers that were there are as they were) with the example."
  },
  {
   "property": "C117",
   "status": "proved",
   "theorems": [
    "Ntt.Props.C117_get",
    "Ntt.Props.C117_get_fails",
    "Ntt.Props.C117_set",
    "Ntt.Props.C117_options",
    "Ntt.Props.C117_set_then_get",
    "Ntt.Props.C117_get_chain_fails"
   ],
   "note": "Files and the environment are external; the project is not the home directory itself; the name of the variable in the environment is a parameter; chains and keys are checked by the parser of options (external). The last sentence of the statement: C117_options, C117_get_chain_fails."
  }
 ]
}