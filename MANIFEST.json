{
 "claims": [
  {
   "property": "C01",
   "status": "proved",
   "theorems": [
    "Props.C01_swap_books",
    "Props.C01_example"
   ],
   "note": ""
  },
  {
   "property": "C02",
   "status": "proved",
   "theorems": [
    "Props.C02_fee_split",
    "Props.C02_example"
   ],
   "note": ""
  },
  {
   "property": "C03",
   "status": "proved",
   "theorems": [
    "Props.C03_rate_bounds",
    "Props.C03_base_rate",
    "Props.C03_example"
   ],
   "note": ""
  },
  {
   "property": "C04",
   "status": "proved",
   "theorems": [
    "Props.C04_exact_in",
    "Props.C04_example"
   ],
   "note": ""
  },
  {
   "property": "C05",
   "status": "proved",
   "theorems": [
    "Props.C05_exact_out",
    "Props.C05_example"
   ],
   "note": ""
  },
  {
   "property": "C06",
   "status": "partial",
   "theorems": [
    "Props.C06_minimum_and_end",
    "Props.C06_at_most_offered_partial",
    "Props.C06_overcharge",
    "Props.C06_overcharge_bounded",
    "Props.C06_example"
   ],
   "note": "False as stated: inside the window of a rate limiter a partial fill can take more than was offered (C06_overcharge gives two reachable pools). The minimum and the end-of-curve part hold always; the amount part is proved for every swap the limiter does not look at, and C06_overcharge_bounded bounds the excess for the others by a millionth of the offer and 30300 units (800 without dynamic fee)."
  },
  {
   "property": "C07",
   "status": "proved",
   "theorems": [
    "Props.C07_price_range",
    "Props.C07_price_direction",
    "Props.C07_example"
   ],
   "note": ""
  },
  {
   "property": "C08",
   "status": "proved",
   "theorems": [
    "Props.C08_rounds_for_pool",
    "Props.C08_example"
   ],
   "note": ""
  },
  {
   "property": "C09",
   "status": "proved",
   "theorems": [
    "Props.C09_no_extraction",
    "Props.C09_example"
   ],
   "note": "Stronger than stated: any instructions may be interleaved, and referral fees count as traders' gains."
  },
  {
   "property": "C10",
   "status": "proved",
   "theorems": [
    "Props.C10_reserve_backs_curve",
    "Props.C10_C12_example"
   ],
   "note": ""
  },
  {
   "property": "C100",
   "status": "proved",
   "theorems": [
    "Props.C100_buy",
    "Props.C100_sale",
    "Props.C100_example"
   ],
   "note": "Amounts are those booked in the reserves, without fees. The smaller trade is assumed larger than the rounding itself."
  },
  {
   "property": "C101",
   "status": "proved",
   "theorems": [
    "Props.C101_log_tells",
    "Props.C101_log_exists",
    "Props.C101_swap",
    "Props.C101_payment",
    "Props.C101_example"
   ],
   "note": "What can be read off is listed in Spec.Tells (as in C70); protocol fee claims are covered event by event in C101_payment, since a zap is not logged (C70_zap_silent). Events on configurations are under C103, those on descriptions and legacy operator accounts under C73."
  },
  {
   "property": "C102",
   "status": "proved",
   "theorems": [
    "Props.C102_migration_record",
    "Props.C102_due",
    "Props.C102_operator",
    "Props.C102_example"
   ],
   "note": "The discriminator, the pool key and the LP mint key are parameters; the LP mint field is zero until the migration, which the theorem covers as key 0. Operators present at the start are assumed made by this program."
  },
  {
   "property": "C103",
   "status": "proved",
   "theorems": [
    "Props.C103_told",
    "Props.C103_determined",
    "Props.C103_example"
   ],
   "note": "The configuration's address stands beside each pair of events. Events on descriptions and legacy operator accounts are under C73."
  },
  {
   "property": "C104",
   "status": "proved",
   "theorems": [
    "Props.C104_accounts",
    "Props.C104_powers",
    "Props.C104_accepted",
    "Props.C104_by_admins",
    "Props.C104_again",
    "Props.C104_example"
   ],
   "note": "When a permitted call goes through is under C17 and C18. Closing an account that does not exist is refused by the runtime; in the model it does nothing."
  },
  {
   "property": "C105",
   "status": "proved",
   "theorems": [
    "Props.C105_holder",
    "Props.C105_accepted",
    "Props.C105_custody",
    "Props.C105_example"
   ],
   "note": "When a handover is possible is under C37. Publishing a description is under C73; LP tokens, positions and the escrow, which go to the creator of their time, are under C38, C22 and C50."
  },
  {
   "property": "C11",
   "status": "proved",
   "theorems": [
    "Props.C11_never_refused",
    "Props.C11_vault_covers",
    "Props.C11_always_covered",
    "Props.C11_example"
   ],
   "note": ""
  },
  {
   "property": "C12",
   "status": "proved",
   "theorems": [
    "Props.C12_top_is_complete",
    "Props.C10_C12_example"
   ],
   "note": ""
  },
  {
   "property": "C13",
   "status": "proved",
   "theorems": [
    "Props.C13_vaults_solvent",
    "Props.C13_example"
   ],
   "note": ""
  },
  {
   "property": "C14",
   "status": "proved",
   "theorems": [
    "Props.C14_fee_claims_never_starved",
    "Props.C14_zap_never_starved",
    "Props.C14_shares_never_starved",
    "Props.C14_others_never_starved",
    "Props.C14_example"
   ],
   "note": ""
  },
  {
   "property": "C15",
   "status": "proved",
   "theorems": [
    "Props.C15_split",
    "Props.C15_once",
    "Props.C15_eligible",
    "Props.C15_C16_C17_example"
   ],
   "note": ""
  },
  {
   "property": "C16",
   "status": "proved",
   "theorems": [
    "Props.C16_split",
    "Props.C16_once",
    "Props.C16_eligible",
    "Props.C15_C16_C17_example"
   ],
   "note": ""
  },
  {
   "property": "C17",
   "status": "proved",
   "theorems": [
    "Props.C17_creation_fee",
    "Props.C17_eligible",
    "Props.C17_C18_C38_C50_when",
    "Props.C15_C16_C17_example"
   ],
   "note": "The protocol claim may succeed again paying nothing; the total paid is counted."
  },
  {
   "property": "C18",
   "status": "proved",
   "theorems": [
    "Props.C18_partner_claim",
    "Props.C18_creator_claim",
    "Props.C18_protocol_claim",
    "Props.C18_protocol_zap",
    "Props.C18_eligible",
    "Props.C17_C18_C38_C50_when",
    "Props.C18_example"
   ],
   "note": "The one-time surplus is paid on top of the cap."
  },
  {
   "property": "C19",
   "status": "proved",
   "theorems": [
    "Props.C19_lifetime_fees",
    "Props.C19_accrual",
    "Props.C19_start",
    "Props.C19_example"
   ],
   "note": ""
  },
  {
   "property": "C20",
   "status": "proved",
   "theorems": [
    "Props.C20_forward",
    "Props.C20_swap_before_completion",
    "Props.C20_final",
    "Props.C20_migrated_once",
    "Props.C20_migrate_when",
    "Props.C20_example"
   ],
   "note": ""
  },
  {
   "property": "C21",
   "status": "proved",
   "theorems": [
    "Props.C21_migration",
    "Props.C21_example",
    "Props.C52_migrates_v2",
    "Props.C52_migrates_v1"
   ],
   "note": "That the computations succeed for every completed pool is C52. For a concentrated pool the base-side protocol fee is bounded by 0.2% of the configured base amount plus 0.002 units, and all base tokens not owed as fees may be deposited."
  },
  {
   "property": "C22",
   "status": "proved",
   "theorems": [
    "Props.C22_distribution",
    "Props.C22_adjust",
    "Props.C22_example",
    "Props.C22_positions",
    "Props.C22_positions_example"
   ],
   "note": ""
  },
  {
   "property": "C23",
   "status": "proved",
   "theorems": [
    "Props.C23_vesting",
    "Props.C23_example",
    "Props.C23_configured",
    "Props.C23_configured_example"
   ],
   "note": ""
  },
  {
   "property": "C24",
   "status": "proved",
   "theorems": [
    "Props.C24_locked",
    "Props.C24_example",
    "Props.C65_positions"
   ],
   "note": "Rounding allowance 40002 liquidity units (each 2^-64). C65_positions says the same of the positions the migration actually makes."
  },
  {
   "property": "C25",
   "status": "proved",
   "theorems": [
    "Props.C25_accepted",
    "Props.C25_example"
   ],
   "note": ""
  },
  {
   "property": "C26",
   "status": "proved",
   "theorems": [
    "Props.C26_migration_price",
    "Props.C26_example"
   ],
   "note": ""
  },
  {
   "property": "C27",
   "status": "proved",
   "theorems": [
    "Props.C27_supply",
    "Props.C27_example"
   ],
   "note": ""
  },
  {
   "property": "C28",
   "status": "proved",
   "theorems": [
    "Props.C28_schedule",
    "Props.C28_example"
   ],
   "note": ""
  },
  {
   "property": "C29",
   "status": "proved",
   "theorems": [
    "Props.C29_limiter_rate",
    "Props.C29_limiter_tokens",
    "Props.C29_limiter_monotone",
    "Props.C29_limiter_added",
    "Props.C29_limiter_added_exists",
    "Props.C43_limiter_in",
    "Props.C43_limiter_out",
    "Props.C29_example"
   ],
   "note": "Strict monotonicity of the token fee is false by rounding of the rate; the example proves a witness and the theorem bounds the drop."
  },
  {
   "property": "C30",
   "status": "proved",
   "theorems": [
    "Props.C30_bounded",
    "Props.C30_never_blocks",
    "Props.C30_disabled",
    "Props.C30_value",
    "Props.C30_example"
   ],
   "note": "For the very first swap of a pool the clock must have reached the filter period (at most 65535 seconds of Unix time); C30_value also gives the exact tracker contents."
  },
  {
   "property": "C31",
   "status": "proved",
   "theorems": [
    "Props.C31_first_swap_only",
    "Props.C31_at_most_one",
    "Props.C31_example",
    "Props.C03_rate_bounds"
   ],
   "note": "C03_rate_bounds gives the rate an eligible first swap pays."
  },
  {
   "property": "C32",
   "status": "proved",
   "theorems": [
    "Props.C32_quote_only",
    "Props.C32_output_token",
    "Props.C32_example"
   ],
   "note": ""
  },
  {
   "property": "C33",
   "status": "proved",
   "theorems": [
    "Props.C33_eligible",
    "Props.C33_vault_covers",
    "Props.C33_C34_example"
   ],
   "note": ""
  },
  {
   "property": "C34",
   "status": "proved",
   "theorems": [
    "Props.C34_burn_bounded",
    "Props.C34_fees_untouched",
    "Props.C33_C34_example"
   ],
   "note": ""
  },
  {
   "property": "C35",
   "status": "proved",
   "theorems": [
    "Props.C35_partner",
    "Props.C35_creator",
    "Props.C35_protocol",
    "Props.C35_leftover",
    "Props.C35_fixed",
    "Props.C35_example"
   ],
   "note": ""
  },
  {
   "property": "C36",
   "status": "proved",
   "theorems": [
    "Props.C36_create",
    "Props.C36_grants",
    "Props.C36_separate",
    "Props.C36_example"
   ],
   "note": ""
  },
  {
   "property": "C37",
   "status": "proved",
   "theorems": [
    "Props.C37_change",
    "Props.C37_nothing_pending",
    "Props.C37_after_migration",
    "Props.C37_otherwise",
    "Props.C37_C38_example",
    "Props.C37_when_example"
   ],
   "note": ""
  },
  {
   "property": "C38",
   "status": "proved",
   "theorems": [
    "Props.C38_shares",
    "Props.C38_available",
    "Props.C38_exhaustive",
    "Props.C38_eligible",
    "Props.C17_C18_C38_C50_when",
    "Props.C37_C38_example"
   ],
   "note": ""
  },
  {
   "property": "C39",
   "status": "proved",
   "theorems": [
    "Props.C39_sqrt_exact",
    "Props.C39_example"
   ],
   "note": ""
  },
  {
   "property": "C40",
   "status": "proved",
   "theorems": [
    "Props.C40_exponential_accurate",
    "Props.C40_can_exceed",
    "Props.C40_example"
   ],
   "note": "The fee can exceed the real value by less than 0.000004 units; a witness is proved."
  },
  {
   "property": "C41",
   "status": "proved",
   "theorems": [
    "Props.C41_one_buy",
    "Props.C41_example"
   ],
   "note": "The transaction as the program sees it through the instructions sysvar: assumes the Solana runtime rules that a called program's accounts come from its caller, and that this program is not re-entered except by its own event log (Spec ValidTx)."
  },
  {
   "property": "C42",
   "status": "proved",
   "theorems": [
    "Props.C42_split",
    "Props.C42_swap_split",
    "Props.C42_pieces",
    "Props.C42_out_pieces",
    "Props.C42_example",
    "Props.C42_swap_example",
    "Props.C42_limiter_rewards_splitting",
    "Props.C42_volatility_rewards_splitting",
    "Props.C42_pieces_example"
   ],
   "note": "C42_split is stated for every price of the curve range, not only the current price of the pool; C42_pieces and C42_out_pieces for whole swaps. C42_limiter_rewards_splitting and C42_volatility_rewards_splitting show by reachable examples that the two conditions of the part with fees cannot be dropped."
  },
  {
   "property": "C43",
   "status": "proved",
   "theorems": [
    "Props.C43_more_in",
    "Props.C43_more_out",
    "Props.C43_swap_in",
    "Props.C43_swap_out",
    "Props.C43_limiter_in",
    "Props.C43_limiter_out",
    "Props.C43_volatile_limiter_punishes",
    "Props.C43_example",
    "Props.C43_limiter_example"
   ],
   "note": "C43_volatile_limiter_punishes is a concrete reachable pool in which offering twice as much receives less; the rate-limiter theorems therefore ask for no volatility fee."
  },
  {
   "property": "C44",
   "status": "proved",
   "theorems": [
    "Props.C44_concentrated",
    "Props.C44_compounding",
    "Props.C44_second_concentrated",
    "Props.C44_second_compounding",
    "Props.C44_example",
    "Props.C22_positions"
   ],
   "note": ""
  },
  {
   "property": "C45",
   "status": "proved",
   "theorems": [
    "Props.C45_no_panic",
    "Props.C45_config",
    "Props.C45_pool",
    "Props.C45_example",
    "Props.C45_refusals"
   ],
   "note": "The optional second-position accounts of a DAMM v2 migration are assumed present when needed (the code unwraps them). The swaps of this program listed by the transaction as already executed are assumed to carry at least three accounts, as their own execution required."
  },
  {
   "property": "C46",
   "status": "proved",
   "theorems": [
    "Props.C46_completable",
    "Props.C46_buy_any",
    "Props.C46_example"
   ],
   "note": "Hypotheses: pool activated, clock past the filter period for the first swap, a buy inside a rate-limiter window is alone in its transaction, offered tokens exist (with the margin of C06_overcharge_bounded inside the window), 64-bit lifetime fee counters do not overflow."
  },
  {
   "property": "C47",
   "status": "proved",
   "theorems": [
    "Props.C47_covers_integral",
    "Props.C47_not_dearer",
    "Props.C47_example",
    "Props.C47_curve_point"
   ],
   "note": "C47_curve_point is the concrete trade ending on a curve point that costs more than an exact-in trade with the same output."
  },
  {
   "property": "C48",
   "status": "proved",
   "theorems": [
    "Props.C48_guarded",
    "Props.C48_rent",
    "Props.C48_never_drained",
    "Props.C48_example"
   ],
   "note": "The called programs are arbitrary functions of the accounts; the system program's transfer is modelled. The payer is assumed different from the pool authority (a program address cannot sign as payer)."
  },
  {
   "property": "C49",
   "status": "proved",
   "theorems": [
    "Props.C49_authorities",
    "Props.C49_mint",
    "Props.C49_example"
   ],
   "note": ""
  },
  {
   "property": "C50",
   "status": "proved",
   "theorems": [
    "Props.C50_funded",
    "Props.C50_escrow",
    "Props.C50_completion_time",
    "Props.C50_eligible",
    "Props.C17_C18_C38_C50_when",
    "Props.C50_example"
   ],
   "note": ""
  },
  {
   "property": "C51",
   "status": "proved",
   "theorems": [
    "Props.C51_every_token_accounted",
    "Props.C51_example"
   ],
   "note": ""
  },
  {
   "property": "C52",
   "status": "proved",
   "theorems": [
    "Props.C52_migrates_v2",
    "Props.C52_migrates_v1",
    "Props.C52_never_stuck",
    "Props.C52_example"
   ],
   "note": "DAMM v1/v2 are environment contracts: they take the tokens their formulas ask for (Spec.CreatesPool, Spec.AddsLiquidity) and do not fail."
  },
  {
   "property": "C53",
   "status": "proved",
   "theorems": [
    "Props.C53_sell_back",
    "Props.C53_sell_any",
    "Props.C53_example"
   ],
   "note": "Same environment hypotheses as C46 (no limiter condition: the limiter never looks at sales)."
  },
  {
   "property": "C54",
   "status": "proved",
   "theorems": [
    "Props.C54_fees",
    "Props.C54_final",
    "Props.C54_example",
    "Props.C54_not_exact"
   ],
   "note": "Requests to DAMM are modelled as data (what the program sends); what DAMM does with them is outside. For fixed fee options the dynamic fee, collection mode and kind of the DAMM v2 configuration are not checked by the program and not covered."
  },
  {
   "property": "C55",
   "status": "proved",
   "theorems": [
    "Props.C55_price",
    "Props.C55_example"
   ],
   "note": ""
  },
  {
   "property": "C56",
   "status": "proved",
   "theorems": [
    "Props.C56_fee_over_time",
    "Props.C56_example"
   ],
   "note": "Hypothesis: the clock has not run backwards since creation."
  },
  {
   "property": "C57",
   "status": "proved",
   "theorems": [
    "Props.C57_quote_exact",
    "Props.C57_quote_honoured",
    "Props.C57_example"
   ],
   "note": "The quote functions of /repo/dynamic-bonding-curve-sdk; same environment hypotheses as C46. The caller passes the first-swap flag the program would find."
  },
  {
   "property": "C58",
   "status": "proved",
   "theorems": [
    "Props.C58_fair",
    "Props.C58_example"
   ],
   "note": ""
  },
  {
   "property": "C59",
   "status": "proved",
   "theorems": [
    "Props.C59_every_pool_reachable",
    "Props.C59_vaults",
    "Props.C59_nothing_shared",
    "Props.C59_solvent_together",
    "Props.C59_C60_example"
   ],
   "note": "Account layer (Verif/Model/Chain.lean): address derivations are arbitrary functions (nothing is assumed about collisions); the token programs and the locker/DAMM programs are modelled as in DESIGN.md section 2."
  },
  {
   "property": "C60",
   "status": "proved",
   "theorems": [
    "Props.C60_others_untouched",
    "Props.C60_addressed",
    "Props.C60_new_pools",
    "Props.C59_C60_example"
   ],
   "note": ""
  },
  {
   "property": "C61",
   "status": "proved",
   "theorems": [
    "Props.C61_swap_payments",
    "Props.C61_example"
   ],
   "note": ""
  },
  {
   "property": "C62",
   "status": "proved",
   "theorems": [
    "Props.C62_partner_fee",
    "Props.C62_creator_fee",
    "Props.C62_protocol_fee",
    "Props.C62_zap",
    "Props.C62_leftover",
    "Props.C62_shares",
    "Props.C62_creation_fee",
    "Props.C62_example"
   ],
   "note": "Amounts of the creation fee in lamports are C17."
  },
  {
   "property": "C63",
   "status": "proved",
   "theorems": [
    "Props.C63_no_theft",
    "Props.C63_example"
   ],
   "note": ""
  },
  {
   "property": "C64",
   "status": "proved",
   "theorems": [
    "Props.C64_plain_mints",
    "Props.C64_example"
   ],
   "note": ""
  },
  {
   "property": "C65",
   "status": "proved",
   "theorems": [
    "Props.C65_positions",
    "Props.C65_example",
    "Props.C65_dust"
   ],
   "note": "Hypothesis CreatesPool: DAMM v2 takes for the first position exactly the tokens its formulas ask for. The last sentence is the witness C65_dust."
  },
  {
   "property": "C66",
   "status": "proved",
   "theorems": [
    "Props.C66_lags",
    "Props.C66_reset",
    "Props.C66_washed",
    "Props.C66_example"
   ],
   "note": ""
  },
  {
   "property": "C67",
   "status": "proved",
   "theorems": [
    "Props.C67_swap",
    "Props.C67_history",
    "Props.C67_tracks",
    "Props.C67_surplus",
    "Props.C67_example"
   ],
   "note": ""
  },
  {
   "property": "C68",
   "status": "proved",
   "theorems": [
    "Props.C68_goes_through",
    "Props.C68_example"
   ],
   "note": "Addresses derived for metadata accounts are assumed different for different pools. The called programs (locker, DAMM) are assumed to accept what they are sent."
  },
  {
   "property": "C69",
   "status": "proved",
   "theorems": [
    "Props.C69_never_stuck",
    "Props.C69_completable",
    "Props.C69_sell_back",
    "Props.C69_example",
    "Props.C69_completable_example",
    "Props.C69_sell_back_example"
   ],
   "note": "Assumptions of C68; for the trades those of C46 and C53 about clock, activation, rate-limiter window and 64-bit fee counters. That the tokens exist is derived, not assumed."
  },
  {
   "property": "C70",
   "status": "proved",
   "theorems": [
    "Props.C70_log_exists",
    "Props.C70_log_tells",
    "Props.C70_swap_event",
    "Props.C70_payment_event",
    "Props.C70_protocol_claims",
    "Props.C70_zap_silent",
    "Props.C70_example",
    "Props.C70_swap_example",
    "Props.C70_payment_example",
    "Props.C70_protocol_example"
   ],
   "note": "C70_zap_silent is the concrete history in which the log reports 5 base tokens paid to the protocol and 1005 were paid."
  },
  {
   "property": "C71",
   "status": "proved",
   "theorems": [
    "Props.C71_price",
    "Props.C71_liquidity",
    "Props.C71_price_can_rise",
    "Props.C71_example"
   ],
   "note": "C71_price_can_rise contradicts the comment of a test in the repository; C71_price bounds the rise."
  },
  {
   "property": "C72",
   "status": "proved",
   "theorems": [
    "Props.C72_offer_the_cost",
    "Props.C72_ask_the_yield",
    "Props.C72_fee_inverse",
    "Props.C72_limiter_exception",
    "Props.C72_example"
   ],
   "note": "C72_limiter_exception is a reachable pool with a rate limiter where offering what an exact-output buy costs yields less."
  },
  {
   "property": "C73",
   "status": "proved",
   "theorems": [
    "Props.C73_partner_genuine",
    "Props.C73_project_genuine",
    "Props.C73_permanent",
    "Props.C73_partner_can_publish",
    "Props.C73_creator_can_publish",
    "Props.C73_others_refused",
    "Props.C73_apart",
    "Props.C73_legacy",
    "Props.C73_legacy_close",
    "Props.C73_example",
    "Props.C73_partner_logged",
    "Props.C73_project_logged",
    "Props.C73_logged_example",
    "Props.C73_legacy_logged",
    "Props.C73_legacy_logged_example"
   ],
   "note": "Different keys are assumed to have different derived addresses; rent and the transaction size limit are left out."
  },
  {
   "property": "C74",
   "status": "proved",
   "theorems": [
    "Props.C74_solvent",
    "Props.C74_curve",
    "Props.C74_fees_paid",
    "Props.C74_shares_paid",
    "Props.C74_creation_paid",
    "Props.C74_all_pass",
    "Props.C74_mainnet",
    "Props.C74_example"
   ],
   "note": "Vault balances of the two mainnet pools are not part of the fixtures; they are taken to be exactly what the books require."
  },
  {
   "property": "C75",
   "status": "proved",
   "theorems": [
    "Props.C75_pool_fits",
    "Props.C75_pool_read",
    "Props.C75_config_fits",
    "Props.C75_config_read",
    "Props.C75_distinct",
    "Props.C75_files",
    "Props.C75_files_again",
    "Props.C75_example"
   ],
   "note": "Hypotheses: addresses are 32 bytes, the clock and the instruction data are within their Rust types."
  },
  {
   "property": "C76",
   "status": "proved",
   "theorems": [
    "Props.C76_partial_serves",
    "Props.C76_exact_or_exhausted",
    "Props.C76_out_serves",
    "Props.C76_example"
   ],
   "note": "The third part assumes nothing about balances, clock or counters beyond what the first swap shows."
  },
  {
   "property": "C77",
   "status": "proved",
   "theorems": [
    "Props.C77_create_earlier",
    "Props.C77_create_06",
    "Props.C77_create_result",
    "Props.C77_create_now",
    "Props.C77_any_bytes",
    "Props.C77_swap",
    "Props.C77_claims",
    "Props.C77_pool",
    "Props.C77_config",
    "Props.C77_example",
    "Props.C77_files",
    "Props.C77_now_example"
   ],
   "note": "Padding is assumed zero, as the clients and the runtime leave it. Which instruction is meant (the discriminator, a hash of its unchanged name) and the order of its accounts are not modelled. The protocol's own fee claim took no arguments before, so its old data is refused (in C77_claims); instructions that were removed are not covered."
  },
  {
   "property": "C78",
   "status": "proved",
   "theorems": [
    "Props.C78_same_trade",
    "Props.C78_same_history",
    "Props.C78_example"
   ],
   "note": "A swap is its arguments together with the clock and the position of the instruction in its transaction. That the trader owns what the swap takes is stated as the amount existing outside the vault."
  },
  {
   "property": "C79",
   "status": "proved",
   "theorems": [
    "Props.C79_two",
    "Props.C79_any_order",
    "Props.C79_instalments",
    "Props.C79_example"
   ],
   "note": "Fetching protocol fees by claim and by zap counts as the same due. Equality is of the whole modelled state including the record of who was paid what."
  },
  {
   "property": "C80",
   "status": "proved",
   "theorems": [
    "Props.C80_fees_lost",
    "Props.C80_every_trade",
    "Props.C80_volume",
    "Props.C80_round_trip",
    "Props.C80_buy_back",
    "Props.C80_example"
   ],
   "note": "Amounts of the swaps must fit u64, as the instruction format forces."
  },
  {
   "property": "C81",
   "status": "proved",
   "theorems": [
    "Props.C81_config_permanent",
    "Props.C81_pool_permanent",
    "Props.C81_transfer_signed",
    "Props.C81_config_origin",
    "Props.C81_pool_origin",
    "Props.C81_example"
   ],
   "note": "Histories of all instructions of the program, with the token programs' own. The mint authority is that of the base mint account; the update authority is the one set when the token was created (the metadata programs themselves are outside the model)."
  },
  {
   "property": "C82",
   "status": "proved",
   "theorems": [
    "Props.C82_paid_by_protocol",
    "Props.C82_example"
   ],
   "note": "The first swap of a pool whose configuration offers the minimum fee on it is excepted: whether it is granted depends on the positions of the accounts, which a referral account shifts. That the referral account can receive the token is a condition of the token program (C61)."
  },
  {
   "property": "C83",
   "status": "proved",
   "theorems": [
    "Props.C83_same_opening",
    "Props.C83_quote_decides",
    "Props.C83_example"
   ],
   "note": "Which DAMM configuration account is used for a fixed fee option is chosen by whoever migrates, among those that fit (C54). What a second position adds is stated in C22 and C65."
  },
  {
   "property": "C84",
   "status": "proved",
   "theorems": [
    "Props.C84_no_better",
    "Props.C84_no_worse",
    "Props.C84_booked",
    "Props.C84_example"
   ],
   "note": "C84_booked is the first part for the amounts booked in the reserves (input after fees, output before fees)."
  },
  {
   "property": "C85",
   "status": "proved",
   "theorems": [
    "Props.C85_quote",
    "Props.C85_base",
    "Props.C85_base_trading",
    "Props.C85_base_cleared",
    "Props.C85_fetch",
    "Props.C85_unplaced",
    "Props.C85_unplaced_stays",
    "Props.C85_unplaced_concentrated",
    "Props.C85_example"
   ],
   "note": "What a compounding DAMM v2 pool or a DAMM v1 pool leaves of the quote is stated exactly in terms of what that program takes (C85_unplaced); the bound on it is for concentrated pools."
  },
  {
   "property": "C86",
   "status": "proved",
   "theorems": [
    "Props.C86_later_is_no_worse",
    "Props.C86_demand_stays",
    "Props.C86_offer_stays",
    "Props.C86_example"
   ],
   "note": "An exact input may be too large for the rest of the curve once the fee has fallen; it is then refused (insufficient liquidity) and has to be made as a partial fill, as C86_example shows."
  },
  {
   "property": "C87",
   "status": "proved",
   "theorems": [
    "Props.C87_buy",
    "Props.C87_sell",
    "Props.C87_overtaken",
    "Props.C87_example"
   ],
   "note": "Amounts of C87_buy and C87_sell are those booked in the reserves, as in C58. C87_overtaken is about what the trader receives; the first swap of a pool, which can have a fee of its own, is left out."
  },
  {
   "property": "C88",
   "status": "proved",
   "theorems": [
    "Props.C88_config",
    "Props.C88_pool",
    "Props.C88_first_amm",
    "Props.C88_example",
    "Props.C88_refused"
   ],
   "note": "Any program id other than the classic one counts as Token-2022: Anchor's interface account type admits only the two."
  },
  {
   "property": "C89",
   "status": "proved",
   "theorems": [
    "Props.C89_enough",
    "Props.C89_needed",
    "Props.C89_exact",
    "Props.C89_on_chain",
    "Props.C89_limiter_refused",
    "Props.C89_example"
   ],
   "note": "The rules are a separate specification (`Spec/Accept.lean`) of plain arithmetic. `C89_exact` is the equivalence without exponentially falling fees; with them, `C89_enough` and `C89_needed` differ by two billionths on either side."
  },
  {
   "property": "C90",
   "status": "proved",
   "theorems": [
    "Props.C90_launch",
    "Props.C90_holds",
    "Props.C90_chosen",
    "Props.C90_on_chain",
    "Props.C90_stillborn",
    "Props.C90_example"
   ],
   "note": "Payment of the creation fee and of rent by the launcher is outside the model; the accounts to be created must not exist yet."
  },
  {
   "property": "C91",
   "status": "proved",
   "theorems": [
    "Props.C91_refusals",
    "Props.C91_out_refused",
    "Props.C91_example"
   ],
   "note": "The five outcomes of C91_refusals exclude each other by the result, so each error is also equivalent to its reason in the order given."
  },
  {
   "property": "C92",
   "status": "proved",
   "theorems": [
    "Props.C92_carried_through",
    "Props.C92_example"
   ],
   "note": "Rent and the creation fee in lamports are not modelled as limits on the payer. The calls to the new pool program are assumed to succeed as in C52 and C69."
  },
  {
   "property": "C93",
   "status": "proved",
   "theorems": [
    "Props.C93_direct_buy",
    "Props.C93_direct_sale",
    "Props.C93_around_buyer",
    "Props.C93_around_seller",
    "Props.C93_example"
   ],
   "note": "The direct trade is one that would have gone through in the state before everything; where no such trade exists nothing is claimed."
  },
  {
   "property": "C94",
   "status": "proved",
   "theorems": [
    "Props.C94_shares",
    "Props.C94_volume",
    "Props.C94_example"
   ],
   "note": "The protocol's part of the surplus and of the migrated liquidity, which is paid from the same balance, is set apart as protocolExtra (C15, C71)."
  },
  {
   "property": "C95",
   "status": "proved",
   "theorems": [
    "Props.C95_swap",
    "Props.C95_history",
    "Props.C95_sold",
    "Props.C95_complete",
    "Props.C95_example"
   ],
   "note": "The counterpart for the quote reserve is C67. Base taken as trading fee counts as sold."
  },
  {
   "property": "C96",
   "status": "proved",
   "theorems": [
    "Props.C96_collected",
    "Props.C96_fork",
    "Props.C96_example"
   ],
   "note": "Fees are not part of the comparison: quote and base are those booked in the reserves."
  },
  {
   "property": "C97",
   "status": "proved",
   "theorems": [
    "Props.C97_same_terms",
    "Props.C97_example"
   ],
   "note": "Same request includes the same transaction context (whether other swaps of the pool ride in the transaction) and the same clock. The derived metadata addresses are assumed different for different pools."
  },
  {
   "property": "C98",
   "status": "proved",
   "theorems": [
    "Props.C98_elsewhere",
    "Props.C98_example"
   ],
   "note": "This is C78 for the whole chain, joined with C97. Same clock and same transaction context. The derived metadata addresses are assumed different for different pools."
  },
  {
   "property": "C99",
   "status": "proved",
   "theorems": [
    "Props.C99_turning_back",
    "Props.C99_crowd",
    "Props.C99_example"
   ],
   "note": "The counterpart of C80, which says that turning back costs at least the fees. Claims, gifts and other operations may come between the two trades of the first part."
  }
 ]
}
