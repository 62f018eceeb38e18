{"id": "C01", "title": "A swap moves exactly what it books", "statement": "Every successful swap leaves, for each of the two tokens, vault balance minus (reserve + all unclaimed fees of that token) unchanged: the input the user pays enters the vault and is booked as reserve or fee, the output the user receives plus the referral payment leaves the vault and is un-booked, and no token unit is created, lost or left unbooked.", "quantifier": "every configuration, pool state, direction, swap mode (exact in, partial fill, exact out), amount, time, referral choice", "why_tests_cant": "There are 3 modes x 2 directions x 2 fee-collection modes x fee on input or output x referral or not, over 64-bit amounts; tests only sample a few amounts per combination.", "anchors": ["programs/dynamic-bonding-curve/src/state/virtual_pool.rs: apply_swap_result", "programs/dynamic-bonding-curve/src/instructions/swap/ix_swap.rs: handle_swap_wrapper"]}
{"id": "C02", "title": "The fee is split without loss or gain", "statement": "For every fee taken on a swap: creator part + partner part + protocol part + referral part = total fee. Protocol plus referral is the floor of 20% of the fee, the referral part is the floor of 20% of that when a referral account is given and zero otherwise, and the creator part is the floor of the configured creator percentage of the remaining trading fee.", "quantifier": "every fee amount, creator percentage in 0..100, referral present or absent", "why_tests_cant": "Rounding identities must hold for all 2^64 amounts and 101 percentages.", "anchors": ["programs/dynamic-bonding-curve/src/state/config.rs: split_fees, split_partner_and_creator_fee"]}
{"id": "C03", "title": "The fee rate charged is bounded", "statement": "The rate at which a swap's fee is computed never exceeds 99%, and (outside the one eligible first swap) is never below the configuration's base-fee floor; for configurations accepted by create_config the floor is at least 0.25%. The fee in tokens is the exact rate times the fee-bearing amount, rounded up to a whole unit, so it is never below the rate and exceeds it by less than one unit; where the fee is added on top of an amount, the total is the least one that leaves that amount. The rate is the base fee of the moment (for the amount offered if all of it is taken, else for the amount without fee) plus the volatility part (on record)\u00b2 x bin step\u00b2 x control / 10^11 rounded up when the dynamic fee is on, capped at 99%; an eligible first swap pays exactly the floor.", "quantifier": "every accepted fee configuration, time, volatility state and amount", "why_tests_cant": "The rate depends on unbounded time, amount and volatility history; tests sample points.", "anchors": ["programs/dynamic-bonding-curve/src/state/config.rs: get_total_fee_numerator, get_excluded_fee_amount, get_included_fee_amount", "programs/dynamic-bonding-curve/src/base_fee/fee_scheduler.rs", "programs/dynamic-bonding-curve/src/base_fee/fee_rate_limiter.rs"]}
{"id": "C04", "title": "Exact-in charges exactly the input and honours the minimum output", "statement": "A successful exact-in swap takes exactly the requested input from the user (fee included), gives at least the requested minimum output, and consumes the whole input.", "quantifier": "every state, amount, minimum, direction, fee mode, time", "why_tests_cant": "Must hold on every path through up to 20 curve segments.", "anchors": ["programs/dynamic-bonding-curve/src/state/virtual_pool.rs: get_swap_result_from_exact_input", "programs/dynamic-bonding-curve/src/instructions/swap/swap_exact_in.rs"]}
{"id": "C05", "title": "Exact-out delivers exactly the output and honours the maximum input", "statement": "A successful exact-out swap gives the user exactly the requested output and takes at most the requested maximum input.", "quantifier": "every state, amount, maximum, direction, fee mode, time", "why_tests_cant": "Must hold on every path through up to 20 curve segments and every fee rate.", "anchors": ["programs/dynamic-bonding-curve/src/state/virtual_pool.rs: get_swap_result_from_exact_output", "programs/dynamic-bonding-curve/src/instructions/swap/swap_exact_out.rs"]}
{"id": "C06", "title": "Partial fill never charges more than offered", "statement": "A successful partial-fill swap takes from the user at most the requested input (fee included) and gives at least the requested minimum output; when it takes less than offered, the pool has reached its migration price (buys) or its start price (sells).", "quantifier": "every state, amount, minimum, direction, fee mode, base-fee mode, time", "why_tests_cant": "When the fill is partial the fee is recomputed from the consumed amount with a different formula; whether that can exceed the offer depends on rounding at particular amounts.", "anchors": ["programs/dynamic-bonding-curve/src/state/virtual_pool.rs: get_swap_result_from_partial_input", "programs/dynamic-bonding-curve/src/instructions/swap/swap_partial_fill.rs"]}
{"id": "C07", "title": "The price stays inside the curve and moves the right way", "statement": "In every reachable pool state the price lies between the configured start price and the migration price. A buy never lowers the price, a sell never raises it.", "quantifier": "every accepted configuration and every finite history of operations", "why_tests_cant": "Invariant over unbounded histories of swaps with rounding.", "anchors": ["programs/dynamic-bonding-curve/src/state/virtual_pool.rs: calculate_* functions, apply_swap_result"]}
{"id": "C08", "title": "Every swap rounds in the pool's favour", "statement": "For every swap the amount entering the reserve is at least the curve integral between the old and new price of the input token, and the amount leaving the reserve (fees on output included) is at most the curve integral of the output token, where the integrals are the exact rationals sum of L*(b-a)/2^128 (quote) and L*(1/a-1/b) (base) over the segments crossed.", "quantifier": "every curve, state, direction, mode and amount", "why_tests_cant": "Rounding direction must be right in each of the four traversal loops for every real-valued position; tests compare a few numbers.", "anchors": ["programs/dynamic-bonding-curve/src/curve.rs", "programs/dynamic-bonding-curve/src/state/virtual_pool.rs: calculate_base_to_quote_from_amount_in, calculate_quote_to_base_from_amount_in, calculate_base_to_quote_from_amount_out, calculate_quote_to_base_from_amount_out"]}
{"id": "C09", "title": "No sequence of trades extracts value from the curve", "statement": "For any finite sequence of swaps, by any number of traders in any modes and directions, traders as a group cannot end with strictly more of one token without having strictly less of the other: if their net base change is >= 0 then their net quote change is <= 0, and if their net quote change is >= 0 then their net base change is <= 0.", "quantifier": "every accepted configuration, every start state on its curve, every finite swap sequence", "why_tests_cant": "Adversarial sequences are unbounded; rounding exploits are found by search over sequences, not by unit tests.", "anchors": ["programs/dynamic-bonding-curve/src/curve.rs", "programs/dynamic-bonding-curve/src/state/virtual_pool.rs"]}
{"id": "C10", "title": "The quote reserve always backs the curve", "statement": "In every reachable state before migration, the pool's quote reserve is at least the total cost, rounded up segment by segment, of moving the curve from the start price to the current price. So a sell can never fail for want of quote reserve and can never make the reserve go negative.", "quantifier": "every accepted configuration and every finite history", "why_tests_cant": "Invariant over unbounded histories with accumulated rounding.", "anchors": ["programs/dynamic-bonding-curve/src/state/virtual_pool.rs: apply_swap_result, calculate_base_to_quote_from_amount_in"]}
{"id": "C11", "title": "The completing swap is never refused for lack of base tokens", "statement": "In every reachable state, a swap whose other steps succeed is never rejected with InsufficientLiquidityForMigration: the base vault always holds at least the migration amount, the unclaimed base fees and the creator's locked vesting when the curve completes.", "quantifier": "every configuration accepted by create_config, every history", "why_tests_cant": "Depends on the supply computed at configuration time dominating every possible sequence of roundings afterwards.", "anchors": ["programs/dynamic-bonding-curve/src/instructions/swap/ix_swap.rs: handle_swap_wrapper (306-342)", "programs/dynamic-bonding-curve/src/instructions/partner/ix_create_config.rs: handle_create_config", "programs/dynamic-bonding-curve/src/params/liquidity_distribution.rs: get_base_token_for_swap", "programs/dynamic-bonding-curve/src/state/config.rs: get_initial_base_supply"]}
{"id": "C12", "title": "Reaching the migration price completes the curve", "statement": "In every reachable state, if the price equals the migration price then the quote reserve has reached the migration threshold: the pool cannot get stuck at the top of its curve, unable to be bought further and not allowed to migrate.", "quantifier": "every configuration accepted by create_config, every history of buys and sells", "why_tests_cant": "The threshold price is computed with one rounding at configuration time, the reserve accumulates many roundings along arbitrary histories; the program checks this only under a test feature flag.", "anchors": ["programs/dynamic-bonding-curve/src/params/liquidity_distribution.rs: get_migration_threshold_price", "programs/dynamic-bonding-curve/src/state/virtual_pool.rs: calculate_quote_to_base_from_amount_in (876-884), is_curve_complete"]}
{"id": "C13", "title": "Both vaults are solvent at every point of every history", "statement": "In every reachable state each token vault holds at least everything still owed from it: before completion the reserve plus all unclaimed fees; after completion, for quote: unclaimed trading fees, unwithdrawn surplus of each party, unwithdrawn migration fee of each party, the not-yet-migrated quote amount, and the unclaimed protocol migration fee; for base: unclaimed fees, the vesting not yet moved to the locker, the not-yet-migrated base amount and the unclaimed protocol migration fee.", "quantifier": "every accepted configuration and every finite interleaving of swaps, claims, withdrawals, migration steps and outside donations", "why_tests_cant": "The interleavings of eleven operations are unbounded.", "anchors": ["programs/dynamic-bonding-curve/src/state/virtual_pool.rs", "programs/dynamic-bonding-curve/src/instructions/*"]}
{"id": "C14", "title": "No legitimate withdrawal can be starved by another", "statement": "In every reachable state, every claim or withdrawal that passes its own permission and once-only checks (partner, creator and protocol trading fees, surpluses, migration fees, protocol migration fees, leftover) finds enough tokens in the vault to be paid in full, whatever was withdrawn by others before.", "quantifier": "every history, every order of withdrawals", "why_tests_cant": "All orders of withdrawals after all trading histories.", "anchors": ["programs/dynamic-bonding-curve/src/state/virtual_pool.rs: claim_*, get_partner_surplus, get_creator_surplus", "programs/dynamic-bonding-curve/src/instructions/migration/*"]}
{"id": "C15", "title": "The surplus is divided exactly and each share is paid at most once", "statement": "For a completed pool partner surplus + creator surplus + protocol surplus = quote reserve - migration threshold, partner and creator together receive the floor of 80%, and over any history each of the three parties receives its share at most once and never before completion.", "quantifier": "every reserve, threshold, creator percentage; every history", "why_tests_cant": "Once-only over all interleavings, exact division for all amounts.", "anchors": ["programs/dynamic-bonding-curve/src/state/virtual_pool.rs: get_partner_surplus, get_creator_surplus, get_protocol_surplus, claim_protocol_quote_fee_and_surplus", "programs/dynamic-bonding-curve/src/instructions/partner/ix_withdraw_partner_surplus.rs", "programs/dynamic-bonding-curve/src/instructions/creator/ix_withdraw_creator_surplus.rs"]}
{"id": "C16", "title": "The migration fee is divided exactly and each share is paid at most once", "statement": "Quote deposited into the new pool (before the protocol share) + partner migration fee + creator migration fee = migration threshold. Each of partner and creator is paid at most once over any history, only to the entitled key, and never before completion; one party's withdrawal does not affect the other's eligibility.", "quantifier": "every threshold, fee percentage, creator percentage; every history", "why_tests_cant": "Once-only flags are toggled with XOR; safety depends on all interleavings.", "anchors": ["programs/dynamic-bonding-curve/src/state/config.rs: get_migration_quote_amount, get_migration_fee_distribution", "programs/dynamic-bonding-curve/src/instructions/migration/ix_withdraw_migration_fee.rs", "programs/dynamic-bonding-curve/src/state/virtual_pool.rs: eligible_to_withdraw_migration_fee, update_withdraw_migration_fee"]}
{"id": "C17", "title": "The pool creation fee is divided exactly and each share is paid at most once", "statement": "Protocol share + partner share = the creation fee charged at pool creation; over any history the pool account pays each share at most once, so it pays out in total at most what it received.", "quantifier": "every creation fee, every history of claims", "why_tests_cant": "Once-only bits over all interleavings.", "anchors": ["programs/dynamic-bonding-curve/src/state/config.rs: split_pool_creation_fee", "programs/dynamic-bonding-curve/src/state/virtual_pool.rs: eligible_to_claim_partner_pool_creation_fee and related", "programs/dynamic-bonding-curve/src/instructions/partner/ix_claim_partner_pool_creation_fee.rs", "programs/dynamic-bonding-curve/src/instructions/operator/ix_claim_protocol_pool_creation_fee.rs"]}
{"id": "C18", "title": "Claims respect their caps and balances", "statement": "A trading-fee claim by partner or creator pays, per token, exactly the minimum of the cap and the balance owed, reduces the balance by exactly that and touches no other balance. A protocol claim pays at most the cap plus (once) the protocol surplus, and reduces the protocol balances by exactly what it pays.", "quantifier": "every balance and cap", "why_tests_cant": "All 64-bit caps and balances.", "anchors": ["programs/dynamic-bonding-curve/src/state/virtual_pool.rs: claim_partner_trading_fee, claim_creator_trading_fee, claim_protocol_base_fee, claim_protocol_quote_fee_and_surplus"]}
{"id": "C19", "title": "Lifetime fee conservation", "statement": "Over any history, for each token and each of partner, creator and protocol: total trading fees ever accrued to the party by swaps = total ever paid to it as trading fees + balance still owed. The pool's reported lifetime metrics equal the true totals accrued.", "quantifier": "every finite history", "why_tests_cant": "Unbounded histories.", "anchors": ["programs/dynamic-bonding-curve/src/state/virtual_pool.rs: apply_swap_result, claim_*, PoolMetrics"]}
{"id": "C20", "title": "The life cycle only moves forward", "statement": "Over any history the migration progress never goes backwards; swaps succeed only before completion; once the curve completes no swap ever succeeds again and price and reserves never change again; the pool is migrated at most once and only after the curve is complete and the locked vesting (if any) was created.", "quantifier": "every finite history of operations", "why_tests_cant": "Unbounded histories.", "anchors": ["programs/dynamic-bonding-curve/src/state/virtual_pool.rs: MigrationProgress, is_curve_complete", "programs/dynamic-bonding-curve/src/instructions/swap/ix_swap.rs: handle_swap_wrapper", "programs/dynamic-bonding-curve/src/instructions/migration/*"]}
{"id": "C21", "title": "The migration amounts are what the configuration promised", "statement": "The quote amount put into migration is the ceiling of threshold*(100-fee%)/100; the protocol's liquidity-migration fee is at most 0.2% (rounded down) of the quote amount; what is deposited plus the protocol fee never exceeds what was set aside for migration; and for every completed pool these computations succeed.", "quantifier": "every accepted configuration, every completed state", "why_tests_cant": "Computation through two liquidity models with 128..512-bit rounding.", "anchors": ["programs/dynamic-bonding-curve/src/state/config.rs: get_migration_quote_amount", "programs/dynamic-bonding-curve/src/migration_handler/*"]}
{"id": "C22", "title": "Liquidity distribution conserves liquidity", "statement": "The liquidity created at migration is divided among partner and creator (unlocked, permanently locked, vested) without loss or gain; each share differs from its exact percentage by less than one unit except the creator's unlocked share, which absorbs all rounding and is never below its percentage. When the second position gets a different amount than planned, its parts sum exactly to that amount; the unlocked part is served first, the rest is divided between the locked parts in proportion to their percentages; and when the amount is reduced no part exceeds its plan, except that the permanently locked part may exceed it by one unit of rounding. At a DAMM v2 migration exactly these positions are created: the larger planned share (the creator's if equal) first, exactly as planned; then, if any liquidity still fits in what the first left, one position with the largest liquidity that fits, for the other party; each with its permanently locked part locked and its vested part under its configured schedule.", "quantifier": "every total liquidity in u128, every percentage tuple summing to 100", "why_tests_cant": "Percentages x 2^128 amounts.", "anchors": ["programs/dynamic-bonding-curve/src/state/config.rs: get_liquidity_distribution, LiquidityDistributionItem::adjust_liquidity"]}
{"id": "C23", "title": "Liquidity vesting releases exactly the vested liquidity", "statement": "The vesting schedule created for locked liquidity releases in total exactly the vested liquidity: cliff amount + periods * per-period amount = total; the released amount is non-decreasing in time, is 0 before the cliff, never exceeds the total, and equals the total after the last period. Cliff duration, period length, number of periods and per-period share are those given to create_config; if the per-period amount rounds to zero everything is released at the cliff, after at least one second.", "quantifier": "every total, bps per period, number of periods, frequency, cliff and time", "why_tests_cant": "Rounding corner cases (per-period amount rounding to zero) and all times.", "anchors": ["programs/dynamic-bonding-curve/src/state/config.rs: get_damm_v2_vesting_parameters", "programs/dynamic-bonding-curve/src/utils/damm_v2_utils.rs: get_max_unlocked_liquidity_at_current_point"]}
{"id": "C24", "title": "At least 10% of liquidity stays locked for a day", "statement": "For every configuration accepted by create_config, in the liquidity split computed at migration, at least 10% of the migrated liquidity (less a bounded number of rounding units) is still locked one day after migration.", "quantifier": "every accepted configuration and every migrated liquidity amount", "why_tests_cant": "The check is done on a nominal amount; it must imply the bound for every real amount.", "anchors": ["programs/dynamic-bonding-curve/src/state/config.rs: get_total_liquidity_locked_bps_at_n_seconds, get_liquidity_locked_bps_at_n_seconds, get_liquidity_distribution", "programs/dynamic-bonding-curve/src/instructions/partner/ix_create_config.rs"]}
{"id": "C25", "title": "Accepted configurations describe a proper curve", "statement": "create_config accepts only configurations whose liquidity percentages sum to 100, whose curve has 1 to 16 points with strictly increasing prices above the start price and positive liquidity inside the global price bounds, whose fee, trading-share, migration-fee and vesting parameters are in range; and it stores the curve so that reading the stored fixed-size array gives back exactly the given points.", "quantifier": "every parameter set", "why_tests_cant": "Acceptance is a conjunction of dozens of checks; the implication must hold for every input.", "anchors": ["programs/dynamic-bonding-curve/src/instructions/partner/ix_create_config.rs: ConfigParameters::validate", "programs/dynamic-bonding-curve/src/state/config.rs: PoolConfig::init"]}
{"id": "C26", "title": "The migration price is the price at which the threshold is collected", "statement": "The migration price computed by create_config is the highest price whose cost from the start price, rounded up segment by segment, is at most the threshold; its cost is exactly the threshold.", "quantifier": "every accepted curve and threshold", "why_tests_cant": "Segment traversal with 256-bit rounding.", "anchors": ["programs/dynamic-bonding-curve/src/params/liquidity_distribution.rs: get_migration_threshold_price"]}
{"id": "C27", "title": "The initial supply covers selling, migration and vesting", "statement": "The base supply minted into the vault at pool creation is at least the most the curve can ever sell up to the migration price, plus the migration amount, plus the creator's locked vesting.", "quantifier": "every accepted configuration, fixed or dynamic supply", "why_tests_cant": "Inequality between separately rounded sums.", "anchors": ["programs/dynamic-bonding-curve/src/state/config.rs: get_initial_base_supply, get_swap_amount_with_buffer, get_total_token_supply", "programs/dynamic-bonding-curve/src/instructions/partner/ix_create_config.rs"]}
{"id": "C28", "title": "The fee schedule never goes up and never goes below its floor", "statement": "For every accepted fee-scheduler configuration (linear or exponential) the base fee as a function of time is defined at every time after activation, starts at the cliff fee, never increases, and is never below the configured minimum, which is at least 0.25%.", "quantifier": "every accepted scheduler configuration, every time", "why_tests_cant": "The exponential schedule uses fixed-point repeated squaring whose truncations could break monotonicity for some exponent.", "anchors": ["programs/dynamic-bonding-curve/src/base_fee/fee_scheduler.rs", "programs/dynamic-bonding-curve/src/math/fee_math.rs: get_fee_in_period, pow"]}
{"id": "C29", "title": "The rate limiter never charges less than the cliff, and applies only to early buys", "statement": "With a rate limiter the base fee rate on every trade is at least the cliff rate and at most 99% after capping; a larger trade pays at least as large a fee in tokens, up to the rounding of the rate to nine decimals (one part in 10^9 of the trade; without this allowance the claim is false, a witness is proved); sells, and buys after the limiter window, pay exactly the cliff rate. Inside the window the tokens charged are the sum of the block rates over the tokens paid (each block of the reference size costs one increment more, up to 99%), never less, and more only by rounding, whether the trade is given by what is paid or by what must be left after the fee.", "quantifier": "every accepted limiter configuration, amount, direction, time", "why_tests_cant": "Quadratic fee over all amounts with several roundings.", "anchors": ["programs/dynamic-bonding-curve/src/base_fee/fee_rate_limiter.rs"]}
{"id": "C30", "title": "Volatility state stays bounded and never blocks a swap", "statement": "Over any history the volatility accumulator never exceeds its configured maximum, the volatility bookkeeping performed before and after a swap never fails or overflows for prices inside the global bounds, and with dynamic fee disabled the variable fee is zero.", "quantifier": "every accepted dynamic-fee configuration, price pair, time and history", "why_tests_cant": "Overflow freedom for all 128-bit price pairs; unbounded history.", "anchors": ["programs/dynamic-bonding-curve/src/state/fee.rs: VolatilityTracker", "programs/dynamic-bonding-curve/src/state/virtual_pool.rs: update_pre_swap, update_post_swap"]}
{"id": "C31", "title": "At most one swap per pool enjoys the first-swap minimum fee", "statement": "Over any history at most one successful swap of a pool is charged the minimum base fee through the first-swap rule; that swap is the pool's first, the configuration enables it, no referral is paid, and the transaction created the pool earlier at top level.", "quantifier": "every history and every transaction shape", "why_tests_cant": "Unbounded histories and arbitrary transactions.", "anchors": ["programs/dynamic-bonding-curve/src/instructions/swap/ix_swap.rs: handle_swap_wrapper (190-197), validate_contain_initialize_pool_ix_and_no_cpi", "programs/dynamic-bonding-curve/src/state/virtual_pool.rs: is_first_swap"]}
{"id": "C32", "title": "Fees are collected only in the promised token", "statement": "With quote-only collection no base-token fee is ever accrued to anybody in any history. With output-token collection a swap's fee is always taken in the token the user receives.", "quantifier": "every history, direction, mode", "why_tests_cant": "All histories.", "anchors": ["programs/dynamic-bonding-curve/src/state/fee.rs: FeeMode::get_fee_mode", "programs/dynamic-bonding-curve/src/state/virtual_pool.rs: apply_swap_result"]}
{"id": "C33", "title": "Leftover base tokens are withdrawn once and leave debts covered", "statement": "The leftover can be withdrawn only for fixed-supply pools, only after migration, only once, always to the configured receiver, and afterwards the vault still covers all base tokens owed to partner, creator and protocol.", "quantifier": "every history", "why_tests_cant": "All interleavings with claims and donations.", "anchors": ["programs/dynamic-bonding-curve/src/instructions/migration/withdraw_leftover.rs"]}
{"id": "C34", "title": "Burning never takes the supply below the promised post-migration supply", "statement": "For fixed-supply configurations the tokens burnt at migration are at most pre-migration supply minus post-migration supply, so the remaining supply, counting tokens their own holders chose to burn, is at least the promised post-migration supply; and burning never touches tokens owed as fees.", "quantifier": "every configuration, leftover amount and history", "why_tests_cant": "All leftovers.", "anchors": ["programs/dynamic-bonding-curve/src/state/config.rs: get_burnable_amount_post_migration", "programs/dynamic-bonding-curve/src/instructions/migration/*/migrate_*"]}
{"id": "C35", "title": "Only entitled parties are paid", "statement": "Over any history, partner fees, partner surplus, partner migration fee and partner creation fee are paid only on a call signed by the configured fee claimer; creator fees, surplus and migration fee only on a call signed by the current pool creator; protocol fees only on a call by a holder of the matching operator permission; leftovers only to the configured receiver.", "quantifier": "every caller, every history (including transfers of the creator role)", "why_tests_cant": "All callers and histories.", "anchors": ["programs/dynamic-bonding-curve/src/access_control.rs", "programs/dynamic-bonding-curve/src/lib.rs", "programs/dynamic-bonding-curve/src/instructions/migration/ix_withdraw_migration_fee.rs"]}
{"id": "C36", "title": "Operator permissions are exact", "statement": "An operator account grants exactly the permissions whose bits were set when an admin created it; creation accepts exactly the non-empty sets of defined permissions; granting one permission never grants another.", "quantifier": "every 128-bit permission value", "why_tests_cant": "2^128 values.", "anchors": ["programs/dynamic-bonding-curve/src/state/operator.rs", "programs/dynamic-bonding-curve/src/instructions/admin/ix_create_operator_account.rs"]}
{"id": "C37", "title": "The creator role moves only in safe phases", "statement": "The creator role changes only on a call by the current creator, only before completion or after migration, and after migration to DAMM v1 only when every LP share has been locked or claimed, so a role change never redirects or blocks an unclaimed LP share. In those cases the creator can always hand it over: while trading, after a DAMM v2 migration, and after a DAMM v1 migration exactly when no lock or claim is possible any more.", "quantifier": "every history", "why_tests_cant": "All interleavings of lock, claim and transfer.", "anchors": ["programs/dynamic-bonding-curve/src/instructions/creator/ix_transfer_pool_creator.rs"]}
{"id": "C38", "title": "LP shares are locked and claimed at most once", "statement": "For a pool migrated to DAMM v1, over any history the total LP locked plus claimed never exceeds the LP minted, each of the four shares is handed out at most once, to its owner, and when all calls have been made the total is exactly the LP minted (also when partner and creator are the same key).", "quantifier": "every LP amount, percentages, history", "why_tests_cant": "All interleavings incl. the self-partnered case.", "anchors": ["programs/dynamic-bonding-curve/src/instructions/migration/meteora_damm/*"]}
{"id": "C39", "title": "The integer square root is exact", "statement": "The square root used to initialise compounding pools and to invert the rate limiter returns the floor of the true square root for every 256-bit input.", "quantifier": "every 256-bit integer", "why_tests_cant": "2^256 inputs.", "anchors": ["programs/dynamic-bonding-curve/src/math/utils_math.rs: sqrt_u256"]}
{"id": "C40", "title": "The exponential fee formula is accurate", "statement": "The exponential schedule's fixed-point fee agrees with the real number cliff*(1-r/10000)^n: it is less than 1.000004 units below it and less than 0.000004 units above it, for every r up to 10000, every n and every cliff fee up to 99%. (It can be above it: a witness is proved.)", "quantifier": "every cliff fee, reduction factor and period number", "why_tests_cant": "Error accumulates through 19 conditional squarings; all exponents.", "anchors": ["programs/dynamic-bonding-curve/src/math/fee_math.rs"]}
{"id": "C41", "title": "At most one buy per transaction while the rate limiter is active", "statement": "No transaction, whatever its instructions and nested calls, contains two successful buys of the same pool while that pool's rate limiter is active, so the limiter cannot be avoided by splitting a buy within a transaction.", "quantifier": "every transaction (any list of top-level instructions, any nesting)", "why_tests_cant": "Arbitrary transaction trees.", "anchors": ["programs/dynamic-bonding-curve/src/instructions/swap/ix_swap.rs: validate_single_swap_instruction, is_instruction_include_pool_swap"]}
{"id": "C42", "title": "Splitting a trade never beats one trade", "statement": "Ignoring fees, for every input amount split into two consecutive exact-in trades in the same direction, the total output is at most the output of a single trade with the total input, and the single trade moves the price at least as far. With fees, and at a rate that depends neither on the size (no rate limiter, or a sell) nor on volatility, two consecutive exact-in swaps in the same slot still pay out no more than one swap of the sum. The same holds for any number of pieces made at any times up to the time the single swap is made at (also under a rate limiter that is over by then): exact-in pieces together receive no more than one swap offering their sum, exact-out pieces together pay no less than one swap asking for their sum. (The rate of a schedule falls with time, so waiting can pay; cutting up cannot.)", "quantifier": "every curve, state, direction, amounts, number and times of the pieces", "why_tests_cant": "Superadditivity under rounding for all amounts and segment positions.", "anchors": ["programs/dynamic-bonding-curve/src/state/virtual_pool.rs: calculate_*_from_amount_in"]}
{"id": "C43", "title": "More in, no less out", "statement": "Ignoring fees, the output of an exact-in trade is non-decreasing in the input, and the input needed for an exact-out trade is non-decreasing in the output. The same holds with fees for swaps whose fee rate does not depend on their size (no rate limiter, or a sell). With a rate limiter and no volatility fee, a buy that offers more by at least 201 units and one part in ten million receives no less, and a buy that asks for more pays no less up to 1000 units and one part in a million. With a volatility fee on top of a rate limiter a larger buy can receive less.", "quantifier": "every curve, state, direction, pairs of amounts", "why_tests_cant": "Monotonicity across segment boundaries for all amounts.", "anchors": ["programs/dynamic-bonding-curve/src/state/virtual_pool.rs: calculate_*"]}
{"id": "C44", "title": "Migration deposits fit in what was set aside", "statement": "The liquidity computed at migration (concentrated or compounding) needs, rounded up, no more base and no more quote than the amounts set aside, and the liquidity for a second position needs no more than the leftovers.", "quantifier": "every pair of amounts and migration price in bounds", "why_tests_cant": "512-bit rounding in both tokens at once.", "anchors": ["programs/dynamic-bonding-curve/src/migration_handler/concentrated_liquidity.rs: calculate_concentrated_initial_liquidity", "programs/dynamic-bonding-curve/src/migration_handler/compounding_liquidity.rs", "programs/dynamic-bonding-curve/src/curve.rs: get_initialize_amounts"]}
{"id": "C45", "title": "No instruction panics", "statement": "In every reachable state every instruction (swaps, fee claims, withdrawals, locker creation, both migrations, LP claims, creator transfer, operator management) either succeeds or returns a program error, and the same holds for creating a configuration from any parameters and a pool from any accepted configuration: none of the assertions, unwraps, divisions or unchecked subtractions in their computations is ever hit. (A migration whose caller omits the optional second-position accounts when they are needed is outside this claim.)", "quantifier": "every reachable state, instruction, signer and argument; every parameter set", "why_tests_cant": "Absence of panics for all reachable states and inputs.", "anchors": ["programs/dynamic-bonding-curve/src/curve.rs", "programs/dynamic-bonding-curve/src/state/virtual_pool.rs", "programs/dynamic-bonding-curve/src/state/config.rs", "programs/dynamic-bonding-curve/src/migration_handler/compounding_liquidity.rs", "programs/dynamic-bonding-curve/src/instructions/partner/ix_create_config.rs", "programs/dynamic-bonding-curve/src/params/liquidity_distribution.rs"]}
{"id": "C46", "title": "An incomplete pool can always be completed", "statement": "In every reachable state whose curve is not complete, a partial-fill buy without minimum that offers at least a hundred times what the curve still lacks goes through and completes the curve, and a partial-fill buy of any size goes through, provided the pool is activated, a buy inside the window of a rate limiter is alone in its transaction, the buyer owns what is offered (inside such a window: a millionth and 30300 units more) within the 64-bit range and the 64-bit lifetime fee counters do not overflow.", "quantifier": "every accepted configuration, reachable state and such buy", "why_tests_cant": "Liveness over all reachable states.", "anchors": ["programs/dynamic-bonding-curve/src/state/virtual_pool.rs: get_swap_result_from_partial_input, apply_swap_result", "programs/dynamic-bonding-curve/src/instructions/swap/ix_swap.rs"]}
{"id": "C47", "title": "Exact-out and exact-in agree", "statement": "Ignoring fees, buying or selling by exact output costs at least the curve integral of that output, never more than any exact-in trade that yields more than that output, and never more than any exact-in trade that yields at least that output unless the exact-out trade ends on a point of the configured curve (where a concrete trade shows it can cost more).", "quantifier": "every curve, state, direction and amount", "why_tests_cant": "Rounding relation between two separately coded traversals.", "anchors": ["programs/dynamic-bonding-curve/src/state/virtual_pool.rs: calculate_*_from_amount_out, calculate_*_from_amount_in"]}
{"id": "C48", "title": "External calls cannot drain or re-own the pool authority", "statement": "If a wrapped external call returns successfully, the pool authority's lamports have not decreased and its owner and data size are unchanged; and after a step that borrows rent from the pool authority, the borrower repays exactly what the step consumed, so the pool authority never ends with less than it started with and the borrower never pays for anything the step did not consume.", "quantifier": "every behaviour of the wrapped call", "why_tests_cant": "The callee is arbitrary.", "anchors": ["programs/dynamic-bonding-curve/src/utils/cpi_checker.rs", "programs/dynamic-bonding-curve/src/instructions/migration/flash_rent.rs"]}
{"id": "C49", "title": "Token authority options give authority to exactly the configured party", "statement": "For each token-authority option the mint authority after pool creation is none, the creator or the partner exactly as the option says, and the metadata update authority likewise; for immutable options no key can mint more tokens.", "quantifier": "every option value, creator and partner keys", "why_tests_cant": "Small table, but must agree across two consumers and all keys.", "anchors": ["programs/dynamic-bonding-curve/src/state/config.rs: TokenAuthorityOption"]}
{"id": "C50", "title": "Creator vesting is funded in full and starts at completion", "statement": "For a configuration with locked vesting, exactly the configured total (cliff amount + periods * per-period amount) leaves the base vault for the locker, exactly once, after completion and before migration, with the vesting start equal to the completion time; configurations without vesting never send anything to the locker.", "quantifier": "every vesting configuration and history", "why_tests_cant": "All histories and overflow corner cases.", "anchors": ["programs/dynamic-bonding-curve/src/instructions/migration/create_locker.rs", "programs/dynamic-bonding-curve/src/instructions/partner/ix_create_config.rs: LockedVestingParams", "programs/dynamic-bonding-curve/src/instructions/swap/ix_swap.rs (306-342)"]}
{"id": "C51", "title": "Every token that ever entered a vault is accounted for", "statement": "At every moment of every history, the base vault plus everything that ever left it (to traders, referrals, partner, creator and protocol claims, the vesting locker, the new pool, burns and the leftover receiver) equals the initial supply plus everything traders and donors ever sent in; the same holds for the quote vault with surpluses and migration fees in place of vesting, burns and leftover.", "quantifier": "every accepted configuration, history and point in it", "why_tests_cant": "A conservation law over all histories of all instructions.", "anchors": ["programs/dynamic-bonding-curve/src/instructions/swap/ix_swap.rs", "programs/dynamic-bonding-curve/src/instructions/creator", "programs/dynamic-bonding-curve/src/instructions/partner", "programs/dynamic-bonding-curve/src/instructions/operator", "programs/dynamic-bonding-curve/src/instructions/migration"]}
{"id": "C52", "title": "A completed pool can always be migrated", "statement": "From every reachable state in which the curve is complete, the remaining steps up to and including migration succeed: the vesting locker can be funded, all migration amounts can be computed without overflow, the tokens the new pool asks for are covered by what was set aside, and all fees, surpluses and migration fees stay covered. So no history leaves a completed pool stuck.", "quantifier": "every accepted configuration and every history that completes the curve; every behaviour of the new pool that takes what its own formulas ask for the requested liquidity", "why_tests_cant": "Liveness over all reachable states and all parameter combinations; a single arithmetic failure at migration would lock all funds.", "anchors": ["programs/dynamic-bonding-curve/src/instructions/migration/dynamic_amm_v2/migrate_damm_v2_initialize_pool.rs", "programs/dynamic-bonding-curve/src/instructions/migration/meteora_damm/migrate_meteora_damm_initialize_pool.rs", "programs/dynamic-bonding-curve/src/instructions/migration/create_locker.rs", "programs/dynamic-bonding-curve/src/state/config.rs"]}
{"id": "C53", "title": "Tokens bought from the curve can be sold back until it completes", "statement": "In every reachable state whose curve is not complete, an exact-input sale without minimum of any amount up to everything traders and referral accounts together took out of the pool and did not return goes through, and so does a partial-fill sale of any amount of existing tokens, provided the pool is activated and the 64-bit lifetime fee counters do not overflow.", "quantifier": "every accepted configuration, reachable state and such sale", "why_tests_cant": "Liveness over all reachable states: no history of trades, claims or donations may leave holders unable to exit.", "anchors": ["programs/dynamic-bonding-curve/src/state/virtual_pool.rs: get_swap_result_from_exact_input, get_swap_result_from_partial_input, apply_swap_result", "programs/dynamic-bonding-curve/src/instructions/swap/ix_swap.rs"]}
{"id": "C54", "title": "The new pool charges the promised fee", "statement": "A pool has asked DAMM for a new pool exactly if it has migrated; nothing done afterwards changes that request or the positions created. The request charges what the configuration promises. With a fixed fee option, the DAMM configuration passed by the (arbitrary) caller of the migration is reserved for this program, has no fee schedule, partner fee, alpha vault or delayed activation, and its fee is the promised one to within one basis point (a reachable pool shows that equality may fail). With a custom fee, cliff fee, fee mode, schedule, compounding share and collection mode are exactly as configured; the dynamic fee is present exactly if configured and adds at most 20% of the lowest base fee, and the trading range is the full one.", "quantifier": "every accepted configuration, history, caller and DAMM configuration account passed", "why_tests_cant": "Anyone may migrate with any DAMM configuration account; the bound must hold for every account contents and every stored fee.", "anchors": ["programs/dynamic-bonding-curve/src/instructions/migration/dynamic_amm_v2/migrate_damm_v2_initialize_pool.rs: validate_config_key", "programs/dynamic-bonding-curve/src/instructions/migration/meteora_damm/migrate_meteora_damm_initialize_pool.rs: validate_config_key", "programs/dynamic-bonding-curve/src/utils/damm_v2_utils.rs", "programs/dynamic-bonding-curve/src/instructions/partner/ix_create_config.rs: MigratedPoolFee"]}
{"id": "C55", "title": "The new pool opens at the migration price", "statement": "A concentrated pool is created at exactly the migration price of the configuration, a compounding one within 1% of it, and the amounts deposited into a DAMM v1 pool are in the ratio of that price up to one unit of quote and two units of base.", "quantifier": "every accepted configuration and history", "why_tests_cant": "The check at creation uses amounts before the protocol share; it must carry over to the amounts left at migration, for all of them.", "anchors": ["programs/dynamic-bonding-curve/src/migration_handler/compounding_liquidity.rs", "programs/dynamic-bonding-curve/src/migration_handler/concentrated_liquidity.rs", "programs/dynamic-bonding-curve/src/instructions/migration/dynamic_amm_v2/migrate_damm_v2_initialize_pool.rs"]}
{"id": "C56", "title": "The fee follows the published schedule from the moment of creation", "statement": "When t slots or seconds (whichever the configuration counts in) have passed since a pool was created, every swap that is not an eligible first swap pays the scheduled rate plus the volatility part, capped at 99%, of the fee-bearing amount, rounded up. The scheduled rate is: for a linear schedule the first rate less the configured cut per completed period; for an exponential one the first rate with the configured percentage taken off per completed period, to within 1.000004 billionths; with a rate limiter the first rate for sales and for buys after the window, and for buys inside it the average of the block rates over what is paid, or over what would be paid for the same net input without volatility part (to within 3 units of fee and 2 parts in 10^9), never less than the first rate; without dynamic fee it is such that the fee on what is paid is the sum of the block rates up to 8 units and 3 parts in 10^9. No instruction moves the starting moment.", "quantifier": "every accepted configuration, history, swap mode and clock reading", "why_tests_cant": "Combines creation, all later instructions and the clock; a wrong time scale or a moved start would show only in particular schedules.", "anchors": ["programs/dynamic-bonding-curve/src/instructions/initialize_pool", "programs/dynamic-bonding-curve/src/utils/activation_handler.rs", "programs/dynamic-bonding-curve/src/base_fee", "programs/dynamic-bonding-curve/src/state/config.rs", "programs/dynamic-bonding-curve/src/state/virtual_pool.rs"]}
{"id": "C57", "title": "The SDK's quote is what the swap does", "statement": "A swap that goes through takes, gives, charges and moves the price exactly as the Rust SDK's quote function computes for the state and clock it executes in (for exact-output swaps with a referral, which the SDK cannot express, the protocol's and the referral's part of the fee are only equal in total). Conversely, in every reachable state, if the quote succeeds and meets the trader's slippage limit, the trader owns what it asks for, the pool is activated and a buy in a rate-limiter window is alone in its transaction, then the swap goes through.", "quantifier": "every accepted configuration, reachable state, swap mode, direction, amount and clock", "why_tests_cant": "Quote and swap are separate code paths (the quote skips the volatility update); they must agree for every state.", "anchors": ["dynamic-bonding-curve-sdk/src/quote_exact_in.rs", "dynamic-bonding-curve-sdk/src/quote_partial_fill.rs", "dynamic-bonding-curve-sdk/src/quote_exact_out.rs", "programs/dynamic-bonding-curve/src/instructions/swap/ix_swap.rs"]}
{"id": "C58", "title": "The trader gets the curve's price up to rounding", "statement": "Leaving fees aside, rounding costs a trader at most one unit per curve point and one more, of either token: for every price between the current one and the end of the curve in the direction of the trade, if what the pool's reserve received exceeds by that many units the exact amount the configured curve asks for moving to that price, then the reserve gave out at least the exact amount the curve releases for it, less that many units. This holds in all three swap modes and both directions.", "quantifier": "every accepted configuration, reachable state, swap and price on the curve", "why_tests_cant": "Rounding in the pool's favour accumulates over pieces and depends on every liquidity and price; no sample bounds the loss.", "anchors": ["programs/dynamic-bonding-curve/src/curve.rs", "programs/dynamic-bonding-curve/src/state/virtual_pool.rs: calculate_base_to_quote_from_amount_in, calculate_quote_to_base_from_amount_in, calculate_base_to_quote_from_amount_out, calculate_quote_to_base_from_amount_out"]}
{"id": "C59", "title": "Any number of pools stay sound whatever accounts are passed", "statement": "Starting from an empty chain, after any sequence of the program's instructions and of token, mint and configuration instructions by anyone, with any accounts passed in any role, every pool together with the configuration and vaults recorded in it is in a state that a pool alone on chain can reach (so every property above holds for it); its vaults are token accounts of the pool authority for its two mints, no vault serves two pools or two tokens, no two pools share a base mint, and each vault holds what its pool owes from it.", "quantifier": "every sequence of instructions, every number of pools and configurations, every choice of accounts and signers", "why_tests_cant": "Account substitution and cross-pool interference range over all accounts and all histories of all pools.", "anchors": ["programs/dynamic-bonding-curve/src/instructions/swap/ix_swap.rs: SwapCtx", "programs/dynamic-bonding-curve/src/instructions/initialize_pool", "programs/dynamic-bonding-curve/src/instructions/partner", "programs/dynamic-bonding-curve/src/instructions/creator", "programs/dynamic-bonding-curve/src/instructions/operator", "programs/dynamic-bonding-curve/src/instructions/migration", "programs/dynamic-bonding-curve/src/utils/token.rs"]}
{"id": "C60", "title": "An instruction acts on the pool it names and on no other", "statement": "An instruction that does not name a pool leaves that pool's state, addresses and configuration as they are and takes no token out of its vaults and no lamport from it. An instruction that names a pool has on it exactly the effect it has on a pool alone with its own accounts, for the same signer and amounts, up to tokens or lamports the pool receives in addition. A pool appears only by an instruction creating it, in its initial state, at an address that held none.", "quantifier": "every reachable chain, instruction, choice of accounts and pool", "why_tests_cant": "Depends on every account check of every instruction; a missing one shows only with maliciously chosen accounts.", "anchors": ["programs/dynamic-bonding-curve/src/instructions/swap/ix_swap.rs: SwapCtx", "programs/dynamic-bonding-curve/src/instructions/initialize_pool", "programs/dynamic-bonding-curve/src/instructions/partner", "programs/dynamic-bonding-curve/src/instructions/creator", "programs/dynamic-bonding-curve/src/instructions/operator", "programs/dynamic-bonding-curve/src/instructions/migration"]}
{"id": "C61", "title": "A swap pays exactly the accounts named", "statement": "A swap moves what the trader pays from the named input account, which belongs to the signer, into the pool's own vault; what the trader gets from the pool's other vault into the named output account; and the referral fee, if a referral account is named, from the pool's vault of the fee token into it. No other token balance changes. The mint of the input account decides the direction and the trader's limits are kept, whatever accounts are passed, including vaults of this or other pools as output or referral.", "quantifier": "every reachable chain and every swap with any accounts", "why_tests_cant": "Aliasing of accounts (output or referral equal to a vault) is exactly what tests do not enumerate.", "anchors": ["programs/dynamic-bonding-curve/src/instructions/swap/ix_swap.rs", "programs/dynamic-bonding-curve/src/utils/token.rs"]}
{"id": "C62", "title": "Payouts reach their addressee whatever accounts are passed", "statement": "A successful partner (creator) fee claim is signed by the configured fee claimer (the recorded creator) and moves, per token, the smaller of the cap and the balance owed out of the pool's own vaults into the accounts named; the same for surpluses and migration fees, each exactly the party's share. A protocol fee claim can only pay the treasury's associated token accounts and a zap only the operator's, on a call by an operator with the permission; a zap is refused for the restricted mints, and goes through only if the zap-out check accepted exactly the amount paid and the account paid, with the treasury's associated token account for the pool's other token as destination; a leftover withdrawal by anyone can only pay the associated token account of the configured receiver; the protocol's creation fee can only go to the treasury. No other token balance changes.", "quantifier": "every reachable chain, caller and choice of accounts", "why_tests_cant": "Holds only if every account check of every handler is right, for all choices of accounts.", "anchors": ["programs/dynamic-bonding-curve/src/instructions/operator/ix_claim_protocol_fee.rs", "programs/dynamic-bonding-curve/src/instructions/operator/ix_zap_protocol_fee.rs", "programs/dynamic-bonding-curve/src/instructions/partner/ix_claim_partner_trading_fee.rs", "programs/dynamic-bonding-curve/src/instructions/creator/ix_claim_creator_trading_fee.rs", "programs/dynamic-bonding-curve/src/instructions/migration/withdraw_leftover.rs", "programs/dynamic-bonding-curve/src/instructions/migration/ix_withdraw_migration_fee.rs"]}
{"id": "C63", "title": "Nobody's tokens are taken by the program", "statement": "No instruction of the program, with whatever accounts, takes tokens out of a token account that is not the pool authority's, or changes its owner or mint, except a swap signed by the account's owner naming it as input.", "quantifier": "every reachable chain, instruction, choice of accounts and token account", "why_tests_cant": "A universal statement over all accounts an attacker can name.", "anchors": ["programs/dynamic-bonding-curve/src/instructions/swap/ix_swap.rs", "programs/dynamic-bonding-curve/src/instructions/partner", "programs/dynamic-bonding-curve/src/instructions/creator", "programs/dynamic-bonding-curve/src/instructions/operator", "programs/dynamic-bonding-curve/src/instructions/migration", "programs/dynamic-bonding-curve/src/utils/token.rs"]}
{"id": "C64", "title": "Pool tokens arrive in full and cannot be seized", "statement": "Both mints of every pool on chain are free of transfer fees and permanent delegates, so what is sent to a vault arrives in full and no third party can take tokens from it.", "quantifier": "every reachable chain and pool", "why_tests_cant": "The check is made once, when the configuration is created, and must cover every extension for every later pool.", "anchors": ["programs/dynamic-bonding-curve/src/utils/token.rs: is_supported_quote_mint", "programs/dynamic-bonding-curve/src/instructions/partner/ix_create_config.rs", "programs/dynamic-bonding-curve/src/instructions/initialize_pool"]}
{"id": "C65", "title": "Migrated positions follow the plan up to a token unit", "statement": "At a migration to DAMM v2, provided the new pool takes for the first position the tokens its formulas ask for: one side's position is exactly its planned share of the liquidity. The other side's exceeds its plan by nothing (in a compounding pool by at most the base amount, in units of 2^-64 of a token), and what it falls short by, less one unit, is worth at most one unit of base or of quote (two in a compounding pool). One day after the migration at least a tenth of all the liquidity of the positions is still locked, up to that shortfall and excess and 50002 units of rounding. For pools that raise only a few units of quote the shortfall can be the whole locked share.", "quantifier": "every reachable completed pool, every migration and every configuration", "why_tests_cant": "The rounding of the first position's tokens, the largest liquidity for what is left, the division and the vesting schedule compose over all amounts and prices.", "anchors": ["programs/dynamic-bonding-curve/src/instructions/migration/dynamic_amm_v2/migrate_damm_v2_initialize_pool.rs", "programs/dynamic-bonding-curve/src/migration_handler", "programs/dynamic-bonding-curve/src/state/config.rs: LiquidityDistributionItem", "programs/dynamic-bonding-curve/src/params/liquidity_distribution.rs"]}
{"id": "C66", "title": "How the volatility surcharge fades", "statement": "With the dynamic fee on, a swap that is not an eligible first swap pays for the volatility recorded when the previous swap ended, however long ago that was. A swap at least the decay period after the last recorded price move leaves only its own price move on record. Swaps that move the price by less than one step do not restart the clock, and once the filter period has passed each of them multiplies the record by the configured reduction factor, so n of them, even in one second, leave at most its n-th power.", "quantifier": "every reachable pool, every gap between swaps, every sequence of small swaps mixed with other instructions", "why_tests_cant": "Depends on the whole history of prices and times; the last sentence is about sequences of any length.", "anchors": ["programs/dynamic-bonding-curve/src/state/fee.rs: VolatilityTracker", "programs/dynamic-bonding-curve/src/state/virtual_pool.rs: update_pre_swap, update_post_swap", "programs/dynamic-bonding-curve/src/instructions/swap/ix_swap.rs"]}
{"id": "C67", "title": "The quote reserve follows the curve, and the surplus is only rounding", "statement": "For a configuration of n curve points and any history of a pool with k swaps, the quote reserve is never less than the exact cost of moving the curve from its start to the current price, and exceeds it by at most k * n units. So the quote above the migration threshold that partner, creator and protocol share after completion is at most k * n units, whoever completes the curve and however.", "quantifier": "every configuration, every history of swaps in all modes and directions mixed with all other instructions", "why_tests_cant": "Rounding accumulates over histories of any length; a test sees a few swaps.", "anchors": ["programs/dynamic-bonding-curve/src/state/virtual_pool.rs: get_swap_result_from_exact_input, get_swap_result_from_partial_input, get_swap_result_from_exact_output", "programs/dynamic-bonding-curve/src/curve.rs", "programs/dynamic-bonding-curve/src/state/virtual_pool.rs: get_total_surplus"]}
{"id": "C68", "title": "Nothing but the pool's own rules stops an instruction", "statement": "Whatever else there is on chain, an instruction to a pool succeeds if its operation is one the pool, taken alone, allows and it is made out correctly: it names the pool's own configuration, vaults, mints and metadata account, receiving accounts that exist and are of the right mint (the prescribed ones where the program prescribes them), and in a swap an input account of the signer that holds what the trade costs. Its effect on the pool is that operation, apart from what the pool pays into its own vaults when these are named as receivers.", "quantifier": "every reachable chain, pool, operation and choice of receiving accounts", "why_tests_cant": "That no other pool, account or balance can block an instruction is a statement about every possible rest of the chain.", "anchors": ["programs/dynamic-bonding-curve/src/instructions/swap/ix_swap.rs", "programs/dynamic-bonding-curve/src/instructions/partner", "programs/dynamic-bonding-curve/src/instructions/creator", "programs/dynamic-bonding-curve/src/instructions/operator", "programs/dynamic-bonding-curve/src/instructions/migration", "programs/dynamic-bonding-curve/src/utils/token.rs"]}
{"id": "C69", "title": "Nobody on chain can block completion, migration or selling back", "statement": "Whatever else is going on on chain: a pool whose curve is complete can be brought to migration by instructions that anybody can send (opening token accounts, setting up the locked vesting, creating the metadata account, migrating). Anybody who holds a hundred times the quote the curve still lacks (inside a rate limiter's window a millionth and 30300 units more) completes it with one partial-fill buy. Whoever holds base tokens that were taken out of the pool sells any part of them in one exact-input swap while the curve is not complete.", "quantifier": "every reachable chain, pool and holder, after any history of all pools", "why_tests_cant": "Liveness after arbitrary histories by arbitrary other parties cannot be covered by examples.", "anchors": ["programs/dynamic-bonding-curve/src/instructions/migration", "programs/dynamic-bonding-curve/src/instructions/swap/ix_swap.rs", "programs/dynamic-bonding-curve/src/state/virtual_pool.rs", "programs/dynamic-bonding-curve/src/utils/token.rs"]}
{"id": "C70", "title": "The event log tells the pool's story", "statement": "Someone who keeps only the events a pool has emitted, in order, and knows its configuration can compute from them: what traders paid and received in each token, the trading, protocol and referral fees taken, all trading fees paid to partner and creator, their surplus and migration fee, the leftover and the lamports paid out of the pool, its current price, quote reserve and creator, and whether the curve is complete, which is announced exactly once, by the swap that completes it. Each swap's events describe that swap, and each payment's event reports what left each vault. The one gap is the protocol's fees: a zap leaves no event, so the log reports what the protocol was paid exactly if there was no zap, and never more.", "quantifier": "every configuration and every history of instructions", "why_tests_cant": "Adding up a log of any length must agree with the accounts after every history.", "anchors": ["programs/dynamic-bonding-curve/src/event.rs", "programs/dynamic-bonding-curve/src/instructions/swap/ix_swap.rs", "programs/dynamic-bonding-curve/src/instructions/operator", "programs/dynamic-bonding-curve/src/instructions/partner", "programs/dynamic-bonding-curve/src/instructions/creator", "programs/dynamic-bonding-curve/src/instructions/migration"]}
{"id": "C71", "title": "The protocol's liquidity fee costs the new pool at most 0.2% and does not move its price", "statement": "The protocol keeps 0.2% of what a pool sets aside for migration. Into a constant-product pool (DAMM v1, compounding DAMM v2) at least 99.8% of the base and of the quote set aside can go, and their ratio is the one set aside up to less than one unit of either token; it can rise as well as fall by that much. The liquidity shared between partner and creator in a DAMM v2 migration is at least 99.8% of the most that could have been made without the fee, up to one unit in a concentrated pool and one part in 2^31 in a compounding one.", "quantifier": "every reachable completed pool, every migration and every configuration", "why_tests_cant": "Three roundings (fee, square root, liquidity) compose over all amounts and prices; the random test of the ratio never reaches the amounts at which it rises.", "anchors": ["programs/dynamic-bonding-curve/src/migration_handler/compounding_liquidity.rs", "programs/dynamic-bonding-curve/src/migration_handler/concentrated_liquidity.rs", "programs/dynamic-bonding-curve/src/migration_handler/mod.rs", "programs/dynamic-bonding-curve/src/instructions/migration", "programs/dynamic-bonding-curve/src/tests/test_migration_fee.rs"]}
{"id": "C72", "title": "Switching between exact input and exact output costs nothing", "statement": "With fees included, for swaps whose fee rate does not depend on their size and in the same state: a swap by exact input that offers at least what a swap by exact output costs yields at least its output; and a swap by exact output that asks for less than a swap by exact input yields costs no more than that offers (also for just as much, unless it ends on a point of the configured curve). Adding the fee to an amount and taking it off again gives the amount back, for every amount and rate. Under a rate limiter the first part can fail.", "quantifier": "every reachable state, direction, fee mode, pair of amounts", "why_tests_cant": "Two different loops with opposite roundings and two fee formulas must agree for all amounts; the repo's property test covers only the fee formulas.", "anchors": ["programs/dynamic-bonding-curve/src/state/virtual_pool.rs: get_swap_result_from_exact_input, get_swap_result_from_exact_output", "programs/dynamic-bonding-curve/src/state/config.rs: get_included_fee_amount, get_excluded_fee_amount"]}
{"id": "C73", "title": "Public descriptions are genuine, readable and permanent", "statement": "A partner's public description on chain was published in an instruction signed by the very partner it names, a pool's by the key that was the pool's creator at that moment; each reads back exactly as the name, website and logo that were passed, of any length. Once published it never changes or disappears, whatever happens, and the log has exactly one event on each, naming the key described. A partner who has not published yet can always do so, and so can the current creator of a pool nobody has described yet: nobody else can use up their place. Publishing, like the other administrative leftovers (the empty DAMM v2 metadata instruction, closing legacy operator accounts, which only an admin can do and which is logged once for each, naming the account and its operator), has no effect on pools, configurations, balances or operators.", "quantifier": "every history of all instructions of the program, every text and every key", "why_tests_cant": "Genuineness and permanence are statements about whole histories; the account size is computed by hand and must suffice for every text.", "anchors": ["programs/dynamic-bonding-curve/src/instructions/partner/ix_create_partner_metadata.rs", "programs/dynamic-bonding-curve/src/instructions/creator/ix_create_virtual_pool_metadata.rs", "programs/dynamic-bonding-curve/src/state/partner_metadata.rs", "programs/dynamic-bonding-curve/src/state/virtual_pool_metadata.rs", "programs/dynamic-bonding-curve/src/instructions/migration/dynamic_amm_v2/migration_damm_v2_create_metadata.rs", "programs/dynamic-bonding-curve/src/instructions/admin/ix_close_claim_protocol_fee_operator.rs", "programs/dynamic-bonding-curve/src/lib.rs"]}
{"id": "C74", "title": "Pools made by earlier releases keep the guarantees", "statement": "Many pools on chain were created by earlier releases with other checks and other fees. If such a pool, while it is trading, passes an audit that reads only its configuration, its pool account and its balances (a proper curve whose stored amounts and final price belong to it, a supply covering them, a price on the curve, reserves that pay for what the curve has sold, balances that cover the books), then whatever happens to it under this release its vaults keep covering everything owed, its price stays on the curve, and partner, creator and protocol can collect their fees and shares, including the flat creation fee earlier releases charged, once. Every pool created by this release passes the audit at any moment while it trades, and so do the two mainnet pools shipped with the SDK's tests, one of which has a configuration that would be refused today.", "quantifier": "every state that passes the audit and every history from it", "why_tests_cant": "States written by other releases are not reachable by this one, so neither its tests nor proofs about its own pools say anything about them.", "anchors": ["programs/dynamic-bonding-curve/src/state/config.rs", "programs/dynamic-bonding-curve/src/state/virtual_pool.rs", "programs/dynamic-bonding-curve/src/instructions/operator/ix_claim_protocol_pool_creation_fee.rs", "dynamic-bonding-curve-sdk/fixtures"]}
{"id": "C75", "title": "What is stored is what is read back", "statement": "Whatever the accepted settings, the trades, the claims and the clock, every amount, price, counter, flag and setting that a pool or its configuration holds fits the field it is stored in, so nothing is ever cut off or wraps. A pool account is always 424 bytes and a configuration account 1048, and anyone who reads the bytes at the published offsets sees exactly the pool's addresses and numbers, or exactly the accepted configuration. Two different pool states never have the same bytes. The account files of two live pools that come with the SDK read as the pools they are, and storing them again gives the same files.", "quantifier": "every accepted configuration and every history of instructions", "why_tests_cant": "Overflow of a stored counter or a field read at the wrong place shows only for particular large values; tests store small ones.", "anchors": ["programs/dynamic-bonding-curve/src/state/virtual_pool.rs", "programs/dynamic-bonding-curve/src/state/config.rs", "programs/dynamic-bonding-curve/src/state/fee.rs", "programs/dynamic-bonding-curve/src/instructions/partner/ix_create_config.rs", "dynamic-bonding-curve-sdk/fixtures"]}
{"id": "C76", "title": "A swap that can be made one way can be made the other ways", "statement": "A swap by exact input that goes through can just as well be sent as a partial fill, with the same effect on everything. A partial fill that goes through can just as well be sent as a swap by exact input, with the same effect, or else the exact input is refused for lack of liquidity and the partial fill ends where the curve does: at the migration price for a buy, at the start price for a sale. And where a swap by exact input or a partial fill goes through, a swap by exact output asking for any smaller yield goes through too if it allows the same price, and costs no more, provided the fee rate does not depend on size.", "quantifier": "every reachable state, direction, fee mode, clock, amount", "why_tests_cant": "That one code path never fails where another succeeds must hold for every amount and every place on the curve; tests try a few.", "anchors": ["programs/dynamic-bonding-curve/src/instructions/swap/ix_swap.rs", "programs/dynamic-bonding-curve/src/instructions/swap/swap_exact_in.rs", "programs/dynamic-bonding-curve/src/instructions/swap/swap_partial_fill.rs", "programs/dynamic-bonding-curve/src/instructions/swap/swap_exact_out.rs", "programs/dynamic-bonding-curve/src/state/virtual_pool.rs: get_swap_result_from_exact_input, get_swap_result_from_partial_input, get_swap_result_from_exact_output"]}
{"id": "C77", "title": "Clients and pools of earlier releases keep their meaning", "statement": "The bytes a client built for an earlier release (0.1.2 to 0.1.6, as recorded in the repository's interface files) sends to create a configuration are read as exactly the settings it named, with everything introduced since switched off: no creation fee, no discount for the first swap, no vesting of liquidity, fixed fees of the migrated pool. Its swap, claim and withdrawal requests name the same amounts as before. Pool and configuration accounts left by an earlier release are read as that pool and that configuration, again with everything introduced since off. What a present client sends is what the program acts on, and whatever bytes arrive, a configuration is created only from numbers within their types.", "quantifier": "every setting of every earlier release, every account content, every sequence of bytes", "why_tests_cant": "The compatibility tests replay a handful of recorded instructions; that no setting is read as another one must hold for every value of every field.", "anchors": ["programs/dynamic-bonding-curve/src/instructions/partner/ix_create_config.rs: ConfigParameters", "programs/dynamic-bonding-curve/src/params/fee_parameters.rs", "programs/dynamic-bonding-curve/src/params/liquidity_distribution.rs", "programs/dynamic-bonding-curve/src/instructions/swap/ix_swap.rs: SwapParameters, SwapParameters2", "programs/dynamic-bonding-curve/src/state/virtual_pool.rs: VirtualPool", "programs/dynamic-bonding-curve/src/state/config.rs: PoolConfig", "programs/dynamic-bonding-curve/src/lib.rs", "scripts/idl/release_0.1.2.json, release_0.1.3.json, release_0.1.4.json, release_0.1.6.json", "tests/backwards_compatibility"]}
{"id": "C78", "title": "Only trades change what a trade gets", "statement": "Whatever else happens to a pool between two moments (claims, withdrawals, gifts of tokens, a change of creator, operators appointed and dismissed, metadata, locking of liquidity), a swap with given arguments at a given clock that would have gone through at the first moment goes through at the second, with the same amounts paid and received, the same split of the fee, the same price and the same reserves, provided the trader still owns what the swap takes. And two histories with the same swaps in the same order agree in the price, the reserves, the record behind the dynamic fee, the lifetime fees and what traders paid and received, whatever else they contain.", "quantifier": "every reachable state, every finite history of other operations, every swap", "why_tests_cant": "Interference between a claim and a later trade shows only in particular interleavings; tests run a few fixed scripts.", "anchors": ["programs/dynamic-bonding-curve/src/instructions/swap/ix_swap.rs", "programs/dynamic-bonding-curve/src/state/virtual_pool.rs", "programs/dynamic-bonding-curve/src/instructions/partner", "programs/dynamic-bonding-curve/src/instructions/creator", "programs/dynamic-bonding-curve/src/instructions/operator", "programs/dynamic-bonding-curve/src/instructions/migration"]}
{"id": "C79", "title": "The order in which the parties are paid does not matter", "statement": "Take any payments of different dues (trading fees of partner, creator and protocol, surplus of partner and creator, migration fee of partner and creator, creation fee of partner and protocol, leftover) that can be made one after the other in some order. Then they can be made in every order, each pays the same, and the pool ends in the same state. In particular no payment hinders or enables a different one. Fees fetched in two claims are what one claim with the sum of the two limits would have fetched.", "quantifier": "every reachable state, any number of payments, every order, every limit", "why_tests_cant": "The number of orders grows factorially and each can be met at any state of the pool; tests fix one order.", "anchors": ["programs/dynamic-bonding-curve/src/instructions/partner", "programs/dynamic-bonding-curve/src/instructions/creator", "programs/dynamic-bonding-curve/src/instructions/operator", "programs/dynamic-bonding-curve/src/instructions/migration/ix_withdraw_migration_fee.rs", "programs/dynamic-bonding-curve/src/instructions/migration/withdraw_leftover.rs", "programs/dynamic-bonding-curve/src/state/virtual_pool.rs: claim_protocol_base_fee, claim_partner_trading_fee, claim_creator_trading_fee, update_partner_withdraw_surplus"]}
{"id": "C80", "title": "Trading back and forth costs at least the fees", "statement": "Over any history, if the traders together paid no more base than they received and left as fees, then they paid at least as much quote as they received and left as fees (and the same with the tokens exchanged); every fee is at least 0.25% of the amount it is taken on, so they are short of at least 0.25% of all amounts on which quote fees were taken. In particular whoever buys and later sells no more than the curve gave out, with anything but trades in between, gets back at most what was paid less both quote fees: at most 99.75%, and at most the square of that in pools that collect quote. Selling first and buying back never yields more than was sold, and at most 99.75% where buys pay their fee in base.", "quantifier": "every reachable pool, every history of swaps in all modes mixed with all other instructions", "why_tests_cant": "Wash trading and round trips can be arranged in unboundedly many ways and across rounding steps; a test tries a few.", "anchors": ["programs/dynamic-bonding-curve/src/curve.rs", "programs/dynamic-bonding-curve/src/state/virtual_pool.rs: swap", "programs/dynamic-bonding-curve/src/state/config.rs: get_fee_mode, get_total_fee_numerator", "programs/dynamic-bonding-curve/src/instructions/swap/ix_swap.rs"]}
{"id": "C81", "title": "The terms a pool was created with never change", "statement": "A configuration records exactly what its maker asked for in the instruction that created it (fees, curve, prices, thresholds, shares, vesting, supplies, receivers), and from then on no instruction by anyone changes a single field of it. A pool, once created, exists for ever and keeps the configuration, token and vaults named when it was created, the kind of its token, its opening time, the rate of the protocol's migration fee and the keys entitled to mint its token or edit its description. Its creator is the one who created it or the key named in the last transfer of that role, and each transfer was signed by the creator of the moment.", "quantifier": "every history of instructions of the whole program with any accounts and signers", "why_tests_cant": "That no instruction anywhere rewrites a term must hold for every instruction, every choice of accounts and every history; a test looks at the instructions it happens to run.", "anchors": ["programs/dynamic-bonding-curve/src/instructions/partner/ix_create_config.rs", "programs/dynamic-bonding-curve/src/state/config.rs: PoolConfig::init", "programs/dynamic-bonding-curve/src/state/virtual_pool.rs: initialize", "programs/dynamic-bonding-curve/src/instructions/initialize_pool", "programs/dynamic-bonding-curve/src/instructions/creator/ix_transfer_pool_creator.rs", "programs/dynamic-bonding-curve/src/lib.rs"]}
{"id": "C82", "title": "A referral costs nobody but the protocol", "statement": "A swap that goes through without a referral account goes through with one too, for any pool whose first-swap discount is not at stake. The trader pays and receives exactly the same, the price, the reserves and the volatility record move the same, the partner and the creator earn the same, and the curve completes or not just the same. The referral account is paid one fifth, rounded down, of what the protocol would have earned by the swap, out of the protocol's share and in the same token.", "quantifier": "every reachable state, every swap in every mode and direction", "why_tests_cant": "A rounding or an overflow that lets the referral eat into someone else's share, or makes the swap fail, shows only at particular amounts; tests compare no two such runs.", "anchors": ["programs/dynamic-bonding-curve/src/instructions/swap/ix_swap.rs", "programs/dynamic-bonding-curve/src/state/config.rs: split_fees, get_fee_on_amount", "programs/dynamic-bonding-curve/src/state/virtual_pool.rs: apply_swap_result, get_swap_result_from_exact_input, get_swap_result_from_partial_input, get_swap_result_from_exact_output"]}
{"id": "C83", "title": "All pools of a configuration open alike", "statement": "Whatever happened to two pools of one configuration before they migrated - trades, claims, gifts to the vaults, burns, changes of owner, in any order and at any time - the pools they migrate to are opened alike: DAMM v1 is given the same two amounts, and a DAMM v2 pool is created with the same price and the same liquidity, and with the same fees if the configuration sets them. For a concentrated pool the quote set aside for it alone decides the liquidity: the base tokens always suffice, and more of them change nothing.", "quantifier": "every pair of histories of pools of one configuration", "why_tests_cant": "Whether the balance left in the base vault, which depends on the whole history and on gifts from strangers, can leak into the price or liquidity of the new pool cannot be settled by trying some histories.", "anchors": ["programs/dynamic-bonding-curve/src/instructions/migration/dynamic_amm_v2/migrate_damm_v2_initialize_pool.rs", "programs/dynamic-bonding-curve/src/instructions/migration/meteora_damm/migrate_meteora_damm_initialize_pool.rs", "programs/dynamic-bonding-curve/src/migration_handler/concentrated_liquidity.rs", "programs/dynamic-bonding-curve/src/migration_handler/compounding_liquidity.rs"]}
{"id": "C84", "title": "A trade's average price lies between the prices shown before and after it", "statement": "Nobody trades at a better price than the one the pool displays before the trade: a buyer pays, fees included, at least what the base received is worth at that price, and a seller receives at most what the base paid is worth at it. This holds exactly, to the unit. And, leaving fees aside, nobody trades at a worse price than the one displayed after the trade, up to rounding: with n curve points, a buyer pays at most what the base received and n units more are worth at that price, and n + 1 units of quote; a seller receives at least what the base paid, less n units, is worth, less n + 2 units of quote.", "quantifier": "every reachable pool, every swap in every mode, direction and size", "why_tests_cant": "How far rounding can push the price of a trade past the displayed one depends on amount, place on the curve and number of pieces crossed; tests try a few trades.", "anchors": ["programs/dynamic-bonding-curve/src/curve.rs", "programs/dynamic-bonding-curve/src/state/virtual_pool.rs: calculate_base_to_quote_from_amount_in, calculate_quote_to_base_from_amount_in, calculate_base_to_quote_from_amount_out, calculate_quote_to_base_from_amount_out"]}
{"id": "C85", "title": "Nothing is left stranded in the vaults", "statement": "In every state the quote vault of a pool holds exactly what is owed (reserve or shares, and unclaimed fees), what outsiders sent to it, and, after migration, what the new pool did not take of the quote set aside for it; the last part is fixed by the migration, is zero if DAMM v1 takes what it is given, and for a concentrated DAMM v2 pool that takes exactly the tokens its formulas ask for it is at most the quote that goes with liquidity taking one unit of base. The base vault, together with everything that went to the vesting escrow, the new pool, the protocol at migration, the leftover receiver or was burnt, is exactly reserve, fees and gifts; once a pool without fixed supply has migrated, or the leftover has been withdrawn, it holds exactly what is owed and later gifts. From every migrated state the parties can fetch everything, after which nothing is owed in either token.", "quantifier": "for every reachable state; every migration; every later history; every migrated state with a protocol operator", "why_tests_cant": "a few tokens lost to rounding or to a missed branch in some order of swaps, claims and withdrawals would stay in the vault unnoticed by tests that check single payments", "anchors": ["programs/dynamic-bonding-curve/src/instructions/migration/dynamic_amm_v2/migrate_damm_v2_initialize_pool.rs", "programs/dynamic-bonding-curve/src/instructions/migration/meteora_damm/migrate_meteora_damm_initialize_pool.rs", "programs/dynamic-bonding-curve/src/instructions/migration/withdraw_leftover.rs", "programs/dynamic-bonding-curve/src/state/virtual_pool.rs"]}
{"id": "C86", "title": "Waiting never makes a trade worse", "statement": "As long as nobody else trades in between, the same swap made later receives at least as much, pays no more and is charged no more than if it had been made now; this also holds across the end of a rate limiter's window. An exact-output swap that goes through now also goes through at any later moment, and an offer that goes through now (exact input or partial fill) can be filled at any later moment as a partial fill with the same minimum, provided the trader still owns what is taken now. Claims, donations and other operations in between make no difference.", "quantifier": "every reachable pool that is trading, every swap in every mode, direction and size, every later clock, every history without trades in between", "why_tests_cant": "The fee depends on clock, schedule, limiter window, volatility state and size together; that no combination of a later clock with any size charges more cannot be settled by sampling moments.", "anchors": ["programs/dynamic-bonding-curve/src/base_fee/fee_scheduler.rs", "programs/dynamic-bonding-curve/src/base_fee/fee_rate_limiter.rs", "programs/dynamic-bonding-curve/src/state/fee.rs", "programs/dynamic-bonding-curve/src/state/virtual_pool.rs", "programs/dynamic-bonding-curve/src/instructions/swap/ix_swap.rs"]}
{"id": "C87", "title": "A better displayed price is a better trade", "statement": "Compare two pools of one configuration, or one pool at two moments, whatever their histories. Leaving fees aside, a buyer at the lower displayed price receives at least as much base for at least as much quote, up to n units of base and what n + 1 units of quote buy at the higher price (n curve points); offering n + 1 units of quote more, up to n units of base. A seller at the higher displayed price receives at least as much quote for at least as much base, up to n + 2 units and what n units of base are worth. So in a pool without dynamic fee a trader whose exact-input swap is overtaken by others loses nothing, fees included and up to that rounding, unless the others moved the displayed price against them.", "quantifier": "every pair of reachable states of one configuration, every pair of swaps in every mode; for the trader's version every history in between and every later clock", "why_tests_cant": "It compares two states reached by unrelated histories on curves of any shape; tests can only sample pairs of states.", "anchors": ["programs/dynamic-bonding-curve/src/curve.rs", "programs/dynamic-bonding-curve/src/state/virtual_pool.rs", "programs/dynamic-bonding-curve/src/instructions/swap/ix_swap.rs", "programs/dynamic-bonding-curve/src/base_fee/fee_scheduler.rs"]}
{"id": "C88", "title": "A pool's tokens are under the programs it records", "statement": "At every point of every history, whatever accounts were passed: a configuration's stored flag says truly whether its quote mint belongs to the classic token program or to Token-2022; the base mint of every pool belongs to the program its configuration asks for, and the pool account records that; and a configuration whose pools migrate to the first AMM, which knows only the classic token program, is for classic tokens on both sides, so no such pool can fill up and then be unable to migrate for this reason. Instructions never change the program or the extensions of a mint.", "quantifier": "every history of instructions of all kinds with arbitrary accounts, every configuration and pool", "why_tests_cant": "It is an invariant over unbounded histories in which anybody can create mints and pass any accounts; a test checks one mint at one moment.", "anchors": ["programs/dynamic-bonding-curve/src/instructions/partner/ix_create_config.rs", "programs/dynamic-bonding-curve/src/utils/token.rs", "programs/dynamic-bonding-curve/src/instructions/initialize_pool/ix_initialize_virtual_pool_with_spl_token.rs", "programs/dynamic-bonding-curve/src/instructions/initialize_pool/ix_initialize_virtual_pool_with_token2022.rs", "programs/dynamic-bonding-curve/src/instructions/migration/meteora_damm/migrate_meteora_damm_initialize_pool.rs"]}
{"id": "C89", "title": "Which configurations are accepted", "statement": "Creating a configuration succeeds exactly when its parameters follow the published rules, and these are the only rules: a supported quote token; known option numbers; six to nine decimals; a trading fee between 0.25% and 99% at all times; a rate limiter only with fees in the quote token, for at most twelve hours; creator and migration fee shares within their limits; a pool creation fee of zero or 0.001 to 100 SOL; fee settings and liquidity vesting that the target AMM takes; liquidity shares that add up to 100% with at least a tenth still locked after one day; a positive migration threshold; a token vesting that fits 64 bits; one to sixteen curve points with rising prices in range; a threshold the curve can collect below its highest price, with amounts for the curve and the new pool that are positive and fit 64 bits; and a chosen supply that covers everything. For exponentially falling fees the last rate is known up to two billionths. Surprise: a rate limiter starting at exactly 99% is refused.", "quantifier": "every set of parameters and every clock value at least two years from the end of its range", "why_tests_cant": "The claim is an equivalence over all parameters: a test can show that one configuration is accepted or refused, but not that no other rule decides, nor that a computation inside the checks never overflows for parameters that follow the rules.", "anchors": ["programs/dynamic-bonding-curve/src/instructions/partner/ix_create_config.rs", "programs/dynamic-bonding-curve/src/base_fee/fee_scheduler.rs", "programs/dynamic-bonding-curve/src/base_fee/fee_rate_limiter.rs", "programs/dynamic-bonding-curve/src/params/fee_parameters.rs", "programs/dynamic-bonding-curve/src/params/liquidity_distribution.rs", "programs/dynamic-bonding-curve/src/state/config.rs", "programs/dynamic-bonding-curve/src/utils/damm_v2_utils.rs"]}
{"id": "C90", "title": "Which configurations a pool can be launched from", "statement": "From an accepted configuration anyone can launch a pool of the configured token type at any time, at any point of any history on chain (with new accounts at the derived addresses), exactly if the supply fits 64 bits. With a chosen supply it always does, so such a configuration can never turn out to be unusable. Without one the supply is what the curve may sell plus the base tokens for the new pool plus the token vesting, and nothing checked at creation that this fits: there are accepted configurations from which no pool can ever be launched. A launched pool holds exactly this supply, all of it in its base vault, and starts at the configured price.", "quantifier": "every accepted configuration, every launch, every history of the chain", "why_tests_cant": "That every accepted configuration passes the launch checks again, and the exact exception, is an equivalence over all parameters; the exception needs extreme amounts that nobody puts in a test.", "anchors": ["programs/dynamic-bonding-curve/src/instructions/initialize_pool/ix_initialize_virtual_pool_with_spl_token.rs", "programs/dynamic-bonding-curve/src/instructions/initialize_pool/ix_initialize_virtual_pool_with_token2022.rs", "programs/dynamic-bonding-curve/src/instructions/partner/ix_create_config.rs", "programs/dynamic-bonding-curve/src/state/config.rs"]}
{"id": "C91", "title": "A trade is refused only for a reason, and the error names it", "statement": "In every reachable state an exact-input swap or a partial fill either goes through or is refused for one of four reasons, each named by its own error: the amount is zero (AmountIsZero); the curve is complete (PoolIsCompleted); an exact input is more than the curve can take, so that the partial fill of the same amount goes through and ends at the end of the curve (InsufficientLiquidity); the trade would yield less than the stated minimum, and without that minimum it goes through with this smaller yield (ExceededSlippage). Where an exact-output swap is refused and the fee rate does not depend on size, no trade by input made at the same moment yields more than was asked for at a price that was allowed. Provided the pool is activated, a buy inside the window of a rate limiter is alone in its transaction, the trader owns what is offered (inside such a window: a millionth and 30300 units more) and the 64-bit lifetime fee counters do not overflow.", "quantifier": "every reachable state, every exact-input or partial-fill swap, every amount and minimum", "why_tests_cant": "Tests provoke each error once; that no other error can ever come out, at any price, rate and size, is a statement about all intermediate computations of every state.", "anchors": ["programs/dynamic-bonding-curve/src/instructions/swap/ix_swap.rs", "programs/dynamic-bonding-curve/src/instructions/swap/swap_exact_in.rs", "programs/dynamic-bonding-curve/src/instructions/swap/swap_partial_fill.rs", "programs/dynamic-bonding-curve/src/state/virtual_pool.rs"]}
{"id": "C92", "title": "A lawful plan can be carried through to migration", "statement": "Whatever is going on on chain, whoever has parameters that follow the rules and whose supply fits 64 bits can carry a launch through. The configuration is accepted, a pool is launched from it, a buyer who owns a hundred times the migration threshold (and a millionth and 30300 units more, for the case of a rate limiter) buys the whole curve in one transaction at that same moment, and the pool is then brought to migration by instructions that anybody can send. Required are only a supported quote token, free addresses for the accounts to be created, and a clock that is past the filter period of the volatility fee.", "quantifier": "every history of the chain, every lawful set of parameters, every launch and buyer", "why_tests_cant": "A test runs one such story; that no lawful parameters and no earlier happenings on chain lead into a dead end is a statement about all of them together.", "anchors": ["programs/dynamic-bonding-curve/src/instructions/partner/ix_create_config.rs", "programs/dynamic-bonding-curve/src/instructions/initialize_pool/ix_initialize_virtual_pool_with_spl_token.rs", "programs/dynamic-bonding-curve/src/instructions/swap/ix_swap.rs", "programs/dynamic-bonding-curve/src/instructions/migration/dynamic_amm_v2/migrate_damm_v2_initialize_pool.rs"]}
{"id": "C93", "title": "No roundabout way beats the direct trade, and a sandwich takes only from its victim", "statement": "No sequence of operations on a pool, by however many parties, gets base out of the reserve for less quote than one direct buy made at the outset, nor more quote out for the same base than one direct sale, up to n+1 respectively n+2 units of quote and n units of base, n being the number of curve points (amounts as booked in the reserves; trading fees come on top). So when others trade before and after somebody's swap and in the end have paid in no more base than they took out, all they gain in quote and all fees paid in quote on the way are together at most what the one in the middle lost against the direct trade: a sandwich cannot take anything from the pool.", "quantifier": "every reachable pool, every history in between, every direct trade to compare with", "why_tests_cant": "A test runs one order of trades against one alternative; the claim compares every possible history with the direct trade, including ones with any number of rounded steps in either direction.", "anchors": ["programs/dynamic-bonding-curve/src/state/virtual_pool.rs", "programs/dynamic-bonding-curve/src/curve.rs", "programs/dynamic-bonding-curve/src/instructions/swap/ix_swap.rs"]}
{"id": "C94", "title": "Over a pool's life everybody earns their share of all fees, however the trading is cut up", "statement": "At every moment of a pool's life, and for each token: what the protocol has been paid and is owed as trading fees, together with what referral accounts have been paid, is 20% of all fees ever taken, short by at most 0.8 units per trade; referral accounts have had at most a fifth of it. What creators have been paid and are owed is the configured percentage of the rest, short by at most a unit per trade. The partner has everything else, so nothing is lost. Partner and creator together have earned at least 80% of the minimum rate of 0.25% of the volume on which fees were taken, and all fees together are at most 99% of it and a unit per trade.", "quantifier": "every history from the creation of a pool on, every token, every number and size of trades", "why_tests_cant": "The split of one fee is easily tested; that rounding over arbitrarily many trades, with claims, role changes and migration in between, never shifts more than a unit per trade between the parties is a statement about all histories.", "anchors": ["programs/dynamic-bonding-curve/src/state/virtual_pool.rs", "programs/dynamic-bonding-curve/src/state/config.rs", "programs/dynamic-bonding-curve/src/params/fee_parameters.rs"]}
{"id": "C95", "title": "The curve sells what it promises", "statement": "At every moment of a pool's life the base sold so far (all that left the reserve less all that was sold back) is at most what the configured curve gives between the start price and the current price, and after k swaps on a curve of n points it is at most k*n units and the worth of 2*k quote units at the start price less. When the pool has completed, it has sold everything the curve offers up to the migration price, up to k*n units and the worth of (2+n)*k quote units: however the trading went, buyers together get the promised part of the supply.", "quantifier": "every pool, every history, every number of trades in both directions", "why_tests_cant": "Tests compare single trades with the formula; that shortfalls of rounding never add up to more than a unit per trade and point, over any mix of buys, sales and the three ways of stating an amount, needs an argument over all histories.", "anchors": ["programs/dynamic-bonding-curve/src/state/virtual_pool.rs", "programs/dynamic-bonding-curve/src/curve.rs", "programs/dynamic-bonding-curve/src/instructions/partner/ix_create_config.rs"]}
{"id": "C96", "title": "Where a pool stands depends on what it has collected, not on how", "statement": "Take two ways in which the history of a pool can go on from some moment, or the histories of two pools of one configuration, with any operations in any order and number. If the first ends with no more quote in the reserve than the second, then its price is no higher up to k*n quote units along the curve, and it has sold no more base up to k*n units and what (2+n)*k quote units buy at the start price, k being the number of swaps in the second and n the number of curve points. So with equal quote collected, price and base sold agree up to rounding: the order of trades, and whether they are cut up, decides who gets what but not where the pool ends.", "quantifier": "every reachable pool, every pair of continuations or of histories", "why_tests_cant": "Tests compare a few orders of a few trades; path independence is a statement about all pairs of histories.", "anchors": ["programs/dynamic-bonding-curve/src/state/virtual_pool.rs", "programs/dynamic-bonding-curve/src/curve.rs"]}
{"id": "C97", "title": "Everybody trades on the same terms", "statement": "If one party's swap goes through, then in the same state of the chain the same request made by anybody else goes through too, provided they hold what it costs and name accounts of the right tokens. The same amounts are paid, received and passed to the referrer, and the pool is left in exactly the same state. What counts is whether a referrer is named, not who it is.", "quantifier": "every chain state that can arise, every swap that succeeds there, every other payer with any accounts", "why_tests_cant": "That nobody is favoured or shut out is a statement about all pairs of traders in all states; a test compares a few signers.", "anchors": ["programs/dynamic-bonding-curve/src/instructions/swap/ix_swap.rs", "programs/dynamic-bonding-curve/src/state/virtual_pool.rs"]}
{"id": "C98", "title": "What goes on elsewhere does not touch a trade", "statement": "If a swap goes through, then after any further instructions on chain, by anybody, addressed to any pool and with any accounts, other than swaps in the same pool, the same request at the same clock still goes through, by the same party or any other who then holds what it costs and names accounts of the right tokens. The amounts paid, received and passed to the referrer are the same, and so are the price and the reserves it leaves.", "quantifier": "every chain state that can arise, every swap that succeeds there, every continuation by any instructions without a swap in that pool, every payer with any accounts", "why_tests_cant": "Independence of other pools, claims, gifts and transfers quantifies over all interleavings of all other instructions; a test runs a few.", "anchors": ["programs/dynamic-bonding-curve/src/instructions/swap/ix_swap.rs", "programs/dynamic-bonding-curve/src/state/virtual_pool.rs"]}
{"id": "C99", "title": "Turning back costs no more than the fees", "statement": "Whoever buys and, before anybody else trades, sells some or all of it, has paid no more than what they got back, the fees of both trades, the base they kept (and any fee taken in base) at the price displayed in the end, and rounding: 2n units of base at that price and 2n+4 units of quote on a curve of n points. The same holds for everybody together over any history of k swaps, with kn units of base, kn units of quote and two more per swap, scaled by how far the price has come since the start of the curve. So the pool keeps nothing of the traders' money beyond the fees and rounding.", "quantifier": "every reachable pool, every buy and sale of any amounts; every history with any trades", "why_tests_cant": "Tests try a few round trips; that no amount, price, curve or history makes the way back dearer than the fees is a statement about all of them.", "anchors": ["programs/dynamic-bonding-curve/src/state/virtual_pool.rs", "programs/dynamic-bonding-curve/src/curve.rs"]}
{"id": "C100", "title": "No discount for size", "statement": "Of two buys that could be made in the same state of a pool, the one that puts more quote into the reserve takes no more base per unit of quote than the other; of two sales, the one that puts in more base takes no more quote per unit of base. This holds up to rounding: n units of either token on a curve of n points and what two units of quote buy. So nobody gets a better average price by trading more at once.", "quantifier": "every reachable pool, every pair of buys and every pair of sales possible there, in any mode", "why_tests_cant": "It compares all pairs of trades of all sizes in all states; tests compare a few sizes.", "anchors": ["programs/dynamic-bonding-curve/src/state/virtual_pool.rs", "programs/dynamic-bonding-curve/src/curve.rs"]}
{"id": "C101", "title": "The log of the chain tells every pool's story", "statement": "From the events on the chain that name a pool, in order, anybody can read off what its traders paid and got, the fees taken, what partner, creator and protocol claimed and withdrew, its price, its quote reserve, its creator and whether its curve is complete, whatever happened to other pools in between and whatever accounts were passed. The amounts in the event of a swap are the tokens that moved between the accounts named and the pool's vaults, and the amounts in the event of a claim or withdrawal are the tokens that left the pool's own vaults.", "quantifier": "every history of the chain with any number of pools, every pool, every swap, claim and withdrawal with any accounts", "why_tests_cant": "It is about all interleavings of instructions on many pools by anybody; tests check single events of single calls.", "anchors": ["programs/dynamic-bonding-curve/src/event.rs", "programs/dynamic-bonding-curve/src/instructions/swap/ix_swap.rs", "programs/dynamic-bonding-curve/src/instructions/operator/ix_claim_protocol_fee.rs", "programs/dynamic-bonding-curve/src/instructions/migration/withdraw_leftover.rs"]}
{"id": "C102", "title": "Migration records and operator accounts can be read from their bytes", "statement": "The account that records a constant-product migration always holds 280 bytes, and whoever reads it at the published offsets gets the pool, the LP mint, the partner, who is the configured fee claimer, the four amounts of liquidity and whether each was locked or claimed, with nothing cut off. At any time after the migration the record and the current creator tell what each key can still have locked or claim: a call handing it out succeeds exactly if something is shown as pending and hands out exactly that, and what was handed out and what is pending add up to the share. An operator account always holds 72 bytes from which its address and permission word are read, and it grants a permission exactly if that permission's bit is set in byte 40.", "quantifier": "every reachable state of every pool, every operator created in any history, all keys", "why_tests_cant": "It is about every state that any history can leave in the accounts; tests read back a few hand-made records.", "anchors": ["programs/dynamic-bonding-curve/src/instructions/migration/meteora_damm/meteora_damm_metadata_state.rs", "programs/dynamic-bonding-curve/src/state/operator.rs", "programs/dynamic-bonding-curve/src/instructions/admin/ix_create_operator_account.rs"]}
{"id": "C103", "title": "The log tells every configuration", "statement": "Every configuration on the chain has exactly one pair of creation events in the log and every creation event has its configuration, at every later time. All fees, modes, percentages, thresholds, prices, the curve, the vesting schedules, the supplies and the keys in the events are what the account holds. Two configurations with the same newer event are identical in the account, whoever made them and whenever.", "quantifier": "every history of instructions on the chain, every configuration, all parameters", "why_tests_cant": "It is about every history and all parameters; tests create a few configurations and do not compare the whole event with the account, still less later.", "anchors": ["programs/dynamic-bonding-curve/src/event.rs", "programs/dynamic-bonding-curve/src/instructions/partner/ix_create_config.rs", "programs/dynamic-bonding-curve/src/state/config.rs"]}
{"id": "C104", "title": "An operator's powers last exactly from appointment to dismissal", "statement": "Whatever happens on the chain, an address holds an operator permission exactly if the last appointment or dismissal concerning it was an appointment with that permission. An operator instruction is accepted from nobody else, whatever accounts are passed. Every appointment and dismissal was signed by one of the admins fixed in the program, and an address can be appointed again after a dismissal, but not while it is an operator.", "quantifier": "every history of instructions on the chain, every address, every permission, all accounts", "why_tests_cant": "It is about every history of appointments, dismissals and all other instructions; a test plays one appointment and one claim.", "anchors": ["programs/dynamic-bonding-curve/src/instructions/admin/ix_create_operator_account.rs", "programs/dynamic-bonding-curve/src/instructions/admin/ix_close_operator_account.rs", "programs/dynamic-bonding-curve/src/state/operator.rs", "programs/dynamic-bonding-curve/src/access_control.rs"]}
{"id": "C105", "title": "A pool's creator is whom the role was last handed to", "statement": "Whatever happens on the chain, the creator recorded in a pool is the key the role was last handed to, or, without a handover, the key named when the pool was launched. Every handover was signed by whoever held the role just before and went to another key. Claims of the creator's fees, of the creator's surplus and of the creator's part of the migration fee, and further handovers, are accepted from nobody but the holder of the moment, whatever accounts are passed.", "quantifier": "every history of instructions on the chain, every pool, all accounts and signers", "why_tests_cant": "It is about the whole chain of custody in every history with any number of pools; a test makes one handover in one pool.", "anchors": ["programs/dynamic-bonding-curve/src/instructions/creator/ix_transfer_pool_creator.rs", "programs/dynamic-bonding-curve/src/instructions/creator/ix_claim_creator_trading_fee.rs", "programs/dynamic-bonding-curve/src/instructions/creator/ix_withdraw_creator_surplus.rs", "programs/dynamic-bonding-curve/src/instructions/migration/ix_withdraw_migration_fee.rs", "programs/dynamic-bonding-curve/src/state/virtual_pool.rs"]}
