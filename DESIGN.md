# Formal model of the Meteora Dynamic Bonding Curve program

Source: `/repo/programs/dynamic-bonding-curve/src` (abbreviated `src/` below), read as text.
Proofs: Lean 4.33.0 + Mathlib, under `/verif/lean/Verif`.

## 1. How the code is modelled

* Integers (`u8 .. U512`) are `Nat`. Every checked operation (`safe_add`, `safe_cast`, ...) is a function
  into `Res α = Except Err α` that checks the width bound of the Rust type and returns the program error
  the Rust code returns. Unchecked operations are modelled with an explicit `Err.panic` where Rust would
  panic (`overflow-checks = true` in `/repo/Cargo.toml`; `assert!`, `unwrap`), or, where ruint would wrap
  (`U256` operators `+ - *`), as wrapping arithmetic mod 2^256.
* `&mut self` methods return the new state. An instruction that returns an error has no effect (Solana
  discards all account changes), so an instruction is a function `State → Res State`.
* Loops over the fixed-size curve array become structural recursion over a list of points with the same
  `break`/`continue` tests on zero entries.
* A *world* holds one configuration, one pool, the balances of its two token vaults, the lamports paid into
  the pool account, and history ghost counters (what each party was paid, what traders paid and received).
  Ghost counters are written only, never read by the model of the code.
* A *history* is any finite list of operations (swaps in all modes, all claims and withdrawals, locker
  creation, both migrations, leftover withdrawal, LP lock/claim, creator transfer, donations to the vaults
  by outsiders, minting by a remaining mint authority, burning by holders) starting from a pool initialised from a configuration accepted by `create_config`.
* The *account layer* (`Verif/Model/Chain.lean`) puts any number of pools, configurations, mints and token accounts into
  one store. An instruction is given accounts chosen by the caller; the model runs the account checks of its
  `#[derive(Accounts)]` struct (`has_one`, `address`, `token::*`, owner and signer checks), loads the accounts, runs the
  one-pool handler on what they hold, and writes everything back, also when one account is named in several roles.
  C59/C60 show that each pool then behaves like a pool alone, so the one-pool theorems carry over.

### Modules

| module | contents |
|---|---|
| `Verif/Model/Base.lean` | errors, checked arithmetic, rounding |
| `Verif/Model/Math.lean` | `math/*`: mul/div/shift helpers, `sqrt_u256`, `pow`, `get_fee_in_period` |
| `Verif/Model/Curve.lean` | `curve.rs` |
| `Verif/Model/Fee.lean` | `base_fee/*`, `state/fee.rs`, fee part of `state/config.rs`, `params/fee_parameters.rs` |
| `Verif/Model/Config.lean` | rest of `state/config.rs`, `params/liquidity_distribution.rs`, `migration_handler/*`, `create_config` |
| `Verif/Model/Pool.lean` | `state/virtual_pool.rs` |
| `Verif/Model/World.lean` | the instruction handlers over one pool and its vaults, histories |
| `Verif/Model/Chain.lean` | many pools, token accounts and mints, account checks of every instruction, executions of the whole chain |
| `Verif/Model/Tx.lean` | transaction introspection of the rate limiter (`instructions/swap/ix_swap.rs`) |
| `Verif/Model/Damm.lean` | checks of the DAMM configuration accounts, fee parameters sent to DAMM v2 (`validate_config_key`, `MigratedPoolFee*`, `utils/damm_v2_utils.rs`) |
| `Verif/Model/Quote.lean` | quote functions of the Rust SDK (`/repo/dynamic-bonding-curve-sdk/src`) |
| `Verif/Model/Event.lean` | the events each instruction emits (`event.rs` and the `emit_cpi!` of the handlers) |
| `Verif/Model/ChainEvent.lean` | the log of the whole chain: which pool each event names (the `pool` fields of the `emit_cpi!` calls) |
| `Verif/Model/Board.lean` | `create_partner_metadata`, `create_virtual_pool_metadata` with account bytes, `migration_damm_v2_create_metadata`, `close_claim_protocol_fee_operator`; with `Model/Chain.lean` every instruction of `lib.rs` is modelled |
| `Verif/Model/Layout.lean` | the bytes of `VirtualPool` and `PoolConfig` accounts (`state/virtual_pool.rs`, `state/config.rs`, `state/fee.rs`) |
| `Verif/Model/Records.lean` | the bytes of `MeteoraDammMigrationMetadata` and `Operator` accounts (`instructions/migration/meteora_damm/meteora_damm_metadata_state.rs`, `state/operator.rs`) |
| `Verif/Model/ConfigEvent.lean` | the two events of `create_config` (`event.rs`, `instructions/partner/ix_create_config.rs` 755-788) |
| `Verif/Model/BoardEvent.lean` | the events of the two instructions that publish descriptions and of closing a legacy operator account (`event.rs` 12-24, 71-76) |
| `Verif/Model/Wire.lean` | Borsh reading of instruction arguments (`ConfigParameters`, `SwapParameters`, `SwapParameters2`, the two limits and the flag of the claims; `lib.rs`) |
| `Verif/Model/Cpi.lean` | guarded external calls and rent borrowing (`utils/cpi_checker.rs`, `flash_rent.rs`) |
| `Verif/Spec/*.lean` | specifications that do not use the model's helpers |
| `Verif/Lemmas/*.lean` | helper lemmas |
| `Verif/Props/*.lean` | one theorem group per property, with non-vacuity examples |
| `Verif/Props/Vectors.lean` | not properties: the numbers asserted by the repository's own unit and SDK tests, recomputed by the model as a check of its fidelity |

## 2. Trusted base

* Lean's kernel. Every property theorem depends only on (a subset of) `propext`, `Classical.choice`,
  `Quot.sound`. No axioms of our own, no `sorry`, no `native_decide`/`bv_decide`.
* The reading of the Rust text: each definition cites file and lines, simplifications are stated there.
* Not modelled, assumed to behave as documented: the Solana runtime (atomicity, signer checks, account
  ownership, sysvars, `get_processed_sibling_instruction`) and Anchor's discriminator and owner-program checks
  (an address holds one kind of account). The account constraints themselves (`has_one`, `address`, token mint and
  owner, associated token addresses, seeds of pools and vaults) are modelled in `Verif/Model/Chain.lean`; the address
  derivations are arbitrary functions, nothing is assumed about collisions since `init` fails on an existing account.
* SPL token and Token-2022 are modelled as balances with owners: transfer (with transfer fee where the mint has one),
  mint, burn, ownership change, seizure by a permanent delegate. Left out: delegates (a delegate acts as the owner),
  freezing, token program ids, rent of token accounts; wrapping SOL is minting and burning.
* The token metadata program, the transport of events (`emit_cpi!`; which events with which values is modelled in
  `Verif/Model/Event.lean`), the locker program, DAMM v1 / DAMM v2 (their CPIs are parameters of the
  model: amounts they take from the vaults are arbitrary subject to what the handler checks or to a stated
  hypothesis), ruint / num_enum crates, zap instruction introspection (crate `protocol_zap`, source not
  in /repo: an arbitrary predicate of the amount, receiver, treasury and destination the handler passes to it).
* The Borsh format (field order, little-endian integers, tags, lengths; trailing bytes ignored) as transcribed in
  `Verif/Model/Wire.lean`, and the interface files in `scripts/idl` as a true record of the earlier releases (C77).
* `feature = "local"` / `devnet` variants are not modelled (production build).

## 3. Plan per property

| id | model | proof |
|---|---|---|
| C01 | Pool + World swap | case analysis of `apply_swap_result` and of the three result functions; identity on vault - booked |
| C02 | Fee | floor/remainder identities; spec states shares by `/` on Nat |
| C03 | Fee | cap by `min`; ceil characterisation; base fee >= floor via C28/C29 |
| C04 | Pool, World | unfold exact-in; slippage check |
| C05 | Pool, World | unfold exact-out; slippage check |
| C06 | Pool, World | partial fill; for a fixed rate by ceil/floor Galois argument; FALSE inside the window of a rate limiter: `C06_overcharge` is a concrete reachable overcharge; `C06_at_most_offered_partial` covers every other swap, `C06_overcharge_bounded` bounds the excess |
| C07 | World histories | invariant start <= price <= migration price; per-loop lemmas |
| C08 | Pool loops | induction over the segments; spec integrals as rationals over the curve |
| C09 | World histories | telescoping C08 over the history; strict monotonicity of integrals |
| C10 | World histories | potential `Spec.quoteCost` (sum of per-segment ceilings), invariant reserve >= potential |
| C11 | World histories | potential `Spec.baseSold` (sum of per-segment floors) <= `swap_base_amount`; supply inequality from `create_config` |
| C12 | World histories | C10 + exactness of `get_migration_threshold_price` (C26) |
| C13 | World histories | invariant vault >= outstanding, by cases on operations |
| C14 | World histories | from C13: success of each withdrawal's transfer |
| C15 | Pool/World | identities; once-only flags by history invariant with ghost counters |
| C16 | as C15 | bit tests on the flag byte |
| C17 | as C15 | lamport ledger |
| C18 | Pool | direct |
| C19 | World histories | ghost counters invariant |
| C20 | World histories | rank of progress; frozen state lemmas |
| C21 | Config/handlers | arithmetic; totality |
| C22 | Config | arithmetic |
| C23 | Config | arithmetic |
| C24 | Config | floor arithmetic from the bps check to arbitrary liquidity |
| C25 | Config | unfolding of `validate`/`init` |
| C26 | Config | induction over the curve; ceil(L*floor(a*2^128/L)/2^128)=a when L<2^128 |
| C27 | Config | arithmetic + induction |
| C28 | Fee | linear: direct; exponential: error analysis of `pow` |
| C29 | Fee | quadratic fee = sum of block rates (`blockFee`); for amounts without fee (exact output, partial fill) the program inverts the quadratic with an integer square root: `Lemmas/Inverse.lean` shows the result always charges at least the block fee and at most 8 units + 3·10⁻⁹ more |
| C30 | Fee/World | bounds |
| C31 | World histories | ghost counter, `has_swap` flag |
| C32 | World histories | fee-mode table + invariant |
| C33 | World histories | from C13 |
| C34 | Config/World | supply ledger |
| C35 | World histories | each operation carries its signer |
| C36 | World | bit arithmetic for all Nat < 2^128 |
| C37 | World | case analysis + invariant |
| C38 | World | invariant over LP histories |
| C39 | Math | loop invariant of the bitwise square root |
| C40 | Math | error analysis of `pow` |
| C41 | Tx | `Spec.ValidTx` lists the instructions of a transaction in execution order; two limited buys contradict the introspection check of the later one |
| C42 | Pool loops; whole swaps with fees | induction over the curve, one trade against two (exact in and exact out), then over any number of pieces; fees rounded up are superadditive. Under a rate limiter or a volatility fee splitting can pay: two concrete examples |
| C43 | Pool loops | simulation of two runs over the same segments (also for whole swaps at a fixed fee rate); under a rate limiter, monotonicity of the net input up to rounding, and a witness that it fails with a volatility fee |
| C44 | Config | rounding arithmetic |
| C45 | Pool/World/Config | result of every instruction, of `create_config` and of pool creation is never `Err.panic`: every checked operation returns an error, every assertion follows from the invariant or from validation done before it |
| C46 | World | totality of every stage of a swap (`Lemmas/Go.lean`), then: either all of the net input enters the reserve, or the price ends at the migration price where the reserve covers the threshold |
| C47 | Pool loops | minimality of rounding; exact output ending on a curve point is an exception, with a witness |
| C48 | Cpi | arbitrary callee as a function |
| C49 | World | case table |
| C50 | World histories | ghost counter for the locker |
| C51 | World histories | flow invariant: vault balance against all recorded flows |
| C52 | World | see `Spec/Migrate.lean`; the migrated pool is an environment contract |
| C53 | World | totality of a swap, and the net amount taken out of the pool is covered by the curve below the price |
| C54 | World histories, Damm | the request for the new pool is recorded in the world; invariant over histories, fee bounds by arithmetic |
| C55 | World histories, Damm | the creation-time price check is carried over to the amounts left at migration |
| C56 | World histories | activation point and configuration constant over runs; C03, C28, C29, C40 composed for the executed swap |
| C57 | Quote, World | quote and swap share the computation; it reads only the volatility accumulator, which the pre-swap update leaves alone; converse from the totality lemma behind C46 |
| C58 | Pool, Curve | induction over the four walks: each piece loses less than one unit on each side, and the next price is the best the input pays for (exact in) or the cheapest that releases the output (exact out) |
| C59 | Chain | simulation: invariant (vaults exist, are the authority's, are not shared, supplies add up) over all executions; each chain step is for every pool a step, a gift or nothing |
| C60 | Chain | same simulation, read per instruction |
| C61 | Chain | list of token movements of a swap, with aliasing of accounts allowed |
| C62 | Chain | list of token movements of every payout + C18/C14/C33 for the amounts |
| C63 | Chain | every token movement of every instruction starts at a vault or the signer's account |
| C64 | Chain | invariant: configurations only with plain quote mints, base mints created by the program |
| C65 | World, Damm | C22's positions plus DAMM's formulas as a hypothesis: what one rounding up costs the second position; the vested amount still held is monotone and 1-Lipschitz in the amount vested, so C24 carries over |
| C66 | World histories | C30's exact value of the tracker and C03's rate, induction over runs of small swaps |
| C67 | World histories | per-walk upper bounds (`Lemmas/Keep`; liquidity below 2^128 makes a price step worth less than a unit of quote), summed over histories |
| C68 | Chain | each instruction rebuilt from its operation: every account check and token movement is shown to succeed when the accounts are the pool's own (`Lemmas/ChainGo`), then the simulation of C59/C60 gives the effect |
| C69 | Chain | C68 along the migration path of C52, and for the completing buy and the sale from C46/C53; that the vault has room follows from the conservation of each mint's tokens |
| C70 | World, Event | `World.log` gives each instruction's events from the handler's own values; one lemma per instruction relates them to the step, and induction over histories adds them up |
| C71 | Config, World | integer inequalities on the three roundings (fee, square root, liquidity) composed with the amounts of a successful migration; the rise of the ratio is a concrete reachable migration |
| C72 | Pool loops, fee formulas | simulation of the exact-in loop by the exact-out loop over the same segments, and the floor/ceiling identity of the two fee formulas |
| C73 | metadata instructions on top of the account layer, accounts as bytes | an independent byte reader inverts the serialisation; induction over histories; projection of a history to the account layer |
| C74 | no new code: the invariants are split into those true of every pool and those of this release; the audit reads accounts and balances only; the mainnet fixtures of the SDK as data | the audit gives the invariants of solvency, which every step preserves; conversely reachability gives the audit |
| C75 | Layout: the two accounts as bytes | a generic lemma reads any field back from packed bytes; every field is bounded by the invariants of solvency, lifecycle and volatility plus a small one for counters and times; the account files of the SDK as data |
| C76 | Swap | the loops of the two exact-output walks are shown to succeed and stay within the exact-input walk, segment by segment; the fee formulas are monotone; everything else a swap needs is read off from the one that went through |
| C77 | Wire: Borsh reading of instruction data; Layout | the clients' fields per release are lists of width and value transcribed from `scripts/idl`; reading inverts packing field by field; zero padding regroups into the later fields switched off; bounds of anything that can be read; the recorded instruction data and the live accounts as data |
| C78 | World.step, swap | operations other than swaps leave everything a swap reads unchanged (step by cases); swap result depends on that part only; induction over the history |
| C79 | World.step, the payments | each payment as a closed form (from inversion) and a condition sufficient in reachable states (C14); closed forms commute pair by pair; permutation by induction |
| C80 | World histories with the list of observed trades | reserves move by what traders pay less what they get and fees; C08's curve bounds along the run: the two reserves cannot both shrink; C03 for the rates |
| C81 | Site histories (all instructions, all accounts) | no instruction writes a configuration except its creation (per instruction); per pool the operations that keep the terms (World), lifted through the account layer; induction over the history. `Agreed` lists field by field what is asked for |
| C82 | World swap with the referral flag off and on | the two runs in lockstep: same amounts until the fee is split, then the booking differs by the referral part in one counter; solvency of the run without referral pays it |
| C83 | migAmounts, initialPoolInformation, createPoolV2 in histories | invariant: what the new pool is asked for is a function of the configuration; for concentrated pools the configured base amount, rounded up, pays for the liquidity of the quote amount, also after the protocol's share of both |
| C84 | the four walks along the curve in processSwap | per piece L(b-a)/2^128 and L(b-a)/(ab) give a price between a and b; induction over the pieces; rounding by the bounds of C08, C58 and C67 and a new bound for what an exact-in sell uses |
| C85 | every instruction that moves vault tokens, with its lifetime totals | invariant: reserve = paid by traders - received - referrals - accrued fees; with the flow totals (C51), fee accounts (C19) and shares (C15, C16) this gives each vault exactly; invariant for the base vault after it is cleared; the fetching sequence from the C14 theorems; the rest of a concentrated migration from the roundings of the two positions |
| C86 | two swaps from states that agree on the curve, at different clocks | for every accepted configuration the rates at two moments are either equal for all sizes (same side of a limiter window) or the later one is independent of size and at most the earlier one; the accumulated volatility is not touched before the fee is computed; amounts are monotone in the rate (`Lemmas/Patience` for partial fills); totality of the later swap from the C46 and C76 lemmas |
| C87 | Pool, World | each trade ends within rounding of a point of the exact curve (lemmas of C58, C67, C84); the two price intervals are cut at their common part and the rest is valued at the cut (`Lemmas/Better`); fees only narrow a difference (rates from C86) |
| C88 | Chain | no instruction changes the program or extensions of an existing mint (`exec_mints`); induction over the history of the chain with the checks of `create_config` and `initialize_virtual_pool_with_*` |
| C89 | Config | every check of `ConfigParameters::validate` and `handle_create_config` as an equivalence with a plain rule; success of the price and supply computations by induction over the curve; the exponential last rate by the error bound of `pow` |
| C90 | Config, World, Chain | `get_initial_base_supply` as an equivalence with a plain formula (using C89's lemmas); the other launch checks follow from those of `create_config` |
| C91 | World | from C46's totality of pricing and walking (every step before the checks succeeds), C76, and inversion of the slippage check |
| C92 | Chain | C89, C90, C46/C69 and C52/C69 joined along one run of the chain |
| C93 | World | where the direct trade ends on the exact curve (C87), that every history is backed by the curve (C24), and that both halves of the curve rise with the price |
| C94 | World | induction over the trades of a history with the split of each fee (C02) and the lifetime books (C19) |
| C95 | World | per-swap shortfall bounds (C58, C87 lemmas), summed over the history; C67 and the cost of the curve (C26) at completion |
| C96 | World | the reserve follows the curve from both sides (C67, C95) |
| C97 | Chain | the swap is allowed by the pool (C61), the other party's instruction is made out correctly (C68), and both do the same to the pool |
| C98 | Chain | instructions other than swaps in the pool are a run of the pool without swaps (C60), which leaves the trade the same (C78); the instruction then goes through (C68) |
| C99 | World | the base a swap leaves short is worth at most two quote units at its end price (C95 sharpened), the quote reserve follows the curve (C67), and the curve lies below its tangent |
| C100 | World | the two trades against the curve from both sides (C67, C95 sharpened in C99), the curve being steeper further up |
| C101 | Chain, ChainEvent | each executed instruction is a step of the pool it is addressed to with the events of C70, and gifts, minting and operator changes elsewhere, which log nothing; induction over the history |
| C102 | Records, Layout | little-endian packing of the fields in declared order as for C75; an invariant over histories bounds amounts by u64 and flags by one bit, and permission words by 3 |
| C103 | ConfigEvent, Chain, Config | the events as the handler builds them, computed again from the instruction; induction over histories with the fact that no other instruction touches a configuration; the account is rebuilt from the newer event |
| C104 | Chain, World | the permissions of an address are folded from the appointments and dismissals in the history; induction over histories with the fact that no other instruction touches admins or operators |
| C105 | Chain, World | the holder is folded from launches and handovers in the history; induction over histories with C60 (what is addressed to a pool, what is not) and C37 |

## 4. What the proofs found

Places where the code does something a user might not expect. Each is either a proved witness or a hypothesis a proof
forced on us, traced back to the code.

**Claims that are false as first written**

* *C06.* A partial-fill buy inside the window of a rate limiter can be charged **more** than the amount offered. When the
  walk stops early, the fee rate is recomputed from the smaller amount without fee; the inverse of the limiter's quadratic
  rounds, and the two roundings can add up to more than the rate saved. `C06_overcharge` is a reachable swap;
  `C06_overcharge_bounded` limits the excess to a millionth of the offer + 30300 units (800 units without dynamic fee). Only
  the minimum-output check protects the trader there.
* *C29, C40.* "A larger trade pays a larger fee" and "the exponential fee is exact" hold only up to stated roundings; the
  statements carry the allowance and witnesses show that it cannot be dropped.
* *C47.* Exact output followed by exact input of the same amount agree except when the exact output ends on a curve point
  (`C47` has the witness).
* *C54.* A DAMM configuration's fee is compared after rounding down to basis points (`to_bps`), so a pool may charge up to
  one basis point more than the option says (`C54_not_exact`).
* *C65.* `adjust_liquidity` keeps the unlocked part first and takes a shortfall from the locked part. For a pool that raised
  a few units of quote the whole locked part can vanish: `C65_dust` migrates with nothing locked.

* *C71.* A test of the repository (`test_damm_v1_protocol_fee_rounding_avoid_price_increment`) states that taking the protocol's
  share never raises the ratio of quote to base. It does when the base amount is a multiple of 500 and the quote is not
  (`C71_price_can_rise`, a reachable migration); the test's random prices give base amounts too small to show it. The rise is
  less than one unit of quote.

**Behaviour worth knowing**

* The protocol fee claim treats the caller's maximum as a bound on the fee only; the surplus is paid on top (C18).
* The protocol's pool-creation-fee claim succeeds again with amount 0 after the fee is claimed (C17).
* Locking and claiming LP tokens of a DAMM v1 migration need no signature of the owner; the tokens go to the owner (C38, C62).
* The creator role of a DAMM v1 pool can be transferred after migration only once the *partner* has locked and claimed too (C37).
* `migrate_meteora_damm` does not check `virtual_pool_lp` (a TODO in the code); safety rests on DAMM v1 minting to it.
* The second position's optional accounts are unwrapped; omitting them when they are needed panics (outside C45, which takes
  them as given).
* For the fixed fee options the DAMM v2 configuration's dynamic fee, collect-fee mode and config type are not validated (C54).
* The SDK's exact-out quote has no referral argument, and SDK quotes succeed before activation and do not run the limiter's
  transaction check (C57).
* Lifetime fee metrics are `u64` and are added with overflow checks: a pool whose lifetime fees reach 2^64 could not be
  traded any more (hypothesis `CountersFit` in C46/C53).
* The first swap of a pool with dynamic fee needs a clock of at least the filter period (C30); true for any real clock.
* A swap's completion check reads the base vault after the transfers; an output sent back to the vault itself counts (Chain).
  Referral and output accounts may be other pools' vaults, which then receive a gift (C59).
* `FeeRateLimiter`'s `UndeterminedError` branch is unreachable; legacy creation-fee bits are 0 for pools created by this code.
* The volatility surcharge does not fade by itself: the first swap after any quiet time pays for the volatility recorded by
  the swap before. On the other hand dust trades wash it out: once the filter period is over each one multiplies the record by
  the reduction factor without restarting the clock (C66).
* With a rate limiter and a volatility fee a buyer can receive less by offering more: the volatility rate is added to the
  average of the limiter's block rates and so taxes earlier blocks again (C43_volatile_limiter_punishes: one quote token buys
  64.9e9 base units, two buy 50.3e9). Without a volatility fee this happens only within rounding (C43_limiter_in/out).
* Under a rate limiter the two modes disagree: the exact-output rate is computed from the amount without fee, and offering
  what an exact-output buy costs can yield less (C72_limiter_exception). At size-independent rates they agree (C72).
* A rate limiter with steps that starts at the highest allowed rate, exactly 99%, is always refused although the first check
  admits it: the fee on the largest amount is rounded up to a whole unit, which is above 99% (C89_limiter_refused). Only a
  block size of 2^64 - 1 escapes. One billionth less is accepted.
* Without a chosen supply `create_config` does not check that the supply fits 64 bits. A configuration can be accepted from
  which no pool can ever be launched (C90_stillborn). No funds are at risk: nothing can be paid into a pool that does not exist.
* The surplus that partner, creator and protocol share after completion is never more than rounding: at most one unit per
  swap and curve point (C67). A buy that would overshoot the migration price is cut short or refused, not swallowed.

**Assumptions about other programs** (also in the statements): DAMM v1/v2 take at most what they are given and mint what they
report (`.external` otherwise); `CreatesPool`/`AddsLiquidity` of C52/C65 state DAMM v2's amount formulas; `vaultIn` (a payer
owns at most what exists outside the vault) is an assumption of the one-pool model that the account layer proves.

## 5. Axioms per theorem

From `#print axioms` on every theorem named in MANIFEST.json (prefix `Props.` left out; the file in parentheses is under
`Verif/`). Nothing else occurs.

**no axioms** (5)

* (Props/Cpi.lean) C48_example
* (Props/Layout.lean) C75_files, C75_files_again
* (Props/Release.lean) C77_files, C77_now_example

**`propext`** (14)

* (Props/Audit.lean) C74_mainnet
* (Props/Config.lean) C22_example, C23_example, C24_example, C25_example, C26_example, C27_example
* (Props/Fee.lean) C28_example, C29_example, C39_example, C40_can_exceed, C40_example
* (Props/NewPool.lean) C23_configured_example
* (Props/Release.lean) C77_example

**`propext`, `Quot.sound`** (127)

* (Props/Alike.lean) C97_example
* (Props/Audit.lean) C74_example
* (Props/Auth.lean) C35_example, C36_create, C36_example, C49_authorities, C49_example
* (Props/Average.lean) C84_example
* (Props/Better.lean) C87_example
* (Props/Board.lean) C73_apart, C73_creator_can_publish, C73_example, C73_legacy, C73_legacy_close, C73_others_refused, C73_partner_can_publish, C73_partner_genuine, C73_permanent, C73_project_genuine
* (Props/BoardLog.lean) C73_legacy_logged, C73_legacy_logged_example
* (Props/Chain.lean) C59_C60_example, C61_example, C62_example, C63_example, C64_example
* (Props/ChainGo.lean) C69_completable_example, C69_example, C69_sell_back_example
* (Props/ChainLog.lean) C101_example, C101_log_exists
* (Props/Claims.lean) C03_example, C18_example, C32_example
* (Props/Compare.lean) C42_example, C43_example, C47_curve_point, C47_example
* (Props/ConfigLog.lean) C103_example
* (Props/Cpi.lean) C48_guarded, C48_never_drained, C48_rent
* (Props/Custody.lean) C105_example
* (Props/Cut.lean) C71_example, C71_price_can_rise
* (Props/Direct.lean) C93_example
* (Props/Elsewhere.lean) C98_example
* (Props/Event.lean) C70_example, C70_payment_example, C70_protocol_example, C70_swap_example, C70_zap_silent
* (Props/Extract.lean) C09_example
* (Props/Fade.lean) C66_example
* (Props/Income.lean) C94_example
* (Props/Launch.lean) C90_stillborn
* (Props/Layout.lean) C75_distinct, C75_example
* (Props/Life.lean) C20_example, C31_example, C33_C34_example, C33_vault_covers, C50_example
* (Props/Locked.lean) C65_dust, C65_example
* (Props/Lp.lean) C37_C38_example
* (Props/Migrate.lean) C21_example, C44_example, C44_second_compounding, C52_example
* (Props/Modes.lean) C72_example, C72_limiter_exception
* (Props/NewPool.lean) C22_positions_example, C23_configured, C54_not_exact, C55_example
* (Props/Opening.lean) C83_example
* (Props/Operators.lean) C104_example
* (Props/Owed.lean) C13_example, C14_example, C19_example, C19_start, C51_example
* (Props/Partial.lean) C06_example
* (Props/Path.lean) C96_example
* (Props/Patience.lean) C86_example
* (Props/Pieces.lean) C42_pieces_example
* (Props/Programs.lean) C88_example, C88_refused
* (Props/Rate.lean) C56_example
* (Props/Records.lean) C102_example
* (Props/Referral.lean) C82_example
* (Props/Refuse.lean) C91_example
* (Props/Release.lean) C77_any_bytes, C77_claims, C77_create_06, C77_create_earlier, C77_create_now, C77_pool, C77_swap
* (Props/Route.lean) C43_limiter_example, C43_volatile_limiter_punishes
* (Props/Safe.lean) C11_example, C45_example, C45_refusals
* (Props/Serve.lean) C76_example, C76_partial_serves
* (Props/Shares.lean) C15_C16_C17_example
* (Props/Sold.lean) C95_example
* (Props/Split.lean) C42_limiter_rewards_splitting, C42_swap_example, C42_volatility_rewards_splitting
* (Props/Steady.lean) C78_example
* (Props/Stranded.lean) C85_example
* (Props/Swap.lean) C01_example, C02_example, C04_example, C05_example, C07_example, C08_example, C10_C12_example
* (Props/Terms.lean) C81_config_permanent, C81_example
* (Props/Trip.lean) C80_example
* (Props/Tx.lean) C41_example
* (Props/Vol.lean) C30_disabled, C30_example

**`propext`, `Classical.choice`, `Quot.sound`** (279)

* (Props/Accept.lean) C89_enough, C89_exact, C89_example, C89_limiter_refused, C89_needed
* (Props/Alike.lean) C97_same_terms
* (Props/Audit.lean) C74_all_pass, C74_creation_paid, C74_curve, C74_fees_paid, C74_shares_paid, C74_solvent
* (Props/Auth.lean) C35_creator, C35_fixed, C35_leftover, C35_partner, C35_protocol, C36_grants, C36_separate, C49_mint
* (Props/Average.lean) C84_booked, C84_no_better, C84_no_worse
* (Props/Better.lean) C87_buy, C87_overtaken, C87_sell
* (Props/BoardLog.lean) C73_logged_example, C73_partner_logged, C73_project_logged
* (Props/Bulk.lean) C100_buy, C100_example, C100_sale
* (Props/Chain.lean) C59_every_pool_reachable, C59_nothing_shared, C59_solvent_together, C59_vaults, C60_addressed, C60_new_pools, C60_others_untouched, C61_swap_payments, C62_creation_fee, C62_creator_fee, C62_leftover, C62_partner_fee, C62_protocol_fee, C62_shares, C62_zap, C63_no_theft, C64_plain_mints
* (Props/ChainGo.lean) C68_example, C68_goes_through, C69_completable, C69_never_stuck, C69_sell_back
* (Props/ChainLog.lean) C101_log_tells, C101_payment, C101_swap
* (Props/Claims.lean) C03_base_rate, C03_rate_bounds, C18_creator_claim, C18_partner_claim, C18_protocol_claim, C18_protocol_zap, C32_output_token, C32_quote_only
* (Props/Commute.lean) C79_any_order, C79_example, C79_instalments, C79_two
* (Props/Compare.lean) C42_split, C43_more_in, C43_more_out, C43_swap_in, C43_swap_out, C47_covers_integral, C47_not_dearer
* (Props/Config.lean) C22_adjust, C22_distribution, C23_vesting, C24_locked, C25_accepted, C26_migration_price, C27_supply
* (Props/ConfigLog.lean) C103_determined, C103_told
* (Props/Custody.lean) C105_accepted, C105_custody, C105_holder
* (Props/Cut.lean) C71_liquidity, C71_price
* (Props/Direct.lean) C93_around_buyer, C93_around_seller, C93_direct_buy, C93_direct_sale
* (Props/Eligible.lean) C17_C18_C38_C50_when, C17_eligible, C18_eligible, C38_eligible, C50_eligible
* (Props/Elsewhere.lean) C98_elsewhere
* (Props/Event.lean) C70_log_exists, C70_log_tells, C70_payment_event, C70_protocol_claims, C70_swap_event
* (Props/Extract.lean) C09_no_extraction
* (Props/Fade.lean) C66_lags, C66_reset, C66_washed
* (Props/Fair.lean) C58_example, C58_fair
* (Props/Fee.lean) C28_schedule, C29_limiter_added, C29_limiter_added_exists, C29_limiter_monotone, C29_limiter_rate, C29_limiter_tokens, C39_sqrt_exact, C40_exponential_accurate
* (Props/Go.lean) C46_buy_any, C46_completable, C46_example, C53_example, C53_sell_any, C53_sell_back
* (Props/Income.lean) C94_shares, C94_volume
* (Props/Keep.lean) C67_example, C67_history, C67_surplus, C67_swap, C67_tracks
* (Props/Launch.lean) C90_chosen, C90_example, C90_holds, C90_launch, C90_on_chain
* (Props/Layout.lean) C75_config_fits, C75_config_read, C75_pool_fits, C75_pool_read
* (Props/Life.lean) C20_final, C20_forward, C20_migrate_when, C20_migrated_once, C20_swap_before_completion, C31_at_most_one, C31_first_swap_only, C33_eligible, C34_burn_bounded, C34_fees_untouched, C50_completion_time, C50_escrow, C50_funded
* (Props/Locked.lean) C65_positions
* (Props/Lp.lean) C37_change, C37_nothing_pending, C38_available, C38_exhaustive, C38_shares
* (Props/Migrate.lean) C21_migration, C44_compounding, C44_concentrated, C44_second_concentrated, C52_migrates_v1, C52_migrates_v2, C52_never_stuck
* (Props/Modes.lean) C72_ask_the_yield, C72_fee_inverse, C72_offer_the_cost
* (Props/NewPool.lean) C22_positions, C54_example, C54_fees, C54_final, C55_price
* (Props/Opening.lean) C83_quote_decides, C83_same_opening
* (Props/Operators.lean) C104_accepted, C104_accounts, C104_again, C104_by_admins, C104_powers
* (Props/Owed.lean) C13_vaults_solvent, C14_fee_claims_never_starved, C14_others_never_starved, C14_shares_never_starved, C14_zap_never_starved, C19_accrual, C19_lifetime_fees, C51_every_token_accounted
* (Props/Partial.lean) C06_at_most_offered_partial, C06_minimum_and_end, C06_overcharge, C06_overcharge_bounded
* (Props/Path.lean) C96_collected, C96_fork
* (Props/Patience.lean) C86_demand_stays, C86_later_is_no_worse, C86_offer_stays
* (Props/Pieces.lean) C42_out_pieces, C42_pieces
* (Props/Programs.lean) C88_config, C88_first_amm, C88_pool
* (Props/Quote.lean) C57_example, C57_quote_exact, C57_quote_honoured
* (Props/Rate.lean) C56_fee_over_time
* (Props/Records.lean) C102_due, C102_migration_record, C102_operator, C37_after_migration, C37_otherwise, C37_when_example
* (Props/Referral.lean) C82_paid_by_protocol
* (Props/Refuse.lean) C91_out_refused, C91_refusals
* (Props/Release.lean) C77_config, C77_create_result
* (Props/Route.lean) C43_limiter_in, C43_limiter_out
* (Props/Safe.lean) C11_always_covered, C11_never_refused, C11_vault_covers, C45_config, C45_no_panic, C45_pool
* (Props/Serve.lean) C76_exact_or_exhausted, C76_out_serves
* (Props/Shares.lean) C15_eligible, C15_once, C15_split, C16_eligible, C16_once, C16_split, C17_creation_fee
* (Props/Sold.lean) C95_complete, C95_history, C95_sold, C95_swap
* (Props/Split.lean) C42_swap_split
* (Props/Steady.lean) C78_same_history, C78_same_trade
* (Props/Story.lean) C89_on_chain, C92_carried_through, C92_example
* (Props/Stranded.lean) C85_base, C85_base_cleared, C85_base_trading, C85_fetch, C85_quote, C85_unplaced, C85_unplaced_concentrated, C85_unplaced_stays
* (Props/Swap.lean) C01_swap_books, C02_fee_split, C04_exact_in, C05_exact_out, C07_price_direction, C07_price_range, C08_rounds_for_pool, C10_reserve_backs_curve, C12_top_is_complete
* (Props/Terms.lean) C81_config_origin, C81_pool_origin, C81_pool_permanent, C81_transfer_signed
* (Props/Trip.lean) C80_buy_back, C80_every_trade, C80_fees_lost, C80_round_trip, C80_volume
* (Props/TurnBack.lean) C99_crowd, C99_example, C99_turning_back
* (Props/Tx.lean) C41_one_buy
* (Props/Vol.lean) C30_bounded, C30_never_blocks, C30_value
