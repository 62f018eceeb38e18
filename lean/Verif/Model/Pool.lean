import Verif.Model.Config

/-!
# `state/virtual_pool.rs`
-/

namespace Dbc

/-- `PoolMetrics` (state/virtual_pool.rs 176-181). -/
structure Metrics where
  protocolBase : Nat
  protocolQuote : Nat
  tradingBase : Nat
  tradingQuote : Nat
  deriving DecidableEq, Repr

/-- `VirtualPool` (state/virtual_pool.rs 92-161). Padding and the mint/vault keys are dropped: vault balances are
part of the world state. -/
structure Pool where
  vol : VolTracker
  creator : Nat
  baseReserve : Nat
  quoteReserve : Nat
  protocolBaseFee : Nat
  protocolQuoteFee : Nat
  partnerBaseFee : Nat
  partnerQuoteFee : Nat
  sqrtPrice : Nat
  activationPoint : Nat
  poolType : Nat
  isMigrated : Nat
  partnerSurplus : Nat
  protocolSurplus : Nat
  migrationProgress : Nat
  isWithdrawLeftover : Nat
  creatorSurplus : Nat
  migrationFeeStatus : Nat
  metrics : Metrics
  finishTimestamp : Nat
  creatorBaseFee : Nat
  creatorQuoteFee : Nat
  legacyCreationBits : Nat
  creationBits : Nat
  hasSwap : Nat
  migrationFeeBps : Nat
  protocolMigBaseFee : Nat
  protocolMigQuoteFee : Nat
  deriving DecidableEq, Repr

/-! ## Walking the curve -/

/-- `SwapAmountFromInput` (state/virtual_pool.rs 1262-1266). -/
structure FromInput where
  left : Nat
  out : Nat
  next : Nat
  deriving DecidableEq, Repr

/-- `SwapAmountFromOutput` (state/virtual_pool.rs 1257-1260). -/
structure FromOutput where
  amountIn : Nat
  next : Nat
  deriving DecidableEq, Repr

/-- `calculate_quote_to_base_from_amount_in` (state/virtual_pool.rs 819-897) over the stored points, without the
`local` feature check of lines 876-884. -/
def buyInLoop (stop : Nat) : List Point → Nat → Nat → Nat → Res FromInput
  | [], cur, left, out => .ok ⟨left, out, cur⟩
  | p :: ps, cur, left, out =>
    if p.price = 0 ∨ p.liq = 0 then .ok ⟨left, out, cur⟩
    else if cur < min stop p.price then do
      let maxIn ← deltaQuote256 cur (min stop p.price) p.liq .up
      if left < maxIn then do
        let next ← nextPriceFromInput cur p.liq left false
        let o ← deltaBase cur next p.liq .down
        let out ← safeAdd u64Max out o
        .ok ⟨0, out, next⟩
      else do
        let o ← deltaBase cur (min stop p.price) p.liq .down
        let out ← safeAdd u64Max out o
        let m64 ← castTo u64Max maxIn
        let left ← safeSub left m64
        if min stop p.price = stop then .ok ⟨left, out, min stop p.price⟩
        else buyInLoop stop ps (min stop p.price) left out
    else buyInLoop stop ps cur left out

/-- `calculate_quote_to_base_from_amount_in` (state/virtual_pool.rs 819-897). -/
def buyIn (c : PoolConfig) (price amountIn : Nat) : Res FromInput :=
  buyInLoop c.migrationSqrtPrice c.curve price amountIn 0

/-- The loop of `calculate_quote_to_base_from_amount_out` (state/virtual_pool.rs 435-482): (amount left, amount in,
price). -/
def buyOutLoop : List Point → Nat → Nat → Nat → Res (Nat × Nat × Nat)
  | [], cur, left, inp => .ok (left, inp, cur)
  | p :: ps, cur, left, inp =>
    if p.price = 0 ∨ p.liq = 0 then .ok (left, inp, cur)
    else if cur < p.price then do
      let maxOut ← deltaBase256 cur p.price p.liq .down
      if left < maxOut then do
        let next ← nextPriceFromOutput cur p.liq left false
        let i ← deltaQuote cur next p.liq .up
        let inp ← safeAdd u64Max inp i
        .ok (0, inp, next)
      else do
        let i ← deltaQuote cur p.price p.liq .up
        let inp ← safeAdd u64Max inp i
        let m64 ← castTo u64Max maxOut
        let left ← safeSub left m64
        buyOutLoop ps p.price left inp
    else buyOutLoop ps cur left inp

/-- `calculate_quote_to_base_from_amount_out` (state/virtual_pool.rs 426-490). -/
def buyOut (c : PoolConfig) (price amountOut : Nat) : Res FromOutput := do
  let (left, inp, next) ← buyOutLoop c.curve price amountOut 0
  let _ ← req (left = 0) .amountLeftIsNotZero
  .ok ⟨inp, next⟩

/-- State of a descending walk: current price, amount left, amount accumulated, and whether `break` was hit. [the local variables of state/virtual_pool.rs 730-733] -/
structure Walk where
  cur : Nat
  left : Nat
  acc : Nat
  done : Bool
  deriving DecidableEq, Repr

/-- One iteration of the loop of `calculate_base_to_quote_from_amount_in` (state/virtual_pool.rs 735-779): `p` is
`curve[i]`, `liq` is `curve[i+1].liquidity`. -/
def sellInStep (p : Point) (liq : Nat) (s : Walk) : Res Walk :=
  if s.done then .ok s
  else if p.price = 0 ∨ p.liq = 0 then .ok s
  else if p.price < s.cur then do
    let maxIn ← deltaBase256 p.price s.cur liq .up
    if s.left < maxIn then do
      let next ← nextPriceFromInput s.cur liq s.left true
      let o ← deltaQuote next s.cur liq .down
      let acc ← safeAdd u64Max s.acc o
      .ok ⟨next, 0, acc, true⟩
    else do
      let o ← deltaQuote p.price s.cur liq .down
      let acc ← safeAdd u64Max s.acc o
      let m64 ← castTo u64Max maxIn
      let left ← safeSub s.left m64
      .ok ⟨p.price, left, acc, false⟩
  else .ok s

/-- The loop `for i in (0..curve.len() - 1).rev()` of `calculate_base_to_quote_from_amount_in`
(state/virtual_pool.rs 734-780): the tail of the curve is walked first. -/
def sellInLoop : List Point → Walk → Res Walk
  | [], s => .ok s
  | [_], s => .ok s
  | p :: q :: rest, s => do
    let s ← sellInLoop (q :: rest) s
    sellInStep p q.liq s

/-- Lines 781-816 of state/virtual_pool.rs: the first segment, down to the start price. -/
def sellInFinish (start liq0 : Nat) (s : Walk) : Res FromInput :=
  if s.left ≠ 0 then do
    let next ← nextPriceFromInput s.cur liq0 s.left true
    if next < start then do
      let a ← deltaBase start s.cur liq0 .up
      let left ← safeSub s.left a
      let o ← deltaQuote start s.cur liq0 .down
      let acc ← safeAdd u64Max s.acc o
      .ok ⟨left, acc, start⟩
    else do
      let o ← deltaQuote next s.cur liq0 .down
      let acc ← safeAdd u64Max s.acc o
      .ok ⟨0, acc, next⟩
  else .ok ⟨s.left, s.acc, s.cur⟩

/-- `curve[0].liquidity` (the array is never empty). [`config.curve[0].liquidity`, state/virtual_pool.rs 784] -/
def PoolConfig.liq0 (c : PoolConfig) : Nat :=
  match c.curve with
  | [] => 0
  | p :: _ => p.liq

/-- `calculate_base_to_quote_from_amount_in` (state/virtual_pool.rs 724-817). -/
def sellIn (c : PoolConfig) (price amountIn : Nat) : Res FromInput := do
  let s ← sellInLoop c.curve ⟨price, amountIn, 0, false⟩
  sellInFinish c.sqrtStartPrice c.liq0 s

/-- One iteration of the loop of `calculate_base_to_quote_from_amount_out` (state/virtual_pool.rs 346-386). The
`unwrap` at line 384 is a panic path. -/
def sellOutStep (p : Point) (liq : Nat) (s : Walk) : Res Walk :=
  if s.done then .ok s
  else if p.price = 0 ∨ p.liq = 0 then .ok s
  else if p.price < s.cur then do
    let maxOut ← deltaQuote256 p.price s.cur liq .down
    if s.left < maxOut then do
      let next ← nextPriceFromOutput s.cur liq s.left true
      let i ← deltaBase next s.cur liq .up
      let acc ← safeAdd u64Max s.acc i
      .ok ⟨next, 0, acc, true⟩
    else do
      let i ← deltaBase p.price s.cur liq .up
      let acc ← safeAdd u64Max s.acc i
      let _ ← req (maxOut ≤ u64Max) .panic
      let left ← safeSub s.left maxOut
      .ok ⟨p.price, left, acc, false⟩
  else .ok s

/-- The loop of `calculate_base_to_quote_from_amount_out` (state/virtual_pool.rs 345-387). -/
def sellOutLoop : List Point → Walk → Res Walk
  | [], s => .ok s
  | [_], s => .ok s
  | p :: q :: rest, s => do
    let s ← sellOutLoop (q :: rest) s
    sellOutStep p q.liq s

/-- Lines 388-423 of state/virtual_pool.rs. -/
def sellOutFinish (start liq0 : Nat) (s : Walk) : Res FromOutput :=
  if s.left ≠ 0 then do
    let maxOut ← deltaQuote256 start s.cur liq0 .down
    let _ ← req (s.left ≤ maxOut) .insufficientLiquidity
    let next ← nextPriceFromOutput s.cur liq0 s.left true
    let _ ← req (start ≤ next) .insufficientLiquidity
    let i ← deltaBase next s.cur liq0 .up
    let acc ← safeAdd u64Max s.acc i
    .ok ⟨acc, next⟩
  else .ok ⟨s.acc, s.cur⟩

/-- `calculate_base_to_quote_from_amount_out` (state/virtual_pool.rs 336-424). -/
def sellOut (c : PoolConfig) (price amountOut : Nat) : Res FromOutput := do
  let s ← sellOutLoop c.curve ⟨price, amountOut, 0, false⟩
  sellOutFinish c.sqrtStartPrice c.liq0 s

/-! ## Swap results -/

/-- `SwapResult2` (state/virtual_pool.rs 1233-1242). -/
structure SwapResult where
  includedIn : Nat
  excludedIn : Nat
  left : Nat
  out : Nat
  next : Nat
  fee : FeeSplit
  deriving DecidableEq, Repr

/-- Fee numerator for an amount that still includes the fee, or the minimum fee for an eligible first swap
(state/virtual_pool.rs 505-517, 603-615). -/
def numeratorIncluded (c : PoolConfig) (p : Pool) (cur amount : Nat) (dir : TradeDirection) (firstMin : Bool) :
    Res Nat :=
  if firstMin then minBaseFee c.fees.base
  else totalFeeFromIncluded c.fees p.vol cur p.activationPoint amount dir

/-- Fee numerator for an amount without fee (state/virtual_pool.rs 248-260, 294-306, 657-669). -/
def numeratorExcluded (c : PoolConfig) (p : Pool) (cur amount : Nat) (dir : TradeDirection) (firstMin : Bool) :
    Res Nat :=
  if firstMin then minBaseFee c.fees.base
  else totalFeeFromExcluded c.fees p.vol cur p.activationPoint amount dir

/-- Walk of the curve for an exact input (state/virtual_pool.rs 544-553, 642-651). -/
def walkIn (c : PoolConfig) (p : Pool) (dir : TradeDirection) (amount : Nat) : Res FromInput :=
  match dir with
  | .baseToQuote => sellIn c p.sqrtPrice amount
  | .quoteToBase => buyIn c p.sqrtPrice amount

/-- Walk of the curve for an exact output (state/virtual_pool.rs 279-286). -/
def walkOut (c : PoolConfig) (p : Pool) (dir : TradeDirection) (amount : Nat) : Res FromOutput :=
  match dir with
  | .baseToQuote => sellOut c p.sqrtPrice amount
  | .quoteToBase => buyOut c p.sqrtPrice amount

/-- No fee. [all fields zero, state/fee.rs 17-22] -/
def FeeSplit.zero : FeeSplit := ⟨0, 0, 0⟩

/-- `get_swap_result_from_exact_input` (state/virtual_pool.rs 492-588). -/
def exactIn (c : PoolConfig) (p : Pool) (amountIn : Nat) (fm : FeeMode) (dir : TradeDirection) (cur : Nat)
    (firstMin : Bool) : Res SwapResult := do
  let num ← numeratorIncluded c p cur amountIn dir firstMin
  let (actualIn, inFee) ← (if fm.feesOnInput then feeOnAmount num amountIn fm.hasReferral
    else .ok (amountIn, FeeSplit.zero))
  let w ← walkIn c p dir actualIn
  let _ ← req (w.left = 0) .insufficientLiquidity
  let (actualOut, fee) ← (if fm.feesOnInput then .ok (w.out, inFee) else feeOnAmount num w.out fm.hasReferral)
  .ok ⟨amountIn, actualIn, w.left, actualOut, w.next, fee⟩

/-- `get_swap_result_from_partial_input` (state/virtual_pool.rs 590-722). -/
def partialIn (c : PoolConfig) (p : Pool) (amountIn : Nat) (fm : FeeMode) (dir : TradeDirection) (cur : Nat)
    (firstMin : Bool) : Res SwapResult := do
  let num ← numeratorIncluded c p cur amountIn dir firstMin
  let (actualIn, inFee) ← (if fm.feesOnInput then feeOnAmount num amountIn fm.hasReferral
    else .ok (amountIn, FeeSplit.zero))
  let w ← walkIn c p dir actualIn
  let (included, actualIn, inFee) ← (if w.left ≠ 0 then do
      let actualIn ← safeSub actualIn w.left
      if fm.feesOnInput then do
        let num ← numeratorExcluded c p cur actualIn dir firstMin
        let (inc, f) ← includedFeeAmount num actualIn
        let s ← splitFees f fm.hasReferral
        .ok (inc, actualIn, s)
      else .ok (actualIn, actualIn, inFee)
    else .ok (amountIn, actualIn, inFee))
  let (actualOut, fee) ← (if fm.feesOnInput then .ok (w.out, inFee) else feeOnAmount num w.out fm.hasReferral)
  .ok ⟨included, actualIn, w.left, actualOut, w.next, fee⟩

/-- `get_swap_result_from_exact_output` (state/virtual_pool.rs 232-334). -/
def exactOut (c : PoolConfig) (p : Pool) (amountOut : Nat) (fm : FeeMode) (dir : TradeDirection) (cur : Nat)
    (firstMin : Bool) : Res SwapResult := do
  let (includedOut, outFee) ← (if fm.feesOnInput then .ok (amountOut, FeeSplit.zero)
    else do
      let num ← numeratorExcluded c p cur amountOut dir firstMin
      let (inc, f) ← includedFeeAmount num amountOut
      let s ← splitFees f fm.hasReferral
      .ok (inc, s))
  let w ← walkOut c p dir includedOut
  let _ ← req (w.next ≤ c.migrationSqrtPrice) .insufficientLiquidity
  let (includedIn, fee) ← (if fm.feesOnInput then do
      let num ← numeratorExcluded c p cur w.amountIn dir firstMin
      let (inc, f) ← includedFeeAmount num w.amountIn
      let s ← splitFees f fm.hasReferral
      .ok (inc, s)
    else .ok (w.amountIn, outFee))
  .ok ⟨includedIn, w.amountIn, 0, amountOut, w.next, fee⟩

/-! ## Booking a swap -/

/-- `PoolMetrics::accumulate_fee` (state/virtual_pool.rs 186-201). -/
def Metrics.accumulate (m : Metrics) (protocol trading : Nat) (isBase : Bool) : Res Metrics :=
  if isBase then do
    let a ← safeAdd u64Max m.protocolBase protocol
    let b ← safeAdd u64Max m.tradingBase trading
    .ok { m with protocolBase := a, tradingBase := b }
  else do
    let a ← safeAdd u64Max m.protocolQuote protocol
    let b ← safeAdd u64Max m.tradingQuote trading
    .ok { m with protocolQuote := a, tradingQuote := b }

/-- `update_pre_swap` (state/virtual_pool.rs 961-970). -/
def Pool.updatePreSwap (p : Pool) (c : PoolConfig) (now : Nat) : Res Pool :=
  if c.fees.dyn.initialized ≠ 0 then do
    let v ← updateReferences c.fees.dyn p.vol p.sqrtPrice now
    .ok { p with vol := v }
  else .ok p

/-- `update_post_swap` (state/virtual_pool.rs 972-994). -/
def Pool.updatePostSwap (p : Pool) (c : PoolConfig) (oldPrice now : Nat) : Res Pool :=
  if c.fees.dyn.initialized ≠ 0 then do
    let v ← updateVolAcc c.fees.dyn p.vol p.sqrtPrice
    let d ← deltaBinId c.fees.dyn.binStepU128 oldPrice p.sqrtPrice
    .ok { p with vol := if 0 < d then { v with lastUpdate := now } else v }
  else .ok p

/-- Lines 919-936 of state/virtual_pool.rs: credit the fee. -/
def Pool.creditFee (p : Pool) (c : PoolConfig) (fee : FeeSplit) (onBase : Bool) : Res Pool := do
  let (pa, cr) ← c.splitPartnerCreator fee.trading
  if onBase then do
    let a ← safeAdd u64Max p.partnerBaseFee pa
    let b ← safeAdd u64Max p.protocolBaseFee fee.protocol
    let d ← safeAdd u64Max p.creatorBaseFee cr
    let m ← p.metrics.accumulate fee.protocol fee.trading true
    .ok { p with partnerBaseFee := a, protocolBaseFee := b, creatorBaseFee := d, metrics := m }
  else do
    let a ← safeAdd u64Max p.partnerQuoteFee pa
    let b ← safeAdd u64Max p.protocolQuoteFee fee.protocol
    let d ← safeAdd u64Max p.creatorQuoteFee cr
    let m ← p.metrics.accumulate fee.protocol fee.trading false
    .ok { p with partnerQuoteFee := a, protocolQuoteFee := b, creatorQuoteFee := d, metrics := m }

/-- Lines 938-953 of state/virtual_pool.rs: move the reserves. -/
def Pool.moveReserves (p : Pool) (r : SwapResult) (fm : FeeMode) (dir : TradeDirection) : Res Pool := do
  let actualOut ← (if fm.feesOnInput then .ok r.out
    else do
      let a ← safeAdd u64Max r.out r.fee.trading
      let a ← safeAdd u64Max a r.fee.protocol
      safeAdd u64Max a r.fee.referral)
  match dir with
  | .baseToQuote => do
    let b ← safeAdd u64Max p.baseReserve r.excludedIn
    let q ← safeSub p.quoteReserve actualOut
    .ok { p with baseReserve := b, quoteReserve := q }
  | .quoteToBase => do
    let q ← safeAdd u64Max p.quoteReserve r.excludedIn
    let b ← safeSub p.baseReserve actualOut
    .ok { p with quoteReserve := q, baseReserve := b }

/-- `apply_swap_result` (state/virtual_pool.rs 899-959). -/
def Pool.apply (p : Pool) (c : PoolConfig) (r : SwapResult) (fm : FeeMode) (dir : TradeDirection) (now : Nat) :
    Res Pool := do
  let p1 ← Pool.creditFee { p with sqrtPrice := r.next } c r.fee fm.feesOnBase
  let p2 ← p1.moveReserves r fm dir
  let p3 ← p2.updatePostSwap c p.sqrtPrice now
  .ok { p3 with hasSwap := 1 }

/-! ## Claims and surplus -/

/-- `is_curve_complete` (state/virtual_pool.rs 1079-1081). -/
def Pool.complete (p : Pool) (threshold : Nat) : Prop := threshold ≤ p.quoteReserve
/-- Decidability of the definition above, whose citation covers it. -/
instance (p : Pool) (t : Nat) : Decidable (p.complete t) := by unfold Pool.complete; infer_instance

/-- `claim_protocol_base_fee` (state/virtual_pool.rs 1000-1013): (amount, new pool). -/
def Pool.claimProtocolBase (p : Pool) (mx : Nat) : Res (Nat × Pool) := do
  let t := min p.protocolBaseFee mx
  let f ← safeSub p.protocolBaseFee t
  let mx ← safeSub mx t
  let m := min p.protocolMigBaseFee mx
  let g ← safeSub p.protocolMigBaseFee m
  let total ← safeAdd u64Max t m
  .ok (total, { p with protocolBaseFee := f, protocolMigBaseFee := g })

/-- `claim_protocol_quote_fee` (state/virtual_pool.rs 1015-1028): (amount, new pool). -/
def Pool.claimProtocolQuote (p : Pool) (mx : Nat) : Res (Nat × Pool) := do
  let t := min p.protocolQuoteFee mx
  let f ← safeSub p.protocolQuoteFee t
  let mx ← safeSub mx t
  let m := min p.protocolMigQuoteFee mx
  let g ← safeSub p.protocolMigQuoteFee m
  let total ← safeAdd u64Max t m
  .ok (total, { p with protocolQuoteFee := f, protocolMigQuoteFee := g })

/-- `get_total_surplus` (state/virtual_pool.rs 1087-1089). -/
def Pool.totalSurplus (p : Pool) (threshold : Nat) : Res Nat := safeSub p.quoteReserve threshold

/-- `get_partner_and_creator_surplus` (state/virtual_pool.rs 1091-1099). -/
def partnerAndCreatorSurplus (total : Nat) : Res Nat :=
  safeMulDivCastU64 total PARTNER_AND_CREATOR_SURPLUS_SHARE 100 .down

/-- `get_partner_surplus` (state/virtual_pool.rs 1101-1108). -/
def partnerSurplusOf (c : PoolConfig) (total : Nat) : Res Nat := do
  let s ← partnerAndCreatorSurplus total
  let (pa, _) ← c.splitPartnerCreator s
  .ok pa

/-- `get_creator_surplus` (state/virtual_pool.rs 1110-1117). -/
def creatorSurplusOf (c : PoolConfig) (total : Nat) : Res Nat := do
  let s ← partnerAndCreatorSurplus total
  let (_, cr) ← c.splitPartnerCreator s
  .ok cr

/-- `get_protocol_surplus` (state/virtual_pool.rs 1119-1123). -/
def Pool.protocolSurplusOf (p : Pool) (threshold : Nat) : Res Nat := do
  let t ← p.totalSurplus threshold
  let s ← partnerAndCreatorSurplus t
  safeSub t s

/-- `claim_protocol_quote_fee_and_surplus` (state/virtual_pool.rs 1030-1046): (amount, new pool). -/
def Pool.claimProtocolQuoteAndSurplus (p : Pool) (mx threshold : Nat) : Res (Nat × Pool) := do
  let (amount, p1) ← p.claimProtocolQuote mx
  if p1.protocolSurplus = 0 ∧ p1.complete threshold then do
    let s ← p1.protocolSurplusOf threshold
    let amount ← safeAdd u64Max amount s
    .ok (amount, { p1 with protocolSurplus := 1 })
  else .ok (amount, p1)

/-- `claim_partner_trading_fee` (state/virtual_pool.rs 1048-1058): (base, quote, new pool). -/
def Pool.claimPartner (p : Pool) (maxBase maxQuote : Nat) : Res (Nat × Nat × Pool) := do
  let b := min p.partnerBaseFee maxBase
  let q := min p.partnerQuoteFee maxQuote
  let fb ← safeSub p.partnerBaseFee b
  let fq ← safeSub p.partnerQuoteFee q
  .ok (b, q, { p with partnerBaseFee := fb, partnerQuoteFee := fq })

/-- `claim_creator_trading_fee` (state/virtual_pool.rs 1060-1070): (base, quote, new pool). -/
def Pool.claimCreator (p : Pool) (maxBase maxQuote : Nat) : Res (Nat × Nat × Pool) := do
  let b := min p.creatorBaseFee maxBase
  let q := min p.creatorQuoteFee maxQuote
  let fb ← safeSub p.creatorBaseFee b
  let fq ← safeSub p.creatorQuoteFee q
  .ok (b, q, { p with creatorBaseFee := fb, creatorQuoteFee := fq })

/-- `get_protocol_and_trading_base_fee` (state/virtual_pool.rs 1072-1077). -/
def Pool.baseFees (p : Pool) : Res Nat := do
  let s ← safeAdd u64Max p.partnerBaseFee p.protocolBaseFee
  safeAdd u64Max s p.creatorBaseFee

/-- PARTNER_MIGRATION_FEE_MASK (state/virtual_pool.rs 165) -/
def PARTNER_MIGRATION_FEE_MASK : Nat := 4
/-- CREATOR_MIGRATION_FEE_MASK (state/virtual_pool.rs 166) -/
def CREATOR_MIGRATION_FEE_MASK : Nat := 2
/-- LEGACY_CREATION_FEE_CHARGED_MASK (state/virtual_pool.rs 168) -/
def LEGACY_CREATION_FEE_CHARGED_MASK : Nat := 1
/-- LEGACY_CREATION_FEE_CLAIMED_MASK (state/virtual_pool.rs 169) -/
def LEGACY_CREATION_FEE_CLAIMED_MASK : Nat := 2
/-- PARTNER_CREATION_FEE_CLAIMED_MASK (state/virtual_pool.rs 171) -/
def PARTNER_CREATION_FEE_CLAIMED_MASK : Nat := 2
/-- PROTOCOL_CREATION_FEE_CLAIMED_MASK (state/virtual_pool.rs 172) -/
def PROTOCOL_CREATION_FEE_CLAIMED_MASK : Nat := 1

end Dbc
