import Verif.Spec.Layout
import Verif.Lemmas.Booked
import Verif.Lemmas.Vol
import Mathlib.Tactic.Ring

/-!
# Packing and reading back; every stored number fits its field
-/

namespace Dbc
open Spec

theorem fieldBytes_length (n v : Nat) : (fieldBytes n v).length = n := by
  induction n generalizing v with
  | zero => rfl
  | succ n ih => simp [fieldBytes, ih]

theorem littleEndian_fieldBytes (n v : Nat) (h : v < 256 ^ n) : littleEndian (fieldBytes n v) = v := by
  induction n generalizing v with
  | zero => simp at h; subst h; rfl
  | succ n ih =>
    rw [fieldBytes, littleEndian, ih _ (by rw [Nat.div_lt_iff_lt_mul (by decide)]; rwa [Nat.pow_succ] at h)]
    omega

theorem fieldBytes_byte (n v : Nat) : ∀ x ∈ fieldBytes n v, x < 256 := by
  induction n generalizing v with
  | zero => intro x hx; cases hx
  | succ n ih =>
    intro x hx
    rw [fieldBytes, List.mem_cons] at hx
    rcases hx with rfl | hx
    · exact Nat.mod_lt _ (by decide)
    · exact ih _ x hx

/-- The bytes taken by some fields. -/
def packWidth : List (Nat × Nat) → Nat
  | [] => 0
  | f :: fs => f.1 + packWidth fs

theorem pack_length (fs : List (Nat × Nat)) : (pack fs).length = packWidth fs := by
  induction fs with
  | nil => rfl
  | cons f fs ih => rw [pack, List.length_append, fieldBytes_length, ih, packWidth]

theorem pack_byte (fs : List (Nat × Nat)) : ∀ x ∈ pack fs, x < 256 := by
  induction fs with
  | nil => intro x hx; cases hx
  | cons f fs ih =>
    intro x hx
    rw [pack, List.mem_append] at hx
    rcases hx with hx | hx
    · exact fieldBytes_byte _ _ x hx
    · exact ih x hx

theorem pack_append (a b : List (Nat × Nat)) : pack (a ++ b) = pack a ++ pack b := by
  induction a with
  | nil => rfl
  | cons f fs ih => rw [List.cons_append, pack, ih, pack, List.append_assoc]

theorem packWidth_append (a b : List (Nat × Nat)) : packWidth (a ++ b) = packWidth a + packWidth b := by
  induction a with
  | nil => simp [packWidth]
  | cons f fs ih => rw [List.cons_append, packWidth, ih, packWidth, Nat.add_assoc]

theorem numberAt_pack (a b : List (Nat × Nat)) (n v : Nat) (h : v < 2 ^ (8 * n)) :
    numberAt (pack (a ++ (n, v) :: b)) (packWidth a) n = v := by
  unfold numberAt
  rw [pack_append, ← pack_length a, List.drop_left, pack]
  have := fieldBytes_length n v
  rw [List.take_left' this]
  exact littleEndian_fieldBytes n v (by rwa [show (256 : Nat) = 2 ^ 8 from rfl, ← Nat.pow_mul])

theorem numberAt_get {fs : List (Nat × Nat)} {i n v : Nat} (hi : fs[i]? = some (n, v)) (h : v < 2 ^ (8 * n)) {off : Nat}
    (ho : packWidth (fs.take i) = off) : numberAt (pack fs) off n = v := by
  obtain ⟨hl, e⟩ := List.getElem?_eq_some_iff.1 hi
  have hs : fs = fs.take i ++ (n, v) :: fs.drop (i + 1) := by
    rw [← e, List.cons_getElem_drop_succ, List.take_append_drop]
  have := numberAt_pack (fs.take i) (fs.drop (i + 1)) n v h
  rwa [← hs, ho] at this

theorem packWidth_sum (fs : List (Nat × Nat)) : packWidth fs = (fs.map Prod.fst).sum := by
  induction fs with
  | nil => rfl
  | cons f fs ih => rw [packWidth, ih, List.map_cons, List.sum_cons]

theorem numberAt_widths {fs gs : List (Nat × Nat)} {ws : List Nat} (hw : fs.map Prod.fst = ws) {i n v off : Nat}
    (hi : fs[i]? = some (n, v)) (h : v < 2 ^ (8 * n)) (ho : (ws.take i).sum = off) :
    numberAt (pack (fs ++ gs)) off n = v := by
  obtain ⟨hl, _⟩ := List.getElem?_eq_some_iff.1 hi
  refine numberAt_get (i := i) ?_ h ?_
  · rw [List.getElem?_append_left hl]; exact hi
  · rw [List.take_append_of_le_length (Nat.le_of_lt hl), packWidth_sum, List.map_take, hw, ho]

theorem curveFields_get (ps : List Point) (i : Nat) (q : Point) (h : ps[i]? = some q) :
    (curveFields ps)[2 * i]? = some (16, q.price) ∧ (curveFields ps)[2 * i + 1]? = some (16, q.liq) ∧
      packWidth ((curveFields ps).take (2 * i)) = 32 * i ∧ packWidth ((curveFields ps).take (2 * i + 1)) = 32 * i + 16 := by
  induction ps generalizing i with
  | nil => simp at h
  | cons p ps ih =>
    cases i with
    | zero =>
      simp only [List.getElem?_cons_zero, Option.some.injEq] at h
      subst h
      exact ⟨rfl, rfl, rfl, rfl⟩
    | succ i =>
      simp only [List.getElem?_cons_succ] at h
      obtain ⟨h1, h2, h3, h4⟩ := ih i h
      rw [show 2 * (i + 1) = 2 * i + 1 + 1 by omega, show 2 * i + 1 + 1 + 1 = (2 * i + 1) + 1 + 1 by omega]
      simp only [curveFields, List.getElem?_cons_succ, List.take_succ_cons, packWidth]
      exact ⟨h1, h2, by omega, by omega⟩

theorem curveFields_width (ps : List Point) : packWidth (curveFields ps) = 32 * ps.length := by
  induction ps with
  | nil => rfl
  | cons p ps ih => rw [curveFields, packWidth, packWidth, ih, List.length_cons]; omega

/-- The widths of a pool account's fields. -/
def poolWidths : List Nat :=
  [8, 8, 8, 16, 16, 16, 32, 32, 32, 32, 32, 8, 8, 8, 8, 8, 8, 16, 8, 1, 1, 1, 1, 1, 1, 1, 1, 8, 8, 8, 8, 8, 8,
   8, 1, 1, 1, 5, 2, 6, 8, 8, 24]

/-- The widths of a configuration account's fields before the curve. -/
def configWidths : List Nat :=
  [8, 32, 32, 32, 8, 8, 8, 2, 1, 5, 1, 7, 4, 4, 2, 2, 2, 2, 8, 16, 1, 1, 2, 2, 2, 4, 4, 1, 1, 2, 2, 2, 4, 4,
   14, 2, 1, 1, 1, 1, 1, 1, 1, 1, 1, 1, 1, 1, 1, 1, 1, 1, 1, 7, 8, 8, 8, 16, 8, 8, 8, 8, 8, 8, 8, 8, 1, 1, 2,
   1, 1, 2, 8, 2, 2, 4, 8, 16]

theorem readPool_bytes {p : Pool} (h : PoolFits p) {k : PoolKeys} (hk : PoolKeysFit k p) (disc : Nat) :
    readPool (p.bytes disc k) = (k, p) := by
  have hw : (p.fields disc k).map Prod.fst = poolWidths := rfl
  unfold readPool Pool.bytes
  rw [← List.append_nil (p.fields disc k)]
  rw [numberAt_widths hw (i := 1) (n := 8) (v := p.vol.lastUpdate) (off := 8) rfl h.volLastUpdate (by decide)]
  rw [numberAt_widths hw (i := 3) (n := 16) (v := p.vol.priceRef) (off := 24) rfl h.volPriceRef (by decide)]
  rw [numberAt_widths hw (i := 4) (n := 16) (v := p.vol.volAcc) (off := 40) rfl h.volVolAcc (by decide)]
  rw [numberAt_widths hw (i := 5) (n := 16) (v := p.vol.volRef) (off := 56) rfl h.volVolRef (by decide)]
  rw [numberAt_widths hw (i := 6) (n := 32) (v := k.config) (off := 72) rfl hk.config (by decide)]
  rw [numberAt_widths hw (i := 7) (n := 32) (v := p.creator) (off := 104) rfl hk.creator (by decide)]
  rw [numberAt_widths hw (i := 8) (n := 32) (v := k.baseMint) (off := 136) rfl hk.baseMint (by decide)]
  rw [numberAt_widths hw (i := 9) (n := 32) (v := k.baseVault) (off := 168) rfl hk.baseVault (by decide)]
  rw [numberAt_widths hw (i := 10) (n := 32) (v := k.quoteVault) (off := 200) rfl hk.quoteVault (by decide)]
  rw [numberAt_widths hw (i := 11) (n := 8) (v := p.baseReserve) (off := 232) rfl h.baseReserve (by decide)]
  rw [numberAt_widths hw (i := 12) (n := 8) (v := p.quoteReserve) (off := 240) rfl h.quoteReserve (by decide)]
  rw [numberAt_widths hw (i := 13) (n := 8) (v := p.protocolBaseFee) (off := 248) rfl h.protocolBaseFee (by decide)]
  rw [numberAt_widths hw (i := 14) (n := 8) (v := p.protocolQuoteFee) (off := 256) rfl h.protocolQuoteFee (by decide)]
  rw [numberAt_widths hw (i := 15) (n := 8) (v := p.partnerBaseFee) (off := 264) rfl h.partnerBaseFee (by decide)]
  rw [numberAt_widths hw (i := 16) (n := 8) (v := p.partnerQuoteFee) (off := 272) rfl h.partnerQuoteFee (by decide)]
  rw [numberAt_widths hw (i := 17) (n := 16) (v := p.sqrtPrice) (off := 280) rfl h.sqrtPrice (by decide)]
  rw [numberAt_widths hw (i := 18) (n := 8) (v := p.activationPoint) (off := 296) rfl h.activationPoint (by decide)]
  rw [numberAt_widths hw (i := 19) (n := 1) (v := p.poolType) (off := 304) rfl h.poolType (by decide)]
  rw [numberAt_widths hw (i := 20) (n := 1) (v := p.isMigrated) (off := 305) rfl h.isMigrated (by decide)]
  rw [numberAt_widths hw (i := 21) (n := 1) (v := p.partnerSurplus) (off := 306) rfl h.partnerSurplus (by decide)]
  rw [numberAt_widths hw (i := 22) (n := 1) (v := p.protocolSurplus) (off := 307) rfl h.protocolSurplus (by decide)]
  rw [numberAt_widths hw (i := 23) (n := 1) (v := p.migrationProgress) (off := 308) rfl h.migrationProgress (by decide)]
  rw [numberAt_widths hw (i := 24) (n := 1) (v := p.isWithdrawLeftover) (off := 309) rfl h.isWithdrawLeftover (by decide)]
  rw [numberAt_widths hw (i := 25) (n := 1) (v := p.creatorSurplus) (off := 310) rfl h.creatorSurplus (by decide)]
  rw [numberAt_widths hw (i := 26) (n := 1) (v := p.migrationFeeStatus) (off := 311) rfl h.migrationFeeStatus (by decide)]
  rw [numberAt_widths hw (i := 27) (n := 8) (v := p.metrics.protocolBase) (off := 312) rfl h.metricsProtocolBase (by decide)]
  rw [numberAt_widths hw (i := 28) (n := 8) (v := p.metrics.protocolQuote) (off := 320) rfl h.metricsProtocolQuote (by decide)]
  rw [numberAt_widths hw (i := 29) (n := 8) (v := p.metrics.tradingBase) (off := 328) rfl h.metricsTradingBase (by decide)]
  rw [numberAt_widths hw (i := 30) (n := 8) (v := p.metrics.tradingQuote) (off := 336) rfl h.metricsTradingQuote (by decide)]
  rw [numberAt_widths hw (i := 31) (n := 8) (v := p.finishTimestamp) (off := 344) rfl h.finishTimestamp (by decide)]
  rw [numberAt_widths hw (i := 32) (n := 8) (v := p.creatorBaseFee) (off := 352) rfl h.creatorBaseFee (by decide)]
  rw [numberAt_widths hw (i := 33) (n := 8) (v := p.creatorQuoteFee) (off := 360) rfl h.creatorQuoteFee (by decide)]
  rw [numberAt_widths hw (i := 34) (n := 1) (v := p.legacyCreationBits) (off := 368) rfl h.legacyCreationBits (by decide)]
  rw [numberAt_widths hw (i := 35) (n := 1) (v := p.creationBits) (off := 369) rfl h.creationBits (by decide)]
  rw [numberAt_widths hw (i := 36) (n := 1) (v := p.hasSwap) (off := 370) rfl h.hasSwap (by decide)]
  rw [numberAt_widths hw (i := 38) (n := 2) (v := p.migrationFeeBps) (off := 376) rfl h.migrationFeeBps (by decide)]
  rw [numberAt_widths hw (i := 40) (n := 8) (v := p.protocolMigBaseFee) (off := 384) rfl h.protocolMigBaseFee (by decide)]
  rw [numberAt_widths hw (i := 41) (n := 8) (v := p.protocolMigQuoteFee) (off := 392) rfl h.protocolMigQuoteFee (by decide)]

/-- The head of a configuration account with whatever is in the padding after the fees and in the version byte. -/
def PoolConfig.headPadded (disc x y ver : Nat) (c : PoolConfig) : List (Nat × Nat) :=
  [(8, disc), (32, c.quoteMint), (32, c.feeClaimer), (32, c.leftoverReceiver)] ++ c.fees.fields ++
  c.partnerVesting.fields ++ c.creatorVesting.fields ++
  [(14, x), (2, y), (1, c.collectFeeMode), (1, c.migrationOption), (1, c.activationType), (1, c.tokenDecimal), (1, ver),
   (1, c.tokenType), (1, c.quoteTokenFlag), (1, c.partnerPermLockedPct), (1, c.partnerLiqPct),
   (1, c.creatorPermLockedPct), (1, c.creatorLiqPct), (1, c.migrationFeeOption), (1, c.fixedSupplyFlag),
   (1, c.creatorTradingFeePct), (1, c.tokenUpdateAuthority), (1, c.migrationFeePct), (1, c.creatorMigrationFeePct),
   (7, 0), (8, c.swapBaseAmount), (8, c.migrationQuoteThreshold), (8, c.migrationBaseThreshold),
   (16, c.migrationSqrtPrice), (8, c.lockedVesting.amountPerPeriod), (8, c.lockedVesting.cliffDuration),
   (8, c.lockedVesting.frequency), (8, c.lockedVesting.numberOfPeriod), (8, c.lockedVesting.cliffUnlock), (8, 0),
   (8, c.preMigrationSupply), (8, c.postMigrationSupply), (1, c.migratedFee.collectFeeMode),
   (1, c.migratedFee.dynamicFee), (2, c.migratedFee.poolFeeBps), (1, c.migratedFee.baseFeeMode),
   (1, c.enableFirstSwapMinFee), (2, c.migratedFee.compoundingBps), (8, c.poolCreationFee),
   (2, c.migratedFee.numberOfPeriod), (2, c.migratedFee.sqrtPriceStepBps), (4, c.migratedFee.expiration),
   (8, c.migratedFee.reduction), (16, c.sqrtStartPrice)]

theorem readConfig_padded {c : PoolConfig} (h : ConfigFits c) (hk : ConfigKeysFit c) (disc x y ver : Nat) :
    readConfig (pack (c.headPadded disc x y ver ++ curveFields c.curve)) = c := by
  have hws : (c.headPadded disc x y ver).map Prod.fst = configWidths := rfl
  have hcur : ((List.range 20).map fun i => (⟨numberAt (pack (c.headPadded disc x y ver ++ curveFields c.curve)) (408 + 32 * i) 16,
      numberAt (pack (c.headPadded disc x y ver ++ curveFields c.curve)) (424 + 32 * i) 16⟩ : Point)) = c.curve := by
    apply List.ext_getElem
    · rw [List.length_map, List.length_range, h.curve.1]
    · intro i h1 h2
      obtain ⟨g1, g2, g3, g4⟩ := curveFields_get c.curve i c.curve[i] (List.getElem?_eq_getElem h2)
      obtain ⟨b1, b2⟩ := h.curve.2 c.curve[i] (List.getElem_mem h2)
      have hl : (c.headPadded disc x y ver).length = 78 := rfl
      have hw : packWidth (c.headPadded disc x y ver) = 408 := by rw [packWidth_sum, hws]; decide
      have e1 : numberAt (pack (c.headPadded disc x y ver ++ curveFields c.curve)) (408 + 32 * i) 16 = c.curve[i].price := by
        refine numberAt_get (i := 78 + 2 * i) ?_ b1 ?_
        · rw [List.getElem?_append_right (by omega), hl, Nat.add_sub_cancel_left]; exact g1
        · rw [← hl, List.take_length_add_append, packWidth_append, hw, g3]
      have e2 : numberAt (pack (c.headPadded disc x y ver ++ curveFields c.curve)) (424 + 32 * i) 16 = c.curve[i].liq := by
        refine numberAt_get (i := 78 + (2 * i + 1)) ?_ b2 ?_
        · rw [List.getElem?_append_right (by omega), hl, Nat.add_sub_cancel_left]; exact g2
        · rw [← hl, List.take_length_add_append, packWidth_append, hw, g4]; omega
      rw [List.getElem_map, List.getElem_range, e1, e2]
  unfold readConfig
  rw [hcur]
  rw [numberAt_widths hws (i := 1) (n := 32) (v := c.quoteMint) (off := 8) rfl hk.quoteMint (by decide)]
  rw [numberAt_widths hws (i := 2) (n := 32) (v := c.feeClaimer) (off := 40) rfl hk.feeClaimer (by decide)]
  rw [numberAt_widths hws (i := 3) (n := 32) (v := c.leftoverReceiver) (off := 72) rfl hk.leftoverReceiver (by decide)]
  rw [numberAt_widths hws (i := 4) (n := 8) (v := c.fees.base.cliff) (off := 104) rfl h.feesBaseCliff (by decide)]
  rw [numberAt_widths hws (i := 5) (n := 8) (v := c.fees.base.second) (off := 112) rfl h.feesBaseSecond (by decide)]
  rw [numberAt_widths hws (i := 6) (n := 8) (v := c.fees.base.third) (off := 120) rfl h.feesBaseThird (by decide)]
  rw [numberAt_widths hws (i := 7) (n := 2) (v := c.fees.base.first) (off := 128) rfl h.feesBaseFirst (by decide)]
  rw [numberAt_widths hws (i := 8) (n := 1) (v := c.fees.base.mode) (off := 130) rfl h.feesBaseMode (by decide)]
  rw [numberAt_widths hws (i := 10) (n := 1) (v := c.fees.dyn.initialized) (off := 136) rfl h.feesDynInitialized (by decide)]
  rw [numberAt_widths hws (i := 12) (n := 4) (v := c.fees.dyn.maxVolAcc) (off := 144) rfl h.feesDynMaxVolAcc (by decide)]
  rw [numberAt_widths hws (i := 13) (n := 4) (v := c.fees.dyn.vfc) (off := 148) rfl h.feesDynVfc (by decide)]
  rw [numberAt_widths hws (i := 14) (n := 2) (v := c.fees.dyn.binStep) (off := 152) rfl h.feesDynBinStep (by decide)]
  rw [numberAt_widths hws (i := 15) (n := 2) (v := c.fees.dyn.filterPeriod) (off := 154) rfl h.feesDynFilterPeriod (by decide)]
  rw [numberAt_widths hws (i := 16) (n := 2) (v := c.fees.dyn.decayPeriod) (off := 156) rfl h.feesDynDecayPeriod (by decide)]
  rw [numberAt_widths hws (i := 17) (n := 2) (v := c.fees.dyn.reductionFactor) (off := 158) rfl h.feesDynReductionFactor (by decide)]
  rw [numberAt_widths hws (i := 19) (n := 16) (v := c.fees.dyn.binStepU128) (off := 168) rfl h.feesDynBinStepU128 (by decide)]
  rw [numberAt_widths hws (i := 20) (n := 1) (v := c.partnerVesting.isInit) (off := 184) rfl h.partnerVestingIsInit (by decide)]
  rw [numberAt_widths hws (i := 21) (n := 1) (v := c.partnerVesting.pct) (off := 185) rfl h.partnerVestingPct (by decide)]
  rw [numberAt_widths hws (i := 23) (n := 2) (v := c.partnerVesting.bpsPerPeriod) (off := 188) rfl h.partnerVestingBpsPerPeriod (by decide)]
  rw [numberAt_widths hws (i := 24) (n := 2) (v := c.partnerVesting.numPeriods) (off := 190) rfl h.partnerVestingNumPeriods (by decide)]
  rw [numberAt_widths hws (i := 25) (n := 4) (v := c.partnerVesting.frequency) (off := 192) rfl h.partnerVestingFrequency (by decide)]
  rw [numberAt_widths hws (i := 26) (n := 4) (v := c.partnerVesting.cliffDuration) (off := 196) rfl h.partnerVestingCliffDuration (by decide)]
  rw [numberAt_widths hws (i := 27) (n := 1) (v := c.creatorVesting.isInit) (off := 200) rfl h.creatorVestingIsInit (by decide)]
  rw [numberAt_widths hws (i := 28) (n := 1) (v := c.creatorVesting.pct) (off := 201) rfl h.creatorVestingPct (by decide)]
  rw [numberAt_widths hws (i := 30) (n := 2) (v := c.creatorVesting.bpsPerPeriod) (off := 204) rfl h.creatorVestingBpsPerPeriod (by decide)]
  rw [numberAt_widths hws (i := 31) (n := 2) (v := c.creatorVesting.numPeriods) (off := 206) rfl h.creatorVestingNumPeriods (by decide)]
  rw [numberAt_widths hws (i := 32) (n := 4) (v := c.creatorVesting.frequency) (off := 208) rfl h.creatorVestingFrequency (by decide)]
  rw [numberAt_widths hws (i := 33) (n := 4) (v := c.creatorVesting.cliffDuration) (off := 212) rfl h.creatorVestingCliffDuration (by decide)]
  rw [numberAt_widths hws (i := 36) (n := 1) (v := c.collectFeeMode) (off := 232) rfl h.collectFeeMode (by decide)]
  rw [numberAt_widths hws (i := 37) (n := 1) (v := c.migrationOption) (off := 233) rfl h.migrationOption (by decide)]
  rw [numberAt_widths hws (i := 38) (n := 1) (v := c.activationType) (off := 234) rfl h.activationType (by decide)]
  rw [numberAt_widths hws (i := 39) (n := 1) (v := c.tokenDecimal) (off := 235) rfl h.tokenDecimal (by decide)]
  rw [numberAt_widths hws (i := 41) (n := 1) (v := c.tokenType) (off := 237) rfl h.tokenType (by decide)]
  rw [numberAt_widths hws (i := 42) (n := 1) (v := c.quoteTokenFlag) (off := 238) rfl h.quoteTokenFlag (by decide)]
  rw [numberAt_widths hws (i := 43) (n := 1) (v := c.partnerPermLockedPct) (off := 239) rfl h.partnerPermLockedPct (by decide)]
  rw [numberAt_widths hws (i := 44) (n := 1) (v := c.partnerLiqPct) (off := 240) rfl h.partnerLiqPct (by decide)]
  rw [numberAt_widths hws (i := 45) (n := 1) (v := c.creatorPermLockedPct) (off := 241) rfl h.creatorPermLockedPct (by decide)]
  rw [numberAt_widths hws (i := 46) (n := 1) (v := c.creatorLiqPct) (off := 242) rfl h.creatorLiqPct (by decide)]
  rw [numberAt_widths hws (i := 47) (n := 1) (v := c.migrationFeeOption) (off := 243) rfl h.migrationFeeOption (by decide)]
  rw [numberAt_widths hws (i := 48) (n := 1) (v := c.fixedSupplyFlag) (off := 244) rfl h.fixedSupplyFlag (by decide)]
  rw [numberAt_widths hws (i := 49) (n := 1) (v := c.creatorTradingFeePct) (off := 245) rfl h.creatorTradingFeePct (by decide)]
  rw [numberAt_widths hws (i := 50) (n := 1) (v := c.tokenUpdateAuthority) (off := 246) rfl h.tokenUpdateAuthority (by decide)]
  rw [numberAt_widths hws (i := 51) (n := 1) (v := c.migrationFeePct) (off := 247) rfl h.migrationFeePct (by decide)]
  rw [numberAt_widths hws (i := 52) (n := 1) (v := c.creatorMigrationFeePct) (off := 248) rfl h.creatorMigrationFeePct (by decide)]
  rw [numberAt_widths hws (i := 54) (n := 8) (v := c.swapBaseAmount) (off := 256) rfl h.swapBaseAmount (by decide)]
  rw [numberAt_widths hws (i := 55) (n := 8) (v := c.migrationQuoteThreshold) (off := 264) rfl h.migrationQuoteThreshold (by decide)]
  rw [numberAt_widths hws (i := 56) (n := 8) (v := c.migrationBaseThreshold) (off := 272) rfl h.migrationBaseThreshold (by decide)]
  rw [numberAt_widths hws (i := 57) (n := 16) (v := c.migrationSqrtPrice) (off := 280) rfl h.migrationSqrtPrice (by decide)]
  rw [numberAt_widths hws (i := 58) (n := 8) (v := c.lockedVesting.amountPerPeriod) (off := 296) rfl h.lockedVestingAmountPerPeriod (by decide)]
  rw [numberAt_widths hws (i := 59) (n := 8) (v := c.lockedVesting.cliffDuration) (off := 304) rfl h.lockedVestingCliffDuration (by decide)]
  rw [numberAt_widths hws (i := 60) (n := 8) (v := c.lockedVesting.frequency) (off := 312) rfl h.lockedVestingFrequency (by decide)]
  rw [numberAt_widths hws (i := 61) (n := 8) (v := c.lockedVesting.numberOfPeriod) (off := 320) rfl h.lockedVestingNumberOfPeriod (by decide)]
  rw [numberAt_widths hws (i := 62) (n := 8) (v := c.lockedVesting.cliffUnlock) (off := 328) rfl h.lockedVestingCliffUnlock (by decide)]
  rw [numberAt_widths hws (i := 64) (n := 8) (v := c.preMigrationSupply) (off := 344) rfl h.preMigrationSupply (by decide)]
  rw [numberAt_widths hws (i := 65) (n := 8) (v := c.postMigrationSupply) (off := 352) rfl h.postMigrationSupply (by decide)]
  rw [numberAt_widths hws (i := 66) (n := 1) (v := c.migratedFee.collectFeeMode) (off := 360) rfl h.migratedFeeCollectFeeMode (by decide)]
  rw [numberAt_widths hws (i := 67) (n := 1) (v := c.migratedFee.dynamicFee) (off := 361) rfl h.migratedFeeDynamicFee (by decide)]
  rw [numberAt_widths hws (i := 68) (n := 2) (v := c.migratedFee.poolFeeBps) (off := 362) rfl h.migratedFeePoolFeeBps (by decide)]
  rw [numberAt_widths hws (i := 69) (n := 1) (v := c.migratedFee.baseFeeMode) (off := 364) rfl h.migratedFeeBaseFeeMode (by decide)]
  rw [numberAt_widths hws (i := 70) (n := 1) (v := c.enableFirstSwapMinFee) (off := 365) rfl h.enableFirstSwapMinFee (by decide)]
  rw [numberAt_widths hws (i := 71) (n := 2) (v := c.migratedFee.compoundingBps) (off := 366) rfl h.migratedFeeCompoundingBps (by decide)]
  rw [numberAt_widths hws (i := 72) (n := 8) (v := c.poolCreationFee) (off := 368) rfl h.poolCreationFee (by decide)]
  rw [numberAt_widths hws (i := 73) (n := 2) (v := c.migratedFee.numberOfPeriod) (off := 376) rfl h.migratedFeeNumberOfPeriod (by decide)]
  rw [numberAt_widths hws (i := 74) (n := 2) (v := c.migratedFee.sqrtPriceStepBps) (off := 378) rfl h.migratedFeeSqrtPriceStepBps (by decide)]
  rw [numberAt_widths hws (i := 75) (n := 4) (v := c.migratedFee.expiration) (off := 380) rfl h.migratedFeeExpiration (by decide)]
  rw [numberAt_widths hws (i := 76) (n := 8) (v := c.migratedFee.reduction) (off := 384) rfl h.migratedFeeReduction (by decide)]
  rw [numberAt_widths hws (i := 77) (n := 16) (v := c.sqrtStartPrice) (off := 392) rfl h.sqrtStartPrice (by decide)]

theorem readConfig_bytes {c : PoolConfig} (h : ConfigFits c) (hk : ConfigKeysFit c) (disc : Nat) :
    readConfig (c.bytes disc) = c := readConfig_padded h hk disc 0 0 0

/-! ### Every stored number fits -/

/-- The program adds to the lifetime counters with checked 64-bit additions. -/
theorem swap_metrics_le {w w' : World} {a : SwapArgs} (h : w.swap a = .ok w')
    (hb : w.pool.metrics.protocolBase ≤ u64Max ∧ w.pool.metrics.tradingBase ≤ u64Max ∧
      w.pool.metrics.protocolQuote ≤ u64Max ∧ w.pool.metrics.tradingQuote ≤ u64Max) :
    w'.pool.metrics.protocolBase ≤ u64Max ∧ w'.pool.metrics.tradingBase ≤ u64Max ∧
      w'.pool.metrics.protocolQuote ≤ u64Max ∧ w'.pool.metrics.tradingQuote ≤ u64Max := by
  unfold World.swap at h
  simp only [bind_ok, req_ok, ok_inj, Prod.exists] at h
  obtain ⟨_, _, _, _, cur, _, ⟨⟩, _, _, _, p1, hp1, fm, _, r, _, p2, hp2, b, q, _, p3, hp3, rfl⟩ := h
  obtain ⟨v1, rfl, -, -⟩ := updatePreSwap_ok hp1
  simp only [Pool.apply, bind_ok, ok_inj] at hp2
  obtain ⟨c1, hc1, c2, hc2, c3, hc3, rfl⟩ := hp2
  obtain ⟨B, Q, rfl, -, -⟩ := moveReserves_ok hc2
  obtain ⟨v2, rfl, -, -⟩ := updatePostSwap_ok hc3
  obtain ⟨M, F, rfl, -, -⟩ := completeSwap_ok hp3
  clear hc2 hc3 hp3 hp1
  dsimp only
  simp only [Pool.creditFee, Metrics.accumulate, bind_ok, Prod.exists, ite_ok, safeAdd_ok, ok_inj] at hc1
  obtain ⟨pa, cr, _, h⟩ := hc1
  obtain ⟨h1, h2, h3, h4⟩ := hb
  rcases h with ⟨_, _, _, _, _, _, _, m, hm, rfl⟩ | ⟨_, _, _, _, _, _, _, m, hm, rfl⟩ <;>
    rcases hm with ⟨_, _, ⟨g1, rfl⟩, _, ⟨g2, rfl⟩, rfl⟩ | ⟨_, _, ⟨g1, rfl⟩, _, ⟨g2, rfl⟩, rfl⟩ <;>
    dsimp only at g1 g2 ⊢ <;> exact ⟨by assumption, by assumption, by assumption, by assumption⟩

/-- The numbers that other invariants do not bound. -/
structure Slim (w : World) : Prop where
  last : w.pool.vol.lastUpdate ≤ u64Max
  ref : w.pool.vol.priceRef ≤ u128Max
  metrics : w.pool.metrics.protocolBase ≤ u64Max ∧ w.pool.metrics.tradingBase ≤ u64Max ∧
    w.pool.metrics.protocolQuote ≤ u64Max ∧ w.pool.metrics.tradingQuote ≤ u64Max
  act : w.pool.activationPoint ≤ u64Max
  kind : w.pool.poolType = w.cfg.tokenType
  finish : w.pool.finishTimestamp ≤ u64Max

theorem max_lt : MAX_SQRT_PRICE ≤ u128Max := by decide

theorem Slim.step {w w' : World} {op : Op} (l : Slim w) (hr : Reachable w) (hs : w.step op = .ok w')
    (ht : ∀ a, op = .swap a → ClockFits a.clk) : Slim w' := by
  rcases step_cases hs with ⟨a, rfl, h⟩ | h
  · obtain ⟨cur, fm, r, v1, v2, s⟩ := swap_ok h
    have hr' := hr.step hs
    obtain ⟨t1, t2⟩ := ht a rfl
    have t1 : a.clk.time ≤ u64Max := by unfold u64Max; omega
    have hv : v2.lastUpdate ≤ u64Max ∧ v2.priceRef ≤ u128Max := by
      by_cases hi : w.cfg.fees.dyn.initialized = 0
      · obtain ⟨rfl, rfl⟩ := s.preOff hi
        exact ⟨l.last, l.ref⟩
      · constructor
        · have h1 := s.preOn hi
          rw [updateReferences_eq (hr.dyn hi) hr.volOK.acc, ok_inj] at h1
          obtain ⟨u, db, hu, _, hv2⟩ := s.postOn hi
          simp only [updateVolAcc, bind_ok, ok_inj] at hu
          obtain ⟨dl, _, m, _, acc, _, rfl⟩ := hu
          have e1 : v1.lastUpdate = w.pool.vol.lastUpdate := by
            rw [← h1]; unfold refsOf; split
            · rfl
            · split <;> rfl
          rw [hv2]; split
          · exact t1
          · exact e1.trans_le l.last
        · rw [← s.vol]
          rcases hr'.volOK.price with ⟨h0, _⟩ | h0 | h0
          · rw [h0]; exact Nat.zero_le _
          · rw [s.cfg] at h0; exact absurd h0 hi
          · obtain ⟨ps, hc⟩ := hr'.core
            exact h0.2.trans ((Nat.le_of_lt hc.good.migMax).trans max_lt)
    refine ⟨by rw [s.vol]; exact hv.1, by rw [s.vol]; exact hv.2, swap_metrics_le h l.metrics, ?_, ?_, ?_⟩
    · rw [s.poolFrame]; exact l.act
    · rw [s.poolFrame, s.cfg]; exact l.kind
    · by_cases hq : w'.pool.quoteReserve < w.cfg.migrationQuoteThreshold
      · rw [(s.still hq).2]; exact l.finish
      · rw [(s.done (by omega)).2.1]; exact t1
  · obtain ⟨e1, -, -, -, -, e2, -, e3, e4, e5, -, e6, -⟩ := h
    exact ⟨by rw [e2]; exact l.last, by rw [e2]; exact l.ref, by rw [e4]; exact l.metrics, by rw [e3]; exact l.act,
      by rw [e6, e1]; exact l.kind, by rw [e5]; exact l.finish⟩

theorem Slim.run {w w' : World} {ops : List Op} (hr : Run w ops w') (h : Reachable w) (l : Slim w) (ht : Timely ops) :
    Slim w' := by
  induction hr with
  | nil => exact l
  | @cons w w1 w' op ops hs hr ih =>
    exact ih (h.step hs) (l.step h hs (fun a e => ht a (by rw [e]; exact List.mem_cons_self)))
      (fun a ha => ht a (List.mem_cons_of_mem _ ha))

theorem currentPoint_fits {k : Nat} {clk : Clock} {x : Nat} (h : currentPoint k clk = .ok x) (hc : ClockFits clk) :
    x ≤ u64Max := by
  unfold ClockFits at hc
  unfold currentPoint at h
  unfold u64Max
  split at h
  · cases h
  · rw [ok_inj] at h; omega
  · rw [ok_inj] at h; omega

theorem Slim.genesis {c : PoolConfig} {a : InitArgs} {w : World} (h : initPool c a = .ok w) (hc : ClockFits a.clk) :
    Slim w := by
  obtain ⟨supply, mint, upd, act, b, h1, h2, h3, h4, h5, h6, h7, h8, rfl⟩ := initPool_ok h
  exact ⟨Nat.zero_le _, Nat.zero_le _, ⟨Nat.zero_le _, Nat.zero_le _, Nat.zero_le _, Nat.zero_le _⟩,
    currentPoint_fits h8 hc, h5.symm, Nat.zero_le _⟩

theorem accepted_flags {p : ConfigParams} {env : ConfigEnv} {c : PoolConfig} (h : createConfig p env = .ok c) :
    c.tokenType ≤ 1 := by
  have ha := createConfig_ok h
  have hv := validate_ok ha.validated
  rw [show c.tokenType = p.tokenType by rw [ha.eq]; rfl]
  exact hv.tokenType

theorem Slim.fits {w : World} (l : Slim w) (hr : Reachable w) (hd : w.cfg.fees.dyn.maxVolAcc < 2 ^ 32) :
    PoolFits w.pool := by
  have L := hr.life
  have S := hr.solvent
  obtain ⟨ps, hc⟩ := hr.core
  obtain ⟨p, env, _, hcc⟩ := hr.config
  have hk := accepted_flags hcc
  have V := hr.volOK
  have R := hr.resMax
  have hlo := hc.hi.trans ((Nat.le_of_lt hc.good.migMax).trans max_lt)
  have hp : w.pool.migrationProgress = 0 ∨ w.pool.migrationProgress = 1 ∨ w.pool.migrationProgress = 2 ∨
    w.pool.migrationProgress = 3 := by have := L.prog; omega
  have hbase : w.baseFees + w.pool.protocolMigBaseFee ≤ u64Max := by
    have s1 := S.supMax
    have s2 := S.baseMax
    rcases hp with h | h | h | h
    · have := S.base0 h; have := (L.notYet (by omega)).1; omega
    · have := S.base1 h; have := (L.notYet (by omega)).1; omega
    · have := S.base2 h; have := (L.notYet (by omega)).1; omega
    · have := S.base3 h; omega
  have hquote : w.quoteFees + w.pool.protocolMigQuoteFee ≤ u64Max := by
    have s2 := S.quoteMax
    rcases hp with h | h | h | h
    · have := S.quote0 h; have := (L.notYet (by omega)).2.1; omega
    · have := S.quote12 (.inl h); have := (L.notYet (by omega)).2.1; omega
    · have := S.quote12 (.inr h); have := (L.notYet (by omega)).2.1; omega
    · have := S.quote3 h; omega
  have hmig : w.pool.isMigrated ≤ 1 := by
    rcases hp with h | h | h | h
    all_goals first
      | (have := L.mig.1 h; omega)
      | (have := L.mig.2 (by omega); omega)
  have hpa : w.pool.partnerSurplus ≤ 1 := by have := L.paS; omega
  have hcr : w.pool.creatorSurplus ≤ 1 := by have := L.crS; omega
  have hpr : w.pool.protocolSurplus ≤ 1 := by have := L.prS; omega
  have hlf : w.pool.isWithdrawLeftover ≤ 1 := by have := L.leftover; omega
  have hst : w.pool.migrationFeeStatus ≤ 6 := by have := L.status; omega
  have hcb : w.pool.creationBits ≤ 3 := by have := L.creation; omega
  have hbps : w.pool.migrationFeeBps ≤ 10000 := by rw [L.bps]; decide
  have hl := L.legacy
  have hf := L.first
  have hprog := L.prog
  unfold World.baseFees at hbase
  unfold World.quoteFees at hquote
  obtain ⟨m1, m2, m3, m4⟩ := l.metrics
  have l1 := l.last
  have l2 := l.ref
  have l3 := l.act
  have l4 := l.finish
  have l5 := l.kind
  have v1 := V.acc
  have v2 := V.ref
  clear L S V hc hr l hp
  have e64 : u64Max = 2 ^ 64 - 1 := rfl
  have e128 : u128Max = 2 ^ 128 - 1 := rfl
  constructor <;> omega

theorem padCurve_fits {ps : List Point} (h : ps.length ≤ 20) (hq : ∀ q ∈ ps, q.price ≤ u128Max ∧ q.liq ≤ u128Max) :
    (padCurve ps).length = 20 ∧ ∀ q ∈ padCurve ps, q.price < 2 ^ 128 ∧ q.liq < 2 ^ 128 := by
  have e128 : u128Max = 2 ^ 128 - 1 := rfl
  constructor
  · rw [padCurve, List.length_append, List.length_replicate]
    have : MAX_CURVE_POINT_CONFIG = 20 := rfl
    omega
  · intro q hm
    rw [padCurve, List.mem_append, List.mem_replicate] at hm
    rcases hm with hm | ⟨_, rfl⟩
    · have := hq q hm; omega
    · exact ⟨by decide, by decide⟩

theorem amounts1_le {h : Handler} {p t f b q : Nat} (e : migrationAmounts1 h p t f = .ok (b, q)) : b ≤ u64Max := by
  cases h
  · simp only [migrationAmounts1, constantProductBase, bind_ok, Prod.exists, ok_inj, Prod.mk.injEq, castTo_ok, req_ok] at e
    obtain ⟨_, _, _, _, ⟨_, _, _, _, _, _, _, _, _, hb, _, rfl⟩, rfl, _⟩ := e
    exact hb
  · simp only [migrationAmounts1, bind_ok, Prod.exists, ok_inj, Prod.mk.injEq, castTo_ok, req_ok] at e
    obtain ⟨_, _, _, _, _, _, _, _, hb, _, ⟨_, rfl⟩, rfl, _⟩ := e
    exact hb

theorem supply_le {p : ConfigParams} {env : ConfigEnv} {s b x y z : Nat} (ht : p.Typed)
    (h : resolveTokenSupply p env s b = .ok (x, y, z)) : x ≤ 1 ∧ y ≤ u64Max ∧ z ≤ u64Max := by
  unfold resolveTokenSupply at h
  split at h
  · rename_i pre post e
    simp only [bind_ok, ok_inj, Prod.mk.injEq] at h
    obtain ⟨_, _, _, _, _, _, _, _, _, _, rfl, rfl, rfl⟩ := h
    exact ⟨Nat.le_refl _, ht.supply _ _ e⟩
  · simp only [ok_inj, Prod.mk.injEq] at h
    obtain ⟨rfl, rfl, rfl⟩ := h
    exact ⟨Nat.zero_le _, Nat.zero_le _, Nat.zero_le _⟩

theorem configFits {p : ConfigParams} {env : ConfigEnv} {c : PoolConfig} (ht : p.Typed) (hd : Decoded p)
    (h : createConfig p env = .ok c) : ConfigFits c := by
  have ha := createConfig_ok h
  have hv := validate_ok ha.validated
  have hg := createConfig_good ht h
  obtain ⟨c1, c2, c3, c4, c5, c6⟩ := validateCurve_ok hv.curve
  obtain ⟨s1, s2, s3⟩ := supply_le ht ha.supply
  obtain ⟨q, hq, _⟩ := ha.amounts
  have b1 := amounts1_le hq
  have hcur := padCurve_fits (c4.trans (by decide)) ht.curve
  have b2 := ha.swapMax
  have b3 := ha.priceLt.le.trans max_lt
  have e := ha.eq
  have e64 : u64Max = 2 ^ 64 - 1 := rfl
  have e128 : u128Max = 2 ^ 128 - 1 := rfl
  have e32 : u32Max = 2 ^ 32 - 1 := rfl
  have e16 : u16Max = 2 ^ 16 - 1 := rfl
  have e8 : u8Max = 2 ^ 8 - 1 := rfl
  have f1 : p.collectFeeMode ≤ 1 := by
    have := hv.collect
    unfold CollectFeeMode.tryFrom at this
    split at this <;> first | omega | simp at this
  have f2 : p.activationType ≤ 1 := by
    obtain ⟨a, ha, _⟩ := hv.act
    unfold ActivationType.tryFrom at ha
    split at ha <;> first | omega | cases ha
  have f3 := hv.creatorPct
  have f4 := hv.migFee
  have f5 := hv.migCreator
  have f6 := hv.option
  have f7 := hv.feeOption
  have f8 := hv.tokenType
  have f9 := hv.authority
  have f10 := hv.decimals
  have f11 := hv.pct
  have i1 : p.partnerVesting.toInfo.isInit ≤ 1 := by unfold LiqVestingParams.toInfo; dsimp only; split <;> decide
  have i2 : p.creatorVesting.toInfo.isInit ≤ 1 := by unfold LiqVestingParams.toInfo; dsimp only; split <;> decide
  have i3 : (if env.quoteIsSpl then 0 else 1) ≤ 1 := by split <;> decide
  have i4 : (if p.enableFirstSwapMinFee then 1 else 0) ≤ 1 := by split <;> decide
  rw [e]
  clear hv hg hq e ha h c5 c6
  generalize c.migrationSqrtPrice = x1 at *
  generalize c.swapBaseAmount = x2 at *
  generalize c.migrationBaseThreshold = x3 at *
  generalize c.fixedSupplyFlag = x4 at *
  generalize c.preMigrationSupply = x5 at *
  generalize c.postMigrationSupply = x6 at *
  cases ht
  cases hd
  constructor
  case curve => exact hcur
  all_goals dsimp only [PoolConfig.init, LiqVestingParams.toInfo] at *
  all_goals first | omega | (unfold MAX_SQRT_PRICE at *; omega)

end Dbc
