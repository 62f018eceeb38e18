import Verif.Lemmas.Total
import Verif.Lemmas.Swap
import Verif.Lemmas.Limiter

/-!
# Which errors a swap can end in
-/

namespace Dbc
open Spec

/-- The errors the proofs of C11 and C45 exclude. -/
def Err.bad : Err → Bool
  | .panic => true
  | .insufficientLiquidityForMigration => true
  | _ => false

/-- The value is neither a panic nor the refusal to complete the curve. -/
def Fine {α : Type} (x : Res α) : Prop := ∀ e, x = .error e → e.bad = false

theorem Fine.bind {α β : Type} {x : Res α} {f : α → Res β} (hx : Fine x)
    (hf : ∀ a, x = .ok a → Fine (f a)) : Fine (x >>= f) := by
  intro e h
  rw [bind_err] at h
  rcases h with h | ⟨a, ha, h⟩
  · exact hx e h
  · exact hf a ha e h

theorem Fine.ok {α : Type} (a : α) : Fine (Except.ok a : Res α) := by
  intro e h; cases h
theorem Fine.of {α : Type} {x : Res α} (h : ∃ a, x = .ok a) : Fine x := by
  obtain ⟨a, rfl⟩ := h; exact Fine.ok a

theorem Fine.err {α : Type} {e : Err} (h : e.bad = false) : Fine (Except.error e : Res α) := by
  intro e' h'; cases h'; exact h

theorem Fine.ite {α : Type} {c : Prop} [Decidable c] {x y : Res α} (hx : c → Fine x)
    (hy : ¬ c → Fine y) : Fine (if c then x else y) := by
  split
  · exact hx ‹_›
  · exact hy ‹_›

theorem Fine.req {c : Prop} [Decidable c] {e : Err} (h : e.bad = false) : Fine (req c e) :=
  Fine.ite (fun _ => Fine.ok _) fun _ => Fine.err h
theorem Fine.req' {c : Prop} [Decidable c] {e : Err} (h : c) : Fine (Dbc.req c e) := by
  unfold Dbc.req; rw [if_pos h]; exact Fine.ok _
theorem Fine.add (mx a b : Nat) : Fine (safeAdd mx a b) := Fine.ite (fun _ => Fine.ok _) fun _ => Fine.err rfl
theorem Fine.sub (a b : Nat) : Fine (safeSub a b) := Fine.ite (fun _ => Fine.ok _) fun _ => Fine.err rfl
theorem Fine.mul (mx a b : Nat) : Fine (safeMul mx a b) := Fine.ite (fun _ => Fine.ok _) fun _ => Fine.err rfl
theorem Fine.div (a b : Nat) : Fine (safeDiv a b) := Fine.ite (fun _ => Fine.err rfl) fun _ => Fine.ok _
theorem Fine.shl (a b : Nat) : Fine (safeShl256 a b) := Fine.ite (fun _ => Fine.ok _) fun _ => Fine.err rfl
theorem Fine.cast (a b : Nat) : Fine (castTo a b) := Fine.ite (fun _ => Fine.ok _) fun _ => Fine.err rfl
theorem Fine.subPanic {a b : Nat} (h : b ≤ a) : Fine (subPanic a b) :=
  Fine.ite (fun _ => Fine.ok _) fun h' => absurd h h'
theorem Fine.vin (s v a : Nat) : Fine (vaultIn s v a) := Fine.ite (fun _ => Fine.ok _) fun _ => Fine.err rfl
theorem Fine.vout (v a : Nat) : Fine (vaultOut v a) := Fine.ite (fun _ => Fine.ok _) fun _ => Fine.err rfl

/-- Walks through a computation made of checked operations. -/
macro "fine" : tactic => `(tactic| repeat' (first
  | exact Fine.ok _ | exact Fine.err rfl | exact Fine.req rfl | exact Fine.add _ _ _ | exact Fine.sub _ _
  | exact Fine.mul _ _ _ | exact Fine.div _ _ | exact Fine.shl _ _ | exact Fine.cast _ _ | exact Fine.vin _ _ _
  | exact Fine.vout _ _ | assumption
  | refine Fine.bind ?_ fun _ _ => ?_ | refine Fine.ite (fun _ => ?_) (fun _ => ?_) | split))

theorem Fine.mulDivU64 (x y d : Nat) (r : Rounding) : Fine (safeMulDivCastU64 x y d r) := by
  unfold safeMulDivCastU64; fine
theorem Fine.mulDivU256 (x y d : Nat) (r : Rounding) {e : Err} (h : e.bad = false) : Fine (mulDivU256 x y d r e) := by
  unfold Dbc.mulDivU256
  exact Fine.ite (fun _ => Fine.err h) fun _ => Fine.ite (fun _ => Fine.ok _) fun _ => Fine.err h
theorem Fine.shlDiv (x y o : Nat) : Fine (safeShlDivCastDown x y o) := by
  unfold safeShlDivCastDown; fine
theorem Fine.feeInPeriod (a b c : Nat) : Fine (getFeeInPeriod a b c) := by
  unfold getFeeInPeriod; fine

/-! ### Fees -/

theorem Fine.schedulerByPeriod (b : BaseFeeConfig) (p : Nat) : Fine (schedulerByPeriod b p) := by
  unfold Dbc.schedulerByPeriod
  dsimp only
  split
  · fine
  · exact Fine.ite (fun _ => Fine.feeInPeriod _ _ _) fun _ => Fine.err rfl
  · fine
theorem Fine.schedulerNumerator (b : BaseFeeConfig) (p q : Nat) : Fine (schedulerNumerator b p q) := by
  have := Fine.schedulerByPeriod b
  unfold Dbc.schedulerNumerator
  refine Fine.ite (fun _ => Fine.ok _) fun _ => Fine.bind (Fine.sub _ _) fun _ _ => Fine.bind (Fine.div _ _) fun _ _ => this _

theorem Fine.toNumerator (b : Nat) : Fine (toNumerator b) := by unfold Dbc.toNumerator; fine
theorem Fine.maxIndex (b : BaseFeeConfig) : Fine (limiterMaxIndex b) := by
  have := Fine.toNumerator b.first
  unfold limiterMaxIndex; fine

theorem Fine.excludedFee (n a : Nat) : Fine (excludedFeeAmount n a) := by
  have := Fine.mulDivU64 a n FEE_DENOMINATOR .up
  unfold excludedFeeAmount; fine
theorem Fine.includedFee (n a : Nat) : Fine (includedFeeAmount n a) := by
  unfold includedFeeAmount
  refine Fine.bind (Fine.sub _ _) fun _ _ => Fine.bind (Fine.mulDivU64 _ _ _ _) fun _ _ => ?_
  fine
theorem Fine.splitFees (n : Nat) (b : Bool) : Fine (splitFees n b) := by
  unfold Dbc.splitFees
  refine Fine.bind (Fine.mulDivU64 _ _ _ _) fun _ _ => Fine.bind (Fine.sub _ _) fun _ _ => Fine.bind ?_ fun _ _ => ?_
  · exact Fine.ite (fun _ => Fine.mulDivU64 _ _ _ _) fun _ => Fine.ok _
  · fine
theorem Fine.feeOnAmount (n a : Nat) (b : Bool) : Fine (feeOnAmount n a b) := by
  unfold Dbc.feeOnAmount
  refine Fine.bind (Fine.excludedFee _ _) fun _ _ => ?_
  split
  exact Fine.bind (Fine.splitFees _ _) fun _ _ => Fine.ok _

theorem Fine.limIncluded {b : BaseFeeConfig} (h : b.third ≠ 0) (a : Nat) : Fine (limiterFromIncluded b a) := by
  unfold limiterFromIncluded
  refine Fine.ite (fun _ => Fine.ok _) fun _ => Fine.bind (Fine.req' h) fun _ _ => Fine.bind (Fine.maxIndex _) fun _ _ =>
    Fine.bind (Fine.toNumerator _) fun _ _ => Fine.bind (Fine.cast _ _) fun _ _ => Fine.mulDivU64 _ _ _ _
theorem Fine.limExcludedAmount {b : BaseFeeConfig} (h : b.third ≠ 0) (a : Nat) : Fine (limiterExcluded b a) := by
  unfold limiterExcluded
  refine Fine.bind (Fine.limIncluded h _) fun _ _ => Fine.bind (Fine.excludedFee _ _) fun _ _ => ?_
  fine
theorem Fine.limChecked {b : BaseFeeConfig} (h : b.third ≠ 0) : Fine (limiterChecked b) := by
  unfold limiterChecked
  refine Fine.bind (Fine.maxIndex _) fun _ _ => Fine.ite (fun _ => ?_) fun _ => ?_
  · exact Fine.bind (Fine.limExcludedAmount h _) fun _ _ => Fine.ok _
  · exact Fine.bind (Fine.limExcludedAmount h _) fun _ _ => Fine.ok _
theorem Fine.limRoot (b : BaseFeeConfig) {i : Nat} (hi : i ≠ 0) (e : Nat) : Fine (limiterRoot b i e) := by
  unfold limiterRoot
  dsimp only
  refine Fine.bind ?_ fun _ _ => Fine.bind (Fine.req' (by omega)) fun _ _ => Fine.ok _
  split
  · exact Fine.ok _
  · exact Fine.err rfl
theorem Fine.limFromExcluded {b : BaseFeeConfig} (h : b.third ≠ 0) (h1 : b.first ≠ 0) (e : Nat) :
    Fine (limiterFromExcluded b e) := by
  unfold limiterFromExcluded
  refine Fine.bind (Fine.limExcludedAmount h _) fun _ _ => Fine.ite (fun _ => Fine.ok _) fun _ =>
    Fine.bind (Fine.limChecked h) fun _ _ => ?_
  split
  refine Fine.ite (fun _ => Fine.limIncluded h _) fun _ => Fine.bind ?_ fun _ _ => Fine.bind (Fine.sub _ _) fun _ _ =>
    Fine.bind (Fine.mulDivU64 _ _ _ _) fun _ _ => ?_
  · refine Fine.ite (fun _ => ?_) fun _ => Fine.ite (fun _ => Fine.err rfl) fun _ => ?_
    · refine Fine.bind (Fine.toNumerator _) fun i hi => Fine.bind (Fine.limRoot _ ?_ _) fun _ _ =>
        Fine.bind (Fine.div _ _) fun _ _ => Fine.bind (Fine.cast _ _) fun _ _ =>
        Fine.bind (Fine.limExcludedAmount h _) fun _ _ => Fine.bind (Fine.sub _ _) fun _ _ =>
        Fine.bind (Fine.cast _ _) fun _ _ => Fine.bind (Fine.includedFee _ _) fun _ _ => ?_
      · rw [toNumerator_ok] at hi; omega
      · fine
    · refine Fine.bind (Fine.sub _ _) fun _ _ => Fine.bind (Fine.includedFee _ _) fun _ _ => ?_
      fine
  · fine

/-- The limiter parameters are all present when the limiter can apply. -/
def BaseOK (b : BaseFeeConfig) : Prop := b.mode = 2 → limiterZero b ∨ (b.third ≠ 0 ∧ b.first ≠ 0)

theorem limiterApplied_nonzero {b : BaseFeeConfig} {cur act : Nat} {dir : TradeDirection}
    (h : limiterApplied b cur act dir = true) : ¬ limiterZero b := by
  intro hz
  unfold limiterApplied at h
  rw [if_pos hz] at h
  cases h

theorem Fine.baseIncluded {b : BaseFeeConfig} (hb : BaseOK b) (c a : Nat) (d : TradeDirection) (n : Nat) :
    Fine (baseFeeFromIncluded b c a d n) := by
  unfold baseFeeFromIncluded
  split
  · exact Fine.schedulerNumerator _ _ _
  · exact Fine.schedulerNumerator _ _ _
  · rename_i hm
    refine Fine.ite (fun h => ?_) fun _ => Fine.ok _
    rcases hb hm with hz | ⟨h1, _⟩
    · exact absurd hz (limiterApplied_nonzero h)
    · exact Fine.limIncluded h1 _
  · exact Fine.err rfl
theorem Fine.baseExcluded {b : BaseFeeConfig} (hb : BaseOK b) (c a : Nat) (d : TradeDirection) (n : Nat) :
    Fine (baseFeeFromExcluded b c a d n) := by
  unfold baseFeeFromExcluded
  split
  · exact Fine.schedulerNumerator _ _ _
  · exact Fine.schedulerNumerator _ _ _
  · rename_i hm
    refine Fine.ite (fun h => ?_) fun _ => Fine.ok _
    rcases hb hm with hz | ⟨h1, h2⟩
    · exact absurd hz (limiterApplied_nonzero h)
    · exact Fine.limFromExcluded h1 h2 _
  · exact Fine.err rfl
theorem Fine.minBase (b : BaseFeeConfig) : Fine (minBaseFee b) := by
  unfold minBaseFee
  split
  · exact Fine.schedulerByPeriod _ _
  · exact Fine.schedulerByPeriod _ _
  · exact Fine.ok _
  · exact Fine.err rfl
theorem Fine.totalFee (d : DynamicFeeConfig) (v : VolTracker) (b : Nat) : Fine (totalFee d v b) := by
  unfold Dbc.totalFee variableFee
  refine Fine.bind (Fine.ite (fun _ => Fine.ok _) fun _ => ?_) fun _ _ => Fine.bind (Fine.add _ _ _) fun _ _ => Fine.ok _
  exact Fine.bind (Fine.mul _ _ _) fun _ _ => Fine.bind (Fine.mul _ _ _) fun _ _ => Fine.bind (Fine.mul _ _ _) fun _ _ =>
    Fine.bind (Fine.add _ _ _) fun _ _ => Fine.div _ _

theorem Fine.numIncluded {c : PoolConfig} (hb : BaseOK c.fees.base) (p : Pool) (cur a : Nat) (d : TradeDirection) (f : Bool) :
    Fine (numeratorIncluded c p cur a d f) := by
  unfold numeratorIncluded totalFeeFromIncluded
  exact Fine.ite (fun _ => Fine.minBase _) fun _ => Fine.bind (Fine.baseIncluded hb _ _ _ _) fun _ _ => Fine.totalFee _ _ _
theorem Fine.numExcluded {c : PoolConfig} (hb : BaseOK c.fees.base) (p : Pool) (cur a : Nat) (d : TradeDirection) (f : Bool) :
    Fine (numeratorExcluded c p cur a d f) := by
  unfold numeratorExcluded totalFeeFromExcluded
  exact Fine.ite (fun _ => Fine.minBase _) fun _ => Fine.bind (Fine.baseExcluded hb _ _ _ _) fun _ _ => Fine.totalFee _ _ _

/-! ### The curve -/

theorem Fine.deltaBase256 {lo hi L : Nat} {r : Rounding} (h0 : 0 < lo) (h : lo ≤ hi) : Fine (deltaBase256 lo hi L r) := by
  unfold Dbc.deltaBase256
  refine Fine.bind (Fine.subPanic h) fun _ _ => Fine.bind (Fine.mul _ _ _) fun d hd => Fine.bind (Fine.req' ?_) fun _ _ =>
    Fine.mulDivU256 _ _ _ _ rfl
  rw [safeMul_ok] at hd
  rw [hd.2]
  exact Nat.mul_pos h0 (by omega)
theorem Fine.deltaBase {lo hi L : Nat} {r : Rounding} (h0 : 0 < lo) (h : lo ≤ hi) : Fine (deltaBase lo hi L r) := by
  have := Fine.deltaBase256 (L := L) (r := r) h0 h
  unfold Dbc.deltaBase; fine
theorem Fine.deltaQuote256 {lo hi L : Nat} {r : Rounding} (h : lo ≤ hi) : Fine (deltaQuote256 lo hi L r) := by
  have := Fine.subPanic h
  unfold Dbc.deltaQuote256; fine
theorem Fine.deltaQuote {lo hi L : Nat} {r : Rounding} (h : lo ≤ hi) : Fine (deltaQuote lo hi L r) := by
  have := Fine.deltaQuote256 (L := L) (r := r) h
  unfold Dbc.deltaQuote; fine
theorem Fine.nextOut {p L a : Nat} {b : Bool} (hp : 0 < p) (hL : 0 < L) : Fine (nextPriceFromOutput p L a b) := by
  unfold nextPriceFromOutput nextPriceQuoteOut nextPriceBaseOut
  refine Fine.bind (Fine.req' hp) fun _ _ => Fine.bind (Fine.req' hL) fun _ _ => Fine.ite (fun _ => ?_) fun _ => ?_
  · fine
  · refine Fine.ite (fun _ => Fine.ok _) fun _ => Fine.bind (Fine.mul _ _ _) fun _ _ => Fine.bind (Fine.sub _ _) fun _ _ =>
      Fine.bind (Fine.mulDivU256 _ _ _ _ rfl) fun _ _ => Fine.cast _ _

theorem Fine.buyOutLoop {ps : List Point} {lo cur left inp : Nat} (hp : Proper lo ps) (hlo : lo ≤ cur) :
    Fine (buyOutLoop ps cur left inp) := by
  induction ps generalizing lo cur left inp with
  | nil => exact Fine.ok _
  | cons p ps ih =>
    simp only [Proper] at hp
    have hpp : Proper p.price ps := hp.2.2.2
    rw [Dbc.buyOutLoop, if_neg (by omega)]
    refine Fine.ite (fun hc => ?_) fun hc => ih hpp (by omega)
    refine Fine.bind (Fine.deltaBase256 (by omega) hc.le) fun mo hmo => Fine.ite (fun hl => ?_) fun _ => ?_
    · refine Fine.bind (Fine.nextOut (by omega) hp.2.2.1) fun n hn => Fine.bind (Fine.deltaQuote ?_) fun _ _ => ?_
      · rw [deltaBase256_ok] at hmo
        have h1 := nextOut_base_ok hn
        have h2 : mo = p.liq * (p.price - cur) / (cur * p.price) := hmo.2.2.2.2
        exact (buyOut_step (by omega) hc.le (by omega) h1.2.2.1 h1.2.2.2).1
      · fine
    · refine Fine.bind (Fine.deltaQuote hc.le) fun _ _ => Fine.bind (Fine.add _ _ _) fun _ _ =>
        Fine.bind (Fine.cast _ _) fun _ _ => Fine.bind (Fine.sub _ _) fun _ _ => ih hpp le_rfl

theorem Fine.sellOutLoop {ps : List Point} {p : Point} {lo : Nat} {s : Walk} (hp : Proper lo (p :: ps))
    (hd : s.done = false) (htop : s.cur ≤ topPrice lo (p :: ps)) (hleft : s.left ≤ u64Max) :
    Fine (sellOutLoop (p :: ps) s) := by
  induction ps generalizing lo p with
  | nil => exact Fine.ok _
  | cons q rest ih =>
    simp only [Proper] at hp
    have hpq : Proper p.price (q :: rest) := hp.2.2.2
    have htop' : s.cur ≤ topPrice p.price (q :: rest) := by simpa only [topPrice] using htop
    rw [Dbc.sellOutLoop]
    refine Fine.bind (ih hpq htop') fun s1 h1 => ?_
    obtain ⟨i, o, tr, e1, e2, e3, e4⟩ := sellOutLoop_trace hpq (fun _ h => h) hd htop' h1
    unfold sellOutStep
    refine Fine.ite (fun _ => Fine.ok _) fun _ => Fine.ite (fun _ => Fine.ok _) fun _ => Fine.ite (fun hc => ?_) fun _ => Fine.ok _
    have hq0 : 0 < q.liq := hp.2.2.2.2.2.1
    refine Fine.bind (Fine.deltaQuote256 hc.le) fun mo hmo => ?_
    rw [deltaQuote256_ok] at hmo
    have h2 : mo = q.liq * (s1.cur - p.price) / 2 ^ 128 := hmo.2.2
    refine Fine.ite (fun hl => ?_) fun hl => ?_
    · refine Fine.bind (Fine.nextOut (by omega) hq0) fun n hn => ?_
      have h3 := nextOut_quote_ok hn
      have h4 := sellOut_step_lo hq0 hc.le (by rw [← h2]; exact hl.le) h3.2.2.2
      have h5 : n ≤ s1.cur := by rw [h3.2.2.2]; exact Nat.sub_le _ _
      refine Fine.bind (Fine.deltaBase (by omega) h5) fun _ _ => ?_
      fine
    · refine Fine.bind (Fine.deltaBase (by omega) hc.le) fun _ _ => Fine.bind (Fine.add _ _ _) fun _ _ =>
        Fine.bind (Fine.req' (by omega)) fun _ _ => ?_
      fine

theorem Fine.walkOut {c : PoolConfig} {ps : List Point} (hg : Good c ps) {p : Pool} {d : TradeDirection} {a : Nat}
    (h1 : c.sqrtStartPrice ≤ p.sqrtPrice) (h2 : p.sqrtPrice ≤ c.migrationSqrtPrice) (ha : a ≤ u64Max) :
    Fine (walkOut c p d a) := by
  obtain ⟨n, hn⟩ := hg.curve.stored
  have hm := hg.curve.migHi
  have hpr := hg.curve.proper
  have hne := hg.curve.nonempty
  unfold Dbc.walkOut
  cases d with
  | quoteToBase =>
    show Fine (buyOut _ _ _)
    unfold buyOut
    rw [hn, buyOutLoop_pad]
    refine Fine.bind (Fine.buyOutLoop hpr h1) fun _ _ => ?_
    fine
  | baseToQuote =>
    show Fine (sellOut _ _ _)
    cases ps with
    | nil => exact absurd rfl hne
    | cons q ps =>
      unfold sellOut
      rw [hn, sellOutLoop_pad n c.sqrtStartPrice q ps _ (by somega)]
      have hliq : c.liq0 = q.liq := by unfold PoolConfig.liq0; rw [hn]; rfl
      rw [hliq]
      refine Fine.bind (Fine.sellOutLoop hpr rfl (by somega) ha) fun s hs => ?_
      obtain ⟨i, o, tr, e1, e2, e3, e4⟩ := sellOutLoop_trace hpr (fun _ h => h) rfl (by somega) hs
      have hge := tr.ge hpr h1
      simp only [Proper] at hpr
      have hq0 := hpr.2.2.1
      unfold sellOutFinish
      refine Fine.ite (fun _ => ?_) fun _ => Fine.ok _
      refine Fine.bind (Fine.deltaQuote256 hge) fun mo hmo => Fine.bind (Fine.req rfl) fun _ _ =>
        Fine.bind (Fine.nextOut (by omega) hq0) fun n hn => Fine.bind (Fine.req rfl) fun _ hlo => ?_
      rw [req_ok] at hlo
      have h3 := nextOut_quote_ok hn
      have h5 : n ≤ s.cur := by rw [h3.2.2.2]; exact Nat.sub_le _ _
      refine Fine.bind (Fine.deltaBase (by omega) h5) fun _ _ => ?_
      fine

theorem walkIn_total {c : PoolConfig} {ps : List Point} (hg : Good c ps) {p : Pool} (d : TradeDirection) {a : Nat}
    (h1 : c.sqrtStartPrice ≤ p.sqrtPrice) (h2 : p.sqrtPrice ≤ c.migrationSqrtPrice) (ha : a ≤ u64Max) :
    ∃ r, walkIn c p d a = .ok r := by
  cases d with
  | quoteToBase =>
    refine buyIn_total hg.curve hg.liqMax hg.topMax ?_ h1 ha
    have := hg.swap
    have h3 : baseToDown (segs c.sqrtStartPrice ps) c.migrationSqrtPrice ≤ total baseSegUp (segs c.sqrtStartPrice ps) c.migrationSqrtPrice :=
      total_le_total baseSegDown_le_up _ _
    have := hg.swapMax
    omega
  | baseToQuote =>
    refine sellIn_total hg.curve hg.liqMax hg.topMax h1 h2 ?_ ha
    have := hg.cost
    have h3 := quoteToUp_mono hg.curve.proper h2
    have := hg.thresholdMax
    omega

end Dbc
