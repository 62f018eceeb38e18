import Verif.Props.Better
import Verif.Props.Trip
import Verif.Props.Keep

/-!
# No roundabout way is cheaper than the direct trade: C93
-/

namespace Props
open Dbc Spec

/-- C93, buying: whatever trades and other operations a history consists of, if in the end at least as much base has left the
reserve as one buy would take (and `n` units more, `n` being the number of curve points), at least as much quote has come in as
that buy would have to bring, up to `n + 1` units. -/
theorem C93_direct_buy {w v w' : World} {ops : List Op} {a : SwapArgs} (h : Reachable w) (ha : a.dir = .quoteToBase)
    (hs : w.step (.swap a) = .ok v) (hr : Run w ops w')
    (hb : (reserve w .base : ℚ) - reserve v .base + (stored w.cfg.curve).length ≤ (reserve w .base : ℚ) - reserve w' .base) :
    (reserve v .quote : ℚ) - reserve w .quote ≤
      (reserve w' .quote : ℚ) - reserve w .quote + ((stored w.cfg.curve).length + 1) := by
  obtain ⟨y, y1, y2, y3, y4⟩ := buy_end h hs ha
  have bk := backed_run h hr
  have q := bk.quote
  have b := bk.base
  obtain ⟨lo', hi'⟩ := C07_price_range (h.run hr)
  rw [bk.cfg] at lo' hi'
  obtain ⟨ps, hc⟩ := h.core
  have hp := hc.good.curve.proper
  have htop := hc.good.curve.migHi
  rw [curve_eq hc.good.curve] at y3 y4 q b
  have hy : y ≤ w'.pool.sqrtPrice := by
    by_contra hcon
    have := baseTo_strict hp lo' (Nat.lt_of_not_le hcon) (y2.trans htop)
    linarith
  have m := (chainUp_mono (chainUp_of (onPiece_curve hp)) hp (hc.lo.trans y1) hy (hi'.trans htop)).2
  linarith

/-- C93, selling: whatever a history consists of, if in the end no more base has come into the reserve than one sale would bring
(less `n` units), no more quote has left it than that sale would take, up to `n + 2` units. -/
theorem C93_direct_sale {w v w' : World} {ops : List Op} {a : SwapArgs} (h : Reachable w) (ha : a.dir = .baseToQuote)
    (hs : w.step (.swap a) = .ok v) (hr : Run w ops w')
    (hb : (reserve w' .base : ℚ) - reserve w .base + (stored w.cfg.curve).length ≤ (reserve v .base : ℚ) - reserve w .base) :
    (reserve w .quote : ℚ) - reserve w' .quote ≤
      (reserve w .quote : ℚ) - reserve v .quote + ((stored w.cfg.curve).length + 2) := by
  have f := sell_end h hs ha
  have k := C67_swap h hs
  have hle := (C07_price_direction h hs).2.1 a rfl ha
  have lov := (h.step hs).core.choose_spec.lo
  rw [step_cfg hs] at lov
  have bk := backed_run h hr
  have q := bk.quote
  have b := bk.base
  obtain ⟨lo', hi'⟩ := C07_price_range (h.run hr)
  rw [bk.cfg] at lo' hi'
  obtain ⟨ps, hc⟩ := h.core
  have hp := hc.good.curve.proper
  have htop := hc.good.curve.migHi
  have hhi := hc.hi
  rw [curve_eq hc.good.curve] at f k q b
  have hup := chainUp_of (onPiece_curve hp)
  by_cases hP : w'.pool.sqrtPrice ≤ w.pool.sqrtPrice
  · have key := sell_better hup hp lov lo' hle hP le_rfl (hhi.trans htop) (le_refl (0 : ℚ)) (by norm_num : (0 : ℚ) ≤ 2) f
      (by linarith)
    rw [zero_mul] at key
    have := nonpos_of_mul_nonpos_left key (by positivity)
    linarith
  · have m1 := (chainUp_mono hup hp hc.lo (Nat.le_of_not_le hP) (hi'.trans htop)).2
    have m2 := (chainUp_mono hup hp lov hle (hhi.trans htop)).2
    linarith

theorem sumPaid_mid (xs ys : List (TradeDirection × Trade)) (z : TradeDirection × Trade) (t : Token) :
    sumPaid (xs ++ z :: ys) t = sumPaid (xs ++ ys) t + inTok (inToken z.1) t z.2.paid := by
  simp only [sumPaid, List.map_append, List.map_cons, List.sum_append, List.sum_cons]
  omega

theorem sumGot_mid (xs ys : List (TradeDirection × Trade)) (z : TradeDirection × Trade) (t : Token) :
    sumGot (xs ++ z :: ys) t = sumGot (xs ++ ys) t + inTok (outToken z.1) t z.2.got := by
  simp only [sumGot, List.map_append, List.map_cons, List.sum_append, List.sum_cons]
  omega

theorem sumFees_mid (xs ys : List (TradeDirection × Trade)) (z : TradeDirection × Trade) (t : Token) :
    sumFees (xs ++ z :: ys) t = sumFees (xs ++ ys) t + inTok z.2.feeToken t z.2.fee := by
  simp only [sumFees, List.map_append, List.map_cons, List.sum_append, List.sum_cons]
  omega

/-- C93, around a buyer: others trade before and after somebody's buy, and in the end have paid in no more base than they took
out. What they gain in quote, and all the fees they and the buyer paid in quote, is at most what the buyer paid above the cost
of buying directly, up to `n + 1` units: `d` is any buy from the state before everything that would have taken from the
reserve at least `n` units of base less than the buyer did. -/
theorem C93_around_buyer {w v w' : World} {ops : List Op} {xs ys : List (TradeDirection × Trade)} {z d : Trade}
    {a : SwapArgs} (h : Reachable w) (ht : Trades w ops w' (xs ++ (.quoteToBase, z) :: ys))
    (hothers : sumPaid (xs ++ ys) .base ≤ sumGot (xs ++ ys) .base + sumFees (xs ++ ys) .base)
    (ha : a.dir = .quoteToBase) (hs : w.step (.swap a) = .ok v) (od : Observed w v a.dir d)
    (hd : d.got + inTok d.feeToken .base d.fee + (stored w.cfg.curve).length ≤ z.got + inTok z.feeToken .base z.fee) :
    sumGot (xs ++ ys) .quote + sumFees (xs ++ ys) .quote + inTok z.feeToken .quote z.fee + d.paid ≤
      sumPaid (xs ++ ys) .quote + z.paid + inTok d.feeToken .quote d.fee + ((stored w.cfg.curve).length + 1) := by
  have eb := trades_reserve ht .base
  have eq := trades_reserve ht .quote
  rw [sumPaid_mid, sumGot_mid, sumFees_mid] at eb eq
  have ob := observed_reserve hs od .base
  have oq := observed_reserve hs od .quote
  rw [ha] at ob oq
  have t1 : ∀ n, inTok (inToken .quoteToBase) .base n = 0 := fun n => rfl
  have t3 : ∀ n, inTok (outToken .quoteToBase) .base n = n := fun n => rfl
  have t5 : ∀ n, inTok (inToken .quoteToBase) .quote n = n := fun n => rfl
  have t7 : ∀ n, inTok (outToken .quoteToBase) .quote n = 0 := fun n => rfl
  simp only [t1, t3, t5, t7] at eb eq ob oq
  have key := C93_direct_buy h ha hs ht.run (by
    have : reserve w' .base + (stored w.cfg.curve).length ≤ reserve v .base := by omega
    have : (reserve w' .base : ℚ) + (stored w.cfg.curve).length ≤ reserve v .base := by exact_mod_cast this
    linarith)
  have : (reserve v .quote : ℚ) ≤ reserve w' .quote + ((stored w.cfg.curve).length + 1) := by linarith
  have : reserve v .quote ≤ reserve w' .quote + ((stored w.cfg.curve).length + 1) := by exact_mod_cast this
  omega

/-- C93, around a seller: the same for a sale. What the others gain in quote, what the seller received and all fees in quote
are together at most what one direct sale of `n` units more would have brought, its fee included, up to `n + 2` units. -/
theorem C93_around_seller {w v w' : World} {ops : List Op} {xs ys : List (TradeDirection × Trade)} {z d : Trade}
    {a : SwapArgs} (h : Reachable w) (ht : Trades w ops w' (xs ++ (.baseToQuote, z) :: ys))
    (hothers : sumPaid (xs ++ ys) .base ≤ sumGot (xs ++ ys) .base + sumFees (xs ++ ys) .base)
    (ha : a.dir = .baseToQuote) (hs : w.step (.swap a) = .ok v) (od : Observed w v a.dir d)
    (hd : z.paid + inTok d.feeToken .base d.fee + (stored w.cfg.curve).length ≤ d.paid) :
    sumGot (xs ++ ys) .quote + sumFees (xs ++ ys) .quote + z.got + inTok z.feeToken .quote z.fee ≤
      sumPaid (xs ++ ys) .quote + d.got + inTok d.feeToken .quote d.fee + ((stored w.cfg.curve).length + 2) := by
  have eb := trades_reserve ht .base
  have eq := trades_reserve ht .quote
  rw [sumPaid_mid, sumGot_mid, sumFees_mid] at eb eq
  have ob := observed_reserve hs od .base
  have oq := observed_reserve hs od .quote
  rw [ha] at ob oq
  have t2 : ∀ n, inTok (inToken .baseToQuote) .base n = n := fun n => rfl
  have t4 : ∀ n, inTok (outToken .baseToQuote) .base n = 0 := fun n => rfl
  have t6 : ∀ n, inTok (inToken .baseToQuote) .quote n = 0 := fun n => rfl
  have t8 : ∀ n, inTok (outToken .baseToQuote) .quote n = n := fun n => rfl
  simp only [t2, t4, t6, t8] at eb eq ob oq
  have key := C93_direct_sale h ha hs ht.run (by
    have : reserve w' .base + (stored w.cfg.curve).length ≤ reserve v .base := by omega
    have : (reserve w' .base : ℚ) + (stored w.cfg.curve).length ≤ reserve v .base := by exact_mod_cast this
    linarith)
  have : (reserve v .quote : ℚ) ≤ reserve w' .quote + ((stored w.cfg.curve).length + 2) := by linarith
  have : reserve v .quote ≤ reserve w' .quote + ((stored w.cfg.curve).length + 2) := by exact_mod_cast this
  omega

/-! ### Concrete cases -/

/-- A pool that has been trading, and then these swaps. -/
def sandwiched (l : List SwapArgs) : World := Ex.there _root_.Ex.paramsC (l.map Op.swap)

def frontBuy : SwapArgs := Ex.oneWay .quoteToBase 2000000000000 false 1001310
def midBuy : SwapArgs := Ex.oneWay .quoteToBase 3000000000000 false 1001310
def backSale : SwapArgs := Ex.oneWay .baseToQuote 284760456418111 false 1001310
def directBuy : SwapArgs := { Ex.oneWay .quoteToBase 278814140675982 false 1001310 with mode := 2, amount1 := u64Max }

def frontSale : SwapArgs := Ex.oneWay .baseToQuote 100000000000000 false 1001310
def backBuy : SwapArgs := { Ex.oneWay .quoteToBase 100000000000000 false 1001310 with mode := 2, amount1 := u64Max }
def directSale : SwapArgs := Ex.oneWay .baseToQuote 100000000000002 false 1001310

/-- A buyer of 3000 quote tokens is sandwiched by a buyer of 2000, who sells everything afterwards and gains 921 tokens; the
direct buy would have cost 1949. A seller is sandwiched by another who buys everything back and gains 32 tokens; the
direct sale would have brought 520 instead of 464. -/
theorem C93_example :
    (Reachable (sandwiched []) ∧ (stored (sandwiched []).cfg.curve).length = 2) ∧
    Trades (sandwiched []) [.swap frontBuy, .swap midBuy, .swap backSale] (sandwiched [frontBuy, midBuy, backSale])
      ([(.quoteToBase, ⟨2000000000000, 284760456418111, .base, 2774174128421, 2774174128420, 1387087064210, 0⟩)] ++
        (.quoteToBase, ⟨3000000000000, 278814140675984, .base, 2716244331922, 2716244331922, 1358122165960, 0⟩) ::
        [(.baseToQuote, ⟨284760456418111, 2921813220922, .quote, 28464691860, 28464691859, 14232345929, 0⟩)]) ∧
    (sandwiched []).step (.swap directBuy) = .ok (sandwiched [directBuy]) ∧
    Observed (sandwiched []) (sandwiched [directBuy]) .quoteToBase
      ⟨1949573293952, 278814140675982, .base, 2716244331922, 2716244331922, 1358122165960, 0⟩ ∧
    Trades (sandwiched []) [.swap frontSale, .swap frontSale, .swap backBuy] (sandwiched [frontSale, frontSale, backBuy])
      ([(.baseToQuote, ⟨100000000000000, 520586962401, .quote, 5071627223, 5071627223, 2535813611, 0⟩)] ++
        (.baseToQuote, ⟨100000000000000, 464684139136, .quote, 4527014506, 4527014505, 2263507252, 0⟩) ::
        [(.quoteToBase, ⟨488269586645, 100000000000000, .base, 974213260969, 974213260969, 487106630484, 0⟩)]) ∧
    (sandwiched []).step (.swap directSale) = .ok (sandwiched [directSale]) ∧
    Observed (sandwiched []) (sandwiched [directSale]) .baseToQuote
      ⟨100000000000002, 520586962401, .quote, 5071627223, 5071627223, 2535813611, 0⟩ := by
  refine ⟨⟨?_, by decide +kernel⟩, ?_, by decide +kernel, ?_, ?_, by decide +kernel, ?_⟩
  · exact _root_.Ex.reachTradingC
  · refine .swap (w1 := sandwiched [frontBuy]) (by decide +kernel) ?_
      (.swap (w1 := sandwiched [frontBuy, midBuy]) (by decide +kernel) ?_
        (.swap (w1 := sandwiched [frontBuy, midBuy, backSale]) (by decide +kernel) ?_ (.nil _))) <;>
    · constructor <;> intro t <;> cases t <;> decide +kernel
  · constructor <;> intro t <;> cases t <;> decide +kernel
  · refine .swap (w1 := sandwiched [frontSale]) (by decide +kernel) ?_
      (.swap (w1 := sandwiched [frontSale, frontSale]) (by decide +kernel) ?_
        (.swap (w1 := sandwiched [frontSale, frontSale, backBuy]) (by decide +kernel) ?_ (.nil _))) <;>
    · constructor <;> intro t <;> cases t <;> decide +kernel
  · constructor <;> intro t <;> cases t <;> decide +kernel

end Props
