import Verif.Props.Extract
import Verif.Props.Fade
import Verif.Props.Examples

/-!
# Trading back and forth costs at least the fees: C80
-/

namespace Props
open Dbc Spec

/-- A history with the trades made in it, in order, as an observer sees them. -/
inductive Trades : World → List Op → World → List (TradeDirection × Trade) → Prop
  | nil (w : World) : Trades w [] w []
  | swap {w w1 w2 : World} {a : SwapArgs} {ops : List Op} {x : Trade} {xs : List (TradeDirection × Trade)} :
      w.step (.swap a) = .ok w1 → Observed w w1 a.dir x → Trades w1 ops w2 xs → Trades w (.swap a :: ops) w2 ((a.dir, x) :: xs)
  | other {w w1 w2 : World} {op : Op} {ops : List Op} {xs : List (TradeDirection × Trade)} :
      (∀ a, op ≠ .swap a) → w.step op = .ok w1 → Trades w1 ops w2 xs → Trades w (op :: ops) w2 xs

/-- All that the traders paid in a token. -/
def sumPaid (xs : List (TradeDirection × Trade)) (t : Token) : Nat := (xs.map fun x => inTok (inToken x.1) t x.2.paid).sum

/-- All that the traders received of a token. -/
def sumGot (xs : List (TradeDirection × Trade)) (t : Token) : Nat := (xs.map fun x => inTok (outToken x.1) t x.2.got).sum

/-- All fees taken in a token, referral parts included. -/
def sumFees (xs : List (TradeDirection × Trade)) (t : Token) : Nat := (xs.map fun x => inTok x.2.feeToken t x.2.fee).sum

/-- All amounts on which a fee was taken in a token. -/
def sumBearing (xs : List (TradeDirection × Trade)) (t : Token) : Nat :=
  (xs.map fun x => inTok x.2.feeToken t (x.2.bearing x.1)).sum

theorem inTok_add (t t' : Token) (x y : Nat) : inTok t t' (x + y) = inTok t t' x + inTok t t' y := by
  unfold inTok
  split <;> rfl

/-- What the reserves do in a swap, whoever describes it. -/
theorem observed_reserve {w w' : World} {a : SwapArgs} {x : Trade} (hs : w.step (.swap a) = .ok w')
    (ho : Observed w w' a.dir x) (t : Token) :
    reserve w' t + inTok (outToken a.dir) t x.got + inTok x.feeToken t x.fee =
      reserve w t + inTok (inToken a.dir) t x.paid := by
  obtain ⟨cur, fm, r, v1, v2, s⟩ := swap_ok hs
  have o := SwapStep.observed s
  have e := SwapStep.reserves s t
  have p1 := ho.paid t
  have p2 := o.paid t
  have g1 := ho.got t
  have g2 := o.got t
  have f1 := ho.partner t
  have f2 := o.partner t
  have c1 := ho.creator t
  have c2 := o.creator t
  have q1 := ho.protocol t
  have q2 := o.protocol t
  have r1 := ho.referral t
  have r2 := o.referral t
  have ef : inTok (feeTok fm) t r.fee.sum = inTok (tradeOf w.cfg fm r).feeToken t (tradeOf w.cfg fm r).fee := by
    rw [tradeOf_fee s]; rfl
  have ei : inTok (inToken a.dir) t r.includedIn = inTok (inToken a.dir) t (tradeOf w.cfg fm r).paid := rfl
  have eo : inTok (outToken a.dir) t r.out = inTok (outToken a.dir) t (tradeOf w.cfg fm r).got := rfl
  rw [ef, ei, eo] at e
  unfold Trade.fee at e ⊢
  rw [inTok_add, inTok_add, inTok_add] at e ⊢
  omega

theorem trades_reserve {w w' : World} {ops : List Op} {xs : List (TradeDirection × Trade)} (h : Trades w ops w' xs)
    (t : Token) : reserve w' t + sumGot xs t + sumFees xs t = reserve w t + sumPaid xs t := by
  induction h with
  | nil w => simp [sumGot, sumFees, sumPaid]
  | swap hs ho _ ih =>
    have := observed_reserve hs ho t
    simp only [sumGot, sumFees, sumPaid, List.map_cons, List.sum_cons] at ih ⊢
    omega
  | other hno hs _ ih =>
    rcases step_cases hs with ⟨a, e, _⟩ | ⟨_, _, _, e2, e3, _⟩
    · exact absurd e (hno a)
    · cases t <;> simp only [reserve] at ih ⊢ <;> omega

theorem Trades.run {w w' : World} {ops : List Op} {xs : List (TradeDirection × Trade)} (h : Trades w ops w' xs) :
    Run w ops w' := by
  induction h with
  | nil w => exact .nil w
  | swap hs _ _ ih => exact .cons hs ih
  | other _ hs _ ih => exact .cons hs ih

/-- The two reserves cannot both shrink. -/
theorem reserves_trade_off {w w' : World} {ops : List Op} (h : Reachable w) (hr : Run w ops w') :
    (reserve w' .base ≤ reserve w .base → reserve w .quote ≤ reserve w' .quote) ∧
    (reserve w' .quote ≤ reserve w .quote → reserve w .base ≤ reserve w' .base) := by
  have hb := backed_run h hr
  obtain ⟨ps, hc⟩ := h.core
  have hc' := h.run hr
  obtain ⟨lo', hi'⟩ := C07_price_range hc'
  rw [hb.cfg] at lo' hi'
  have q := hb.quote
  have b := hb.base
  rw [curve_eq hc.good.curve] at q b
  have hp := hc.good.curve.proper
  have hlo := hc.lo
  have hhi := hc.hi
  have htop := hc.good.curve.migHi
  rcases lt_trichotomy w.pool.sqrtPrice w'.pool.sqrtPrice with hlt | heq | hgt
  · have s1 := quoteTo_strict hp hlo hlt (hi'.trans htop)
    have : (reserve w .quote : ℚ) < reserve w' .quote := by linarith
    have : reserve w .quote < reserve w' .quote := by exact_mod_cast this
    constructor <;> intro <;> omega
  · rw [heq] at q b
    have r1 : (reserve w .quote : ℚ) ≤ reserve w' .quote := by linarith
    have r2 : (reserve w .base : ℚ) ≤ reserve w' .base := by linarith
    exact ⟨fun _ => by exact_mod_cast r1, fun _ => by exact_mod_cast r2⟩
  · have s1 := baseTo_strict hp lo' hgt (hhi.trans htop)
    have : (reserve w .base : ℚ) < reserve w' .base := by linarith
    have : reserve w .base < reserve w' .base := by exact_mod_cast this
    constructor <;> intro <;> omega

/-- C80, any history: if the traders together paid no more base than they received and left as fees, they paid at least as much
quote as they received and left as fees; and the same with the tokens exchanged. -/
theorem C80_fees_lost {w w' : World} {ops : List Op} {xs : List (TradeDirection × Trade)} (h : Reachable w)
    (ht : Trades w ops w' xs) :
    (sumPaid xs .base ≤ sumGot xs .base + sumFees xs .base → sumGot xs .quote + sumFees xs .quote ≤ sumPaid xs .quote) ∧
    (sumPaid xs .quote ≤ sumGot xs .quote + sumFees xs .quote → sumGot xs .base + sumFees xs .base ≤ sumPaid xs .base) := by
  have hr := reserves_trade_off h ht.run
  have eb := trades_reserve ht .base
  have eq := trades_reserve ht .quote
  constructor <;> intro
  · have := hr.1 (by omega); omega
  · have := hr.2 (by omega); omega

/-- Amounts fit the instruction format. -/
def Sized (ops : List Op) : Prop := ∀ a, Op.swap a ∈ ops → a.amount0 ≤ u64Max

/-- C80, every history is such a list of trades: each fee is at least 0.25% of the amount it is taken on, every sale pays it in
quote, and in pools that collect quote only every buy does too. -/
theorem C80_every_trade {w w' : World} {ops : List Op} (h : Reachable w) (hu : Sized ops) (hr : Run w ops w') :
    ∃ xs, Trades w ops w' xs ∧ ∀ x ∈ xs, Spec.minRate * x.2.bearing x.1 ≤ x.2.fee * Spec.unit ∧
      (x.1 = .baseToQuote ∨ w.cfg.collectFeeMode = 0 → x.2.feeToken = .quote) := by
  induction hr with
  | nil w => exact ⟨[], .nil w, fun x hx => nomatch hx⟩
  | @cons w w1 w2 op ops hs hr ih =>
    obtain ⟨xs, ht, hx⟩ := ih (h.step hs) fun a ha => hu a (List.mem_cons_of_mem _ ha)
    rw [step_cfg hs] at hx
    by_cases ho : ∃ a, op = .swap a
    · obtain ⟨a, rfl⟩ := ho
      obtain ⟨x, floor, rate, o, -, hf, -, -, l1, l2, -, l3, -⟩ := C03_base_rate h (hu a (List.mem_cons_self ..)) hs
      refine ⟨(a.dir, x) :: xs, .swap hs o ht, fun y hy => ?_⟩
      rcases List.mem_cons.1 hy with rfl | hy
      · refine ⟨(Nat.mul_le_mul_right _ (l1.trans l2)).trans l3, ?_⟩
        rintro (e | e)
        · rcases hf with ⟨-, hf⟩ | ⟨-, hf⟩
          · exact hf
          · dsimp only at e
            rw [e] at hf
            exact hf
        · rcases hf with ⟨-, hf⟩ | ⟨hf, -⟩
          · exact hf
          · rw [e] at hf; cases hf
      · exact hx y hy
    · exact ⟨xs, .other (fun a e => ho ⟨a, e⟩) hs ht, hx⟩

/-- C80, the price of volume: traders who in the end paid no more base than they received and left as fees are short of at least
all the quote fees, and so of 0.25% of all amounts on which quote fees were taken. -/
theorem C80_volume {w w' : World} {ops : List Op} (h : Reachable w) (hu : Sized ops) (hr : Run w ops w') :
    ∃ xs, Trades w ops w' xs ∧ (sumPaid xs .base ≤ sumGot xs .base + sumFees xs .base →
      sumGot xs .quote + sumFees xs .quote ≤ sumPaid xs .quote ∧
      sumGot xs .quote * Spec.unit + Spec.minRate * sumBearing xs .quote ≤ sumPaid xs .quote * Spec.unit) := by
  obtain ⟨xs, ht, hx⟩ := C80_every_trade h hu hr
  refine ⟨xs, ht, fun hb => ?_⟩
  have h1 := (C80_fees_lost h ht).1 hb
  refine ⟨h1, ?_⟩
  have h2 : Spec.minRate * sumBearing xs .quote ≤ sumFees xs .quote * Spec.unit := by
    clear ht hb h1
    induction xs with
    | nil => exact Nat.zero_le _
    | cons x xs ih =>
      have i := ih fun y hy => hx y (List.mem_cons_of_mem _ hy)
      have e := (hx x (List.mem_cons_self ..)).1
      simp only [sumBearing, sumFees, List.map_cons, List.sum_cons] at i ⊢
      rw [Nat.mul_add, Nat.add_mul]
      refine Nat.add_le_add ?_ i
      unfold inTok
      split
      · exact e
      · exact Nat.zero_le _
  have h3 := Nat.mul_le_mul_right Spec.unit h1
  rw [Nat.add_mul] at h3
  omega

/-- Two descriptions of one swap agree on what was paid, received and charged in each token. -/
theorem trade_same {w w' : World} {d : TradeDirection} {x y : Trade} (hx : Observed w w' d x) (hy : Observed w w' d y) :
    x.paid = y.paid ∧ x.got = y.got ∧ x.fee = y.fee ∧ ∀ t, inTok x.feeToken t x.fee = inTok y.feeToken t y.fee := by
  have hf : ∀ t, inTok x.feeToken t x.fee = inTok y.feeToken t y.fee := by
    intro t
    have f1 := hx.partner t
    have f2 := hy.partner t
    have c1 := hx.creator t
    have c2 := hy.creator t
    have q1 := hx.protocol t
    have q2 := hy.protocol t
    have r1 := hx.referral t
    have r2 := hy.referral t
    unfold Trade.fee
    simp only [inTok_add]
    omega
  have whole : ∀ z : Trade, z.fee = inTok z.feeToken .base z.fee + inTok z.feeToken .quote z.fee := by
    intro z
    unfold inTok
    cases z.feeToken <;> simp
  refine ⟨?_, ?_, by rw [whole x, whole y, hf, hf], hf⟩
  · have p1 := hx.paid (inToken d)
    have p2 := hy.paid (inToken d)
    unfold inTok at p1 p2
    rw [if_pos rfl] at p1 p2
    omega
  · have p1 := hx.got (outToken d)
    have p2 := hy.got (outToken d)
    unfold inTok at p1 p2
    rw [if_pos rfl] at p1 p2
    omega

/-- A swap, a pause without trades, and another swap. -/
theorem pause_reserve {w w1 w2 w3 : World} {ops : List Op} {a b : SwapArgs} {x y : Trade} (h : Reachable w)
    (h1 : w.step (.swap a) = .ok w1) (hr : Run w1 ops w2) (hno : ∀ c, Op.swap c ∉ ops) (h2 : w2.step (.swap b) = .ok w3)
    (ox : Observed w w1 a.dir x) (oy : Observed w2 w3 b.dir y) :
    w2.cfg = w.cfg ∧ Reachable w2 ∧ Trades w (.swap a :: ops ++ [.swap b]) w3 [(a.dir, x), (b.dir, y)] := by
  refine ⟨?_, (h.step h1).run hr, ?_⟩
  · have := (vol_quiet hr hno).2
    rw [this, step_cfg h1]
  · refine .swap h1 ox ?_
    have key : ∀ {v v' : World} {os : List Op}, Run v os v' → (∀ c, Op.swap c ∉ os) → v' = w2 →
        Trades v (os ++ [.swap b]) w3 [(b.dir, y)] := by
      intro v v' os hv
      induction hv with
      | nil v => rintro - rfl; exact .swap h2 oy (.nil _)
      | cons hs _ ih =>
        intro hn e
        exact .other (fun c ec => hn c (by rw [← ec]; exact List.mem_cons_self ..)) hs
          (ih (fun c hc => hn c (List.mem_cons_of_mem _ hc)) e)
    exact key hr hno rfl

/-- A sale pays at least 0.25% of what the curve gives out. -/
theorem sale_fee {w w' : World} {b : SwapArgs} {y : Trade} (h : Reachable w) (hb : b.amount0 ≤ u64Max)
    (db : b.dir = .baseToQuote) (hs : w.step (.swap b) = .ok w') (oy : Observed w w' b.dir y) :
    inTok y.feeToken .quote y.fee = y.fee ∧ y.got * Spec.unit ≤ (y.got + y.fee) * (Spec.unit - Spec.minRate) := by
  obtain ⟨z, floor, rate, o, -, hf, -, -, l1, l2, -, l3, -⟩ := C03_base_rate h hb hs
  obtain ⟨e1, e2, e3, e4⟩ := trade_same oy o
  have ft : z.feeToken = .quote := by
    rcases hf with ⟨-, hf⟩ | ⟨-, hf⟩
    · exact hf
    · rw [hf, db]; rfl
  refine ⟨?_, ?_⟩
  · rw [e4, ft, e3]
    unfold inTok
    rw [if_pos rfl]
  · have hbear : z.bearing b.dir = y.got + y.fee := by
      unfold Trade.bearing
      rw [if_neg (by rw [ft, db]; decide), e2, e3]
    have := (Nat.mul_le_mul_right _ (l1.trans l2)).trans l3
    rw [hbear, ← e3] at this
    rw [Nat.mul_sub, Nat.mul_comm _ Spec.minRate, Nat.add_mul]
    omega

/-- C80, a round trip: whoever buys, lets anything but trades happen, and sells no more than the curve gave out, receives at most
what was paid less both fees taken in quote; the second alone is 0.25%, and where only quote is collected so is the first. -/
theorem C80_round_trip {w w1 w2 w3 : World} {ops : List Op} {a b : SwapArgs} {x y : Trade} (h : Reachable w)
    (ha : a.amount0 ≤ u64Max) (hb : b.amount0 ≤ u64Max) (da : a.dir = .quoteToBase) (db : b.dir = .baseToQuote)
    (h1 : w.step (.swap a) = .ok w1) (hr : Run w1 ops w2) (hno : ∀ c, Op.swap c ∉ ops) (h2 : w2.step (.swap b) = .ok w3)
    (ox : Observed w w1 a.dir x) (oy : Observed w2 w3 b.dir y)
    (hle : y.paid ≤ x.got + inTok x.feeToken .base x.fee) :
    y.got + y.fee + inTok x.feeToken .quote x.fee ≤ x.paid ∧
    y.got * Spec.unit ≤ x.paid * (Spec.unit - Spec.minRate) ∧
    (w.cfg.collectFeeMode = 0 → y.got * Spec.unit ^ 2 ≤ x.paid * (Spec.unit - Spec.minRate) ^ 2) := by
  obtain ⟨-, r2, ht⟩ := pause_reserve h h1 hr hno h2 ox oy
  obtain ⟨s1, s2⟩ := sale_fee r2 hb db h2 oy
  have k := (C80_fees_lost h ht).1
  simp only [sumPaid, sumGot, sumFees, List.map_cons, List.map_nil, List.sum_cons, List.sum_nil, da, db, s1] at k
  have t1 : ∀ n, inTok (inToken .quoteToBase) .base n = 0 := fun n => rfl
  have t2 : ∀ n, inTok (inToken .baseToQuote) .base n = n := fun n => rfl
  have t3 : ∀ n, inTok (outToken .quoteToBase) .base n = n := fun n => rfl
  have t4 : ∀ n, inTok (outToken .baseToQuote) .base n = 0 := fun n => rfl
  have t5 : ∀ n, inTok (inToken .quoteToBase) .quote n = n := fun n => rfl
  have t6 : ∀ n, inTok (inToken .baseToQuote) .quote n = 0 := fun n => rfl
  have t7 : ∀ n, inTok (outToken .quoteToBase) .quote n = 0 := fun n => rfl
  have t8 : ∀ n, inTok (outToken .baseToQuote) .quote n = n := fun n => rfl
  simp only [t1, t2, t3, t4, t5, t6, t7, t8] at k
  have k := k (by omega)
  refine ⟨by omega, s2.trans (Nat.mul_le_mul_right _ (by omega)), fun hm => ?_⟩
  obtain ⟨z, floor, rate, o, -, hf, -, -, l1, l2, -, l3, -⟩ := C03_base_rate h ha h1
  obtain ⟨e1, e2, e3, e4⟩ := trade_same ox o
  have ft : z.feeToken = .quote := by
    rcases hf with ⟨-, hf⟩ | ⟨hf, -⟩
    · exact hf
    · rw [hm] at hf; cases hf
  have hbear : z.bearing a.dir = x.paid := by
    unfold Trade.bearing
    rw [if_pos (by rw [ft, da]; rfl), e1]
  have l4 := (Nat.mul_le_mul_right _ (l1.trans l2)).trans l3
  rw [hbear, ← e3] at l4
  have ef : inTok x.feeToken .quote x.fee = x.fee := by
    rw [e4, ft, e3]
    unfold inTok
    rw [if_pos rfl]
  rw [ef] at k
  have m1 : (x.paid - x.fee) * Spec.unit ≤ x.paid * (Spec.unit - Spec.minRate) := by
    rw [Nat.mul_sub, Nat.sub_mul, Nat.mul_comm x.paid Spec.minRate]
    omega
  calc y.got * Spec.unit ^ 2 = y.got * Spec.unit * Spec.unit := by ring
    _ ≤ (y.got + y.fee) * (Spec.unit - Spec.minRate) * Spec.unit := Nat.mul_le_mul_right _ s2
    _ ≤ (x.paid - x.fee) * (Spec.unit - Spec.minRate) * Spec.unit :=
      Nat.mul_le_mul_right _ (Nat.mul_le_mul_right _ (by omega))
    _ = (x.paid - x.fee) * Spec.unit * (Spec.unit - Spec.minRate) := by ring
    _ ≤ x.paid * (Spec.unit - Spec.minRate) * (Spec.unit - Spec.minRate) := Nat.mul_le_mul_right _ m1
    _ = x.paid * (Spec.unit - Spec.minRate) ^ 2 := by ring

/-- The mirror image: whoever sells, lets anything but trades happen, and buys back with no more than the curve paid out (fees of
the second trade aside), receives at most what was sold; where the fee of a buy is taken in base, at most 99.75% of it. -/
theorem C80_buy_back {w w1 w2 w3 : World} {ops : List Op} {a b : SwapArgs} {x y : Trade} (h : Reachable w)
    (hb : b.amount0 ≤ u64Max) (da : a.dir = .baseToQuote) (db : b.dir = .quoteToBase)
    (h1 : w.step (.swap a) = .ok w1) (hr : Run w1 ops w2) (hno : ∀ c, Op.swap c ∉ ops) (h2 : w2.step (.swap b) = .ok w3)
    (ox : Observed w w1 a.dir x) (oy : Observed w2 w3 b.dir y)
    (hle : y.paid ≤ x.got + inTok x.feeToken .quote x.fee + inTok y.feeToken .quote y.fee) :
    y.got + inTok y.feeToken .base y.fee ≤ x.paid ∧
    (w.cfg.collectFeeMode = 1 → y.got * Spec.unit ≤ x.paid * (Spec.unit - Spec.minRate)) := by
  obtain ⟨ec, r2, ht⟩ := pause_reserve h h1 hr hno h2 ox oy
  have k := (C80_fees_lost h ht).2
  simp only [sumPaid, sumGot, sumFees, List.map_cons, List.map_nil, List.sum_cons, List.sum_nil, da, db] at k
  have t1 : ∀ n, inTok (inToken .quoteToBase) .base n = 0 := fun n => rfl
  have t2 : ∀ n, inTok (inToken .baseToQuote) .base n = n := fun n => rfl
  have t3 : ∀ n, inTok (outToken .quoteToBase) .base n = n := fun n => rfl
  have t4 : ∀ n, inTok (outToken .baseToQuote) .base n = 0 := fun n => rfl
  have t5 : ∀ n, inTok (inToken .quoteToBase) .quote n = n := fun n => rfl
  have t6 : ∀ n, inTok (inToken .baseToQuote) .quote n = 0 := fun n => rfl
  have t7 : ∀ n, inTok (outToken .quoteToBase) .quote n = 0 := fun n => rfl
  have t8 : ∀ n, inTok (outToken .baseToQuote) .quote n = n := fun n => rfl
  simp only [t1, t2, t3, t4, t5, t6, t7, t8] at k
  have k := k (by omega)
  refine ⟨by omega, fun hm => ?_⟩
  obtain ⟨z, floor, rate, o, -, hf, -, -, l1, l2, -, l3, -⟩ := C03_base_rate r2 hb h2
  obtain ⟨e1, e2, e3, e4⟩ := trade_same oy o
  have ft : z.feeToken = .base := by
    rcases hf with ⟨hf, -⟩ | ⟨-, hf⟩
    · rw [ec, hm] at hf; cases hf
    · rw [hf, db]; rfl
  have hbear : z.bearing b.dir = y.got + y.fee := by
    unfold Trade.bearing
    rw [if_neg (by rw [ft, db]; decide), e2, e3]
  have l4 := (Nat.mul_le_mul_right _ (l1.trans l2)).trans l3
  rw [hbear, ← e3] at l4
  have ef : inTok y.feeToken .base y.fee = y.fee := by
    rw [e4, ft, e3]
    unfold inTok
    rw [if_pos rfl]
  rw [ef] at k
  have m : y.got * Spec.unit ≤ (y.got + y.fee) * (Spec.unit - Spec.minRate) := by
    rw [Nat.mul_sub, Nat.mul_comm _ Spec.minRate, Nat.add_mul]
    omega
  exact m.trans (Nat.mul_le_mul_right _ (by omega))

namespace Ex

/-- A plain exact-in trade. -/
def oneWay (d : TradeDirection) (n : Nat) (ref : Bool) (t : Nat) : SwapArgs :=
  ⟨0, n, 0, d, ref, ⟨t - 999900, t⟩, _root_.Ex.txSwap⟩

/-- The partner's claim between the trades. -/
def between : List Op := [.claimPartnerFee 11 100 1000]

/-- There and back, from a pool that has been trading. -/
def there (p : ConfigParams) (ops : List Op) : World := _root_.Ex.after p (_root_.Ex.trading ++ ops)

/-- Buy and sell again in a pool that collects quote. -/
def bOut : SwapArgs := oneWay .quoteToBase 1000000000 false 1001300
def bBack : SwapArgs := oneWay .baseToQuote 195059255758 true 1001310

/-- Sell and buy again in a pool that collects the token received. -/
def aOut : SwapArgs := oneWay .baseToQuote 100000000000 true 1001310
def aBack : SwapArgs := oneWay .quoteToBase 558000000 false 1001310

end Ex

/-- Buying for 1 quote token and selling everything leaves 0.98 quote tokens; selling 100,000 base units and buying again for
what the curve gave leaves 98,417. -/
theorem C80_example :
    Reachable (Ex.there _root_.Ex.paramsB []) ∧ (Ex.there _root_.Ex.paramsB []).cfg.collectFeeMode = 0 ∧
    (Ex.there _root_.Ex.paramsB []).step (.swap Ex.bOut) = .ok (Ex.there _root_.Ex.paramsB [.swap Ex.bOut]) ∧
    Run (Ex.there _root_.Ex.paramsB [.swap Ex.bOut]) Ex.between (Ex.there _root_.Ex.paramsB (.swap Ex.bOut :: Ex.between)) ∧
    (∀ c, Op.swap c ∉ Ex.between) ∧
    (Ex.there _root_.Ex.paramsB (.swap Ex.bOut :: Ex.between)).step (.swap Ex.bBack) =
      .ok (Ex.there _root_.Ex.paramsB (.swap Ex.bOut :: Ex.between ++ [.swap Ex.bBack])) ∧
    Observed (Ex.there _root_.Ex.paramsB []) (Ex.there _root_.Ex.paramsB [.swap Ex.bOut]) .quoteToBase
      ⟨1000000000, 195059255758, .quote, 8000000, 0, 2000000, 0⟩ ∧
    Observed (Ex.there _root_.Ex.paramsB (.swap Ex.bOut :: Ex.between))
      (Ex.there _root_.Ex.paramsB (.swap Ex.bOut :: Ex.between ++ [.swap Ex.bBack])) .baseToQuote
      ⟨195059255758, 980099999, .quote, 7920000, 0, 1584000, 396000⟩ ∧
    Reachable (Ex.there _root_.Ex.paramsA []) ∧ (Ex.there _root_.Ex.paramsA []).cfg.collectFeeMode = 1 ∧
    (Ex.there _root_.Ex.paramsA []).step (.swap Ex.aOut) = .ok (Ex.there _root_.Ex.paramsA [.swap Ex.aOut]) ∧
    Run (Ex.there _root_.Ex.paramsA [.swap Ex.aOut]) Ex.between (Ex.there _root_.Ex.paramsA (.swap Ex.aOut :: Ex.between)) ∧
    (Ex.there _root_.Ex.paramsA (.swap Ex.aOut :: Ex.between)).step (.swap Ex.aBack) =
      .ok (Ex.there _root_.Ex.paramsA (.swap Ex.aOut :: Ex.between ++ [.swap Ex.aBack])) ∧
    Observed (Ex.there _root_.Ex.paramsA []) (Ex.there _root_.Ex.paramsA [.swap Ex.aOut]) .baseToQuote
      ⟨100000000000, 555503843, .quote, 3248983, 1392421, 928281, 232070⟩ ∧
    Observed (Ex.there _root_.Ex.paramsA (.swap Ex.aOut :: Ex.between))
      (Ex.there _root_.Ex.paramsA (.swap Ex.aOut :: Ex.between ++ [.swap Ex.aBack])) .quoteToBase
      ⟨558000000, 98417011336, .base, 556702287, 238586694, 198822245, 0⟩ := by
  refine ⟨?_, by decide +kernel, by decide +kernel, _root_.Ex.exec_run (by decide +kernel), ?_, by decide +kernel, ?_, ?_, ?_,
    by decide +kernel, by decide +kernel, _root_.Ex.exec_run (by decide +kernel), by decide +kernel, ?_, ?_⟩
  · unfold Ex.there; rw [List.append_nil]; exact _root_.Ex.reachTradingB
  · intro c hc; simp [Ex.between] at hc
  all_goals first
    | (constructor <;> intro t <;> cases t <;> decide +kernel)
    | (unfold Ex.there; rw [List.append_nil]; exact _root_.Ex.reachTradingA)

end Props
