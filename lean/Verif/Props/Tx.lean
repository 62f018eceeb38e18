import Verif.Spec.Tx
import Verif.Props.Swap
import Mathlib.Data.List.Induction

/-!
# One buy per transaction while the rate limiter is active: C41
-/

namespace Props
open Dbc Spec

/-- The instruction at position `p` of the transaction is a swap of the pool of `w`, and it turns `w` into `w'`. -/
structure RunsSwap (tx : List Call) (p : List Nat) (w : World) (a : SwapArgs) (w' : World) : Prop where
  at_ : ∃ ix ss sysvar, locate tx p = some (ix, ss) ∧ SwapsPool ix w.key ∧ a.tx = ctxAt tx p ss sysvar
  ok : w.step (.swap a) = .ok w'

/-- The swap is a buy within the rate limiter's window of a pool configured with one. -/
structure LimitedBuy (w : World) (a : SwapArgs) : Prop where
  limiter : w.cfg.fees.base.mode = 2
  configured : w.cfg.fees.base.second ≠ 0
  buy : a.dir = .quoteToBase
  inWindow : ∃ cur, currentPoint w.cfg.activationType a.clk = .ok cur ∧
    cur ≤ w.pool.activationPoint + w.cfg.fees.base.second

theorem checkEarlier_mem {pool : Nat} {is : List Ix} (h : checkEarlier pool is = .ok ()) {i : Ix} (hi : i ∈ is) :
    (i.program ≠ PROGRAM_ID → pool ∉ i.accounts) ∧ (i.program = PROGRAM_ID → isPoolSwap pool i = .ok false) := by
  induction is with
  | nil => cases hi
  | cons x is ih =>
    rw [checkEarlier] at h
    by_cases hx : x.program ≠ PROGRAM_ID
    · rw [if_pos hx] at h
      simp only [bind_ok, req_ok] at h
      obtain ⟨_, h1, h2⟩ := h
      rcases List.mem_cons.1 hi with rfl | hi
      · exact ⟨fun _ => h1, fun hp => absurd hp hx⟩
      · exact ih h2 hi
    · rw [if_neg hx] at h
      simp only [bind_ok, req_ok] at h
      obtain ⟨b, h0, _, h1, h2⟩ := h
      subst h1
      rcases List.mem_cons.1 hi with rfl | hi
      · exact ⟨fun hp => absurd hp hx, fun _ => h0⟩
      · exact ih h2 hi

theorem checkSiblings_mem {pool : Nat} {is : List Ix} (h : checkSiblings pool is = .ok ()) {i : Ix} (hi : i ∈ is)
    (hp : i.program = PROGRAM_ID) : isPoolSwap pool i = .ok false := by
  induction is with
  | nil => cases hi
  | cons x is ih =>
    rw [checkSiblings] at h
    by_cases hx : x.program = PROGRAM_ID
    · rw [if_pos hx] at h
      simp only [bind_ok, req_ok] at h
      obtain ⟨b, h0, _, h1, h2⟩ := h
      subst h1
      rcases List.mem_cons.1 hi with rfl | hi
      · exact h0
      · exact ih h2 hi
    · rw [if_neg hx] at h
      rcases List.mem_cons.1 hi with rfl | hi
      · exact absurd hp hx
      · exact ih h hi

theorem isPoolSwap_of {ix : Ix} {pool : Nat} (h : SwapsPool ix pool) : isPoolSwap pool ix = .ok true := by
  unfold isPoolSwap
  rw [if_pos h.2.1, h.2.2]
  simp

theorem mem_take_of {α : Type} {l : List α} {i n : Nat} {x : α} (h : l[i]? = some x) (hi : i < n) : x ∈ l.take n := by
  have : (l.take n)[i]? = some x := by rw [List.getElem?_take_of_lt hi]; exact h
  exact List.mem_of_getElem? this

theorem locate_head {tx : List Call} {i : Nat} {rest : List Nat} {x : Ix × List Ix} (h : locate tx (i :: rest) = some x) :
    ∃ c, tx[i]? = some c ∧ locate tx [i] = some (c.ix, ((tx.take i).map Call.ix).reverse) := by
  have : ∃ c, tx[i]? = some c := by
    cases rest with
    | nil =>
      simp only [locate, Option.map_eq_some_iff] at h
      obtain ⟨c, hc, -⟩ := h
      exact ⟨c, hc⟩
    | cons j rest =>
      simp only [locate, Option.bind_eq_some_iff] at h
      obtain ⟨c, hc, -⟩ := h
      exact ⟨c, hc⟩
  obtain ⟨c, hc⟩ := this
  exact ⟨c, hc, by simp only [locate, hc, Option.map_some]⟩

theorem locate_prefix {tx : List Call} {p : List Nat} {j : Nat} {x : Ix × List Ix} (hp : p ≠ [])
    (h : locate tx (p ++ [j]) = some x) : ∃ y, locate tx p = some y := by
  induction p generalizing tx with
  | nil => exact absurd rfl hp
  | cons i p ih =>
    cases p with
    | nil =>
      obtain ⟨c, -, h2⟩ := locate_head h
      exact ⟨_, h2⟩
    | cons k p =>
      simp only [List.cons_append, locate, Option.bind_eq_some_iff] at h ⊢
      obtain ⟨c, hc, h⟩ := h
      obtain ⟨y, hy⟩ := ih (by simp) h
      exact ⟨y, c, hc, hy⟩

/-- Every account of a nested instruction is an account of its top-level instruction. -/
theorem accounts_top {tx : List Call} (hv : ValidTx tx) {i : Nat} {q : List Nat} {ix ix' : Ix} {ss ss' : List Ix}
    (h0 : locate tx [i] = some (ix, ss)) (h : locate tx (i :: q) = some (ix', ss')) : ∀ k ∈ ix'.accounts, k ∈ ix.accounts := by
  induction q using List.reverseRecOn generalizing ix' ss' with
  | nil =>
    rw [h0] at h
    cases h
    exact fun k hk => hk
  | append_singleton q j ih =>
    obtain ⟨⟨ix1, ss1⟩, h1⟩ := locate_prefix (p := i :: q) (by simp) (by simpa using h)
    exact fun k hk => ih h1 k (hv.accounts (i :: q) j _ _ _ _ h1 (by simpa using h) k hk)

theorem limited_validated {w w' : World} {a : SwapArgs} (hl : LimitedBuy w a) (h : w.step (.swap a) = .ok w') :
    validateSingleSwap w.key a.tx = .ok () := by
  obtain ⟨cur, hcur, hle⟩ := hl.inWindow
  obtain ⟨cur', fm, r, v1, v2, s⟩ := swap_ok h
  have e : cur' = cur := by
    have := s.hcur
    rw [hcur, ok_inj] at this
    exact this.symm
  subst e
  have hlim := s.lim
  unfold World.checkLimiter at hlim
  have happ : limiterApplied w.cfg.fees.base cur' w.pool.activationPoint a.dir = true := by
    have := hl.configured
    unfold limiterApplied
    rw [if_neg (by unfold limiterZero; omega), if_neg (by rw [hl.buy]; simp), if_neg (by omega)]
  rwa [if_pos ⟨hl.limiter, happ⟩] at hlim

theorem validate_parts {pool : Nat} {t : TxCtx} (h : validateSingleSwap pool t = .ok ()) :
    ∃ cur, t.top[t.idx]? = some cur ∧ (cur.program ≠ PROGRAM_ID → t.height ≤ 2 ∧ checkSiblings pool t.siblings = .ok ()) ∧
      checkEarlier pool (t.top.take t.idx) = .ok () := by
  unfold validateSingleSwap at h
  split at h
  · split at h
    · cases h
    · rename_i cur hcur
      refine ⟨cur, hcur, ?_⟩
      by_cases hc : cur.program ≠ PROGRAM_ID
      · rw [if_pos hc] at h
        simp only [bind_ok, req_ok] at h
        obtain ⟨_, ⟨_, h1, h2⟩, h3⟩ := h
        exact ⟨fun _ => ⟨h1, h2⟩, h3⟩
      · rw [if_neg hc, ok_bind] at h
        exact ⟨fun hn => absurd hn hc, h⟩
  · cases h

/-- Two validated swaps of one pool in a transaction, the first in an earlier or the same top-level instruction. -/
theorem no_two_ordered {tx : List Call} (hv : ValidTx tx) {pool i1 i2 : Nat} {q1 q2 : List Nat} {ix1 ix2 : Ix}
    {ss1 ss2 : List Ix} {b1 b2 : Bool} (h1 : locate tx (i1 :: q1) = some (ix1, ss1)) (h2 : locate tx (i2 :: q2) = some (ix2, ss2))
    (s1 : SwapsPool ix1 pool) (s2 : SwapsPool ix2 pool)
    (v1 : validateSingleSwap pool (ctxAt tx (i1 :: q1) ss1 b1) = .ok ())
    (v2 : validateSingleSwap pool (ctxAt tx (i2 :: q2) ss2 b2) = .ok ()) (hle : i1 ≤ i2) (hne : i1 :: q1 ≠ i2 :: q2) : False := by
  obtain ⟨c1, hc1, hl1⟩ := locate_head h1
  obtain ⟨t1, ht1, hs1, -⟩ := validate_parts v1
  obtain ⟨t2, ht2, hs2, he2⟩ := validate_parts v2
  simp only [ctxAt, List.headD_cons, List.getElem?_map, hc1, Option.map_some, Option.some.injEq] at ht1
  have hown : q1 ≠ [] → c1.ix.program = PROGRAM_ID → False := by
    intro hq hp
    have := hv.noReentry [i1] q1 _ _ _ _ hq hl1 hp h1 s1.1
    rcases s1.2.1 with e | e
    · exact this.1 e
    · exact this.2 e
  have hself : q1 = [] → ix1 = c1.ix := by
    rintro rfl
    rw [hl1, Option.some.injEq, Prod.mk.injEq] at h1
    exact h1.1.symm
  rcases Nat.lt_or_eq_of_le hle with hlt | rfl
  · -- an earlier top-level instruction
    have hm : c1.ix ∈ (ctxAt tx (i2 :: q2) ss2 b2).top.take (ctxAt tx (i2 :: q2) ss2 b2).idx := by
      simp only [ctxAt, List.headD_cons]
      exact mem_take_of (by simp [hc1]) hlt
    obtain ⟨k1, k2⟩ := checkEarlier_mem he2 hm
    by_cases hp : c1.ix.program = PROGRAM_ID
    · by_cases hq : q1 = []
      · have := k2 hp
        rw [← hself hq, isPoolSwap_of s1] at this
        cases this
      · exact hown hq hp
    · exact k1 hp (accounts_top hv hl1 h1 pool (List.mem_of_getElem? s1.2.2))
  · -- the same top-level instruction
    simp only [ctxAt, List.headD_cons, List.getElem?_map, hc1, Option.map_some, Option.some.injEq] at ht2
    subst ht1
    have e12 : c1.ix = t2 := ht2
    subst e12
    by_cases hp : c1.ix.program = PROGRAM_ID
    · have hq1 : q1 = [] := by
        by_contra hq
        exact hown hq hp
      have hq2 : q2 = [] := by
        by_contra hq
        have := hv.noReentry [i1] q2 _ _ _ _ hq hl1 hp h2 s2.1
        rcases s2.2.1 with e | e
        · exact this.1 e
        · exact this.2 e
      exact hne (by rw [hq1, hq2])
    · obtain ⟨g1, f1⟩ := hs1 hp
      obtain ⟨g2, f2⟩ := hs2 hp
      simp only [ctxAt, List.length_cons] at g1 g2 f1 f2
      have hq1 : q1 ≠ [] := fun hq => hp (by rw [← hself hq]; exact s1.1)
      have hq2 : q2 ≠ [] := by
        rintro rfl
        rw [hl1, Option.some.injEq, Prod.mk.injEq] at h2
        exact hp (by rw [h2.1]; exact s2.1)
      obtain ⟨j1, rfl⟩ : ∃ j, q1 = [j] := by
        match q1, hq1, g1 with
        | [j], _, _ => exact ⟨j, rfl⟩
      obtain ⟨j2, rfl⟩ : ∃ j, q2 = [j] := by
        match q2, hq2, g2 with
        | [j], _, _ => exact ⟨j, rfl⟩
      simp only [locate, hc1, Option.bind_some, Option.map_eq_some_iff, Prod.mk.injEq] at h1 h2
      obtain ⟨d1, hd1, rfl, rfl⟩ := h1
      obtain ⟨d2, hd2, rfl, rfl⟩ := h2
      rcases Nat.lt_trichotomy j1 j2 with hj | hj | hj
      · have hm : d1.ix ∈ ((c1.subs.take j2).map Call.ix).reverse := by
          rw [List.mem_reverse]
          exact List.mem_map_of_mem (mem_take_of hd1 hj)
        have := checkSiblings_mem f2 hm s1.1
        rw [isPoolSwap_of s1] at this
        cases this
      · exact hne (by rw [hj])
      · have hm : d2.ix ∈ ((c1.subs.take j1).map Call.ix).reverse := by
          rw [List.mem_reverse]
          exact List.mem_map_of_mem (mem_take_of hd2 hj)
        have := checkSiblings_mem f1 hm s2.1
        rw [isPoolSwap_of s2] at this
        cases this

/-- C41: if two instructions of one transaction, at whatever depth, are successful buys of the same pool while its rate
limiter is active, they are the same instruction. -/
theorem C41_one_buy {tx : List Call} (hv : ValidTx tx) {p1 p2 : List Nat} {w1 w2 w1' w2' : World} {a1 a2 : SwapArgs}
    (h1 : RunsSwap tx p1 w1 a1 w1') (h2 : RunsSwap tx p2 w2 a2 w2') (hpool : w1.key = w2.key) (l1 : LimitedBuy w1 a1)
    (l2 : LimitedBuy w2 a2) : p1 = p2 := by
  obtain ⟨ix1, ss1, b1, e1, s1, t1⟩ := h1.at_
  obtain ⟨ix2, ss2, b2, e2, s2, t2⟩ := h2.at_
  have v1 := limited_validated l1 h1.ok
  have v2 := limited_validated l2 h2.ok
  rw [t1] at v1
  rw [t2] at v2
  rw [hpool] at s1 v1
  by_contra hne
  match p1, p2 with
  | [], _ => simp [locate] at e1
  | _, [] => simp [locate] at e2
  | i1 :: q1, i2 :: q2 =>
    rcases Nat.le_total i1 i2 with hle | hle
    · exact no_two_ordered hv e1 e2 s1 s2 v1 v2 hle hne
    · exact no_two_ordered hv e2 e1 s2 s1 v2 v1 hle (Ne.symm hne)

/-! ### A concrete transaction -/

/-- A transaction with an unrelated instruction, then a router that calls a program and swaps twice. -/
def exTx : List Call :=
  [.mk ⟨8, .other, [3, 4]⟩ [],
   .mk ⟨9, .other, [0, 9, 50, 60]⟩
    [.mk ⟨8, .other, [9]⟩ [], .mk ⟨1, .swap2, [0, 9, 50]⟩ [.mk ⟨2, .other, [9]⟩ []], .mk ⟨1, .swap2, [0, 9, 50]⟩ []]]

theorem exTx_paths {p : List Nat} {x : Ix × List Ix} (h : locate exTx p = some x) :
    p = [0] ∨ p = [1] ∨ p = [1, 0] ∨ p = [1, 1] ∨ p = [1, 2] ∨ p = [1, 1, 0] := by
  match p with
  | [] => simp [locate] at h
  | [0] => simp
  | [1] => simp
  | [n + 2] => simp [locate, exTx] at h
  | 0 :: j :: rest => cases rest <;> simp [locate, exTx, Call.subs] at h
  | [1, 0] => simp
  | [1, 1] => simp
  | [1, 2] => simp
  | [1, n + 3] => simp [locate, exTx, Call.subs] at h
  | 1 :: 0 :: k :: rest => cases rest <;> simp [locate, exTx, Call.subs] at h
  | [1, 1, 0] => simp
  | [1, 1, n + 1] => simp [locate, exTx, Call.subs] at h
  | 1 :: 1 :: 0 :: m :: rest => cases rest <;> simp [locate, exTx, Call.subs] at h
  | 1 :: 1 :: (n + 1) :: m :: rest => simp [locate, exTx, Call.subs] at h
  | 1 :: 2 :: k :: rest => cases rest <;> simp [locate, exTx, Call.subs] at h
  | 1 :: (n + 3) :: k :: rest => simp [locate, exTx, Call.subs] at h
  | (n + 2) :: j :: rest => simp [locate, exTx] at h

theorem exTx_valid : ValidTx exTx where
  accounts := by
    intro p j ix ix' ss ss' h h'
    have hp := exTx_paths h
    have hq := exTx_paths h'
    rcases hp with rfl | rfl | rfl | rfl | rfl | rfl <;>
      simp only [List.cons_append, List.nil_append, List.cons.injEq, reduceCtorEq, and_false, and_true, false_or, or_false,
        Nat.zero_ne_one, false_and, Nat.succ_ne_self, true_and] at hq
    · rcases hq with rfl | rfl | rfl <;> cases h <;> cases h' <;> decide
    · subst hq
      cases h; cases h'; decide
  noReentry := by
    intro p q ix ix' ss ss' hq h hp h' hp'
    rcases exTx_paths h with rfl | rfl | rfl | rfl | rfl | rfl <;> cases h <;>
      first | (exact absurd hp (by decide)) | skip
    · rcases exTx_paths h' with e | e | e | e | e | e <;>
        first
          | (have e2 : q = [0] := by simpa using e
             subst e2; cases h'; exact absurd hp' (by decide))
          | (exact absurd e (by simp [hq]))
    · rcases exTx_paths h' with e | e | e | e | e | e <;> exact absurd e (by simp [hq])

/-- A buy made at position `p` of that transaction. -/
def exBuy (p : List Nat) (siblings : List Ix) : SwapArgs :=
  ⟨0, 1000000000, 1, .quoteToBase, false, ⟨500, 1000400⟩, ctxAt exTx p siblings true⟩

/-- A reachable pool with an active rate limiter: the router's first buy is accepted, its second one is refused by the
single-swap check. -/
theorem C41_example : Reachable (Ex.after Ex.paramsB Ex.trading) ∧
    LimitedBuy (Ex.after Ex.paramsB Ex.trading) (exBuy [1, 1] [⟨8, .other, [9]⟩]) ∧
    (∃ w', RunsSwap exTx [1, 1] (Ex.after Ex.paramsB Ex.trading) (exBuy [1, 1] [⟨8, .other, [9]⟩]) w' ∧
      w'.step (.swap (exBuy [1, 2] [⟨1, .swap2, [0, 9, 50]⟩, ⟨8, .other, [9]⟩])) =
        .error .failToValidateSingleSwapInstruction) := by
  refine ⟨Ex.reachTradingB, ⟨by decide +kernel, by decide +kernel, rfl, 500, by decide +kernel, by decide +kernel⟩, ?_⟩
  refine ⟨Ex.after Ex.paramsB (Ex.trading ++ [.swap (exBuy [1, 1] [⟨8, .other, [9]⟩])]),
    ⟨⟨⟨1, .swap2, [0, 9, 50]⟩, [⟨8, .other, [9]⟩], true, rfl, ⟨rfl, .inr rfl, by decide +kernel⟩, rfl⟩, by decide +kernel⟩, ?_⟩
  decide +kernel

end Props
