import Verif.Lemmas.Fair

/-!
# How much quote a trade leaves behind in the reserve

The reverse of the bounds in `Lemmas/Fair`: per piece of the curve, the quote side of a trade differs by at most one unit from
what the curve asks for the price move.
-/

namespace Dbc
open Spec

variable {B Q : Nat → ℚ}

/-- One step of the price costs at most one unit of quote. -/
theorem tick_floor {L a : Nat} (hL : 0 < L) (hm : L ≤ u128Max) : a * 2 ^ 128 ≤ L * (a * 2 ^ 128 / L) + 2 ^ 128 := by
  have h := Nat.lt_mul_div_succ (a * 2 ^ 128) hL
  rw [Nat.mul_add, Nat.mul_one] at h
  have : L ≤ 2 ^ 128 := by unfold u128Max at hm; omega
  omega

theorem tick_ceil {L a : Nat} (hL : 0 < L) (hm : L ≤ u128Max) : L * divCeil (a * 2 ^ 128) L ≤ a * 2 ^ 128 + 2 ^ 128 := by
  have h := divCeil_mul_lt (a * 2 ^ 128) hL
  rw [Nat.mul_comm] at h
  have : L ≤ 2 ^ 128 := by unfold u128Max at hm; omega
  omega

theorem buyIn_keep {stop lo cur left out : Nat} {ps : List Point} {r : FromInput} (hch : ChainUp B Q lo ps)
    (hp : Proper lo ps) (hm : ∀ q ∈ ps, q.liq ≤ u128Max) (hlo : lo ≤ cur)
    (h : buyInLoop stop ps cur left out = .ok r) :
    (left : ℚ) - r.left ≤ Q r.next - Q cur + ps.length := by
  induction ps generalizing lo cur left out with
  | nil =>
    simp only [buyInLoop, ok_inj] at h
    subst h
    simp
  | cons p ps ih =>
    simp only [Proper] at hp
    obtain ⟨hp0, hp1, hpL, hpr⟩ := hp
    obtain ⟨hpc, hch'⟩ := hch
    have hpos : (0 : ℚ) ≤ ps.length := by positivity
    have hm' : ∀ q ∈ ps, q.liq ≤ u128Max := fun q hq => hm q (List.mem_cons_of_mem _ hq)
    simp only [List.length_cons, Nat.cast_add, Nat.cast_one]
    rcases buyInLoop_cons (by omega) (by omega) h with
      ⟨a1, a2, a3, a4, a5, a6, a7, a8⟩ | ⟨a1, a2, a3, a4, a5, a6⟩ | ⟨a1, a2, a3, a4⟩ | ⟨a1, a2⟩
    · have hq := tick_floor (a := left) hpL (hm p List.mem_cons_self)
      have e : left * 2 ^ 128 / p.liq = r.next - cur := by omega
      rw [e] at hq
      have hQ := (hpc cur r.next hlo a6 (by omega)).1
      have : (left : ℚ) ≤ ((p.liq * (r.next - cur) : Nat) : ℚ) / 2 ^ 128 + 1 := by
        rw [← sub_le_iff_le_add, le_div_iff₀ (by positivity), sub_mul, sub_le_iff_le_add, one_mul]
        exact_mod_cast hq
      rw [a4, Nat.cast_zero]
      linarith
    · have := (hpc.quoteUp hlo (le_of_lt a1) a2).2
      rw [a4, a6, Nat.cast_sub a3]
      linarith
    · have := ih hch' hpr hm' le_rfl a4
      have hu := (hpc.quoteUp hlo (le_of_lt a1) le_rfl).2
      rw [Nat.cast_sub a3] at this
      linarith
    · by_cases hst : stop ≤ cur
      · have a2 := buyInLoop_stopped hpr hst a2
        subst a2
        dsimp only
        linarith
      · have := ih hch' hpr hm' (by omega) a2
        linarith

theorem OnPiece.tick {lo hi L cur next left : Nat} (hpc : OnPiece B Q lo hi L) (hL : L ≤ u128Max) (h0 : 0 < L) (h1 : lo ≤ next)
    (h2 : cur ≤ hi) (h3 : divCeil (left * 2 ^ 128) L ≤ cur) (h4 : next = cur - divCeil (left * 2 ^ 128) L) :
    Q cur - Q next ≤ (left : ℚ) + 1 := by
  have hq := tick_ceil (a := left) h0 hL
  have e : divCeil (left * 2 ^ 128) L = cur - next := by omega
  rw [e] at hq
  rw [(hpc next cur h1 (by omega) h2).1, div_le_iff₀ (by positivity), add_mul, one_mul]
  exact_mod_cast hq

theorem sellOut_keep {start L0 top cur left acc : Nat} {ds : List (Point × Nat)} {r : FromOutput}
    (hch : ChainDown B Q start L0 top ds) (hd : Downs start ds) (hm0 : L0 ≤ u128Max) (hm : ∀ d ∈ ds, d.2 ≤ u128Max)
    (hs : start ≤ cur) (ht : cur ≤ top) (h : sellDownOut start L0 ds ⟨cur, left, acc, false⟩ = .ok r) :
    Q cur - Q r.next ≤ (left : ℚ) + (ds.length + 1) := by
  induction ds generalizing top cur left acc with
  | nil =>
    simp only [List.length_nil, Nat.cast_zero, zero_add]
    rcases sellDownOut_nil h with ⟨a1, a2, a3⟩ | ⟨a1, a2, a3, a4, a5, a6, a7, a8⟩
    · rw [a3, a1]; simp
    · exact OnPiece.tick hch hm0 a2 a7 ht a5 a6
  | cons d ds ih =>
    obtain ⟨c1, hpc, hch'⟩ := hch
    have hh := hd.head
    have hpos : (0 : ℚ) ≤ ds.length := by positivity
    have hm' : ∀ d ∈ ds, d.2 ≤ u128Max := fun q hq => hm q (List.mem_cons_of_mem _ hq)
    simp only [List.length_cons, Nat.cast_add, Nat.cast_one]
    rcases sellDownOut_cons hh h with ⟨a1, a2, a3, a4, a5, a6⟩ | ⟨a1, a2, a3⟩ | ⟨a1, a2⟩
    · have := hpc.tick (hm d List.mem_cons_self) hh.2.2 a6 ht a3 a4
      linarith
    · have := ih hch' hd.tail hm' (le_of_lt hh.1) le_rfl a3
      have hq := (hpc.quoteDown le_rfl (le_of_lt a1) ht).2
      rw [Nat.cast_sub a2] at this
      linarith
    · have := ih hch' hd.tail hm' hs a1 a2
      linarith

theorem downs_liq {ps : List Point} (hm : ∀ q ∈ ps, q.liq ≤ u128Max) : ∀ d ∈ downs ps, d.2 ≤ u128Max := by
  induction ps with
  | nil => intro d hd; simp [downs] at hd
  | cons p ps ih =>
    cases ps with
    | nil => intro d hd; simp [downs] at hd
    | cons q rest =>
      intro d hd
      simp only [downs, List.mem_append, List.mem_singleton] at hd
      rcases hd with hd | rfl
      · exact ih (fun q hq => hm q (List.mem_cons_of_mem _ hq)) d hd
      · exact hm q (by simp)

/-- What an exact-in or partial swap pays into the reserve is what its walk along the curve used. -/
theorem processSwap_used {c : PoolConfig} {p : Pool} {a : SwapArgs} {fm : FeeMode} {cur : Nat} {fst : Bool}
    {r : SwapResult} (h : processSwap c p a fm cur fst = .ok r) :
    (∃ am w, walkIn c p a.dir am = .ok w ∧ r.next = w.next ∧ r.excludedIn + w.left = am ∧ r.out + outFee fm r = w.out) ∨
    (∃ w, walkOut c p a.dir (r.out + outFee fm r) = .ok w ∧ r.next = w.next ∧ r.excludedIn = w.amountIn) := by
  unfold processSwap at h
  split at h <;> rename_i hm <;> simp only [bind_ok, req_ok, ok_inj] at h <;> obtain ⟨_, h, _, hsl, rfl⟩ := h
  · simp only [exactIn, bind_ok, ok_inj] at h
    obtain ⟨num, hnum, ⟨ai, fi⟩, hin, w, hw, _, hz, ⟨ao, fo⟩, hout, rfl⟩ := h
    rw [req_ok] at hz
    refine .inl ⟨ai, w, hw, rfl, by dsimp only; omega, ?_⟩
    dsimp only at *
    rw [ite_ok] at hin hout
    rcases hin with ⟨g, hin⟩ | ⟨g, hin⟩ <;> rcases hout with ⟨g', hout⟩ | ⟨g', hout⟩ <;> try contradiction
    · simp only [ok_inj, Prod.mk.injEq] at hout
      simp only [outFee, g, if_true, Nat.add_zero]
      exact hout.1.symm
    · have hf := feeOnAmount_ok hout
      simp only [outFee, g, Bool.false_eq_true, if_false]
      exact hf.1
  · simp only [partialIn, bind_ok, ok_inj] at h
    obtain ⟨num, hnum, ⟨ai, fi⟩, hin, w, hw, ⟨inc, ai', fi'⟩, hmid, ⟨ao, fo⟩, hout, rfl⟩ := h
    dsimp only at *
    have hle : ai' + w.left = ai := by
      rw [ite_ok] at hmid
      rcases hmid with ⟨m, hmid⟩ | ⟨m, hmid⟩
      · simp only [bind_ok, safeSub_ok, ite_ok, ok_inj, Prod.mk.injEq, Prod.exists] at hmid
        obtain ⟨_, ⟨_, rfl⟩, ⟨g, num', hn', i', f', hif, s, hs, rfl, rfl, rfl⟩ | ⟨g, rfl, rfl, rfl⟩⟩ := hmid <;> omega
      · simp only [ok_inj, Prod.mk.injEq] at hmid
        omega
    refine .inl ⟨ai, w, hw, rfl, hle, ?_⟩
    rw [ite_ok] at hout
    rcases hout with ⟨g', hout⟩ | ⟨g', hout⟩
    · simp only [ok_inj, Prod.mk.injEq] at hout
      simp only [outFee, g', if_true, Nat.add_zero]
      exact hout.1.symm
    · have hf := feeOnAmount_ok hout
      simp only [outFee, g', Bool.false_eq_true, if_false]
      exact hf.1
  · simp only [exactOut, bind_ok, ok_inj] at h
    obtain ⟨⟨io, fo⟩, hout, w, hw, _, hmig, ⟨ii, fi⟩, hin, rfl⟩ := h
    dsimp only at *
    have hio : io = a.amount0 + outFee fm ⟨ii, w.amountIn, 0, a.amount0, w.next, fi⟩ := by
      rw [ite_ok] at hin hout
      rcases hin with ⟨g, hin⟩ | ⟨g, hin⟩ <;> rcases hout with ⟨g', hout⟩ | ⟨g', hout⟩ <;> try contradiction
      · simp only [ok_inj, Prod.mk.injEq] at hout
        simp only [outFee, g, if_true]
        omega
      · simp only [bind_ok, ok_inj, Prod.mk.injEq, Prod.exists] at hin hout
        obtain ⟨rfl, rfl⟩ := hin
        obtain ⟨num, hnum, i', f', hif, s, hs, rfl, rfl⟩ := hout
        have := includedFeeAmount_ok hif
        have hs' := splitFees_ok hs
        simp only [outFee, g, Bool.false_eq_true, if_false]
        omega
    refine .inr ⟨w, ?_, rfl, rfl⟩
    rw [← hio]; exact hw

end Dbc
