import Verif.Lemmas.Swap

/-!
# What a swap charges, without assumptions on the state
-/

namespace Dbc

/-- The fee added on top of an amount is the rate times the total, rounded up. -/
theorem includedFee_ceil {num ex inc f : Nat} (h : includedFeeAmount num ex = .ok (inc, f)) :
    f = divCeil (inc * num) FEE_DENOMINATOR := by
  obtain ⟨h1, h2, h3, h4, _⟩ := includedFeeAmount_ok h
  have hD : 0 < FEE_DENOMINATOR := by decide
  have hd : 0 < FEE_DENOMINATOR - num := by omega
  have a1 := le_divCeil_mul (ex * FEE_DENOMINATOR) hd
  have a2 := divCeil_mul_lt (ex * FEE_DENOMINATOR) hd
  rw [← h3] at a1 a2
  generalize FEE_DENOMINATOR = D at *
  obtain ⟨e, rfl⟩ := Nat.exists_eq_add_of_le h1
  rw [Nat.add_sub_cancel_left] at *
  have e1 : f * (num + e) + ex * (num + e) = inc * e + inc * num := by
    rw [← Nat.add_mul, Nat.add_comm f ex, h4]; ring
  refine le_antisymm ?_ ?_
  · rw [Nat.le_iff_lt_add_one, ← not_le]
    intro hle
    have := (divCeil_le_iff hD).1 (show divCeil (inc * num) (num + e) ≤ f - 1 by omega)
    have e2 : (f - 1) * (num + e) + (num + e) = f * (num + e) := by
      rw [← Nat.succ_mul]; congr 1; omega
    omega
  · rw [divCeil_le_iff hD]
    omega

/-- Which rate a swap was charged: that of the amount offered, if all of it was taken or the fee is taken from the output;
otherwise that of the amount without fee. -/
def Rated (c : PoolConfig) (p : Pool) (a : SwapArgs) (fm : FeeMode) (cur : Nat) (fst : Bool) (r : SwapResult) (num : Nat) : Prop :=
  (a.mode ≤ 1 ∧ (fm.feesOnInput = true → r.includedIn = a.amount0) ∧ numeratorIncluded c p cur a.amount0 a.dir fst = .ok num) ∨
  (a.mode ≠ 0 ∧ numeratorExcluded c p cur (if fm.feesOnInput = true then r.excludedIn else r.out) a.dir fst = .ok num ∧
    includedFeeAmount num (if fm.feesOnInput = true then r.excludedIn else r.out) =
      .ok (if fm.feesOnInput = true then r.includedIn else r.out + r.fee.sum, r.fee.sum))

structure Charge (c : PoolConfig) (p : Pool) (a : SwapArgs) (fm : FeeMode) (cur : Nat) (fst : Bool) (r : SwapResult) :
    Prop where
  input : r.includedIn = r.excludedIn + inFee fm r
  split : splitFees r.fee.sum fm.hasReferral = .ok r.fee
  rate : ∃ num, Rated c p a fm cur fst r num ∧
    r.fee.sum = divCeil ((if fm.feesOnInput = true then r.includedIn else r.out + r.fee.sum) * num) FEE_DENOMINATOR
  mode0 : a.mode = 0 → r.includedIn = a.amount0 ∧ r.left = 0 ∧ a.amount1 ≤ r.out
  mode1 : a.mode = 1 → a.amount1 ≤ r.out ∧ (r.left = 0 → r.includedIn = a.amount0)
  mode2 : 2 ≤ a.mode → r.out = a.amount0 ∧ r.includedIn ≤ a.amount1

theorem processSwap_charge {c : PoolConfig} {p : Pool} {a : SwapArgs} {fm : FeeMode} {cur : Nat} {fst : Bool}
    {r : SwapResult} (h : processSwap c p a fm cur fst = .ok r) : Charge c p a fm cur fst r := by
  unfold processSwap at h
  split at h <;> rename_i hm <;> simp only [bind_ok, req_ok, ok_inj] at h <;> obtain ⟨_, h, _, hsl, rfl⟩ := h
  · simp only [exactIn, bind_ok, ok_inj] at h
    obtain ⟨num, hnum, ⟨ai, fi⟩, hin, w, hw, _, hz, ⟨ao, fo⟩, hout, rfl⟩ := h
    rw [req_ok] at hz
    dsimp only at *
    rw [ite_ok] at hin hout
    rcases hin with ⟨g, hin⟩ | ⟨g, hin⟩ <;> rcases hout with ⟨g', hout⟩ | ⟨g', hout⟩ <;> try contradiction
    · have hf := feeOnAmount_ok hin
      simp only [ok_inj, Prod.mk.injEq] at hout
      obtain ⟨rfl, rfl⟩ := hout
      refine ⟨?_, hf.2.2, ⟨num, .inl ⟨by omega, fun _ => rfl, hnum⟩, ?_⟩, fun _ => ⟨rfl, hz, hsl⟩, fun h => by omega, fun h => by omega⟩
      · simp only [inFee, g, if_true]; omega
      · simp only [g, if_true]; exact hf.2.1
    · have hf := feeOnAmount_ok hout
      simp only [ok_inj, Prod.mk.injEq] at hin
      obtain ⟨rfl, rfl⟩ := hin
      refine ⟨?_, hf.2.2, ⟨num, .inl ⟨by omega, fun _ => rfl, hnum⟩, ?_⟩, fun _ => ⟨rfl, hz, hsl⟩, fun h => by omega, fun h => by omega⟩
      · simp only [inFee, g, Bool.false_eq_true, if_false]; omega
      · simp only [g, Bool.false_eq_true, if_false]; rw [hf.1]; exact hf.2.1
  · simp only [partialIn, bind_ok, ok_inj] at h
    obtain ⟨num, hnum, ⟨ai, fi⟩, hin, w, hw, ⟨inc, ai', fi'⟩, hmid, ⟨ao, fo⟩, hout, rfl⟩ := h
    dsimp only at *
    rw [ite_ok] at hin hout hmid
    rcases hout with ⟨g', hout⟩ | ⟨g', hout⟩
    · simp only [ok_inj, Prod.mk.injEq] at hout
      obtain ⟨rfl, rfl⟩ := hout
      rcases hin with ⟨_, hin⟩ | ⟨g, _⟩
      · rcases hmid with ⟨m, hmid⟩ | ⟨m, hmid⟩
        · simp only [bind_ok, safeSub_ok, ite_ok, ok_inj, Prod.mk.injEq, Prod.exists] at hmid
          obtain ⟨_, ⟨_, rfl⟩, ⟨g, num', hn', i', f', hif, s, hs, rfl, rfl, rfl⟩ | ⟨g, _⟩⟩ := hmid
          · have hi := includedFeeAmount_ok hif
            have hs' := splitFees_ok hs
            refine ⟨?_, by rw [hs'.1]; exact hs, ⟨num', .inr ⟨by omega, by simp only [g', if_true]; exact hn', by simp only [g', if_true, hs'.1]; exact hif⟩, ?_⟩, fun h => by omega,
              fun _ => ⟨hsl, fun h => absurd h m⟩, fun h => by omega⟩
            · simp only [inFee, g', if_true]; omega
            · simp only [g', if_true]; rw [hs'.1]; exact includedFee_ceil hif
          · exact absurd g' g
        · have hz : w.left = 0 := by omega
          simp only [ok_inj, Prod.mk.injEq] at hmid
          obtain ⟨rfl, rfl, rfl⟩ := hmid
          have hf := feeOnAmount_ok hin
          refine ⟨?_, hf.2.2, ⟨num, .inl ⟨by omega, fun _ => rfl, hnum⟩, ?_⟩, fun h => by omega, fun _ => ⟨hsl, fun _ => rfl⟩, fun h => by omega⟩
          · simp only [inFee, g', if_true]; omega
          · simp only [g', if_true]; exact hf.2.1
      · exact absurd g' g
    · rcases hin with ⟨g, _⟩ | ⟨_, hin⟩
      · exact absurd g g'
      · simp only [ok_inj, Prod.mk.injEq] at hin
        obtain ⟨rfl, rfl⟩ := hin
        have hf := feeOnAmount_ok hout
        have key : inc = ai' ∧ (w.left = 0 → inc = a.amount0) := by
          rcases hmid with ⟨m, hmid⟩ | ⟨m, hmid⟩
          · simp only [bind_ok, safeSub_ok, ite_ok, ok_inj, Prod.mk.injEq, Prod.exists] at hmid
            obtain ⟨_, ⟨_, rfl⟩, ⟨g, _⟩ | ⟨g, rfl, rfl, rfl⟩⟩ := hmid
            · exact absurd g g'
            · exact ⟨rfl, fun h => absurd h m⟩
          · simp only [ok_inj, Prod.mk.injEq] at hmid
            obtain ⟨rfl, rfl, rfl⟩ := hmid
            exact ⟨rfl, fun _ => rfl⟩
        refine ⟨?_, hf.2.2, ⟨num, .inl ⟨by omega, fun h => absurd h g', hnum⟩, ?_⟩, fun h => by omega, fun _ => ⟨hsl, key.2⟩, fun h => by omega⟩
        · simp only [inFee, g', Bool.false_eq_true, if_false]; rw [key.1]; rfl
        · simp only [g', Bool.false_eq_true, if_false]; rw [hf.1]; exact hf.2.1
  · have hm2 : 2 ≤ a.mode := by
      rcases Nat.lt_or_ge a.mode 2 with h | h
      · exfalso; have : a.mode = 0 ∨ a.mode = 1 := by omega
        rcases this with h | h
        · exact ‹a.mode = 0 → False› h
        · exact hm h
      · exact h
    simp only [exactOut, bind_ok, ok_inj] at h
    obtain ⟨⟨io, fo⟩, hout, w, hw, _, hmig, ⟨ii, fi⟩, hin, rfl⟩ := h
    dsimp only at *
    rw [ite_ok] at hin hout
    rcases hin with ⟨g, hin⟩ | ⟨g, hin⟩ <;> rcases hout with ⟨g', hout⟩ | ⟨g', hout⟩ <;> try contradiction
    · simp only [bind_ok, ok_inj, Prod.mk.injEq, Prod.exists] at hin hout
      obtain ⟨rfl, rfl⟩ := hout
      obtain ⟨num, hnum, i', f', hif, s, hs, rfl, rfl⟩ := hin
      have := includedFeeAmount_ok hif
      have hs' := splitFees_ok hs
      refine ⟨?_, by rw [hs'.1]; exact hs, ⟨num, .inr ⟨by omega, by simp only [g, if_true]; exact hnum, by simp only [g, if_true, hs'.1]; exact hif⟩, ?_⟩, fun h => by omega, fun h => by omega,
        fun _ => ⟨rfl, hsl⟩⟩
      · simp only [inFee, g, if_true]; omega
      · simp only [g, if_true]; rw [hs'.1]; exact includedFee_ceil hif
    · simp only [bind_ok, ok_inj, Prod.mk.injEq, Prod.exists] at hin hout
      obtain ⟨rfl, rfl⟩ := hin
      obtain ⟨num, hnum, i', f', hif, s, hs, rfl, rfl⟩ := hout
      have := includedFeeAmount_ok hif
      have hs' := splitFees_ok hs
      refine ⟨?_, by rw [hs'.1]; exact hs, ⟨num, .inr ⟨by omega, by simp only [g, Bool.false_eq_true, if_false]; exact hnum,
          by simp only [g, Bool.false_eq_true, if_false, hs'.1]; rw [hif, this.2.2.2.1]⟩, ?_⟩, fun h => by omega, fun h => by omega,
        fun _ => ⟨rfl, hsl⟩⟩
      · simp only [inFee, g, Bool.false_eq_true, if_false]; rfl
      · simp only [g, Bool.false_eq_true, if_false]; rw [hs'.1, this.2.2.2.1]; exact includedFee_ceil hif

theorem updateReferences_acc {d : DynamicFeeConfig} {v v' : VolTracker} {price now : Nat}
    (h : updateReferences d v price now = .ok v') : v'.volAcc = v.volAcc := by
  unfold updateReferences at h
  simp only [bind_ok, ite_ok, ok_inj] at h
  rcases h with ⟨-, ⟨-, _, -, _, -, rfl⟩ | ⟨-, rfl⟩⟩ | ⟨-, rfl⟩ <;> rfl

end Dbc
