import Verif.Lemmas.Wire

/-!
# Earlier releases: instruction data and accounts
-/

namespace Dbc
open Spec

theorem FieldsFit_append {a b : List (Nat × Nat)} : FieldsFit (a ++ b) ↔ FieldsFit a ∧ FieldsFit b :=
  ⟨fun h => ⟨fun f hf => h f (List.mem_append_left _ hf), h.right⟩, fun h f hf => by
    rcases List.mem_append.1 hf with hf | hf
    · exact h.1 f hf
    · exact h.2 f hf⟩

theorem pack_same {a b c d : List (Nat × Nat)} (h : pack b = pack c) : pack (a ++ b ++ d) = pack (a ++ c ++ d) := by
  rw [pack_append, pack_append, h, ← pack_append, ← pack_append]

/-- What the present release puts where the earlier ones had padding. -/
def zeroMiddle : List (Nat × Nat) :=
  [(8, 0), (1, 0), (2, 0), (2, 0), (4, 0), (4, 0), (1, 0), (2, 0), (2, 0), (4, 0), (4, 0), (1, 0), (2, 0), (2, 0), (4, 0),
   (8, 0), (1, 0), (2, 0), (2, 0)]

theorem nowSent_meaning (p : EarlierParams) (c d b : Nat) :
    nowSent (p.meaning c d b) = p.leading ++ [(1, c), (1, d), (2, b)] ++ zeroMiddle ++ curveSent p.curve := by
  unfold nowSent EarlierParams.meaning EarlierParams.leading zeroMiddle
  cases p.dynamic <;> simp

theorem sent06_eq (p : EarlierParams) (c d b : Nat) : p.sent06 c d b = pack (nowSent (p.meaning c d b)) := by
  rw [nowSent_meaning, EarlierParams.sent06]
  exact pack_same (by decide)

theorem sent_eq (p : EarlierParams) : p.sent = p.sent06 0 0 0 := by
  rw [EarlierParams.sent, EarlierParams.sent06, List.append_assoc, List.append_assoc, List.append_assoc, List.append_assoc,
    ← List.append_assoc, ← List.append_assoc (as := p.leading)]
  exact pack_same (by decide)

theorem meaning_asked (p : EarlierParams) (c d b : Nat) : DynamicAsked (p.meaning c d b).fees.dyn := by
  unfold EarlierParams.meaning DynamicAsked
  cases p.dynamic
  · exact .inr rfl
  · exact .inl rfl

theorem readConfigParams_earlier {p : EarlierParams} {c d b : Nat} (h : FieldsFit (p.leading ++ curveSent p.curve))
    (hm : FieldsFit [(1, c), (1, d), (2, b)]) (r : List Nat) :
    readConfigParams (p.sent06 c d b ++ r) = some (p.meaning c d b, r) := by
  rw [sent06_eq]
  refine readConfigParams_pack (meaning_asked p c d b) ?_ r
  rw [nowSent_meaning]
  rw [FieldsFit_append] at h
  refine FieldsFit_append.2 ⟨FieldsFit_append.2 ⟨FieldsFit_append.2 ⟨h.1, hm⟩, ?_⟩, h.2⟩
  unfold FieldsFit zeroMiddle
  decide

/-! ### Whatever bytes arrive, what is read is within its type -/

theorem wireNumber_lt {b : List Nat} (h : ∀ x ∈ b, x < 256) : wireNumber b < 256 ^ b.length := by
  induction b with
  | nil => decide
  | cons x xs ih =>
    have h1 := ih fun y hy => h y (List.mem_cons_of_mem _ hy)
    have h2 := h x (List.mem_cons_self ..)
    rw [wireNumber, List.length_cons, Nat.pow_succ]
    omega

/-- Only bytes. -/
def Bytes (b : List Nat) : Prop := ∀ x ∈ b, x < 256

theorem readNum_some {n v : Nat} {b r : List Nat} (hb : Bytes b) (h : readNum n b = some (v, r)) :
    v < 2 ^ (8 * n) ∧ Bytes r := by
  unfold readNum at h
  split at h
  case isFalse => cases h
  case isTrue hn =>
    simp only [Option.some.injEq, Prod.mk.injEq] at h
    obtain ⟨rfl, rfl⟩ := h
    refine ⟨?_, fun x hx => hb x (List.mem_of_mem_drop hx)⟩
    have := wireNumber_lt (b := b.take n) fun x hx => hb x (List.mem_of_mem_take hx)
    rw [List.length_take_of_le hn, show (256 : Nat) = 2 ^ 8 from rfl, ← Nat.pow_mul] at this
    exact this

theorem read_bind {α β : Type} {x : Option (α × List Nat)} {f : α × List Nat → Option β} {y : β}
    (h : x.bind f = some y) : ∃ v r, x = some (v, r) ∧ f (v, r) = some y := by
  cases x with
  | none => cases h
  | some v => exact ⟨v.1, v.2, rfl, h⟩

theorem readBool_some {t : Bool} {b r : List Nat} (hb : Bytes b) (h : readBool b = some (t, r)) : Bytes r := by
  unfold readBool at h
  obtain ⟨v, r', h1, h2⟩ := read_bind h
  have := (readNum_some hb h1).2
  dsimp only at h2
  split at h2
  · simp only [Option.some.injEq, Prod.mk.injEq] at h2
    rw [← h2.2]; exact this
  · simp only [Option.some.injEq, Prod.mk.injEq] at h2
    rw [← h2.2]; exact this
  · cases h2

theorem readOption_some {α : Type} {f : List Nat → Option (α × List Nat)} {P : α → Prop}
    (hf : ∀ b x r, Bytes b → f b = some (x, r) → P x ∧ Bytes r) {o : Option α} {b r : List Nat} (hb : Bytes b)
    (h : readOption f b = some (o, r)) : (∀ x, o = some x → P x) ∧ Bytes r := by
  unfold readOption at h
  obtain ⟨t, r', h1, h2⟩ := read_bind h
  have hr := readBool_some hb h1
  cases t with
  | false =>
    simp only [Option.some.injEq, Prod.mk.injEq] at h2
    obtain ⟨rfl, rfl⟩ := h2
    exact ⟨fun x hx => (nomatch hx), hr⟩
  | true =>
    obtain ⟨x, r'', h3, h4⟩ := read_bind h2
    obtain ⟨hx, hr'⟩ := hf _ _ _ hr h3
    simp only [Option.some.injEq, Prod.mk.injEq] at h4
    obtain ⟨rfl, rfl⟩ := h4
    exact ⟨fun y hy => by cases hy; exact hx, hr'⟩

theorem readPoints_some {n : Nat} {ps : List Point} {b r : List Nat} (hb : Bytes b) (h : readPoints n b = some (ps, r)) :
    (∀ q ∈ ps, q.price < 2 ^ 128 ∧ q.liq < 2 ^ 128) ∧ Bytes r ∧ ps.length = n := by
  induction n generalizing ps b r with
  | zero =>
    simp only [readPoints, Option.some.injEq, Prod.mk.injEq] at h
    obtain ⟨rfl, rfl⟩ := h
    exact ⟨fun q hq => (nomatch hq), hb, rfl⟩
  | succ n ih =>
    unfold readPoints at h
    obtain ⟨x, r1, h1, h⟩ := read_bind h
    obtain ⟨y, r2, h2, h⟩ := read_bind h
    obtain ⟨qs, r3, h3, h⟩ := read_bind h
    simp only [Option.some.injEq, Prod.mk.injEq] at h
    obtain ⟨rfl, rfl⟩ := h
    obtain ⟨k1, hb⟩ := readNum_some hb h1
    obtain ⟨k2, hb⟩ := readNum_some hb h2
    obtain ⟨k3, hb, hl⟩ := ih hb h3
    refine ⟨fun q hq => ?_, hb, by rw [List.length_cons, hl]⟩
    rcases List.mem_cons.1 hq with rfl | hq
    · exact ⟨k1, k2⟩
    · exact k3 q hq

theorem readBaseFee_some {f : BaseFeeConfig} {b r : List Nat} (hb : Bytes b) (h : readBaseFee b = some (f, r)) :
    (f.cliff < 2 ^ 64 ∧ f.first < 2 ^ 16 ∧ f.second < 2 ^ 64 ∧ f.third < 2 ^ 64 ∧ f.mode < 2 ^ 8) ∧ Bytes r := by
  unfold readBaseFee at h
  obtain ⟨_, _, e, h⟩ := read_bind h; obtain ⟨k1, hb⟩ := readNum_some hb e
  obtain ⟨_, _, e, h⟩ := read_bind h; obtain ⟨k2, hb⟩ := readNum_some hb e
  obtain ⟨_, _, e, h⟩ := read_bind h; obtain ⟨k3, hb⟩ := readNum_some hb e
  obtain ⟨_, _, e, h⟩ := read_bind h; obtain ⟨k4, hb⟩ := readNum_some hb e
  obtain ⟨_, _, e, h⟩ := read_bind h; obtain ⟨k5, hb⟩ := readNum_some hb e
  simp only [Option.some.injEq, Prod.mk.injEq] at h
  obtain ⟨rfl, rfl⟩ := h
  exact ⟨⟨k1, k2, k3, k4, k5⟩, hb⟩

theorem readDynamicFee_some {f : DynamicFeeConfig} {b r : List Nat} (hb : Bytes b) (h : readDynamicFee b = some (f, r)) :
    (f.initialized = 1 ∧ f.binStep < 2 ^ 16 ∧ f.binStepU128 < 2 ^ 128 ∧ f.filterPeriod < 2 ^ 16 ∧ f.decayPeriod < 2 ^ 16 ∧
      f.reductionFactor < 2 ^ 16 ∧ f.maxVolAcc < 2 ^ 32 ∧ f.vfc < 2 ^ 32) ∧ Bytes r := by
  unfold readDynamicFee at h
  obtain ⟨_, _, e, h⟩ := read_bind h; obtain ⟨k1, hb⟩ := readNum_some hb e
  obtain ⟨_, _, e, h⟩ := read_bind h; obtain ⟨k2, hb⟩ := readNum_some hb e
  obtain ⟨_, _, e, h⟩ := read_bind h; obtain ⟨k3, hb⟩ := readNum_some hb e
  obtain ⟨_, _, e, h⟩ := read_bind h; obtain ⟨k4, hb⟩ := readNum_some hb e
  obtain ⟨_, _, e, h⟩ := read_bind h; obtain ⟨k5, hb⟩ := readNum_some hb e
  obtain ⟨_, _, e, h⟩ := read_bind h; obtain ⟨k6, hb⟩ := readNum_some hb e
  obtain ⟨_, _, e, h⟩ := read_bind h; obtain ⟨k7, hb⟩ := readNum_some hb e
  simp only [Option.some.injEq, Prod.mk.injEq] at h
  obtain ⟨rfl, rfl⟩ := h
  exact ⟨⟨rfl, k1, k2, k3, k4, k5, k6, k7⟩, hb⟩

theorem readPoolFees_some {f : PoolFeesConfig} {b r : List Nat} (hb : Bytes b) (h : readPoolFees b = some (f, r)) :
    (f.base.cliff < 2 ^ 64 ∧ f.base.first < 2 ^ 16 ∧ f.base.second < 2 ^ 64 ∧ f.base.third < 2 ^ 64 ∧ f.base.mode < 2 ^ 8) ∧
    (f.dyn.initialized ≤ 1 ∧ f.dyn.binStep < 2 ^ 16 ∧ f.dyn.binStepU128 < 2 ^ 128 ∧ f.dyn.filterPeriod < 2 ^ 16 ∧
      f.dyn.decayPeriod < 2 ^ 16 ∧ f.dyn.reductionFactor < 2 ^ 16 ∧ f.dyn.maxVolAcc < 2 ^ 32 ∧ f.dyn.vfc < 2 ^ 32) ∧
    DynamicAsked f.dyn ∧ Bytes r := by
  unfold readPoolFees at h
  obtain ⟨_, _, e, h⟩ := read_bind h; obtain ⟨k1, hb⟩ := readBaseFee_some hb e
  obtain ⟨o, _, e, h⟩ := read_bind h
  obtain ⟨k2, hb⟩ := readOption_some (fun _ _ _ hb e => readDynamicFee_some hb e) hb e
  simp only [Option.some.injEq, Prod.mk.injEq] at h
  obtain ⟨rfl, rfl⟩ := h
  refine ⟨k1, ?_, ?_, hb⟩
  · cases o with
    | none =>
      dsimp only [Option.getD_none]
      exact ⟨by decide, by decide, by decide, by decide, by decide, by decide, by decide, by decide⟩
    | some d => obtain ⟨i, l⟩ := k2 d rfl; exact ⟨Nat.le_of_eq i, l⟩
  · cases o with
    | none => exact .inr rfl
    | some d => exact .inl (k2 d rfl).1

theorem readLockedVesting_some {f : LockedVesting} {b r : List Nat} (hb : Bytes b) (h : readLockedVesting b = some (f, r)) :
    (f.amountPerPeriod < 2 ^ 64 ∧ f.cliffDuration < 2 ^ 64 ∧ f.frequency < 2 ^ 64 ∧ f.numberOfPeriod < 2 ^ 64 ∧
      f.cliffUnlock < 2 ^ 64) ∧ Bytes r := by
  unfold readLockedVesting at h
  obtain ⟨_, _, e, h⟩ := read_bind h; obtain ⟨k1, hb⟩ := readNum_some hb e
  obtain ⟨_, _, e, h⟩ := read_bind h; obtain ⟨k2, hb⟩ := readNum_some hb e
  obtain ⟨_, _, e, h⟩ := read_bind h; obtain ⟨k3, hb⟩ := readNum_some hb e
  obtain ⟨_, _, e, h⟩ := read_bind h; obtain ⟨k4, hb⟩ := readNum_some hb e
  obtain ⟨_, _, e, h⟩ := read_bind h; obtain ⟨k5, hb⟩ := readNum_some hb e
  simp only [Option.some.injEq, Prod.mk.injEq] at h
  obtain ⟨rfl, rfl⟩ := h
  exact ⟨⟨k1, k2, k3, k4, k5⟩, hb⟩

theorem readLiqVesting_some {f : LiqVestingParams} {b r : List Nat} (hb : Bytes b) (h : readLiqVesting b = some (f, r)) :
    (f.pct < 2 ^ 8 ∧ f.bpsPerPeriod < 2 ^ 16 ∧ f.numPeriods < 2 ^ 16 ∧ f.cliffDuration < 2 ^ 32 ∧
      f.frequency < 2 ^ 32) ∧ Bytes r := by
  unfold readLiqVesting at h
  obtain ⟨_, _, e, h⟩ := read_bind h; obtain ⟨k1, hb⟩ := readNum_some hb e
  obtain ⟨_, _, e, h⟩ := read_bind h; obtain ⟨k2, hb⟩ := readNum_some hb e
  obtain ⟨_, _, e, h⟩ := read_bind h; obtain ⟨k3, hb⟩ := readNum_some hb e
  obtain ⟨_, _, e, h⟩ := read_bind h; obtain ⟨k4, hb⟩ := readNum_some hb e
  obtain ⟨_, _, e, h⟩ := read_bind h; obtain ⟨k5, hb⟩ := readNum_some hb e
  simp only [Option.some.injEq, Prod.mk.injEq] at h
  obtain ⟨rfl, rfl⟩ := h
  exact ⟨⟨k1, k2, k3, k4, k5⟩, hb⟩

theorem readSupply_some {f : Nat × Nat} {b r : List Nat} (hb : Bytes b) (h : readSupply b = some (f, r)) :
    (f.1 < 2 ^ 64 ∧ f.2 < 2 ^ 64) ∧ Bytes r := by
  unfold readSupply at h
  obtain ⟨_, _, e, h⟩ := read_bind h; obtain ⟨k1, hb⟩ := readNum_some hb e
  obtain ⟨_, _, e, h⟩ := read_bind h; obtain ⟨k2, hb⟩ := readNum_some hb e
  simp only [Option.some.injEq, Prod.mk.injEq] at h
  obtain ⟨rfl, rfl⟩ := h
  exact ⟨⟨k1, k2⟩, hb⟩

theorem readConfigParams_typed {p : ConfigParams} {b r : List Nat} (hb : Bytes b) (h : readConfigParams b = some (p, r)) :
    p.Typed ∧ Decoded p ∧ DynamicAsked p.fees.dyn := by
  unfold readConfigParams at h
  obtain ⟨_, _, e, h⟩ := read_bind h; obtain ⟨f1, f2, f3, hb⟩ := readPoolFees_some hb e
  obtain ⟨_, _, e, h⟩ := read_bind h; obtain ⟨_, hb⟩ := readNum_some hb e
  obtain ⟨_, _, e, h⟩ := read_bind h; obtain ⟨_, hb⟩ := readNum_some hb e
  obtain ⟨_, _, e, h⟩ := read_bind h; obtain ⟨_, hb⟩ := readNum_some hb e
  obtain ⟨_, _, e, h⟩ := read_bind h; obtain ⟨_, hb⟩ := readNum_some hb e
  obtain ⟨_, _, e, h⟩ := read_bind h; obtain ⟨_, hb⟩ := readNum_some hb e
  obtain ⟨_, _, e, h⟩ := read_bind h; obtain ⟨_, hb⟩ := readNum_some hb e
  obtain ⟨_, _, e, h⟩ := read_bind h; obtain ⟨_, hb⟩ := readNum_some hb e
  obtain ⟨_, _, e, h⟩ := read_bind h; obtain ⟨_, hb⟩ := readNum_some hb e
  obtain ⟨_, _, e, h⟩ := read_bind h; obtain ⟨_, hb⟩ := readNum_some hb e
  obtain ⟨_, _, e, h⟩ := read_bind h; obtain ⟨kt, hb⟩ := readNum_some hb e
  obtain ⟨_, _, e, h⟩ := read_bind h; obtain ⟨ks, hb⟩ := readNum_some hb e
  obtain ⟨_, _, e, h⟩ := read_bind h; obtain ⟨kl, hb⟩ := readLockedVesting_some hb e
  obtain ⟨_, _, e, h⟩ := read_bind h; obtain ⟨_, hb⟩ := readNum_some hb e
  obtain ⟨o, _, e, h⟩ := read_bind h
  obtain ⟨ko, hb⟩ := readOption_some (fun _ _ _ hb e => readSupply_some hb e) hb e
  obtain ⟨_, _, e, h⟩ := read_bind h; obtain ⟨_, hb⟩ := readNum_some hb e
  obtain ⟨_, _, e, h⟩ := read_bind h; obtain ⟨_, hb⟩ := readNum_some hb e
  obtain ⟨_, _, e, h⟩ := read_bind h; obtain ⟨_, hb⟩ := readNum_some hb e
  obtain ⟨_, _, e, h⟩ := read_bind h; obtain ⟨_, hb⟩ := readNum_some hb e
  obtain ⟨_, _, e, h⟩ := read_bind h; obtain ⟨m1, hb⟩ := readNum_some hb e
  obtain ⟨_, _, e, h⟩ := read_bind h; obtain ⟨m2, hb⟩ := readNum_some hb e
  obtain ⟨_, _, e, h⟩ := read_bind h; obtain ⟨m3, hb⟩ := readNum_some hb e
  obtain ⟨_, _, e, h⟩ := read_bind h; obtain ⟨kc, hb⟩ := readNum_some hb e
  obtain ⟨_, _, e, h⟩ := read_bind h; obtain ⟨kp, hb⟩ := readLiqVesting_some hb e
  obtain ⟨_, _, e, h⟩ := read_bind h; obtain ⟨kr, hb⟩ := readLiqVesting_some hb e
  obtain ⟨_, _, e, h⟩ := read_bind h; obtain ⟨m4, hb⟩ := readNum_some hb e
  obtain ⟨_, _, e, h⟩ := read_bind h; obtain ⟨m5, hb⟩ := readNum_some hb e
  obtain ⟨_, _, e, h⟩ := read_bind h; obtain ⟨m6, hb⟩ := readNum_some hb e
  obtain ⟨_, _, e, h⟩ := read_bind h; obtain ⟨m7, hb⟩ := readNum_some hb e
  obtain ⟨_, _, e, h⟩ := read_bind h; obtain ⟨m8, hb⟩ := readNum_some hb e
  obtain ⟨_, _, e, h⟩ := read_bind h; replace hb := readBool_some hb e
  obtain ⟨_, _, e, h⟩ := read_bind h; obtain ⟨m9, hb⟩ := readNum_some hb e
  obtain ⟨_, _, e, h⟩ := read_bind h; obtain ⟨_, hb⟩ := readNum_some hb e
  obtain ⟨_, _, e, h⟩ := read_bind h; obtain ⟨_, hb⟩ := readNum_some hb e
  obtain ⟨_, _, e, h⟩ := read_bind h; obtain ⟨kq, _⟩ := readPoints_some hb e
  simp only [Option.some.injEq, Prod.mk.injEq] at h
  obtain ⟨rfl, rfl⟩ := h
  refine ⟨?_, ?_, f3⟩
  · exact {
      cliff := Nat.le_pred_of_lt f1.1
      first := Nat.le_pred_of_lt f1.2.1
      second := Nat.le_pred_of_lt f1.2.2.1
      third := Nat.le_pred_of_lt f1.2.2.2.1
      dynInit := f2.1
      filter := Nat.le_pred_of_lt f2.2.2.2.1
      decay := Nat.le_pred_of_lt f2.2.2.2.2.1
      threshold := Nat.le_pred_of_lt kt
      start := Nat.le_pred_of_lt ks
      lvAmount := Nat.le_pred_of_lt kl.1
      lvCliff := Nat.le_pred_of_lt kl.2.1
      lvFreq := Nat.le_pred_of_lt kl.2.2.1
      lvNum := Nat.le_pred_of_lt kl.2.2.2.1
      lvUnlock := Nat.le_pred_of_lt kl.2.2.2.2
      supply := fun pre post hs =>
        ⟨Nat.le_pred_of_lt (ko (pre, post) hs).1, Nat.le_pred_of_lt (ko (pre, post) hs).2⟩
      creationFee := Nat.le_pred_of_lt kc
      pvPct := Nat.le_pred_of_lt kp.1
      pvBps := Nat.le_pred_of_lt kp.2.1
      pvNum := Nat.le_pred_of_lt kp.2.2.1
      pvCliff := Nat.le_pred_of_lt kp.2.2.2.1
      pvFreq := Nat.le_pred_of_lt kp.2.2.2.2
      cvPct := Nat.le_pred_of_lt kr.1
      cvBps := Nat.le_pred_of_lt kr.2.1
      cvNum := Nat.le_pred_of_lt kr.2.2.1
      cvCliff := Nat.le_pred_of_lt kr.2.2.2.1
      cvFreq := Nat.le_pred_of_lt kr.2.2.2.2
      curve := fun q hq => ⟨Nat.le_pred_of_lt (kq q hq).1, Nat.le_pred_of_lt (kq q hq).2⟩ }
  · exact ⟨f1.2.2.2.2, f2.2.2.2.2.2.2.1, f2.2.2.2.2.2.2.2, f2.2.1, f2.2.2.2.2.2.1, f2.2.2.1, m1, m2, m3, m9, m4, m5, m6,
      m7, m8⟩

end Dbc

namespace Dbc
open Spec

/-! ### Accounts -/

theorem earlierPool_eq (disc : Nat) (k : PoolKeys) (p : Pool) :
    earlierPool disc k p = (withoutLater p).bytes disc k := by
  unfold earlierPool Pool.bytes
  rw [show (withoutLater p).fields disc k = [(8, disc), (8, p.vol.lastUpdate), (8, 0), (16, p.vol.priceRef), (16, p.vol.volAcc), (16, p.vol.volRef),
   (32, k.config), (32, p.creator), (32, k.baseMint), (32, k.baseVault), (32, k.quoteVault),
   (8, p.baseReserve), (8, p.quoteReserve), (8, p.protocolBaseFee), (8, p.protocolQuoteFee), (8, p.partnerBaseFee),
   (8, p.partnerQuoteFee), (16, p.sqrtPrice), (8, p.activationPoint), (1, p.poolType), (1, p.isMigrated),
   (1, p.partnerSurplus), (1, p.protocolSurplus), (1, p.migrationProgress), (1, p.isWithdrawLeftover),
   (1, p.creatorSurplus), (1, p.migrationFeeStatus), (8, p.metrics.protocolBase), (8, p.metrics.protocolQuote),
   (8, p.metrics.tradingBase), (8, p.metrics.tradingQuote), (8, p.finishTimestamp), (8, p.creatorBaseFee),
   (8, p.creatorQuoteFee)] ++ [(1, 0), (1, 0), (1, 0), (5, 0), (2, 0), (6, 0), (8, 0), (8, 0), (24, 0)] from rfl]
  rw [pack_append, pack_append]
  congr 1

theorem withoutLater_fits {p : Pool} (h : PoolFits p) : PoolFits (withoutLater p) :=
  { h with
    legacyCreationBits := Nat.two_pow_pos _
    creationBits := Nat.two_pow_pos _
    hasSwap := Nat.two_pow_pos _
    migrationFeeBps := Nat.two_pow_pos _
    protocolMigBaseFee := Nat.two_pow_pos _
    protocolMigQuoteFee := Nat.two_pow_pos _ }

theorem readPool_earlier {p : Pool} (h : PoolFits p) {k : PoolKeys} (hk : PoolKeysFit k p) (disc : Nat) :
    readPool (earlierPool disc k p) = (k, withoutLater p) := by
  rw [earlierPool_eq]
  exact readPool_bytes (withoutLater_fits h) ⟨hk.config, hk.baseMint, hk.baseVault, hk.quoteVault, hk.creator⟩ disc

theorem curveFields_eq (ps : List Point) : (ps.flatMap fun q => [(16, q.price), (16, q.liq)]) = curveFields ps := by
  induction ps with
  | nil => rfl
  | cons q ps ih => rw [List.flatMap_cons, ih]; rfl

theorem fieldBytes_pair {a : Nat} (h : a < 256) (b : Nat) : fieldBytes 2 (a + 256 * b) = pack [(1, a), (1, b)] := by
  simp only [pack, fieldBytes, List.append_nil, List.cons_append, List.nil_append, List.cons.injEq, and_true]
  omega

theorem pack_swap {a b c d : List (Nat × Nat)} (h1 : pack a = pack b) (h2 : pack c = pack d) : pack (a ++ c) = pack (b ++ d) := by
  rw [pack_append, pack_append, h1, h2]

theorem earlierConfig_eq (disc ver : Nat) {ps rs : Nat} (hp : ps < 256) (tl : List (Nat × Nat)) (c : PoolConfig)
    {co dy bp : Nat} (ht : pack tl = pack [(1, co), (1, dy), (2, bp), (1, 0), (1, 0), (2, 0), (8, 0), (2, 0), (2, 0), (4, 0), (8, 0)]) :
    earlierConfig disc ver ps rs tl c =
      pack ((onlyEarlier c co dy bp).headPadded disc 0 (ps + 256 * rs) ver ++ curveFields c.curve) := by
  unfold earlierConfig
  rw [curveFields_eq]
  rw [show (onlyEarlier c co dy bp).headPadded disc 0 (ps + 256 * rs) ver =
    [(8, disc), (32, c.quoteMint), (32, c.feeClaimer), (32, c.leftoverReceiver),
   (8, c.fees.base.cliff), (8, c.fees.base.second), (8, c.fees.base.third), (2, c.fees.base.first), (1, c.fees.base.mode),
   (5, 0), (1, c.fees.dyn.initialized), (7, 0), (4, c.fees.dyn.maxVolAcc), (4, c.fees.dyn.vfc), (2, c.fees.dyn.binStep),
   (2, c.fees.dyn.filterPeriod), (2, c.fees.dyn.decayPeriod), (2, c.fees.dyn.reductionFactor), (8, 0),
   (16, c.fees.dyn.binStepU128)] ++
   [(1, 0), (1, 0), (2, 0), (2, 0), (2, 0), (4, 0), (4, 0), (1, 0), (1, 0), (2, 0), (2, 0), (2, 0), (4, 0), (4, 0), (14, 0)] ++
   [(2, ps + 256 * rs)] ++
   [(1, c.collectFeeMode), (1, c.migrationOption), (1, c.activationType), (1, c.tokenDecimal), (1, ver),
   (1, c.tokenType), (1, c.quoteTokenFlag), (1, c.partnerPermLockedPct), (1, c.partnerLiqPct),
   (1, c.creatorPermLockedPct), (1, c.creatorLiqPct), (1, c.migrationFeeOption), (1, c.fixedSupplyFlag),
   (1, c.creatorTradingFeePct), (1, c.tokenUpdateAuthority), (1, c.migrationFeePct), (1, c.creatorMigrationFeePct)] ++
   [(7, 0)] ++
   [(8, c.swapBaseAmount), (8, c.migrationQuoteThreshold), (8, c.migrationBaseThreshold), (16, c.migrationSqrtPrice),
   (8, c.lockedVesting.amountPerPeriod), (8, c.lockedVesting.cliffDuration), (8, c.lockedVesting.frequency),
   (8, c.lockedVesting.numberOfPeriod), (8, c.lockedVesting.cliffUnlock), (8, 0), (8, c.preMigrationSupply),
   (8, c.postMigrationSupply)] ++
   [(1, co), (1, dy), (2, bp), (1, 0), (1, 0), (2, 0), (8, 0), (2, 0), (2, 0), (4, 0), (8, 0)] ++
   [(16, c.sqrtStartPrice)] from rfl]
  refine pack_swap (pack_swap (pack_swap (pack_swap (pack_swap (pack_swap (pack_swap ?_ ?_) rfl) ?_) rfl) ht) rfl) rfl
  · rw [List.append_assoc]
    exact pack_swap rfl (by decide)
  · exact (fieldBytes_pair hp rs).symm.trans (List.append_nil _).symm
  · decide

theorem onlyEarlier_fits {c : PoolConfig} (h : ConfigFits c) {co dy bp : Nat} (hm : FieldsFit [(1, co), (1, dy), (2, bp)]) :
    ConfigFits (onlyEarlier c co dy bp) :=
  { h with
    partnerVestingIsInit := Nat.two_pow_pos _
    partnerVestingPct := Nat.two_pow_pos _
    partnerVestingBpsPerPeriod := Nat.two_pow_pos _
    partnerVestingNumPeriods := Nat.two_pow_pos _
    partnerVestingFrequency := Nat.two_pow_pos _
    partnerVestingCliffDuration := Nat.two_pow_pos _
    creatorVestingIsInit := Nat.two_pow_pos _
    creatorVestingPct := Nat.two_pow_pos _
    creatorVestingBpsPerPeriod := Nat.two_pow_pos _
    creatorVestingNumPeriods := Nat.two_pow_pos _
    creatorVestingFrequency := Nat.two_pow_pos _
    creatorVestingCliffDuration := Nat.two_pow_pos _
    migratedFeeCollectFeeMode := hm.head
    migratedFeeDynamicFee := hm.tail.head
    migratedFeePoolFeeBps := hm.tail.tail.head
    migratedFeeBaseFeeMode := Nat.two_pow_pos _
    enableFirstSwapMinFee := Nat.two_pow_pos _
    migratedFeeCompoundingBps := Nat.two_pow_pos _
    poolCreationFee := Nat.two_pow_pos _
    migratedFeeNumberOfPeriod := Nat.two_pow_pos _
    migratedFeeSqrtPriceStepBps := Nat.two_pow_pos _
    migratedFeeExpiration := Nat.two_pow_pos _
    migratedFeeReduction := Nat.two_pow_pos _ }

theorem readConfig_earlier {c : PoolConfig} (h : ConfigFits c) (hk : ConfigKeysFit c) {ps : Nat} (hp : ps < 256)
    (disc ver rs : Nat) {co dy bp : Nat} (hm : FieldsFit [(1, co), (1, dy), (2, bp)]) {tl : List (Nat × Nat)}
    (ht : pack tl = pack [(1, co), (1, dy), (2, bp), (1, 0), (1, 0), (2, 0), (8, 0), (2, 0), (2, 0), (4, 0), (8, 0)]) :
    readConfig (earlierConfig disc ver ps rs tl c) = onlyEarlier c co dy bp := by
  rw [earlierConfig_eq disc ver hp tl c ht]
  exact readConfig_padded (c := onlyEarlier c co dy bp) (onlyEarlier_fits h hm) ⟨hk.quoteMint, hk.feeClaimer, hk.leftoverReceiver⟩ disc 0
    (ps + 256 * rs) ver

theorem pack_tail06 (co dy bp : Nat) : pack (tail06 co dy bp) =
    pack [(1, co), (1, dy), (2, bp), (1, 0), (1, 0), (2, 0), (8, 0), (2, 0), (2, 0), (4, 0), (8, 0)] := by
  unfold tail06
  rw [show [(1, co), (1, dy), (2, bp), (1, 0), (1, 0), (2, 0), (8, 0), (2, 0), (2, 0), (4, 0), (8, 0)] =
    [(1, co), (1, dy), (2, bp)] ++ [(1, 0), (1, 0), (2, 0), (8, 0), (2, 0), (2, 0), (4, 0), (8, 0)] from rfl, List.append_assoc]
  exact pack_swap rfl (by decide)

end Dbc
