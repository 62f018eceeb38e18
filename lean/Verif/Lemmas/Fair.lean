import Verif.Lemmas.CompareOut
import Verif.Lemmas.Charge

/-!
# What a trade gives up to rounding

The walks along the curve lose at most one unit per piece on each side. `B` and `Q` stand for the exact base and quote
amounts of the curve up to a price.
-/

namespace Dbc
open Spec

/-- `B` and `Q` follow one piece of the curve. -/
def OnPiece (B Q : Nat → ℚ) (lo hi L : Nat) : Prop :=
  ∀ x y, lo ≤ x → x ≤ y → y ≤ hi →
    Q y - Q x = ((L * (y - x) : Nat) : ℚ) / 2 ^ 128 ∧ B y - B x = ((L * (y - x) : Nat) : ℚ) / ((x * y : Nat) : ℚ)

/-- `B` and `Q` follow every piece above `lo`. -/
def ChainUp (B Q : Nat → ℚ) : Nat → List Point → Prop
  | _, [] => True
  | lo, p :: ps => OnPiece B Q lo p.price p.liq ∧ ChainUp B Q p.price ps

/-- `B` and `Q` follow every piece from `top` down to `start`. -/
def ChainDown (B Q : Nat → ℚ) (start L0 : Nat) : Nat → List (Point × Nat) → Prop
  | top, [] => OnPiece B Q start top L0
  | top, d :: ds => d.1.price ≤ top ∧ OnPiece B Q d.1.price top d.2 ∧ ChainDown B Q start L0 d.1.price ds

theorem chainUp_of {B Q : Nat → ℚ} {lo : Nat} {ps : List Point} (h : ∀ s ∈ segs lo ps, OnPiece B Q s.lo s.hi s.L) :
    ChainUp B Q lo ps := by
  induction ps generalizing lo with
  | nil => trivial
  | cons p ps ih =>
    exact ⟨h ⟨lo, p.price, p.liq⟩ (by simp [segs]), ih fun s hs => h s (by simp [segs, hs])⟩

theorem chainDown_append {B Q : Nat → ℚ} {start L0 top : Nat} {as : List (Point × Nat)} {d : Point × Nat}
    (h : ChainDown B Q d.1.price d.2 top as) (h0 : OnPiece B Q start d.1.price L0) (hlt : ∀ e ∈ as, d.1.price ≤ e.1.price)
    (ht : d.1.price ≤ top) : ChainDown B Q start L0 top (as ++ [d]) := by
  induction as generalizing top with
  | nil => exact ⟨ht, h, h0⟩
  | cons a as ih =>
    exact ⟨h.1, h.2.1, ih h.2.2 (fun e he => hlt e (List.mem_cons_of_mem _ he)) (hlt a List.mem_cons_self)⟩

theorem chainDown_of {B Q : Nat → ℚ} {lo : Nat} {p : Point} {ps : List Point} (hp : Proper lo (p :: ps))
    (h : ∀ s ∈ segs lo (p :: ps), OnPiece B Q s.lo s.hi s.L) :
    ChainDown B Q lo p.liq (topPrice lo (p :: ps)) (downs (p :: ps)) := by
  induction ps generalizing lo p with
  | nil => exact h ⟨lo, p.price, p.liq⟩ (by simp [segs])
  | cons q rest ih =>
    have hp' : Proper p.price (q :: rest) := by
      simp only [Proper] at hp ⊢
      exact hp.2.2.2
    refine chainDown_append (ih hp' fun s hs => h s (List.mem_cons_of_mem _ hs)) (h ⟨lo, p.price, p.liq⟩ (by simp [segs]))
      (fun e he => ?_) ?_
    · have := (downs_ok hp' e he).1
      dsimp only
      omega
    · have := Dbc.Proper.lo_le_top hp'
      exact this

theorem onPiece_curve {lo : Nat} {ps : List Point} (hp : Proper lo ps) :
    ∀ s ∈ segs lo ps, OnPiece (baseTo (segs lo ps)) (quoteTo (segs lo ps)) s.lo s.hi s.L := by
  intro s hs x y h1 h2 h3
  obtain ⟨r, hr⟩ := total_move quoteSeg hp hs
  obtain ⟨r', hr'⟩ := total_move baseSeg hp hs
  have hb := segs_bounds hp hs
  have a1 := hr x h1 (by omega)
  have a2 := hr y (by omega) h3
  have b1 := hr' x h1 (by omega)
  have b2 := hr' y (by omega) h3
  refine ⟨?_, ?_⟩
  · unfold quoteTo
    rw [a1, a2, ← quoteSeg_step (s := s) h2]
    ring
  · unfold baseTo
    rw [b1, b2, ← baseSeg_step (s := s) (by omega) h2]
    ring

/-! ### Rounding of one step -/

theorem cast_divCeil {a b : Nat} (hb : 0 < b) :
    (a : ℚ) / b ≤ (divCeil a b : Nat) ∧ ((divCeil a b : Nat) : ℚ) < (a : ℚ) / b + 1 := by
  have hb' : (0 : ℚ) < b := by exact_mod_cast hb
  constructor
  · rw [div_le_iff₀ hb']
    exact_mod_cast le_divCeil_mul a hb
  · rw [← sub_lt_iff_lt_add, lt_div_iff₀ hb', sub_mul, one_mul, sub_lt_iff_lt_add]
    exact_mod_cast divCeil_mul_lt a hb

theorem cast_floor {a b : Nat} (hb : 0 < b) :
    ((a / b : Nat) : ℚ) ≤ (a : ℚ) / b ∧ (a : ℚ) / b < ((a / b : Nat) : ℚ) + 1 := by
  have hb' : (0 : ℚ) < b := by exact_mod_cast hb
  constructor
  · rw [le_div_iff₀ hb']
    exact_mod_cast Nat.div_mul_le_self a b
  · rw [div_lt_iff₀ hb']
    have := Nat.lt_mul_div_succ a hb
    rw [Nat.mul_comm] at this
    exact_mod_cast this

variable {B Q : Nat → ℚ}

theorem OnPiece.quoteUp {lo hi L x y : Nat} (h : OnPiece B Q lo hi L) (h1 : lo ≤ x) (h2 : x ≤ y) (h3 : y ≤ hi) :
    Q y - Q x ≤ (Qc L x y : Nat) ∧ ((Qc L x y : Nat) : ℚ) < Q y - Q x + 1 := by
  rw [(h x y h1 h2 h3).1]
  have := cast_divCeil (a := L * (y - x)) (b := 2 ^ 128) (by positivity)
  unfold Qc
  rw [show ((2 ^ 128 : Nat) : ℚ) = 2 ^ 128 from by push_cast; rfl] at this
  exact this

theorem OnPiece.quoteDown {lo hi L x y : Nat} (h : OnPiece B Q lo hi L) (h1 : lo ≤ x) (h2 : x ≤ y) (h3 : y ≤ hi) :
    ((Qf L x y : Nat) : ℚ) ≤ Q y - Q x ∧ Q y - Q x < (Qf L x y : Nat) + 1 := by
  rw [(h x y h1 h2 h3).1]
  have := cast_floor (a := L * (y - x)) (b := 2 ^ 128) (by positivity)
  unfold Qf
  rw [show ((2 ^ 128 : Nat) : ℚ) = 2 ^ 128 from by push_cast; rfl] at this
  exact this

theorem OnPiece.baseUp {lo hi L x y : Nat} (h : OnPiece B Q lo hi L) (h0 : 0 < x) (h1 : lo ≤ x) (h2 : x ≤ y) (h3 : y ≤ hi) :
    B y - B x ≤ (Bc L x y : Nat) ∧ ((Bc L x y : Nat) : ℚ) < B y - B x + 1 := by
  rw [(h x y h1 h2 h3).2]
  have hy : 0 < y := by omega
  exact cast_divCeil (a := L * (y - x)) (b := x * y) (by positivity)

theorem OnPiece.baseDown {lo hi L x y : Nat} (h : OnPiece B Q lo hi L) (h0 : 0 < x) (h1 : lo ≤ x) (h2 : x ≤ y) (h3 : y ≤ hi) :
    ((Bf L x y : Nat) : ℚ) ≤ B y - B x ∧ B y - B x < (Bf L x y : Nat) + 1 := by
  rw [(h x y h1 h2 h3).2]
  have hy : 0 < y := by omega
  exact cast_floor (a := L * (y - x)) (b := x * y) (by positivity)

theorem OnPiece.quote_le {lo hi L x y n : Nat} (h : OnPiece B Q lo hi L) (h1 : lo ≤ x) (h2 : x ≤ y) (h3 : y ≤ hi) :
    Q y - Q x ≤ n ↔ L * (y - x) ≤ n * 2 ^ 128 := by
  rw [(h x y h1 h2 h3).1, div_le_iff₀ (by positivity)]
  exact_mod_cast Iff.rfl

theorem OnPiece.le_quote {lo hi L x y n : Nat} (h : OnPiece B Q lo hi L) (h1 : lo ≤ x) (h2 : x ≤ y) (h3 : y ≤ hi) :
    n ≤ Q y - Q x ↔ n * 2 ^ 128 ≤ L * (y - x) := by
  rw [(h x y h1 h2 h3).1, le_div_iff₀ (by positivity)]
  exact_mod_cast Iff.rfl

theorem OnPiece.base_le {lo hi L x y n : Nat} (h : OnPiece B Q lo hi L) (h0 : 0 < x) (h1 : lo ≤ x) (h2 : x ≤ y) (h3 : y ≤ hi) :
    B y - B x ≤ n ↔ L * (y - x) ≤ n * (x * y) := by
  have hy : 0 < y := by omega
  have : (0 : ℚ) < ((x * y : Nat) : ℚ) := by exact_mod_cast Nat.mul_pos h0 hy
  rw [(h x y h1 h2 h3).2, div_le_iff₀ this]
  exact_mod_cast Iff.rfl

theorem OnPiece.le_base {lo hi L x y n : Nat} (h : OnPiece B Q lo hi L) (h0 : 0 < x) (h1 : lo ≤ x) (h2 : x ≤ y) (h3 : y ≤ hi) :
    n ≤ B y - B x ↔ n * (x * y) ≤ L * (y - x) := by
  have hy : 0 < y := by omega
  have : (0 : ℚ) < ((x * y : Nat) : ℚ) := by exact_mod_cast Nat.mul_pos h0 hy
  rw [(h x y h1 h2 h3).2, le_div_iff₀ this]
  exact_mod_cast Iff.rfl

theorem OnPiece.mono {lo hi L x y : Nat} (h : OnPiece B Q lo hi L) (h1 : lo ≤ x) (h2 : x ≤ y) (h3 : y ≤ hi) :
    B x ≤ B y ∧ Q x ≤ Q y := by
  obtain ⟨a, b⟩ := h x y h1 h2 h3
  have a' : 0 ≤ Q y - Q x := by rw [a]; positivity
  have b' : 0 ≤ B y - B x := by rw [b]; positivity
  exact ⟨by linarith, by linarith⟩

theorem chainUp_mono {lo : Nat} {ps : List Point} (hch : ChainUp B Q lo ps) (hp : Proper lo ps) {x y : Nat}
    (h1 : lo ≤ x) (h2 : x ≤ y) (h3 : y ≤ topPrice lo ps) : B x ≤ B y ∧ Q x ≤ Q y := by
  induction ps generalizing lo x with
  | nil =>
    simp only [topPrice] at h3
    have : x = y := by omega
    subst this
    exact ⟨le_rfl, le_rfl⟩
  | cons p ps ih =>
    simp only [Proper] at hp
    simp only [topPrice] at h3
    by_cases hx : p.price ≤ x
    · exact ih hch.2 hp.2.2.2 hx h2 h3
    · by_cases hy : y ≤ p.price
      · exact hch.1.mono h1 h2 hy
      · have a := hch.1.mono h1 (by omega) le_rfl
        have b := ih hch.2 hp.2.2.2 (x := p.price) le_rfl (by omega) h3
        exact ⟨a.1.trans b.1, a.2.trans b.2⟩

theorem chainDown_mono {start L0 top : Nat} {ds : List (Point × Nat)} (hch : ChainDown B Q start L0 top ds)
    (hd : Downs start ds) {x y : Nat} (h1 : start ≤ x) (h2 : x ≤ y) (h3 : y ≤ top) : B x ≤ B y ∧ Q x ≤ Q y := by
  induction ds generalizing top y with
  | nil => exact OnPiece.mono hch h1 h2 h3
  | cons d ds ih =>
    obtain ⟨c1, hpc, hch'⟩ := hch
    by_cases hy : y ≤ d.1.price
    · exact ih hch' hd.tail h2 hy
    · by_cases hx : d.1.price ≤ x
      · exact hpc.mono hx h2 h3
      · have a := ih hch' hd.tail (y := d.1.price) (by omega) le_rfl
        have b := hpc.mono le_rfl (by omega) h3
        exact ⟨a.1.trans b.1, a.2.trans b.2⟩

/-- The price an exact-in sell moves to is the lowest the input can pay for. -/
theorem nextDown_least {L x y a : Nat} (hL : 0 < L) (hyx : y ≤ x) (h : L * (x - y) ≤ a * (y * x)) :
    divCeil (L * x) (L + a * x) ≤ y := by
  rw [divCeil_le_iff (by omega)]
  have e : L * x = L * (x - y) + L * y := by rw [← Nat.mul_add]; congr 1; omega
  rw [e]
  calc L * (x - y) + L * y ≤ a * (y * x) + L * y := Nat.add_le_add_right h _
    _ = y * (L + a * x) := by ring

/-! ### The four walks -/

theorem buyIn_fair {stop lo cur left out : Nat} {ps : List Point} {r : FromInput} (hch : ChainUp B Q lo ps)
    (hp : Proper lo ps) (hlo : lo ≤ cur) (hs : cur ≤ stop) (ht : stop ≤ topPrice lo ps)
    (h : buyInLoop stop ps cur left out = .ok r) :
    (B r.next - B cur ≤ (r.out : ℚ) - out + ps.length) ∧
    ∀ y, cur ≤ y → y ≤ stop → Q y - Q cur + ps.length ≤ left → y ≤ r.next := by
  induction ps generalizing lo cur left out with
  | nil =>
    simp only [buyInLoop, ok_inj] at h
    subst h
    simp only [topPrice] at ht
    exact ⟨by simp, fun y h1 h2 _ => by dsimp only; omega⟩
  | cons p ps ih =>
    simp only [Proper] at hp
    simp only [topPrice] at ht
    obtain ⟨hp0, hp1, hpL, hpr⟩ := hp
    obtain ⟨hpc, hch'⟩ := hch
    have hpos : (0 : ℚ) ≤ ps.length := by positivity
    simp only [List.length_cons, Nat.cast_add, Nat.cast_one]
    rcases buyInLoop_cons (by omega) (by omega) h with
      ⟨a1, a2, a3, a4, a5, a6, a7, a8⟩ | ⟨a1, a2, a3, a4, a5, a6⟩ | ⟨a1, a2, a3, a4⟩ | ⟨a1, a2⟩
    · refine ⟨?_, fun y h1 h2 h3 => ?_⟩
      · have := (hpc.baseDown (by omega) hlo a6 (by omega)).2
        rw [a5]; push_cast; linarith
      · by_cases hy : y ≤ p.price
        · have hq : Q y - Q cur ≤ left := by linarith
          rw [hpc.quote_le hlo h1 hy] at hq
          rw [a3]
          have : y - cur ≤ left * 2 ^ 128 / p.liq := by
            rw [Nat.le_div_iff_mul_le hpL, Nat.mul_comm]
            exact hq
          omega
        · exfalso
          have hmin : min stop p.price = p.price := by omega
          rw [hmin] at a1 a2
          have hup := (hpc.quoteUp hlo (le_of_lt a1) le_rfl).2
          have hge : Q p.price ≤ Q y := by
            have := chainUp_mono hch' hpr (x := p.price) (y := y) le_rfl (by omega) (by omega)
            exact this.2
          have a2' : ((left : Nat) : ℚ) + 1 ≤ (Qc p.liq cur p.price : Nat) := by exact_mod_cast a2
          linarith
    · refine ⟨?_, fun y h1 h2 h3 => by omega⟩
      have := (hpc.baseDown (by omega) hlo (le_of_lt a1) a2).2
      rw [a5, a6]; push_cast; linarith
    · obtain ⟨b1, b2⟩ := ih hch' hpr le_rfl (le_of_lt a2) ht a4
      have hg := (buyInLoop_grow hpr le_rfl a4).1
      refine ⟨?_, fun y h1 h2 h3 => ?_⟩
      · have := (hpc.baseDown (by omega) hlo (le_of_lt a1) le_rfl).2
        push_cast at b1; linarith
      · by_cases hy : y ≤ p.price
        · omega
        · refine b2 y (by omega) h2 ?_
          have := (hpc.quoteUp hlo (le_of_lt a1) le_rfl).2
          push_cast [Nat.cast_sub a3]
          linarith
    · by_cases hst : stop ≤ cur
      · have a2 := buyInLoop_stopped hpr hst a2
        subst a2
        exact ⟨by dsimp only; linarith, fun y h1 h2 h3 => by dsimp only; omega⟩
      · obtain ⟨b1, b2⟩ := ih hch' hpr (by omega) hs ht a2
        exact ⟨by linarith, fun y h1 h2 h3 => b2 y h1 h2 (by linarith)⟩

theorem buyOut_fair {lo cur left inp i n : Nat} {ps : List Point} (hch : ChainUp B Q lo ps)
    (hp : Proper lo ps) (hlo : lo ≤ cur) (h : buyOutLoop ps cur left inp = .ok (0, i, n)) :
    ((i : ℚ) - inp ≤ Q n - Q cur + ps.length) ∧
    ∀ y, cur ≤ y → y ≤ topPrice lo ps → left + ps.length ≤ B y - B cur → n ≤ y := by
  induction ps generalizing lo cur left inp with
  | nil =>
    simp only [buyOutLoop, ok_inj, Prod.mk.injEq] at h
    obtain ⟨rfl, rfl, rfl⟩ := h
    exact ⟨by simp, fun y h1 h2 _ => h1⟩
  | cons p ps ih =>
    have hp' := hp
    simp only [Proper] at hp
    obtain ⟨hp0, hp1, hpL, hpr⟩ := hp
    obtain ⟨hpc, hch'⟩ := hch
    have hpos : (0 : ℚ) ≤ ps.length := by positivity
    simp only [List.length_cons, Nat.cast_add, Nat.cast_one, topPrice]
    rcases buyOutLoop_cons (by omega) (by omega) (by omega) h with
      ⟨a1, a2, a3, a4, a5, a6, a7, a8⟩ | ⟨a1, a2, a3⟩ | ⟨a1, a2⟩
    · refine ⟨?_, fun y h1 h2 h3 => ?_⟩
      · have := (hpc.quoteUp hlo a7 a8).2
        rw [a6]; push_cast; linarith
      · by_cases hy : y ≤ p.price
        · have hq : (left : ℚ) ≤ B y - B cur := by linarith
          rw [hpc.le_base (by omega) hlo h1 hy] at hq
          rw [a4]
          refine nextUpOut_least (by omega) h1 a3 ?_
          unfold Bf
          rw [Nat.le_div_iff_mul_le (Nat.mul_pos (by omega) (by omega))]
          exact hq
        · omega
    · obtain ⟨b1, b2⟩ := ih hch' hpr le_rfl a3
      refine ⟨?_, fun y h1 h2 h3 => ?_⟩
      · have := (hpc.quoteUp hlo (le_of_lt a1) le_rfl).2
        push_cast at b1; linarith
      · have hd := hpc.baseDown (by omega) hlo (le_of_lt a1) le_rfl
        have a2' : ((Bf p.liq cur p.price : Nat) : ℚ) ≤ left := by exact_mod_cast a2
        by_cases hy : y ≤ p.price
        · exfalso
          have := (hpc.mono (by omega) hy le_rfl).1
          linarith [hd.2]
        · refine b2 y (by omega) h2 ?_
          push_cast [Nat.cast_sub a2]
          linarith [hd.2]
    · obtain ⟨b1, b2⟩ := ih hch' hpr a1 a2
      exact ⟨by linarith, fun y h1 h2 h3 => b2 y h1 h2 (by linarith)⟩

theorem sellIn_fair {start L0 top cur left acc : Nat} {ds : List (Point × Nat)} {r : FromInput}
    (hch : ChainDown B Q start L0 top ds) (hd : Downs start ds) (h0 : 0 < start) (hs : start ≤ cur) (ht : cur ≤ top)
    (h : sellDown start L0 ds ⟨cur, left, acc, false⟩ = .ok r) :
    (Q cur - Q r.next ≤ (r.out : ℚ) - acc + (ds.length + 1)) ∧
    ∀ y, start ≤ y → y ≤ cur → B cur - B y + (ds.length + 1) ≤ left → r.next ≤ y := by
  induction ds generalizing top cur left acc with
  | nil =>
    simp only [List.length_nil, Nat.cast_zero, zero_add]
    rcases sellDown_nil h with ⟨a1, a2, a3, a4⟩ | ⟨a1, a2, a3, a4, a5, a6, a7, a8⟩ | ⟨a1, a2, a3, a4, a5, a6, a7, a8⟩
    · refine ⟨by rw [a3, a4]; linarith, fun y h1 h2 h3 => ?_⟩
      exfalso
      have := (OnPiece.mono hch h1 h2 ht).1
      rw [a1] at h3
      push_cast at h3
      linarith
    · refine ⟨?_, fun y h1 h2 h3 => by omega⟩
      have := (OnPiece.quoteDown hch le_rfl a3 ht).2
      rw [a7, a8]; push_cast; linarith
    · refine ⟨?_, fun y h1 h2 h3 => ?_⟩
      · have := (OnPiece.quoteDown hch a3 a7 ht).2
        rw [a6]; push_cast; linarith
      · have hq : B cur - B y ≤ left := by linarith
        rw [OnPiece.base_le hch (by omega) h1 h2 ht] at hq
        rw [a4]
        exact nextDown_least a2 h2 hq
  | cons d ds ih =>
    obtain ⟨c1, hpc, hch'⟩ := hch
    have hh := hd.head
    have hpos : (0 : ℚ) ≤ ds.length := by positivity
    simp only [List.length_cons, Nat.cast_add, Nat.cast_one]
    rcases sellDown_cons hh h with ⟨a1, a2, a3, a4, a5, a6, a7, a8⟩ | ⟨a1, a2, a3⟩ | ⟨a1, a2⟩
    · refine ⟨?_, fun y h1 h2 h3 => ?_⟩
      · have := (hpc.quoteDown (le_of_lt a6) a7 ht).2
        rw [a5]; push_cast; linarith
      · by_cases hy : d.1.price ≤ y
        · have hq : B cur - B y ≤ left := by linarith
          rw [hpc.base_le (by omega) hy h2 ht] at hq
          rw [a3]
          exact nextDown_least hh.2.2 h2 hq
        · exfalso
          have hup := (hpc.baseUp (by omega) le_rfl (le_of_lt a1) ht).2
          have hge := (chainDown_mono hch' hd.tail h1 (by omega : y ≤ d.1.price) le_rfl).1
          have a2' : ((left : Nat) : ℚ) + 1 ≤ (Bc d.2 d.1.price cur : Nat) := by exact_mod_cast a2
          linarith
    · obtain ⟨b1, b2⟩ := ih hch' hd.tail (le_of_lt hh.1) le_rfl a3
      have hg := (sellDown_grow hd.tail (le_of_lt hh.1) a3).1
      refine ⟨?_, fun y h1 h2 h3 => ?_⟩
      · have := (hpc.quoteDown le_rfl (le_of_lt a1) ht).2
        push_cast at b1; linarith
      · by_cases hy : d.1.price ≤ y
        · omega
        · refine b2 y h1 (by omega) ?_
          have := (hpc.baseUp (by omega) le_rfl (le_of_lt a1) ht).2
          push_cast [Nat.cast_sub a2]
          linarith
    · obtain ⟨b1, b2⟩ := ih hch' hd.tail hs a1 a2
      exact ⟨by linarith, fun y h1 h2 h3 => b2 y h1 h2 (by linarith)⟩

theorem sellOut_fair {start L0 top cur left acc : Nat} {ds : List (Point × Nat)} {r : FromOutput}
    (hch : ChainDown B Q start L0 top ds) (hd : Downs start ds) (h0 : 0 < start) (hs : start ≤ cur) (ht : cur ≤ top)
    (h : sellDownOut start L0 ds ⟨cur, left, acc, false⟩ = .ok r) :
    ((r.amountIn : ℚ) - acc ≤ B cur - B r.next + (ds.length + 1)) ∧
    ∀ y, start ≤ y → y ≤ cur → left + (ds.length + 1) ≤ Q cur - Q y → y ≤ r.next := by
  induction ds generalizing top cur left acc with
  | nil =>
    simp only [List.length_nil, Nat.cast_zero, zero_add]
    rcases sellDownOut_nil h with ⟨a1, a2, a3⟩ | ⟨a1, a2, a3, a4, a5, a6, a7, a8⟩
    · exact ⟨by rw [a2, a3]; linarith, fun y h1 h2 h3 => by omega⟩
    · refine ⟨?_, fun y h1 h2 h3 => ?_⟩
      · have := (OnPiece.baseUp hch (by omega) a7 (by omega) ht).2
        rw [a8]; push_cast; linarith
      · have hq : (left : ℚ) ≤ Q cur - Q y := by linarith
        rw [OnPiece.le_quote hch h1 h2 ht] at hq
        rw [a6]
        have : divCeil (left * 2 ^ 128) L0 ≤ cur - y := by
          rw [divCeil_le_iff a2, Nat.mul_comm (cur - y)]
          exact hq
        omega
  | cons d ds ih =>
    obtain ⟨c1, hpc, hch'⟩ := hch
    have hh := hd.head
    have hpos : (0 : ℚ) ≤ ds.length := by positivity
    simp only [List.length_cons, Nat.cast_add, Nat.cast_one]
    rcases sellDownOut_cons hh h with ⟨a1, a2, a3, a4, a5, a6⟩ | ⟨a1, a2, a3⟩ | ⟨a1, a2⟩
    · refine ⟨?_, fun y h1 h2 h3 => ?_⟩
      · have := (hpc.baseUp (by omega) a6 (by omega) ht).2
        rw [a5]; push_cast; linarith
      · by_cases hy : d.1.price ≤ y
        · have hq : (left : ℚ) ≤ Q cur - Q y := by linarith
          rw [hpc.le_quote hy h2 ht] at hq
          rw [a4]
          have : divCeil (left * 2 ^ 128) d.2 ≤ cur - y := by
            rw [divCeil_le_iff hh.2.2, Nat.mul_comm (cur - y)]
            exact hq
          omega
        · omega
    · obtain ⟨b1, b2⟩ := ih hch' hd.tail (le_of_lt hh.1) le_rfl a3
      have hdn := hpc.quoteDown le_rfl (le_of_lt a1) ht
      refine ⟨?_, fun y h1 h2 h3 => ?_⟩
      · have := (hpc.baseUp (by omega) le_rfl (le_of_lt a1) ht).2
        push_cast at b1; linarith
      · have a2' : ((Qf d.2 d.1.price cur : Nat) : ℚ) ≤ left := by exact_mod_cast a2
        by_cases hy : d.1.price ≤ y
        · exfalso
          have := (hpc.mono le_rfl hy (by omega)).2
          linarith [hdn.2]
        · refine b2 y h1 (by omega) ?_
          push_cast [Nat.cast_sub a2]
          linarith [hdn.2]
    · obtain ⟨b1, b2⟩ := ih hch' hd.tail hs a1 a2
      exact ⟨by linarith, fun y h1 h2 h3 => b2 y h1 h2 (by linarith)⟩

/-! ### From a swap to the walk it made -/

theorem processSwap_walk {c : PoolConfig} {p : Pool} {a : SwapArgs} {fm : FeeMode} {cur : Nat} {fst : Bool}
    {r : SwapResult} (h : processSwap c p a fm cur fst = .ok r) :
    (∃ am w, walkIn c p a.dir am = .ok w ∧ r.next = w.next ∧ r.excludedIn ≤ am ∧ r.out + outFee fm r = w.out) ∨
    (∃ w, walkOut c p a.dir (r.out + outFee fm r) = .ok w ∧ r.next = w.next ∧ r.excludedIn = w.amountIn ∧
      r.next ≤ c.migrationSqrtPrice) := by
  unfold processSwap at h
  split at h <;> rename_i hm <;> simp only [bind_ok, req_ok, ok_inj] at h <;> obtain ⟨_, h, _, hsl, rfl⟩ := h
  · simp only [exactIn, bind_ok, ok_inj] at h
    obtain ⟨num, hnum, ⟨ai, fi⟩, hin, w, hw, _, hz, ⟨ao, fo⟩, hout, rfl⟩ := h
    refine .inl ⟨ai, w, hw, rfl, le_rfl, ?_⟩
    dsimp only at *
    rw [ite_ok] at hin hout
    rcases hin with ⟨g, hin⟩ | ⟨g, hin⟩ <;> rcases hout with ⟨g', hout⟩ | ⟨g', hout⟩ <;> try contradiction
    · simp only [ok_inj, Prod.mk.injEq] at hout
      simp only [outFee, g, if_true, Nat.add_zero]
      exact hout.1.symm
    · have hf := feeOnAmount_ok hout
      simp only [outFee, g, Bool.false_eq_true, if_false]
      exact hf.1
  · simp only [partialIn, bind_ok, ok_inj] at h
    obtain ⟨num, hnum, ⟨ai, fi⟩, hin, w, hw, ⟨inc, ai', fi'⟩, hmid, ⟨ao, fo⟩, hout, rfl⟩ := h
    dsimp only at *
    have hle : ai' ≤ ai := by
      rw [ite_ok] at hmid
      rcases hmid with ⟨m, hmid⟩ | ⟨m, hmid⟩
      · simp only [bind_ok, safeSub_ok, ite_ok, ok_inj, Prod.mk.injEq, Prod.exists] at hmid
        obtain ⟨_, ⟨_, rfl⟩, ⟨g, num', hn', i', f', hif, s, hs, rfl, rfl, rfl⟩ | ⟨g, rfl, rfl, rfl⟩⟩ := hmid <;> omega
      · simp only [ok_inj, Prod.mk.injEq] at hmid
        omega
    refine .inl ⟨ai, w, hw, rfl, hle, ?_⟩
    rw [ite_ok] at hout
    rcases hout with ⟨g', hout⟩ | ⟨g', hout⟩
    · simp only [ok_inj, Prod.mk.injEq] at hout
      simp only [outFee, g', if_true, Nat.add_zero]
      exact hout.1.symm
    · have hf := feeOnAmount_ok hout
      simp only [outFee, g', Bool.false_eq_true, if_false]
      exact hf.1
  · simp only [exactOut, bind_ok, ok_inj] at h
    obtain ⟨⟨io, fo⟩, hout, w, hw, _, hmig, ⟨ii, fi⟩, hin, rfl⟩ := h
    rw [req_ok] at hmig
    dsimp only at *
    have hio : io = a.amount0 + outFee fm ⟨ii, w.amountIn, 0, a.amount0, w.next, fi⟩ := by
      rw [ite_ok] at hin hout
      rcases hin with ⟨g, hin⟩ | ⟨g, hin⟩ <;> rcases hout with ⟨g', hout⟩ | ⟨g', hout⟩ <;> try contradiction
      · simp only [ok_inj, Prod.mk.injEq] at hout
        simp only [outFee, g, if_true]
        omega
      · simp only [bind_ok, ok_inj, Prod.mk.injEq, Prod.exists] at hin hout
        obtain ⟨rfl, rfl⟩ := hin
        obtain ⟨num, hnum, i', f', hif, s, hs, rfl, rfl⟩ := hout
        have := includedFeeAmount_ok hif
        have hs' := splitFees_ok hs
        simp only [outFee, g, Bool.false_eq_true, if_false]
        omega
    refine .inr ⟨w, ?_, rfl, rfl, hmig⟩
    rw [← hio]; exact hw

end Dbc
