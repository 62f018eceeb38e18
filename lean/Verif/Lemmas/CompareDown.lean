import Verif.Lemmas.Compare

/-!
# Comparing descending walks

The program walks a sell from the top of the curve down. Here the walk is written as a recursion over the pieces in
the order they are visited, which makes two walks easy to compare.
-/

namespace Dbc

open Spec

/-- The pieces below the top one, in the order a sell visits them: lower end and liquidity. -/
def downs : List Point → List (Point × Nat)
  | [] => []
  | [_] => []
  | p :: q :: rest => downs (q :: rest) ++ [(p, q.liq)]

/-- A walk over a list of pieces. -/
def desc (step : Point → Nat → Walk → Res Walk) : List (Point × Nat) → Walk → Res Walk
  | [], s => .ok s
  | d :: ds, s => do
    let s ← step d.1 d.2 s
    desc step ds s

theorem desc_append (step : Point → Nat → Walk → Res Walk) (as bs : List (Point × Nat)) (s : Walk) :
    desc step (as ++ bs) s = (do let s ← desc step as s; desc step bs s) := by
  induction as generalizing s with
  | nil => rfl
  | cons a as ih =>
    simp only [List.cons_append, desc]
    cases h : step a.1 a.2 s with
    | error e => rfl
    | ok t => simp only [ok_bind]; exact ih t

theorem desc_one (step : Point → Nat → Walk → Res Walk) (d : Point × Nat) (s : Walk) :
    desc step [d] s = step d.1 d.2 s := by
  simp only [desc]
  cases step d.1 d.2 s <;> rfl

theorem sellInLoop_desc (ps : List Point) (s : Walk) : sellInLoop ps s = desc sellInStep (downs ps) s := by
  induction ps with
  | nil => rfl
  | cons p ps ih =>
    cases ps with
    | nil => rfl
    | cons q rest =>
      simp only [sellInLoop, downs, desc_append, ih, desc_one]

theorem sellOutLoop_desc (ps : List Point) (s : Walk) : sellOutLoop ps s = desc sellOutStep (downs ps) s := by
  induction ps with
  | nil => rfl
  | cons p ps ih =>
    cases ps with
    | nil => rfl
    | cons q rest =>
      simp only [sellOutLoop, downs, desc_append, ih, desc_one]

/-- Every piece lies above `start` and has liquidity. -/
def Downs (start : Nat) (ds : List (Point × Nat)) : Prop :=
  ∀ d ∈ ds, start < d.1.price ∧ d.1.liq ≠ 0 ∧ 0 < d.2

theorem Downs.tail {start : Nat} {d : Point × Nat} {ds : List (Point × Nat)} (h : Downs start (d :: ds)) :
    Downs start ds := fun e he => h e (List.mem_cons_of_mem _ he)

theorem Downs.head {start : Nat} {d : Point × Nat} {ds : List (Point × Nat)} (h : Downs start (d :: ds)) :
    start < d.1.price ∧ d.1.liq ≠ 0 ∧ 0 < d.2 := h d List.mem_cons_self

theorem downs_ok {lo : Nat} {ps : List Point} (h : Proper lo ps) : Downs lo (downs ps) := by
  induction ps generalizing lo with
  | nil => intro d hd; simp [downs] at hd
  | cons p ps ih =>
    cases ps with
    | nil => intro d hd; simp [downs] at hd
    | cons q rest =>
      simp only [Proper] at h
      intro d hd
      simp only [downs, List.mem_append, List.mem_singleton] at hd
      rcases hd with hd | rfl
      · have := ih (lo := p.price) (by simp only [Proper]; exact h.2.2.2) d hd
        exact ⟨by omega, this.2.1, this.2.2⟩
      · exact ⟨h.2.1, by dsimp only; omega, h.2.2.2.2.2.1⟩

theorem downs_mem {ps : List Point} {d : Point × Nat} (h : d ∈ downs ps) : d.1 ∈ ps := by
  induction ps with
  | nil => simp [downs] at h
  | cons p ps ih =>
    cases ps with
    | nil => simp [downs] at h
    | cons q rest =>
      simp only [downs, List.mem_append, List.mem_singleton] at h
      rcases h with h | rfl
      · exact List.mem_cons_of_mem _ (ih h)
      · exact List.mem_cons_self

/-! ### Sells by exact input -/

/-- A whole sell. -/
def sellDown (start L0 : Nat) (ds : List (Point × Nat)) (s : Walk) : Res FromInput := do
  let s ← desc sellInStep ds s
  sellInFinish start L0 s

theorem desc_done (ds : List (Point × Nat)) (s : Walk) (h : s.done = true) : desc sellInStep ds s = .ok s := by
  induction ds with
  | nil => rfl
  | cons d ds ih =>
    simp only [desc, sellInStep]
    rw [if_pos h]
    exact ih

theorem sellDown_nil {start L0 cur left acc : Nat} {r : FromInput}
    (h : sellDown start L0 [] ⟨cur, left, acc, false⟩ = .ok r) :
    (left = 0 ∧ r.left = 0 ∧ r.out = acc ∧ r.next = cur) ∨
    (left ≠ 0 ∧ 0 < L0 ∧ start ≤ cur ∧ divCeil (L0 * cur) (L0 + left * cur) < start ∧ Bc L0 start cur ≤ left ∧
      r.left = left - Bc L0 start cur ∧ r.out = acc + Qf L0 start cur ∧ r.next = start) ∨
    (left ≠ 0 ∧ 0 < L0 ∧ start ≤ r.next ∧ r.next = divCeil (L0 * cur) (L0 + left * cur) ∧ r.left = 0 ∧
      r.out = acc + Qf L0 r.next cur ∧ r.next ≤ cur ∧ L0 * (cur - r.next) ≤ left * (r.next * cur)) := by
  simp only [sellDown, desc, ok_bind, sellInFinish] at h
  by_cases hz : left ≠ 0
  · simp only [hz, if_true, bind_ok, ne_eq, not_false_eq_true] at h
    obtain ⟨nx, hnx, h⟩ := h
    have hno := nextIn_base_ok hnx
    have hst := sellIn_step0 hno.2.1 hno.2.2
    by_cases hlt : nx < start
    · simp only [hlt, if_true, bind_ok, deltaBase_ok, deltaQuote_ok, safeSub_ok, safeAdd_ok, ok_inj] at h
      obtain ⟨_, ⟨g1, g2, g3, rfl, g4⟩, _, ⟨g5, rfl⟩, _, ⟨g6, g7, rfl, g8⟩, _, ⟨g9, rfl⟩, rfl⟩ := h
      exact .inr (.inl ⟨hz, hno.2.1, g1, by rw [← hno.2.2]; exact hlt, g5, rfl, rfl, rfl⟩)
    · simp only [hlt, if_false, bind_ok, deltaQuote_ok, safeAdd_ok, ok_inj] at h
      obtain ⟨_, ⟨g6, g7, rfl, g8⟩, _, ⟨g9, rfl⟩, rfl⟩ := h
      exact .inr (.inr ⟨hz, hno.2.1, not_lt.1 hlt, hno.2.2, rfl, rfl, hst.1, hst.2⟩)
  · simp only [hz, if_false, ok_inj] at h
    subst h
    exact .inl ⟨by omega, by dsimp only; omega, rfl, rfl⟩

theorem sellDown_cons {start L0 cur left acc : Nat} {d : Point × Nat} {ds : List (Point × Nat)} {r : FromInput}
    (hd : start < d.1.price ∧ d.1.liq ≠ 0 ∧ 0 < d.2)
    (h : sellDown start L0 (d :: ds) ⟨cur, left, acc, false⟩ = .ok r) :
    (d.1.price < cur ∧ left < Bc d.2 d.1.price cur ∧ r.next = divCeil (d.2 * cur) (d.2 + left * cur) ∧ r.left = 0 ∧
      r.out = acc + Qf d.2 r.next cur ∧ d.1.price < r.next ∧ r.next ≤ cur ∧
      d.2 * (cur - r.next) ≤ left * (r.next * cur)) ∨
    (d.1.price < cur ∧ Bc d.2 d.1.price cur ≤ left ∧
      sellDown start L0 ds ⟨d.1.price, left - Bc d.2 d.1.price cur, acc + Qf d.2 d.1.price cur, false⟩ = .ok r) ∨
    (cur ≤ d.1.price ∧ sellDown start L0 ds ⟨cur, left, acc, false⟩ = .ok r) := by
  simp only [sellDown, desc, sellInStep, Bool.false_eq_true, if_false] at h
  rw [if_neg (by omega)] at h
  by_cases hc : d.1.price < cur
  · simp only [hc, if_true, bind_ok, deltaBase256_ok] at h
    obtain ⟨s', ⟨s1, ⟨mx, ⟨h3, h4, h5, h6, rfl⟩, h2⟩, hrest⟩, hf⟩ := h
    simp only [divRound] at h2
    by_cases hl : left < divCeil (d.2 * (cur - d.1.price)) (d.1.price * cur)
    · simp only [hl, if_true, bind_ok, deltaQuote_ok, safeAdd_ok, ok_inj] at h2
      obtain ⟨n, hn, q, ⟨h7, h8, rfl, h9⟩, _, ⟨h10, rfl⟩, rfl⟩ := h2
      have hno := nextIn_base_ok hn
      have hst := sellIn_step hno.2.1 (by omega) h3 hl hno.2.2
      rw [desc_done _ _ rfl, ok_inj] at hrest
      subst hrest
      simp only [sellInFinish, ne_eq, not_true_eq_false, if_false, ok_inj] at hf
      subst hf
      exact .inl ⟨hc, hl, hno.2.2, rfl, rfl, hst.1, hst.2.1, hst.2.2⟩
    · simp only [hl, if_false, bind_ok, deltaQuote_ok, safeAdd_ok, castTo_ok, safeSub_ok, ok_inj] at h2
      obtain ⟨q, ⟨h7, h8, rfl, h9⟩, _, ⟨h10, rfl⟩, _, ⟨h11, rfl⟩, _, ⟨h12, rfl⟩, rfl⟩ := h2
      refine .inr (.inl ⟨hc, not_lt.1 hl, ?_⟩)
      simp only [sellDown, bind_ok]
      exact ⟨_, hrest, hf⟩
  · simp only [hc, if_false, ok_bind] at h
    exact .inr (.inr ⟨not_lt.1 hc, h⟩)

theorem sellDown_grow {start L0 cur left acc : Nat} {ds : List (Point × Nat)} {r : FromInput} (hd : Downs start ds)
    (hs : start ≤ cur) (h : sellDown start L0 ds ⟨cur, left, acc, false⟩ = .ok r) :
    r.next ≤ cur ∧ start ≤ r.next ∧ acc ≤ r.out := by
  induction ds generalizing cur left acc with
  | nil =>
    rcases sellDown_nil h with h | h | h <;> omega
  | cons d ds ih =>
    have hh := hd.head
    rcases sellDown_cons hh h with ⟨a1, a2, a3, a4, a5, a6, a7, a8⟩ | ⟨a1, a2, a3⟩ | ⟨a1, a2⟩
    · omega
    · have := ih hd.tail (by omega) a3
      omega
    · exact ih hd.tail hs a2

theorem nextDown_mono {x L a b : Nat} (hL : 0 < L) (h : a ≤ b) :
    divCeil (L * x) (L + b * x) ≤ divCeil (L * x) (L + a * x) := by
  rw [divCeil_le_iff (by omega)]
  exact (le_divCeil_mul (L * x) (b := L + a * x) (by omega)).trans
    (Nat.mul_le_mul_left _ (Nat.add_le_add_left (Nat.mul_le_mul_right _ h) _))

theorem nextDown_add {x L a b n : Nat} (hx : 0 < x) (hL : 0 < L) (hn : n = divCeil (L * x) (L + a * x)) :
    divCeil (L * x) (L + (a + b) * x) ≤ divCeil (L * n) (L + b * n) := by
  rw [divCeil_le_iff (by omega)]
  have h1 := le_divCeil_mul (L * x) (b := L + a * x) (by omega)
  rw [← hn] at h1
  have hn0 : 0 < n := by
    rcases Nat.eq_zero_or_pos n with h0 | h0
    · rw [h0, Nat.zero_mul] at h1
      have : 0 < L * x := by positivity
      omega
    · exact h0
  have h2 := le_divCeil_mul (L * n) (b := L + b * n) (by omega)
  generalize divCeil (L * n) (L + b * n) = m at *
  -- L x ≤ n (L + a x), L n ≤ m (L + b n)  ⟹  L x ≤ m (L + (a + b) x)
  have h3 : L * x * (n * L) ≤ m * (L + (a + b) * x) * (n * L) := by
    calc L * x * (n * L) = L * n * (L * x) := by ring
      _ ≤ m * (L + b * n) * (L * x) := Nat.mul_le_mul_right _ h2
      _ = m * L * (L * x) + m * b * n * L * x := by ring
      _ ≤ m * L * (n * (L + a * x)) + m * b * n * L * x := Nat.add_le_add_right (Nat.mul_le_mul_left _ h1) _
      _ = m * (L + (a + b) * x) * (n * L) := by ring
  exact Nat.le_of_mul_le_mul_right h3 (by positivity)

/-- More in, no less out. -/
theorem sellDown_shift {e start L0 cur left left' acc acc' : Nat} {ds : List (Point × Nat)} {r r' : FromInput}
    (hd : Downs start ds) (hs0 : 0 < start) (hs : start ≤ cur) (hl : left ≤ left') (ha : acc + e ≤ acc')
    (h : sellDown start L0 ds ⟨cur, left, acc, false⟩ = .ok r)
    (h' : sellDown start L0 ds ⟨cur, left', acc', false⟩ = .ok r') :
    r.out + e ≤ r'.out ∧ r'.next ≤ r.next ∧ r.left ≤ r'.left := by
  induction ds generalizing cur left left' acc acc' with
  | nil =>
    rcases sellDown_nil h with ⟨a1, a2, a3, a4⟩ | ⟨a1, a2, a3, a4, a5, a6, a7, a8⟩ | ⟨a1, a2, a3, a4, a5, a6, a7, a8⟩
    · have := sellDown_grow hd hs h'
      omega
    · rcases sellDown_nil h' with ⟨b1, b2, b3, b4⟩ | ⟨b1, b2, b3, b4, b5, b6, b7, b8⟩ |
        ⟨b1, b2, b3, b4, b5, b6, b7, b8⟩
      · omega
      · omega
      · have := nextDown_mono (x := cur) a2 hl
        omega
    · rcases sellDown_nil h' with ⟨b1, b2, b3, b4⟩ | ⟨b1, b2, b3, b4, b5, b6, b7, b8⟩ |
        ⟨b1, b2, b3, b4, b5, b6, b7, b8⟩
      · omega
      · have := Qf_mono (L := L0) (z := cur) a3
        omega
      · have h3 := nextDown_mono (x := cur) a2 hl
        rw [← a4, ← b4] at h3
        have := Qf_mono (L := L0) (z := cur) h3
        omega
  | cons d ds ih =>
    have hh := hd.head
    rcases sellDown_cons hh h with ⟨a1, a2, a3, a4, a5, a6, a7, a8⟩ | ⟨a1, a2, a3⟩ | ⟨a1, a2⟩
    · rcases sellDown_cons hh h' with ⟨b1, b2, b3, b4, b5, b6, b7, b8⟩ | ⟨b1, b2, b3⟩ | ⟨b1, b2⟩
      · have h3 := nextDown_mono (x := cur) hh.2.2 hl
        rw [← a3, ← b3] at h3
        have := Qf_mono (L := d.2) (z := cur) h3
        omega
      · have := sellDown_grow hd.tail (by omega) b3
        have := Qf_mono (L := d.2) (z := cur) (show d.1.price ≤ r.next by omega)
        omega
      · omega
    · rcases sellDown_cons hh h' with ⟨b1, b2, b3, b4, b5, b6, b7, b8⟩ | ⟨b1, b2, b3⟩ | ⟨b1, b2⟩
      · omega
      · exact ih hd.tail (by omega) (by omega) (by omega) a3 b3
      · omega
    · rcases sellDown_cons hh h' with ⟨b1, b2, b3, b4, b5, b6, b7, b8⟩ | ⟨b1, b2, b3⟩ | ⟨b1, b2⟩
      · omega
      · omega
      · exact ih hd.tail hs hl ha a2 b2

/-- One trade is at least as good as two. -/
theorem sellDown_split {start L0 cur a b acc : Nat} {ds : List (Point × Nat)} {r1 r2 r : FromInput}
    (hd : Downs start ds) (hs0 : 0 < start) (hs : start ≤ cur)
    (h1 : sellDown start L0 ds ⟨cur, a, acc, false⟩ = .ok r1) (hz : r1.left = 0)
    (h2 : sellDown start L0 ds ⟨r1.next, b, 0, false⟩ = .ok r2)
    (h : sellDown start L0 ds ⟨cur, a + b, acc, false⟩ = .ok r) :
    r1.out + r2.out ≤ r.out ∧ r.next ≤ r2.next ∧ r2.left ≤ r.left := by
  induction ds generalizing cur a acc with
  | nil =>
    rcases sellDown_nil h1 with ⟨a1, a2, a3, a4⟩ | ⟨a1, a2, a3, a4, a5, a6, a7, a8⟩ | ⟨a1, a2, a3, a4, a5, a6, a7, a8⟩
    · subst a1
      rw [Nat.zero_add] at h
      rw [a4] at h2
      have := sellDown_shift (e := r1.out) hd hs0 hs le_rfl (by omega) h2 h
      omega
    · rcases sellDown_nil h with ⟨c1, c2, c3, c4⟩ | ⟨c1, c2, c3, c4, c5, c6, c7, c8⟩ |
        ⟨c1, c2, c3, c4, c5, c6, c7, c8⟩
      · omega
      · rw [a8] at h2
        have e : Qf L0 start start = 0 := by simp [Qf]
        rcases sellDown_nil h2 with ⟨b1, b2, b3, b4⟩ | ⟨b1, b2, b3, b4, b5, b6, b7, b8⟩ |
          ⟨b1, b2, b3, b4, b5, b6, b7, b8⟩
        · omega
        · omega
        · have e2 : r2.next = start := by omega
          rw [e2] at b6
          omega
      · have := nextDown_mono (x := cur) a2 (show a ≤ a + b by omega)
        omega
    · have hc0 : 0 < cur := by omega
      have haft := Bc_after (L := L0) hs0 a3 a7 a8
      rcases sellDown_nil h2 with ⟨b1, b2, b3, b4⟩ | ⟨b1, b2, b3, b4, b5, b6, b7, b8⟩ |
        ⟨b1, b2, b3, b4, b5, b6, b7, b8⟩
      · subst b1
        rw [Nat.add_zero] at h
        have := sellDown_shift (e := 0) hd hs0 hs le_rfl (by omega) h1 h
        omega
      · have h3 := nextDown_add (b := b) hc0 a2 a4
        rcases sellDown_nil h with ⟨c1, c2, c3, c4⟩ | ⟨c1, c2, c3, c4, c5, c6, c7, c8⟩ |
          ⟨c1, c2, c3, c4, c5, c6, c7, c8⟩
        · omega
        · have := Qf_add (L := L0) a3 a7
          omega
        · omega
      · have h3 := nextDown_add (b := b) hc0 a2 a4
        rw [← b4] at h3
        have hadd := Qf_add (L := L0) b7 a7
        rcases sellDown_nil h with ⟨c1, c2, c3, c4⟩ | ⟨c1, c2, c3, c4, c5, c6, c7, c8⟩ |
          ⟨c1, c2, c3, c4, c5, c6, c7, c8⟩
        · omega
        · have := Qf_mono (L := L0) (z := cur) b3
          omega
        · rw [← c4] at h3
          have := Qf_mono (L := L0) (z := cur) h3
          omega
  | cons d ds ih =>
    have hh := hd.head
    have hc0 : 0 < cur := by omega
    rcases sellDown_cons hh h1 with ⟨a1, a2, a3, a4, a5, a6, a7, a8⟩ | ⟨a1, a2, a3⟩ | ⟨a1, a2⟩
    · have haft := Bc_after (L := d.2) (x := d.1.price) (by omega) (by omega) a7 a8
      have h3 := nextDown_add (b := b) hc0 hh.2.2 a3
      rcases sellDown_cons hh h2 with ⟨b1, b2, b3, b4, b5, b6, b7, b8⟩ | ⟨b1, b2, b3⟩ | ⟨b1, b2⟩
      · have hadd := Qf_add (L := d.2) b7 a7
        rw [← b3] at h3
        rcases sellDown_cons hh h with ⟨c1, c2, c3, c4, c5, c6, c7, c8⟩ | ⟨c1, c2, c3⟩ | ⟨c1, c2⟩
        · rw [← c3] at h3
          have := Qf_mono (L := d.2) (z := cur) h3
          omega
        · have := Qf_mono (L := d.2) (z := cur) (show d.1.price ≤ r2.next by omega)
          have := sellDown_grow hd.tail (by omega) c3
          omega
        · omega
      · have hadd := Qf_add (L := d.2) (show d.1.price ≤ r1.next by omega) a7
        rcases sellDown_cons hh h with ⟨c1, c2, c3, c4, c5, c6, c7, c8⟩ | ⟨c1, c2, c3⟩ | ⟨c1, c2⟩
        · omega
        · obtain ⟨k1, k2, k3⟩ := sellDown_shift (e := r1.out) hd.tail hs0 (by omega) (by omega) (by omega) b3 c3
          exact ⟨by omega, k2, k3⟩
        · omega
      · omega
    · have hg := (sellDown_grow hd.tail (by omega) a3).1
      rcases sellDown_cons hh h2 with ⟨b1, b2, b3, b4, b5, b6, b7, b8⟩ | ⟨b1, b2, b3⟩ | ⟨b1, b2⟩
      · omega
      · omega
      · rcases sellDown_cons hh h with ⟨c1, c2, c3, c4, c5, c6, c7, c8⟩ | ⟨c1, c2, c3⟩ | ⟨c1, c2⟩
        · omega
        · refine ih hd.tail (by omega) a3 b2 ?_
          rw [← c3]
          congr 2
          omega
        · omega
    · have hg := (sellDown_grow hd.tail hs a2).1
      rcases sellDown_cons hh h2 with ⟨b1, b2, b3, b4, b5, b6, b7, b8⟩ | ⟨b1, b2, b3⟩ | ⟨b1, b2⟩
      · omega
      · omega
      · rcases sellDown_cons hh h with ⟨c1, c2, c3, c4, c5, c6, c7, c8⟩ | ⟨c1, c2, c3⟩ | ⟨c1, c2⟩
        · omega
        · omega
        · exact ih hd.tail hs a2 b2 c2

end Dbc
