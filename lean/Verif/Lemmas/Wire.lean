import Verif.Spec.Release
import Verif.Lemmas.Layout

/-!
# Reading instruction data back
-/

namespace Dbc
open Spec

theorem wireNumber_eq (b : List Nat) : wireNumber b = littleEndian b := by
  induction b with
  | nil => rfl
  | cons x xs ih => rw [wireNumber, littleEndian, ih]

theorem readNum_pack {n v : Nat} {fs : List (Nat × Nat)} {r : List Nat} (h : v < 2 ^ (8 * n)) :
    readNum n (pack ((n, v) :: fs) ++ r) = some (v, pack fs ++ r) := by
  have hl := fieldBytes_length n v
  rw [readNum, pack, List.append_assoc, if_pos (by rw [List.length_append, hl]; omega), List.take_left' hl,
    List.drop_left' hl, wireNumber_eq,
    littleEndian_fieldBytes n v (by rwa [show (256 : Nat) = 2 ^ 8 from rfl, ← Nat.pow_mul])]

theorem _root_.Spec.FieldsFit.head {n v : Nat} {fs : List (Nat × Nat)} (h : FieldsFit ((n, v) :: fs)) : v < 2 ^ (8 * n) :=
  h (n, v) (List.mem_cons_self ..)

theorem _root_.Spec.FieldsFit.tail {f : Nat × Nat} {fs : List (Nat × Nat)} (h : FieldsFit (f :: fs)) : FieldsFit fs :=
  fun g hg => h g (List.mem_cons_of_mem _ hg)

theorem readNum_fit {n v : Nat} {fs : List (Nat × Nat)} (h : FieldsFit ((n, v) :: fs)) (r : List Nat) :
    readNum n (pack ((n, v) :: fs) ++ r) = some (v, pack fs ++ r) := readNum_pack h.head

theorem readPoints_pack {ps : List Point} {fs : List (Nat × Nat)} {r : List Nat}
    (h : FieldsFit (ps.flatMap (fun q => [(16, q.price), (16, q.liq)]) ++ fs)) :
    readPoints ps.length (pack (ps.flatMap (fun q => [(16, q.price), (16, q.liq)]) ++ fs) ++ r) = some (ps, pack fs ++ r) := by
  induction ps with
  | nil => rfl
  | cons q ps ih =>
    rw [List.flatMap_cons, List.append_assoc] at h ⊢
    simp only [List.cons_append, List.nil_append] at h ⊢
    rw [List.length_cons, readPoints, readNum_fit h]
    simp only [Option.bind_eq_bind, Option.bind_some]
    rw [readNum_fit h.tail]
    simp only [Option.bind_some]
    rw [ih h.tail.tail]
    rfl

theorem readBaseFee_pack {a b c d e : Nat} {fs : List (Nat × Nat)}
    (h : FieldsFit ((8, a) :: (2, b) :: (8, c) :: (8, d) :: (1, e) :: fs)) (r : List Nat) :
    readBaseFee (pack ((8, a) :: (2, b) :: (8, c) :: (8, d) :: (1, e) :: fs) ++ r) =
      some (⟨a, b, c, d, e⟩, pack fs ++ r) := by
  unfold readBaseFee
  simp only [Option.bind_eq_bind]
  rw [readNum_fit h]; simp only [Option.bind_some]
  rw [readNum_fit h.tail]; simp only [Option.bind_some]
  rw [readNum_fit h.tail.tail]; simp only [Option.bind_some]
  rw [readNum_fit h.tail.tail.tail]; simp only [Option.bind_some]
  rw [readNum_fit h.tail.tail.tail.tail]; simp only [Option.bind_some]

theorem readBool_pack {t : Bool} {fs : List (Nat × Nat)} (r : List Nat) :
    readBool (pack ((1, if t then 1 else 0) :: fs) ++ r) = some (t, pack fs ++ r) := by
  unfold readBool
  cases t <;> (rw [readNum_pack (by decide)]; rfl)

theorem readDynamicFee_pack {a b c d e f g : Nat} {fs : List (Nat × Nat)}
    (h : FieldsFit ((2, a) :: (16, b) :: (2, c) :: (2, d) :: (2, e) :: (4, f) :: (4, g) :: fs)) (r : List Nat) :
    readDynamicFee (pack ((2, a) :: (16, b) :: (2, c) :: (2, d) :: (2, e) :: (4, f) :: (4, g) :: fs) ++ r) =
      some (⟨1, f, g, a, c, d, e, b⟩, pack fs ++ r) := by
  unfold readDynamicFee
  simp only [Option.bind_eq_bind]
  rw [readNum_fit h]; simp only [Option.bind_some]
  have h := h.tail
  rw [readNum_fit h]; simp only [Option.bind_some]
  have h := h.tail
  rw [readNum_fit h]; simp only [Option.bind_some]
  have h := h.tail
  rw [readNum_fit h]; simp only [Option.bind_some]
  have h := h.tail
  rw [readNum_fit h]; simp only [Option.bind_some]
  have h := h.tail
  rw [readNum_fit h]; simp only [Option.bind_some]
  have h := h.tail
  rw [readNum_fit h]; simp only [Option.bind_some]

theorem readLockedVesting_pack {a b c d e : Nat} {fs : List (Nat × Nat)}
    (h : FieldsFit ((8, a) :: (8, b) :: (8, c) :: (8, d) :: (8, e) :: fs)) (r : List Nat) :
    readLockedVesting (pack ((8, a) :: (8, b) :: (8, c) :: (8, d) :: (8, e) :: fs) ++ r) =
      some (⟨a, b, c, d, e⟩, pack fs ++ r) := by
  unfold readLockedVesting
  simp only [Option.bind_eq_bind]
  rw [readNum_fit h]; simp only [Option.bind_some]
  rw [readNum_fit h.tail]; simp only [Option.bind_some]
  rw [readNum_fit h.tail.tail]; simp only [Option.bind_some]
  rw [readNum_fit h.tail.tail.tail]; simp only [Option.bind_some]
  rw [readNum_fit h.tail.tail.tail.tail]; simp only [Option.bind_some]

theorem readSupply_pack {a b : Nat} {fs : List (Nat × Nat)}
    (h : FieldsFit ((8, a) :: (8, b) :: fs)) (r : List Nat) :
    readSupply (pack ((8, a) :: (8, b) :: fs) ++ r) = some ((a, b), pack fs ++ r) := by
  unfold readSupply
  simp only [Option.bind_eq_bind]
  rw [readNum_fit h]; simp only [Option.bind_some]
  rw [readNum_fit h.tail]; simp only [Option.bind_some]

theorem readLiqVesting_pack {a b c d e : Nat} {fs : List (Nat × Nat)}
    (h : FieldsFit ((1, a) :: (2, b) :: (2, c) :: (4, d) :: (4, e) :: fs)) (r : List Nat) :
    readLiqVesting (pack ((1, a) :: (2, b) :: (2, c) :: (4, d) :: (4, e) :: fs) ++ r) =
      some (⟨a, b, c, d, e⟩, pack fs ++ r) := by
  unfold readLiqVesting
  simp only [Option.bind_eq_bind]
  rw [readNum_fit h]; simp only [Option.bind_some]
  rw [readNum_fit h.tail]; simp only [Option.bind_some]
  rw [readNum_fit h.tail.tail]; simp only [Option.bind_some]
  rw [readNum_fit h.tail.tail.tail]; simp only [Option.bind_some]
  rw [readNum_fit h.tail.tail.tail.tail]; simp only [Option.bind_some]

theorem readNum_next {α : Type} {n v : Nat} {fs : List (Nat × Nat)} {r : List Nat} {f : Nat × List Nat → Option α}
    (h : FieldsFit ((n, v) :: fs)) : (readNum n (pack ((n, v) :: fs) ++ r)).bind f = f (v, pack fs ++ r) := by
  rw [readNum_fit h, Option.bind_some]

theorem read_next {α β : Type} {x : Option α} {v : α} {f : α → Option β} (h : x = some v) : x.bind f = f v := by
  rw [h, Option.bind_some]

/-- Read the next number of a packed list and go on. -/
macro "rd " h:ident : tactic =>
  `(tactic| (refine (readNum_next $h:ident).trans ?_; replace $h:ident := Spec.FieldsFit.tail $h))

theorem readPoolFees_pack {f : PoolFeesConfig} (hd : DynamicAsked f.dyn) {fs : List (Nat × Nat)}
    (h : FieldsFit ((8, f.base.cliff) :: (2, f.base.first) :: (8, f.base.second) :: (8, f.base.third) :: (1, f.base.mode) ::
      ((if f.dyn.initialized = 0 then [(1, 0)]
        else [(1, 1), (2, f.dyn.binStep), (16, f.dyn.binStepU128), (2, f.dyn.filterPeriod),
          (2, f.dyn.decayPeriod), (2, f.dyn.reductionFactor), (4, f.dyn.maxVolAcc), (4, f.dyn.vfc)]) ++ fs))) (r : List Nat) :
    readPoolFees (pack ((8, f.base.cliff) :: (2, f.base.first) :: (8, f.base.second) :: (8, f.base.third) :: (1, f.base.mode) ::
      ((if f.dyn.initialized = 0 then [(1, 0)]
        else [(1, 1), (2, f.dyn.binStep), (16, f.dyn.binStepU128), (2, f.dyn.filterPeriod),
          (2, f.dyn.decayPeriod), (2, f.dyn.reductionFactor), (4, f.dyn.maxVolAcc), (4, f.dyn.vfc)]) ++ fs)) ++ r) =
      some (f, pack fs ++ r) := by
  obtain ⟨⟨a, b, c, d, e⟩, ⟨i, m, v, s, fp, dp, rf, u⟩⟩ := f
  unfold readPoolFees
  simp only [Option.bind_eq_bind]
  rw [readBaseFee_pack h]
  simp only [Option.bind_some, readOption, Option.bind_eq_bind]
  replace h := h.tail.tail.tail.tail.tail
  rcases hd with hd | hd
  · simp only at hd
    subst hd
    simp only [Nat.one_ne_zero, if_false, List.cons_append, List.nil_append] at h ⊢
    have hb := @readBool_pack true ((2, s) :: (16, u) :: (2, fp) :: (2, dp) :: (2, rf) :: (4, m) :: (4, v) :: fs) r
    simp only [if_true] at hb
    rw [hb]
    simp only [Option.bind_some]
    rw [readDynamicFee_pack h.tail]
    rfl
  · injection hd with e1 e2 e3 e4 e5 e6 e7 e8
    subst e1 e2 e3 e4 e5 e6 e7 e8
    simp only [if_true, List.cons_append, List.nil_append] at h ⊢
    have hb := @readBool_pack false fs r
    simp only [Bool.false_eq_true, if_false] at hb
    rw [hb]
    rfl

theorem readSupplyOption_pack {o : Option (Nat × Nat)} {fs : List (Nat × Nat)}
    (h : FieldsFit (supplySent o ++ fs)) (r : List Nat) :
    readOption readSupply (pack (supplySent o ++ fs) ++ r) = some (o, pack fs ++ r) := by
  simp only [readOption, Option.bind_eq_bind]
  cases o with
  | none =>
    simp only [supplySent, List.cons_append, List.nil_append] at h ⊢
    have hb := @readBool_pack false fs r
    simp only [Bool.false_eq_true, if_false] at hb
    rw [hb]
    rfl
  | some s =>
    simp only [supplySent, List.cons_append, List.nil_append] at h ⊢
    have hb := @readBool_pack true ((8, s.1) :: (8, s.2) :: fs) r
    simp only [if_true] at hb
    rw [hb]
    simp only [Option.bind_some]
    rw [readSupply_pack h.tail]
    rfl

theorem _root_.Spec.FieldsFit.right {a b : List (Nat × Nat)} (h : FieldsFit (a ++ b)) : FieldsFit b :=
  fun f hf => h f (List.mem_append_right _ hf)

theorem readConfigParams_pack {p : ConfigParams} (hd : DynamicAsked p.fees.dyn) (h : FieldsFit (nowSent p)) (r : List Nat) :
    readConfigParams (pack (nowSent p) ++ r) = some (p, r) := by
  unfold nowSent curveSent at h ⊢
  unfold readConfigParams
  simp only [List.append_assoc, List.cons_append, List.nil_append] at h ⊢
  refine (read_next (readPoolFees_pack hd h _)).trans ?_
  replace h := h.tail.tail.tail.tail.tail.right
  rd h
  rd h
  rd h
  rd h
  rd h
  rd h
  rd h
  rd h
  rd h
  rd h
  rd h
  refine (read_next (readLockedVesting_pack h _)).trans ?_
  replace h := h.tail.tail.tail.tail.tail
  rd h
  refine (read_next (readSupplyOption_pack h _)).trans ?_
  replace h := h.right
  rd h
  rd h
  rd h
  rd h
  rd h
  rd h
  rd h
  rd h
  refine (read_next (readLiqVesting_pack h _)).trans ?_
  replace h := h.tail.tail.tail.tail.tail
  refine (read_next (readLiqVesting_pack h _)).trans ?_
  replace h := h.tail.tail.tail.tail.tail
  rd h
  rd h
  rd h
  rd h
  rd h
  refine (read_next (readBool_pack _)).trans ?_
  replace h := h.tail
  rd h
  rd h
  rd h
  have hp := @readPoints_pack p.curve [] r (by rw [List.append_nil]; exact h)
  rw [List.append_nil] at hp
  exact read_next hp

end Dbc
