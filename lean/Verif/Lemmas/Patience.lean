import Verif.Lemmas.Compare

/-!
# What a larger input leaves over

Two buys from the same price: the one with more to spend spends at least as much, and one that already reached the end of the
curve spends exactly as much with more to spend.
-/

namespace Dbc
open Spec

theorem buyInLoop_spent {stop : Nat} {ps : List Point} {lo cur left left' out out' : Nat} {r r' : FromInput}
    (hp : Proper lo ps) (hlo : lo ≤ cur) (hl : left ≤ left') (h : buyInLoop stop ps cur left out = .ok r)
    (h' : buyInLoop stop ps cur left' out' = .ok r') :
    left + r'.left ≤ left' + r.left ∧ (r.left ≠ 0 → left + r'.left = left' + r.left) := by
  induction ps generalizing lo cur left left' out out' with
  | nil =>
    simp only [buyInLoop, ok_inj] at h h'
    subst h h'
    dsimp only
    omega
  | cons p ps ih =>
    simp only [Proper] at hp
    have hc0 : 0 < cur := by omega
    rcases buyInLoop_cons (by omega) (by omega) h with ⟨a1, a2, a3, a4, a5, a6, a7, a8⟩ | ⟨a1, a2, a3, a4, a5, a6⟩ |
      ⟨a1, a2, a3, a4⟩ | ⟨a1, a2⟩
    · rcases buyInLoop_cons (by omega) (by omega) h' with ⟨b1, b2, b3, b4, b5, b6, b7, b8⟩ | ⟨b1, b2, b3, b4, b5, b6⟩ |
        ⟨b1, b2, b3, b4⟩ | ⟨b1, b2⟩
      · omega
      · rw [show min stop p.price = stop by omega] at a2
        omega
      · rw [show min stop p.price = p.price by omega] at a2
        obtain ⟨i, o, -, e, -⟩ := buyInLoop_trace hp.2.2.2 (fun _ h => h) le_rfl b4
        omega
      · omega
    · rcases buyInLoop_cons (by omega) (by omega) h' with ⟨b1, b2, b3, b4, b5, b6, b7, b8⟩ | ⟨b1, b2, b3, b4, b5, b6⟩ |
        ⟨b1, b2, b3, b4⟩ | ⟨b1, b2⟩
      · rw [show min stop p.price = stop by omega] at b2
        omega
      · omega
      · omega
      · omega
    · rcases buyInLoop_cons (by omega) (by omega) h' with ⟨b1, b2, b3, b4, b5, b6, b7, b8⟩ | ⟨b1, b2, b3, b4, b5, b6⟩ |
        ⟨b1, b2, b3, b4⟩ | ⟨b1, b2⟩
      · rw [show min stop p.price = p.price by omega] at b2
        omega
      · omega
      · have := ih hp.2.2.2 le_rfl (by omega) a4 b4
        omega
      · omega
    · rcases buyInLoop_cons (by omega) (by omega) h' with ⟨b1, b2, b3, b4, b5, b6, b7, b8⟩ | ⟨b1, b2, b3, b4, b5, b6⟩ |
        ⟨b1, b2, b3, b4⟩ | ⟨b1, b2⟩
      · omega
      · omega
      · omega
      · by_cases hcp : p.price ≤ cur
        · exact ih hp.2.2.2 hcp hl a2 b2
        · have e := buyInLoop_stopped hp.2.2.2 (by omega) a2
          have e' := buyInLoop_stopped hp.2.2.2 (by omega) b2
          subst e e'
          dsimp only
          omega

end Dbc
