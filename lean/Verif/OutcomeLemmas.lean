import Verif.Outcome
/-
Lemmas about outcomes.
-/
namespace Rampack

namespace Outcome

universe u

theorem bind_eq_ok {α β : Type u} {x : Outcome α} {f : α → Outcome β} {b : β} :
    (x >>= f) = ok b ↔ ∃ a, x = ok a ∧ f a = ok b := by
  cases x <;> simp

theorem ite_eq_ok {α : Type u} {c : Prop} [Decidable c] {x y : Outcome α} {b : α} :
    (if c then x else y) = ok b ↔ (c ∧ x = ok b) ∨ (¬ c ∧ y = ok b) := by
  by_cases h : c <;> simp [h]

theorem require_eq_ok {b : Bool} {m : String} {u : Unit} : require b m = ok u ↔ b = true := by
  cases b <;> simp [require]

theorem ok_inj {α : Type u} {a b : α} : (ok a : Outcome α) = ok b ↔ a = b := by
  constructor
  · intro h
    injection h
  · rintro rfl
    rfl

end Outcome

theorem vget_eq_ok {α : Type} {l : List α} {i : Nat} {a : α} : vget l i = .ok a ↔ l[i]? = some a := by
  unfold vget
  cases h : l[i]? <;> simp

end Rampack
