import Verif.Param.Model
/-
What the properties of dynamic parameters talk about.
-/
namespace Rampack.Spec

/-- The number of the piece to which a cycle belongs: the last one which does not start after the cycle. -/
def IsPiece {α : Type} (l : List (Nat × α)) (cycle i : Nat) : Prop :=
  (∃ u, l[i]? = some u ∧ u.1 ≤ cycle) ∧ ∀ j u, i < j → l[j]? = some u → cycle < u.1

/-- The end of a piece: the start of the next one, or the end of the run. -/
def pieceEnd {α : Type} (l : List (Nat × α)) (i total : Nat) : Nat :=
  match l[i + 1]? with
  | some u => u.1
  | none => total

/-- Lists of pieces which make sense: the first one starts at the beginning, the starts do not decrease and all
parameters are given. -/
def GoodPieces {α : Type} (l : List (Nat × Option α)) : Prop :=
  (∃ u, l[0]? = some u ∧ u.1 = 0) ∧ (l.map Prod.fst).Pairwise (· ≤ ·) ∧ ∀ u ∈ l, u.2.isSome = true

end Rampack.Spec
