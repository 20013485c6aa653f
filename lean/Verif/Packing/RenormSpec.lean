import Verif.Packing.PropSpec
/-
Specification of renormalisation of orientations.
-/
namespace Rampack.Spec

open Rampack

/-- How far a matrix is from an orthogonal one: the sum of squares of all entries of `RᵀR - 1` (the columns of an orthogonal
matrix have unit lengths and are perpendicular). -/
def defect (R : Mat3) : ℝ :=
  (R.c0.dot R.c0 - 1) ^ 2 + (R.c1.dot R.c1 - 1) ^ 2 + (R.c2.dot R.c2 - 1) ^ 2 +
    2 * ((R.c0.dot R.c1) ^ 2 + (R.c1.dot R.c2) ^ 2 + (R.c2.dot R.c0) ^ 2)

/-- The matrix stretches no vector by a factor greater than `√5`. -/
def StretchesLittle (R : Mat3) : Prop := ∀ v, (R.mulVec v).norm2 ≤ 5 * v.norm2

/-- Overlaps of a shape put in place of the molecule `i` of the list `l`, with the other ones. -/
noncomputable def overlapsAmong (P : Packing) (I : Interaction) (l : List Shape) (i : Nat) (s : Shape) : ℕ :=
  ((l.eraseIdx i).map (pairOverlaps P I s)).sum

end Rampack.Spec
