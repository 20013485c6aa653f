import Verif.Observables.Nematic
import Verif.Sim.OrientSpec
/-
Specification for the nematic order parameter and the drift of rotation matrices (C90, C91).
-/
namespace Rampack.Spec

/-- The matrix is symmetric. -/
def SymmetricMat (A : Mat3) : Prop := A.transpose = A

/-- `x` is an eigenvalue of `A`. -/
def IsEigenvalue (A : Mat3) (x : ℝ) : Prop := ∃ v : Vec3 ℝ, v ≠ 0 ∧ A.mulVec v = x • v

/-- The second Legendre polynomial of the cosine of the angle between unit vectors `n` and `a`. -/
noncomputable def legendre2 (n a : Vec3 ℝ) : ℝ := 3 / 2 * (n.dot a) ^ 2 - 1 / 2

/-- Mean of a function over a list. -/
noncomputable def averageOf {α : Type} (f : α → ℝ) (l : List α) : ℝ := (l.map f).sum / l.length

/-- The vectors are on one line: each of them is the unit vector `n` or its opposite. -/
def AlongOneLine (axes : List (Vec3 ℝ)) : Prop := ∃ n : Vec3 ℝ, n.norm2 = 1 ∧ ∀ a ∈ axes, a = n ∨ a = -n

/-- The vectors differ at most by sign. -/
def UpToSign (a b : Vec3 ℝ) : Prop := b = a ∨ b = -a

/-- How far the matrix is from an orthogonal one: the sum of squares of elements of `RᵀR - 1`. -/
def departure (R : Mat3) : ℝ := (R.transpose * R - 1).r0.norm2 + (R.transpose * R - 1).r1.norm2 + (R.transpose * R - 1).r2.norm2

end Rampack.Spec
