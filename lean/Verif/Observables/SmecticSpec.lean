import Verif.Observables.Smectic
/-
Specification for the smectic order parameter (C92).
-/
namespace Rampack.Spec

/-- `k` is the wave vector with indices `n` in the box: `k · r` is `2π (n · s)` for the point `r` with relative coordinates `s`. -/
def WaveOf (b : Box) (n : Vec3 ℤ) (k : Vec3 ℝ) : Prop := ∀ s : Vec3 ℝ, k.dot (b.relToAbs s) = 2 * Real.pi * (n.x * s.x + n.y * s.y + n.z * s.z)

/-- `∑ fᵢ exp(i k · rᵢ)` for pairs of points and values. -/
noncomputable def modulation (k : Vec3 ℝ) (l : List (Vec3 ℝ × ℝ)) : ℂ := (l.map fun q => (q.2 : ℂ) * Complex.exp (Complex.I * (k.dot q.1 : ℝ))).sum

/-- Indices which are not all zero and whose magnitudes are within the range. -/
def IndicesWithin (R : Vec3 Nat) (n : Vec3 ℤ) : Prop := n ≠ ⟨0, 0, 0⟩ ∧ |n.x| ≤ R.x ∧ |n.y| ≤ R.y ∧ |n.z| ≤ R.z

/-- The points differ by a combination of side vectors of the box with integer coefficients. -/
def SameUpToBox (b : Box) (p q : Vec3 ℝ) : Prop := ∃ m : Vec3 ℤ, q = p + b.relToAbs ⟨m.x, m.y, m.z⟩

end Rampack.Spec
