import Verif.Geometry.Segment
/-
What distances of segments mean.
-/
namespace Rampack.Spec

/-- `p` lies on the segment from `a` to `b`. -/
def OnSegment (a b p : Vec3 ℝ) : Prop := ∃ s : ℝ, 0 ≤ s ∧ s ≤ 1 ∧ p = a + s • (b - a)

/-- The squared area of the parallelogram of two vectors: squared lengths times the squared sine of the angle. -/
def area2 (u v : Vec3 ℝ) : ℝ := u.norm2 * v.norm2 - (u.dot v) ^ 2

end Rampack.Spec
