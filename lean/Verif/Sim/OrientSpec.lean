import Mathlib.Analysis.SpecialFunctions.Trigonometric.Basic
import Verif.Packing.UpscaleSpec
/-
What proper rotations are.
-/
namespace Rampack.Spec

open Rampack

/-- A proper rotation: an orthogonal matrix with determinant one. -/
def IsRotation (R : Mat3) : Prop := Orthogonal R ∧ R.det = 1

/-- The rotation about a unit axis by an angle: what is along the axis stays, and what is perpendicular to it is turned by the
angle towards its vector product with the axis. -/
def RotatesAbout (R : Mat3) (axis : Vec3 ℝ) (angle : ℝ) : Prop :=
  (∀ k : ℝ, R.mulVec (k • axis) = k • axis) ∧
  ∀ v : Vec3 ℝ, axis.dot v = 0 → R.mulVec v = Real.cos angle • v + Real.sin angle • axis.cross v

/-- All molecules have orientations which are proper rotations. -/
def ProperlyOriented (P : Packing) : Prop := ∀ s ∈ mols P, IsRotation s.rot

end Rampack.Spec
