import Verif.Shapes.Axes
import Verif.Sim.OrientSpec
/-
Specification for axes and points of shapes (C85).
-/
namespace Rampack.Spec

open Rampack

/-- The axes are unit vectors, the secondary one is there only together with the primary one, and is perpendicular to it. -/
def GoodAxes (G : Geometry) : Prop :=
  (∀ a, G.primary = some a → a.norm2 = 1) ∧ ∀ b, G.secondary = some b → b.norm2 = 1 ∧ ∃ a, G.primary = some a ∧ a.dot b = 0

/-- A half-turn about `n` reverses the direction `v`. -/
def Reverses (n v : Vec3 ℝ) : Prop := ∀ R, RotatesAbout R n Real.pi → R.mulVec v = -v

/-- Moving and turning the whole shape. -/
def Moved (t : Vec3 ℝ) (R : Mat3) (s : Shape) : Shape := ⟨t + R.mulVec s.pos, R * s.rot⟩

end Rampack.Spec
