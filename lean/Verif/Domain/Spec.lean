import Verif.Domain.Model
import Verif.Packing.PropSpec
import Verif.Packing.UpscaleSpec
import Verif.Packing.WallSpec
/-
Specification for the division into active domains.
-/
namespace Rampack.Spec

open Rampack Rampack.Grid Rampack.Domain

/-- Two points, with all their periodic images, are separated by more than `width` along the axis `a`: `width` is
measured perpendicularly to the faces of the box. -/
def Separated (b : Box) (a : Fin 3) (width : ℝ) (p q : Vec3 ℝ) : Prop :=
  ∀ (r s : Vec3 ℝ) (n : ℤ), p = combo b r → q = combo b s → width < |s.get a + n - r.get a| * b.heights.get a

/-- Numbers of the grid cells the neighbours of a point are collected from. -/
noncomputable def cellsRead (g : NG) (p : Vec3 ℝ) : Outcome (List Nat) := do
  let cellNo ← positionToCellNo g.box g.divs p
  g.offs.mapM fun off => vget g.reflected (addWrap cellNo off)

/-- Number of the grid cell which is changed when an object is added or removed at a point. -/
noncomputable def cellWritten (g : NG) (p : Vec3 ℝ) : Outcome Nat := positionToCellNo g.box g.divs p

end Rampack.Spec
