import Verif.Vec3
import Verif.Outcome
import Mathlib.Algebra.Order.Floor.Ring
import Mathlib.Algebra.Order.Archimedean.Real.Basic
/-
Model of the simulation box (/repo/src/core/TriclinicBox.h, TriclinicBox.cpp) and of the boundary conditions
(/repo/src/core/PeriodicBoundaryConditions.cpp, FreeBoundaryConditions.h).
-/
namespace Rampack


noncomputable section

/-- `TriclinicBox`: the dimensions matrix (columns are the side vectors) and its cached inverse;
src/core/TriclinicBox.h:19-22. -/
@[ext] structure Box where
  dims : Mat3
  inv : Mat3

namespace Box

/-- `TriclinicBox(const Matrix<3,3>&)`; src/core/TriclinicBox.h:49-51. `Matrix::inverse` throws for a zero determinant,
src/geometry/Matrix.tpp:263-265. -/
def make (m : Mat3) : Outcome Box :=
  if m.det = 0 then .throw "cannot invert, det == 0" else .ok ⟨m, m.inverse⟩

/-- `TriclinicBox(const std::array<Vector<3>, 3>&)` : side vectors become columns; src/core/TriclinicBox.cpp:8-14. -/
def ofSides (a b c : Vec3 ℝ) : Outcome Box :=
  make ⟨⟨a.x, b.x, c.x⟩, ⟨a.y, b.y, c.y⟩, ⟨a.z, b.z, c.z⟩⟩

/-- `TriclinicBox(const std::array<double, 3>&)`; src/core/TriclinicBox.h:40-44. -/
def ofLengths (l : Vec3 ℝ) : Outcome Box := make (Mat3.diag l.x l.y l.z)

/-- `transform`; src/core/TriclinicBox.cpp:16-19. -/
def transform (b : Box) (t : Mat3) : Outcome Box := make (t * b.dims)

/-- `scale`; src/core/TriclinicBox.cpp:21-25. -/
def scale (b : Box) (f : Vec3 ℝ) : Outcome Box := b.transform (Mat3.diag f.x f.y f.z)

/-- `absoluteToRelative`; src/core/TriclinicBox.h:61-63. -/
def absToRel (b : Box) (p : Vec3 ℝ) : Vec3 ℝ := b.inv.mulVec p

/-- `relativeToAbsolute`; src/core/TriclinicBox.h:68-70. -/
def relToAbs (b : Box) (s : Vec3 ℝ) : Vec3 ℝ := b.dims.mulVec s

/-- `getSides`; src/core/TriclinicBox.cpp:27-33. -/
def sides (b : Box) : Vec3 (Vec3 ℝ) :=
  ⟨b.relToAbs ⟨1, 0, 0⟩, b.relToAbs ⟨0, 1, 0⟩, b.relToAbs ⟨0, 0, 1⟩⟩

/-- `getVolume`; src/core/TriclinicBox.cpp:35-38. -/
def volume (b : Box) : ℝ := |(b.sides.x.cross b.sides.y).dot b.sides.z|

/-- `getHeights`; src/core/TriclinicBox.cpp:40-51. -/
def heights (b : Box) : Vec3 ℝ :=
  ⟨b.volume / (b.sides.y.cross b.sides.z).norm,
   b.volume / (b.sides.z.cross b.sides.x).norm,
   b.volume / (b.sides.x.cross b.sides.y).norm⟩

end Box

namespace PBC

/-- The loop `while (positionRel[i] + correctionRel[i] < 0) correctionRel[i] += 1;`
src/core/PeriodicBoundaryConditions.cpp:16-17. -/
def corrUp (p c : ℝ) : ℝ :=
  if p + c < 0 then corrUp p (c + 1) else c
termination_by ⌈-(p + c)⌉.toNat
decreasing_by
  have h1 : -(p + (c + 1)) = -(p + c) - 1 := by ring
  have h2 : 0 < ⌈-(p + c)⌉ := Int.ceil_pos.mpr (by linarith)
  rw [h1, Int.ceil_sub_one]; omega

/-- The loop `while (positionRel[i] + correctionRel[i] >= 1) correctionRel[i] -= 1;`
src/core/PeriodicBoundaryConditions.cpp:18-19. -/
def corrDown (p c : ℝ) : ℝ :=
  if p + c ≥ 1 then corrDown p (c - 1) else c
termination_by ⌊p + c⌋.toNat
decreasing_by
  have h1 : p + (c - 1) = (p + c) - 1 := by ring
  have h2 : 1 ≤ ⌊p + c⌋ := Int.le_floor.mpr (by push_cast; linarith)
  rw [h1, Int.floor_sub_one]; omega

/-- One coordinate of the correction; src/core/PeriodicBoundaryConditions.cpp:13-20. -/
def corr1 (p : ℝ) : ℝ := corrDown p (corrUp p 0)

/-- `getCorrection`; src/core/PeriodicBoundaryConditions.cpp:11-22. -/
def getCorrection (b : Box) (position : Vec3 ℝ) : Vec3 ℝ :=
  let rel := b.absToRel position
  b.relToAbs ⟨corr1 rel.x, corr1 rel.y, corr1 rel.z⟩

/-- The loop `while (positionRel2[i] + translationRel[i] - positionRel1[i] > 0.5) translationRel[i] -= 1;`
src/core/PeriodicBoundaryConditions.cpp:30-31. -/
def transDown (p1 p2 t : ℝ) : ℝ :=
  if p2 + t - p1 > 1 / 2 then transDown p1 p2 (t - 1) else t
termination_by ⌈p2 + t - p1⌉.toNat
decreasing_by
  have h1 : p2 + (t - 1) - p1 = (p2 + t - p1) - 1 := by ring
  have h2 : 0 < ⌈p2 + t - p1⌉ := Int.ceil_pos.mpr (by linarith)
  rw [h1, Int.ceil_sub_one]; omega

/-- The loop `while (positionRel2[i] + translationRel[i] - positionRel1[i] < -0.5) translationRel[i] += 1;`
src/core/PeriodicBoundaryConditions.cpp:32-33. -/
def transUp (p1 p2 t : ℝ) : ℝ :=
  if p2 + t - p1 < -(1 / 2) then transUp p1 p2 (t + 1) else t
termination_by ⌈-(p2 + t - p1)⌉.toNat
decreasing_by
  have h1 : -(p2 + (t + 1) - p1) = -(p2 + t - p1) - 1 := by ring
  have h2 : 0 < ⌈-(p2 + t - p1)⌉ := Int.ceil_pos.mpr (by linarith)
  rw [h1, Int.ceil_sub_one]; omega

/-- One coordinate of the translation; src/core/PeriodicBoundaryConditions.cpp:27-34. -/
def trans1 (p1 p2 : ℝ) : ℝ := transUp p1 p2 (transDown p1 p2 0)

/-- `getTranslation`; src/core/PeriodicBoundaryConditions.cpp:24-36. -/
def getTranslation (b : Box) (position1 position2 : Vec3 ℝ) : Vec3 ℝ :=
  let rel1 := b.absToRel position1
  let rel2 := b.absToRel position2
  b.relToAbs ⟨trans1 rel1.x rel2.x, trans1 rel1.y rel2.y, trans1 rel1.z rel2.z⟩

/-- The loop `while (coordDistanceRel > 0.5) coordDistanceRel -= 1;` src/core/PeriodicBoundaryConditions.cpp:45-46. -/
def distWrap (d : ℝ) : ℝ :=
  if d > 1 / 2 then distWrap (d - 1) else d
termination_by ⌈d⌉.toNat
decreasing_by
  have h2 : 0 < ⌈d⌉ := Int.ceil_pos.mpr (by linarith)
  rw [Int.ceil_sub_one]; omega

/-- `getDistance2`; src/core/PeriodicBoundaryConditions.cpp:38-50. -/
def getDistance2 (b : Box) (position1 position2 : Vec3 ℝ) : ℝ :=
  let rel1 := b.absToRel position1
  let rel2 := b.absToRel position2
  (b.relToAbs ⟨distWrap |rel2.x - rel1.x|, distWrap |rel2.y - rel1.y|, distWrap |rel2.z - rel1.z|⟩).norm2

/-- `PeriodicBoundaryConditions::setBox` refuses a box of zero volume;
src/core/PeriodicBoundaryConditions.cpp:56-59. -/
def setBox (b : Box) : Outcome Box :=
  if b.volume ≠ 0 then .ok b else .throw "Expects(box_.getVolume() != 0)"

end PBC

end

end Rampack
