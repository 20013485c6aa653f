import Verif.Geometry.Xeno
import Verif.Shapes.Axes
import Mathlib.Analysis.Real.Pi.Bounds
/-
Model of wedges: /repo/src/core/shapes/{SmoothWedgeTraits,PolyhedralWedgeTraits}.{h,cpp}, and of volumes of balls and spherocylinders:
/repo/src/core/shapes/{SphereTraits,SpherocylinderTraits}.cpp. Real numbers instead of doubles. Printers are not modelled.
-/
namespace Rampack.Wedge

open Rampack Packing

/-- `SphereTraits::getVolume`; SphereTraits.cpp:31-33. -/
noncomputable def sphereVolume (radius : ℝ) : ℝ := 4 / 3 * Real.pi * radius ^ 3

/-- `SpherocylinderTraits::getVolume`; SpherocylinderTraits.cpp:48-50. -/
noncomputable def rodVolume (length radius : ℝ) : ℝ := Real.pi * radius * radius * length + 4 / 3 * Real.pi * radius ^ 3

/-- What is built: bodies at interaction centres, the centres (none if there is one body at the origin), the volume, and axes and named points;
XenoCollideTraits.h:49-52, SmoothWedgeTraits.h:60-61, PolyhedralWedgeTraits.h:67-68. -/
structure Molecule where
  parts : List XCGeometry
  centres : List (Vec3 ℝ)
  volume : ℝ
  geometry : Geometry

/-- `SmoothWedgeTraits::CollideGeometry::getSupportPoint`; SmoothWedgeTraits.h:44-50. -/
noncomputable def smoothSupport (R r l : ℝ) (n : Vec3 ℝ) : Vec3 ℝ :=
  if (normalized n).z * l < R - r then R • normalized n + ⟨0, 0, (-l + R - r) / 2⟩ else r • normalized n + ⟨0, 0, (l + R - r) / 2⟩

/-- `SmoothWedgeTraits::CollideGeometry`; SmoothWedgeTraits.cpp:99-106, SmoothWedgeTraits.h:42, 52-53. The constructor divides by `l` before it checks that `l` is
positive; nothing uses the result if it is not. -/
noncomputable def smoothPart (R r l : ℝ) : Outcome XCGeometry := do
  Outcome.require (decide (R > 0)) "R > 0"
  Outcome.require (decide (r > 0)) "r > 0"
  Outcome.require (decide (l > 0)) "l > 0"
  .ok ⟨smoothSupport R r l, 0, (l + R + r) / 2, 1 / 2 * (R + r + (R - r) * (R - r) / l)⟩

/-- `epsilon`; SmoothWedgeTraits.cpp:16-21. If `l` is zero the radii are different and the constructor throws afterwards, see `smooth`. -/
noncomputable def slope (R r l : ℝ) : ℝ := if R = r then 0 else (R - r) / l

/-- `SmoothWedgeTraits::getVolume`; SmoothWedgeTraits.cpp:10-25. -/
noncomputable def smoothVolume (R r l : ℝ) : ℝ :=
  Real.pi * l / 3 * (R * R + R * r + r * r) * (1 + slope R r l * slope R r l) + 2 * Real.pi / 3 * (R * R * R + r * r * r)

/-- The positions of spheres before they are scaled: `alphas.push_back(A*alphas.back() + 1)`; SmoothWedgeTraits.cpp:71-75. -/
def unscaled (A : ℝ) : ℕ → ℝ
  | 0 => 0
  | n + 1 => A * unscaled A n + 1

/-- `calculateRelativeSpherePositions`: `alpha /= alphas.back()` changes the last one last; SmoothWedgeTraits.cpp:63-79. When the divisor of `A` is zero, `A` is
infinite, all positions are not numbers and the constructor of the first part throws, as such a radius is not positive; here this is thrown at once. -/
noncomputable def positions (R r l : ℝ) (n : ℕ) : Outcome (List ℝ) :=
  if R = r then .ok ((List.range (n + 1)).map fun i => unscaled 1 i / unscaled 1 n)
  else if l + r - R = 0 then .throw "R > 0"
  else .ok ((List.range (n + 1)).map fun i => unscaled ((l - r + R) / (l + r - R)) i / unscaled ((l - r + R) / (l + r - R)) n)

/-- A turn of the loop for the positions `alpha0` and `alpha1`; SmoothWedgeTraits.cpp:49-59. -/
noncomputable def smoothSlice (R r l alpha0 alpha1 : ℝ) : Outcome (XCGeometry × Vec3 ℝ) := do
  let g ← smoothPart (alpha0 * r + (1 - alpha0) * R) (alpha1 * r + (1 - alpha1) * R) ((alpha1 - alpha0) * l)
  .ok (g, ⟨0, 0, (-l + R - r) / 2 + l * (alpha0 + alpha1) / 2 - ((alpha0 * r + (1 - alpha0) * R) - (alpha1 * r + (1 - alpha1) * R)) / 2⟩)

/-- The loop over neighbouring positions; SmoothWedgeTraits.cpp:48-60. -/
noncomputable def smoothSlices (R r l : ℝ) : List ℝ → Outcome (List (XCGeometry × Vec3 ℝ))
  | [] => .ok []
  | [_] => .ok []
  | a :: b :: rest => do
    let s ← smoothSlice R r l a b
    let t ← smoothSlices R r l (b :: rest)
    .ok (s :: t)

/-- `SmoothWedgeTraits::SmoothWedgeTraits`; SmoothWedgeTraits.cpp:27-61. -/
noncomputable def smooth (R r l : ℝ) (subdivisions : ℕ) : Outcome Molecule := do
  let G ← Geometry.mkXeno (some ⟨0, 0, 1⟩) none 0 [("beg", ⟨0, 0, (-l + R - r) / 2⟩), ("end", ⟨0, 0, (l + R - r) / 2⟩)]
  Outcome.require (decide (r > 0)) "r > 0"
  Outcome.require (decide (R > 0)) "R > 0"
  Outcome.require (decide (l ≥ |R - r|)) "l >= std::abs(R - r)"
  if subdivisions = 0 ∨ subdivisions = 1 then do
    let g ← smoothPart R r l
    .ok ⟨[g], [], smoothVolume R r l, G⟩
  else do
    let alphas ← positions R r l subdivisions
    let s ← smoothSlices R r l alphas
    .ok ⟨s.map Prod.fst, s.map Prod.snd, smoothVolume R r l, G⟩

/-- `PolyhedralWedgeTraits::CollideGeometry::getSupportPoint`; PolyhedralWedgeTraits.h:39-57. -/
noncomputable def boxySupport (up down n : Vec3 ℝ) : Vec3 ℝ :=
  if ((⟨XC.signed n.x up.x, XC.signed n.y up.y, up.z⟩ : Vec3 ℝ) - ⟨XC.signed n.x down.x, XC.signed n.y down.y, down.z⟩).dot n > 0 then
    ⟨XC.signed n.x up.x, XC.signed n.y up.y, up.z⟩
  else ⟨XC.signed n.x down.x, XC.signed n.y down.y, down.z⟩

/-- The check of both constructors; PolyhedralWedgeTraits.cpp:23, 70. -/
noncomputable def boxyAllowed (axBottom ayBottom axTop ayTop : ℝ) : Bool := decide ((axTop > 0 ∧ ayBottom > 0) ∨ (ayTop > 0 ∧ axBottom > 0))

/-- `PolyhedralWedgeTraits::CollideGeometry`; PolyhedralWedgeTraits.cpp:66-78, PolyhedralWedgeTraits.h:37, 59-60. -/
noncomputable def boxyPart (axBottom ayBottom axTop ayTop length : ℝ) : Outcome XCGeometry := do
  Outcome.require (boxyAllowed axBottom ayBottom axTop ayTop) "(axTop > 0 && ayBottom > 0) || (ayTop > 0 && axBottom > 0)"
  Outcome.require (decide (length > 0)) "length > 0"
  .ok ⟨boxySupport ⟨axTop / 2, ayTop / 2, length / 2⟩ ⟨axBottom / 2, ayBottom / 2, -length / 2⟩, 0,
    max (⟨axTop / 2, ayTop / 2, length / 2⟩ : Vec3 ℝ).norm (⟨axBottom / 2, ayBottom / 2, -length / 2⟩ : Vec3 ℝ).norm,
    min (min (min axTop ayTop) (min axBottom ayBottom)) length / 2⟩

/-- `PolyhedralWedgeTraits::getVolume`; PolyhedralWedgeTraits.cpp:10-13. -/
noncomputable def boxyVolume (axBottom ayBottom axTop ayTop length : ℝ) : ℝ :=
  length / 6 * (2 * axBottom * ayBottom + axTop * ayBottom + axBottom * ayTop + 2 * axTop * ayTop)

/-- A turn of the loop; PolyhedralWedgeTraits.cpp:38-44. -/
noncomputable def boxySlice (axBottom ayBottom axTop ayTop length : ℝ) (n i : ℕ) : Outcome (XCGeometry × Vec3 ℝ) := do
  let g ← boxyPart (axTop + ((i : ℝ) + 1) * ((axBottom - axTop) / n)) (ayTop + ((i : ℝ) + 1) * ((ayBottom - ayTop) / n))
    (axTop + (i : ℝ) * ((axBottom - axTop) / n)) (ayTop + (i : ℝ) * ((ayBottom - ayTop) / n)) (length / n)
  .ok (g, ⟨0, 0, length / 2 - ((i : ℝ) + 1 / 2) * (length / n)⟩)

/-- `PolyhedralWedgeTraits::PolyhedralWedgeTraits`; PolyhedralWedgeTraits.cpp:15-46. -/
noncomputable def boxy (axBottom ayBottom axTop ayTop length : ℝ) (subdivisions : ℕ) : Outcome Molecule := do
  let G ← Geometry.mkXeno (some ⟨0, 0, 1⟩) (some ⟨1, 0, 0⟩) 0 [("beg", ⟨0, 0, -length / 2⟩), ("end", ⟨0, 0, length / 2⟩)]
  Outcome.require (boxyAllowed axBottom ayBottom axTop ayTop) "(axTop > 0 && ayBottom > 0) || (ayTop > 0 && axBottom > 0)"
  Outcome.require (decide (length > 0)) "length > 0"
  if subdivisions = 0 ∨ subdivisions = 1 then do
    let g ← boxyPart axBottom ayBottom axTop ayTop length
    .ok ⟨[g], [], boxyVolume axBottom ayBottom axTop ayTop length, G⟩
  else do
    let s ← (List.range subdivisions).mapM (boxySlice axBottom ayBottom axTop ayTop length subdivisions)
    .ok ⟨s.map Prod.fst, s.map Prod.snd, boxyVolume axBottom ayBottom axTop ayTop length, G⟩

end Rampack.Wedge
