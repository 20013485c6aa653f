import Verif.Shapes.Composite
import Verif.Geometry.Rotation
/-
Model of molecules with parts on an arc: /repo/src/core/shapes/{PolysphereBananaTraits,PolyspherocylinderBananaTraits}.cpp and conditions of their matchers,
/repo/src/frontend/matchers/ShapeMatcher.cpp. Numbers are real. The variant in the namespace `legacy` is not modelled.
-/
namespace Rampack

namespace Banana

open Shapes Composite

/-- The loop over spheres, for `n` more of them; PolysphereBananaTraits.cpp:60-64. -/
noncomputable def arcPositions (arcRadius angleStep : ℝ) : Nat → ℝ → List (Vec3 ℝ)
  | 0, _ => []
  | n + 1, angle => (Mat3.rotation 0 angle 0).mulVec ⟨-arcRadius, 0, 0⟩ :: arcPositions arcRadius angleStep n (angle + angleStep)

/-- The translation for short arcs; PolysphereBananaTraits.cpp:66-70. -/
noncomputable def translated (arcAngle : ℝ) (pos : List (Vec3 ℝ)) : Outcome (List (Vec3 ℝ)) :=
  if arcAngle < Real.pi then do
    let f ← vget pos 0
    .ok (pos.map fun p => p + ⟨-f.x, 0, 0⟩)
  else .ok pos

/-- Spheres of the same radius at given points; PolysphereBananaTraits.cpp:72-75. -/
noncomputable def spheresAt (radius : ℝ) : List (Vec3 ℝ) → Outcome (List SphereData)
  | [] => .ok []
  | p :: rest => do
    let d ← SphereData.make p radius
    let l ← spheresAt radius rest
    .ok (d :: l)

/-- The volume which is subtracted for a pair of spheres; PolysphereBananaTraits.cpp:103-107, 112-114. Nothing is subtracted in C++ if spheres do not overlap. -/
noncomputable def pairOverlap (d1 d2 : SphereData) : Outcome ℝ :=
  if (d1.position - d2.position).norm < d1.radius + d2.radius then sphereIntersection d1.radius d2.radius (d1.position - d2.position).norm else .ok 0

/-- The last sphere and the first one; PolysphereBananaTraits.cpp:109-115. -/
noncomputable def endsOverlap (data : List SphereData) (arcAngle : ℝ) : Outcome ℝ :=
  if arcAngle > Real.pi ∧ data.length > 2 then do
    let d1 ← vget data 0
    let d3 ← back data
    pairOverlap d1 d3
  else .ok 0

/-- `PolysphereBananaTraits::calculateVolume`; PolysphereBananaTraits.cpp:95-118. -/
noncomputable def bananaVolume (data : List SphereData) (arcAngle : ℝ) : Outcome ℝ := do
  let f ← front data
  let d2 ← vget data 1
  let o ← pairOverlap f d2
  let e ← endsOverlap data arcAngle
  .ok ((data.length : ℝ) * 4 / 3 * Real.pi * f.radius ^ 3 - ((data.length - 1 : Nat) : ℝ) * o - e)

/-- The condition of `addMassCentre`; PolysphereBananaTraits.cpp:84-93. -/
noncomputable def massCentreKnown (data : List SphereData) : Outcome Bool := do
  let d1 ← vget data 0
  let d2 ← vget data 1
  .ok (decide ((d2.position - d1.position).norm2 + 1 / 10 ^ 12 * (1 / 10 ^ 12) ≥ d1.radius * d1.radius))

/-- The last part of `generateGeometry`; PolysphereBananaTraits.cpp:77-81. -/
noncomputable def bananaOf (data : List SphereData) (arcAngle : ℝ) : Outcome Molecule := do
  let v ← bananaVolume data arcAngle
  let m ← build data (some ⟨-1, 0, 0⟩) v
  let f ← front data
  let b ← back data
  let m ← m.addPoints [("beg", f.position), ("end", b.position)]
  let known ← massCentreKnown data
  m.addMassCentre known

/-- `PolysphereBananaTraits::generateGeometry`; PolysphereBananaTraits.cpp:46-82. -/
noncomputable def banana (arcRadius arcAngle : ℝ) (sphereNum : Nat) (sphereRadius : ℝ) : Outcome Molecule := do
  Outcome.require (decide (arcRadius > 0)) "arcRadius > 0"
  Outcome.require (decide (arcAngle > 0)) "arcAngle > 0"
  Outcome.require (decide (arcAngle < 2 * Real.pi)) "arcAngle < 2*M_PI"
  Outcome.require (decide (sphereNum ≥ 2)) "sphereNum >= 2"
  Outcome.require (decide (sphereRadius > 0)) "sphereRadius > 0"
  Outcome.require (decide (sphereRadius ≤ arcRadius)) "sphereRadius <= arcRadius"
  let pos ← translated arcAngle (arcPositions arcRadius (arcAngle / ((sphereNum - 1 : Nat) : ℝ)) sphereNum (-arcAngle / 2))
  let data ← spheresAt sphereRadius pos
  bananaOf data arcAngle

/-- Arguments which the matcher of `polysphere_banana` lets in; ShapeMatcher.cpp:142-147. -/
def bananaAccepted (arcRadius arcAngle : ℝ) (sphereNum : Nat) (sphereRadius : ℝ) : Prop :=
  2 ≤ sphereNum ∧ 0 < sphereRadius ∧ 0 < arcRadius ∧ 0 ≤ arcAngle ∧ arcAngle < 2 * Real.pi

/-- `basicValidation`; PolyspherocylinderBananaTraits.cpp:10-18. -/
noncomputable def basicValidation (arcRadius arcAngle : ℝ) (segmentsNum : Nat) (radius : ℝ) : Outcome Unit := do
  Outcome.require (decide (arcRadius > 0)) "arcRadius > 0"
  Outcome.require (decide (arcAngle > 0)) "arcAngle > 0"
  Outcome.require (decide (arcAngle < 2 * Real.pi)) "arcAngle < 2*M_PI"
  Outcome.require (decide (segmentsNum ≥ 2)) "segmentsNum >= 2"
  Outcome.require (decide (radius > 0)) "radius > 0"

/-- `isArcOriginOutside`; PolyspherocylinderBananaTraits.cpp:20-28. -/
noncomputable def isArcOriginOutside (arcRadius arcAngle : ℝ) (segmentsNum : Nat) (radius : ℝ) : Outcome Bool := do
  basicValidation arcRadius arcAngle segmentsNum radius
  .ok (decide (arcRadius * Real.cos (arcAngle / (segmentsNum : ℝ) / 2) * (1 + 1 / 10 ^ 12) ≥ radius))

/-- `isArcOpen`; PolyspherocylinderBananaTraits.cpp:30-41. -/
noncomputable def isArcOpen (arcRadius arcAngle : ℝ) (segmentsNum : Nat) (radius : ℝ) : Outcome Bool := do
  basicValidation arcRadius arcAngle segmentsNum radius
  if arcAngle ≤ Real.pi then .ok true else .ok (decide (2 * Real.sin (arcAngle / 2) * arcRadius * (1 + 1 / 10 ^ 12) ≥ 2 * radius))

/-- `PolyspherocylinderBananaTraits::calculateVolume`; PolyspherocylinderBananaTraits.cpp:43-60. -/
noncomputable def rodBananaVolume (R arcAngle : ℝ) (segmentsNum : Nat) (r : ℝ) : ℝ :=
  let n : ℝ := segmentsNum
  let alpha := arcAngle / n
  let H := r * Real.tan (alpha / 2)
  let L := 2 * R * Real.sin (alpha / 2)
  let V1 := Real.pi * L * r * r
  let V2 := 2 / 3 * H * r * r
  let V3 := 4 / 3 * Real.pi * r * r * r
  n * V1 - (2 * n - 2) * V2 + ((n - 1) * alpha / 2 / Real.pi + 1) * V3

/-- The inner loop for one segment, for `n` more parts from the index `j`; PolyspherocylinderBananaTraits.cpp:83-86. -/
noncomputable def segmentParts (pos1 axis : Vec3 ℝ) (subdivisions : Nat) (radius : ℝ) : Nat → Nat → Outcome (List RodData)
  | 0, _ => .ok []
  | n + 1, j => do
    let d ← RodData.make (pos1 + (((j : ℝ) + 1 / 2) / (subdivisions : ℝ)) • axis) ((1 / (2 * (subdivisions : ℝ))) • axis) radius
    let rest ← segmentParts pos1 axis subdivisions radius n (j + 1)
    .ok (d :: rest)

/-- The loop over segments, for `n` more of them; PolyspherocylinderBananaTraits.cpp:77-88. -/
noncomputable def arcSegments (arcRadius angleStep : ℝ) (subdivisions : Nat) (radius : ℝ) : Nat → ℝ → Outcome (List RodData)
  | 0, _ => .ok []
  | n + 1, angle => do
    let pos1 : Vec3 ℝ := (Mat3.rotation 0 (angle - angleStep / 2) 0).mulVec ⟨-arcRadius, 0, 0⟩
    let pos2 : Vec3 ℝ := (Mat3.rotation 0 (angle + angleStep / 2) 0).mulVec ⟨-arcRadius, 0, 0⟩
    let parts ← segmentParts pos1 (pos2 - pos1) subdivisions radius subdivisions 0
    let rest ← arcSegments arcRadius angleStep subdivisions radius n (angle + angleStep)
    .ok (parts ++ rest)

/-- Rods built again at moved positions; PolyspherocylinderBananaTraits.cpp:96-97. -/
noncomputable def movedRods (t : Vec3 ℝ) : List RodData → Outcome (List RodData)
  | [] => .ok []
  | d :: rest => do
    let d' ← RodData.make (d.position + t) d.halfAxis d.radius
    let l ← movedRods t rest
    .ok (d' :: l)

/-- The translation for short arcs; PolyspherocylinderBananaTraits.cpp:90-99. -/
noncomputable def translatedRods (arcAngle : ℝ) (data : List RodData) : Outcome (List RodData) :=
  if arcAngle < Real.pi then do
    let f ← vget data 0
    movedRods ⟨-(f.position - f.halfAxis).x, 0, 0⟩ data
  else .ok data

/-- What is built: rods, the volume, and the points "beg" and "end"; PolyspherocylinderBananaTraits.cpp:101-104. The points of single rods and axes are as in other
molecules made of rods, see `Geometry.mkPoly`. -/
structure RodBanana where
  rods : List RodData
  volume : ℝ
  beg : Vec3 ℝ
  fin : Vec3 ℝ

/-- The last part of `generateGeometry`; PolyspherocylinderBananaTraits.cpp:101-104. -/
noncomputable def rodBananaOf (data : List RodData) (volume : ℝ) : Outcome RodBanana := do
  let f ← vget data 0
  let b ← vget data (data.length - 1)
  .ok ⟨data, volume, f.position - f.halfAxis, b.position + b.halfAxis⟩

/-- The checks of `generateGeometry`; PolyspherocylinderBananaTraits.cpp:66-70. -/
noncomputable def rodBananaChecks (arcRadius arcAngle : ℝ) (segmentsNum : Nat) (radius : ℝ) (subdivisions : Nat) : Outcome Unit := do
  basicValidation arcRadius arcAngle segmentsNum radius
  let outside ← isArcOriginOutside arcRadius arcAngle segmentsNum radius
  Outcome.require (decide (segmentsNum ≤ 2) || outside) "PolyspherocylinderBananaTraits::isArcOriginOutside(arcRadius, arcAngle, segmentsNum, radius)"
  let open_ ← isArcOpen arcRadius arcAngle segmentsNum radius
  Outcome.require open_ "PolyspherocylinderBananaTraits::isArcOpen(arcRadius, arcAngle, segmentsNum, radius)"
  Outcome.require (decide (subdivisions > 0)) "subdivisions > 0"

/-- `PolyspherocylinderBananaTraits::generateGeometry`; PolyspherocylinderBananaTraits.cpp:62-105. -/
noncomputable def rodBanana (arcRadius arcAngle : ℝ) (segmentsNum : Nat) (radius : ℝ) (subdivisions : Nat) : Outcome RodBanana := do
  rodBananaChecks arcRadius arcAngle segmentsNum radius subdivisions
  let step : ℝ := arcAngle / (segmentsNum : ℝ)
  let data ← arcSegments arcRadius step subdivisions radius segmentsNum (-step * ((segmentsNum - 1 : Nat) : ℝ) / 2)
  let data ← translatedRods arcAngle data
  rodBananaOf data (rodBananaVolume arcRadius arcAngle segmentsNum radius)

/-- Arguments which the matcher of `polyspherocylinder_banana` lets in; ShapeMatcher.cpp:219-241. For a zero angle the checks of the matcher themselves throw. -/
noncomputable def rodBananaAccepted (arcRadius arcAngle : ℝ) (segmentsNum : Nat) (radius : ℝ) (subdivisions : Nat) : Prop :=
  2 ≤ segmentsNum ∧ 0 < radius ∧ 0 < arcRadius ∧ 0 ≤ arcAngle ∧ arcAngle < Real.pi ∧ 0 < subdivisions ∧ isArcOpen arcRadius arcAngle segmentsNum radius = .ok true ∧
    (segmentsNum = 2 ∨ isArcOriginOutside arcRadius arcAngle segmentsNum radius = .ok true)

end Banana

end Rampack
