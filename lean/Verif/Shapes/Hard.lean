import Verif.Shapes.Whole
import Verif.Geometry.Segment
import Mathlib.Analysis.Real.Pi.Bounds
/-
Model of the hard shapes made of spheres and spherocylinders: /repo/src/core/shapes/SphereTraits.{h,cpp}, PolysphereTraits.{h,cpp}, SpherocylinderTraits.{h,cpp}, PolyspherocylinderTraits.{h,cpp}. Numbers are real.

An index of a sphere or of a spherocylinder beyond the end of the list is undefined behaviour in C++; molecules never ask for one (`Packing` passes indices of interaction centres only). The radius and axis for such an index
are zero here.
-/
namespace Rampack

namespace Shapes

/-- `SphereTraits(radius)`: hard spheres; SphereTraits.cpp:14-20, 53-72, SphereTraits.h:20-38. -/
noncomputable def sphere (radius : ℝ) : Outcome Interaction := do
  Outcome.require (decide (radius > 0)) "radius > 0"
  .ok { hasHard := true, hasSoft := false, isConvex := true, centres := [], range := 2 * radius, totalRange := 2 * radius
        overlap := fun s1 s2 bc => decide (bc.distance2 s1.pos s2.pos < (2 * radius) ^ 2)
        energy := fun _ _ _ => 0
        wall := fun s o v => decide (v.dot (s.pos - o) < radius) }

/-- `PolysphereTraits::SphereData`; PolysphereTraits.h:27-44. -/
structure SphereData where
  position : Vec3 ℝ
  radius : ℝ

/-- `SphereData(position, radius)`; PolysphereTraits.cpp:82-86. -/
noncomputable def SphereData.make (position : Vec3 ℝ) (radius : ℝ) : Outcome SphereData := do
  Outcome.require (decide (radius > 0)) "radius > 0"
  .ok ⟨position, radius⟩

/-- `sphereData[idx].radius`. -/
noncomputable def radiusAt (data : List SphereData) (idx : Nat) : ℝ := (data[idx]?.map SphereData.radius).getD 0

/-- `std::max_element` with a comparison of a number of each element: the first largest one; used in PolysphereTraits.cpp:114-119 and PolyspherocylinderTraits.cpp:147-154. -/
noncomputable def maxBy {α : Type} (f : α → ℝ) (x : α) : List α → α
  | [] => x
  | y :: l => maxBy f (if f x < f y then y else x) l

/-- `HardInteraction::getRangeRadius`; PolysphereTraits.cpp:114-119. The list is not empty. -/
noncomputable def polysphereRange (d : SphereData) (rest : List SphereData) : ℝ := 2 * (maxBy SphereData.radius d rest).radius

/-- `HardInteraction` of a polysphere; PolysphereTraits.cpp:95-136, PolysphereTraits.h:122-143. -/
noncomputable def polysphere : List SphereData → Outcome Interaction
  | [] => .throw "!this->sphereData.empty()"
  | d :: rest =>
    .ok { hasHard := true, hasSoft := false, isConvex := false, centres := (d :: rest).map SphereData.position
          range := polysphereRange d rest
          totalRange := Interaction.totalRangeRadius ((d :: rest).map SphereData.position) (polysphereRange d rest)
          overlap := fun s1 s2 bc => decide (bc.distance2 s1.pos s2.pos < (radiusAt (d :: rest) s1.idx + radiusAt (d :: rest) s2.idx) * (radiusAt (d :: rest) s1.idx + radiusAt (d :: rest) s2.idx))
          energy := fun _ _ _ => 0
          wall := fun s o v => decide (v.dot (s.pos - o) < radiusAt (d :: rest) s.idx) }

/-- `getCapCentre`; SpherocylinderTraits.cpp:24-26. -/
noncomputable def capCentre (length : ℝ) (k : ℝ) (s : Shape) : Vec3 ℝ := s.pos + (1 / 2 * k * length) • s.rot.c2

/-- The test of two rods, the second one already translated; SpherocylinderTraits.cpp:34-46. -/
noncomputable def rodsOverlap (length radius : ℝ) (s1 s2 : Shape) : Bool :=
  if (s2.pos - s1.pos).norm2 < 4 * radius * radius then true
  else if (s2.pos - s1.pos).norm2 ≥ (2 * radius + length) ^ 2 then false
  else decide (Segment.calculate (capCentre length (-1) s1) (capCentre length 1 s1) (capCentre length (-1) s2) (capCentre length 1 s2) < 4 * radius * radius)

/-- `overlapWithWall`; SpherocylinderTraits.cpp:57-75. -/
noncomputable def rodWall (length radius : ℝ) (s : Site) (o v : Vec3 ℝ) : Bool :=
  if v.dot (s.pos + (length / 2) • s.rot.c2 - o) < radius then true
  else if v.dot (s.pos - (length / 2) • s.rot.c2 - o) < radius then true
  else false

/-- `SpherocylinderTraits(length, radius)`; SpherocylinderTraits.cpp:12-75, SpherocylinderTraits.h:75-87. -/
noncomputable def spherocylinder (length radius : ℝ) : Outcome Interaction := do
  Outcome.require (decide (length ≥ 0)) "length >= 0"
  Outcome.require (decide (radius > 0)) "radius > 0"
  .ok { hasHard := true, hasSoft := false, isConvex := true, centres := [], range := 2 * radius + length, totalRange := 2 * radius + length
        overlap := fun s1 s2 bc => rodsOverlap length radius ⟨s1.pos, s1.rot⟩ ⟨s2.pos + bc.translation s1.pos s2.pos, s2.rot⟩
        energy := fun _ _ _ => 0
        wall := rodWall length radius }

/-- `PolyspherocylinderTraits::SpherocylinderData`; PolyspherocylinderTraits.h. -/
structure RodData where
  position : Vec3 ℝ
  halfAxis : Vec3 ℝ
  halfLength : ℝ
  radius : ℝ
  circumsphereRadius : ℝ

/-- `SpherocylinderData(position, halfAxis, radius)`; PolyspherocylinderTraits.cpp:77-83. -/
noncomputable def RodData.make (position halfAxis : Vec3 ℝ) (radius : ℝ) : Outcome RodData := do
  Outcome.require (decide (radius > 0)) "radius > 0"
  .ok ⟨position, halfAxis, halfAxis.norm, radius, radius + halfAxis.norm⟩

/-- `spherocylinderData[idx]`. -/
noncomputable def rodAt (data : List RodData) (idx : Nat) : RodData := data.getD idx ⟨0, 0, 0, 0, 0⟩

/-- `overlapBetween`, for the data of both spherocylinders and the second one already translated; PolyspherocylinderTraits.cpp:121-135. -/
noncomputable def polyrodsOverlap (d1 d2 : RodData) (p1 : Vec3 ℝ) (r1 : Mat3) (p2 : Vec3 ℝ) (r2 : Mat3) : Bool :=
  if (p2 - p1).norm2 < (d1.radius + d2.radius) * (d1.radius + d2.radius) then true
  else if (p2 - p1).norm2 ≥ (d1.circumsphereRadius + d2.circumsphereRadius) * (d1.circumsphereRadius + d2.circumsphereRadius) then false
  else decide (Segment.calculate (p1 + r1.mulVec d1.halfAxis) (p1 - r1.mulVec d1.halfAxis) (p2 + r2.mulVec d2.halfAxis) (p2 - r2.mulVec d2.halfAxis) <
    (d1.radius + d2.radius) * (d1.radius + d2.radius))

/-- `overlapWithWall`; PolyspherocylinderTraits.cpp:156-174. -/
noncomputable def polyrodWall (d : RodData) (s : Site) (o v : Vec3 ℝ) : Bool :=
  if v.dot (s.pos - s.rot.mulVec d.halfAxis - o) < d.radius then true
  else if v.dot (s.pos + s.rot.mulVec d.halfAxis - o) < d.radius then true
  else false

/-- `getRangeRadius`; PolyspherocylinderTraits.cpp:147-154. -/
noncomputable def polyrodRange (d : RodData) (rest : List RodData) : ℝ := 2 * (maxBy RodData.circumsphereRadius d rest).circumsphereRadius

/-- `PolyspherocylinderTraits`; PolyspherocylinderTraits.cpp:113-174. The check that the list is not empty is in the constructor of the geometry, line 34. -/
noncomputable def polyspherocylinder : List RodData → Outcome Interaction
  | [] => .throw "!this->spherocylinderData.empty()"
  | d :: rest =>
    .ok { hasHard := true, hasSoft := false, isConvex := false, centres := (d :: rest).map RodData.position
          range := polyrodRange d rest
          totalRange := Interaction.totalRangeRadius ((d :: rest).map RodData.position) (polyrodRange d rest)
          overlap := fun s1 s2 bc => polyrodsOverlap (rodAt (d :: rest) s1.idx) (rodAt (d :: rest) s2.idx) s1.pos s1.rot (s2.pos + bc.translation s1.pos s2.pos) s2.rot
          energy := fun _ _ _ => 0
          wall := fun s o v => polyrodWall (rodAt (d :: rest) s.idx) s o v }

/-- The inner loop of `spheresOverlap`; PolysphereTraits.cpp:213-222. -/
noncomputable def sphereOverlapsAny (d1 : SphereData) (rest : List SphereData) : Bool :=
  rest.any fun d2 => decide ((d1.position - d2.position).norm2 * (1 / 10 ^ 12 + 1) < (d1.radius + d2.radius) ^ 2)

/-- `spheresOverlap`; PolysphereTraits.cpp:211-226. -/
noncomputable def spheresOverlap : List SphereData → Bool
  | [] => false
  | d :: rest => sphereOverlapsAny d rest || spheresOverlap rest

/-- `PolysphereGeometry::calculateVolume`; PolysphereTraits.cpp:138-147. -/
noncomputable def polysphereVolume (data : List SphereData) : Outcome ℝ := do
  Outcome.require (!spheresOverlap data) "automatic volume not supported for overlapping spheres"
  .ok (data.foldl (fun v d => v + 4 * Real.pi / 3 * d.radius * d.radius * d.radius) 0)

/-- `calculateMassCentre`; PolysphereTraits.cpp:191-207. -/
noncomputable def massCentre (data : List SphereData) : Vec3 ℝ :=
  (1 / data.foldl (fun w d => w + d.radius * d.radius * d.radius) 0) • data.foldl (fun c d => c + (d.radius * d.radius * d.radius) • d.position) (0 : Vec3 ℝ)

/-- The part of `PolysphereGeometry` which moves with the mass centre; PolysphereTraits.h:53-60, ShapeGeometry.h. Named points are in a list of pairs instead of a map. -/
structure PolysphereGeometry where
  spheres : List SphereData
  geometricOrigin : Vec3 ℝ
  namedPoints : List (String × Vec3 ℝ)

/-- `normalizeMassCentre`; PolysphereTraits.cpp:149-165. -/
noncomputable def PolysphereGeometry.normalizeMassCentre (g : PolysphereGeometry) : PolysphereGeometry :=
  { spheres := g.spheres.map fun d => ⟨d.position - massCentre g.spheres, d.radius⟩
    geometricOrigin := g.geometricOrigin - massCentre g.spheres
    namedPoints := g.namedPoints.map fun p => (p.1, p.2 + -massCentre g.spheres) }

/-- The inner loop of `spherocylindersOverlap`; PolyspherocylinderTraits.cpp:58-72. -/
noncomputable def rodOverlapsAny (d1 : RodData) (rest : List RodData) : Bool :=
  rest.any fun d2 => decide (Segment.calculate (d1.position - d1.halfAxis) (d1.position + d1.halfAxis) (d2.position - d2.halfAxis) (d2.position + d2.halfAxis) * (1 + 1 / 10 ^ 12) <
    d1.radius + d2.radius)

/-- `spherocylindersOverlap`; PolyspherocylinderTraits.cpp:56-75. -/
noncomputable def rodsOverlapEachOther : List RodData → Bool
  | [] => false
  | d :: rest => rodOverlapsAny d rest || rodsOverlapEachOther rest

/-- `SpherocylinderData::getVolume`; PolyspherocylinderTraits.cpp:97-102. -/
noncomputable def RodData.volume (d : RodData) : ℝ := 4 * Real.pi / 3 * (d.radius * d.radius * d.radius) + Real.pi * (d.radius * d.radius) * (2 * d.halfLength)

/-- `PolyspherocylinderGeometry::calculateVolume`; PolyspherocylinderTraits.cpp:16-24. -/
noncomputable def polyrodVolume (data : List RodData) : Outcome ℝ := do
  Outcome.require (!rodsOverlapEachOther data) "automatic volume not supported for overlapping spheres"
  .ok (data.foldl (fun v d => v + d.volume) 0)

end Shapes

end Rampack
