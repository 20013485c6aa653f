import Verif.Shapes.Hard
import Verif.Shapes.Axes
/-
Model of families of molecules made of spheres in a row: /repo/src/core/shapes/{KMerTraits,PolysphereLollipopTraits,PolysphereWedgeTraits}.cpp and of volumes
of common parts of spheres, /repo/src/geometry/VolumeCalculator.cpp. Numbers are real. The variants in the namespace `legacy` are not modelled.
-/
namespace Rampack

namespace Composite

open Shapes

/-- `VolumeCalculator::sphericalCap`; VolumeCalculator.cpp:11-16. -/
noncomputable def sphericalCap (radius capHeight : ℝ) : Outcome ℝ := do
  Outcome.require (decide (radius ≥ 0)) "radius >= 0"
  Outcome.require (decide (capHeight ≤ 2 * radius)) "capHeight <= 2*radius"
  .ok (Real.pi * capHeight * capHeight / 3 * (3 * radius - capHeight))

/-- `VolumeCalculator::sphereIntersection`; VolumeCalculator.cpp:18-29. -/
noncomputable def sphereIntersection (radius1 radius2 distance : ℝ) : Outcome ℝ := do
  Outcome.require (decide (radius1 > 0)) "radius1 > 0"
  Outcome.require (decide (radius2 > 0)) "radius2 > 0"
  Outcome.require (decide (distance > 0)) "distance > 0"
  Outcome.require (decide (distance ≤ radius1 + radius2)) "distance <= radius1 + radius2"
  .ok (Real.pi / 12 / distance * (radius1 + radius2 - distance) ^ 2 * (distance * distance + 2 * distance * (radius1 + radius2) - 3 * (radius1 - radius2) ^ 2))

/-- What is built: spheres, the volume, and axes and points of the molecule; PolysphereTraits.h:53-64. -/
structure Molecule where
  spheres : List SphereData
  volume : ℝ
  geometry : Geometry

/-- Points "s0", "s1" and so on; PolysphereTraits.cpp:185-188. -/
def spherePoints (data : List SphereData) : List (String × Vec3 ℝ) := data.zipIdx.map fun d => ("s" ++ toString d.2, d.1.position)

/-- `PolysphereGeometry(data, primaryAxis, secondaryAxis, {0, 0, 0}, volume)`; PolysphereTraits.cpp:165-191. -/
noncomputable def build (data : List SphereData) (secondary : Option (Vec3 ℝ)) (volume : ℝ) : Outcome Molecule := do
  Outcome.require (!data.isEmpty) "!this->sphereData.empty()"
  let G ← Geometry.mkPoly false (some ⟨0, 0, 1⟩) secondary 0 (spherePoints data) []
  .ok ⟨data, volume, G⟩

/-- `addCustomNamedPoints`; PolysphereTraits.h:115-117. -/
def Molecule.addPoints (m : Molecule) (l : List (String × Vec3 ℝ)) : Outcome Molecule := do
  let G ← m.geometry.registerPoints l
  .ok { m with geometry := G }

/-- `normalizeMassCentre`; PolysphereTraits.cpp:149-163. -/
noncomputable def Molecule.normalizeMassCentre (m : Molecule) : Molecule :=
  { spheres := m.spheres.map fun d => ⟨d.position - massCentre m.spheres, d.radius⟩
    volume := m.volume
    geometry := { m.geometry with
      origin := m.geometry.origin - massCentre m.spheres
      points := m.geometry.points.map fun p => (p.1, p.2 + -massCentre m.spheres) } }

/-- `setGeometricOrigin`; PolysphereTraits.h:113. -/
def Molecule.setOrigin (m : Molecule) (o : Vec3 ℝ) : Molecule := { m with geometry := { m.geometry with origin := o } }

/-- `sphereData.front()`; undefined behaviour when there are no spheres. -/
def front (data : List SphereData) : Outcome SphereData := vget data 0

/-- `sphereData.back()`; undefined behaviour when there are no spheres. -/
def back (data : List SphereData) : Outcome SphereData := vget data (data.length - 1)

/-- The loop of `KMerTraits::generateGeometry` for `n` more spheres; KMerTraits.cpp:19-22. -/
noncomputable def kmerSpheres (radius distance : ℝ) : Nat → ℝ → Outcome (List SphereData)
  | 0, _ => .ok []
  | n + 1, z => do
    let d ← SphereData.make ⟨0, 0, z⟩ radius
    let rest ← kmerSpheres radius distance n (z + distance)
    .ok (d :: rest)

/-- `KMerTraits::caluclateVolume`; KMerTraits.cpp:34-45. -/
noncomputable def kmerVolume (sphereNum : Nat) (radius distance : ℝ) : Outcome ℝ :=
  if distance < 2 * radius then do
    let cap ← sphericalCap radius (radius - distance / 2)
    .ok ((sphereNum : ℝ) * (4 / 3 * Real.pi * radius * radius * radius) - 2 * ((sphereNum - 1 : Nat) : ℝ) * cap)
  else .ok ((sphereNum : ℝ) * (4 / 3 * Real.pi * radius * radius * radius))

/-- `KMerTraits::generateGeometry`; KMerTraits.cpp:10-32. -/
noncomputable def kmer (sphereNum : Nat) (radius distance : ℝ) : Outcome Molecule := do
  Outcome.require (decide (sphereNum ≥ 2)) "sphereNum >= 2"
  Outcome.require (decide (radius > 0)) "sphereRadius > 0"
  Outcome.require (decide (distance > 0)) "distance > 0"
  let data ← kmerSpheres radius distance sphereNum (-((sphereNum - 1 : Nat) : ℝ) / 2 * distance)
  let v ← kmerVolume sphereNum radius distance
  let m ← build data (some ⟨1, 0, 0⟩) v
  let f ← front m.normalizeMassCentre.spheres
  let b ← back m.normalizeMassCentre.spheres
  (m.normalizeMassCentre.setOrigin ⟨0, 0, 0⟩).addPoints [("cm", ⟨0, 0, 0⟩), ("beg", f.position), ("end", b.position)]

/-- `data.front().position[2] - data.front().radius` and so on: the middle between ends of the molecule, and the translation of spheres to it;
PolysphereLollipopTraits.cpp:72-82, PolysphereWedgeTraits.cpp:65-75. -/
noncomputable def centred (data : List SphereData) : Outcome (List SphereData) := do
  let f ← front data
  let b ← back data
  data.mapM fun d => SphereData.make (d.position + ⟨0, 0, -((f.position.z - f.radius + (b.position.z + b.radius)) / 2)⟩) d.radius

/-- `std::accumulate` of volumes of spheres; PolysphereLollipopTraits.cpp:95-98, PolysphereWedgeTraits.cpp:86-89. -/
noncomputable def baseVolume (data : List SphereData) : ℝ := data.foldl (fun v d => v + 4 / 3 * Real.pi * d.radius ^ 3) 0

/-- The loop of `PolysphereLollipopTraits::generateGeometry` for `n` more spheres of the stick, with the final position; PolysphereLollipopTraits.cpp:63-67.
The position is not moved after the last sphere of the stick. -/
noncomputable def stickSpheres (radius step : ℝ) : Nat → ℝ → Outcome (List SphereData × ℝ)
  | 0, z => .ok ([], z)
  | n + 1, z => do
    let d ← SphereData.make ⟨0, 0, z⟩ radius
    let rest ← stickSpheres radius step n (if n = 0 then z else z + step)
    .ok (d :: rest.1, rest.2)

/-- Common parts of neighbouring spheres of the stick; PolysphereLollipopTraits.cpp:103-107. -/
noncomputable def stickOverlaps (data : List SphereData) (penetration : ℝ) : Outcome ℝ :=
  if penetration > 0 then do
    let f ← front data
    let cap ← sphericalCap f.radius (penetration / 2)
    .ok (2 * ((data.length - 2 : Nat) : ℝ) * cap)
  else .ok 0

/-- The common part of the tip and of the last sphere of the stick; PolysphereLollipopTraits.cpp:110-115. -/
noncomputable def tipOverlap (data : List SphereData) (penetration : ℝ) : Outcome ℝ :=
  if penetration > 0 then do
    let t ← vget data (data.length - 1)
    let s ← vget data (data.length - 2)
    sphereIntersection t.radius s.radius (t.position.z - s.position.z)
  else .ok 0

/-- `PolysphereLollipopTraits::calculateVolume`; PolysphereLollipopTraits.cpp:92-118. -/
noncomputable def lollipopVolume (data : List SphereData) (stickPenetration tipPenetration : ℝ) : Outcome ℝ := do
  let s ← stickOverlaps data stickPenetration
  let t ← tipOverlap data tipPenetration
  .ok (baseVolume data - s - t)

/-- The point "cm" of molecules whose spheres do not penetrate each other; PolysphereLollipopTraits.cpp:87-88, PolysphereWedgeTraits.cpp:80-81. -/
noncomputable def Molecule.addMassCentre (m : Molecule) (known : Bool) : Outcome Molecule :=
  if known then m.addPoints [("cm", massCentre m.spheres)] else .ok m

/-- The last part of `generateGeometry`; PolysphereLollipopTraits.cpp:84-89. -/
noncomputable def lollipopOf (data : List SphereData) (stickPenetration tipPenetration : ℝ) : Outcome Molecule := do
  let v ← lollipopVolume data stickPenetration tipPenetration
  let m ← build data none v
  let f ← front data
  let b ← back data
  let m ← m.addPoints [("ss", f.position), ("st", b.position)]
  m.addMassCentre (decide (stickPenetration = 0) && decide (tipPenetration = 0))

/-- `PolysphereLollipopTraits::generateGeometry`; PolysphereLollipopTraits.cpp:49-90. -/
noncomputable def lollipop (sphereNum : Nat) (stickRadius tipRadius stickPenetration tipPenetration : ℝ) : Outcome Molecule := do
  Outcome.require (decide (sphereNum ≥ 2)) "sphereNum >= 2"
  Outcome.require (decide (stickRadius > 0)) "stickSphereRadius > 0"
  Outcome.require (decide (tipRadius > 0)) "tipSphereRadius > 0"
  Outcome.require (decide (stickPenetration < 2 * stickRadius)) "stickSpherePenetration < 2 * stickSphereRadius"
  Outcome.require (decide (tipPenetration < 2 * min stickRadius tipRadius)) "tipSpherePenetration < 2 * std::min(stickSphereRadius, tipSphereRadius)"
  let stick ← stickSpheres stickRadius (2 * stickRadius - stickPenetration) (sphereNum - 1) 0
  let tip ← SphereData.make ⟨0, 0, stick.2 + (stickRadius + tipRadius - tipPenetration)⟩ tipRadius
  let data ← centred (stick.1 ++ [tip])
  lollipopOf data stickPenetration tipPenetration

/-- The loop of `PolysphereWedgeTraits::generateGeometry` for `n` more spheres; PolysphereWedgeTraits.cpp:59-63. -/
noncomputable def wedgeSpheres (delta penetration : ℝ) : Nat → ℝ → ℝ → Outcome (List SphereData)
  | 0, _, _ => .ok []
  | n + 1, z, radius => do
    let d ← SphereData.make ⟨0, 0, z⟩ radius
    let rest ← wedgeSpheres delta penetration n (z + (2 * radius + delta - penetration)) (radius + delta)
    .ok (d :: rest)

/-- The loop over neighbouring spheres; PolysphereWedgeTraits.cpp:93-98. -/
noncomputable def subtractOverlaps : List SphereData → ℝ → Outcome ℝ
  | d1 :: d2 :: rest, v => do
    let o ← sphereIntersection d1.radius d2.radius (d2.position.z - d1.position.z)
    subtractOverlaps (d2 :: rest) (v - o)
  | [_], v => .ok v
  | [], v => .ok v

/-- `PolysphereWedgeTraits::calculateVolume`; PolysphereWedgeTraits.cpp:85-102. -/
noncomputable def wedgeVolume (data : List SphereData) (penetration : ℝ) : Outcome ℝ :=
  if penetration > 0 then subtractOverlaps data (baseVolume data) else .ok (baseVolume data)

/-- The last part of `generateGeometry`; PolysphereWedgeTraits.cpp:77-82. -/
noncomputable def wedgeOf (data : List SphereData) (penetration : ℝ) : Outcome Molecule := do
  let v ← wedgeVolume data penetration
  let m ← build data none v
  let f ← front data
  let b ← back data
  let m ← m.addPoints [("beg", f.position), ("end", b.position)]
  m.addMassCentre (decide (penetration = 0))

/-- `PolysphereWedgeTraits::generateGeometry`; PolysphereWedgeTraits.cpp:45-83. -/
noncomputable def wedge (sphereNum : Nat) (bottomRadius topRadius penetration : ℝ) : Outcome Molecule := do
  Outcome.require (decide (sphereNum ≥ 2)) "sphereNum >= 2"
  Outcome.require (decide (topRadius > 0)) "topSphereRadius > 0"
  Outcome.require (decide (bottomRadius > 0)) "bottomSphereRadius > 0"
  Outcome.require (decide (penetration < 2 * min topRadius bottomRadius)) "spherePenetration < 2*std::min(topSphereRadius, bottomSphereRadius)"
  let data ← wedgeSpheres ((topRadius - bottomRadius) / ((sphereNum - 1 : Nat) : ℝ)) penetration sphereNum 0 bottomRadius
  let data ← centred data
  wedgeOf data penetration

end Composite

end Rampack
