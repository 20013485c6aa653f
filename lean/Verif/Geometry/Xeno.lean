import Verif.Outcome
import Verif.Vec3
import Verif.Packing.Model
import Mathlib.Data.List.Basic
/-
Convex bodies given by support functions and the test whether two of them intersect.

Models src/geometry/xenocollide/{AbstractXCGeometry.h,XCPrimitives.cpp,XCPrimitives.h,XCOperations.cpp,XCUtils.h,XenoCollide.h}.
Real numbers instead of doubles.
-/
namespace Rampack

open Packing (normalized)

/-- What the collision test knows about a body; src/geometry/xenocollide/AbstractXCGeometry.h:30-58. The virtual functions
are fields. -/
structure XCGeometry where
  /-- `getSupportPoint(n)`. -/
  support : Vec3 ℝ → Vec3 ℝ
  /-- `getCenter()`; by default the origin (AbstractXCGeometry.h:44). -/
  center : Vec3 ℝ
  /-- `getCircumsphereRadius()`. -/
  circumsphereRadius : ℝ
  /-- `getInsphereRadius()`. -/
  insphereRadius : ℝ

namespace XC

/-- The threshold of `is_vector_zero`; src/geometry/xenocollide/XCUtils.h:35. -/
noncomputable def ZERO : ℝ := 9094947 / 10 ^ 19

/-- `is_vector_zero`; src/geometry/xenocollide/XCUtils.h:34-37. -/
noncomputable def isVectorZero (v : Vec3 ℝ) : Bool := decide (|v.x| < ZERO ∧ |v.y| < ZERO ∧ |v.z| < ZERO)

/-- `vector_comp_mul`; src/geometry/xenocollide/XCUtils.h:39-41. -/
def compMul (a b : Vec3 ℝ) : Vec3 ℝ := ⟨a.x * b.x, a.y * b.y, a.z * b.z⟩

/-- `if (n[i] < 0) result[i] = -result[i]`; src/geometry/xenocollide/XCPrimitives.cpp:51-52, 65-67. -/
noncomputable def signed (n h : ℝ) : ℝ := if n < 0 then -h else h

/-- `XCPoint`; src/geometry/xenocollide/XCPrimitives.h:34-48. -/
def point (pos : Vec3 ℝ) : XCGeometry := ⟨fun _ => pos, pos, 0, 0⟩

/-- `XCSegment`; src/geometry/xenocollide/XCPrimitives.cpp:30-41, XCPrimitives.h:65-66. -/
noncomputable def segment (halfLength : ℝ) : Outcome XCGeometry := do
  Outcome.require (decide (0 < halfLength)) "halfLength > 0"
  pure ⟨fun n => ⟨0, 0, signed n.z halfLength⟩, 0, halfLength, 0⟩

/-- `XCRectangle`; src/geometry/xenocollide/XCPrimitives.cpp:43-54, XCPrimitives.h:86-87. -/
noncomputable def rectangle (halfSideX halfSideY : ℝ) : Outcome XCGeometry := do
  Outcome.require (decide (0 < halfSideX ∧ 0 < halfSideY)) "halfSideX > 0 && halfSideY > 0"
  pure ⟨fun n => ⟨signed n.x halfSideX, signed n.y halfSideY, 0⟩, 0, (⟨halfSideX, halfSideY, 0⟩ : Vec3 ℝ).norm, 0⟩

/-- `XCCuboid`; src/geometry/xenocollide/XCPrimitives.cpp:56-69, XCPrimitives.h:108-109. -/
noncomputable def cuboid (halfSides : Vec3 ℝ) : Outcome XCGeometry := do
  Outcome.require (decide (0 < halfSides.x ∧ 0 < halfSides.y ∧ 0 < halfSides.z)) "all half-sides > 0"
  pure ⟨fun n => ⟨signed n.x halfSides.x, signed n.y halfSides.y, signed n.z halfSides.z⟩, 0, halfSides.norm,
    min (min halfSides.x halfSides.y) halfSides.z⟩

/-- `XCDisk::getSupportPoint`; src/geometry/xenocollide/XCPrimitives.cpp:75-81. -/
noncomputable def diskSupport (radius : ℝ) (n : Vec3 ℝ) : Vec3 ℝ :=
  if isVectorZero ⟨n.x, n.y, 0⟩ then 0 else radius • normalized ⟨n.x, n.y, 0⟩

/-- `XCDisk`; src/geometry/xenocollide/XCPrimitives.cpp:71-81, XCPrimitives.h:127-128. -/
noncomputable def disk (radius : ℝ) : Outcome XCGeometry := do
  Outcome.require (decide (0 < radius)) "radius > 0"
  pure ⟨diskSupport radius, 0, radius, 0⟩

/-- `XCSphere`; src/geometry/xenocollide/XCPrimitives.cpp:83-85, XCPrimitives.h:145-147. -/
noncomputable def sphere (radius : ℝ) : Outcome XCGeometry := do
  Outcome.require (decide (0 < radius)) "radius > 0"
  pure ⟨fun n => radius • normalized n, 0, radius, radius⟩

/-- `XCEllipse::getSupportPoint`; src/geometry/xenocollide/XCPrimitives.cpp:94-100. -/
noncomputable def ellipseSupport (a b : ℝ) (n : Vec3 ℝ) : Vec3 ℝ :=
  if isVectorZero (compMul ⟨a, b, 0⟩ n) then 0 else compMul (normalized (compMul ⟨a, b, 0⟩ n)) ⟨a, b, 0⟩

/-- `XCEllipse`; src/geometry/xenocollide/XCPrimitives.cpp:87-100, XCPrimitives.h:167-168. -/
noncomputable def ellipse (a b : ℝ) : Outcome XCGeometry := do
  Outcome.require (decide (0 < a ∧ 0 < b)) "semiAxisX > 0 && semiAxisY > 0"
  pure ⟨ellipseSupport a b, 0, max (max a b) 0, 0⟩

/-- `XCEllipsoid`; src/geometry/xenocollide/XCPrimitives.cpp:102-113, XCPrimitives.h:189-190. -/
noncomputable def ellipsoid (semiAxes : Vec3 ℝ) : Outcome XCGeometry := do
  Outcome.require (decide (0 < semiAxes.x ∧ 0 < semiAxes.y ∧ 0 < semiAxes.z)) "all semi-axes > 0"
  pure ⟨fun n => compMul (normalized (compMul n semiAxes)) semiAxes, 0, max (max semiAxes.x semiAxes.y) semiAxes.z,
    min (min semiAxes.x semiAxes.y) semiAxes.z⟩

/-- The radius of curvature of a football of half-length `h` and radius `r`, and of a saucer of radius `h` and half-thickness
`r`; src/geometry/xenocollide/XCPrimitives.cpp:125, 147. -/
noncomputable def curvature (h r : ℝ) : ℝ := (h * h / r + r) / 2

/-- `XCFootball::getSupportPoint`; src/geometry/xenocollide/XCPrimitives.cpp:120-135. Normalising the zero vector (a NaN in
the code, when the football is a ball and `n` is along z) gives zero here; see `C75_football_violated`. -/
noncomputable def footballSupport (h r : ℝ) (n : Vec3 ℝ) : Vec3 ℝ :=
  if (normalized n).z * curvature h r < -h then ⟨0, 0, -h⟩
  else if (normalized n).z * curvature h r > h then ⟨0, 0, h⟩
  else (curvature h r) • normalized n - (curvature h r - r) • normalized ⟨n.x, n.y, 0⟩

/-- `XCFootball`; src/geometry/xenocollide/XCPrimitives.cpp:115-135, XCPrimitives.h:211-212. -/
noncomputable def football (halfLength radius : ℝ) : Outcome XCGeometry := do
  Outcome.require (decide (0 < radius)) "radius > 0"
  Outcome.require (decide (radius ≤ halfLength)) "halfLength >= radius"
  pure ⟨footballSupport halfLength radius, 0, halfLength, radius⟩

/-- The part of `XCSaucer::getSupportPoint` for directions in which the surface is one of the caps;
src/geometry/xenocollide/XCPrimitives.cpp:158-162. -/
noncomputable def saucerCap (t r2 : ℝ) (n : Vec3 ℝ) : Vec3 ℝ := r2 • normalized n - (r2 - t) • (⟨0, 0, signed n.z 1⟩ : Vec3 ℝ)

/-- `XCSaucer::getSupportPoint`; src/geometry/xenocollide/XCPrimitives.cpp:142-163. -/
noncomputable def saucerSupport (h t : ℝ) (n : Vec3 ℝ) : Vec3 ℝ :=
  if isVectorZero ⟨n.x, n.y, 0⟩ = false ∧
      ((normalized n).x * (normalized n).x + (normalized n).y * (normalized n).y) * curvature h t * curvature h t > h * h then
    h • normalized ⟨n.x, n.y, 0⟩
  else saucerCap t (curvature h t) n

/-- `XCSaucer`; src/geometry/xenocollide/XCPrimitives.cpp:137-163, XCPrimitives.h:233-234. -/
noncomputable def saucer (radius halfThickness : ℝ) : Outcome XCGeometry := do
  Outcome.require (decide (0 < radius)) "radius > 0"
  Outcome.require (decide (halfThickness ≤ radius)) "halfThickness <= radius"
  pure ⟨saucerSupport radius halfThickness, 0, radius, halfThickness⟩

/-- A body of a sum or a hull with its position and orientation; src/geometry/xenocollide/XCOperations.h:40-48. -/
structure Entry where
  geometry : XCGeometry
  pos : Vec3 ℝ
  rot : Mat3

/-- The support point of a rotated and moved body; src/geometry/xenocollide/XenoCollide.h:59-66 (`TransformSupportVert`),
XCOperations.cpp:41, 86-87, 106, 111. -/
def Entry.support (e : Entry) (n : Vec3 ℝ) : Vec3 ℝ := e.rot.mulVec (e.geometry.support (e.rot.transpose.mulVec n)) + e.pos

/-- The centre of a rotated and moved body; src/geometry/xenocollide/XCOperations.cpp:48, 92-93, 125. -/
def Entry.center (e : Entry) : Vec3 ℝ := e.rot.mulVec e.geometry.center + e.pos

/-- `XCSum`; src/geometry/xenocollide/XCOperations.cpp:31-70. The radii are recalculated from all the entries whenever one is
added, so they depend on the final list only. -/
noncomputable def sum (es : List Entry) : XCGeometry :=
  ⟨fun n => (es.map fun e => e.support n).sum, (es.map Entry.center).sum,
    (es.map Entry.pos).sum.norm + (es.map fun e => e.geometry.circumsphereRadius).sum,
    max 0 ((es.map fun e => e.geometry.insphereRadius).sum - (es.map Entry.pos).sum.norm)⟩

/-- `XCDiff`; src/geometry/xenocollide/XCOperations.cpp:72-95. -/
noncomputable def diff (e1 e2 : Entry) : XCGeometry :=
  ⟨fun n => e1.support n - e2.support (-n), e1.center - e2.center,
    (e1.pos - e2.pos).norm + e1.geometry.circumsphereRadius + e2.geometry.circumsphereRadius,
    max 0 (e1.geometry.insphereRadius + e2.geometry.insphereRadius - (e1.pos - e2.pos).norm)⟩

/-- The loop of `XCMax::getSupportPoint` with `v` the best point so far; src/geometry/xenocollide/XCOperations.cpp:109-117. -/
noncomputable def maxSupport (n : Vec3 ℝ) : Vec3 ℝ → List Entry → Vec3 ℝ
  | v, [] => v
  | v, e :: es => maxSupport n (if (e.support n).dot n > v.dot n then e.support n else v) es

/-- `XCMax::calculateInsphereRadius2`; src/geometry/xenocollide/XCOperations.cpp:159-185. -/
noncomputable def insphereRadius2 (e1 e2 : Entry) : ℝ :=
  let diff := e2.pos - e1.pos
  let along := e1.pos.dot (normalized diff)
  let originT := -along / diff.norm
  if diff.norm / max e1.geometry.insphereRadius e2.geometry.insphereRadius < 1 / 10 ^ 14 then
    min e1.geometry.insphereRadius e2.geometry.insphereRadius
  else if originT < 0 then 0
  else if originT > 1 then 0
  else max 0 ((1 - originT) * e1.geometry.insphereRadius + originT * e2.geometry.insphereRadius
    - Real.sqrt (max 0 (e1.pos.norm2 - along ^ 2)))

/-- `XCMax::calculateInsphereRadius`; src/geometry/xenocollide/XCOperations.cpp:129-141. -/
noncomputable def maxInsphereRadius : List Entry → ℝ
  | [] => 0
  | [e] => max 0 (e.geometry.insphereRadius - e.pos.norm)
  | [e1, e2] => insphereRadius2 e1 e2
  | _ => 0

/-- The distance beyond which the entry has no point, `entry.pos.norm() + entry.geometry->getCircumsphereRadius()`;
src/geometry/xenocollide/XCOperations.cpp:145, 147. -/
noncomputable def Entry.reach (e : Entry) : ℝ := e.pos.norm + e.geometry.circumsphereRadius

/-- `XCMax` (the convex hull) of a non-empty list of entries; src/geometry/xenocollide/XCOperations.cpp:97-185. Using it with
no entries dereferences the front of an empty vector; the builder always adds two or more. -/
noncomputable def hull (e : Entry) (es : List Entry) : XCGeometry :=
  ⟨fun n => maxSupport n (e.support n) es, ((e :: es).length : ℝ)⁻¹ • ((e :: es).map Entry.center).sum,
    ((e :: es).map Entry.reach).foldl max e.reach, maxInsphereRadius (e :: es)⟩

end XC

namespace Xeno

/-- `support(geom2, n) - support(geom1, -n)`: the support point of the Minkowski difference;
src/geometry/xenocollide/XenoCollide.h:86, 96, 115, 146. -/
def differenceSupport (e1 e2 : XC.Entry) (n : Vec3 ℝ) : Vec3 ℝ := e2.support n - e1.support (-n)

/-- The choice of the new portal; src/geometry/xenocollide/XenoCollide.h:158-165. -/
noncomputable def nextPortal (v0 v1 v2 v3 v4 : Vec3 ℝ) : Vec3 ℝ × Vec3 ℝ × Vec3 ℝ :=
  if v1.dot (v4.cross v0) > 0 then
    if v2.dot (v4.cross v0) > 0 then (v4, v2, v3) else (v1, v2, v4)
  else if v3.dot (v4.cross v0) > 0 then (v1, v4, v3) else (v4, v2, v3)

/-- The normal of the portal; src/geometry/xenocollide/XenoCollide.h:139. -/
def portalNormal (v1 v2 v3 : Vec3 ℝ) : Vec3 ℝ := (v2 - v1).cross (v3 - v1)

/-- The end of the refinement with a miss; src/geometry/xenocollide/XenoCollide.h:149-151. -/
noncomputable def refinedToMiss (tol : ℝ) (v3 v4 n : Vec3 ℝ) : Bool :=
  decide (-(v4.dot (normalized n)) ≥ 0 ∨ (v4 - v3).dot (normalized n) ≤ tol)

/-- Phase two: refine the portal; src/geometry/xenocollide/XenoCollide.h:137-166. The loop has no bound in the code: the
model gives up with `diverge` after `fuel` turns, and the theorems are about runs which end. -/
noncomputable def refine (sup : Vec3 ℝ → Vec3 ℝ) (tol : ℝ) (v0 : Vec3 ℝ) : ℕ → Vec3 ℝ → Vec3 ℝ → Vec3 ℝ → Outcome Bool
  | 0, _, _, _ => .diverge
  | fuel + 1, v1, v2, v3 =>
    if (portalNormal v1 v2 v3).dot v1 ≥ 0 then .ok true
    else if refinedToMiss tol v3 (sup (portalNormal v1 v2 v3)) (portalNormal v1 v2 v3) then .ok false
    else refine sup tol v0 fuel (nextPortal v0 v1 v2 v3 (sup (portalNormal v1 v2 v3))).1
      (nextPortal v0 v1 v2 v3 (sup (portalNormal v1 v2 v3))).2.1 (nextPortal v0 v1 v2 v3 (sup (portalNormal v1 v2 v3))).2.2

/-- Phase one: find a portal; src/geometry/xenocollide/XenoCollide.h:113-132. The same remark about the fuel. -/
noncomputable def findPortal (sup : Vec3 ℝ → Vec3 ℝ) (tol : ℝ) (v0 : Vec3 ℝ) : ℕ → Vec3 ℝ → Vec3 ℝ → Vec3 ℝ → Outcome Bool
  | 0, _, _, _ => .diverge
  | fuel + 1, v1, v2, n =>
    if (sup n).dot n ≤ 0 then .ok false
    else if (v1.cross (sup n)).dot v0 < 0 then findPortal sup tol v0 fuel v1 (sup n) ((v1 - v0).cross (sup n - v0))
    else if ((sup n).cross v2).dot v0 < 0 then findPortal sup tol v0 fuel (sup n) v2 ((sup n - v0).cross (v2 - v0))
    else refine sup tol v0 fuel v1 v2 (sup n)

/-- The part of `XenoCollide::Intersect` after `v2` is found; src/geometry/xenocollide/XenoCollide.h:101-132. -/
noncomputable def fromThree (sup : Vec3 ℝ → Vec3 ℝ) (tol : ℝ) (fuel : ℕ) (v0 v1 v2 : Vec3 ℝ) : Outcome Bool :=
  if ((v1 - v0).cross (v2 - v0)).dot v0 > 0 then findPortal sup tol v0 fuel v2 v1 (-((v1 - v0).cross (v2 - v0)))
  else findPortal sup tol v0 fuel v1 v2 ((v1 - v0).cross (v2 - v0))

/-- The part of `XenoCollide::Intersect` after `v1` is found; src/geometry/xenocollide/XenoCollide.h:91-99. -/
noncomputable def fromTwo (sup : Vec3 ℝ → Vec3 ℝ) (tol : ℝ) (fuel : ℕ) (v0 v1 : Vec3 ℝ) : Outcome Bool :=
  if XC.isVectorZero (v1.cross v0) then .ok true
  else if (sup (v1.cross v0)).dot (v1.cross v0) ≤ 0 then .ok false
  else fromThree sup tol fuel v0 v1 (sup (v1.cross v0))

/-- `XenoCollide::Intersect` for the support function and the centre of the Minkowski difference;
src/geometry/xenocollide/XenoCollide.h:78-168. -/
noncomputable def search (sup : Vec3 ℝ → Vec3 ℝ) (tol : ℝ) (fuel : ℕ) (v0 : Vec3 ℝ) : Outcome Bool :=
  if XC.isVectorZero v0 then .ok true
  else if (sup (-v0)).dot (-v0) ≤ 0 then .ok false
  else fromTwo sup tol fuel v0 (sup (-v0))

/-- `XenoCollide::Intersect`; src/geometry/xenocollide/XenoCollide.h:74-168. -/
noncomputable def intersect (fuel : ℕ) (e1 e2 : XC.Entry) (tol : ℝ) : Outcome Bool :=
  search (differenceSupport e1 e2) tol fuel (e2.center - e1.center)

/-- `XenoCollideTraits::overlapBetween` for bodies of the two geometries, the second one moved by `t`;
src/core/shapes/XenoCollideTraits.h:147-168. -/
noncomputable def overlapBetween (fuel : ℕ) (g1 g2 : XCGeometry) (pos1 : Vec3 ℝ) (rot1 : Mat3) (pos2 : Vec3 ℝ) (rot2 : Mat3)
    (t : Vec3 ℝ) : Outcome Bool :=
  if (pos2 + t - pos1).norm2 > (g1.circumsphereRadius + g2.circumsphereRadius) * (g1.circumsphereRadius + g2.circumsphereRadius) then
    .ok false
  else if (pos2 + t - pos1).norm2 < (g1.insphereRadius + g2.insphereRadius) * (g1.insphereRadius + g2.insphereRadius) then .ok true
  else intersect fuel ⟨g1, pos1, rot1⟩ ⟨g2, pos2 + t, rot2⟩ (1 / 10 ^ 12)

/-- `XenoCollideTraits::overlapWithWall`; src/core/shapes/XenoCollideTraits.h:170-186. -/
noncomputable def overlapWithWall (g : XCGeometry) (pos : Vec3 ℝ) (rot : Mat3) (wallOrigin wallVector : Vec3 ℝ) : Bool :=
  if -((rot.transpose.mulVec (wallOrigin - pos)).dot (rot.transpose.mulVec wallVector))
      > -((g.support (-(rot.transpose.mulVec wallVector))).dot (rot.transpose.mulVec wallVector)) then false
  else true

/-- `XenoCollideTraits::getRangeRadius` for the geometries of the interaction centres (one if there are none);
src/core/shapes/XenoCollideTraits.h:188-202. -/
noncomputable def rangeRadius (gs : List XCGeometry) : ℝ := 2 * (gs.map XCGeometry.circumsphereRadius).foldl max 0

end Xeno

end Rampack
