import Verif.Sim.Sampler
/-
Model of axes and points of shapes: /repo/src/core/ShapeGeometry.{h,cpp}, the classes which define them in /repo/src/core/shapes/{SphereTraits.h,
SpherocylinderTraits.cpp, PolysphereTraits.{h,cpp}, PolyspherocylinderTraits.{h,cpp}, XenoCollideTraits.h} and checks of axes in
/repo/src/frontend/matchers/ShapeMatcher.cpp.

Axes with components which are not numbers, from a division by zero, are `ub`.
-/
namespace Rampack

/-- `ShapeGeometry` with what its methods use in deriving classes: axes and the geometric origin of a shape of the default position and orientation
(PolysphereTraits.h:59-64, PolyspherocylinderTraits.h:66-70, XenoCollideTraits.h:66-69), named points in the order of registration, and whether the secondary
axis is looked up after checking if there is the primary one (PolyspherocylinderTraits.h:102-106). -/
structure Geometry where
  primary : Option (Vec3 ℝ)
  secondary : Option (Vec3 ℝ)
  origin : Vec3 ℝ
  points : List (String × Vec3 ℝ)
  checksPrimary : Bool

/-- `Shape{}`; Shape.h:31. -/
def Shape.default : Shape := ⟨0, 1⟩

namespace Geometry

/-- `getPrimaryAxis`; ShapeGeometry.h:65-67, PolysphereTraits.h:80-84, PolyspherocylinderTraits.h:96-100, XenoCollideTraits.h:124-128,
SpherocylinderTraits.cpp:52-54. -/
def getPrimaryAxis (G : Geometry) (s : Shape) : Outcome (Vec3 ℝ) :=
  match G.primary with
  | none => .throw "std::runtime_error"
  | some a => .ok (s.rot.mulVec a)

/-- The axis which is checked before the secondary axis is given; PolysphereTraits.h:87, PolyspherocylinderTraits.h:103, XenoCollideTraits.h:131. -/
def checkedAxis (G : Geometry) : Option (Vec3 ℝ) := if G.checksPrimary then G.primary else G.secondary

/-- `getSecondaryAxis`; ShapeGeometry.h:72-74, PolysphereTraits.h:86-90, PolyspherocylinderTraits.h:102-106, XenoCollideTraits.h:130-134. -/
def getSecondaryAxis (G : Geometry) (s : Shape) : Outcome (Vec3 ℝ) :=
  match G.checkedAxis, G.secondary with
  | none, _ => .throw "std::runtime_error"
  | some _, none => .throw "std::bad_optional_access"
  | some _, some a => .ok (s.rot.mulVec a)

/-- `getAuxiliaryAxis`; ShapeGeometry.h:79-81. -/
noncomputable def getAuxiliaryAxis (G : Geometry) (s : Shape) : Outcome (Vec3 ℝ) := do
  let a ← G.getPrimaryAxis s
  let b ← G.getSecondaryAxis s
  normalize (a.cross b)

/-- `getGeometricOrigin`; ShapeGeometry.h:93-95, PolysphereTraits.h:92-94, PolyspherocylinderTraits.h:108-110, XenoCollideTraits.h:136-138. -/
def getGeometricOrigin (G : Geometry) (s : Shape) : Vec3 ℝ := s.rot.mulVec G.origin

/-- `try { ... return true; } catch (std::runtime_error &) { return false; }`; ShapeGeometry.cpp:58-83. -/
def given {α : Type} : Outcome α → Outcome Bool
  | .ok _ => .ok true
  | .throw m => if m = "std::runtime_error" then .ok false else .throw m
  | .ub => .ub
  | .diverge => .diverge

/-- `hasPrimaryAxis`; ShapeGeometry.cpp:58-65. -/
def hasPrimaryAxis (G : Geometry) : Outcome Bool := given (G.getPrimaryAxis Shape.default)

/-- `hasSecondaryAxis`; ShapeGeometry.cpp:67-74. -/
def hasSecondaryAxis (G : Geometry) : Outcome Bool := given (G.getSecondaryAxis Shape.default)

/-- `hasAuxiliaryAxis`; ShapeGeometry.cpp:76-83. -/
noncomputable def hasAuxiliaryAxis (G : Geometry) : Outcome Bool := given (G.getAuxiliaryAxis Shape.default)

/-- `std::min_element`: the first component of the least magnitude; ShapeGeometry.cpp:93-96. -/
noncomputable def smallest (v : Vec3 ℝ) : Fin 3 :=
  if |v.y| < |v.x| then (if |v.z| < |v.y| then 2 else 1) else (if |v.z| < |v.x| then 2 else 0)

/-- `referenceDirection`; ShapeGeometry.cpp:97-98. -/
def reference (i : Fin 3) : Vec3 ℝ := Vec3.ofFn fun j => if j = i then 1 else 0

/-- The flip axis of shapes without the secondary axis; ShapeGeometry.cpp:91-101. -/
noncomputable def perpendicular (G : Geometry) (s : Shape) : Outcome (Vec3 ℝ) := do
  let a ← G.getPrimaryAxis Shape.default
  normalize (s.rot.mulVec (a.cross (reference (smallest a))))

/-- `findFlipAxis`; ShapeGeometry.cpp:85-102. -/
noncomputable def findFlipAxis (G : Geometry) (s : Shape) : Outcome (Vec3 ℝ) := do
  let p ← G.hasPrimaryAxis
  Outcome.require p "Expects(this->hasPrimaryAxis())"
  let q ← G.hasSecondaryAxis
  if q then G.getSecondaryAxis s else G.perpendicular s

/-- `registerNamedPoint`; ShapeGeometry.cpp:26-30. -/
def registerPoint (G : Geometry) (p : String × Vec3 ℝ) : Outcome Geometry := do
  Outcome.require (!(G.points.any fun q => q.1 == p.1)) "Expects(this->namedPoints.find(pointName) == this->namedPoints.end())"
  return { G with points := G.points ++ [p] }

/-- `registerNamedPoints`; ShapeGeometry.cpp:39-42. -/
def registerPoints (G : Geometry) (l : List (String × Vec3 ℝ)) : Outcome Geometry := l.foldlM registerPoint G

/-- `getNamedPoint`; ShapeGeometry.cpp:16-24. -/
def getNamedPoint (G : Geometry) (name : String) : Outcome (Vec3 ℝ) :=
  if name = "o" then .ok (G.getGeometricOrigin Shape.default)
  else match G.points.find? fun q => q.1 == name with
    | none => .throw "ShapeGeometry::getNamedPoint : unknown point name"
    | some q => .ok q.2

/-- `getNamedPointForShape`; ShapeGeometry.cpp:12-14. -/
def getNamedPointFor (G : Geometry) (name : String) (s : Shape) : Outcome (Vec3 ℝ) := do
  let p ← G.getNamedPoint name
  return s.pos + s.rot.mulVec p

/-- `hasNamedPoint`; ShapeGeometry.cpp:51-56. -/
def hasNamedPoint (G : Geometry) (name : String) : Bool := name == "o" || G.points.any fun q => q.1 == name

/-- `getNamedPoints`; ShapeGeometry.cpp:32-37. -/
def getNamedPoints (G : Geometry) : List (String × Vec3 ℝ) := ("o", G.getGeometricOrigin Shape.default) :: G.points

/-- `if (axis.has_value()) axis = axis->normalized();` PolysphereTraits.cpp:175-178. -/
noncomputable def normalizeAxis : Option (Vec3 ℝ) → Outcome (Option (Vec3 ℝ))
  | none => .ok none
  | some a => do
    let n ← normalize a
    return some n

/-- The constructors `PolysphereGeometry` and `PolyspherocylinderGeometry`, with the points which are always registered; PolysphereTraits.cpp:165-191,
PolyspherocylinderTraits.cpp:26-55. -/
noncomputable def mkPoly (checksPrimary : Bool) (primary secondary : Option (Vec3 ℝ)) (origin : Vec3 ℝ) (own custom : List (String × Vec3 ℝ)) : Outcome Geometry := do
  Outcome.require (primary.isSome || secondary.isNone) "Expects(!this->secondaryAxis.has_value())"
  let primary ← normalizeAxis primary
  let secondary ← normalizeAxis secondary
  let G ← registerPoints ⟨primary, secondary, origin, [], checksPrimary⟩ own
  registerPoints G custom

/-- The constructor `XenoCollideTraits`; XenoCollideTraits.h:90-95. -/
def mkXeno (primary secondary : Option (Vec3 ℝ)) (origin : Vec3 ℝ) (custom : List (String × Vec3 ℝ)) : Outcome Geometry :=
  registerPoints ⟨primary, secondary, origin, [], false⟩ custom

/-- `SpherocylinderTraits`: the third column of the orientation is the primary axis; SpherocylinderTraits.cpp:52-54. -/
def rod (points : List (String × Vec3 ℝ)) : Geometry := ⟨some ⟨0, 0, 1⟩, none, 0, points, false⟩

/-- `SphereTraits`, without axes; SphereTraits.h. -/
def ball (points : List (String × Vec3 ℝ)) : Geometry := ⟨none, none, 0, points, false⟩

/-- The matcher of axes: arrays with a non-zero component are normalised; ShapeMatcher.cpp:58-67. -/
noncomputable def matchAxis (v : Vec3 ℝ) : Outcome (Vec3 ℝ) :=
  if |v.x| > 1 / 10 ^ 10 ∨ |v.y| > 1 / 10 ^ 10 ∨ |v.z| > 1 / 10 ^ 10 then normalize v else .throw "ValidationException"

/-- `validate_axes`; ShapeMatcher.cpp:471-482. -/
noncomputable def validateAxes : Option (Vec3 ℝ) → Option (Vec3 ℝ) → Bool
  | none, none => true
  | none, some _ => false
  | some a, some b => decide (a.dot b < 1 / 10 ^ 12)
  | some _, none => true

end Geometry

end Rampack
