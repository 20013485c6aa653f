import Verif.Geometry.Xeno
import Verif.Geometry.Rotation
/-
Model of the builder of convex bodies, /repo/src/geometry/xenocollide/XCBodyBuilder.{h,cpp}, and of the scripts which the class
`generic_convex` of the input file runs on it, /repo/src/frontend/matchers/GenericConvexGeometryMatcher.cpp.

The text commands (`processCommand`, XCBodyBuilder.cpp:194-297) are not modelled; they call the same methods.
-/
namespace Rampack

/-- The primitive blocks; GenericConvexGeometryMatcher.cpp:44-235. -/
inductive Block where
  | segment (l : ℝ)
  | rectangle (ax ay : ℝ)
  | cuboid (ax ay az : ℝ)
  | disk (r : ℝ)
  | sphere (r : ℝ)
  | ellipse (rx ry : ℝ)
  | ellipsoid (rx ry rz : ℝ)
  | saucer (r l : ℝ)
  | football (r l : ℝ)

/-- The expressions for the geometry of a convex shape; GenericConvexGeometryMatcher.cpp:32-291. `rot` has angles in degrees.
A sphere has no `rot` in the input (lines 120-132): it is zero here. -/
inductive Convex where
  | point (pos : Vec3 ℝ)
  | block (b : Block) (pos rot : Vec3 ℝ)
  | sum (gs : List Convex)
  | diff (g1 g2 : Convex)
  | wrap (gs : List Convex)

namespace XCBuilder

open XC

/-- The stack of shapes, the last one first; XCBodyBuilder.h:46-62. -/
abbrev Stack := List Entry

/-- A shape put on the stack has the default position and orientation; XCBodyBuilder.h:57-59. -/
def push (g : XCGeometry) (st : Stack) : Stack := ⟨g, 0, 1⟩ :: st

/-- `segment`, `rectangle`, `cuboid`, `disk`, `sphere`, `ellipse`, `ellipsoid`, `saucer`, `football`, without putting the result on the
stack; XCBodyBuilder.cpp:51-55, 76-92, 108-113, 128-132, 140-156. -/
noncomputable def create : Block → Outcome XCGeometry
  | .segment l => do
    Outcome.require (decide (0 < l)) "Segment length should be positive"
    XC.segment (l / 2)
  | .rectangle ax ay => do
    Outcome.require (decide (0 < ax ∧ 0 < ay)) "Rectangle side lengths should be positive"
    XC.rectangle (ax / 2) (ay / 2)
  | .cuboid ax ay az => do
    Outcome.require (decide (0 < ax ∧ 0 < ay ∧ 0 < az)) "All cuboid side lengths should be positive"
    XC.cuboid ⟨ax / 2, ay / 2, az / 2⟩
  | .disk r => do
    Outcome.require (decide (0 < r)) "Disk radius should be positive"
    XC.disk r
  | .sphere r => do
    Outcome.require (decide (0 < r)) "Sphere radius should be positive"
    XC.sphere r
  | .ellipse rx ry => do
    Outcome.require (decide (0 < rx ∧ 0 < ry)) "Ellipse semiaxes' lengths should be positive"
    XC.ellipse rx ry
  | .ellipsoid rx ry rz => do
    Outcome.require (decide (0 < rx ∧ 0 < ry ∧ 0 < rz)) "Ellipsoid semiaxes' lengths should be positive"
    XC.ellipsoid ⟨rx, ry, rz⟩
  | .saucer r l => do
    Outcome.require (decide (0 < r ∧ 0 < l)) "Saucer radius and thickness should be positive"
    Outcome.require (decide (l ≤ 2 * r)) "Saucer thickness cannot be larger than its diameter"
    XC.saucer r (l / 2)
  | .football r l => do
    Outcome.require (decide (0 < l ∧ 0 < r)) "Length and radius of a football should be positive"
    Outcome.require (decide (l ≥ 2 * r)) "Length of football should not be not smaller than its diameter"
    XC.football (l / 2) r

/-- `move`; XCBodyBuilder.cpp:115-118. -/
def move (v : Vec3 ℝ) : Stack → Outcome Stack
  | [] => .throw "Shape stack is empty; cannot move"
  | e :: st => .ok ({ e with pos := e.pos + v } :: st)

/-- `rot`, with angles in degrees; XCBodyBuilder.cpp:134-138. -/
noncomputable def rot (a : Vec3 ℝ) : Stack → Outcome Stack
  | [] => .throw "Shape stack is empty; cannot rotate"
  | e :: st => .ok ({ e with rot := Mat3.rotation (a.x * Real.pi / 180) (a.y * Real.pi / 180) (a.z * Real.pi / 180) * e.rot } :: st)

/-- `diff`; XCBodyBuilder.cpp:61-74. -/
noncomputable def diff : Stack → Outcome Stack
  | shape2 :: shape1 :: st => .ok (push (XC.diff shape1 shape2) st)
  | _ => .throw "Shape stack contains < 2 shapes; cannot compute Minkowski difference"

/-- `sum`; XCBodyBuilder.cpp:158-170. The shapes are added starting from the last one. -/
noncomputable def sum (count : ℕ) (st : Stack) : Outcome Stack := do
  Outcome.require (decide (2 ≤ count)) "Minkowski sum requires at least 2 components"
  Outcome.require (decide (count ≤ st.length)) "Shape stack contains too few shapes; cannot compute Minkowski sum"
  pure (push (XC.sum (st.take count)) (st.drop count))

/-- `wrap`; XCBodyBuilder.cpp:180-192. The shapes are added starting from the last one. -/
noncomputable def wrap (count : ℕ) (st : Stack) : Outcome Stack := do
  Outcome.require (decide (2 ≤ count)) "Convex hull sum requires at least 2 components"
  Outcome.require (decide (count ≤ st.length)) "Shape stack contains too few shapes; cannot compute convex hull"
  match st.take count with
  | [] => .ub
  | e :: es => pure (push (XC.hull e es) (st.drop count))

/-- `is_non_zero(rot)`; GenericConvexGeometryMatcher.cpp:290-292. -/
noncomputable def isNonZero (a : Vec3 ℝ) : Bool := decide (a ≠ 0)

mutual

/-- The script of an expression; GenericConvexGeometryMatcher.cpp:32-273. -/
noncomputable def run : Convex → Stack → Outcome Stack
  | .point pos, st => .ok (push (XC.point pos) st)
  | .block b pos a, st => do
    let g ← create b
    let st ← move pos (push g st)
    if isNonZero a then rot a st else pure st
  | .sum gs, st => do
    let st ← runAll gs st
    sum gs.length st
  | .diff g1 g2, st => do
    let st ← run g1 st
    let st ← run g2 st
    diff st
  | .wrap gs, st => do
    let st ← runAll gs st
    wrap gs.length st

/-- `for (const auto &script : scripts) script(builder)`; GenericConvexGeometryMatcher.cpp:243-244, 270-271. -/
noncomputable def runAll : List Convex → Stack → Outcome Stack
  | [], st => .ok st
  | g :: gs, st => do
    let st ← run g st
    runAll gs st

end

/-- `releaseCollideGeometry`; XCBodyBuilder.cpp:37-49. -/
def release : Stack → Outcome XCGeometry
  | [] => .throw "XCBodyBuilder: shape stack is empty"
  | [e] => .ok e.geometry
  | _ => .throw "XCBodyBuilder: shape stack contains more than 1 shape; did you forget to use sum, diff or wrap?"

/-- The geometry of `generic_convex`; src/frontend/matchers/ShapeMatcher.cpp:433-435. -/
noncomputable def build (g : Convex) : Outcome XCGeometry := do
  let st ← run g []
  release st

end XCBuilder

end Rampack
