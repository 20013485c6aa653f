import Verif.Frontend.Input
import Verif.Geometry.XenoBuilder
import Verif.Shapes.Axes
import Verif.Shapes.Banana
/-
Model of the matchers of shapes: /repo/src/frontend/matchers/{GenericConvexGeometryMatcher,ShapeMatcher}.cpp.

What is made from an expression is the constructor which is called and its arguments. Constructors are modelled by their checks, which are those at
the cited lines; what they build is modelled in Verif/Shapes and Verif/Geometry. A script for the builder of convex bodies is the expression it comes
from, see `XCBuilder.run`.

Simplifications: as in Input.lean. `Vector<3>` and `std::array<double, 3>` are the same here. An axis which is not given, an empty `Any`, is a value `none`.
-/
namespace Rampack.ShapeExpr

open Pyon Rampack.Input Rampack.Shapes

/-! ### What is made -/

/-- `CentralInteraction` and its subclasses; `hard` is a null pointer; ShapeMatcher.cpp:50-53. -/
inductive Interaction where
  | hard
  | lj (epsilon sigma : ℝ)
  | wca (epsilon sigma : ℝ)
  | squareInverseCore (epsilon sigma : ℝ)

/-- The arguments which `polysphere`, `polyspherocylinder` and `generic_convex` have in common; ShapeMatcher.cpp:307-312, 385-390, 415-420. -/
structure Frame where
  volume : ℝ
  center : Vec3 ℝ
  primary : Option (Vec3 ℝ)
  secondary : Option (Vec3 ℝ)
  points : List (Text × Vec3 ℝ)

/-- `ShapeTraits`: the class and the arguments of its constructor; ShapeMatcher.cpp:109-467. -/
inductive Species where
  | sphere (r : ℝ) (interaction : Interaction)
  | kmer (k : Nat) (r distance : ℝ) (interaction : Interaction)
  | polysphereBanana (arcR arcAngle : ℝ) (sphereN : Nat) (sphereR : ℝ) (interaction : Interaction)
  | polysphereLollipop (sphereN : Nat) (stickR tipR stickPenetration tipPenetration : ℝ)
  | polysphereWedge (sphereN : Nat) (bottomR topR penetration : ℝ)
  | spherocylinder (l r : ℝ)
  | polyspherocylinderBanana (arcR arcAngle : ℝ) (segmentN : Nat) (r : ℝ) (subdivisions : Nat)
  | smoothWedge (bottomR topR l : ℝ) (subdivisions : Nat)
  | polysphere (spheres : List SphereData) (frame : Frame) (interaction : Interaction)
  | polyspherocylinder (rods : List RodData) (frame : Frame)
  | genericConvex (geometry : Convex) (frame : Frame)
  | polyhedralWedge (bottomAx bottomAy topAx topAy l : ℝ) (subdivisions : Nat)

/-- What the matchers make besides values of the input file. -/
inductive Object where
  | vec (v : Vec3 ℝ)
  | vecs (l : List (Vec3 ℝ))
  | axis (a : Option (Vec3 ℝ))
  | points (l : List (Text × Vec3 ℝ))
  | interaction (i : Interaction)
  | spheres (l : List SphereData)
  | rods (l : List RodData)
  | convex (g : Convex)
  | species (s : Species)

/-- Values made by the matchers. -/
abbrev V := Value Object

/-- `as<Vector<3>>()`, `as<std::array<double, 3>>()`. -/
def asVec : Any ℝ V → Except String (Vec3 ℝ)
  | .value (.object (.vec v)) => .ok v
  | _ => badCast

/-- `as<std::vector<Vector<3>>>()`. -/
def asVecs : Any ℝ V → Except String (List (Vec3 ℝ))
  | .value (.object (.vecs l)) => .ok l
  | _ => badCast

/-- `isEmpty()` and `as<Vector<3>>()`. -/
def asAxis : Any ℝ V → Except String (Option (Vec3 ℝ))
  | .value (.object (.axis a)) => .ok a
  | _ => badCast

/-- `as<ShapeGeometry::NamedPoints>()`. -/
def asPoints : Any ℝ V → Except String (List (Text × Vec3 ℝ))
  | .value (.object (.points l)) => .ok l
  | _ => badCast

/-- `as<std::shared_ptr<CentralInteraction>>()`. -/
def asInteraction : Any ℝ V → Except String Interaction
  | .value (.object (.interaction i)) => .ok i
  | _ => badCast

/-- `as<std::vector<PolysphereTraits::SphereData>>()`. -/
def asSpheres : Any ℝ V → Except String (List SphereData)
  | .value (.object (.spheres l)) => .ok l
  | _ => badCast

/-- `as<std::vector<SpherocylinderData>>()`. -/
def asRods : Any ℝ V → Except String (List RodData)
  | .value (.object (.rods l)) => .ok l
  | _ => badCast

/-- `as<XCBodyBuilderScript>()`. -/
def asConvex : Any ℝ V → Except String Convex
  | .value (.object (.convex g)) => .ok g
  | _ => badCast

/-- `asVector<3>()`, `asStdArray<double, 3>()` of arrays; MatcherArray.h:60-90. -/
def asVector (l : List (Any ℝ V)) : Except String (Vec3 ℝ) :=
  match l with
  | [a, b, c] => do
    let x ← asReal a
    let y ← asReal b
    let z ← asReal c
    return ⟨x, y, z⟩
  | _ => badCast

/-- `position`, `rotation`, `vector`; GenericConvexGeometryMatcher.cpp:28-29, ShapeMatcher.cpp:55. -/
def vec : Matcher ℝ V := ArrayMatcher.toMatcher ⟨some float, [arraySize 3], fun l => (asVector l).map fun v => .value (.object (.vec v))⟩

/-! ### Convex bodies; GenericConvexGeometryMatcher.cpp -/

/-- `create_point`; GenericConvexGeometryMatcher.cpp:32-41. -/
def createPoint : Outcome (ClassMatcher ℝ V) := do
  let c ← createClass "point".toList [required "pos" vec]
  return ClassMatcher.mapTo c fun d => do
    let pos ← get d "pos" >>= asVec
    return .object (.convex (.point pos))

/-- A block with one size, which is placed: `create_segment`, `create_disk`; GenericConvexGeometryMatcher.cpp:43-59, 103-119. -/
noncomputable def createBlock1 (conv : ℚ → Option ℝ) (name x : String) (make : ℝ → Block) : Outcome (ClassMatcher ℝ V) := do
  let pos ← optional conv "pos" vec "[0, 0, 0]"
  let rot ← optional conv "rot" vec "[0, 0, 0]"
  let c ← createClass name.toList [required x positiveFloat, pos, rot]
  return ClassMatcher.mapTo c fun d => do
    let x ← get d x >>= asReal
    let pos ← get d "pos" >>= asVec
    let rot ← get d "rot" >>= asVec
    return .object (.convex (.block (make x) pos rot))

/-- The filter of two sizes; GenericConvexGeometryMatcher.cpp:183-186, 207-210. -/
def sizesFilter (x y : String) (valid : ℝ → ℝ → Bool) (d : ClassData ℝ V) : Except String Bool := do
  let x ← get d x >>= asReal
  let y ← get d y >>= asReal
  return valid x y

/-- A block with two sizes, which is placed: `create_rectangle`, `create_ellipse`, `create_saucer`, `create_football`; GenericConvexGeometryMatcher.cpp:61-79,
135-153, 177-223. -/
noncomputable def createBlock2 (conv : ℚ → Option ℝ) (name x y : String) (valid : ℝ → ℝ → Bool) (make : ℝ → ℝ → Block) : Outcome (ClassMatcher ℝ V) := do
  let pos ← optional conv "pos" vec "[0, 0, 0]"
  let rot ← optional conv "rot" vec "[0, 0, 0]"
  let c ← createClass name.toList [required x positiveFloat, required y positiveFloat, pos, rot]
  return ClassMatcher.mapTo { c with filters := [sizesFilter x y valid] } fun d => do
    let x ← get d x >>= asReal
    let y ← get d y >>= asReal
    let pos ← get d "pos" >>= asVec
    let rot ← get d "rot" >>= asVec
    return .object (.convex (.block (make x y) pos rot))

/-- A block with three sizes, which is placed: `create_cuboid`, `create_ellipsoid`; GenericConvexGeometryMatcher.cpp:81-101, 155-175. -/
noncomputable def createBlock3 (conv : ℚ → Option ℝ) (name x y z : String) (make : ℝ → ℝ → ℝ → Block) : Outcome (ClassMatcher ℝ V) := do
  let pos ← optional conv "pos" vec "[0, 0, 0]"
  let rot ← optional conv "rot" vec "[0, 0, 0]"
  let c ← createClass name.toList [required x positiveFloat, required y positiveFloat, required z positiveFloat, pos, rot]
  return ClassMatcher.mapTo c fun d => do
    let x ← get d x >>= asReal
    let y ← get d y >>= asReal
    let z ← get d z >>= asReal
    let pos ← get d "pos" >>= asVec
    let rot ← get d "rot" >>= asVec
    return .object (.convex (.block (make x y z) pos rot))

/-- `create_segment`; GenericConvexGeometryMatcher.cpp:43-59. -/
noncomputable def createSegment (conv : ℚ → Option ℝ) : Outcome (ClassMatcher ℝ V) := createBlock1 conv "segment" "l" .segment

/-- `create_rectangle`; GenericConvexGeometryMatcher.cpp:61-79. -/
noncomputable def createRectangle (conv : ℚ → Option ℝ) : Outcome (ClassMatcher ℝ V) := createBlock2 conv "rectangle" "ax" "ay" (fun _ _ => true) .rectangle

/-- `create_cuboid`; GenericConvexGeometryMatcher.cpp:81-101. -/
noncomputable def createCuboid (conv : ℚ → Option ℝ) : Outcome (ClassMatcher ℝ V) := createBlock3 conv "cuboid" "ax" "ay" "az" .cuboid

/-- `create_disk`; GenericConvexGeometryMatcher.cpp:103-119. -/
noncomputable def createDisk (conv : ℚ → Option ℝ) : Outcome (ClassMatcher ℝ V) := createBlock1 conv "disk" "r" .disk

/-- `create_sphere`; GenericConvexGeometryMatcher.cpp:121-133. -/
noncomputable def createBallBlock (conv : ℚ → Option ℝ) : Outcome (ClassMatcher ℝ V) := do
  let pos ← optional conv "pos" vec "[0, 0, 0]"
  let c ← createClass "sphere".toList [required "r" positiveFloat, pos]
  return ClassMatcher.mapTo c fun d => do
    let radius ← get d "r" >>= asReal
    let pos ← get d "pos" >>= asVec
    return .object (.convex (.block (.sphere radius) pos 0))

/-- `create_ellipse`; GenericConvexGeometryMatcher.cpp:135-153. -/
noncomputable def createEllipse (conv : ℚ → Option ℝ) : Outcome (ClassMatcher ℝ V) := createBlock2 conv "ellipse" "rx" "ry" (fun _ _ => true) .ellipse

/-- `create_ellipsoid`; GenericConvexGeometryMatcher.cpp:155-175. -/
noncomputable def createEllipsoid (conv : ℚ → Option ℝ) : Outcome (ClassMatcher ℝ V) := createBlock3 conv "ellipsoid" "rx" "ry" "rz" .ellipsoid

open Classical in
/-- `create_saucer`; GenericConvexGeometryMatcher.cpp:177-199. -/
noncomputable def createSaucer (conv : ℚ → Option ℝ) : Outcome (ClassMatcher ℝ V) :=
  createBlock2 conv "saucer" "r" "l" (fun r l => decide (l ≤ 2 * r)) .saucer

open Classical in
/-- `create_football`; GenericConvexGeometryMatcher.cpp:201-223. -/
noncomputable def createFootball (conv : ℚ → Option ℝ) : Outcome (ClassMatcher ℝ V) :=
  createBlock2 conv "football" "r" "l" (fun r l => decide (l ≥ 2 * r)) .football

/-- `create_sum`, `create_wrap`: at least two bodies; GenericConvexGeometryMatcher.cpp:225-236, 253-264. -/
def createMany (name : String) (recursion : Matcher ℝ V) (make : List Convex → Convex) : Outcome (ClassMatcher ℝ V) := do
  let c ← createClass name.toList []
  return ClassMatcher.mapTo { c with variadic := some ⟨some recursion, [arraySizeAtLeast 2], fun l => .ok (.array l)⟩ } fun d => do
    let scripts ← d.variadic.mapM asConvex
    return .object (.convex (make scripts))

/-- `create_diff`; GenericConvexGeometryMatcher.cpp:238-251. -/
def createDiff (recursion : Matcher ℝ V) : Outcome (ClassMatcher ℝ V) := do
  let c ← createClass "diff".toList [required "g1" recursion, required "g2" recursion]
  return ClassMatcher.mapTo c fun d => do
    let script1 ← get d "g1" >>= asConvex
    let script2 ← get d "g2" >>= asConvex
    return .object (.convex (.diff script1 script2))

/-- `create_script`; GenericConvexGeometryMatcher.cpp:266-280. -/
noncomputable def createScript (conv : ℚ → Option ℝ) (recursion : Matcher ℝ V) : Outcome (Choice ℝ V) := do
  let c1 ← createPoint
  let c2 ← createSegment conv
  let c3 ← createRectangle conv
  let c4 ← createCuboid conv
  let c5 ← createDisk conv
  let c6 ← createBallBlock conv
  let c7 ← createEllipse conv
  let c8 ← createEllipsoid conv
  let c9 ← createSaucer conv
  let c10 ← createFootball conv
  let c11 ← createMany "sum" recursion .sum
  let c12 ← createDiff recursion
  let c13 ← createMany "wrap" recursion .wrap
  return .join (.join (.join (.join (.join (.join (.join (.join (.join (.join (.join (.join (.dataclass c1) (.dataclass c2)) (.dataclass c3)) (.dataclass c4))
    (.dataclass c5)) (.dataclass c6)) (.dataclass c7)) (.dataclass c8)) (.dataclass c9)) (.dataclass c10)) (.dataclass c11)) (.dataclass c12)) (.dataclass c13)

/-- `RecursiveMatcher` which is not attached; RecursiveMatcher.cpp:40-43. -/
def unattached : Matcher ℝ V := ⟨fun _ => .thrown "RecursiveMatcher is not attached to anything", fun _ => false⟩

/-- `GenericConvexGeometryMatcher::create`, with the recursion unrolled a number of times; GenericConvexGeometryMatcher.cpp:290-294, RecursiveMatcher.cpp:10-15. The
matcher calls itself on parts of the expression, so that it is the same as the one unrolled as many times as the size of the expression, see `scriptMatcher`. -/
noncomputable def script (conv : ℚ → Option ℝ) : Nat → Outcome (Choice ℝ V)
  | 0 => createScript conv unattached
  | k + 1 => do
    let m ← script conv k
    createScript conv (recursive m.toMatcher)

/-- `GenericConvexGeometryMatcher::script`; GenericConvexGeometryMatcher.cpp:287-288. -/
noncomputable def scriptMatcher (conv : ℚ → Option ℝ) : Matcher ℝ V where
  run n :=
    match script conv (sizeOf n) with
    | .ok c => c.toMatcher.run n
    | .throw m => .thrown m
    | .ub => .thrown "undefined behaviour"
    | .diverge => .thrown "undefined behaviour"
  nodeType t := t == .dataclass

/-- `GenericConvexGeometryMatcher::match`; GenericConvexGeometryMatcher.cpp:296-304. -/
noncomputable def matchConvex (conv : ℚ → Option ℝ) (expression : Text) : Outcome Convex := do
  let n ← parse conv expression
  match (scriptMatcher conv).run n with
  | .matched (.value (.object (.convex g))) => .ok g
  | .matched _ => .throw "pyon::Any::as"
  | .unmatched _ => .throw "ValidationException"
  | .thrown m => .throw m

end Rampack.ShapeExpr
