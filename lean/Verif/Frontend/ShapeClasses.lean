import Verif.Frontend.ShapeExpr
import Verif.Frontend.Observ
import Verif.Shapes.Wedge
import Verif.Shapes.Soft
/-
Model of the matcher of shapes: /repo/src/frontend/matchers/ShapeMatcher.cpp.

What is made from an expression is the class of the shape and the arguments of its constructor, see `Species`. The constructor is called, as it may throw; what it
makes is not kept here, it is modelled in Verif/Shapes.

Simplifications: as in ShapeExpr.lean. `M_PI` is π.
-/
namespace Rampack.ShapeExpr

open Pyon Rampack.Input Rampack.Shapes

/-! ### Constructors -/

/-- `Interaction` made by constructors, on centres which are installed later; ShapeMatcher.cpp:77-108. -/
noncomputable def Interaction.check : Interaction → Outcome Unit
  | .hard => .ok ()
  | .lj epsilon sigma => do
    let _ ← lennardJones epsilon sigma []
    .ok ()
  | .wca epsilon sigma => do
    let _ ← repulsiveLennardJones epsilon sigma []
    .ok ()
  | .squareInverseCore epsilon sigma => do
    let _ ← Shapes.squareInverseCore epsilon sigma []
    .ok ()

/-- Points given by the user, as they are registered; ShapeMatcher.cpp:69-74. -/
def Frame.custom (f : Frame) : List (String × Vec3 ℝ) := f.points.map fun p => (String.ofList p.1, p.2)

/-- Points "o0", "b0", "e0", "o1" and so on; PolyspherocylinderTraits.cpp:46-52. -/
def rodPoints (data : List RodData) : List (String × Vec3 ℝ) :=
  data.zipIdx.flatMap fun d => [("o" ++ toString d.2, d.1.position), ("b" ++ toString d.2, d.1.position - d.1.halfAxis), ("e" ++ toString d.2, d.1.position + d.1.halfAxis)]

/-- The constructor of the shape is called; ShapeMatcher.cpp:114-121, 130-139, 149-159, 178-187, 202-207, 214-216, 244-253, 268-273, 324-343, 396-408, 426-440,
459-468. -/
noncomputable def Species.check : Species → Outcome Unit
  | .sphere r _ => do
    let _ ← Shapes.sphere r
    .ok ()
  | .kmer k r distance _ => do
    let _ ← Composite.kmer k r distance
    .ok ()
  | .polysphereBanana arcR arcAngle sphereN sphereR _ => do
    let _ ← Banana.banana arcR arcAngle sphereN sphereR
    .ok ()
  | .polysphereLollipop sphereN stickR tipR stickPenetration tipPenetration => do
    let _ ← Composite.lollipop sphereN stickR tipR stickPenetration tipPenetration
    .ok ()
  | .polysphereWedge sphereN bottomR topR penetration => do
    let _ ← Composite.wedge sphereN bottomR topR penetration
    .ok ()
  | .spherocylinder l r => do
    let _ ← Shapes.spherocylinder l r
    .ok ()
  | .polyspherocylinderBanana arcR arcAngle segmentN r subdivisions => do
    let _ ← Banana.rodBanana arcR arcAngle segmentN r subdivisions
    .ok ()
  | .smoothWedge bottomR topR l subdivisions => do
    let _ ← Wedge.smooth bottomR topR l subdivisions
    .ok ()
  | .polysphere spheres frame _ => do
    Outcome.require (!spheres.isEmpty) "!this->sphereData.empty()"
    let _ ← Geometry.mkPoly false frame.primary frame.secondary frame.center (Composite.spherePoints spheres) frame.custom
    .ok ()
  | .polyspherocylinder rods frame => do
    Outcome.require (!rods.isEmpty) "!this->spherocylinderData.empty()"
    let _ ← Geometry.mkPoly true frame.primary frame.secondary frame.center (rodPoints rods) frame.custom
    .ok ()
  | .genericConvex geometry frame => do
    let _ ← XCBuilder.build geometry
    let _ ← Geometry.mkXeno frame.primary frame.secondary frame.center frame.custom
    .ok ()
  | .polyhedralWedge bottomAx bottomAy topAx topAy l subdivisions => do
    let _ ← Wedge.boxy bottomAx bottomAy topAx topAy l subdivisions
    .ok ()

/-! ### Arguments -/

/-- `MatcherFloat::nonNegative`; MatcherFloat.cpp. -/
noncomputable def isNonNegative (x : ℝ) : Except String Bool := .ok (decide (x ≥ 0))

/-- `MatcherFloat::less`; MatcherFloat.cpp. -/
noncomputable def isBelow (b x : ℝ) : Except String Bool := .ok (decide (x < b))

/-- `MatcherFloat{}.nonNegative()`; ShapeMatcher.cpp:167-168, 195, 445-448. -/
noncomputable def nonNegativeFloat : Matcher ℝ V := matcherFloat (fun i => (i : ℝ)) [isNonNegative] (fun x => .ok (.value (.real x)))

/-- `MatcherFloat{}.greaterEquals(0).less(b)`; ShapeMatcher.cpp:147, 224. -/
noncomputable def angle (b : ℝ) : Matcher ℝ V := matcherFloat (fun i => (i : ℝ)) [isNonNegative, isBelow b] (fun x => .ok (.value (.real x)))

/-- `MatcherInt{}.greaterEquals(2).mapTo<std::size_t>()`; ShapeMatcher.cpp:126, 144, 164, 192, 221. -/
def atLeastTwo : Matcher ℝ V := size [Observ.intAtLeast 2]

/-- `hardInteraction`; ShapeMatcher.cpp:51-52. -/
def createHard : Outcome (ClassMatcher ℝ V) := do
  let c ← createClass "hard".toList []
  return ClassMatcher.mapTo c fun _ => .ok (.object (.interaction .hard))

/-- `create_lj_matcher`, `create_wca_matcher`, `create_square_inverse_core_matcher`; ShapeMatcher.cpp:77-108. -/
noncomputable def createSoft (name : String) (make : ℝ → ℝ → Interaction) : Outcome (ClassMatcher ℝ V) := do
  let c ← createClass name.toList [required "epsilon" positiveFloat, required "sigma" positiveFloat]
  return ClassMatcher.mapTo c fun d => do
    let epsilon ← get d "epsilon" >>= asReal
    let sigma ← get d "sigma" >>= asReal
    let _ ← construct (make epsilon sigma).check
    return .object (.interaction (make epsilon sigma))

/-- `sphereInteraction`; ShapeMatcher.cpp:51-54. -/
noncomputable def createInteraction : Outcome (Choice ℝ V) := do
  let h ← createHard
  let a ← createSoft "lj" .lj
  let b ← createSoft "wca" .wca
  let c ← createSoft "square_inverse_core" .squareInverseCore
  return .join (.dataclass h) (.join (.join (.dataclass a) (.dataclass b)) (.dataclass c))

open Classical in
/-- A component of an axis is not too small; ShapeMatcher.cpp:59-63. -/
noncomputable def notTiny (l : List (Any ℝ V)) : Except String Bool := do
  let xs ← l.mapM asReal
  return xs.any fun x => decide (|x| > 1 / 10 ^ 10)

/-- `axis`; ShapeMatcher.cpp:58-67. -/
noncomputable def axisArray : Matcher ℝ V := ArrayMatcher.toMatcher ⟨some float, [arraySize 3, notTiny], fun l => do
  let v ← asVector l
  let n ← construct (normalize v)
  return .value (.object (.axis (some n)))⟩

/-- `axis | MatcherNone{}`; ShapeMatcher.cpp:317-318, 385-386, 416-417. -/
noncomputable def axis : Choice ℝ V := .join (.other axisArray) (.other (matcherNone (.ok (.value (.object (.axis none))))))

/-- An entry of the dictionary of points. -/
def entryVec (e : Text × Any ℝ V) : Except String (Text × Vec3 ℝ) := do
  let v ← asVec e.2
  return (e.1, v)

/-- `namedPoints`; ShapeMatcher.cpp:69-74. -/
def pointsDictionary : DictionaryMatcher ℝ V := ⟨[], some vec, [], fun es => do
  let l ← es.mapM entryVec
  return .value (.object (.points l))⟩

/-- `validate_axes`; ShapeMatcher.cpp:471-482. -/
noncomputable def axesFilter (d : ClassData ℝ V) : Except String Bool := do
  let p ← get d "primary_axis" >>= asAxis
  let q ← get d "secondary_axis" >>= asAxis
  return Geometry.validateAxes p q

/-- The arguments which `polysphere`, `polyspherocylinder` and `generic_convex` have in common; ShapeMatcher.cpp:315-319, 383-387, 414-418. -/
noncomputable def frameArguments (conv : ℚ → Option ℝ) : Outcome (List (Argument ℝ V)) := do
  let center ← optional conv "geometric_center" vec "[0, 0, 0]"
  let primary ← optional conv "primary_axis" axis.toMatcher "None"
  let secondary ← optional conv "secondary_axis" axis.toMatcher "None"
  let points ← optional conv "named_points" pointsDictionary.toMatcher "{}"
  return [required "volume" positiveFloat, center, primary, secondary, points]

/-- Reading of these arguments; ShapeMatcher.cpp:325-333, 398-406, 428-436. -/
def getFrame (d : ClassData ℝ V) : Except String Frame := do
  let volume ← get d "volume" >>= asReal
  let center ← get d "geometric_center" >>= asVec
  let primary ← get d "primary_axis" >>= asAxis
  let secondary ← get d "secondary_axis" >>= asAxis
  let points ← get d "named_points" >>= asPoints
  return ⟨volume, center, primary, secondary, points⟩

/-- The shape, after its constructor has been called. -/
noncomputable def made (s : Species) : Except String (Value Object) := do
  let _ ← construct s.check
  return .object (.species s)

/-! ### Classes -/

/-- `create_sphere_matcher`; ShapeMatcher.cpp:110-122. -/
noncomputable def createSphere (conv : ℚ → Option ℝ) : Outcome (ClassMatcher ℝ V) := do
  let i ← createInteraction
  let interaction ← optional conv "interaction" i.toMatcher "hard"
  let c ← createClass "sphere".toList [required "r" positiveFloat, interaction]
  return ClassMatcher.mapTo c fun d => do
    let r ← get d "r" >>= asReal
    let i ← get d "interaction" >>= asInteraction
    made (.sphere r i)

/-- `create_kmer_matcher`; ShapeMatcher.cpp:124-140. -/
noncomputable def createKmer (conv : ℚ → Option ℝ) : Outcome (ClassMatcher ℝ V) := do
  let i ← createInteraction
  let interaction ← optional conv "interaction" i.toMatcher "hard"
  let c ← createClass "kmer".toList [required "k" atLeastTwo, required "r" positiveFloat, required "distance" positiveFloat, interaction]
  return ClassMatcher.mapTo c fun d => do
    let k ← get d "k" >>= asSize
    let r ← get d "r" >>= asReal
    let distance ← get d "distance" >>= asReal
    let i ← get d "interaction" >>= asInteraction
    made (.kmer k r distance i)

/-- `create_polysphere_banana_matcher`; ShapeMatcher.cpp:142-160. -/
noncomputable def createBanana (conv : ℚ → Option ℝ) : Outcome (ClassMatcher ℝ V) := do
  let i ← createInteraction
  let interaction ← optional conv "interaction" i.toMatcher "hard"
  let c ← createClass "polysphere_banana".toList [required "sphere_n" atLeastTwo, required "sphere_r" positiveFloat, required "arc_r" positiveFloat,
    required "arc_angle" (angle (2 * Real.pi)), interaction]
  return ClassMatcher.mapTo c fun d => do
    let sphereN ← get d "sphere_n" >>= asSize
    let sphereR ← get d "sphere_r" >>= asReal
    let arcR ← get d "arc_r" >>= asReal
    let arcAngle ← get d "arc_angle" >>= asReal
    let i ← get d "interaction" >>= asInteraction
    made (.polysphereBanana arcR arcAngle sphereN sphereR i)

open Classical in
/-- The first filter of `polysphere_lollipop`; ShapeMatcher.cpp:169-171. -/
noncomputable def stickFilter (d : ClassData ℝ V) : Except String Bool := do
  let p ← get d "stick_penetration" >>= asReal
  let a ← get d "stick_r" >>= asReal
  return decide (p < 2 * a)

open Classical in
/-- The filter of the penetration with the smaller of two radii; ShapeMatcher.cpp:173-176, 197-200. -/
noncomputable def penetrationFilter (penetration r1 r2 : String) (d : ClassData ℝ V) : Except String Bool := do
  let a ← get d r1 >>= asReal
  let b ← get d r2 >>= asReal
  let p ← get d penetration >>= asReal
  return decide (p < 2 * min a b)

/-- `create_polysphere_lollipop_matcher`; ShapeMatcher.cpp:162-188. -/
noncomputable def createLollipop (conv : ℚ → Option ℝ) : Outcome (ClassMatcher ℝ V) := do
  let stick ← optional conv "stick_penetration" nonNegativeFloat "0"
  let tip ← optional conv "tip_penetration" nonNegativeFloat "0"
  let c ← createClass "polysphere_lollipop".toList [required "sphere_n" atLeastTwo, required "stick_r" positiveFloat, required "tip_r" positiveFloat, stick, tip]
  return ClassMatcher.mapTo { c with filters := [stickFilter, penetrationFilter "tip_penetration" "stick_r" "tip_r"] } fun d => do
    let sphereN ← get d "sphere_n" >>= asSize
    let stickR ← get d "stick_r" >>= asReal
    let tipR ← get d "tip_r" >>= asReal
    let stickPenetration ← get d "stick_penetration" >>= asReal
    let tipPenetration ← get d "tip_penetration" >>= asReal
    made (.polysphereLollipop sphereN stickR tipR stickPenetration tipPenetration)

/-- `create_polysphere_wedge_matcher`; ShapeMatcher.cpp:190-208. -/
noncomputable def createSphereWedge (conv : ℚ → Option ℝ) : Outcome (ClassMatcher ℝ V) := do
  let p ← optional conv "penetration" nonNegativeFloat "0"
  let c ← createClass "polysphere_wedge".toList [required "sphere_n" atLeastTwo, required "bottom_r" positiveFloat, required "top_r" positiveFloat, p]
  return ClassMatcher.mapTo { c with filters := [penetrationFilter "penetration" "bottom_r" "top_r"] } fun d => do
    let sphereN ← get d "sphere_n" >>= asSize
    let bottomR ← get d "bottom_r" >>= asReal
    let topR ← get d "top_r" >>= asReal
    let penetration ← get d "penetration" >>= asReal
    made (.polysphereWedge sphereN bottomR topR penetration)

/-- `create_spherocylinder_matcher`; ShapeMatcher.cpp:210-217. -/
noncomputable def createSpherocylinder : Outcome (ClassMatcher ℝ V) := do
  let c ← createClass "spherocylinder".toList [required "l" positiveFloat, required "r" positiveFloat]
  return ClassMatcher.mapTo c fun d => do
    let l ← get d "l" >>= asReal
    let r ← get d "r" >>= asReal
    made (.spherocylinder l r)

/-- The first filter of `polyspherocylinder_banana`; ShapeMatcher.cpp:226-232. -/
noncomputable def openFilter (d : ClassData ℝ V) : Except String Bool := do
  let n ← get d "segment_n" >>= asSize
  let r ← get d "sc_r" >>= asReal
  let arcR ← get d "arc_r" >>= asReal
  let arcAngle ← get d "arc_angle" >>= asReal
  construct (Banana.isArcOpen arcR arcAngle n r)

/-- The second filter of `polyspherocylinder_banana`; ShapeMatcher.cpp:234-242. -/
noncomputable def outsideFilter (d : ClassData ℝ V) : Except String Bool := do
  let n ← get d "segment_n" >>= asSize
  let r ← get d "sc_r" >>= asReal
  let arcR ← get d "arc_r" >>= asReal
  let arcAngle ← get d "arc_angle" >>= asReal
  if n = 2 then .ok true else construct (Banana.isArcOriginOutside arcR arcAngle n r)

/-- `create_polyspherocylinder_banana_matcher`; ShapeMatcher.cpp:219-254. -/
noncomputable def createRodBanana (conv : ℚ → Option ℝ) : Outcome (ClassMatcher ℝ V) := do
  let subdivisions ← optional conv "subdivisions" (size [intPositive]) "1"
  let c ← createClass "polyspherocylinder_banana".toList [required "segment_n" atLeastTwo, required "sc_r" positiveFloat, required "arc_r" positiveFloat,
    required "arc_angle" (angle Real.pi), subdivisions]
  return ClassMatcher.mapTo { c with filters := [openFilter, outsideFilter] } fun d => do
    let n ← get d "segment_n" >>= asSize
    let r ← get d "sc_r" >>= asReal
    let arcR ← get d "arc_r" >>= asReal
    let arcAngle ← get d "arc_angle" >>= asReal
    let subdivisions ← get d "subdivisions" >>= asSize
    made (.polyspherocylinderBanana arcR arcAngle n r subdivisions)

open Classical in
/-- The filter of `smooth_wedge`; ShapeMatcher.cpp:262-265. -/
noncomputable def lengthFilter (d : ClassData ℝ V) : Except String Bool := do
  let bottomR ← get d "bottom_r" >>= asReal
  let topR ← get d "top_r" >>= asReal
  let l ← get d "l" >>= asReal
  return decide (l ≥ |bottomR - topR|)

/-- `create_smooth_wedge_matcher`; ShapeMatcher.cpp:256-274. -/
noncomputable def createSmoothWedge (conv : ℚ → Option ℝ) : Outcome (ClassMatcher ℝ V) := do
  let subdivisions ← optional conv "subdivisions" (size [intPositive]) "1"
  let c ← createClass "smooth_wedge".toList [required "l" positiveFloat, required "bottom_r" positiveFloat, required "top_r" positiveFloat, subdivisions]
  return ClassMatcher.mapTo { c with filters := [lengthFilter] } fun d => do
    let l ← get d "l" >>= asReal
    let bottomR ← get d "bottom_r" >>= asReal
    let topR ← get d "top_r" >>= asReal
    let subdivisions ← get d "subdivisions" >>= asSize
    made (.smoothWedge bottomR topR l subdivisions)

/-- `singleSpherePos`; ShapeMatcher.cpp:277-280. -/
def onePlace : Matcher ℝ V := ArrayMatcher.toMatcher ⟨some float, [arraySize 3], fun l => (asVector l).map fun v => .value (.object (.vecs [v]))⟩

/-- `spherePos`; ShapeMatcher.cpp:281-285. -/
def places : Choice ℝ V := .join (.other onePlace) (.other (vector vec [arrayNonEmpty] asVec (fun l => .object (.vecs l))))

/-- `sphere` inside `polysphere`; ShapeMatcher.cpp:287-300. -/
noncomputable def createBalls : Outcome (ClassMatcher ℝ V) := do
  let c ← createClass "sphere".toList [required "pos" places.toMatcher, required "r" positiveFloat]
  return ClassMatcher.mapTo c fun d => do
    let pos ← get d "pos" >>= asVecs
    let r ← get d "r" >>= asReal
    let l ← construct (pos.mapM fun p => SphereData.make p r)
    return .object (.spheres l)

/-- `create_polysphere_matcher`; ShapeMatcher.cpp:276-344. -/
noncomputable def createPolysphere (conv : ℚ → Option ℝ) : Outcome (ClassMatcher ℝ V) := do
  let i ← createInteraction
  let interaction ← optional conv "interaction" i.toMatcher "hard"
  let s ← createBalls
  let frame ← frameArguments conv
  let c ← createClass "polysphere".toList
    (required "spheres" (Choice.join (.dataclass s) (.other (vector s.toMatcher [arrayNonEmpty] asSpheres (fun ls => .object (.spheres ls.flatten))))).toMatcher ::
      frame ++ [interaction])
  return ClassMatcher.mapTo { c with filters := [axesFilter] } fun d => do
    let spheres ← get d "spheres" >>= asSpheres
    let frame ← getFrame d
    let i ← get d "interaction" >>= asInteraction
    made (.polysphere spheres frame i)

/-- The loop over neighbouring points of a chain; ShapeMatcher.cpp:359-366. -/
noncomputable def chainRods (r : ℝ) : List (Vec3 ℝ) → Outcome (List RodData)
  | [] => .ok []
  | [_] => .ok []
  | a :: b :: rest => do
    let d ← RodData.make ((1 / 2 : ℝ) • (a + b)) ((1 / 2 : ℝ) • (b - a)) r
    let ds ← chainRods r (b :: rest)
    .ok (d :: ds)

/-- `sc` inside `polyspherocylinder`; ShapeMatcher.cpp:347-368. -/
noncomputable def createChain : Outcome (ClassMatcher ℝ V) := do
  let c ← createClass "sc".toList [required "chain" (vector vec [arraySizeAtLeast 2] asVec (fun l => .object (.vecs l))), required "r" positiveFloat]
  return ClassMatcher.mapTo c fun d => do
    let chain ← get d "chain" >>= asVecs
    let r ← get d "r" >>= asReal
    let l ← construct (chainRods r chain)
    return .object (.rods l)

/-- `create_polyspherocylinder_matcher`; ShapeMatcher.cpp:346-409. -/
noncomputable def createPolyspherocylinder (conv : ℚ → Option ℝ) : Outcome (ClassMatcher ℝ V) := do
  let s ← createChain
  let frame ← frameArguments conv
  let c ← createClass "polyspherocylinder".toList
    (required "scs" (Choice.join (.dataclass s) (.other (vector s.toMatcher [arrayNonEmpty] asRods (fun ls => .object (.rods ls.flatten))))).toMatcher :: frame)
  return ClassMatcher.mapTo { c with filters := [axesFilter] } fun d => do
    let rods ← get d "scs" >>= asRods
    let frame ← getFrame d
    made (.polyspherocylinder rods frame)

/-- `create_generic_convex_matcher`; ShapeMatcher.cpp:411-441. -/
noncomputable def createGenericConvex (conv : ℚ → Option ℝ) : Outcome (ClassMatcher ℝ V) := do
  let frame ← frameArguments conv
  let c ← createClass "generic_convex".toList (required "geometry" (scriptMatcher conv) :: frame)
  return ClassMatcher.mapTo { c with filters := [axesFilter] } fun d => do
    let geometry ← get d "geometry" >>= asConvex
    let frame ← getFrame d
    made (.genericConvex geometry frame)

open Classical in
/-- The filter of `polyhedral_wedge`; ShapeMatcher.cpp:451-457. -/
noncomputable def boxyFilter (d : ClassData ℝ V) : Except String Bool := do
  let bx ← get d "bottom_ax" >>= asReal
  let bz ← get d "bottom_ay" >>= asReal
  let tx ← get d "top_ax" >>= asReal
  let ty ← get d "top_ay" >>= asReal
  return decide ((tx ≠ 0 ∧ bz ≠ 0) ∨ (ty ≠ 0 ∧ bx ≠ 0))

/-- `create_polyhedral_wedge_matcher`; ShapeMatcher.cpp:443-469. -/
noncomputable def createPolyhedralWedge (conv : ℚ → Option ℝ) : Outcome (ClassMatcher ℝ V) := do
  let subdivisions ← optional conv "subdivisions" (size [intPositive]) "1"
  let c ← createClass "polyhedral_wedge".toList [required "bottom_ax" nonNegativeFloat, required "bottom_ay" nonNegativeFloat, required "top_ax" nonNegativeFloat,
    required "top_ay" nonNegativeFloat, required "l" positiveFloat, subdivisions]
  return ClassMatcher.mapTo { c with filters := [boxyFilter] } fun d => do
    let bx ← get d "bottom_ax" >>= asReal
    let bz ← get d "bottom_ay" >>= asReal
    let tx ← get d "top_ax" >>= asReal
    let ty ← get d "top_ay" >>= asReal
    let l ← get d "l" >>= asReal
    let subdivisions ← get d "subdivisions" >>= asSize
    made (.polyhedralWedge bx bz tx ty l subdivisions)

/-- `ShapeMatcher::create`; ShapeMatcher.cpp:496-509. -/
noncomputable def createShape (conv : ℚ → Option ℝ) : Outcome (Choice ℝ V) := do
  let c1 ← createSphere conv
  let c2 ← createKmer conv
  let c3 ← createBanana conv
  let c4 ← createLollipop conv
  let c5 ← createSphereWedge conv
  let c6 ← createSpherocylinder
  let c7 ← createRodBanana conv
  let c8 ← createSmoothWedge conv
  let c9 ← createPolysphere conv
  let c10 ← createPolyspherocylinder conv
  let c11 ← createGenericConvex conv
  let c12 ← createPolyhedralWedge conv
  return .join (.join (.join (.join (.join (.join (.join (.join (.join (.join (.join (.dataclass c1) (.dataclass c2)) (.dataclass c3)) (.dataclass c4))
    (.dataclass c5)) (.dataclass c6)) (.dataclass c7)) (.dataclass c8)) (.dataclass c9)) (.dataclass c10)) (.dataclass c11)) (.dataclass c12)

/-- `ShapeMatcher::match`; ShapeMatcher.cpp:485-494. -/
noncomputable def matchShape (conv : ℚ → Option ℝ) (expression : Text) : Outcome Species := do
  let n ← parse conv expression
  let c ← createShape conv
  match c.toMatcher.run n with
  | .matched (.value (.object (.species s))) => .ok s
  | .matched _ => .throw "pyon::Any::as"
  | .unmatched _ => .throw "ValidationException"
  | .thrown m => .throw m

end Rampack.ShapeExpr
