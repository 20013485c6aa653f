import Verif.IO.Text
import Verif.Shapes.Hard
/-
Model of snapshots for Wolfram Mathematica: /repo/src/core/io/WolframWriter.cpp with the printers of spheres, polyspheres, spherocylinders and polyspherocylinders in
/repo/src/core/shapes/{SphereTraits,PolysphereTraits,SpherocylinderTraits,PolyspherocylinderTraits}.cpp.

Simplification: how a number is written is a function given as an argument, one for streams after `std::fixed` and one for other streams. Printers of meshes
(XCWolframShapePrinter.cpp) are in Verif/Geometry/Mesh.lean.
-/
namespace Rampack.Wolfram

open Shapes

/-- How numbers are written: after `std::fixed`, and without it. -/
structure Format where
  fixed : ℝ → Text
  general : ℝ → Text

/-- `operator<<` of a vector; src/geometry/Vector.tpp:116-124. -/
def vecOut (num : ℝ → Text) (v : Vec3 ℝ) : Text := "{".toList ++ num v.x ++ ", ".toList ++ num v.y ++ ", ".toList ++ num v.z ++ "}".toList

/-- `Sphere[centre,radius]`; SphereTraits.cpp:79, PolysphereTraits.cpp:89-91. -/
def sphereOut (num : ℝ → Text) (c : Vec3 ℝ) (r : ℝ) : Text := "Sphere[".toList ++ vecOut num c ++ ",".toList ++ num r ++ "]".toList

/-- `CapsuleShape[{beg,end},radius]`; SpherocylinderTraits.cpp:109. -/
def capsuleOut (num : ℝ → Text) (a b : Vec3 ℝ) (r : ℝ) : Text :=
  "CapsuleShape[{".toList ++ vecOut num a ++ ",".toList ++ vecOut num b ++ "},".toList ++ num r ++ "]".toList

/-- `Tube[{beg,end},radius]`; PolyspherocylinderTraits.cpp:91. -/
def tubeOut (num : ℝ → Text) (a b : Vec3 ℝ) (r : ℝ) : Text := "Tube[{".toList ++ vecOut num a ++ ",".toList ++ vecOut num b ++ "},".toList ++ num r ++ "]".toList

/-- The printers of shapes. -/
inductive Printer where
  | sphere (radius : ℝ)
  | polysphere (data : List SphereData)
  | spherocylinder (length radius : ℝ)
  | polyspherocylinder (data : List RodData)

/-- `SphereData::toWolfram`; PolysphereTraits.cpp:89-95. -/
def ballOut (num : ℝ → Text) (s : Shape) (d : SphereData) : Text := sphereOut num (s.pos + s.rot.mulVec d.position) d.radius

/-- `SpherocylinderData::toWolfram`; PolyspherocylinderTraits.cpp:86-92. -/
def rodOut (num : ℝ → Text) (s : Shape) (d : RodData) : Text :=
  tubeOut num (s.pos + s.rot.mulVec d.position + s.rot.mulVec d.halfAxis) (s.pos + s.rot.mulVec d.position - s.rot.mulVec d.halfAxis) d.radius

/-- The loop over all elements but the last one, and then the last one; PolysphereTraits.cpp:19-27, PolyspherocylinderTraits.cpp:228-236. Without elements the number of
steps wraps around and elements beyond the end are used. -/
def groupOut {α : Type} (one : α → Text) (l : List α) : Outcome Text :=
  match l.getLast? with
  | none => .ub
  | some last => .ok ("{".toList ++ (l.dropLast.map fun d => one d ++ ",".toList).flatten ++ one last ++ "}".toList)

/-- `WolframPrinter::print`; SphereTraits.cpp:77-81, PolysphereTraits.cpp:16-29, SpherocylinderTraits.cpp:104-111, PolyspherocylinderTraits.cpp:225-238. Only the printer of
spheres does not use `std::fixed`. -/
noncomputable def print (fmt : Format) (P : Printer) (s : Shape) : Outcome Text :=
  match P with
  | .sphere r => .ok (sphereOut fmt.general s.pos r)
  | .polysphere data => groupOut (ballOut fmt.fixed s) data
  | .spherocylinder length r => .ok (capsuleOut fmt.fixed (capCentre length (-1) s) (capCentre length 1 s) r)
  | .polyspherocylinder data => groupOut (rodOut fmt.fixed s) data

/-- The loop of `storeStandard`; WolframWriter.cpp:51-56. -/
noncomputable def standardLoop (fmt : Format) (P : Printer) : List Shape → Outcome Text
  | [] => .ok []
  | s :: ss => do
    let t ← print fmt P s
    let rest ← standardLoop fmt P ss
    return t ++ (if ss.isEmpty then [] else ",\n".toList) ++ rest

/-- `storeStandard`; WolframWriter.cpp:47-58. -/
noncomputable def storeStandard (fmt : Format) (P : Printer) (shapes : List Shape) : Outcome Text := do
  let body ← standardLoop fmt P shapes
  return "Graphics3D[{\n".toList ++ body ++ "}]\n".toList

/-- A row of a matrix; WolframWriter.cpp:37-39. -/
def rowOut (num : ℝ → Text) (v : Vec3 ℝ) : Text := "{".toList ++ num v.x ++ ", ".toList ++ num v.y ++ ", ".toList ++ num v.z ++ "}".toList

/-- The transformation of one molecule; WolframWriter.cpp:35-40. -/
def placeOut (num : ℝ → Text) (s : Shape) : Text :=
  "{{".toList ++ rowOut num s.rot.r0 ++ ", ".toList ++ rowOut num s.rot.r1 ++ ", ".toList ++ rowOut num s.rot.r2 ++ "}, ".toList ++ vecOut num s.pos ++ "}".toList

/-- The loop of `storeAffineTransform`; WolframWriter.cpp:34-44. -/
def affineLoop (num : ℝ → Text) : List Shape → Text
  | [] => []
  | s :: ss => placeOut num s ++ (if ss.isEmpty then [] else ",".toList) ++ "\n".toList ++ affineLoop num ss

/-- `storeAffineTransform`; WolframWriter.cpp:26-45. The shape which is printed is `Shape{}`. -/
noncomputable def storeAffine (fmt : Format) (P : Printer) (shapes : List Shape) : Outcome Text := do
  let shape ← print fmt P ⟨0, 1⟩
  return "Graphics3D[GeometricTransformation[\n".toList ++ shape ++ ",AffineTransform@#]& /@ {\n".toList ++ affineLoop fmt.fixed shapes ++ "}]\n".toList

/-- `WolframStyle`; WolframWriter.h:18-36. -/
inductive Style where
  | standard
  | affineTransform

/-- `WolframWriter::write`; WolframWriter.cpp:9-24. -/
noncomputable def write (fmt : Format) (style : Style) (P : Printer) (shapes : List Shape) : Outcome Text :=
  match style with
  | .standard => storeStandard fmt P shapes
  | .affineTransform => storeAffine fmt P shapes

end Rampack.Wolfram
