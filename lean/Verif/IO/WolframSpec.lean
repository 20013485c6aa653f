import Verif.IO.Wolfram
import Verif.Shapes.HardSpec
import Verif.Geometry.XenoSpec
/-
What snapshots for Wolfram Mathematica are, after /repo/docs/output-formats.md, and what Mathematica shows.
-/
namespace Rampack.Wolfram.Spec

open Shapes Rampack.Spec

/-- Characters which do not matter between the parts of an expression. -/
def White (c : Char) : Bool := c == ' ' || c == '\n'

/-- The text without white characters. -/
def squeezed (t : Text) : Text := t.filter fun c => !White c

/-- Numbers as Mathematica reads them: digits, a point and a sign; letters make them something else. -/
def Decimal (num : ℝ → Text) : Prop := ∀ x, ∀ c ∈ num x, ('0' ≤ c ∧ c ≤ '9') ∨ c = '.' ∨ c = '-'

/-- Solids of Mathematica. -/
inductive Solid where
  | sphere (c : Vec3 ℝ) (r : ℝ)
  | capsule (a b : Vec3 ℝ) (r : ℝ)
  | tube (a b : Vec3 ℝ) (r : ℝ)

/-- What is inside. -/
def Solid.Shows : Solid → Vec3 ℝ → Prop
  | .sphere c r => Ball c r
  | .capsule a b r => Capsule a b r
  | .tube a b r => Capsule a b r

/-- A drawing of a molecule: a solid or a list of solids. -/
inductive Drawing where
  | one (s : Solid)
  | many (l : List Solid)

/-- What is inside. -/
def Drawing.Shows : Drawing → Vec3 ℝ → Prop
  | .one s, p => s.Shows p
  | .many l, p => ∃ s ∈ l, s.Shows p

/-- Things separated by commas. -/
def commas : List Text → Text
  | [] => []
  | [t] => t
  | t :: u :: ts => t ++ ",".toList ++ commas (u :: ts)

/-- A list. -/
def braces (l : List Text) : Text := "{".toList ++ commas l ++ "}".toList

/-- A vector. -/
def vecText (num : ℝ → Text) (v : Vec3 ℝ) : Text := braces [num v.x, num v.y, num v.z]

/-- A function with its arguments. -/
def apply (name : String) (l : List Text) : Text := name.toList ++ "[".toList ++ commas l ++ "]".toList

/-- A solid. -/
def Solid.text (num : ℝ → Text) : Solid → Text
  | .sphere c r => apply "Sphere" [vecText num c, num r]
  | .capsule a b r => apply "CapsuleShape" [braces [vecText num a, vecText num b], num r]
  | .tube a b r => apply "Tube" [braces [vecText num a, vecText num b], num r]

/-- A drawing. -/
def Drawing.text (num : ℝ → Text) : Drawing → Text
  | .one s => s.text num
  | .many l => braces (l.map (Solid.text num))

/-- `Graphics3D` with a list of drawings: the style `standard`. -/
def standardText (num : ℝ → Text) (ds : List Drawing) : Text := apply "Graphics3D" [braces (ds.map (Drawing.text num))]

/-- A drawing to which affine transformations from a list are applied: the style `affine_transform`. -/
def affineText (num num' : ℝ → Text) (d : Drawing) (places : List Shape) : Text :=
  apply "Graphics3D" [apply "GeometricTransformation" [d.text num, "AffineTransform@#".toList] ++ "&/@".toList ++
    braces (places.map fun s => braces [braces [vecText num' s.rot.r0, vecText num' s.rot.r1, vecText num' s.rot.r2], vecText num' s.pos])]

/-- The body of a molecule. -/
def Body : Printer → Shape → Vec3 ℝ → Prop
  | .sphere r, s => Ball s.pos r
  | .polysphere data, s => SphereBody data s
  | .spherocylinder length r, s => RodBody length r s
  | .polyspherocylinder data, s => RodsBody data s

/-- There are spheres or spherocylinders in the molecule; constructors of shapes check it. -/
def Nonempty : Printer → Prop
  | .polysphere data => data ≠ []
  | .polyspherocylinder data => data ≠ []
  | _ => True

end Rampack.Wolfram.Spec
