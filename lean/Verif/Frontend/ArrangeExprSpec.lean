import Verif.Frontend.ArrangeExpr
import Verif.Frontend.ShapeExprSpec
import Verif.Lattice.ArrangeSpec
/-
What expressions of initial arrangements mean, after /repo/docs/initial-arrangement.md: a relation between an expression and the arrangement, apart from the way in
which matchers work.
-/
namespace Rampack.ArrangeExpr.Spec

open Pyon Pyon.Spec Rampack.Input.Spec Rampack.Arrange Rampack.ShapeExpr.Spec
open Rampack.Spec (axisLetter documentedSites ProperCount)

/-! ### Numbers and letters -/

/-- The number of cells in each direction: one number for all of them or three numbers. -/
inductive IsCells : Node ℝ → Vec3 Nat → Prop where
  | one {n : Node ℝ} {k : Nat} : IsCount n k → IsCells n ⟨k, k, k⟩
  | three {a b c : Node ℝ} {x y z : Nat} : IsCount a x → IsCount b y → IsCount c z → IsCells (.array [a, b, c]) ⟨x, y, z⟩

/-- The name of an axis of the coordinate system. -/
def IsAxis (n : Node ℝ) (a : Fin 3) : Prop := n = .string [axisLetter a]

/-- Three different axes, one letter for each. -/
def IsOrder (n : Node ℝ) (s : Text) : Prop :=
  n = .string s ∧ ∃ a b c : Fin 3, (a ≠ b ∧ a ≠ c ∧ b ≠ c) ∧ s = [axisLetter a, axisLetter b, axisLetter c]

/-! ### Cells and dimensions -/

/-- The orientation which is the result of rotations by angles in degrees. -/
def IsOrientation (n : Node ℝ) (m : Mat3) : Prop :=
  ∃ v, IsVec n v ∧ m = Mat3.rotation (v.x / 180 * Real.pi) (v.y / 180 * Real.pi) (v.z / 180 * Real.pi)

/-- A molecule of a cell. -/
def IsMolecule (n : Node ℝ) (s : Shape) : Prop :=
  ∃ a b, Call n "shape" [("pos", none), ("rot", zeros)] [a, b] ∧ IsVec a s.pos ∧ IsOrientation b s.rot

/-- Unit cells. -/
inductive IsCell : Node ℝ → CellType → Prop where
  | sc {n : Node ℝ} : Call n "sc" [] [] → IsCell n .sc
  | bcc {n : Node ℝ} : Call n "bcc" [] [] → IsCell n .bcc
  | fcc {n : Node ℝ} : Call n "fcc" [] [] → IsCell n .fcc
  | hcp {n a : Node ℝ} {axis : Fin 3} : Call n "hcp" [("axis", none)] [a] → IsAxis a axis → IsCell n (.hcp axis)
  | hexagonal {n a : Node ℝ} {axis : Fin 3} : Call n "hexagonal" [("axis", none)] [a] → IsAxis a axis → IsCell n (.hexagonal axis)
  | custom {n a : Node ℝ} {l : List Shape} : Call n "custom" [("shapes", none)] [a] → ListOf IsMolecule a l → l ≠ [] → IsCell n (.custom l)

/-- Dimensions of a cell or of a box: a positive number, three positive numbers, or three vectors spanning a volume of more than 10⁻⁸. -/
inductive IsDim : Node ℝ → DimArg → Prop where
  | number {n : Node ℝ} {x : ℝ} : IsPositive n x → IsDim n (.number x)
  | lengths {a b c : Node ℝ} {x y z : ℝ} : IsPositive a x → IsPositive b y → IsPositive c z → IsDim (.array [a, b, c]) (.lengths ⟨x, y, z⟩)
  | vectors {a b c : Node ℝ} {u v w : Vec3 ℝ} : IsVec a u → IsVec b v → IsVec c w → 1 / 10 ^ 8 < |Mat3.det ⟨u, v, w⟩| → IsDim (.array [a, b, c]) (.vectors ⟨u, v, w⟩)

/-! ### Transformations -/

/-- The axis of random rotations: a unit vector in the direction given, an axis of the coordinate system or of the shape, or a random one. -/
inductive IsAround : Node ℝ → Randomizing.Axis → Prop where
  | vector {n : Node ℝ} {v u : Vec3 ℝ} {r : ℝ} : IsVec n v → 1 / 10 ^ 20 < v.norm2 → 0 < r → v = r • u → u.norm2 = 1 → IsAround n (.vector u)
  | x : IsAround (.string "x".toList) (.vector ⟨1, 0, 0⟩)
  | y : IsAround (.string "y".toList) (.vector ⟨0, 1, 0⟩)
  | z : IsAround (.string "z".toList) (.vector ⟨0, 0, 1⟩)
  | primary : IsAround (.string "primary".toList) .primary
  | secondary : IsAround (.string "secondary".toList) .secondary
  | auxiliary : IsAround (.string "auxiliary".toList) .auxiliary
  | random : IsAround (.string "random".toList) .random

/-- Transformations of a lattice; angles are in degrees, and the number which seeds random numbers may be any. -/
inductive IsTransformation : Node ℝ → Transformation → Prop where
  | optimizeCell {n a b : Node ℝ} {x : ℝ} {s : Text} : Call n "optimize_cell" [("spacing", none), ("axis_order", some (.string "xyz".toList))] [a, b] →
      IsPositive a x → IsOrder b s → IsTransformation n (.optimizeCell x s)
  | optimizeLayers {n a b : Node ℝ} {x : ℝ} {axis : Fin 3} : Call n "optimize_layers" [("spacing", none), ("axis", none)] [a, b] → IsPositive a x → IsAxis b axis →
      IsTransformation n (.optimizeLayers x axis)
  | columnar {n a b : Node ℝ} {axis : Fin 3} {seed : Nat} : Call n "columnar" [("axis", none), ("seed", none)] [a, b] → IsAxis a axis → IsWrapped b seed →
      IsTransformation n (.columnar axis seed)
  | randomizeFlip {n a : Node ℝ} {seed : Nat} : Call n "randomize_flip" [("seed", none)] [a] → IsWrapped a seed → IsTransformation n (.randomizeFlip seed)
  | layerRotate {n a b c d : Node ℝ} {layer axis : Fin 3} {x : ℝ} {alternating : Bool} :
      Call n "layer_rotate" [("layer_axis", none), ("rot_axis", none), ("rot_angle", none), ("alternating", none)] [a, b, c, d] → IsAxis a layer → IsAxis b axis →
      IsNumber c x → d = .boolean alternating → IsTransformation n (.layerRotate layer axis (x / 180 * Real.pi) alternating)
  | randomizeRotation {n a b : Node ℝ} {seed : Nat} {axis : Randomizing.Axis} :
      Call n "randomize_rotation" [("seed", none), ("axis", some (.string "random".toList))] [a, b] → IsWrapped a seed → IsAround b axis →
      IsTransformation n (.randomizeRotation seed axis)

/-! ### Partial filling -/

/-- Which molecules are left. -/
inductive IsFilling : Node ℝ → Filling → Prop where
  | auto {n a : Node ℝ} {k : Nat} : Call n "serial" [("n_shapes", none), ("axis_order", some (.string "auto".toList))] [a, .string "auto".toList] → IsCount a k →
      IsFilling n (.auto k)
  | serial {n a b : Node ℝ} {k : Nat} {s : Text} : Call n "serial" [("n_shapes", none), ("axis_order", some (.string "auto".toList))] [a, b] → IsCount a k →
      IsOrder b s → IsFilling n (.serial k s)
  | random {n a b : Node ℝ} {k seed : Nat} : Call n "random" [("n_shapes", none), ("seed", none)] [a, b] → IsCount a k → IsWrapped b seed →
      IsFilling n (.random k seed)

/-! ### Arrangements -/

/-- An invocation of the class `lattice` with this cell, by position or by name, and these named arguments. -/
def LatticeCall (n : Node ℝ) (cell : Node ℝ) (ks : List (Text × Node ℝ)) : Prop :=
  ∃ ps, n = .dataclass "lattice".toList ps ks ∧ ps.length ≤ 1 ∧ Arguments ps ks [("cell", none)] [cell]

/-- Only these arguments are named. -/
def OnlyKeys (ks : List (Text × Node ℝ)) (keys : List String) : Prop := ∀ e ∈ ks, ∃ k ∈ keys, e.1 = k.toList

/-- The argument is given and means this. -/
def At {α : Type} (ks : List (Text × Node ℝ)) (k : String) (R : Node ℝ → α → Prop) (x : α) : Prop := ∃ n, Given ks k.toList n ∧ R n x

/-- The argument is given and means this, or it is not given and this is the default. -/
def AtOr {α : Type} (ks : List (Text × Node ℝ)) (k : String) (R : Node ℝ → α → Prop) (d x : α) : Prop := At ks k R x ∨ (NotGiven ks k.toList ∧ x = d)

/-- The box can be divided into cells so as to hold this many shapes. -/
def Found (fuel : Nat) (c : CellType) (d : DimArg) (m : Nat) : Prop :=
  ∃ B n, d.box = .ok B ∧ LatticeDimensions.optimize fuel m (documentedSites c).length B = .ok n ∧ ProperCount n

/-- Initial arrangements. -/
inductive IsArrangement (fuel : Nat) : Node ℝ → Arrangement → Prop where
  | presimulated {n a : Node ℝ} {file : Text} : Call n "presimulated" [("file", none)] [a] → IsText a file → IsArrangement fuel n (.presimulated file)
  | manual {n a : Node ℝ} {ks : List (Text × Node ℝ)} {c : CellType} {d : DimArg} {k : Vec3 Nat} {ts : List Transformation} {f : Filling} : LatticeCall n a ks →
      OnlyKeys ks ["cell", "cell_dim", "n_cells", "transformations", "fill_partially"] → IsCell a c → At ks "cell_dim" IsDim d → At ks "n_cells" IsCells k →
      AtOr ks "transformations" (ListOf IsTransformation) [] ts → AtOr ks "fill_partially" IsFilling .full f → IsArrangement fuel n (.manual c d k ts f)
  | automatic {n a : Node ℝ} {ks : List (Text × Node ℝ)} {c : CellType} {d : DimArg} {m : Nat} {ts : List Transformation} : LatticeCall n a ks →
      OnlyKeys ks ["cell", "box_dim", "n_shapes", "transformations"] → IsCell a c → At ks "box_dim" IsDim d → At ks "n_shapes" IsCount m → Found fuel c d m →
      AtOr ks "transformations" (ListOf IsTransformation) [] ts → IsArrangement fuel n (.automatic c d m ts)
  | inBox {n a : Node ℝ} {ks : List (Text × Node ℝ)} {c : CellType} {d : DimArg} {k : Vec3 Nat} {ts : List Transformation} {f : Filling} : LatticeCall n a ks →
      OnlyKeys ks ["cell", "n_cells", "box_dim", "transformations", "fill_partially"] → IsCell a c → At ks "n_cells" IsCells k → At ks "box_dim" IsDim d →
      AtOr ks "transformations" (ListOf IsTransformation) [] ts → AtOr ks "fill_partially" IsFilling .full f → IsArrangement fuel n (.inBox c d k ts f)

end Rampack.ArrangeExpr.Spec
