import Verif.Frontend.ShapeExpr
import Verif.Frontend.InputSpec
/-
What expressions of convex bodies mean, after /repo/docs/shapes.md: a relation between an expression and the body, apart from the way in which matchers work.
-/
namespace Rampack.ShapeExpr.Spec

open Pyon Rampack.Input.Spec

/-- An array of three numbers. -/
def IsVec (n : Node ℝ) (v : Vec3 ℝ) : Prop := ∃ a b c, n = .array [a, b, c] ∧ IsNumber a v.x ∧ IsNumber b v.y ∧ IsNumber c v.z

/-- The default position and orientation. -/
def zeros : Option (Node ℝ) := some (.array [.int 0, .int 0, .int 0])

/-- A block with one size, a position and angles of rotation. -/
inductive IsBlock1 (n : Node ℝ) (name x : String) (make : ℝ → Block) : Convex → Prop where
  | mk {a b c : Node ℝ} {s : ℝ} {pos rot : Vec3 ℝ} : Call n name [(x, none), ("pos", zeros), ("rot", zeros)] [a, b, c] → IsPositive a s → IsVec b pos →
      IsVec c rot → IsBlock1 n name x make (.block (make s) pos rot)

/-- A block with two sizes, a position and angles of rotation; the sizes are related in this way. -/
inductive IsBlock2 (n : Node ℝ) (name x y : String) (related : ℝ → ℝ → Prop) (make : ℝ → ℝ → Block) : Convex → Prop where
  | mk {a a' b c : Node ℝ} {s t : ℝ} {pos rot : Vec3 ℝ} : Call n name [(x, none), (y, none), ("pos", zeros), ("rot", zeros)] [a, a', b, c] → IsPositive a s →
      IsPositive a' t → related s t → IsVec b pos → IsVec c rot → IsBlock2 n name x y related make (.block (make s t) pos rot)

/-- A block with three sizes, a position and angles of rotation. -/
inductive IsBlock3 (n : Node ℝ) (name x y z : String) (make : ℝ → ℝ → ℝ → Block) : Convex → Prop where
  | mk {a a' a'' b c : Node ℝ} {s t u : ℝ} {pos rot : Vec3 ℝ} : Call n name [(x, none), (y, none), (z, none), ("pos", zeros), ("rot", zeros)] [a, a', a'', b, c] →
      IsPositive a s → IsPositive a' t → IsPositive a'' u → IsVec b pos → IsVec c rot → IsBlock3 n name x y z make (.block (make s t u) pos rot)

/-- Convex bodies, if parts of them mean what `R` says. -/
inductive IsConvexOf (R : Node ℝ → Convex → Prop) : Node ℝ → Convex → Prop where
  | point {n a : Node ℝ} {pos : Vec3 ℝ} : Call n "point" [("pos", none)] [a] → IsVec a pos → IsConvexOf R n (.point pos)
  | segment {n : Node ℝ} {g : Convex} : IsBlock1 n "segment" "l" .segment g → IsConvexOf R n g
  | rectangle {n : Node ℝ} {g : Convex} : IsBlock2 n "rectangle" "ax" "ay" (fun _ _ => True) .rectangle g → IsConvexOf R n g
  | cuboid {n : Node ℝ} {g : Convex} : IsBlock3 n "cuboid" "ax" "ay" "az" .cuboid g → IsConvexOf R n g
  | disk {n : Node ℝ} {g : Convex} : IsBlock1 n "disk" "r" .disk g → IsConvexOf R n g
  | sphere {n a b : Node ℝ} {r : ℝ} {pos : Vec3 ℝ} : Call n "sphere" [("r", none), ("pos", zeros)] [a, b] → IsPositive a r → IsVec b pos →
      IsConvexOf R n (.block (.sphere r) pos 0)
  | ellipse {n : Node ℝ} {g : Convex} : IsBlock2 n "ellipse" "rx" "ry" (fun _ _ => True) .ellipse g → IsConvexOf R n g
  | ellipsoid {n : Node ℝ} {g : Convex} : IsBlock3 n "ellipsoid" "rx" "ry" "rz" .ellipsoid g → IsConvexOf R n g
  | saucer {n : Node ℝ} {g : Convex} : IsBlock2 n "saucer" "r" "l" (fun r l => l ≤ 2 * r) .saucer g → IsConvexOf R n g
  | football {n : Node ℝ} {g : Convex} : IsBlock2 n "football" "r" "l" (fun r l => 2 * r ≤ l) .football g → IsConvexOf R n g
  | sum {ns : List (Node ℝ)} {gs : List Convex} : List.Forall₂ R ns gs → 2 ≤ ns.length → IsConvexOf R (.dataclass "sum".toList ns []) (.sum gs)
  | diff {n a b : Node ℝ} {g1 g2 : Convex} : Call n "diff" [("g1", none), ("g2", none)] [a, b] → R a g1 → R b g2 → IsConvexOf R n (.diff g1 g2)
  | wrap {ns : List (Node ℝ)} {gs : List Convex} : List.Forall₂ R ns gs → 2 ≤ ns.length → IsConvexOf R (.dataclass "wrap".toList ns []) (.wrap gs)

/-- Convex bodies: parts of them are convex bodies. -/
inductive IsConvex : Node ℝ → Convex → Prop where
  | mk {n : Node ℝ} {g : Convex} : IsConvexOf IsConvex n g → IsConvex n g

mutual

/-- No sphere is rotated: there is no way to write one which is. -/
def PlainSpheres : Convex → Prop
  | .block (.sphere _) _ rot => rot = 0
  | .sum gs => AllPlainSpheres gs
  | .diff g1 g2 => PlainSpheres g1 ∧ PlainSpheres g2
  | .wrap gs => AllPlainSpheres gs
  | _ => True

def AllPlainSpheres : List Convex → Prop
  | [] => True
  | g :: gs => PlainSpheres g ∧ AllPlainSpheres gs

end

end Rampack.ShapeExpr.Spec
