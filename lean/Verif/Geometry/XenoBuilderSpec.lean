import Verif.Geometry.XenoBuilder
import Verif.Geometry.XenoBodySpec
import Verif.Geometry.RotationSpec
/-
Which body an expression for the geometry of a convex shape means, after the documentation in /repo/docs/shapes.md.
-/
namespace Rampack.Spec

open Rampack

/-- A primitive block with the default position and orientation. -/
def BlockBody : Block → Vec3 ℝ → Prop
  | .segment l => SegmentBody (l / 2)
  | .rectangle ax ay => RectangleBody (ax / 2) (ay / 2)
  | .cuboid ax ay az => CuboidBody ⟨ax / 2, ay / 2, az / 2⟩
  | .disk r => DiskBody r
  | .sphere r => ClosedBall r
  | .ellipse rx ry => EllipseBody rx ry
  | .ellipsoid rx ry rz => EllipsoidBody ⟨rx, ry, rz⟩
  | .saucer r l => SaucerBody r (l / 2)
  | .football r l => FootballBody (l / 2) r

/-- The rotation around x, then y, then z, by angles in degrees. -/
noncomputable def inDegrees (a : Vec3 ℝ) : Mat3 :=
  aroundZ (a.z * Real.pi / 180) * (aroundY (a.y * Real.pi / 180) * aroundX (a.x * Real.pi / 180))

mutual

/-- The body which an expression means. -/
def ConvexMeans : Convex → Vec3 ℝ → Prop
  | .point pos => PointBody pos
  | .block b pos a => Placed (BlockBody b) (inDegrees a) pos
  | .sum gs => SumBody (allMean gs)
  | .diff g1 g2 => DifferenceBody (ConvexMeans g1) (ConvexMeans g2)
  | .wrap gs => HullBody (allMean gs)

/-- The bodies which the expressions mean. -/
def allMean : List Convex → List (Vec3 ℝ → Prop)
  | [] => []
  | g :: gs => ConvexMeans g :: allMean gs

end

/-- The sizes are as the documentation requires. -/
def BlockSizes : Block → Prop
  | .segment l => 0 < l
  | .rectangle ax ay => 0 < ax ∧ 0 < ay
  | .cuboid ax ay az => 0 < ax ∧ 0 < ay ∧ 0 < az
  | .disk r => 0 < r
  | .sphere r => 0 < r
  | .ellipse rx ry => 0 < rx ∧ 0 < ry
  | .ellipsoid rx ry rz => 0 < rx ∧ 0 < ry ∧ 0 < rz
  | .saucer r l => 0 < r ∧ 0 < l ∧ l ≤ 2 * r
  | .football r l => 0 < r ∧ 0 < l ∧ 2 * r ≤ l

mutual

/-- The expression is one which the documentation allows: allowed sizes, at least two bodies in sums and hulls. -/
def Allowed : Convex → Prop
  | .point _ => True
  | .block b _ _ => BlockSizes b
  | .sum gs => 2 ≤ gs.length ∧ AllAllowed gs
  | .diff g1 g2 => Allowed g1 ∧ Allowed g2
  | .wrap gs => 2 ≤ gs.length ∧ AllAllowed gs

def AllAllowed : List Convex → Prop
  | [] => True
  | g :: gs => Allowed g ∧ AllAllowed gs

end

/-- The support function of the block is right in the direction `n`, which is in the frame of the block: the direction is not too short for a
disk, an ellipse or a saucer, and a football is longer than its diameter. -/
def BlockFine : Block → Vec3 ℝ → Prop
  | .disk _, n => ¬ (|n.x| < 1 / 10 ^ 12 ∧ |n.y| < 1 / 10 ^ 12)
  | .ellipse rx ry, n => ¬ (|rx * n.x| < 1 / 10 ^ 12 ∧ |ry * n.y| < 1 / 10 ^ 12)
  | .saucer _ _, n => ¬ (|n.x| < 1 / 10 ^ 12 ∧ |n.y| < 1 / 10 ^ 12)
  | .football r l, _ => 2 * r < l
  | _, _ => True

mutual

/-- The support functions of all the blocks of the expression are right when the direction is `n`. -/
def Fine : Convex → Vec3 ℝ → Prop
  | .point _, _ => True
  | .block b _ a, n => BlockFine b ((inDegrees a).transpose.mulVec n)
  | .sum gs, n => AllFine gs n
  | .diff g1 g2, n => Fine g1 n ∧ Fine g2 (-n)
  | .wrap gs, n => AllFine gs n

def AllFine : List Convex → Vec3 ℝ → Prop
  | [], _ => True
  | g :: gs, n => Fine g n ∧ AllFine gs n

end

/-- The point about which the builder takes the radii of the body: the position of a block, the origin otherwise. -/
def ownOrigin : Convex → Vec3 ℝ
  | .block _ pos _ => pos
  | _ => 0

mutual

/-- All the points are at the origin, and footballs are longer than their diameters. -/
def PointsAtOrigin : Convex → Prop
  | .point pos => pos = 0
  | .block (.football r l) _ _ => 2 * r < l
  | .block _ _ _ => True
  | .sum gs => AllAtOrigin gs
  | .diff g1 g2 => PointsAtOrigin g1 ∧ PointsAtOrigin g2
  | .wrap gs => AllAtOrigin gs

def AllAtOrigin : List Convex → Prop
  | [] => True
  | g :: gs => PointsAtOrigin g ∧ AllAtOrigin gs

end

/-- The body has the ball of radius `r` about its own origin inside. -/
def BallInside (g : Convex) (r : ℝ) : Prop := ∀ v : Vec3 ℝ, v.norm2 ≤ r ^ 2 → ConvexMeans g (ownOrigin g + v)

/-- The own origins of two bodies are both the origin, or are well apart compared to the size of the bodies. -/
def WellPlaced (g1 g2 : Convex) : Prop :=
  (ownOrigin g1 = 0 ∧ ownOrigin g2 = 0) ∨
  ∀ r, 0 < r → BallInside g1 r ∨ BallInside g2 r → 1 / 10 ^ 14 * r ≤ (ownOrigin g2 - ownOrigin g1).norm

mutual

/-- Every body which takes part in an operation contains its own origin, hulls of two bodies are well placed, and footballs are longer
than their diameters. -/
def Centred : Convex → Prop
  | .point _ => True
  | .block (.football r l) _ _ => 2 * r < l
  | .block _ _ _ => True
  | .sum gs => AllCentred gs
  | .diff g1 g2 => (Centred g1 ∧ ConvexMeans g1 (ownOrigin g1)) ∧ (Centred g2 ∧ ConvexMeans g2 (ownOrigin g2))
  | .wrap gs => AllCentred gs ∧ ∀ g1 g2, gs = [g1, g2] → WellPlaced g1 g2

def AllCentred : List Convex → Prop
  | [] => True
  | g :: gs => (Centred g ∧ ConvexMeans g (ownOrigin g)) ∧ AllCentred gs

end

/-- The expression is an operation, a point, or a block with the default position and orientation. -/
def AtDefault : Convex → Prop
  | .block _ pos a => pos = 0 ∧ a = 0
  | _ => True

end Rampack.Spec
