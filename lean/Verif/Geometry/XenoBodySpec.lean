import Verif.Geometry.XenoSpec
/-
The bodies which the building blocks of convex shapes stand for, and the operations on them.
-/
namespace Rampack.Spec

open Rampack

/-- The origin is a point of the body. -/
def HasOrigin (B : Vec3 ℝ → Prop) : Prop := B 0

/-- A point. -/
def PointBody (pos p : Vec3 ℝ) : Prop := p = pos

/-- A segment on the z axis. -/
def SegmentBody (h : ℝ) (p : Vec3 ℝ) : Prop := p.x = 0 ∧ p.y = 0 ∧ |p.z| ≤ h

/-- A rectangle in the xy plane. -/
def RectangleBody (a b : ℝ) (p : Vec3 ℝ) : Prop := |p.x| ≤ a ∧ |p.y| ≤ b ∧ p.z = 0

/-- A cuboid along the axes. -/
def CuboidBody (h p : Vec3 ℝ) : Prop := |p.x| ≤ h.x ∧ |p.y| ≤ h.y ∧ |p.z| ≤ h.z

/-- A disk in the xy plane. -/
def DiskBody (r : ℝ) (p : Vec3 ℝ) : Prop := p.x ^ 2 + p.y ^ 2 ≤ r ^ 2 ∧ p.z = 0

/-- A ball with its surface. -/
def ClosedBall (r : ℝ) (p : Vec3 ℝ) : Prop := p.norm2 ≤ r ^ 2

/-- An ellipse in the xy plane. -/
def EllipseBody (a b : ℝ) (p : Vec3 ℝ) : Prop := (p.x / a) ^ 2 + (p.y / b) ^ 2 ≤ 1 ∧ p.z = 0

/-- An ellipsoid along the axes. -/
def EllipsoidBody (a p : Vec3 ℝ) : Prop := (p.x / a.x) ^ 2 + (p.y / a.y) ^ 2 + (p.z / a.z) ^ 2 ≤ 1

/-- What an arc of a circle through `(0, 0, -h)`, `(r, 0, 0)` and `(0, 0, h)` sweeps when rotated about the z axis: the circle
has the radius `R = (h² + r²) / 2r` and its centre is at the distance `R - r` from the axis, on the other side. -/
def FootballBody (h r : ℝ) (p : Vec3 ℝ) : Prop :=
  (Real.sqrt (p.x ^ 2 + p.y ^ 2) + ((h ^ 2 + r ^ 2) / (2 * r) - r)) ^ 2 + p.z ^ 2 ≤ ((h ^ 2 + r ^ 2) / (2 * r)) ^ 2

/-- The common part of two balls of radius `R = (h² + t²) / 2t` with centres `(0, 0, ±(R - t))`: they meet at the circle of
radius `h` in the xy plane, and reach up to `t` along the z axis. -/
def SaucerBody (h t : ℝ) (p : Vec3 ℝ) : Prop :=
  p.x ^ 2 + p.y ^ 2 + (p.z + ((h ^ 2 + t ^ 2) / (2 * t) - t)) ^ 2 ≤ ((h ^ 2 + t ^ 2) / (2 * t)) ^ 2 ∧
  p.x ^ 2 + p.y ^ 2 + (p.z - ((h ^ 2 + t ^ 2) / (2 * t) - t)) ^ 2 ≤ ((h ^ 2 + t ^ 2) / (2 * t)) ^ 2

/-- The Minkowski sum: all sums of points, one of each body. -/
def SumBody : List (Vec3 ℝ → Prop) → Vec3 ℝ → Prop
  | [], p => p = 0
  | B :: Bs, p => ∃ a b, B a ∧ SumBody Bs b ∧ p = a + b

/-- The Minkowski difference: all differences of points of the two bodies. -/
def DifferenceBody (A B : Vec3 ℝ → Prop) (p : Vec3 ℝ) : Prop := ∃ a b, A a ∧ B b ∧ p = a - b

/-- The convex hull: the points of every half-space which has all the bodies inside. -/
def HullBody (Bs : List (Vec3 ℝ → Prop)) (p : Vec3 ℝ) : Prop :=
  ∀ (n : Vec3 ℝ) (c : ℝ), (∀ B ∈ Bs, ∀ q, B q → q.dot n ≤ c) → p.dot n ≤ c

/-- The geometries and the bodies correspond one to one, and the orientations are rotations or reflections. -/
def DescribeAll (es : List XC.Entry) (Bs : List (Vec3 ℝ → Prop)) : Prop :=
  List.Forall₂ (fun (e : XC.Entry) (B : Vec3 ℝ → Prop) => Describes e.geometry B ∧ Orthogonal e.rot) es Bs

/-- The bodies put in their places. -/
def placedAll (es : List XC.Entry) (Bs : List (Vec3 ℝ → Prop)) : List (Vec3 ℝ → Prop) :=
  List.zipWith (fun (e : XC.Entry) (B : Vec3 ℝ → Prop) => Placed B e.rot e.pos) es Bs

end Rampack.Spec
