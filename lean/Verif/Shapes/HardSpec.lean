import Verif.Shapes.Hard
import Verif.Geometry.SegmentSpec
import Verif.Packing.UpscaleSpec
import Verif.Packing.WallSpec
/-
Hard bodies as sets of points.
-/
namespace Rampack.Spec

open Rampack Shapes

/-- The inside of the ball. -/
def Ball (c : Vec3 ℝ) (r : ℝ) (p : Vec3 ℝ) : Prop := (p - c).norm2 < r ^ 2

/-- The inside of the spherocylinder: points nearer than `r` to a point of the segment. -/
def Capsule (a b : Vec3 ℝ) (r : ℝ) (p : Vec3 ℝ) : Prop := ∃ q, OnSegment a b q ∧ Ball q r p

/-- Two bodies have a common point. -/
def Meet (A B : Vec3 ℝ → Prop) : Prop := ∃ p, A p ∧ B p

/-- A part of the body lies behind the wall through `o`, on the other side than `n`. -/
def BehindWall (o n : Vec3 ℝ) (A : Vec3 ℝ → Prop) : Prop := ∃ p, A p ∧ (p - o).dot n < 0

/-- A body moved by `t`. -/
def movedBy (t : Vec3 ℝ) (A : Vec3 ℝ → Prop) (p : Vec3 ℝ) : Prop := A (p - t)

/-- A molecule made of balls: its spheres are rotated with it and placed at its position. -/
def SphereBody (data : List SphereData) (s : Shape) (p : Vec3 ℝ) : Prop := ∃ d ∈ data, Ball (s.pos + s.rot.mulVec d.position) d.radius p

/-- A spherocylinder of the given distance of cap centres along the z axis of the molecule. -/
def RodBody (length radius : ℝ) (s : Shape) : Vec3 ℝ → Prop :=
  Capsule (s.pos + s.rot.mulVec ⟨0, 0, -length / 2⟩) (s.pos + s.rot.mulVec ⟨0, 0, length / 2⟩) radius

/-- A molecule made of spherocylinders. -/
def RodsBody (data : List RodData) (s : Shape) (p : Vec3 ℝ) : Prop :=
  ∃ d ∈ data, Capsule (s.pos + s.rot.mulVec (d.position - d.halfAxis)) (s.pos + s.rot.mulVec (d.position + d.halfAxis)) d.radius p

/-- All radii are positive; the constructor of the data of a sphere checks it. -/
def PositiveRadii (data : List SphereData) : Prop := ∀ d ∈ data, 0 < d.radius

/-- Data built by the constructor: the radius is positive, and the length and circumsphere are the ones of the axis. -/
def WellBuilt (data : List RodData) : Prop := ∀ d ∈ data, 0 < d.radius ∧ d.halfLength = d.halfAxis.norm ∧ d.circumsphereRadius = d.radius + d.halfAxis.norm

/-- The same rods, thinner by `δ`. -/
noncomputable def thinner (δ : ℝ) (data : List RodData) : List RodData := data.map fun d => { d with radius := d.radius - δ }

/-- The same balls, smaller by the factor `k`. -/
noncomputable def shrunk (k : ℝ) (d : SphereData) : SphereData := ⟨d.position, k * d.radius⟩

/-- The ball of a molecule which is not moved or rotated. -/
def SphereData.Inside (d : SphereData) : Vec3 ℝ → Prop := Ball d.position d.radius

/-- The rod of a molecule which is not moved or rotated. -/
def RodData.Inside (d : RodData) : Vec3 ℝ → Prop := Capsule (d.position - d.halfAxis) (d.position + d.halfAxis) d.radius

/-- The point at which masses proportional to the cube of the radius balance. -/
def Balances (data : List SphereData) (c : Vec3 ℝ) : Prop := (data.map fun d => (d.radius ^ 3) • (d.position - c)).sum = 0

/-- An interaction without a soft part has no energy. -/
def SoftHonest (I : Interaction) : Prop := I.hasSoft = false → ∀ s1 s2 bc, I.energy s1 s2 bc = 0

end Rampack.Spec
