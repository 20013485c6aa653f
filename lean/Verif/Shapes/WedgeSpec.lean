import Verif.Shapes.Wedge
import Verif.Shapes.VolumeSpec
import Verif.Geometry.XenoBodySpec
/-
Wedges as bodies.
-/
namespace Rampack.Spec

open Rampack

/-- Everything on the segments which join a point of one body with a point of the other: the convex hull of both, if each is convex. -/
def JoinBody (A B : Vec3 ℝ → Prop) (p : Vec3 ℝ) : Prop := ∃ (a b : Vec3 ℝ) (t : ℝ), A a ∧ B b ∧ 0 ≤ t ∧ t ≤ 1 ∧ p = (1 - t) • a + t • b

/-- The ball with its surface and the centre at the height `z` on the z axis. -/
def BallAt (z r : ℝ) (p : Vec3 ℝ) : Prop := (p - ⟨0, 0, z⟩).norm2 ≤ r ^ 2

/-- The rectangle of the given sides, at the height `z`, with the centre on the z axis. -/
def RectangleAt (z ax ay : ℝ) (p : Vec3 ℝ) : Prop := |p.x| ≤ ax / 2 ∧ |p.y| ≤ ay / 2 ∧ p.z = z

/-- The ball of radius `R` at the bottom is joined with the ball of radius `r` at the top; centres are apart by `l`, and the lowest and the uppermost points are
equally far from the origin. -/
def SmoothWedge (R r l : ℝ) : Vec3 ℝ → Prop := JoinBody (BallAt ((R - r - l) / 2) R) (BallAt ((R - r + l) / 2) r)

/-- Rectangles at the bottom and at the top are joined. -/
def PolyhedralWedge (axBottom ayBottom axTop ayTop length : ℝ) : Vec3 ℝ → Prop :=
  JoinBody (RectangleAt (-length / 2) axBottom ayBottom) (RectangleAt (length / 2) axTop ayTop)

/-- Where parts are placed in the molecule: at interaction centres, or at the origin if there are none. -/
def places (m : Wedge.Molecule) : List (Vec3 ℝ) := if m.centres = [] then [0] else m.centres

/-- The parts of the molecule, each a convex body at its place, together make the body `B`: every part is described to the collision test by right furthest points and radii. -/
def MadeOf (m : Wedge.Molecule) (B : Vec3 ℝ → Prop) : Prop :=
  ∃ bodies : List (Vec3 ℝ → Prop), List.Forall₂ Describes m.parts bodies ∧ bodies.length = (places m).length ∧
    ∀ p, B p ↔ ∃ (i : ℕ) (D : Vec3 ℝ → Prop) (c : Vec3 ℝ), bodies[i]? = some D ∧ (places m)[i]? = some c ∧ movedBy c D p

end Rampack.Spec
