import Verif.Packing.Spec
/-
Specification of walls: each walled axis has a wall through the origin of the box and one through the opposite corner, both
parallel to the two other sides, with the molecules between them.
-/
namespace Rampack.Spec

open Rampack

/-- A unit vector perpendicular to the sides `u` and `v` of the box, pointing to the same side as the side `w`. -/
structure Inward (u v w n : Vec3 ℝ) : Prop where
  unit : n.norm2 = 1
  perp_u : n.dot u = 0
  perp_v : n.dot v = 0
  inner : 0 < n.dot w

/-- The corner of the box opposite to the origin. -/
noncomputable def corner (b : Box) : Vec3 ℝ := b.sides.x + b.sides.y + b.sides.z

/-- The interaction sites of a molecule, where they are (not brought into the box). -/
noncomputable def bodySites (I : Interaction) (s : Shape) : List Site :=
  if I.centres.length = 0 then [⟨s.pos, s.rot, 0⟩]
  else (List.range I.centres.length).map fun k => ⟨s.pos + s.rot.mulVec (I.centres.getD k 0), s.rot, k⟩

/-- The number of sites of a molecule overlapping the two walls with the normals `n` and `-n`. -/
noncomputable def axisOverlaps (b : Box) (I : Interaction) (s : Shape) (n : Vec3 ℝ) : ℕ :=
  (bodySites I s).countP (fun x => I.wall x 0 n) + (bodySites I s).countP (fun x => I.wall x (corner b) (-n))

/-- The number of wall overlaps of a molecule, where `n` are the normals of the walls. -/
noncomputable def wallOverlaps (b : Box) (walls : Vec3 Bool) (I : Interaction) (n : Vec3 (Vec3 ℝ)) (s : Shape) : ℕ :=
  (if walls.x then axisOverlaps b I s n.x else 0) + (if walls.y then axisOverlaps b I s n.y else 0) +
    (if walls.z then axisOverlaps b I s n.z else 0)

/-- No site of the molecule overlaps a wall which is further than half of the total interaction range from the molecule. -/
def WallRange (I : Interaction) (s : Shape) : Prop :=
  ∀ o n, n.norm2 = 1 → ∀ x ∈ bodySites I s, I.wall x o n = true → (s.pos - o).dot n < I.totalRange / 2

/-- The same for sites: no site overlaps a wall which is further than half of the interaction range from it. -/
def SiteWallRange (I : Interaction) : Prop :=
  ∀ x o n, n.norm2 = 1 → I.wall x o n = true → (x.pos - o).dot n < I.range / 2

/-- The total interaction range covers all interaction centres; what `getTotalRangeRadius` computes. -/
def TotalRange (I : Interaction) : Prop := I.range ≤ I.totalRange ∧ ∀ c ∈ I.centres, I.range + 2 * c.norm ≤ I.totalRange

/-- Walls are only on axes along which the box is at least as thick as the total interaction range. -/
def ThickEnough (b : Box) (walls : Vec3 Bool) (I : Interaction) : Prop :=
  (walls.x = true → I.totalRange ≤ b.heights.x) ∧ (walls.y = true → I.totalRange ≤ b.heights.y) ∧
    (walls.z = true → I.totalRange ≤ b.heights.z)

end Rampack.Spec
