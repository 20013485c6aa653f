import Verif.Box.Model
/-
Specification vocabulary for boxes: what it means to be inside the parallelepiped spanned by the side vectors and to be
a lattice vector of it. Only the side vectors (columns of the dimensions matrix the user passes) are used.
-/
namespace Rampack.Spec

open Rampack

/-- `s.x * side1 + s.y * side2 + s.z * side3`. -/
noncomputable def combo (b : Box) (s : Vec3 ℝ) : Vec3 ℝ :=
  s.x • b.dims.c0 + s.y • b.dims.c1 + s.z • b.dims.c2

/-- `p` is in the half-open parallelepiped spanned by the sides. -/
def Inside (b : Box) (p : Vec3 ℝ) : Prop :=
  ∃ s : Vec3 ℝ, (0 ≤ s.x ∧ s.x < 1) ∧ (0 ≤ s.y ∧ s.y < 1) ∧ (0 ≤ s.z ∧ s.z < 1) ∧ p = combo b s

/-- The lattice vector with integer coordinates `n`. -/
noncomputable def lattice (b : Box) (n : Vec3 ℤ) : Vec3 ℝ := combo b (n.map (fun k : ℤ => (k : ℝ)))

/-- `v` is an integer combination of the sides. -/
def IsLattice (b : Box) (v : Vec3 ℝ) : Prop := ∃ n : Vec3 ℤ, v = lattice b n

/-- The sides are mutually orthogonal (cuboidal box, possibly rotated). -/
def Rectangular (b : Box) : Prop :=
  b.dims.c0.dot b.dims.c1 = 0 ∧ b.dims.c1.dot b.dims.c2 = 0 ∧ b.dims.c2.dot b.dims.c0 = 0

/-- Squared distance of two points. -/
def dist2 (p q : Vec3 ℝ) : ℝ := (q.x - p.x) ^ 2 + (q.y - p.y) ^ 2 + (q.z - p.z) ^ 2

end Rampack.Spec
