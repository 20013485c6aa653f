import Verif.Packing.PropSpec
/-
Specification for expanding the box: hard convex bodies, and configurations free of overlaps.
-/
namespace Rampack.Spec

open Rampack

/-- A rotation (possibly with a reflection): it preserves lengths. -/
def Orthogonal (R : Mat3) : Prop := R.transpose * R = 1

/-- No molecule overlaps any periodic image of another molecule (for interactions without separate interaction centres). -/
def NoOverlaps (b : Box) (I : Interaction) (l : List Shape) : Prop :=
  ∀ (i j : Nat) (s t : Shape), l[i]? = some s → l[j]? = some t → i ≠ j → ∀ n : Vec3 ℤ,
    I.overlap ⟨s.pos, s.rot, 0⟩ ⟨t.pos, t.rot, 0⟩ (BC.hard (lattice b n)) = false

/-- Molecules are the same convex body `B`, containing the middle of the molecule. They overlap when the bodies have a common
point. -/
structure ConvexBodies (I : Interaction) (B : Vec3 ℝ → Prop) : Prop where
  single : I.centres = []
  middle : B 0
  convex : ∀ (p q : Vec3 ℝ) (c : ℝ), B p → B q → 0 ≤ c → c ≤ 1 → B (c • p + (1 - c) • q)
  overlap : ∀ x y t, Orthogonal x.rot → Orthogonal y.rot →
    (I.overlap x y (BC.hard t) = true ↔ ∃ p q, B p ∧ B q ∧ x.pos + x.rot.mulVec p = y.pos + t + y.rot.mulVec q)

/-- Molecules are balls of diameter `d`. -/
structure Balls (I : Interaction) (d : ℝ) : Prop where
  single : I.centres = []
  overlap : ∀ x y t, I.overlap x y (BC.hard t) = true ↔ dist2 x.pos (y.pos + t) < d ^ 2

end Rampack.Spec
