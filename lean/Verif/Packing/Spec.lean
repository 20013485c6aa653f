import Verif.Packing.Model
import Verif.Box.Spec
import Mathlib.Data.Set.Card
import Mathlib.Algebra.BigOperators.Group.Finset.Basic
/-
Specification of packings: what a user knows are the box, the shapes and the interaction. Overlaps and energies are
defined from these alone.
-/
namespace Rampack.Spec

open Rampack

/-- The interaction sites of a molecule: its centre, or its interaction centres rotated with the molecule, placed at its
position and brought into the box. -/
noncomputable def molSites (b : Box) (I : Interaction) (s : Shape) : List Site :=
  if I.centres.length = 0 then [⟨s.pos, s.rot, 0⟩]
  else (List.range I.centres.length).map fun k =>
    ⟨Packing.wrap b (s.pos + s.rot.mulVec (I.centres.getD k 0)), s.rot, k⟩

/-- The number of periodic images of the second site which overlap the first one. -/
noncomputable def overlappingImages (b : Box) (I : Interaction) (s1 s2 : Site) : ℕ :=
  Set.ncard {t : Vec3 ℤ | I.overlap s1 s2 (BC.hard (lattice b t)) = true}

/-- Whether two sites overlap when the nearest-image boundary conditions object is used. -/
noncomputable def overlappingNearest (b : Box) (I : Interaction) (s1 s2 : Site) : ℕ :=
  if I.overlap s1 s2 (BC.pbc b) = true then 1 else 0

/-- Energy of a site with all images of another one. -/
noncomputable def energyImages (b : Box) (I : Interaction) (s1 s2 : Site) : ℝ :=
  ∑ᶠ t : Vec3 ℤ, I.energy s1 s2 (BC.hard (lattice b t))

/-- Sum of a function of sites over pairs of sites of two molecules. -/
noncomputable def sitePairs {α : Type} [AddCommMonoid α] (b : Box) (I : Interaction) (f : Site → Site → α)
    (s1 s2 : Shape) : α :=
  ((molSites b I s1).map fun x => ((molSites b I s2).map fun y => f x y).sum).sum

/-- The molecules of a packing, as seen through its iterators. -/
def mols (P : Packing) : List Shape := P.shapes.take P.size

/-- Interactions which do what the code assumes of them: they are symmetric, vanish beyond the declared range, and have no
overlaps when they declare to have no hard part. -/
structure Contract (I : Interaction) : Prop where
  range_pos : 0 < I.range
  overlap_symm : ∀ s1 s2 t, I.overlap s1 s2 (BC.hard t) = I.overlap s2 s1 (BC.hard (-t))
  overlap_symm_pbc : ∀ m b s1 s2, Box.make m = .ok b → I.overlap s1 s2 (BC.pbc b) = I.overlap s2 s1 (BC.pbc b)
  overlap_range : ∀ s1 s2 t, I.overlap s1 s2 (BC.hard t) = true → dist2 s1.pos (s2.pos + t) ≤ I.range ^ 2
  energy_symm : ∀ s1 s2 t, I.energy s1 s2 (BC.hard t) = I.energy s2 s1 (BC.hard (-t))
  energy_symm_pbc : ∀ m b s1 s2, Box.make m = .ok b → I.energy s1 s2 (BC.pbc b) = I.energy s2 s1 (BC.pbc b)
  energy_range : ∀ s1 s2 t, I.energy s1 s2 (BC.hard t) ≠ 0 → dist2 s1.pos (s2.pos + t) ≤ I.range ^ 2
  noHard_overlap : I.hasHard = false → ∀ s1 s2 bc, I.overlap s1 s2 bc = false
  noHard_wall : I.hasHard = false → ∀ s o v, I.wall s o v = false

/-- The interaction uses the boundary conditions only through the translation of the second site. -/
structure UsesTranslation (I : Interaction) : Prop where
  overlap : ∀ s1 s2 bc, I.overlap s1 s2 bc = I.overlap s1 s2 (BC.hard (bc.translation s1.pos s2.pos))
  energy : ∀ s1 s2 bc, I.energy s1 s2 bc = I.energy s1 s2 (BC.hard (bc.translation s1.pos s2.pos))

end Rampack.Spec
