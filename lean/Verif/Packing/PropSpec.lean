import Verif.Packing.History
import Verif.Grid.Spec
/-
Specification used in the theorems about packings.
-/
namespace Rampack.Spec

open Rampack

/-- Overlaps between two molecules: over all periodic images when the packing uses the neighbour grid, with the nearest
image only otherwise. -/
noncomputable def pairOverlaps (P : Packing) (I : Interaction) (s t : Shape) : ℕ :=
  if P.ng.isSome then sitePairs P.box I (overlappingImages P.box I) s t
  else sitePairs P.box I (overlappingNearest P.box I) s t

/-- Energy of two molecules: with all periodic images when the packing uses the neighbour grid, with the nearest image only
otherwise. -/
noncomputable def pairEnergy (P : Packing) (I : Interaction) (s t : Shape) : ℝ :=
  if P.ng.isSome then sitePairs P.box I (energyImages P.box I) s t
  else sitePairs P.box I (fun x y => I.energy x y (BC.pbc P.box)) s t

/-- Overlaps of a shape put in place of the molecule `i` with the other molecules. -/
noncomputable def overlapsOf (P : Packing) (I : Interaction) (i : Nat) (s : Shape) : ℕ :=
  (((mols P).eraseIdx i).map (pairOverlaps P I s)).sum

/-- Energy of a shape put in place of the molecule `i`. -/
noncomputable def energyOf (P : Packing) (I : Interaction) (i : Nat) (s : Shape) : ℝ :=
  (((mols P).eraseIdx i).map (pairEnergy P I s)).sum

/-- All interaction sites, in the order in which they are numbered. -/
noncomputable def allSites (P : Packing) (I : Interaction) : List Site := (mols P).flatMap (molSites P.box I)

/-- Two packings look the same: molecules, box, walls, overlap counts, energies, and what trial moves and
volume moves report. -/
structure SameLook (I : Interaction) (P P' : Packing) : Prop where
  mols : mols P' = mols P
  box : P'.box = P.box
  walls : P'.hasWall = P.hasWall
  counting : P'.overlapCounting = P.overlapCounting
  overlaps : P'.countTotalOverlaps I false = P.countTotalOverlaps I false
  cached : P'.getCachedNumberOfOverlaps = P.getCachedNumberOfOverlaps
  energy : P'.totalEnergy I = P.totalEnergy I
  grid : P'.ng.isSome = P.ng.isSome
  trials : ∀ tid i k domain, tid < P.moveThreads → i < P.size →
    ∃ P1 P1' e, P.tryKind I tid i k domain = .ok (P1, e) ∧ P'.tryKind I tid i k domain = .ok (P1', e)
  scalings : ∀ M b, Box.make M = .ok b → ∃ P1 P1' e, P.tryScaling I b = .ok (P1, e) ∧ P'.tryScaling I b = .ok (P1', e)

end Rampack.Spec
