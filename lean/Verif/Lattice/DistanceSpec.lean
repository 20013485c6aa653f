import Verif.Lattice.Distance
import Verif.Lattice.Spec
import Verif.Packing.Spec
/-
Specification for the optimisation of distances (C55).
-/
namespace Rampack.Spec

/-- Molecules with orientations `R1` and `R2`, the second one displaced by `v` from the first one, overlap in free space: their centres do, or some of
their interaction centres. -/
def OverlapAt (I : Interaction) (R1 R2 : Mat3) (v : Vec3 ℝ) : Prop :=
  (I.centres = [] ∧ I.overlap ⟨0, R1, 0⟩ ⟨v, R2, 0⟩ BC.free = true) ∨
  ∃ i j c d, I.centres[i]? = some c ∧ I.centres[j]? = some d ∧
    I.overlap ⟨R1.mulVec c, R1, i⟩ ⟨v + R2.mulVec d, R2, j⟩ BC.free = true

/-- The precision requested in the documentation. -/
noncomputable def precision : ℝ := 1 / 10 ^ 12

/-- The matrix whose columns are the columns of `M` multiplied by the components of `f`. -/
def stretch (M : Mat3) (f : Vec3 ℝ) : Mat3 := M * Mat3.diag f.x f.y f.z

/-- The molecules `l` of the box `B` moved to the same relative positions of the box with sides stretched by `f`. -/
noncomputable def moved (B : Box) (l : List Shape) (f : Vec3 ℝ) : List Shape :=
  l.map fun s => ⟨(stretch B.dims f).mulVec (B.absToRel s.pos), s.rot⟩

/-- The packing `P`, after stretching its box by `f` together with the molecules in it, has overlaps. -/
def OverlapsStretched (P : Packing) (I : Interaction) (f : Vec3 ℝ) : Prop :=
  ∃ b Q n, Box.make (stretch P.box.dims f) = .ok b ∧ P.reset (moved P.box (mols P) f) b I = .ok Q ∧ Q.countTotalOverlaps I false = .ok n ∧ 0 < n

/-- Axis `a` is before axis `b` in the text `s`. -/
def AxisBefore (s : List Char) (a b : Fin 3) : Prop := s.idxOf (axisLetter a) < s.idxOf (axisLetter b)

instance (s : List Char) (a b : Fin 3) : Decidable (AxisBefore s a b) := by unfold AxisBefore; infer_instance

end Rampack.Spec
