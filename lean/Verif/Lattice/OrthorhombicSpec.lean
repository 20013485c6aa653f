import Verif.Lattice.Orthorhombic
/-
What orthorhombic arrangements are, after the comments in /repo/src/core/lattice/OrthorhombicArrangingModel.h.
-/
namespace Rampack.Orthorhombic.Spec

/-- A vector turned around an axis of coordinates. -/
noncomputable def Turned (axis : Fin 3) (angle : ℝ) (v : Vec3 ℝ) : Vec3 ℝ :=
  match axis with
  | 0 => ⟨v.x, Real.cos angle * v.y - Real.sin angle * v.z, Real.sin angle * v.y + Real.cos angle * v.z⟩
  | 1 => ⟨Real.cos angle * v.x + Real.sin angle * v.z, v.y, -Real.sin angle * v.x + Real.cos angle * v.z⟩
  | 2 => ⟨Real.cos angle * v.x - Real.sin angle * v.y, Real.sin angle * v.x + Real.cos angle * v.y, v.z⟩

/-- A vector turned by 180 degrees around an axis of coordinates. -/
def HalfTurned (axis : Fin 3) (v : Vec3 ℝ) : Vec3 ℝ :=
  match axis with
  | 0 => ⟨v.x, -v.y, -v.z⟩
  | 1 => ⟨-v.x, v.y, -v.z⟩
  | 2 => ⟨-v.x, -v.y, v.z⟩

/-- The number of the layer. -/
def layer (M : Model) (i j k : Nat) : Nat :=
  match M.polarAxis with
  | 0 => i
  | 1 => j
  | 2 => k

/-- The coordinate of a molecule in a row of `count` ones at distances `cell` which is in the middle of the box. -/
noncomputable def centred (count i : Nat) (cell box : ℝ) : ℝ := box / 2 + ((i : ℝ) - ((count : ℝ) - 1) / 2) * cell

/-- The orientation of molecules of a layer: in odd layers molecules are first turned by 180 degrees, if layers are antipolar, and they are tilted to the other side, if layers are
anticlinic. -/
def Oriented (M : Model) (layer : Nat) (R : Mat3) : Prop :=
  ∀ v, R.mulVec v = Turned M.tiltAxis (if M.anticlinic = true ∧ Odd layer then -M.tiltAngle else M.tiltAngle) (if M.antiferro = true ∧ Odd layer then HalfTurned M.polarAxis v else v)

/-- What is asked for can be arranged: all numbers are positive, the lattice has a margin in the box in all directions, and there is an even number of antipolar layers. -/
structure Possible (M : Model) (n : Nat) (counts : Vec3 Nat) (cell box : Vec3 ℝ) : Prop where
  some : 0 < n
  cells : 0 < counts.x ∧ 0 < counts.y ∧ 0 < counts.z
  sizes : 0 < cell.x ∧ 0 < cell.y ∧ 0 < cell.z
  margin : ((counts.x : ℝ) - 1) * cell.x < box.x ∧ ((counts.y : ℝ) - 1) * cell.y < box.y ∧ ((counts.z : ℝ) - 1) * cell.z < box.z
  layers : M.antiferro = true → Even (layer M counts.x counts.y counts.z)

end Rampack.Orthorhombic.Spec
