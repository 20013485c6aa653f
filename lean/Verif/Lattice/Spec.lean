import Verif.Lattice.Model
import Verif.Box.Lemmas
/-
Specification for lattices (C40, C41, C42).
-/
namespace Rampack.Spec

open Lattice

/-- The index of a cell is within the lattice. -/
def InRange (d i : Vec3 Nat) : Prop := i.x < d.x ∧ i.y < d.y ∧ i.z < d.z

/-- Lattices which can be made with the API: created with a proper box, with fewer than 2^31 cells, and then changed in any way. Changes of cells may be
refused, and so may normalisation, which then leaves the lattice as it was. -/
inductive LatticeReached : Lattice → Prop where
  | create {c : UnitCell} {d : Vec3 Nat} {L : Lattice} : c.box.WF → d.x * d.y * d.z < 2 ^ 31 → Lattice.create c d = .ok L → LatticeReached L
  | specific {L L' : Lattice} {i : Vec3 Nat} {f : List Shape → List Shape} : LatticeReached L → L.modifySpecific i f = .ok L' → LatticeReached L'
  | refused {L : Lattice} {i : Vec3 Nat} {f : List Shape → List Shape} {m : String} : LatticeReached L → L.modifySpecific i f = .throw m → LatticeReached L.unfolded
  | unit {L L' : Lattice} {f : List Shape → List Shape} : LatticeReached L → L.modifyUnit f = .ok L' → LatticeReached L'
  | box {L : Lattice} {b : Box} : LatticeReached L → b.WF → LatticeReached (L.setBox b)
  | normalize {L L' : Lattice} : LatticeReached L → L.normalize = .ok L' → LatticeReached L'

/-- An integer vector as a real one. -/
def ofInts (n : Vec3 ℤ) : Vec3 ℝ := ⟨n.x, n.y, n.z⟩

/-- The same molecule in the periodic box `B`: the orientations are the same and the positions are so up to side vectors of the box. -/
def SameCellPlace (B : Box) (s t : Shape) : Prop := t.rot = s.rot ∧ ∃ n : Vec3 ℤ, t.pos = s.pos + B.relToAbs (ofInts n)

/-- The same molecules in the periodic box `B`, in any order. -/
def SameMolecules (B : Box) (a b : List Shape) : Prop := ∃ l, l.Perm b ∧ List.Forall₂ (SameCellPlace B) a l

/-- All coordinates are from [0, 1). -/
def Within (p : Vec3 ℝ) : Prop := (0 ≤ p.x ∧ p.x < 1) ∧ (0 ≤ p.y ∧ p.y < 1) ∧ (0 ≤ p.z ∧ p.z < 1)

/-- All coordinates are less than 2^30 in magnitude. -/
def Moderate (p : Vec3 ℝ) : Prop := |p.x| < 2 ^ 30 ∧ |p.y| < 2 ^ 30 ∧ |p.z| < 2 ^ 30

/-- The letter of an axis. -/
def axisLetter (a : Fin 3) : Char := match a with | 0 => 'x' | 1 => 'y' | 2 => 'z'

/-- The cell `i` is before the cell `j` if the first axis is compared first, then the second one and then the third one. -/
def Before (a : Vec3 (Fin 3)) (i j : Vec3 Nat) : Prop :=
  i.get a.x < j.get a.x ∨ i.get a.x = j.get a.x ∧ (i.get a.y < j.get a.y ∨ i.get a.y = j.get a.y ∧ i.get a.z < j.get a.z)

end Rampack.Spec
