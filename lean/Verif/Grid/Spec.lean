import Verif.Grid.Model
import Verif.Box.Spec
/-
Specification of the neighbour grid: what is stored is a partial map from identifiers to positions.
-/
namespace Rampack.Spec

open Rampack Rampack.Grid

/-- Calls which change a grid. -/
inductive GOp where
  | add (i : Nat) (p : Vec3 ℝ)
  | remove (i : Nat) (p : Vec3 ℝ)
  | clear
  | resize (b : Box) (cellSize : ℝ)

/-- What the user knows about a grid: the box, the requested cell size and where each identifier was put. -/
structure GState where
  box : Box
  cellSize : ℝ
  at_ : Nat → Option (Vec3 ℝ)

/-- How many cells of the given size fit between opposite faces of the box. -/
noncomputable def cellsAlong (b : Box) (cellSize : ℝ) : Vec3 Nat :=
  ⟨⌊b.heights.x / cellSize⌋.toNat, ⌊b.heights.y / cellSize⌋.toNat, ⌊b.heights.z / cellSize⌋.toNat⟩

/-- A box and cell size for which a grid may be built: at least one cell in each direction, and the number of cells
(with one extra layer on each side) is a 64-bit number. -/
def GridSize (b : Box) (cellSize : ℝ) : Prop :=
  0 < cellSize ∧ cellSize ≤ b.heights.x ∧ cellSize ≤ b.heights.y ∧ cellSize ≤ b.heights.z ∧
    ((cellsAlong b cellSize).x + 2) * ((cellsAlong b cellSize).y + 2) * ((cellsAlong b cellSize).z + 2) < 2 ^ 64

/-- The documented preconditions of a call when identifiers are `0, ..., n - 1`. -/
def GOp.Allowed (n : Nat) (s : GState) : GOp → Prop
  | .add i p => i < n ∧ s.at_ i = none ∧ Inside s.box p
  | .remove i p => i < n ∧ Inside s.box p ∧ (s.at_ i = none ∨ s.at_ i = some p)
  | .clear => True
  | .resize b cs => (∃ m, Box.make m = .ok b) ∧ GridSize b cs

/-- The intended effect of a call. -/
noncomputable def GOp.effect (s : GState) : GOp → GState
  | .add i p => { s with at_ := fun j => if j = i then some p else s.at_ j }
  | .remove i _ => { s with at_ := fun j => if j = i then none else s.at_ j }
  | .clear => { s with at_ := fun _ => none }
  | .resize b cs => ⟨b, cs, fun _ => none⟩

/-- The call made on the model of the grid. -/
noncomputable def GOp.call (g : NG) : GOp → Outcome NG
  | .add i p => g.add i p
  | .remove i p => g.remove i p
  | .clear => .ok g.clear
  | .resize b cs => do let (g', _) ← g.resize b cs; return g'

/-- All calls of a history are allowed when made. -/
def AllowedAll (n : Nat) : GState → List GOp → Prop
  | _, [] => True
  | s, op :: ops => op.Allowed n s ∧ AllowedAll n (op.effect s) ops

noncomputable def effectAll (s : GState) (ops : List GOp) : GState := ops.foldl GOp.effect s

noncomputable def callAll (g : NG) (ops : List GOp) : Outcome NG := ops.foldlM GOp.call g

/-- `g` results from constructing a grid for `n` identifiers and some allowed history of calls; `s` is what the user knows
afterwards. -/
def Reached (n : Nat) (g : NG) (s : GState) : Prop :=
  ∃ m b cs ops, Box.make m = .ok b ∧ GridSize b cs ∧ n < 2 ^ 64 ∧ AllowedAll n ⟨b, cs, fun _ => none⟩ ops ∧
    (NG.create b cs n >>= fun g0 => callAll g0 ops) = .ok g ∧ s = effectAll ⟨b, cs, fun _ => none⟩ ops

/-- Coordinates of an existing cell. -/
def IsCell (s : GState) (c : Vec3 Nat) : Prop :=
  c.x < (cellsAlong s.box s.cellSize).x ∧ c.y < (cellsAlong s.box s.cellSize).y ∧ c.z < (cellsAlong s.box s.cellSize).z

/-- The point lies in the cell: the box is divided evenly in each direction. -/
def InCell (s : GState) (c : Vec3 Nat) (p : Vec3 ℝ) : Prop :=
  ∃ r : Vec3 ℝ, p = combo s.box r ∧
    (c.x / (cellsAlong s.box s.cellSize).x ≤ r.x ∧ r.x < (c.x + 1) / (cellsAlong s.box s.cellSize).x) ∧
    (c.y / (cellsAlong s.box s.cellSize).y ≤ r.y ∧ r.y < (c.y + 1) / (cellsAlong s.box s.cellSize).y) ∧
    (c.z / (cellsAlong s.box s.cellSize).z ≤ r.z ∧ r.z < (c.z + 1) / (cellsAlong s.box s.cellSize).z)

/-- All cell coordinates in the order in which a triple loop visits them. -/
def allCells (N : Vec3 Nat) : List (Vec3 Nat) :=
  (List.range N.x).flatMap fun i => (List.range N.y).flatMap fun j => (List.range N.z).map fun k => ⟨i, j, k⟩

/-- Everything the full enumeration shows, going over all cells: `(i, j, t)` when `i` is in the cell and `j` is listed
in a neighbouring cell with translation `t`. -/
noncomputable def fullPairs (g : NG) : Outcome (List (Nat × Nat × Vec3 ℝ)) := do
  let ls ← (allCells g.getCellDivisions).mapM fun c => do
    let ids ← g.getCell c
    let nbs ← g.getNeighbouringCells c false
    return ids.flatMap fun i => nbs.flatMap fun e => e.2.map fun j => (i, j, e.1)
  return ls.flatten

/-- Pairs at different places of a list. -/
def listPairs : List Nat → List (Nat × Nat)
  | [] => []
  | a :: l => l.map (fun b => (a, b)) ++ listPairs l

/-- Everything the half enumeration shows: pairs inside each cell, and pairs with the "only positive" neighbours. -/
noncomputable def halfPairs (g : NG) : Outcome (List (Nat × Nat × Vec3 ℝ)) := do
  let ls ← (allCells g.getCellDivisions).mapM fun c => do
    let ids ← g.getCell c
    let nbs ← g.getNeighbouringCells c true
    return (listPairs ids).map (fun p => (p.1, p.2, (0 : Vec3 ℝ))) ++
      ids.flatMap fun i => nbs.flatMap fun e => e.2.map fun j => (i, j, e.1)
  return ls.flatten

/-- The same pair seen from the other object. -/
def swapPair (p : Nat × Nat × Vec3 ℝ) : Nat × Nat × Vec3 ℝ := (p.2.1, p.1, -p.2.2)

end Rampack.Spec
