import Verif.Grid.Model
import Mathlib.Analysis.SpecialFunctions.Pow.Real
/-
Model of the packing: /repo/src/core/Packing.h, Packing.cpp, Shape.h, Shape.cpp.

Simplifications (besides exact reals):
* the boundary conditions of the packing are the periodic ones (`PeriodicBoundaryConditions` set to the current box, as
  `bc->setBox(box)` is called whenever the box changes); their box is therefore not stored twice;
* `numOverlaps`, `lastScalingNumOverlaps` (`std::size_t`) and `lastMoveOverlapDeltas` (`int`) are integers without a
  bound, so conversions between them are exact (in C++ that holds while counts are below 2^31);
* `#pragma omp parallel for` loops whose iterations touch different array elements or are reductions are sequential
  loops here; the early-exit loop with the shared flag has a separate model with arbitrary schedules
  (`Packing.SchedStep`);
* counters used only for performance reports are omitted;
* the branches `numInteractionCentres == 0` (molecules interact by their centres) and `!= 0` (by a list of interaction
  centres) of the traversal functions differ only in how an index in the grid is turned into a position, an orientation
  and a centre number, so they are merged using `site`, `owner` and `points`; where they do differ (the check
  `particleIdx1 == particleIdx2` in total counting is present only in the second one) the model has the same case
  distinction;
* overlap and energy functions traverse the same pairs in the same order (compare the cited lines); the traversal is
  modelled once, as a list of pairs, and both are computed from it.
-/
namespace Rampack

open Rampack.Grid

/-- `Shape`; src/core/Shape.h. -/
structure Shape where
  pos : Vec3 ℝ
  rot : Mat3

/-- The part of `BoundaryConditions` which an interaction uses; src/core/BoundaryConditions.h. -/
structure BC where
  translation : Vec3 ℝ → Vec3 ℝ → Vec3 ℝ
  distance2 : Vec3 ℝ → Vec3 ℝ → ℝ

/-- `HardcodedTranslation`; src/core/Packing.cpp:20-44. -/
def BC.hard (t : Vec3 ℝ) : BC := ⟨fun _ _ => t, fun p q => (q + t - p).norm2⟩

/-- `PeriodicBoundaryConditions` for the box `b`; src/core/PeriodicBoundaryConditions.cpp. -/
noncomputable def BC.pbc (b : Box) : BC := ⟨PBC.getTranslation b, PBC.getDistance2 b⟩

/-- One of the two interacting objects: position of the interaction centre, orientation of the molecule, index of the
centre (arguments `pos1, orientation1, idx1` of `Interaction::overlapBetween`, src/core/Interaction.h:66-100). -/
structure Site where
  pos : Vec3 ℝ
  rot : Mat3
  idx : Nat

/-- The virtual interface `Interaction`; src/core/Interaction.h:18-140. An infinite range radius is represented by any
number larger than a quarter of the box heights (both switch the grid off). -/
structure Interaction where
  hasHard : Bool
  hasSoft : Bool
  isConvex : Bool
  centres : List (Vec3 ℝ)
  range : ℝ
  totalRange : ℝ
  overlap : Site → Site → BC → Bool
  energy : Site → Site → BC → ℝ
  wall : Site → Vec3 ℝ → Vec3 ℝ → Bool

/-- Energy changes reported by trial moves: finite or infinite. -/
inductive EnergyChange where
  | negInf
  | fin (e : ℝ)
  | posInf

/-- `Packing`; src/core/Packing.h:33-67. -/
structure Packing where
  shapes : List Shape
  centres : List (Vec3 ℝ)
  absCentres : List (Vec3 ℝ)
  box : Box
  ng : Option NG
  range : ℝ
  m : Nat
  moveThreads : Nat
  hasWall : Vec3 Bool
  overlapCounting : Bool
  numOverlaps : Int
  lastAltered : List Nat
  lastDeltas : List Int
  lastScalingNumOverlaps : Int
  lastBox : Box
  lastShapes : List Shape
  tempNg : Option NG

namespace Packing

/-- `size()`; src/core/Packing.h `shapes.size() - moveThreads` (temporary shapes are at the back). -/
def size (P : Packing) : Nat := P.shapes.length - P.moveThreads

/-- `hasAnyWalls`; it is set together with `hasWall` in src/core/Packing.cpp:1075-1084. -/
def hasAnyWalls (P : Packing) : Bool := P.hasWall.x || P.hasWall.y || P.hasWall.z

/-- Which particle does a grid index belong to: the index itself, or `centreIdx / numInteractionCentres`. -/
def owner (P : Packing) (k : Nat) : Nat := if P.m = 0 then k else k / P.m

/-- Grid indices of a particle (or of a temporary slot). -/
def points (P : Packing) (i : Nat) : List Nat := if P.m = 0 then [i] else (List.range P.m).map (i * P.m + ·)

/-- Position, orientation and centre number behind a grid index, e.g. src/core/Packing.cpp:438-440 and 473-477. -/
def site (P : Packing) (k : Nat) : Outcome Site :=
  if P.m = 0 then do
    let s ← vget P.shapes k
    return ⟨s.pos, s.rot, 0⟩
  else do
    let a ← vget P.absCentres k
    let s ← vget P.shapes (k / P.m)
    return ⟨a, s.rot, k % P.m⟩

/-- A pair to be checked: two grid indices and the boundary conditions passed to the interaction. -/
abbrev Check := Nat × Nat × BC

/-- The pairs visited for one particle with the grid; src/core/Packing.cpp:378-411, 619-647 (overlaps), 655-677,
739-765 (energy). -/
noncomputable def particleChecksNG (P : Packing) (g : NG) (orig temp : Nat) : Outcome (List Check) := do
  let ls ← (P.points temp).mapM fun k1 => do
    let s ← P.site k1
    let nbs ← g.getNeighbouringCellsPos s.pos false
    return nbs.flatMap fun e => (e.2.filter fun k2 => P.owner k2 ≠ orig).map fun k2 => (k1, k2, BC.hard e.1)
  return ls.flatten

/-- The pairs of interaction centres of two particles; src/core/Packing.cpp:582-617 (overlaps), 711-737 (energy). -/
noncomputable def betweenChecks (P : Packing) (temp another : Nat) : List Check :=
  (P.points temp).flatMap fun k1 => (P.points another).map fun k2 => (k1, k2, BC.pbc P.box)

/-- The pairs visited for one particle without the grid; src/core/Packing.cpp:411-422, 678-685. -/
noncomputable def particleChecksNoNG (P : Packing) (orig temp : Nat) : List Check :=
  ((List.range P.size).filter (· ≠ orig)).flatMap fun j => P.betweenChecks temp j

noncomputable def particleChecks (P : Packing) (orig temp : Nat) : Outcome (List Check) :=
  match P.ng with
  | some g => P.particleChecksNG g orig temp
  | none => .ok (P.particleChecksNoNG orig temp)

/-- The loop over the rest of a cell's list and over the half of the neighbouring cells for each element of the list;
`skip` is the check `particleIdx1 == particleIdx2`. -/
noncomputable def cellPairs (skip : Nat → Nat → Bool) (nbs : List (Vec3 ℝ × List Nat)) : List Nat → List Check
  | [] => []
  | k1 :: rest =>
    ((rest.filter fun k2 => !skip k1 k2).map fun k2 => (k1, k2, BC.hard 0)) ++
      (nbs.flatMap fun e => (e.2.filter fun k2 => !skip k1 k2).map fun k2 => (k1, k2, BC.hard e.1)) ++
      cellPairs skip nbs rest

/-- The pairs visited in one grid cell by the total count; src/core/Packing.cpp:431-517 (overlaps), 767-839 (energy). -/
noncomputable def cellChecks (P : Packing) (g : NG) (coord : Vec3 Nat) : Outcome (List Check) := do
  let ids ← g.getCell coord
  let nbs ← g.getNeighbouringCells coord true
  return cellPairs (fun k1 k2 => decide (P.m ≠ 0) && decide (P.owner k1 = P.owner k2)) nbs ids

/-- The pairs visited by the total count without the grid; src/core/Packing.cpp:546-556, 703-706. -/
noncomputable def totalChecksNoNG (P : Packing) : List Check :=
  (List.range P.size).flatMap fun i => (List.range' (i + 1) (P.size - (i + 1))).flatMap fun j => P.betweenChecks i j

/-- Is a visited pair overlapping? -/
def checkOverlap (P : Packing) (I : Interaction) (c : Check) : Outcome Bool := do
  let s1 ← P.site c.1
  let s2 ← P.site c.2.1
  return I.overlap s1 s2 c.2.2

/-- Energy of a visited pair. -/
def checkEnergy (P : Packing) (I : Interaction) (c : Check) : Outcome ℝ := do
  let s1 ← P.site c.1
  let s2 ← P.site c.2.1
  return I.energy s1 s2 c.2.2

/-- `if (overlap) { if (earlyExit) return 1; overlapsCounted++; }` over consecutive checks. -/
def countLoop (earlyExit : Bool) : List Bool → Nat → Nat
  | [], acc => acc
  | b :: l, acc => if b then (if earlyExit then 1 else countLoop earlyExit l (acc + 1)) else countLoop earlyExit l acc

/-- Overlaps among the given pairs. -/
def countChecks (P : Packing) (I : Interaction) (earlyExit : Bool) (l : List Check) : Outcome Nat := do
  let bs ← l.mapM (P.checkOverlap I)
  return countLoop earlyExit bs 0

/-- Energy of the given pairs. -/
noncomputable def sumChecks (P : Packing) (I : Interaction) (l : List Check) : Outcome ℝ := do
  let es ← l.mapM (P.checkEnergy I)
  return es.foldl (· + ·) 0

/-- `normalized()`; src/geometry/Vector.h:225-228. -/
noncomputable def normalized (v : Vec3 ℝ) : Vec3 ℝ := ⟨v.x / v.norm, v.y / v.norm, v.z / v.norm⟩

/-- The checks of all interaction centres of the molecule in slot `slot` against one wall;
src/core/Packing.cpp:1105-1120 and 1122-1137. -/
def wallSiteChecks (P : Packing) (I : Interaction) (slot : Nat) (s : Shape) (origin vector : Vec3 ℝ) :
    Outcome (List Bool) :=
  if P.m = 0 then .ok [I.wall ⟨s.pos, s.rot, 0⟩ origin vector]
  else (List.range P.m).mapM fun c => do
    let centre ← vget P.centres (slot * P.m + c)
    return I.wall ⟨s.pos + centre, s.rot, c⟩ origin vector

/-- The wall checks for one axis; src/core/Packing.cpp:1094-1138. `u`, `v` are the next two sides. -/
noncomputable def wallAxisChecks (P : Packing) (I : Interaction) (slot : Nat) (s : Shape) (has : Bool) (u v : Vec3 ℝ) :
    Outcome (List Bool) :=
  if ¬ has then .ok []
  else
    let wallVector := normalized (u.cross v)
    let further := P.box.sides.x + P.box.sides.y + P.box.sides.z
    if s.pos.dot wallVector < I.totalRange / 2 then P.wallSiteChecks I slot s 0 wallVector
    else if (further - s.pos).dot wallVector < I.totalRange / 2 then P.wallSiteChecks I slot s further (-wallVector)
    else .ok []

/-- `countParticleWallOverlaps`; src/core/Packing.cpp:1086-1142. -/
noncomputable def countParticleWallOverlaps (P : Packing) (I : Interaction) (slot : Nat) (earlyExit : Bool) :
    Outcome Nat := do
  let s ← vget P.shapes slot
  let b0 ← P.wallAxisChecks I slot s P.hasWall.x P.box.sides.y P.box.sides.z
  let b1 ← P.wallAxisChecks I slot s P.hasWall.y P.box.sides.z P.box.sides.x
  let b2 ← P.wallAxisChecks I slot s P.hasWall.z P.box.sides.x P.box.sides.y
  return countLoop earlyExit (b0 ++ b1 ++ b2) 0

/-- `countParticleOverlaps`; src/core/Packing.cpp:373-429. -/
noncomputable def countParticleOverlaps (P : Packing) (I : Interaction) (orig temp : Nat) (earlyExit : Bool) :
    Outcome Nat := do
  let l ← P.particleChecks orig temp
  let c ← P.countChecks I earlyExit l
  if earlyExit && decide (c > 0) then return c
  else do
    let w ← if P.hasAnyWalls then P.countParticleWallOverlaps I temp earlyExit else Outcome.ok 0
    return c + w

/-- `countWallOverlaps`; src/core/Packing.cpp:561-580. Sequential order, see `SchedStep` for schedules: once an overlap is
found, the remaining iterations are skipped when `earlyExit` is set. -/
noncomputable def countWallOverlaps (P : Packing) (I : Interaction) (earlyExit : Bool) : Outcome Nat :=
  if ¬ P.hasAnyWalls then .ok 0
  else (List.range P.size).foldlM (fun acc i =>
    if earlyExit && decide (acc > 0) then Outcome.ok acc
    else do
      let w ← P.countParticleWallOverlaps I i earlyExit
      return acc + w) 0

/-- All cells of the grid in the order of the triple loop; src/core/Packing.cpp:527-529. -/
def loopCells (N : Vec3 Nat) : List (Vec3 Nat) :=
  (List.range N.x).flatMap fun i => (List.range N.y).flatMap fun j => (List.range N.z).map fun k => ⟨i, j, k⟩

/-- `countTotalOverlapsNGCellHelper`; src/core/Packing.cpp:431-517. -/
noncomputable def countCell (P : Packing) (I : Interaction) (g : NG) (earlyExit : Bool) (c : Vec3 Nat) :
    Outcome Nat := do
  let l ← P.cellChecks g c
  P.countChecks I earlyExit l

/-- The part of `countTotalOverlaps` which goes over pairs of molecules; src/core/Packing.cpp:520-556. Sequential order
of cells, see `SchedStep` for schedules. -/
noncomputable def countPairOverlaps (P : Packing) (I : Interaction) (earlyExit : Bool) : Outcome Nat :=
  match P.ng with
  | some g => (loopCells g.getCellDivisions).foldlM (fun acc c =>
      if earlyExit && decide (acc > 0) then Outcome.ok acc
      else do
        let n ← P.countCell I g earlyExit c
        return acc + n) 0
  | none => P.countChecks I earlyExit P.totalChecksNoNG

/-- `countTotalOverlaps`; src/core/Packing.cpp:519-559. With early exit it returns 1 as soon as a pair overlaps
(543-544, 551-552). -/
noncomputable def countTotalOverlaps (P : Packing) (I : Interaction) (earlyExit : Bool) : Outcome Nat := do
  let c ← P.countPairOverlaps I earlyExit
  if earlyExit && decide (c > 0) then return 1
  else do
    let w ← P.countWallOverlaps I earlyExit
    return c + w

/-- `calculateParticleEnergy`; src/core/Packing.cpp:649-688. -/
noncomputable def particleEnergy (P : Packing) (I : Interaction) (orig temp : Nat) : Outcome ℝ := do
  Outcome.require (orig < P.size) "Expects(originalParticleIdx < this->size())"
  if ¬ I.hasSoft then return 0
  else do
    let l ← P.particleChecks orig temp
    P.sumChecks I l

/-- `getTotalEnergy`; src/core/Packing.cpp:690-709. -/
noncomputable def totalEnergy (P : Packing) (I : Interaction) : Outcome ℝ :=
  if ¬ I.hasSoft then .ok 0
  else match P.ng with
    | some g => do
      let es ← (loopCells g.getCellDivisions).mapM fun c => do
        let l ← P.cellChecks g c
        P.sumChecks I l
      return es.foldl (· + ·) 0
    | none => P.sumChecks I P.totalChecksNoNG

/-! ### Changing the packing -/

/-- `for (i = 0; i < m; i++) l[base + i] = f(l, i);` -/
def storeLoop {α : Type} (base m : Nat) (f : List α → Nat → Outcome α) (l : List α) : Outcome (List α) :=
  (List.range m).foldlM (fun l i => do
    let v ← f l i
    vset l (base + i) v) l

/-- Position brought into the box: `pos + bc.getCorrection(pos)`. -/
noncomputable def wrap (b : Box) (p : Vec3 ℝ) : Vec3 ℝ := p + PBC.getCorrection b p

/-- `recalculateAbsoluteInteractionCentres(particleIdx)`; src/core/Packing.cpp:1041-1047. -/
noncomputable def recalcAbs (P : Packing) (slot : Nat) : Outcome Packing := do
  let abs ← storeLoop (slot * P.m) P.m (fun _ c => do
    let s ← vget P.shapes slot
    let centre ← vget P.centres (slot * P.m + c)
    return wrap P.box (s.pos + centre)) P.absCentres
  return { P with absCentres := abs }

/-- `recalculateAbsoluteInteractionCentres()`; src/core/Packing.cpp:1035-1039. -/
noncomputable def recalcAbsAll (P : Packing) : Outcome Packing := (List.range P.size).foldlM recalcAbs P

/-- The position under which an index is kept in the grid: of the molecule or of the interaction centre. -/
def position (P : Packing) (k : Nat) : Outcome (Vec3 ℝ) :=
  if P.m = 0 then Shape.pos <$> vget P.shapes k else vget P.absCentres k

/-- `addInteractionCentresToNeighbourGrid()`; src/core/Packing.cpp:901-929: first all cell numbers, then all
insertions. -/
noncomputable def addAll (P : Packing) (g : NG) : Outcome NG := do
  let ks := (List.range P.size).flatMap P.points
  let cellNos ← ks.mapM fun k => do
    let p ← P.position k
    positionToCellNo g.box g.divs p
  (ks.zip cellNos).foldlM (fun g kc => g.addAt kc.1 kc.2) g

/-- The cell size chosen in `rebuildNeighbourGrid`; src/core/Packing.cpp:862-866. -/
noncomputable def cellSize (P : Packing) : ℝ :=
  let minCellSize := (P.box.volume / P.size) ^ (1 / 3 : ℝ) / 5
  if P.range < minCellSize then minCellSize else P.range

/-- A new grid, or the existing one resized; src/core/Packing.cpp:886-889. -/
noncomputable def gridFor (P : Packing) (cs : ℝ) (total : Nat) : Outcome NG :=
  match P.ng with
  | none => NG.create P.box cs total
  | some g => Prod.fst <$> g.resize P.box cs

/-- `rebuildNeighbourGrid`; src/core/Packing.cpp:858-899 (without time measurement). -/
noncomputable def rebuild (P : Packing) : Outcome Packing :=
  let cs := P.cellSize
  let h := P.box.heights
  if cs * 4 > max h.x (max h.y h.z) then .ok { P with ng := none }
  else if cs * (1 + 1 / 10 ^ 12) > min h.x (min h.y h.z) then .ok { P with ng := none }
  else do
    let total := if P.m = 0 then P.size else P.m * P.size
    let g ← P.gridFor cs total
    let g ← P.addAll g
    return { P with ng := some g }

/-- `if (numInteractionCentres != 0) recalculateAbsoluteInteractionCentres();` -/
noncomputable def refreshCentres (P : Packing) : Outcome Packing := if P.m ≠ 0 then P.recalcAbsAll else .ok P

/-- Interaction centres of all shapes, including the temporary ones; src/core/Packing.cpp:932-945. -/
noncomputable def setupCentres (P : Packing) (I : Interaction) : Outcome Packing :=
  if I.centres.length > 0 then
    recalcAbsAll { P with
      range := I.range
      m := I.centres.length
      centres := P.shapes.flatMap fun s => I.centres.map fun c => s.rot.mulVec c
      absCentres := List.replicate (P.shapes.length * I.centres.length) 0 }
  else .ok { P with range := I.range, m := I.centres.length, centres := [], absCentres := [] }

/-- `if (overlapCounting) numOverlaps = countTotalOverlaps(interaction, false);` src/core/Packing.cpp:948-949,
1051-1052. -/
noncomputable def recount (P : Packing) (I : Interaction) : Outcome Packing :=
  if P.overlapCounting then do
    let n ← P.countTotalOverlaps I false
    return { P with numOverlaps := n }
  else .ok P

/-- `setupForInteraction`; src/core/Packing.cpp:931-950. -/
noncomputable def setupForInteraction (P : Packing) (I : Interaction) : Outcome Packing := do
  let P ← P.setupCentres I
  let P ← P.rebuild
  P.recount I

/-- `areShapesWithinBox`; src/core/Packing.cpp:1067-1073. -/
noncomputable def areShapesWithinBox (shapes : List Shape) (b : Box) : Bool :=
  shapes.all fun s =>
    let r := b.absToRel s.pos
    decide (0 ≤ r.x ∧ r.x < 1 ∧ 0 ≤ r.y ∧ r.y < 1 ∧ 0 ≤ r.z ∧ r.z < 1)

/-- A default-constructed `Shape`; src/core/Shape.h. -/
def defaultShape : Shape := ⟨0, 1⟩

/-- `reset`; src/core/Packing.cpp:67-82. -/
noncomputable def reset (P : Packing) (shapes : List Shape) (b : Box) (I : Interaction) : Outcome Packing := do
  Outcome.require (decide (b.volume ≠ 0)) "Expects(newBox.getVolume() != 0)"
  Outcome.require (decide (I.range > 0)) "Expects(newInteraction.getRangeRadius() > 0)"
  Outcome.require (decide (shapes ≠ [])) "Expects(!newShapes.empty())"
  Outcome.require (areShapesWithinBox shapes b) "Expects(Packing::areShapesWithinBox(newShapes, newBox))"
  let P := { P with
    shapes := shapes ++ List.replicate P.moveThreads defaultShape
    box := b
    range := I.range
    lastAltered := vresize P.lastAltered P.moveThreads 0
    lastDeltas := vresize P.lastDeltas P.moveThreads 0 }
  P.setupForInteraction I

/-- An empty packing: `Packing(bc, moveThreads, scalingThreads)`; src/core/Packing.cpp:57-65. `moveThreads` is the
number after replacing 0 by the number of OpenMP threads. A default `TriclinicBox` is the unit cube
(src/core/TriclinicBox.h:30-35). -/
noncomputable def empty (moveThreads : Nat) : Packing where
  shapes := List.replicate moveThreads defaultShape
  centres := []
  absCentres := []
  box := ⟨1, Mat3.inverse 1⟩
  ng := none
  range := 0
  m := 0
  moveThreads := moveThreads
  hasWall := ⟨false, false, false⟩
  overlapCounting := false
  numOverlaps := 0
  lastAltered := List.replicate moveThreads 0
  lastDeltas := List.replicate moveThreads 0
  lastScalingNumOverlaps := 0
  lastBox := ⟨1, Mat3.inverse 1⟩
  lastShapes := []
  tempNg := none

/-- `Packing(box, shapes, bc, interaction, moveThreads, scalingThreads)`; src/core/Packing.cpp:46-54. -/
noncomputable def create (b : Box) (shapes : List Shape) (I : Interaction) (moveThreads : Nat) : Outcome Packing :=
  ({ empty moveThreads with shapes := [], lastAltered := [], lastDeltas := [] } : Packing).reset shapes b I

/-- `calculateMoveOverlapEnergy`; src/core/Packing.cpp:304-323. -/
noncomputable def moveOverlapEnergy (P : Packing) (I : Interaction) (tid i temp : Nat) :
    Outcome (Packing × EnergyChange) :=
  if I.hasHard then
    if P.overlapCounting then do
      let initial ← P.countParticleOverlaps I i i false
      let final ← P.countParticleOverlaps I i temp false
      let d : Int := (final : Int) - initial
      let ds ← vset P.lastDeltas tid d
      let P := { P with lastDeltas := ds }
      if d < 0 then return (P, .negInf)
      else if d > 0 then return (P, .posInf)
      else return (P, .fin 0)
    else do
      let n ← P.countParticleOverlaps I i temp true
      if n > 0 then return (P, .posInf) else return (P, .fin 0)
  else .ok (P, .fin 0)

/-- The common tail of the three trial moves; src/core/Packing.cpp:103-109, 127-133, 157-163. -/
noncomputable def finishTry (P : Packing) (I : Interaction) (tid i temp : Nat) : Outcome (Packing × EnergyChange) := do
  let (P, oe) ← P.moveOverlapEnergy I tid i temp
  match oe with
  | .fin _ => do
    let e0 ← P.particleEnergy I i i
    let e1 ← P.particleEnergy I i temp
    return (P, .fin (e1 - e0))
  | e => return (P, e)

/-- Copying the shape to the temporary slot of the thread; src/core/Packing.cpp:90-92, 116-118, 142-144. -/
def startTry (P : Packing) (tid i : Nat) : Outcome (Packing × Shape) := do
  let la ← vset P.lastAltered tid i
  let s ← vget P.shapes i
  let shapes ← vset P.shapes (P.size + tid) s
  return ({ P with lastAltered := la, shapes := shapes }, s)

/-- `prepareTempInteractionCentres`; src/core/Packing.cpp:351-356. -/
def prepareTempCentres (P : Packing) (tid i : Nat) : Outcome Packing := do
  let c ← storeLoop ((P.size + tid) * P.m) P.m (fun l k => vget l (i * P.m + k)) P.centres
  return { P with centres := c }

/-- `rotateTempInteractionCentres`; src/core/Packing.cpp:358-362. -/
noncomputable def rotateTempCentres (P : Packing) (tid : Nat) (R : Mat3) : Outcome Packing := do
  let o := (P.size + tid) * P.m
  let c ← storeLoop o P.m (fun l k => do let v ← vget l (o + k); return R.mulVec v) P.centres
  return { P with centres := c }

/-- `Shape::translate`; src/core/Shape.cpp:9-12. -/
noncomputable def _root_.Rampack.Shape.translate (s : Shape) (b : Box) (v : Vec3 ℝ) : Shape :=
  { s with pos := wrap b (s.pos + v) }

/-- `Shape::rotate`; src/core/Shape.cpp:14-16. -/
noncomputable def _root_.Rampack.Shape.rotate (s : Shape) (R : Mat3) : Shape := { s with rot := R * s.rot }

/-- Writing the shape of the temporary slot of a thread, e.g. src/core/Packing.cpp:93. -/
def setTemp (P : Packing) (tid : Nat) (t : Shape) : Outcome Packing := do
  let shapes ← vset P.shapes (P.size + tid) t
  return { P with shapes := shapes }

/-- Interaction centres of a translated molecule; src/core/Packing.cpp:98-101. -/
noncomputable def translatedCentres (P : Packing) (tid i : Nat) : Outcome Packing :=
  if P.m ≠ 0 then do
    let P ← P.prepareTempCentres tid i
    P.recalcAbs (P.size + tid)
  else .ok P

/-- Interaction centres of a rotated molecule; src/core/Packing.cpp:121-125, 151-155. -/
noncomputable def rotatedCentres (P : Packing) (tid i : Nat) (R : Mat3) : Outcome Packing :=
  if P.m ≠ 0 then do
    let P ← P.prepareTempCentres tid i
    let P ← P.rotateTempCentres tid R
    P.recalcAbs (P.size + tid)
  else .ok P

/-- `boundaries.has_value() && !boundaries->isInside(pos)`; src/core/Packing.cpp:95, 147. -/
def outOfDomain (domain : Option (Vec3 ℝ → Bool)) (p : Vec3 ℝ) : Bool :=
  match domain with
  | some d => !d p
  | none => false

/-- `tryTranslation`; src/core/Packing.cpp:84-110. `domain` is `ActiveDomain::isInside`, if a domain is given. -/
noncomputable def tryTranslation (P : Packing) (I : Interaction) (tid i : Nat) (v : Vec3 ℝ)
    (domain : Option (Vec3 ℝ → Bool)) : Outcome (Packing × EnergyChange) := do
  Outcome.require (i < P.size) "Expects(particleIdx < this->size())"
  Outcome.require (decide (I.range ≤ P.range)) "Expects(interaction.getRangeRadius() <= this->interactionRange)"
  let (P, s) ← P.startTry tid i
  let P ← P.setTemp tid (s.translate P.box v)
  if outOfDomain domain (s.translate P.box v).pos then return (P, .posInf)
  else do
    let P ← P.translatedCentres tid i
    P.finishTry I tid i (P.size + tid)

/-- `tryRotation`; src/core/Packing.cpp:112-134. -/
noncomputable def tryRotation (P : Packing) (I : Interaction) (tid i : Nat) (R : Mat3) :
    Outcome (Packing × EnergyChange) := do
  Outcome.require (i < P.size) "Expects(particleIdx < this->size())"
  Outcome.require (decide (I.range ≤ P.range)) "Expects(interaction.getRangeRadius() <= this->interactionRange)"
  let (P, s) ← P.startTry tid i
  let P ← P.setTemp tid (s.rotate R)
  let P ← P.rotatedCentres tid i R
  P.finishTry I tid i (P.size + tid)

/-- `tryMove`; src/core/Packing.cpp:136-164. -/
noncomputable def tryMove (P : Packing) (I : Interaction) (tid i : Nat) (v : Vec3 ℝ) (R : Mat3)
    (domain : Option (Vec3 ℝ → Bool)) : Outcome (Packing × EnergyChange) := do
  Outcome.require (i < P.size) "Expects(particleIdx < this->size())"
  Outcome.require (decide (I.range ≤ P.range)) "Expects(interaction.getRangeRadius() <= this->interactionRange)"
  let (P, s) ← P.startTry tid i
  let P ← P.setTemp tid (s.translate P.box v)
  if outOfDomain domain (s.translate P.box v).pos then return (P, .posInf)
  else do
    let P ← P.setTemp tid ((s.translate P.box v).rotate R)
    let P ← P.rotatedCentres tid i R
    P.finishTry I tid i (P.size + tid)

/-- Removing a particle from the grid; src/core/Packing.cpp:236-241, 332-337. -/
noncomputable def gridRemove (P : Packing) (i : Nat) : Outcome Packing :=
  match P.ng with
  | none => .ok P
  | some g => do
    let g ← (P.points i).foldlM (fun (g : NG) k => do
      let p ← P.position k
      g.remove k p) g
    return { P with ng := some g }

/-- Adding a particle to the grid; src/core/Packing.cpp:247-252, 325-330. -/
noncomputable def gridAdd (P : Packing) (i : Nat) : Outcome Packing :=
  match P.ng with
  | none => .ok P
  | some g => do
    let g ← (P.points i).foldlM (fun (g : NG) k => do
      let p ← P.position k
      g.add k p) g
    return { P with ng := some g }

/-- `acceptTempInteractionCentres`; src/core/Packing.cpp:339-349. -/
def acceptTempCentres (P : Packing) (tid i : Nat) : Outcome Packing := do
  let fromO := (P.size + tid) * P.m
  let c ← storeLoop (i * P.m) P.m (fun l k => vget l (fromO + k)) P.centres
  let a ← storeLoop (i * P.m) P.m (fun l k => vget l (fromO + k)) P.absCentres
  return { P with centres := c, absCentres := a }

/-- `if (overlapCounting) numOverlaps += lastMoveOverlapDeltas[OMP_THREAD_ID]`; src/core/Packing.cpp:254-257. -/
def addDelta (P : Packing) (tid : Nat) : Outcome Packing :=
  if P.overlapCounting then do
    let d ← vget P.lastDeltas tid
    return { P with numOverlaps := P.numOverlaps + d }
  else .ok P

/-- Writing a shape. -/
def setShape (P : Packing) (i : Nat) (t : Shape) : Outcome Packing := do
  let shapes ← vset P.shapes i t
  return { P with shapes := shapes }

/-- `if (numInteractionCentres != 0) acceptTempInteractionCentres();` -/
def acceptCentres (P : Packing) (tid i : Nat) : Outcome Packing :=
  if P.m ≠ 0 then P.acceptTempCentres tid i else .ok P

/-- `acceptTranslation`; src/core/Packing.cpp:234-258. -/
noncomputable def acceptTranslation (P : Packing) (tid : Nat) : Outcome Packing := do
  let i ← vget P.lastAltered tid
  let P ← P.gridRemove i
  let t ← vget P.shapes (P.size + tid)
  let s ← vget P.shapes i
  let P ← P.setShape i { s with pos := t.pos }
  let P ← P.acceptCentres tid i
  let P ← P.gridAdd i
  P.addDelta tid

/-- `if (numInteractionCentres != 0) removeInteractionCentresFromNeighbourGrid(...)`; src/core/Packing.cpp:264-266. -/
noncomputable def gridRemoveCentres (P : Packing) (i : Nat) : Outcome Packing :=
  if P.m ≠ 0 then P.gridRemove i else .ok P

/-- `if (numInteractionCentres != 0) { acceptTempInteractionCentres(); addInteractionCentresToNeighbourGrid(...); }`;
src/core/Packing.cpp:268-272. -/
noncomputable def gridAcceptCentres (P : Packing) (tid i : Nat) : Outcome Packing :=
  if P.m ≠ 0 then do
    let P ← P.acceptTempCentres tid i
    P.gridAdd i
  else .ok P

/-- `acceptRotation`; src/core/Packing.cpp:260-277. Without interaction centres the grid is not touched. -/
noncomputable def acceptRotation (P : Packing) (tid : Nat) : Outcome Packing := do
  let i ← vget P.lastAltered tid
  let P ← P.gridRemoveCentres i
  let t ← vget P.shapes (P.size + tid)
  let s ← vget P.shapes i
  let P ← P.setShape i { s with rot := t.rot }
  let P ← P.gridAcceptCentres tid i
  P.addDelta tid

/-- `acceptMove`; src/core/Packing.cpp:279-302. -/
noncomputable def acceptMove (P : Packing) (tid : Nat) : Outcome Packing := do
  let i ← vget P.lastAltered tid
  let P ← P.gridRemove i
  let t ← vget P.shapes (P.size + tid)
  let P ← P.setShape i t
  let P ← P.acceptCentres tid i
  let P ← P.gridAdd i
  P.addDelta tid

/-- `isBoxUpscaled`; src/core/Packing.cpp:1155-1176: the test of one side. -/
noncomputable def sideUpscaled (old new : Vec3 ℝ) : Bool :=
  let eps : ℝ := 100 / 2 ^ 52
  let d := old.dot new
  !(decide (|d * d / old.norm2 / new.norm2 - 1| > eps)) && !(decide (d * d / old.norm2 / old.norm2 < 1 + eps))

/-- `isBoxUpscaled`; src/core/Packing.cpp:1155-1176. -/
noncomputable def isBoxUpscaled (old new : Box) : Bool :=
  sideUpscaled old.sides.x new.sides.x && sideUpscaled old.sides.y new.sides.y && sideUpscaled old.sides.z new.sides.z

/-- The new position of a shape in `tryScaling`; src/core/Packing.cpp:183-184. -/
noncomputable def _root_.Rampack.Shape.rescale (old new : Box) (s : Shape) : Shape :=
  { s with pos := new.relToAbs (old.absToRel s.pos) }

/-- The state part of `tryScaling(newBox, interaction)` before the energy is compared; src/core/Packing.cpp:174-186. -/
noncomputable def scaleState (P : Packing) (b : Box) : Outcome Packing := do
  let P' := { P with
    lastBox := P.box
    lastShapes := P.shapes
    lastScalingNumOverlaps := P.numOverlaps
    box := b
    shapes := (P.shapes.take P.size).map (Shape.rescale P.box b) ++ P.shapes.drop P.size
    ng := P.tempNg
    tempNg := P.ng }
  let P' ← P'.refreshCentres
  P'.rebuild

/-- The overlap part of the energy change; src/core/Packing.cpp:188-203. -/
noncomputable def scalingOverlapEnergy (P : Packing) (I : Interaction) : Outcome (Packing × EnergyChange) :=
  if I.hasHard then
    if P.overlapCounting then do
      let n ← P.countTotalOverlaps I false
      let P := { P with numOverlaps := (n : Int) }
      let d := P.numOverlaps - P.lastScalingNumOverlaps
      if d < 0 then return (P, .negInf)
      else if d > 0 then return (P, .posInf)
      else return (P, .fin 0)
    else if I.isConvex && isBoxUpscaled P.lastBox P.box then .ok (P, .fin 0)
    else do
      let n ← P.countTotalOverlaps I true
      if n > 0 then return (P, .posInf) else return (P, .fin 0)
  else .ok (P, .fin 0)

/-- `tryScaling(newBox, interaction)`; src/core/Packing.cpp:172-208. -/
noncomputable def tryScaling (P : Packing) (I : Interaction) (b : Box) : Outcome (Packing × EnergyChange) := do
  Outcome.require (decide (b.volume ≠ 0)) "Expects(newBox.getVolume() != 0)"
  Outcome.require (decide (I.range ≤ P.range)) "Expects(interaction.getRangeRadius() <= this->interactionRange)"
  let initialEnergy ← P.totalEnergy I
  let P ← P.scaleState b
  let (P, oe) ← P.scalingOverlapEnergy I
  match oe with
  | .fin _ => do
    let finalEnergy ← P.totalEnergy I
    return (P, .fin (finalEnergy - initialEnergy))
  | e => return (P, e)

/-- `revertScaling`; src/core/Packing.cpp:363-371. -/
noncomputable def revertScaling (P : Packing) : Outcome Packing := do
  let P := { P with shapes := P.lastShapes, box := P.lastBox, ng := P.tempNg, tempNg := P.ng }
  let P ← P.refreshCentres
  return { P with numOverlaps := P.lastScalingNumOverlaps }

/-- `toggleOverlapCounting`; src/core/Packing.cpp:1049-1053. -/
noncomputable def toggleOverlapCounting (P : Packing) (on : Bool) (I : Interaction) : Outcome Packing :=
  recount { P with overlapCounting := on } I

/-- `getCachedNumberOfOverlaps`; src/core/Packing.cpp:1055-1060. -/
def getCachedNumberOfOverlaps (P : Packing) : Outcome Int :=
  if P.overlapCounting then .ok P.numOverlaps
  else .throw "Packing: overlap counting is toggled false; number of overlaps is not cached"

/-- `fixRotationMatrix`; src/core/Packing.cpp:1214-1219: one iteration. -/
noncomputable def fixRotationStep (R : Mat3) : Mat3 := (3 / 2 : ℝ) • R - ((1 / 2 : ℝ) • R) * R.transpose * R

/-- `fixRotationMatrix`; src/core/Packing.cpp:1214-1219. -/
noncomputable def fixRotationMatrix (R : Mat3) : Mat3 := fixRotationStep (fixRotationStep (fixRotationStep R))

/-- A shape with the orientation fixed. -/
noncomputable def _root_.Rampack.Shape.fixed (s : Shape) : Shape := { s with rot := fixRotationMatrix s.rot }

/-- The interaction centres in `tryOrientationFix`; src/core/Packing.cpp:1234-1239. -/
noncomputable def fixedCentres (P : Packing) (I : Interaction) (tid : Nat) (R : Mat3) : Outcome Packing :=
  if P.m > 0 then do
    let c ← storeLoop ((P.size + tid) * P.m) I.centres.length (fun _ k => do
      let v ← vget I.centres k
      return R.mulVec v) P.centres
    recalcAbs { P with centres := c } (P.size + tid)
  else .ok P

/-- `tryOrientationFix`; src/core/Packing.cpp:1221-1240. -/
noncomputable def tryOrientationFix (P : Packing) (I : Interaction) (tid i : Nat) : Outcome Packing := do
  let (P, s) ← P.startTry tid i
  let P ← P.setTemp tid s.fixed
  P.fixedCentres I tid s.fixed.rot

/-- `> 0` for energy changes. -/
noncomputable def _root_.Rampack.EnergyChange.positive : EnergyChange → Bool
  | .negInf => false
  | .fin e => decide (e > 0)
  | .posInf => true

/-- `if (calculateMoveOverlapEnergy(...) > 0) rejectionCounter++; else acceptRotation();`
src/core/Packing.cpp:1205-1208. -/
noncomputable def decideFix (P : Packing) (tid rejected : Nat) (e : EnergyChange) : Outcome (Packing × Nat) :=
  if e.positive then .ok (P, rejected + 1)
  else do
    let P ← P.acceptRotation tid
    return (P, rejected)

/-- One iteration of the loop of `renormalizeOrientations`; src/core/Packing.cpp:1198-1209. -/
noncomputable def renormalizeOne (I : Interaction) (tid : Nat) (st : Packing × Nat) (i : Nat) : Outcome (Packing × Nat) := do
  let P ← st.1.tryOrientationFix I tid i
  let (P, e) ← P.moveOverlapEnergy I tid i (P.size + tid)
  P.decideFix tid st.2 e

/-- `renormalizeOrientations`; src/core/Packing.cpp:1178-1212. When overlaps are allowed, the copy `newShapes` of the
shapes is made before they are fixed, and it is the copy which is passed to `reset` (lines 1180-1188). -/
noncomputable def renormalizeOrientations (P : Packing) (I : Interaction) (tid : Nat) (allowOverlaps : Bool) :
    Outcome (Packing × Nat) :=
  if allowOverlaps then do
    let newShapes := P.shapes.take P.size
    let P := { P with shapes := (P.shapes.take P.size).map Shape.fixed ++ P.shapes.drop P.size }
    let P ← P.reset newShapes P.box I
    return (P, 0)
  else (List.range P.size).foldlM (renormalizeOne I tid) (P, 0)

/-- `toggleWalls`; src/core/Packing.cpp:1081-1084. -/
def toggleWalls (P : Packing) (walls : Vec3 Bool) : Packing := { P with hasWall := walls }

end Packing

end Rampack
