import Verif.Lattice.Distance
import Verif.Lattice.Transform
/-
Model of the layer-wise optimisation of cells: /repo/src/core/lattice/LayerWiseCellOptimizationTransformer.cpp (abbreviated
LWCOT.cpp below).

Simplifications: exact reals. The constants 1e-12 are 1/10^12. Lists of molecules of the cell and the cell box are passed
and returned instead of being changed in the lattice.
-/
namespace Rampack

noncomputable section

namespace LayerOpt

/-- `EPSILON`; LWCOT.cpp:70, 145. -/
def epsilon : ℝ := 1 / 10 ^ 12

/-- `FACTOR_EPSILON`; LWCOT.cpp:125. -/
def factorEpsilon : ℝ := 1 + 1 / 10 ^ 12

/-- One coordinate of a molecule changed; LWCOT.cpp:75-78, 93-96, 108-112, 180-184, 191-195. -/
def withCoord (axis : Fin 3) (f : ℝ → ℝ) (s : Shape) : Shape := ⟨s.pos.put axis (f (s.pos.get axis)), s.rot⟩

/-- The coordinate of the molecules `ks` changed; LWCOT.cpp:74-79, 92-97, 180-185. Indices are those of the cell, so nothing is
out of range. -/
def changeAt (axis : Fin 3) (f : ℝ → ℝ) (ks : List Nat) (cell : List Shape) : List Shape :=
  ks.foldl (fun c k => c.modify k (withCoord axis f)) cell

/-- `areShapesOverlapping`; LWCOT.cpp:44-54. -/
def areShapesOverlapping (I : Interaction) (d : Vec3 Nat) (b : Box) (cell : List Shape) (P : Packing) :
    Outcome (Packing × Bool) := do
  let L ← Lattice.create ⟨b, cell⟩ d
  let L ← L.normalize
  let g ← L.generate
  let B ← L.latticeBox
  let P ← P.reset g B I
  let n ← P.countTotalOverlaps I true
  return (P, decide (n ≠ 0))

theorem halves {w w' : ℝ} (h : w' = w / 2) (hw : w' > epsilon) : ⌊w' / epsilon⌋.toNat < ⌊w / epsilon⌋.toNat :=
  DistanceOptimizer.halves h hw

/-- The bisection for one layer; LWCOT.cpp:71-87. Returns the packing and molecules of the cell. -/
def layerLoop (I : Interaction) (d : Vec3 Nat) (b : Box) (axis : Fin 3) (ks : List Nat) (P : Packing) (beg fin : ℝ)
    (cell : List Shape) : Outcome (Packing × List Shape) :=
  match areShapesOverlapping I d b (changeAt axis (fun _ => (beg + fin) / 2) ks cell) P with
  | .ok (P, true) =>
    if h : |fin - (beg + fin) / 2| > epsilon then layerLoop I d b axis ks P ((beg + fin) / 2) fin cell
    else .ok (P, cell)
  | .ok (P, false) =>
    if h : |(beg + fin) / 2 - beg| > epsilon then
      layerLoop I d b axis ks P beg ((beg + fin) / 2) (changeAt axis (fun _ => (beg + fin) / 2) ks cell)
    else .ok (P, changeAt axis (fun _ => (beg + fin) / 2) ks cell)
  | .throw m => .throw m
  | .ub => .ub
  | .diverge => .diverge
termination_by ⌊|fin - beg| / epsilon⌋.toNat
decreasing_by
  · exact halves (by rw [show fin - (beg + fin) / 2 = (fin - beg) / 2 by ring, abs_div, abs_two]) h
  · exact halves (by rw [show (beg + fin) / 2 - beg = (fin - beg) / 2 by ring, abs_div, abs_two]) h

/-- One layer, with the coordinate of the previous one: the bisection and the final shift; LWCOT.cpp:66-97. -/
def optimizeLayer (I : Interaction) (d : Vec3 Nat) (b : Box) (axis : Fin 3) (prev : ℝ) (layer : ℝ × List Nat) (P : Packing)
    (cell : List Shape) : Outcome (Packing × List Shape) := do
  let r ← layerLoop I d b axis layer.2 P prev layer.1 cell
  return (r.1, changeAt axis (fun x => x + epsilon) layer.2 r.2)

/-- The layers which follow the one of the coordinate `prev`. The coordinates are those from before the optimisation, also for
`prev`; LWCOT.cpp:64-98. -/
def optimizeFrom (I : Interaction) (d : Vec3 Nat) (b : Box) (axis : Fin 3) :
    ℝ → List (ℝ × List Nat) → Packing → List Shape → Outcome (Packing × List Shape)
  | _, [], P, cell => .ok (P, cell)
  | prev, layer :: layers, P, cell => do
    let r ← optimizeLayer I d b axis prev layer P cell
    optimizeFrom I d b axis layer.1 layers r.1 r.2

/-- `optimizeLayers`; LWCOT.cpp:56-99. `std::next(begin())` of an empty sequence is undefined. -/
def optimizeLayers (I : Interaction) (d : Vec3 Nat) (b : Box) (axis : Fin 3) (layers : List (ℝ × List Nat)) (P : Packing)
    (cell : List Shape) : Outcome (Packing × List Shape) :=
  match layers with
  | [] => .ub
  | first :: rest => optimizeFrom I d b axis first.1 rest P cell

/-- A side of a box multiplied; LWCOT.cpp:105, 107, 113, 174-176. -/
def scaleSide (b : Box) (axis : Fin 3) (factor : ℝ) : Outcome Box :=
  let s := b.sides.put axis (factor • b.sides.get axis)
  Box.ofSides s.x s.y s.z

/-- The molecules of `rescaleCell`; LWCOT.cpp:106, 108-113. The box is made by `scaleSide`. -/
def rescaleShapes (axis : Fin 3) (factor : ℝ) (cell : List Shape) : List Shape :=
  cell.map (withCoord axis fun x => x / factor)

/-- `areShapesOverlapping` for a rescaled cell; LWCOT.cpp:101-114, 139-140, 148-150. The box is returned, too. -/
def checkRescaled (I : Interaction) (d : Vec3 Nat) (axis : Fin 3) (b : Box) (cell : List Shape) (factor : ℝ) (P : Packing) :
    Outcome (Box × Packing × Bool) := do
  let b ← scaleSide b axis factor
  let r ← areShapesOverlapping I d b (rescaleShapes axis factor cell) P
  return (b, r)

/-- The bisection of the cell; LWCOT.cpp:146-157. `b0` and `cell0` are the initial ones, `b` and `cell` the current ones. -/
def cellLoop (I : Interaction) (d : Vec3 Nat) (axis : Fin 3) (b0 : Box) (cell0 : List Shape) (P : Packing) (beg fin : ℝ)
    (b : Box) (cell : List Shape) : Outcome (Box × List Shape) :=
  match checkRescaled I d axis b0 cell0 ((beg + fin) / 2) P with
  | .ok (_, P, true) =>
    if h : |fin - (beg + fin) / 2| > epsilon then cellLoop I d axis b0 cell0 P ((beg + fin) / 2) fin b cell
    else .ok (b, cell)
  | .ok (mid, P, false) =>
    if h : |(beg + fin) / 2 - beg| > epsilon then
      cellLoop I d axis b0 cell0 P beg ((beg + fin) / 2) mid (rescaleShapes axis ((beg + fin) / 2) cell0)
    else .ok (mid, rescaleShapes axis ((beg + fin) / 2) cell0)
  | .throw m => .throw m
  | .ub => .ub
  | .diverge => .diverge
termination_by ⌊|fin - beg| / epsilon⌋.toNat
decreasing_by
  · exact halves (by rw [show fin - (beg + fin) / 2 = (fin - beg) / 2 by ring, abs_div, abs_two]) h
  · exact halves (by rw [show (beg + fin) / 2 - beg = (fin - beg) / 2 by ring, abs_div, abs_two]) h

/-- `optimizeCell`; LWCOT.cpp:116-158. `B` is the box of the lattice. -/
def optimizeCell (I : Interaction) (d : Vec3 Nat) (axis : Fin 3) (B b : Box) (cell : List Shape) (P : Packing) :
    Outcome (Box × List Shape) := do
  Outcome.require (decide (∀ a, B.heights.get a > factorEpsilon * I.totalRange)) "Layerwise optimization: too large"
  let begF := I.totalRange * factorEpsilon / B.heights.get axis
  let r ← checkRescaled I d axis b cell begF P
  Outcome.require r.2.2 "Layerwise optimization: maximally shrunk cell is not overlapping"
  cellLoop I d axis b cell r.2.1 begF 1 b cell

/-- `cellFactor`; LWCOT.cpp:168-169. -/
def cellFactor (spacing height : ℝ) (numLayers : Nat) : ℝ := (height + (numLayers : ℝ) * spacing) / height

/-- Molecules of the layers with their numbers; LWCOT.cpp:178-185. -/
def spaceLayers (axis : Fin 3) (spacing height factor : ℝ) (layers : List (ℝ × List Nat)) (cell : List Shape) : List Shape :=
  layers.zipIdx.foldl
    (fun c l => changeAt axis (fun x => (x + (l.2 : ℝ) * spacing / height) / factor) l.1.2 c) cell

/-- `introduceSpacing`; LWCOT.cpp:160-186. -/
def introduceSpacing (axis : Fin 3) (spacing : ℝ) (layers : List (ℝ × List Nat)) (b : Box) (cell : List Shape) :
    Outcome (Box × List Shape) := do
  let factor := cellFactor spacing (b.heights.get axis) layers.length
  Outcome.require (decide (factor > 0)) "Layerwise optimization: negative spacing is of too large magnitude"
  let newBox ← scaleSide b axis factor
  return (newBox, spaceLayers axis spacing (b.heights.get axis) factor layers cell)

/-- `centerShapesInCell`; LWCOT.cpp:188-196. -/
def centerShapes (axis : Fin 3) (cell : List Shape) : Outcome (List Shape) := do
  let first ← vget cell 0
  let last ← vget cell (cell.length - 1)
  let x₀ : ℝ := (first.pos.get axis + last.pos.get axis) / 2
  return cell.map (withCoord axis fun x => x + (1 / 2 - x₀))

/-- `transform`; LWCOT.cpp:18-42. -/
def transform (axis : Fin 3) (spacing : ℝ) (I : Interaction) (L : Lattice) : Outcome Lattice := do
  Outcome.require I.hasHard "Interaction must have hard component to perform layerwise optimization"
  Outcome.require L.regular "Lattice must be regular to perform layerwise optimization"
  Outcome.require L.isNormalized "Relative coordinates in unit cell must be in range [0, 1)"
  let cell ← L.getUnit
  Outcome.require (decide (layerAssociation axis cell ≠ [])) "Lattice is empty; cannot perform layerwise optimization"
  let B ← L.latticeBox
  let g ← L.generate
  let P ← Packing.create B g I 1
  let n ← P.countTotalOverlaps I true
  Outcome.require (decide (n = 0)) "Overlaps are present at the beginning of layerwise optimization"
  let r ← optimizeLayers I L.dims L.box axis (layerAssociation axis cell) P cell
  let B ← L.latticeBox
  let q ← optimizeCell I L.dims axis B L.box r.2 r.1
  let s ← introduceSpacing axis spacing (layerAssociation axis cell) q.1 q.2
  let c ← centerShapes axis s.2
  let L' ← (L.setBox s.1).modifyUnit fun _ => c
  L'.normalize

end LayerOpt

end

end Rampack
