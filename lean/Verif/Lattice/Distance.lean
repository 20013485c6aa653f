import Verif.Lattice.Model
import Verif.Shapes.Whole
/-
Model of the optimisation of distances: /repo/src/core/lattice/DistanceOptimizer.cpp.

Simplifications: exact reals. The upper bound `distanceMax` of the first loop is `2^k` (it starts with 1 and is doubled,
which is exact also in floating point). The constants 1e-12 are 1/10^12.
-/
namespace Rampack

open Grid

noncomputable section

/-- `FreeBoundaryConditions`; src/core/FreeBoundaryConditions.h:15-34. -/
def BC.free : BC := ⟨fun _ _ => 0, fun p q => (q - p).norm2⟩

namespace DistanceOptimizer

/-- `DistanceOptimizer::EPSILON`; DistanceOptimizer.h:30. -/
def epsilon : ℝ := 1 / 10 ^ 12

/-- `FACTOR_EPSILON`; DistanceOptimizer.cpp:66. -/
def factorEpsilon : ℝ := 1 + 1 / 10 ^ 12

/-- The loop which doubles the distance until there is no overlap; DistanceOptimizer.cpp:26-32. `overlap d` is the
result of `overlapBetweenShapes` for the distance `d`. -/
def findMax (overlap : ℝ → Bool) (k : Nat) : Outcome ℝ :=
  if overlap (2 ^ k) then
    if h : (2 : ℝ) ^ (k + 1) < 1000 then findMax overlap (k + 1)
    else .throw "Assert(distanceMax < 1000)"
  else .ok (2 ^ k)
termination_by 10 - k
decreasing_by
  by_contra hk
  have : (2 : ℝ) ^ 10 ≤ 2 ^ (k + 1) := pow_le_pow_right₀ (by norm_num) (by omega)
  norm_num at this
  linarith

theorem halves {w w' : ℝ} (h : w' = w / 2) (hw : w' > epsilon) : ⌊w' / epsilon⌋.toNat < ⌊w / epsilon⌋.toNat := by
  have he : 0 < epsilon := by unfold epsilon; positivity
  have h1 : 1 < w' / epsilon := by rwa [lt_div_iff₀ he, one_mul]
  have e : w / epsilon = w' / epsilon + w' / epsilon := by rw [h]; ring
  have h2 : ⌊w' / epsilon⌋ + 1 ≤ ⌊w / epsilon⌋ := by
    rw [Int.le_floor, e]
    push_cast
    have := Int.floor_le (w' / epsilon)
    linarith
  have h3 : 0 ≤ ⌊w' / epsilon⌋ := Int.floor_nonneg.mpr (by linarith)
  omega

/-- The bisection; DistanceOptimizer.cpp:35-43. -/
def bisect (overlap : ℝ → Bool) (distanceMin distanceMax : ℝ) : ℝ :=
  if overlap ((distanceMax + distanceMin) / 2) then
    if h : distanceMax - (distanceMax + distanceMin) / 2 > epsilon then
      bisect overlap ((distanceMax + distanceMin) / 2) distanceMax
    else distanceMax
  else
    if h : (distanceMax + distanceMin) / 2 - distanceMin > epsilon then
      bisect overlap distanceMin ((distanceMax + distanceMin) / 2)
    else (distanceMax + distanceMin) / 2
termination_by ⌊(distanceMax - distanceMin) / epsilon⌋.toNat
decreasing_by
  · exact halves (by ring) h
  · exact halves (by ring) h

/-- `minimizeForDirection`; DistanceOptimizer.cpp:13-47. -/
def minimizeForDirection (s1 s2 : Shape) (direction : Vec3 ℝ) (I : Interaction) : Outcome ℝ := do
  Outcome.require (decide (direction.norm2 > epsilon)) "Expects(direction.norm2() > EPSILON)"
  Outcome.require I.hasHard "Expects(interaction.hasHardPart())"
  let overlap := fun d : ℝ =>
    I.overlapBetweenShapes ⟨0, s1.rot⟩ ⟨d • Packing.normalized direction, s2.rot⟩ BC.free
  Outcome.require (I.overlapBetweenShapes ⟨0, s1.rot⟩ ⟨0, s2.rot⟩ BC.free) "Assert(overlapBetweenShapes)"
  let distanceMax ← findMax overlap 0
  return bisect overlap 0 distanceMax

/-- `minimizeForAxes`; DistanceOptimizer.cpp:49-56. -/
def minimizeForAxes (s1 s2 : Shape) (I : Interaction) : Outcome (Vec3 ℝ) := do
  let x ← minimizeForDirection s1 s2 ⟨1, 0, 0⟩ I
  let y ← minimizeForDirection s1 s2 ⟨0, 1, 0⟩ I
  let z ← minimizeForDirection s1 s2 ⟨0, 0, 1⟩ I
  return ⟨x, y, z⟩

/-- `generateAbsoluteShapes`; DistanceOptimizer.cpp:128-135. -/
def generateAbsoluteShapes (relShapes : List Shape) (m : Mat3) : List Shape :=
  relShapes.map fun s => ⟨m.mulVec s.pos, s.rot⟩

/-- `for (i < 3) box(i, axisNum) *= factor`; DistanceOptimizer.cpp:90-91, 120-121. -/
def scaleColumn (m : Mat3) (axis : Fin 3) (factor : ℝ) : Mat3 :=
  ⟨m.r0.put axis (m.r0.get axis * factor), m.r1.put axis (m.r1.get axis * factor),
    m.r2.put axis (m.r2.get axis * factor)⟩

/-- `(begBox + endBox) / 2.`; DistanceOptimizer.cpp:103. -/
def midBox (b e : Mat3) : Mat3 := (1 / 2 : ℝ) • (b + e)

/-- `packing.reset(shapes, TriclinicBox(boxMatrix), interaction)` and then `packing.countTotalOverlaps(interaction)`, as
a condition; DistanceOptimizer.cpp:95-97, 105-106, 124-125. -/
def resetAndCheck (P : Packing) (I : Interaction) (shapes : List Shape) (m : Mat3) : Outcome (Packing × Bool) := do
  let b ← Box.make m
  let P ← P.reset shapes b I
  let n ← P.countTotalOverlaps I true
  return (P, decide (n ≠ 0))

/-- The bisection for one axis; DistanceOptimizer.cpp:101-114. Returns the packing, `endShapes` and `endBox`. -/
def shrinkLoop (I : Interaction) (rel : List Shape) (P : Packing) (begF endF : ℝ) (begBox endBox : Mat3)
    (endShapes : List Shape) : Outcome (Packing × List Shape × Mat3) :=
  match resetAndCheck P I (generateAbsoluteShapes rel (midBox begBox endBox)) (midBox begBox endBox) with
  | .ok (P, true) =>
    if h : |endF - (begF + endF) / 2| > epsilon then
      shrinkLoop I rel P ((begF + endF) / 2) endF (midBox begBox endBox) endBox endShapes
    else .ok (P, endShapes, endBox)
  | .ok (P, false) =>
    if h : |(begF + endF) / 2 - begF| > epsilon then
      shrinkLoop I rel P begF ((begF + endF) / 2) begBox (midBox begBox endBox)
        (generateAbsoluteShapes rel (midBox begBox endBox))
    else .ok (P, generateAbsoluteShapes rel (midBox begBox endBox), midBox begBox endBox)
  | .throw m => .throw m
  | .ub => .ub
  | .diverge => .diverge
termination_by ⌊|endF - begF| / epsilon⌋.toNat
decreasing_by
  · exact halves (by rw [show endF - (begF + endF) / 2 = (endF - begF) / 2 by ring, abs_div, abs_two]) h
  · exact halves (by rw [show (begF + endF) / 2 - begF = (endF - begF) / 2 by ring, abs_div, abs_two]) h

/-- Optimisation of one axis; DistanceOptimizer.cpp:84-126. -/
def shrinkAxis (I : Interaction) (rel : List Shape) (heights : Vec3 ℝ) (P : Packing) (axis : Fin 3) :
    Outcome Packing := do
  let begF := I.totalRange * factorEpsilon / heights.get axis
  let endBox := P.box.dims
  let begBox := scaleColumn P.box.dims axis begF
  let r ← resetAndCheck P I (generateAbsoluteShapes rel begBox) begBox
  Outcome.require r.2 "Maximally shrunk packing is not overlapping - cell number is too small"
  let q ← shrinkLoop I rel r.1 begF 1 begBox endBox (generateAbsoluteShapes rel endBox)
  let f ← resetAndCheck q.1 I q.2.1 (scaleColumn q.2.2 axis factorEpsilon)
  Outcome.require (!f.2) "Assert(!packing.countTotalOverlaps(interaction))"
  return f.1

/-- `shrinkPacking`; DistanceOptimizer.cpp:58-126. -/
def shrinkPacking (P : Packing) (I : Interaction) (axisOrder : List Char) : Outcome Packing := do
  Outcome.require I.hasHard "Interaction must have a hard component to perform distance optimization"
  Outcome.require (decide (∀ a, P.box.heights.get a > factorEpsilon * I.totalRange))
    "Initial dimensions are not large enough to perform distance optimization"
  let n ← P.countTotalOverlaps I true
  Outcome.require (decide (n = 0)) "Overlaps are present at the start of distance optimization"
  let rel := (P.shapes.take P.size).map fun s => (⟨P.box.absToRel s.pos, s.rot⟩ : Shape)
  let order ← parseAxisOrder axisOrder
  let P1 ← shrinkAxis I rel P.box.heights P order.x
  let P2 ← shrinkAxis I rel P.box.heights P1 order.y
  shrinkAxis I rel P.box.heights P2 order.z

end DistanceOptimizer

end

end Rampack
