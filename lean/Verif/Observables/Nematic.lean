import Verif.Observables.View
import Mathlib.Analysis.SpecialFunctions.Trigonometric.Inverse
/-
Model of the nematic order parameter and of the drift of rotation matrices: /repo/src/core/observables/NematicOrder.{h,cpp}, RotationMatrixDrift.{h,cpp}.

Numbers are exact reals. A division by zero in the code, which gives NaN's, is described at definitions.
-/
namespace Rampack

noncomputable section

namespace NematicOrder

/-- `axis[i] * axis[j]`, as a matrix; NematicOrder.cpp:15-17. -/
def outer (a : Vec3 ℝ) : Mat3 := ⟨⟨a.x * a.x, a.x * a.y, a.x * a.z⟩, ⟨a.y * a.x, a.y * a.y, a.y * a.z⟩, ⟨a.z * a.x, a.z * a.y, a.z * a.z⟩⟩

/-- The matrix of zeros; NematicOrder.cpp:12. -/
def zero : Mat3 := ⟨0, 0, 0⟩

/-- The loop over particles; NematicOrder.cpp:13-18. -/
def accumulate (axes : List (Vec3 ℝ)) : Mat3 := axes.foldl (fun Q a => Q + outer a) zero

/-- `QTensor` for at least one particle; NematicOrder.cpp:12-21. -/
def qTensor (axes : List (Vec3 ℝ)) : Mat3 := (1 / 2 : ℝ) • ((3 : ℝ) • ((1 / axes.length : ℝ) • accumulate axes) - 1)

/-- `b`; NematicOrder.cpp:40. -/
def coefB (A : Mat3) : ℝ := A.r0.x + A.r1.y + A.r2.z

/-- `c`; NematicOrder.cpp:41. -/
def coefC (A : Mat3) : ℝ :=
  A.r0.x * A.r1.y + A.r0.x * A.r2.z + A.r1.y * A.r2.z - A.r0.y * A.r0.y - A.r0.z * A.r0.z - A.r1.z * A.r1.z

/-- `d`; NematicOrder.cpp:42. -/
def coefD (A : Mat3) : ℝ :=
  A.r0.x * A.r1.z * A.r1.z + A.r1.y * A.r0.z * A.r0.z + A.r2.z * A.r0.y * A.r0.y - A.r0.x * A.r1.y * A.r2.z - 2 * A.r0.y * A.r0.z * A.r1.z

/-- `p`; NematicOrder.cpp:44. -/
def coefP (A : Mat3) : ℝ := coefB A * coefB A - 3 * coefC A

/-- `ratio` before it is clamped; NematicOrder.cpp:46-48. -/
def ratio (A : Mat3) : ℝ :=
  (2 * coefB A * coefB A * coefB A - 9 * coefB A * coefC A - 27 * coefD A) / 2 / (Real.sqrt (coefP A) * Real.sqrt (coefP A) * Real.sqrt (coefP A))

/-- `ratio` after it is clamped; NematicOrder.cpp:50-53. -/
def clamped (r : ℝ) : Outcome ℝ :=
  if 1 < |r| then do
    Outcome.require (decide (|r| ≤ 1 + 1 / 10 ^ 15)) "Assert(std::abs(ratio) <= 1 + 1e-15)"
    return if r < 0 then -1 else 1
  else .ok r

/-- The three values which are returned; NematicOrder.cpp:57-59. -/
def roots (b p Delta : ℝ) : List ℝ :=
  [1 / 3 * (b + 2 * Real.sqrt p * Real.cos (Delta / 3)), 1 / 3 * (b + 2 * Real.sqrt p * Real.cos ((Delta + 2 * Real.pi) / 3)),
    1 / 3 * (b + 2 * Real.sqrt p * Real.cos ((Delta - 2 * Real.pi) / 3))]

/-- `calculateEigenvalues`; NematicOrder.cpp:30-60. -/
def calculateEigenvalues (A : Mat3) : Outcome (List ℝ) := do
  Outcome.require (decide (coefP A > 0)) "Assert(p > 0)"
  let r ← clamped (ratio A)
  return roots (coefB A) (coefP A) (Real.arccos r)

/-- `std::max_element` comparing magnitudes: the first of elements with the largest one; NematicOrder.cpp:25-27. -/
def largest : List ℝ → Outcome ℝ
  | [] => .ub
  | x :: l => .ok (l.foldl (fun m y => if |m| < |y| then y else m) x)

/-- `calculate` for given axes: `P2` and `QTensor`; NematicOrder.cpp:12-27. Without particles the tensor consists of NaN's (0/0) and `p > 0` does not hold for a NaN. -/
def ofAxes (axes : List (Vec3 ℝ)) : Outcome (ℝ × Mat3) :=
  if axes = [] then .throw "Assert(p > 0)"
  else do
    let l ← calculateEigenvalues (qTensor axes)
    let P2 ← largest l
    return (P2, qTensor axes)

/-- `calculate`; NematicOrder.cpp:9-28. -/
def calculate (V : View) (G : Geometry) : Outcome (ℝ × Mat3) := do
  let axes ← V.shapes.mapM G.getPrimaryAxis
  ofAxes axes

/-- `getIntervalValues`; NematicOrder.cpp:69-76. -/
def intervalValues (dumpQTensor : Bool) (r : ℝ × Mat3) : List ℝ :=
  if dumpQTensor then [r.1, r.2.r0.x, r.2.r0.y, r.2.r0.z, r.2.r1.y, r.2.r1.z, r.2.r2.z] else [r.1]

/-- `getIntervalHeader`; NematicOrder.cpp:62-67. -/
def intervalHeader (dumpQTensor : Bool) : List String :=
  if dumpQTensor then ["P2", "Q_11", "Q_12", "Q_13", "Q_22", "Q_23", "Q_33"] else ["P2"]

end NematicOrder

namespace RotationDrift

/-- `norm2()` of a matrix: the sum of squares of its elements; Matrix.tpp. -/
def matNorm2 (A : Mat3) : ℝ := A.r0.norm2 + A.r1.norm2 + A.r2.norm2

/-- `rotErrorNorm2`; RotationMatrixDrift.cpp:17-19. -/
def error (R : Mat3) : ℝ := matNorm2 (R * R.transpose - 1)

/-- `frobenius2min`, `frobenius2max` and the sum; `none` is infinity; RotationMatrixDrift.cpp:13-14 and 16-28. -/
structure Acc where
  min : Option ℝ
  max : ℝ
  sum : ℝ

/-- `frobeniusAccumulator`; RotationMatrixDrift.cpp:16-27. -/
def step (a : Acc) (s : Shape) : Acc :=
  ⟨(match a.min with | none => some (error s.rot) | some m => if error s.rot < m then some (error s.rot) else some m),
    if error s.rot > a.max then error s.rot else a.max, a.sum + error s.rot⟩

/-- `calculate`: the mean, the smallest and the largest error; RotationMatrixDrift.cpp:10-31. Without particles the mean is not a number and the least error is infinite. -/
def calculate (V : View) : Outcome (ℝ × ℝ × ℝ) :=
  let a := V.shapes.foldl step ⟨none, 0, 0⟩
  match a.min with
  | none => .ub
  | some m => .ok (a.sum / V.shapes.length, m, a.max)

end RotationDrift

end

end Rampack
