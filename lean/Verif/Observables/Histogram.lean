import Verif.OutcomeLemmas
import Verif.Grid.Model
import Mathlib.Algebra.Order.Floor.Ring
import Mathlib.Algebra.BigOperators.Group.List.Basic
import Mathlib.Data.Real.Archimedean
/-
Model of histograms: /repo/src/core/observables/Histogram.h, Histogram.tpp, HistogramBuilder.h, HistogramBuilder.tpp.

Simplifications: exact reals; values are real numbers (`T = double`; a `std::valarray` is handled component by component by the same operations); the arrays `min`,
`max`, `step`, `numBins` of length DIM are one list of axes; `std::size_t` has no bound in flat indices (they are less than the size of a vector) but the conversion
from `double` is undefined outside of 64 bits. The copies of `min`, `max`, `step` and `numBins` kept by the builder are those of its histogram.
-/
namespace Rampack

open Grid

noncomputable section

/-- One dimension of a histogram: `min[i]`, `max[i]`, `step[i]`, `numBins[i]`; Histogram.h:86-89. -/
structure HAxis where
  min : ℝ
  max : ℝ
  step : ℝ
  n : Nat

/-- `Histogram`; Histogram.h:86-91. A bin is `ValueCount`, Histogram.h:37-39. -/
structure Histogram where
  axes : List HAxis
  bins : List (ℝ × Nat)
  init : ℝ

namespace Histogram

/-- The constructor; Histogram.tpp:6-20. The arguments are ranges and numbers of bins of the axes. -/
def create (spec : List (ℝ × ℝ × Nat)) (init : ℝ) : Outcome Histogram := do
  Outcome.require (decide (∀ a ∈ spec, a.2.1 > a.1)) "Expects(maxItem > minItem)"
  Outcome.require (decide ((spec.map fun a => a.2.2).prod ≥ 1)) "Expects(this->size() >= 1)"
  return ⟨spec.map fun a => ⟨a.1, a.2.1, (a.2.1 - a.1) / a.2.2, a.2.2⟩, List.replicate (spec.map fun a => a.2.2).prod (init, 0), init⟩

/-- `operator+=`; Histogram.tpp:22-29, Histogram.h:41-45. -/
def add (H other : Histogram) : Outcome Histogram := do
  Outcome.require (decide (other.bins.length = H.bins.length)) "Expects(other.bins.size() == this->bins.size())"
  return { H with bins := List.zipWith (fun x y => (x.1 + y.1, x.2 + y.2)) H.bins other.bins }

/-- `clear`; Histogram.tpp:45-49. -/
def clear (H : Histogram) : Histogram := { H with bins := H.bins.map fun _ => (H.init, 0) }

/-- `renormalizeBins`; Histogram.tpp:51-59. It exists only for one dimension (`std::enable_if_t<DIM_ == 1>`). -/
def renormalizeBins (H : Histogram) (factors : List ℝ) : Outcome Histogram := do
  Outcome.require (decide (factors.length = H.bins.length)) "Expects(factors.size() == this->bins.size())"
  return { H with bins := List.zipWith (fun x f => (x.1 * f, x.2)) H.bins factors }

/-- The index along one axis; Histogram.tpp:64-67. -/
def axisIndex (a : HAxis) (p : ℝ) : Outcome Nat :=
  if 0 ≤ ⌊(p - a.min) / a.step⌋ ∧ ⌊(p - a.min) / a.step⌋ < 2 ^ 64 then
    if ⌊(p - a.min) / a.step⌋.toNat ≥ a.n then .ok (a.n - 1) else .ok ⌊(p - a.min) / a.step⌋.toNat
  else .ub

/-- `calculateBinIndex`; Histogram.tpp:61-70. -/
def calculateBinIndex (H : Histogram) (pos : List ℝ) : Outcome (List Nat) :=
  (H.axes.zip pos).mapM fun q => axisIndex q.1 q.2

/-- `flattenIndex`; Histogram.tpp:72-78. -/
def flattenIndex (H : Histogram) (index : List Nat) : Nat :=
  (H.axes.zip index).foldl (fun flatIdx q => q.1.n * flatIdx + q.2) 0

/-- `atPos`, as the number of the bin in the vector; Histogram.tpp:85-97 and 80-83. -/
def atPos (H : Histogram) (pos : List ℝ) : Outcome Nat := do
  Outcome.require (decide (∀ q ∈ H.axes.zip pos, q.2 ≥ q.1.min ∧ q.2 ≤ q.1.max)) "Expects(posItem >= minItem); Expects(posItem <= maxItem)"
  let idx ← H.calculateBinIndex pos
  return if H.flattenIndex idx ≥ H.bins.length then H.bins.length - 1 else H.flattenIndex idx

/-- `atIndex`, as the number of the bin in the vector; Histogram.tpp:99-106. -/
def atIndex (H : Histogram) (index : List Nat) : Outcome Nat := do
  Outcome.require (decide (∀ q ∈ H.axes.zip index, q.2 < q.1.n)) "Expects(idxItem < numBinsItem)"
  return H.flattenIndex index

/-- The loop of `reshapeIndex`, over axes from the last one; Histogram.tpp:133-138. -/
def reshapeLoop : List HAxis → Nat → List Nat → List Nat
  | [], _, idx => idx
  | a :: l, flatIdx, idx => reshapeLoop l (flatIdx / a.n) (flatIdx % a.n :: idx)

/-- `reshapeIndex`; Histogram.tpp:131-139. -/
def reshapeIndex (H : Histogram) (flatIdx : Nat) : List Nat := reshapeLoop H.axes.reverse flatIdx []

/-- The middle of the bin with the given number; Histogram.tpp:111-115. -/
def binMiddle (H : Histogram) (flatIdx : Nat) : List ℝ :=
  List.zipWith (fun (a : HAxis) (i : Nat) => a.min + (i + 1 / 2) * a.step) H.axes (H.reshapeIndex flatIdx)

/-- `dumpValues`; Histogram.tpp:108-129. -/
def dumpValues (H : Histogram) : List (List ℝ × ℝ × Nat) :=
  H.bins.zipIdx.map fun q => (H.binMiddle q.2, q.1)

/-- `getBinDividers`; Histogram.tpp:141-150. -/
def getBinDividers (H : Histogram) (axis : Nat) : Outcome (List ℝ) := do
  Outcome.require (decide (axis < H.axes.length)) "Expects(idx < DIM)"
  let a ← vget H.axes axis
  return (List.range (a.n + 1)).map fun (i : Nat) => a.min * ((a.n - i) / a.n) + a.max * (i / a.n)

end Histogram

/-- `HistogramBuilder`; HistogramBuilder.h:47-57. -/
structure HistogramBuilder where
  numSnapshots : Nat
  histogram : Histogram
  current : List Histogram
  init : ℝ
  spec : List (ℝ × ℝ × Nat)

/-- A number or the result of a division of zero (or another number) by zero. -/
inductive BinQuotient where
  | num (v : ℝ)
  | undefined
  deriving DecidableEq

/-- How snapshots are combined; HistogramBuilder.h:19-32. -/
inductive Reduction where
  | sum
  | average

namespace HistogramBuilder

/-- The constructor; HistogramBuilder.tpp:76-94. `numThreads` is the number after replacing 0 by the number of OpenMP threads. -/
def create (spec : List (ℝ × ℝ × Nat)) (numThreads : Nat) (init : ℝ) : Outcome HistogramBuilder := do
  let H ← Histogram.create spec init
  return ⟨0, H, List.replicate numThreads H, init, spec⟩

/-- `add` called by the thread `threadId`; HistogramBuilder.tpp:15-23. -/
def add (B : HistogramBuilder) (threadId : Nat) (pos : List ℝ) (value : ℝ) : Outcome HistogramBuilder := do
  Outcome.require (decide (threadId < B.current.length)) "Expects(threadId < this->currentHistograms.size())"
  let H ← vget B.current threadId
  let k ← H.atPos pos
  let bin ← vget H.bins k
  let bins ← vset H.bins k (bin.1 + value, bin.2 + 1)
  let current ← vset B.current threadId { H with bins := bins }
  return { B with current := current }

/-- The loop of `nextSnapshot`; HistogramBuilder.tpp:27-30. -/
def sumCurrent (H : Histogram) : List Histogram → Outcome Histogram
  | [] => .ok H
  | C :: l => do
    let H ← H.add C
    sumCurrent H l

/-- `nextSnapshot`; HistogramBuilder.tpp:25-32. -/
def nextSnapshot (B : HistogramBuilder) : Outcome HistogramBuilder := do
  let H ← sumCurrent B.histogram B.current
  return { B with histogram := H, current := B.current.map Histogram.clear, numSnapshots := B.numSnapshots + 1 }

/-- `clear`; HistogramBuilder.tpp:34-40. -/
def clear (B : HistogramBuilder) : HistogramBuilder :=
  { B with histogram := B.histogram.clear, current := B.current.map Histogram.clear, numSnapshots := 0 }

/-- `renormalizeBins`; HistogramBuilder.tpp:96-101. -/
def renormalizeBins (B : HistogramBuilder) (factors : List ℝ) : Outcome HistogramBuilder := do
  let current ← B.current.mapM fun C => C.renormalizeBins factors
  return { B with current := current }

/-- Division by a number of snapshots or of values. -/
def divide (v : ℝ) (n : Nat) : BinQuotient := if n = 0 then .undefined else .num (v / n)

/-- `dumpHistogram`, as bins; HistogramBuilder.tpp:48-74. Counts are left as they are (Histogram.h:53-57). -/
def dumpHistogram (B : HistogramBuilder) (method : Reduction) : Outcome (List (BinQuotient × Nat)) := do
  let result ← Histogram.create B.spec B.init
  if B.numSnapshots = 0 then return result.bins.map fun b => (.num b.1, b.2)
  else match method with
    | .sum => return B.histogram.bins.map fun b => (divide b.1 B.numSnapshots, b.2)
    | .average => return B.histogram.bins.map fun b => (divide b.1 b.2, b.2)

end HistogramBuilder

end

end Rampack
