import Verif.Observables.Correlation
/-
Model of /repo/src/core/observables/correlation/ProbabilityEvolution.{h,cpp}. Collecting of pairs is in Correlation.lean.
-/
namespace Rampack

noncomputable section

/-- `ProbabilityEvolution::Normalization`; ProbabilityEvolution.h:25-43. -/
inductive EvolutionNorm where
  | avgCount
  | pdf
  | unit

namespace ProbabilityEvolution

/-- `dumpHistogram(ReductionMethod::SUM)`, as a histogram; HistogramBuilder.tpp:48-74. -/
def dumpSum (B : HistogramBuilder) : Outcome Histogram := do
  let result ← Histogram.create B.spec B.init
  if B.numSnapshots = 0 then return result
  else return { result with bins := B.histogram.bins.map fun b => (b.1 / B.numSnapshots, b.2) }

/-- One step of the first inner loop; ProbabilityEvolution.cpp:78. -/
def addBin (H : Histogram) (d : Nat) (t : ℝ) (k : Nat) : Outcome ℝ := do
  let i ← H.atIndex [d, k]
  let b ← vget H.bins i
  return t + b.1

/-- `distTotal`; ProbabilityEvolution.cpp:76-78. -/
def rowTotal (H : Histogram) (m d : Nat) : Outcome ℝ := (List.range m).foldlM (addBin H d) 0

/-- One step of the second inner loop; ProbabilityEvolution.cpp:83. The divisor is not zero. -/
def divideBin (total : ℝ) (d : Nat) (H : Histogram) (k : Nat) : Outcome Histogram := do
  let i ← H.atIndex [d, k]
  let b ← vget H.bins i
  let bins ← vset H.bins i (b.1 / total, b.2)
  return { H with bins := bins }

open Classical in
/-- The body of the outer loop; ProbabilityEvolution.cpp:76-83. -/
def normalizeRow (m : Nat) (H : Histogram) (d : Nat) : Outcome Histogram := do
  let total ← rowTotal H m d
  if total = 0 then return H else (List.range m).foldlM (divideBin total d) H

/-- `operator*=`; Histogram.tpp:31-36. -/
def scale (H : Histogram) (c : ℝ) : Histogram := { H with bins := H.bins.map fun b => (b.1 * c, b.2) }

/-- `renormalizeHistogram`; ProbabilityEvolution.cpp:70-96. Division by the range, which is not zero, is multiplication by the inverse. -/
def renormalize (norm : EvolutionNorm) (H : Histogram) : Outcome Histogram :=
  match norm with
  | .avgCount => .ok H
  | .pdf => do
    let a ← vget H.axes 0
    let f ← vget H.axes 1
    let H ← (List.range a.n).foldlM (normalizeRow f.n) H
    return scale (scale H f.n) (1 / (f.max - f.min))
  | .unit => do
    let a ← vget H.axes 0
    let f ← vget H.axes 1
    let H ← (List.range a.n).foldlM (normalizeRow f.n) H
    return scale H f.n

/-- The histogram which is printed; ProbabilityEvolution.cpp:31-33. -/
def result (norm : EvolutionNorm) (B : HistogramBuilder) : Outcome Histogram := do
  let H ← dumpSum B
  renormalize norm H

end ProbabilityEvolution

end

end Rampack
