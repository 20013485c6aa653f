import Verif.Observables.ShapeFunctions
import Verif.Observables.Histogram
/-
Model of histograms over relative positions: /repo/src/core/observables/DensityHistogram.{h,cpp} and /repo/src/core/observables/BinAveragedFunction.{h,cpp}.

Numbers are exact. The origin found by the tracker is an argument (`FourierTracker` is in Fourier.lean; `DummyTracker` always gives zero). Loops run by many threads are modelled by
the list of steps with threads which make them, in the order in which they happen. In `DensityHistogram` steps of different threads touch different data (histograms of threads), so
that a whole iteration is one step. In `BinAveragedFunction` threads share `shapeFunction`, so that `calculate` and `getValues` with `add` are separate steps; only one of values of
the function is modelled, since others are handled in the same way.
-/
namespace Rampack

open Grid

noncomputable section

/-- `DensityHistogram::Normalization`; DensityHistogram.h:26-32. -/
inductive DensityNorm where
  | avgCount
  | unit

/-- `DensityHistogram` and the common part of `BinAveragedFunction`; DensityHistogram.h:35-42, BinAveragedFunction.h:27-34. -/
structure BinnedState where
  numBins : Vec3 Nat
  builder : HistogramBuilder
  firstOrigin : Option (Vec3 ℝ)

namespace Binned

/-- `normalizeNumBins`; DensityHistogram.cpp:76-81, BinAveragedFunction.cpp:72-77. -/
def normalizeNumBins (n : Vec3 Nat) : Vec3 Nat :=
  ⟨if n.x = 0 then 1 else n.x, if n.y = 0 then 1 else n.y, if n.z = 0 then 1 else n.z⟩

/-- Ranges and numbers of bins; DensityHistogram.cpp:67, BinAveragedFunction.cpp:62. -/
def spec (n : Vec3 Nat) : List (ℝ × ℝ × Nat) := [(0, 1, n.x), (0, 1, n.y), (0, 1, n.z)]

/-- The constructor; DensityHistogram.cpp:64-74, BinAveragedFunction.cpp:57-70. The condition is checked for numbers before `normalizeNumBins`. -/
def create (numBins : Vec3 Nat) (threads : Nat) : Outcome BinnedState := do
  let B ← HistogramBuilder.create (spec (normalizeNumBins numBins)) threads 0
  Outcome.require (decide (numBins.x > 1 ∨ numBins.y > 1 ∨ numBins.z > 1)) "Expects(std::any_of(numBins.begin(), numBins.end(), [](std::size_t n) { return n > 1; }))"
  return ⟨normalizeNumBins numBins, B, none⟩

/-- `clear`; DensityHistogram.cpp:58-62, BinAveragedFunction.cpp:51-55. -/
def clear (S : BinnedState) : BinnedState := { S with builder := S.builder.clear, firstOrigin := none }

/-- `*this->firstOrigin` after it is set if it was not; DensityHistogram.cpp:18-19, BinAveragedFunction.cpp:18-19. -/
def firstOr (first : Option (Vec3 ℝ)) (trackedOrigin : Vec3 ℝ) : Vec3 ℝ := first.getD trackedOrigin

/-- The position in the histogram; DensityHistogram.cpp:41-44, BinAveragedFunction.cpp:28-30 and 35. -/
def relative (b : Box) (pos originDelta : Vec3 ℝ) : List ℝ :=
  let pos := pos - originDelta
  let rel := b.absToRel (pos + PBC.getCorrection b pos)
  [rel.x, rel.y, rel.z]

end Binned

namespace DensityHistogram

/-- `value`; DensityHistogram.cpp:22-36. It is not used if there are no particles. -/
def weight (norm : DensityNorm) (numBins : Vec3 Nat) (V : View) : ℝ :=
  match norm with
  | .avgCount => 1
  | .unit => ((1 * numBins.x * numBins.y * numBins.z : Nat) : ℝ) / V.shapes.length

/-- The body of the loop for the particle `c.2`, executed by the thread `c.1`; DensityHistogram.cpp:41-44. -/
def addParticle (V : View) (originDelta : Vec3 ℝ) (value : ℝ) (B : HistogramBuilder) (c : Nat × Nat) : Outcome HistogramBuilder := do
  let shape ← vget V.shapes c.2
  B.add c.1 (Binned.relative V.box shape.pos originDelta) value

/-- `addSnapshot`; DensityHistogram.cpp:13-47. -/
def addSnapshot (norm : DensityNorm) (S : BinnedState) (V : View) (trackedOrigin : Vec3 ℝ) (calls : List (Nat × Nat)) : Outcome BinnedState := do
  let first := Binned.firstOr S.firstOrigin trackedOrigin
  let B ← calls.foldlM (addParticle V (trackedOrigin - first) (weight norm S.numBins V)) S.builder
  let B ← B.nextSnapshot
  return ⟨S.numBins, B, some first⟩

end DensityHistogram

namespace BinAveraged

/-- Steps of an iteration of the loop for the given particle: `calculate` and then `getValues` and `add`; BinAveragedFunction.cpp:31 and 32-35. -/
inductive Step where
  | calculate (i : Nat)
  | add (i : Nat)

/-- The histogram and the value of the function kept in `shapeFunction`. -/
structure Loop where
  builder : HistogramBuilder
  value : ℝ

/-- A step made by the thread `c.1`; BinAveragedFunction.cpp:27-35. -/
def step (f : Shape → Outcome ℝ) (V : View) (originDelta : Vec3 ℝ) (L : Loop) (c : Nat × Step) : Outcome Loop :=
  match c.2 with
  | .calculate i => do
    let shape ← vget V.shapes i
    let v ← f shape
    return { L with value := v }
  | .add i => do
    let shape ← vget V.shapes i
    let B ← L.builder.add c.1 (Binned.relative V.box shape.pos originDelta) L.value
    return { L with builder := B }

/-- `addSnapshot`; BinAveragedFunction.cpp:13-38. `f` gives the modelled component of the function and `value` is the one left by the previous snapshot. -/
def addSnapshot (f : Shape → Outcome ℝ) (S : BinnedState) (value : ℝ) (V : View) (trackedOrigin : Vec3 ℝ) (steps : List (Nat × Step)) : Outcome (BinnedState × ℝ) := do
  let first := Binned.firstOr S.firstOrigin trackedOrigin
  let L ← steps.foldlM (step f V (trackedOrigin - first)) ⟨S.builder, value⟩
  let B ← L.builder.nextSnapshot
  return (⟨S.numBins, B, some first⟩, L.value)

end BinAveraged

end

end Rampack
