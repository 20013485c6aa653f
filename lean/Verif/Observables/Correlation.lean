import Verif.Observables.Bond
import Verif.Observables.ShapeFunctions
import Verif.Observables.Histogram
import Mathlib.Analysis.SpecialFunctions.Trigonometric.Inverse
/-
Model of correlations of pairs of particles: /repo/src/core/observables/correlation/ and /repo/src/core/observables/correlation_functions/.

Numbers are exact; `normalized()` of the zero vector, which gives NaN's in the code, is undefined here. Loops run by many threads are modelled by the list of calls of
`consumePair`, with threads which make them, in the order in which they happen: each call touches only the histogram of its thread.
-/
namespace Rampack

open Grid

noncomputable section

/-- A pair of particles with the distance vector, as it is given to `consumePair`; PairConsumer.h:37-38. -/
structure PairItem where
  i : Nat
  j : Nat
  d : Vec3 ℝ

/-- Classes deriving from `PairEnumerator` with arguments of their constructors; RadialEnumerator.h:27, LayerwiseRadialEnumerator.h:33, LinearEnumerator.h:44. -/
inductive PairEnumerator where
  | radial (focal : String)
  | layerwise (hkl : Vec3 ℤ) (focal : String)
  | linear (axis : Fin 3) (focal : String)

namespace PairEnumerator

/-- The check in the constructor; LayerwiseRadialEnumerator.cpp:65. -/
def Accepted : PairEnumerator → Prop
  | .layerwise hkl _ => hkl.x ≠ 0 ∨ hkl.y ≠ 0 ∨ hkl.z ≠ 0
  | _ => True

/-- Pairs of indices in the order of the loops (`j` from `i`); RadialEnumerator.cpp:21-22. -/
def pairs (n : Nat) : List (Nat × Nat) := (List.range n).flatMap fun i => (List.range (n - i)).map fun j => (i, i + j)

/-- `diff`: the vector to the nearest image; RadialEnumerator.cpp:23-27. -/
def separation (b : Box) (points : List (Vec3 ℝ)) (ij : Nat × Nat) : Outcome (Vec3 ℝ) := do
  let pos1 ← vget points ij.1
  let pos2 ← vget points ij.2
  return pos2 + PBC.getTranslation b pos1 pos2 - pos1

/-- The body of the loops of `RadialEnumerator::enumeratePairs`; RadialEnumerator.cpp:23-28. -/
def radialItem (b : Box) (points : List (Vec3 ℝ)) (ij : Nat × Nat) : Outcome (Option PairItem) := do
  let diff ← separation b points ij
  return some ⟨ij.1, ij.2, diff⟩

open Classical in
/-- The body of the loops of `LayerwiseRadialEnumerator::enumeratePairs`; LayerwiseRadialEnumerator.cpp:37-48. `BondOrder.sameLayer` is the same condition as here. -/
def layerwiseItem (b : Box) (L : BondOrder.Layers) (kn : Vec3 ℝ) (points : List (Vec3 ℝ)) (ij : Nat × Nat) : Outcome (Option PairItem) := do
  let pos1 ← vget points ij.1
  let pos2 ← vget points ij.2
  if BondOrder.sameLayer b L pos1 pos2 then do
    let diff ← separation b points ij
    return some ⟨ij.1, ij.2, diff - diff.dot kn • kn⟩
  else return none

/-- The body of the loops of `LinearEnumerator::enumeratePairs`; LinearEnumerator.cpp:66-71. -/
def linearItem (b : Box) (direction : Vec3 ℝ) (points : List (Vec3 ℝ)) (ij : Nat × Nat) : Outcome (Option PairItem) := do
  let diff ← separation b points ij
  return some ⟨ij.1, ij.2, diff.dot direction • direction⟩

/-- `direction` before it is normalised; LinearEnumerator.cpp:50-60. -/
def normal (b : Box) (axis : Fin 3) : Vec3 ℝ :=
  match axis with
  | 0 => b.sides.y.cross b.sides.z
  | 1 => b.sides.z.cross b.sides.x
  | 2 => b.sides.x.cross b.sides.y

/-- `enumeratePairs`: the pairs given to the consumer, in the order in which a single thread gives them; RadialEnumerator.cpp:12-31,
LayerwiseRadialEnumerator.cpp:22-51, LinearEnumerator.cpp:41-74. -/
def enumerate (E : PairEnumerator) (V : View) (G : Geometry) : Outcome (List PairItem) :=
  match E with
  | .radial focal => do
    let points ← V.namedPoints G focal
    let l ← (pairs V.shapes.length).mapM (radialItem V.box points)
    return l.filterMap id
  | .layerwise hkl focal => do
    let kn ← normalize (BondOrder.kVector V.box hkl)
    let points ← V.namedPoints G focal
    let L : BondOrder.Layers := ⟨BondOrder.kVector V.box hkl, 0, 0, Complex.arg (BondOrder.tau (BondOrder.kVector V.box hkl) points)⟩
    let l ← (pairs V.shapes.length).mapM (layerwiseItem V.box L kn points)
    return l.filterMap id
  | .linear axis focal => do
    let points ← V.namedPoints G focal
    let direction ← normalize (normal V.box axis)
    let l ← (pairs V.shapes.length).mapM (linearItem V.box direction points)
    return l.filterMap id

/-- `std::transform(std::next(molecules.begin()), molecules.end(), molecules.begin(), ..., std::minus<>{})`; RadialEnumerator.cpp:47-48. -/
def differences : List ℝ → List ℝ
  | x :: y :: l => (y - x) :: differences (y :: l)
  | _ => []

/-- `moleculesInBall`, `moleculesInDisk` and the number of molecules in a slab; RadialEnumerator.cpp:42, LayerwiseRadialEnumerator.cpp:77-83, LinearEnumerator.cpp:27-36. -/
def within (E : PairEnumerator) (V : View) (r : ℝ) : ℝ :=
  match E with
  | .radial _ => 4 / 3 * Real.pi * r * r * r * V.numberDensity
  | .layerwise hkl _ => Real.pi * r * r * (V.numberDensity * (2 * Real.pi / (BondOrder.kVector V.box hkl).norm))
  | .linear axis _ => r * (V.volume / V.box.heights.get axis) * V.numberDensity

/-- `getExpectedNumOfMoleculesInShells`; RadialEnumerator.cpp:33-50, LayerwiseRadialEnumerator.cpp:69-91, LinearEnumerator.cpp:21-39. For the last class the product of
the difference of bounds and the area is the difference of products. -/
def expected (E : PairEnumerator) (V : View) (bounds : List ℝ) : Outcome (List ℝ) := do
  Outcome.require (decide (bounds.length ≥ 2)) "Expects(radiiBounds.size() >= 2)"
  Outcome.require (decide (bounds.Pairwise (· ≤ ·))) "Expects(std::is_sorted(radiiBounds.begin(), radiiBounds.end()))"
  return differences (bounds.map (E.within V))

end PairEnumerator

/-- Classes deriving from `AxisCorrelation`; S110Correlation.h, S220Correlation.h, S221Correlation.h, AxesAngle.h. -/
inductive CorrelationFn where
  | s110 (axis : AxisKind)
  | s220 (axis : AxisKind)
  | s221 (axis : AxisKind)
  | angle (axis : AxisKind)

namespace CorrelationFn

/-- The axis given in the constructor; AxisCorrelation.h:39. -/
def axis : CorrelationFn → AxisKind
  | .s110 k => k
  | .s220 k => k
  | .s221 k => k
  | .angle k => k

/-- `calculateForAxes`; S110Correlation.h:20-24, S220Correlation.h:21-25, S221Correlation.h:22-26, AxesAngle.h:19-23. -/
def forAxes (f : CorrelationFn) (a1 a2 d : Vec3 ℝ) : Outcome ℝ :=
  match f with
  | .s110 _ => .ok (a1.dot a2)
  | .s220 _ => .ok (3 / 2 * ((a1.dot a2) ^ 2 - 1 / 3))
  | .s221 _ => do
    let n ← normalize d
    return (a1.cross a2).dot n * a1.dot a2
  | .angle _ => .ok (180 * Real.arccos |a1.dot a2| / Real.pi)

/-- `calculate`; AxisCorrelation.cpp:8-31. -/
def calculate (f : CorrelationFn) (G : Geometry) (s1 s2 : Shape) (d : Vec3 ℝ) : Outcome ℝ := do
  let a1 ← G.getAxis f.axis s1
  let a2 ← G.getAxis f.axis s2
  f.forAxes a1 a2 d

end CorrelationFn

/-- Observables made of pairs. -/
inductive PairObservable where
  /-- `PairDensityCorrelation`; PairDensityCorrelation.h:40-44 -/
  | density (maxR : ℝ) (numBins : Nat)
  /-- `PairAveragedCorrelation`; PairAveragedCorrelation.h:43-48 -/
  | averaged (maxR : ℝ) (numBins : Nat) (f : CorrelationFn)
  /-- `ProbabilityEvolution`; ProbabilityEvolution.cpp:8-22 -/
  | evolution (maxR : ℝ) (numBins : Nat) (lo hi : ℝ) (numFunctionBins : Nat) (f : CorrelationFn)

namespace PairObservable

/-- Ranges and numbers of bins of the histogram; PairDensityCorrelation.h:43, PairAveragedCorrelation.h:47, ProbabilityEvolution.cpp:15-16. -/
def spec : PairObservable → List (ℝ × ℝ × Nat)
  | .density maxR n => [(0, maxR, n)]
  | .averaged maxR n _ => [(0, maxR, n)]
  | .evolution maxR n lo hi m _ => [(0, maxR, n), (lo, hi, m)]

/-- The constructor; PairDensityCorrelation.h:40-44, PairAveragedCorrelation.h:43-48, ProbabilityEvolution.cpp:8-22 (where the histogram refuses `maxDistance <= 0` before
the check). -/
def create (O : PairObservable) (threads : Nat) : Outcome HistogramBuilder := HistogramBuilder.create O.spec threads 0

/-- What is added to the histogram for one pair: a position and a value; PairDensityCorrelation.cpp:31-41, PairAveragedCorrelation.cpp:24-34,
ProbabilityEvolution.cpp:50-68. -/
def sample (O : PairObservable) (V : View) (G : Geometry) (p : PairItem) : Outcome (Option (List ℝ × ℝ)) :=
  match O with
  | .density maxR _ => if p.i = p.j then .ok none else if p.d.norm > maxR then .ok none else .ok (some ([p.d.norm], 1))
  | .averaged maxR _ f =>
    if p.d.norm > maxR then .ok none
    else do
      let s1 ← vget V.shapes p.i
      let s2 ← vget V.shapes p.j
      let v ← f.calculate G s1 s2 p.d
      return some ([p.d.norm], v)
  | .evolution maxR _ lo hi _ f =>
    if p.i = p.j then .ok none
    else if p.d.norm > maxR then .ok none
    else do
      let s1 ← vget V.shapes p.i
      let s2 ← vget V.shapes p.j
      let v ← f.calculate G s1 s2 p.d
      return if v < lo ∨ v > hi then none else some ([p.d.norm, v], 1)

/-- `histogram.add` if there is something to add. -/
def addSample (B : HistogramBuilder) (t : Nat) : Option (List ℝ × ℝ) → Outcome HistogramBuilder
  | none => .ok B
  | some q => B.add t q.1 q.2

/-- `consumePair` called by the thread `t`; PairDensityCorrelation.cpp:31-41, PairAveragedCorrelation.cpp:24-34, ProbabilityEvolution.cpp:50-68. -/
def consume (O : PairObservable) (V : View) (G : Geometry) (B : HistogramBuilder) (c : Nat × PairItem) : Outcome HistogramBuilder := do
  let s ← O.sample V G c.2
  addSample B c.1 s

open Classical in
/-- Factors by which bins are multiplied, if they are; PairDensityCorrelation.cpp:13-16. Division by zero is undefined here. -/
def factors (O : PairObservable) (E : PairEnumerator) (V : View) (B : HistogramBuilder) : Outcome (Option (List ℝ)) :=
  match O with
  | .density _ _ => do
    let dividers ← B.histogram.getBinDividers 0
    let e ← E.expected V dividers
    if V.shapes.length = 0 ∨ 0 ∈ e then .ub else return some (e.map fun x => 2 / x / V.shapes.length)
  | _ => .ok none

/-- `renormalizeBins`, if there are factors, and `nextSnapshot`; PairDensityCorrelation.cpp:17-18, PairAveragedCorrelation.cpp:12. -/
def finish (B : HistogramBuilder) : Option (List ℝ) → Outcome HistogramBuilder
  | none => B.nextSnapshot
  | some f => do
    let B ← B.renormalizeBins f
    B.nextSnapshot

/-- `addSnapshot`, in which threads make the given calls; PairDensityCorrelation.cpp:8-19, PairAveragedCorrelation.cpp:8-13, ProbabilityEvolution.cpp:24-29. The calls are those
for pairs which the enumerator gives, in any order and by any threads. -/
def addSnapshot (O : PairObservable) (E : PairEnumerator) (V : View) (G : Geometry) (calls : List (Nat × PairItem)) (B : HistogramBuilder) : Outcome HistogramBuilder := do
  let B ← calls.foldlM (O.consume V G) B
  let f ← O.factors E V B
  finish B f

end PairObservable

end

end Rampack
