import Verif.Observables.Correlation
import Verif.Observables.HistogramSpec
import Verif.Observables.SmecticSpec
import Verif.Observables.NematicSpec
import Verif.Box.Lemmas
import Verif.Box.Spec
/-
Specification for correlations of pairs (C94, C95).
-/
namespace Rampack.Spec

noncomputable section

/-- A snapshot as it is seen by an observable: the packing, pairs given by the enumerator and calls made for them by threads. -/
structure PairRun where
  V : View
  items : List PairItem
  calls : List (Nat × PairItem)

/-- The calls are those for all pairs, each one once, in any order and made by any of the threads. -/
def PairRun.Legal (E : PairEnumerator) (G : Geometry) (threads : Nat) (r : PairRun) : Prop :=
  r.V.box.WF ∧ r.V.shapes ≠ [] ∧ E.enumerate r.V G = .ok r.items ∧ (r.calls.map Prod.snd).Perm r.items ∧ ∀ c ∈ r.calls, c.1 < threads

/-- The observable is given all snapshots. -/
def runPairs (O : PairObservable) (E : PairEnumerator) (G : Geometry) (B : HistogramBuilder) (runs : List PairRun) : Outcome HistogramBuilder :=
  runs.foldlM (fun B r => O.addSnapshot E r.V G r.calls B) B

open Classical in
/-- Number of pairs of different particles with the distance in the bin. -/
def pairsInBin (a : ℝ × ℝ × Nat) (k : Nat) (items : List PairItem) : Nat := (items.filter fun p => p.i ≠ p.j ∧ BinContains a k p.d.norm).length

open Classical in
/-- Pairs with the distance in the bin, those of a particle with itself, too. -/
def itemsInBin (a : ℝ × ℝ × Nat) (k : Nat) (items : List PairItem) : List PairItem := items.filter fun p => BinContains a k p.d.norm

/-- Volume of the region in which the distance, in the sense of the enumerator, is between the given bounds: a spherical shell, a ring of the thickness of a layer or two slabs. -/
def shellVolume (E : PairEnumerator) (b : Box) (r1 r2 : ℝ) : ℝ :=
  match E with
  | .radial _ => 4 / 3 * Real.pi * (r2 ^ 3 - r1 ^ 3)
  | .layerwise hkl _ => Real.pi * (r2 ^ 2 - r1 ^ 2) * (2 * Real.pi / (BondOrder.kVector b hkl).norm)
  | .linear axis _ => 2 * (r2 - r1) * (b.volume / b.heights.get axis)

/-- The number by which the code differs from the definition. -/
def linearExcess : PairEnumerator → ℝ
  | .linear _ _ => 2
  | _ => 1

/-- The density of pairs in the bin compared to the one of a uniform system: the number of particles in the shell around a particle, averaged over particles, divided by the product
of the volume of the shell and the density. -/
def pairDensity (E : PairEnumerator) (a : ℝ × ℝ × Nat) (k : Nat) (V : View) (items : List PairItem) : ℝ :=
  2 * pairsInBin a k items / V.shapes.length / (shellVolume E V.box (binEdge a k) (binEdge a (k + 1)) * (V.shapes.length / V.box.volume))

/-- `u` is the vector from `p` to the image of `q` whose relative coordinates, counted from `p`, are between -1/2 and 1/2. -/
def NearestVector (b : Box) (p q u : Vec3 ℝ) : Prop :=
  (∃ n : Vec3 ℤ, u = q + lattice b n - p) ∧ ∃ s : Vec3 ℝ, u = combo b s ∧ |s.x| ≤ 1 / 2 ∧ |s.y| ≤ 1 / 2 ∧ |s.z| ≤ 1 / 2

/-- The distance vector for a vector joining two particles: the vector itself, its projection on the plane of layers or its projection on the height of the box, which is
perpendicular to two of its sides. -/
def DistanceVector (E : PairEnumerator) (b : Box) (u d : Vec3 ℝ) : Prop :=
  match E with
  | .radial _ => d = u
  | .layerwise hkl _ => (BondOrder.kVector b hkl).dot d = 0 ∧ ∃ c : ℝ, u = d + c • BondOrder.kVector b hkl
  | .linear axis _ => ∃ e : Vec3 ℝ, e.norm2 = 1 ∧ (∀ i, i ≠ axis → e.dot (b.sides.get i) = 0) ∧ d = u.dot e • e

end

end Rampack.Spec
