import Verif.Observables.Evolution
import Verif.Observables.CorrelationSpec
/-
Specification for the probability evolution (C96).
-/
namespace Rampack.Spec

noncomputable section

open Classical in
/-- Pairs of different particles with the distance in the bin `d` and the value in the bin `k`, in all snapshots. -/
def evolutionCount (a f : ℝ × ℝ × Nat) (val : View → PairItem → ℝ) (runs : List PairRun) (d k : Nat) : Nat :=
  (runs.map fun r => (r.items.filter fun p => p.i ≠ p.j ∧ BinContains a d p.d.norm ∧ BinContains f k (val r.V p)).length).sum

open Classical in
/-- Pairs of different particles with the distance in the bin `d` and the value in the range, in all snapshots. -/
def distanceCount (a f : ℝ × ℝ × Nat) (val : View → PairItem → ℝ) (runs : List PairRun) (d : Nat) : Nat :=
  (runs.map fun r => (r.items.filter fun p => p.i ≠ p.j ∧ BinContains a d p.d.norm ∧ f.1 ≤ val r.V p ∧ val r.V p ≤ f.2.1).length).sum

/-- The value documented for the bin: the average number of pairs, the density of the conditional probability of the value, or this density in units in which its average is 1. -/
def evolutionValue (norm : EvolutionNorm) (a f : ℝ × ℝ × Nat) (val : View → PairItem → ℝ) (runs : List PairRun) (d k : Nat) : ℝ :=
  match norm with
  | .avgCount => evolutionCount a f val runs d k / runs.length
  | .pdf => evolutionCount a f val runs d k / distanceCount a f val runs d / ((f.2.1 - f.1) / f.2.2)
  | .unit => evolutionCount a f val runs d k / distanceCount a f val runs d * f.2.2

end

end Rampack.Spec
