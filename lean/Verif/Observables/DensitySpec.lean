import Verif.Observables.Density
import Verif.Observables.HistogramSpec
import Verif.Box.Lemmas
import Verif.Box.Spec
/-
Specification for histograms over relative positions (C97, C98).
-/
namespace Rampack.Spec

noncomputable section

/-- A snapshot: the packing, the origin of the system found by the tracker, and the schedule, i.e. threads and particles in the order in which they are processed. -/
structure DensityRun where
  V : View
  origin : Vec3 ℝ
  calls : List (Nat × Nat)

/-- Each particle is processed once by any of the threads and in any order. -/
def DensityRun.Legal (threads : Nat) (r : DensityRun) : Prop :=
  r.V.box.WF ∧ (r.calls.map Prod.snd).Perm (List.range r.V.shapes.length) ∧ ∀ c ∈ r.calls, c.1 < threads

/-- The observable is given all snapshots. -/
def runDensity (norm : DensityNorm) (S : BinnedState) (runs : List DensityRun) : Outcome BinnedState :=
  runs.foldlM (fun S r => DensityHistogram.addSnapshot norm S r.V r.origin r.calls) S

/-- Relative coordinates of a periodic image of the point are in the bin `k` of equal bins in `[0, 1)^3`. -/
def InBin (n k : Vec3 Nat) (b : Box) (p : Vec3 ℝ) : Prop :=
  ∃ (s : Vec3 ℝ) (m : Vec3 ℤ), p = combo b s + lattice b m ∧
    (k.x < n.x ∧ (k.x : ℝ) / n.x ≤ s.x ∧ s.x < (k.x + 1 : ℝ) / n.x) ∧
    (k.y < n.y ∧ (k.y : ℝ) / n.y ≤ s.y ∧ s.y < (k.y + 1 : ℝ) / n.y) ∧
    (k.z < n.z ∧ (k.z : ℝ) / n.z ≤ s.z ∧ s.z < (k.z + 1 : ℝ) / n.z)

open Classical in
/-- Number of particles which are in the bin when the system is moved back by `drift`. -/
def population (n k : Vec3 Nat) (V : View) (drift : Vec3 ℝ) : Nat := (V.shapes.filter fun s => InBin n k V.box (s.pos - drift)).length

/-- The contribution of a snapshot to the bin: the number of particles or this number divided by the one in the average bin. -/
def densityValue (norm : DensityNorm) (n k : Vec3 Nat) (V : View) (drift : Vec3 ℝ) : ℝ :=
  match norm with
  | .avgCount => population n k V drift
  | .unit => population n k V drift / (V.shapes.length / (n.x * n.y * n.z : ℝ))

/-- The flat number of the bin. -/
def flatBin (n k : Vec3 Nat) : Nat := n.z * (n.y * k.x + k.y) + k.z

open Classical in
/-- The sum of values of `f` for particles in the bin. -/
def binSum (n k : Vec3 Nat) (f : Shape → ℝ) (V : View) (drift : Vec3 ℝ) : ℝ := ((V.shapes.filter fun s => InBin n k V.box (s.pos - drift)).map f).sum

/-- Steps of the loop over particles made one after another, as by a single thread: iterations are not interleaved. -/
def serial (calls : List (Nat × Nat)) : List (Nat × BinAveraged.Step) := calls.flatMap fun c => [(c.1, .calculate c.2), (c.1, .add c.2)]

/-- The averaged function is given all snapshots, in which iterations are not interleaved. -/
def runAveraged (f : Shape → Outcome ℝ) (S : BinnedState) (value : ℝ) (runs : List DensityRun) : Outcome (BinnedState × ℝ) :=
  runs.foldlM (fun q r => BinAveraged.addSnapshot f q.1 q.2 r.V r.origin (serial r.calls)) (S, value)

open Classical in
/-- Steps of a parallel loop over `size` particles: each particle is given to one of the threads, and each thread makes steps for its particles one after another. -/
def ParallelLoop (threads size : Nat) (steps : List (Nat × BinAveraged.Step)) : Prop :=
  ∃ calls : List (Nat × Nat), (calls.map Prod.snd).Perm (List.range size) ∧ (∀ c ∈ calls, c.1 < threads) ∧ ∀ t, steps.filter (fun q => q.1 = t) = (serial calls).filter fun q => q.1 = t

end

end Rampack.Spec
