import Verif.Observables.Histogram
/-
Specification for histograms (C43, C44).
-/
namespace Rampack.Spec

noncomputable section

/-- Range and number of bins of one dimension are proper: `(min, max, number of bins)`. The number of bins is a 64-bit one. -/
def ProperAxis (a : ℝ × ℝ × Nat) : Prop := a.1 < a.2.1 ∧ 0 < a.2.2 ∧ a.2.2 < 2 ^ 64

/-- The end number `j` of equal bins which the range is divided into. -/
def binEdge (a : ℝ × ℝ × Nat) (j : Nat) : ℝ := a.1 + (a.2.1 - a.1) * j / a.2.2

/-- The bin `j` contains `x`. Bins contain their lower ends, and the last one contains its upper end, too. -/
def BinContains (a : ℝ × ℝ × Nat) (j : Nat) (x : ℝ) : Prop :=
  j < a.2.2 ∧ binEdge a j ≤ x ∧ (x < binEdge a (j + 1) ∨ j + 1 = a.2.2 ∧ x = binEdge a (j + 1))

/-- The multi-dimensional bin contains the point. -/
def BoxContains (spec : List (ℝ × ℝ × Nat)) (idx : List Nat) (pos : List ℝ) : Prop :=
  idx.length = spec.length ∧ ∀ (i : Nat) a j x, spec[i]? = some a → idx[i]? = some j → pos[i]? = some x → BinContains a j x

/-- All coordinates are within the (closed) ranges. -/
def WithinRanges (spec : List (ℝ × ℝ × Nat)) (pos : List ℝ) : Prop := ∀ (i : Nat) (a : ℝ × ℝ × Nat) x, spec[i]? = some a → pos[i]? = some x → a.1 ≤ x ∧ x ≤ a.2.1

/-- The index is a proper one. -/
def ProperIndex (spec : List (ℝ × ℝ × Nat)) (idx : List Nat) : Prop :=
  idx.length = spec.length ∧ ∀ (i : Nat) (a : ℝ × ℝ × Nat) j, spec[i]? = some a → idx[i]? = some j → j < a.2.2

/-- A value added by a thread. -/
structure Sample where
  thread : Nat
  pos : List ℝ
  value : ℝ

/-- What happens before a call of `nextSnapshot`: values are added and then, possibly, bins are multiplied by factors. -/
structure HistSnapshot where
  samples : List Sample
  factors : Option (List ℝ)

/-- The calls for one snapshot. -/
def runSnapshot (B : HistogramBuilder) (s : HistSnapshot) : Outcome HistogramBuilder := do
  let B ← s.samples.foldlM (fun (B : HistogramBuilder) x => B.add x.thread x.pos x.value) B
  match s.factors with
  | none => B.nextSnapshot
  | some f => do
    let B ← B.renormalizeBins f
    B.nextSnapshot

/-- The calls for all snapshots. -/
def runHist (B : HistogramBuilder) (h : List HistSnapshot) : Outcome HistogramBuilder := h.foldlM runSnapshot B

/-- All calls are legal: threads and positions are in range, and there is one factor for each of `size` bins. -/
def LegalHist (spec : List (ℝ × ℝ × Nat)) (threads size : Nat) (h : List HistSnapshot) : Prop :=
  ∀ s ∈ h, (∀ x ∈ s.samples, x.thread < threads ∧ x.pos.length = spec.length ∧ WithinRanges spec x.pos) ∧ ∀ f, s.factors = some f → f.length = size

open Classical in
/-- Sum of values which fall into the bin `idx` in one snapshot. -/
def snapshotSum (spec : List (ℝ × ℝ × Nat)) (idx : List Nat) (s : HistSnapshot) : ℝ :=
  ((s.samples.filter fun x => BoxContains spec idx x.pos).map Sample.value).sum

open Classical in
/-- Number of values which fall into the bin `idx` in one snapshot. -/
def snapshotCount (spec : List (ℝ × ℝ × Nat)) (idx : List Nat) (s : HistSnapshot) : Nat :=
  (s.samples.filter fun x => BoxContains spec idx x.pos).length

/-- The factor for bin number `k`. -/
def factorOf (s : HistSnapshot) (k : Nat) : ℝ := match s.factors with | none => 1 | some f => f.getD k 1

end

end Rampack.Spec
