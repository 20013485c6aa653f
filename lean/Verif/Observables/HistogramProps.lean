import Verif.Observables.HistogramLemmas
/-
Theorems about bins of histograms: C43.
-/
namespace Rampack

open Spec Histogram

/-- C43: a histogram is created if and only if all ranges are non-empty and there is at least one bin. The number of bins is the product of the numbers for the axes. -/
theorem C43_create (spec : List (ℝ × ℝ × Nat)) (init : ℝ) :
    ((∃ H, Histogram.create spec init = .ok H) ↔ ∀ a ∈ spec, a.1 < a.2.1 ∧ 0 < a.2.2) ∧
    ((∃ H, Histogram.create spec init = .ok H) ∨ ∃ m, Histogram.create spec init = .throw m) ∧
    ∀ H, Histogram.create spec init = .ok H → H.bins = List.replicate (spec.map fun a => a.2.2).prod (init, 0) := by
  refine ⟨⟨fun ⟨H, h⟩ => (create_ok h).1, fun h => ?_⟩, ?_, fun H h => ?_⟩
  · unfold Histogram.create
    rw [decide_eq_true (show ∀ a ∈ spec, a.2.1 > a.1 from fun a ha => (h a ha).1), Outcome.require_true, Outcome.ok_bind, decide_eq_true, Outcome.require_true, Outcome.ok_bind]
    · exact ⟨_, rfl⟩
    · rw [ge_iff_le, Nat.one_le_iff_ne_zero]
      intro h0
      obtain ⟨a, ha, e⟩ := List.mem_map.mp (List.prod_eq_zero_iff.mp h0)
      have := (h a ha).2
      omega
  · unfold Histogram.create
    by_cases h1 : ∀ a ∈ spec, a.2.1 > a.1
    · rw [decide_eq_true h1, Outcome.require_true, Outcome.ok_bind]
      by_cases h2 : (spec.map fun a => a.2.2).prod ≥ 1
      · rw [decide_eq_true h2, Outcome.require_true, Outcome.ok_bind]
        exact Or.inl ⟨_, rfl⟩
      · rw [decide_eq_false h2]
        exact Or.inr ⟨_, rfl⟩
    · rw [decide_eq_false h1]
      exact Or.inr ⟨_, rfl⟩
  · rw [(create_ok h).2]
    unfold binCount
    rw [List.map_map]
    rfl

/-- C43: the dividers reported for an axis are the ends of its bins: both ends of the range and equally spaced numbers between them. -/
theorem C43_dividers {spec : List (ℝ × ℝ × Nat)} {init : ℝ} {H : Histogram} (h : Histogram.create spec init = .ok H) (i : Nat) :
    (∀ a, spec[i]? = some a → H.getBinDividers i = .ok ((List.range (a.2.2 + 1)).map (binEdge a)) ∧ binEdge a 0 = a.1 ∧ binEdge a a.2.2 = a.2.1) ∧
    (spec.length ≤ i → ∃ m, H.getBinDividers i = .throw m) := by
  obtain ⟨hp, rfl⟩ := create_ok h
  unfold getBinDividers
  simp only [List.length_map]
  constructor
  · intro a ha
    obtain ⟨hi, e⟩ := List.getElem?_eq_some_iff.mp ha
    have hn : (0 : ℝ) < a.2.2 := by exact_mod_cast (hp a (List.mem_of_getElem? ha)).2
    rw [decide_eq_true hi, Outcome.require_true, Outcome.ok_bind, vget_eq_ok.mpr (show (spec.map axisOf)[i]? = some (axisOf a) by rw [List.getElem?_map, ha]; rfl), Outcome.ok_bind]
    refine ⟨?_, by unfold binEdge; simp, by unfold binEdge; field_simp; ring⟩
    refine congrArg _ (List.map_congr_left fun j _ => ?_)
    simp only [axisOf, binEdge]
    field_simp
    ring
  · intro hi
    rw [decide_eq_false (by omega)]
    exact ⟨_, rfl⟩

/-- C43: a position within the closed ranges is in exactly one bin, and it is the one which is accessed for it. Positions out of the ranges are refused. -/
theorem C43_position {spec : List (ℝ × ℝ × Nat)} (hs : ∀ a ∈ spec, a.2.2 < 2 ^ 64) {init : ℝ} {H : Histogram} (h : Histogram.create spec init = .ok H) {pos : List ℝ}
    (hl : pos.length = spec.length) :
    (WithinRanges spec pos → ∃ idx k, BoxContains spec idx pos ∧ (∀ idx', BoxContains spec idx' pos → idx' = idx) ∧
      H.atIndex idx = .ok k ∧ H.atPos pos = .ok k ∧ k < H.bins.length) ∧
    (¬ WithinRanges spec pos → (∃ m, H.atPos pos = .throw m) ∧ ∀ idx, ¬ BoxContains spec idx pos) := by
  obtain ⟨hp, rfl⟩ := create_ok h
  have hp' : ∀ a ∈ spec, ProperAxis a := fun a ha => ⟨(hp a ha).1, (hp a ha).2, hs a ha⟩
  constructor
  · intro hw
    obtain ⟨idx, e, hc⟩ := binIndex_ok hp' hl hw
    have hv := (properIndex_iff hc.1).mp (proper_of_contains hl hc)
    have hlt := flat_lt (axes := spec.map axisOf) (idx := idx) (by rw [List.length_map, hc.1]) hv
    refine ⟨idx, flat (spec.map axisOf) idx, hc, fun idx' hc' => box_unique hp hl hc' hc, ?_, ?_, ?_⟩
    · unfold atIndex
      simp only
      rw [decide_eq_true hv, Outcome.require_true, Outcome.ok_bind]
      rfl
    · unfold atPos calculateBinIndex
      simp only
      rw [decide_eq_true ((withinRanges_iff hl).mp hw), Outcome.require_true, Outcome.ok_bind, e, Outcome.ok_bind, List.length_replicate]
      unfold flattenIndex
      simp only
      rw [if_neg (by unfold flat at hlt; omega)]
      rfl
    · rw [List.length_replicate]
      exact hlt
  · intro hw
    refine ⟨?_, fun idx hc => hw fun i a x ha hx => ?_⟩
    · unfold atPos
      simp only
      rw [decide_eq_false (fun hc => hw ((withinRanges_iff hl).mpr hc))]
      exact ⟨_, rfl⟩
    · have hi : i < idx.length := by
        have := (List.getElem?_eq_some_iff.mp ha).1
        rw [hc.1]
        exact this
      exact contains_range (hp a (List.mem_of_getElem? ha)) (hc.2 i a _ x ha (List.getElem?_eq_getElem hi) hx)

/-- C43: proper indices and numbers of bins in the output correspond one to one, and the position reported for the bin is its middle. Other indices are refused. -/
theorem C43_index {spec : List (ℝ × ℝ × Nat)} {init : ℝ} {H : Histogram} (h : Histogram.create spec init = .ok H) :
    (∀ idx, ProperIndex spec idx → ∃ k, H.atIndex idx = .ok k ∧ k < H.bins.length ∧
      ∃ m v, H.dumpValues[k]? = some (m, v) ∧ m.length = spec.length ∧
        ∀ (i : Nat) a j, spec[i]? = some a → idx[i]? = some j → m[i]? = some ((binEdge a j + binEdge a (j + 1)) / 2)) ∧
    (∀ k, k < H.bins.length → ∃ idx, ProperIndex spec idx ∧ H.atIndex idx = .ok k ∧ ∀ idx', ProperIndex spec idx' → H.atIndex idx' = .ok k → idx' = idx) ∧
    (∀ idx, idx.length = spec.length → ¬ ProperIndex spec idx → ∃ m, H.atIndex idx = .throw m) := by
  obtain ⟨hp, rfl⟩ := create_ok h
  have hat : ∀ idx, ProperIndex spec idx → atIndex ⟨spec.map axisOf, List.replicate (binCount (spec.map axisOf)) (init, 0), init⟩ idx = .ok (flat (spec.map axisOf) idx) := by
    intro idx hi
    unfold atIndex
    simp only
    rw [decide_eq_true ((properIndex_iff hi.1).mp hi), Outcome.require_true, Outcome.ok_bind]
    rfl
  have hpos : ∀ a ∈ spec.map axisOf, 0 < a.n := by
    intro a ha
    obtain ⟨b, hb, rfl⟩ := List.mem_map.mp ha
    exact (hp b hb).2
  refine ⟨fun idx hi => ?_, fun k hk => ?_, fun idx hl hi => ?_⟩
  · have hv := (properIndex_iff hi.1).mp hi
    have hl' : idx.length = (spec.map axisOf).length := by rw [List.length_map, hi.1]
    have hlt := flat_lt hl' hv
    refine ⟨_, hat idx hi, by rw [List.length_replicate]; exact hlt,
      List.zipWith (fun (a : HAxis) (i : Nat) => a.min + (i + 1 / 2) * a.step) (spec.map axisOf) idx, (init, 0), ?_, ?_, ?_⟩
    · unfold dumpValues
      rw [List.getElem?_map, List.getElem?_zipIdx, List.getElem?_replicate, if_pos hlt]
      simp only [Option.map_some, zero_add, Option.some.injEq, Prod.mk.injEq, and_true]
      unfold binMiddle reshapeIndex
      simp only
      rw [show reshapeLoop (spec.map axisOf).reverse (flat (spec.map axisOf) idx) [] = reshape (spec.map axisOf) (flat (spec.map axisOf) idx) from rfl, reshape_flat hl' hv]
    · rw [List.length_zipWith, hl', List.length_map, Nat.min_self]
    · intro i a j ha hj
      have hn : (0 : ℝ) < a.2.2 := by exact_mod_cast (hp a (List.mem_of_getElem? ha)).2
      rw [List.getElem?_zipWith, List.getElem?_map, ha, hj]
      simp only [Option.map_some, Option.some.injEq, axisOf, binEdge]
      push_cast
      field_simp
      ring
  · rw [List.length_replicate] at hk
    have hl : (reshape (spec.map axisOf) k).length = spec.length := by rw [reshape_length, List.length_map]
    have hi : ProperIndex spec (reshape (spec.map axisOf) k) := (properIndex_iff hl).mpr (reshape_valid hpos k)
    refine ⟨_, hi, by rw [hat _ hi, flat_reshape hk], fun idx' hi' e => ?_⟩
    rw [hat _ hi'] at e
    rw [← Outcome.ok_inj.mp e, reshape_flat (by rw [List.length_map, hi'.1]) ((properIndex_iff hi'.1).mp hi')]
  · unfold atIndex
    simp only
    rw [decide_eq_false (fun hc => hi ((properIndex_iff hl).mpr hc))]
    exact ⟨_, rfl⟩

/-- A histogram of two dimensions: the range [0, 1] in 2 bins and the range [-1, 2] in 3 bins; the point (1, 0) is within the ranges. -/
example : ∃ H, Histogram.create [(0, 1, 2), (-1, 2, 3)] 0 = .ok H ∧ H.bins.length = 6 ∧ WithinRanges [(0, 1, 2), (-1, 2, 3)] [1, 0] ∧
    ProperIndex [(0, 1, 2), (-1, 2, 3)] [1, 1] := by
  obtain ⟨H, h⟩ := ((C43_create [(0, 1, 2), (-1, 2, 3)] 0).1).mpr (by simp; norm_num)
  refine ⟨H, h, by rw [(C43_create _ _).2.2 H h]; simp, ?_, ?_⟩
  · rw [withinRanges_cons, withinRanges_cons]
    refine ⟨by norm_num, by norm_num, ?_⟩
    intro i a x ha
    simp at ha
  · refine ⟨rfl, ?_⟩
    intro i a j ha hj
    match i with
    | 0 => simp at ha hj; rw [← ha, ← hj]; norm_num
    | 1 => simp at ha hj; rw [← ha, ← hj]; norm_num
    | i + 2 => simp at ha

end Rampack
