import Verif.Observables.HistogramSpec
import Mathlib.Tactic.Ring
import Mathlib.Tactic.Linarith
import Mathlib.Tactic.FieldSimp
import Mathlib.Algebra.Order.BigOperators.Group.List
/-
Lemmas about histograms.
-/
namespace Rampack.Histogram

open Spec

/-- The number of bins of axes. -/
def binCount (axes : List HAxis) : Nat := (axes.map HAxis.n).prod

def flat (axes : List HAxis) (idx : List Nat) : Nat := (axes.zip idx).foldl (fun f q => q.1.n * f + q.2) 0

def reshape (axes : List HAxis) (f : Nat) : List Nat := reshapeLoop axes.reverse f []

theorem reshapeLoop_acc : ∀ (l : List HAxis) (f : Nat) (acc : List Nat), reshapeLoop l f acc = reshapeLoop l f [] ++ acc
  | [], _, _ => rfl
  | a :: l, f, acc => by
    simp only [reshapeLoop]
    rw [reshapeLoop_acc l _ (f % a.n :: acc), reshapeLoop_acc l _ [f % a.n], List.append_assoc]
    rfl

theorem reshape_snoc (axes : List HAxis) (a : HAxis) (f : Nat) : reshape (axes ++ [a]) f = reshape axes (f / a.n) ++ [f % a.n] := by
  unfold reshape
  rw [List.reverse_append]
  simp only [List.reverse_singleton, List.singleton_append, reshapeLoop]
  rw [reshapeLoop_acc]

theorem flat_snoc {axes : List HAxis} {idx : List Nat} (h : axes.length = idx.length) (a : HAxis) (i : Nat) : flat (axes ++ [a]) (idx ++ [i]) = a.n * flat axes idx + i := by
  unfold flat
  rw [List.zip_append h, List.foldl_append]
  rfl

theorem binCount_snoc (axes : List HAxis) (a : HAxis) : binCount (axes ++ [a]) = binCount axes * a.n := by
  unfold binCount
  rw [List.map_append, List.prod_append]
  simp

theorem reshape_length (axes : List HAxis) : ∀ f, (reshape axes f).length = axes.length := by
  induction axes using List.reverseRecOn with
  | nil => intro f; rfl
  | append_singleton axes a ih =>
    intro f
    rw [reshape_snoc, List.length_append, List.length_append, ih]
    rfl

theorem valid_snoc {axes : List HAxis} {a : HAxis} {idx : List Nat} {i : Nat} (h : axes.length = idx.length) :
    (∀ q ∈ (axes ++ [a]).zip (idx ++ [i]), q.2 < q.1.n) ↔ (∀ q ∈ axes.zip idx, q.2 < q.1.n) ∧ i < a.n := by
  rw [List.zip_append h, List.forall_mem_append]
  simp

theorem reshape_valid {axes : List HAxis} (h : ∀ a ∈ axes, 0 < a.n) : ∀ f, ∀ q ∈ axes.zip (reshape axes f), q.2 < q.1.n := by
  induction axes using List.reverseRecOn with
  | nil => intro f q hq; simp at hq
  | append_singleton axes a ih =>
    intro f
    rw [reshape_snoc, valid_snoc (reshape_length _ _).symm]
    exact ⟨ih (fun b hb => h b (by simp [hb])) _, Nat.mod_lt _ (h a (by simp))⟩

theorem flat_reshape {axes : List HAxis} : ∀ {f}, f < binCount axes → flat axes (reshape axes f) = f := by
  induction axes using List.reverseRecOn with
  | nil => intro f hf; simp [binCount] at hf; rw [hf]; rfl
  | append_singleton axes a ih =>
    intro f hf
    rw [binCount_snoc] at hf
    rw [reshape_snoc, flat_snoc (reshape_length _ _).symm, ih (Nat.div_lt_of_lt_mul (by rwa [mul_comm])), Nat.div_add_mod]

theorem snoc_of_length {idx : List Nat} {n : Nat} (h : idx.length = n + 1) : ∃ l i, idx = l ++ [i] ∧ l.length = n := by
  have hne : idx ≠ [] := by rintro rfl; simp at h
  refine ⟨idx.dropLast, idx.getLast hne, (List.dropLast_concat_getLast hne).symm, by rw [List.length_dropLast, h]; rfl⟩

theorem flat_lt {axes : List HAxis} : ∀ {idx}, idx.length = axes.length → (∀ q ∈ axes.zip idx, q.2 < q.1.n) → flat axes idx < binCount axes := by
  induction axes using List.reverseRecOn with
  | nil => intro idx _ _; simp [binCount, flat]
  | append_singleton axes a ih =>
    intro idx hl hv
    rw [List.length_append] at hl
    obtain ⟨l, i, rfl, hl'⟩ := snoc_of_length hl
    rw [valid_snoc hl'.symm] at hv
    rw [flat_snoc hl'.symm, binCount_snoc]
    have := ih hl' hv.1
    nlinarith [hv.2]

theorem reshape_flat {axes : List HAxis} : ∀ {idx}, idx.length = axes.length → (∀ q ∈ axes.zip idx, q.2 < q.1.n) → reshape axes (flat axes idx) = idx := by
  induction axes using List.reverseRecOn with
  | nil => intro idx hl _; simp at hl; rw [hl]; rfl
  | append_singleton axes a ih =>
    intro idx hl hv
    rw [List.length_append] at hl
    obtain ⟨l, i, rfl, hl'⟩ := snoc_of_length hl
    rw [valid_snoc hl'.symm] at hv
    have hpos : 0 < a.n := by omega
    rw [flat_snoc hl'.symm, reshape_snoc, Nat.mul_add_mod, Nat.mod_eq_of_lt hv.2, Nat.mul_add_div hpos, Nat.div_eq_of_lt hv.2, add_zero, ih hl' hv.1]

/-- The axis made by the constructor. -/
noncomputable def axisOf (a : ℝ × ℝ × Nat) : HAxis := ⟨a.1, a.2.1, (a.2.1 - a.1) / a.2.2, a.2.2⟩

theorem create_ok {spec : List (ℝ × ℝ × Nat)} {init : ℝ} {H : Histogram} (h : create spec init = .ok H) :
    (∀ a ∈ spec, a.1 < a.2.1 ∧ 0 < a.2.2) ∧ H = ⟨spec.map axisOf, List.replicate (binCount (spec.map axisOf)) (init, 0), init⟩ := by
  unfold create at h
  obtain ⟨_, h1, h⟩ := Outcome.bind_eq_ok.mp h
  obtain ⟨_, h2, h⟩ := Outcome.bind_eq_ok.mp h
  rw [Outcome.require_eq_ok, decide_eq_true_iff] at h1 h2
  obtain rfl := Outcome.ok_inj.mp h
  refine ⟨fun a ha => ⟨h1 a ha, ?_⟩, ?_⟩
  · rw [Nat.pos_iff_ne_zero]
    intro h0
    have : (spec.map fun a => a.2.2).prod = 0 := List.prod_eq_zero (List.mem_map.mpr ⟨a, ha, h0⟩)
    omega
  · unfold binCount
    rw [List.map_map]
    rfl

theorem axisIndex_ok {a : ℝ × ℝ × Nat} (h : ProperAxis a) {x : ℝ} (h1 : a.1 ≤ x) (h2 : x ≤ a.2.1) : ∃ j, axisIndex (axisOf a) x = .ok j ∧ BinContains a j x := by
  obtain ⟨hlt, hn, hn64⟩ := h
  obtain ⟨lo, hi, n⟩ := a
  simp only at hlt hn hn64 h1 h2
  have hw : 0 < hi - lo := by linarith
  have hnr : (0 : ℝ) < n := by exact_mod_cast hn
  have hq0 : 0 ≤ (x - lo) / ((hi - lo) / n) := by apply div_nonneg <;> [linarith; positivity]
  have eq : (x - lo) / ((hi - lo) / n) = (x - lo) * n / (hi - lo) := by field_simp
  have hqn : (x - lo) / ((hi - lo) / n) ≤ n := by
    rw [eq, div_le_iff₀ hw, mul_comm (n : ℝ)]
    gcongr
  have f0 : 0 ≤ ⌊(x - lo) / ((hi - lo) / n)⌋ := Int.floor_nonneg.mpr hq0
  have fn : ⌊(x - lo) / ((hi - lo) / n)⌋ ≤ n := by
    have := Int.floor_le_floor hqn
    rwa [Int.floor_natCast] at this
  obtain ⟨k, hk⟩ := Int.eq_ofNat_of_zero_le f0
  have hk1 : (k : ℝ) ≤ (x - lo) * n / (hi - lo) := by
    have := Int.floor_le ((x - lo) / ((hi - lo) / n))
    rw [hk, eq] at this
    exact_mod_cast this
  have hk2 : (x - lo) * n / (hi - lo) < k + 1 := by
    have := Int.lt_floor_add_one ((x - lo) / ((hi - lo) / n))
    rw [hk, eq] at this
    exact_mod_cast this
  unfold axisIndex axisOf
  simp only
  rw [hk] at fn ⊢
  rw [if_pos ⟨Int.natCast_nonneg _, by omega⟩, Int.toNat_natCast]
  by_cases hkn : k ≥ n
  · obtain rfl : k = n := by omega
    rw [if_pos (le_refl _)]
    have hx : x = hi := by
      rw [le_div_iff₀ hw] at hk1
      have : hi - lo ≤ x - lo := by
        by_contra hc
        push Not at hc
        nlinarith
      linarith
    have e1 : ((k - 1 : ℕ) : ℝ) = k - 1 := by rw [Nat.cast_sub (by omega)]; simp
    refine ⟨_, rfl, by simp only; omega, ?_, Or.inr ⟨by simp only; omega, ?_⟩⟩
    · unfold binEdge
      simp only
      rw [e1, hx]
      have : (hi - lo) * (k - 1) / k ≤ hi - lo := by
        rw [div_le_iff₀ hnr]
        nlinarith
      linarith
    · unfold binEdge
      simp only
      rw [Nat.sub_add_cancel hn, hx]
      field_simp
      ring
  · rw [if_neg hkn]
    refine ⟨k, rfl, by simp only; omega, ?_, Or.inl ?_⟩
    · unfold binEdge
      simp only
      rw [le_div_iff₀ hw] at hk1
      have : (hi - lo) * k / n ≤ x - lo := by
        rw [div_le_iff₀ hnr]
        linarith
      linarith
    · unfold binEdge
      simp only
      rw [div_lt_iff₀ hw] at hk2
      have : x - lo < (hi - lo) * ((k + 1 : ℕ) : ℝ) / n := by
        rw [lt_div_iff₀ hnr]
        push_cast
        linarith
      linarith

theorem binEdge_mono {a : ℝ × ℝ × Nat} (h : a.1 < a.2.1 ∧ 0 < a.2.2) {i j : Nat} (hij : i ≤ j) : binEdge a i ≤ binEdge a j := by
  unfold binEdge
  have hw : 0 < a.2.1 - a.1 := by linarith [h.1]
  have hn : (0 : ℝ) < a.2.2 := by exact_mod_cast h.2
  have : (i : ℝ) ≤ j := by exact_mod_cast hij
  gcongr

theorem contains_unique {a : ℝ × ℝ × Nat} (h : a.1 < a.2.1 ∧ 0 < a.2.2) {i j : Nat} {x : ℝ} (hi : BinContains a i x) (hj : BinContains a j x) : i = j := by
  have key : ∀ {i j : Nat}, BinContains a i x → BinContains a j x → i ≤ j := by
    intro i j hi hj
    by_contra hc
    push Not at hc
    obtain ⟨i1, i2, i3⟩ := hi
    obtain ⟨j1, j2, j3⟩ := hj
    have := binEdge_mono h (i := j + 1) (j := i) hc
    rcases j3 with j3 | ⟨j3, -⟩
    · linarith
    · omega
  exact le_antisymm (key hi hj) (key hj hi)

theorem contains_range {a : ℝ × ℝ × Nat} (h : a.1 < a.2.1 ∧ 0 < a.2.2) {i : Nat} {x : ℝ} (hi : BinContains a i x) : a.1 ≤ x ∧ x ≤ a.2.1 := by
  obtain ⟨i1, i2, i3⟩ := hi
  have e0 : binEdge a 0 = a.1 := by unfold binEdge; simp
  have hn : (0 : ℝ) < a.2.2 := by exact_mod_cast h.2
  have en : binEdge a a.2.2 = a.2.1 := by unfold binEdge; field_simp; ring
  have h0 := binEdge_mono h (i := 0) (j := i) (Nat.zero_le _)
  have h1 := binEdge_mono h (i := i + 1) (j := a.2.2) i1
  rw [e0] at h0
  rw [en] at h1
  refine ⟨by linarith, ?_⟩
  rcases i3 with i3 | ⟨-, i3⟩ <;> linarith

theorem boxContains_cons {a : ℝ × ℝ × Nat} {spec : List (ℝ × ℝ × Nat)} {j : Nat} {idx : List Nat} {x : ℝ} {pos : List ℝ} :
    BoxContains (a :: spec) (j :: idx) (x :: pos) ↔ BinContains a j x ∧ BoxContains spec idx pos := by
  unfold BoxContains
  constructor
  · rintro ⟨h1, h2⟩
    refine ⟨h2 0 a j x rfl rfl rfl, by simpa using h1, fun i a' j' x' ha hj hx => h2 (i + 1) a' j' x' ?_ ?_ ?_⟩
    · simpa using ha
    · simpa using hj
    · simpa using hx
  · rintro ⟨h0, h1, h2⟩
    refine ⟨by simpa using h1, fun i a' j' x' ha hj hx => ?_⟩
    cases i with
    | zero =>
      simp at ha hj hx
      rw [← ha, ← hj, ← hx]
      exact h0
    | succ i => exact h2 i a' j' x' (by simpa using ha) (by simpa using hj) (by simpa using hx)

theorem withinRanges_cons {a : ℝ × ℝ × Nat} {spec : List (ℝ × ℝ × Nat)} {x : ℝ} {pos : List ℝ} :
    WithinRanges (a :: spec) (x :: pos) ↔ (a.1 ≤ x ∧ x ≤ a.2.1) ∧ WithinRanges spec pos := by
  unfold WithinRanges
  constructor
  · intro h
    refine ⟨h 0 a x rfl rfl, fun i a' x' ha hx => h (i + 1) a' x' (by simpa using ha) (by simpa using hx)⟩
  · rintro ⟨h0, h2⟩ i a' x' ha hx
    cases i with
    | zero =>
      simp at ha hx
      rw [← ha, ← hx]
      exact h0
    | succ i => exact h2 i a' x' (by simpa using ha) (by simpa using hx)

theorem withinRanges_iff {spec : List (ℝ × ℝ × Nat)} : ∀ {pos : List ℝ}, pos.length = spec.length →
    (WithinRanges spec pos ↔ ∀ q ∈ (spec.map axisOf).zip pos, q.2 ≥ q.1.min ∧ q.2 ≤ q.1.max) := by
  induction spec with
  | nil => intro pos h; simp [WithinRanges]
  | cons a spec ih =>
    intro pos h
    cases pos with
    | nil => simp at h
    | cons x pos =>
      rw [withinRanges_cons, ih (by simpa using h)]
      simp [axisOf]

theorem binIndex_ok {spec : List (ℝ × ℝ × Nat)} (hs : ∀ a ∈ spec, ProperAxis a) : ∀ {pos : List ℝ}, pos.length = spec.length → WithinRanges spec pos →
    ∃ idx, ((spec.map axisOf).zip pos).mapM (fun q => axisIndex q.1 q.2) = .ok idx ∧ BoxContains spec idx pos := by
  induction spec with
  | nil => intro pos _ _; exact ⟨[], rfl, rfl, by simp⟩
  | cons a spec ih =>
    intro pos h hw
    cases pos with
    | nil => simp at h
    | cons x pos =>
      rw [withinRanges_cons] at hw
      obtain ⟨j, e1, c1⟩ := axisIndex_ok (hs a (by simp)) hw.1.1 hw.1.2
      obtain ⟨idx, e2, c2⟩ := ih (fun b hb => hs b (by simp [hb])) (by simpa using h) hw.2
      refine ⟨j :: idx, ?_, boxContains_cons.mpr ⟨c1, c2⟩⟩
      rw [List.map_cons, List.zip_cons_cons, List.mapM_cons]
      simp only
      rw [e1, Outcome.ok_bind, e2, Outcome.ok_bind]
      rfl

theorem box_unique {spec : List (ℝ × ℝ × Nat)} (hs : ∀ a ∈ spec, a.1 < a.2.1 ∧ 0 < a.2.2) : ∀ {pos : List ℝ} {i j : List Nat}, pos.length = spec.length →
    BoxContains spec i pos → BoxContains spec j pos → i = j := by
  induction spec with
  | nil =>
    intro pos i j _ hi hj
    rw [List.length_eq_zero_iff.mp hi.1, List.length_eq_zero_iff.mp hj.1]
  | cons a spec ih =>
    intro pos i j h hi hj
    cases pos with
    | nil => simp at h
    | cons x pos =>
      cases i with
      | nil => have := hi.1; simp at this
      | cons i0 i =>
        cases j with
        | nil => have := hj.1; simp at this
        | cons j0 j =>
          rw [boxContains_cons] at hi hj
          rw [contains_unique (hs a (by simp)) hi.1 hj.1, ih (fun b hb => hs b (by simp [hb])) (by simpa using h) hi.2 hj.2]

theorem properIndex_iff {spec : List (ℝ × ℝ × Nat)} : ∀ {idx : List Nat}, idx.length = spec.length →
    (ProperIndex spec idx ↔ ∀ q ∈ (spec.map axisOf).zip idx, q.2 < q.1.n) := by
  intro idx h
  unfold ProperIndex
  constructor
  · rintro ⟨-, h2⟩ q hq
    obtain ⟨i, hi⟩ := List.mem_iff_getElem?.mp hq
    rw [List.getElem?_zip_eq_some] at hi
    rw [List.getElem?_map] at hi
    cases ha : spec[i]? with
    | none => rw [ha] at hi; simp at hi
    | some a =>
      rw [ha] at hi
      simp only [Option.map_some, Option.some.injEq] at hi
      have := h2 i a q.2 ha hi.2
      rw [← hi.1]
      exact this
  · intro h2
    refine ⟨h, fun i a j ha hj => ?_⟩
    have : (axisOf a, j) ∈ (spec.map axisOf).zip idx := by
      apply List.mem_iff_getElem?.mpr
      refine ⟨i, ?_⟩
      rw [List.getElem?_zip_eq_some, List.getElem?_map, ha]
      exact ⟨rfl, hj⟩
    exact h2 _ this

theorem proper_of_contains {spec : List (ℝ × ℝ × Nat)} {idx : List Nat} {pos : List ℝ} (hl : pos.length = spec.length) (h : BoxContains spec idx pos) : ProperIndex spec idx := by
  refine ⟨h.1, fun i a j ha hj => ?_⟩
  have hi : i < pos.length := by
    have := (List.getElem?_eq_some_iff.mp ha).1
    omega
  exact (h.2 i a j _ ha hj (List.getElem?_eq_getElem hi)).1

end Rampack.Histogram
