import Verif.Shapes.VolumeLemmas
import Verif.Shapes.Composite
/-
Volumes of rows of balls on the z axis.
-/
namespace Rampack.Volume

open Rampack Spec Shapes MeasureTheory

/-- Balls with given heights and radii. -/
def row (n : Nat) (c r : Nat → ℝ) : List SphereData := (List.range n).map fun k => ⟨⟨0, 0, c k⟩, r k⟩

theorem row_length (n : Nat) (c r : Nat → ℝ) : (row n c r).length = n := by simp [row]

theorem row_get {n k : Nat} (h : k < n) (c r : Nat → ℝ) : (row n c r)[k]? = some ⟨⟨0, 0, c k⟩, r k⟩ := by
  simp [row, h]

theorem row_succ (n : Nat) (c r : Nat → ℝ) : row (n + 1) c r = row n c r ++ [⟨⟨0, 0, c n⟩, r n⟩] := by
  simp [row, List.range_succ]

theorem row_cons (n : Nat) (c r : Nat → ℝ) : row (n + 1) c r = ⟨⟨0, 0, c 0⟩, r 0⟩ :: row n (fun k => c (k + 1)) fun k => r (k + 1) := by
  simp [row, List.range_succ_eq_map, Function.comp_def]

theorem row_congr {n : Nat} {c c' r r' : Nat → ℝ} (hc : ∀ k < n, c k = c' k) (hr : ∀ k < n, r k = r' k) : row n c r = row n c' r' := by
  unfold row
  apply List.map_congr_left
  intro k hk
  rw [hc k (List.mem_range.mp hk), hr k (List.mem_range.mp hk)]

theorem balls_succ (n : Nat) (c r : Nat → ℝ) : points (Balls3 (row (n + 1) c r)) = points (Balls3 (row n c r)) ∪ points (Ball ⟨0, 0, c n⟩ (r n)) := by
  rw [row_succ]
  ext p
  simp only [points, Balls3, List.mem_append, List.mem_singleton, Set.mem_union, Set.mem_setOf_eq, or_and_right, exists_or, exists_eq_left]
  rfl

theorem balls_zero (c r : Nat → ℝ) : points (Balls3 (row 0 c r)) = ∅ := by
  ext p
  simp [points, Balls3, row]

theorem balls_measurable (n : Nat) (c r : Nat → ℝ) : MeasurableSet (points (Balls3 (row n c r))) := by
  induction n with
  | zero => rw [balls_zero]; exact MeasurableSet.empty
  | succ n ih => rw [balls_succ]; exact ih.union (measurable_ball _ _)

/-- The volume of the common part of two balls in the distance `d`. -/
noncomputable def common (r1 r2 d : ℝ) : ℝ :=
  if d < r1 + r2 then Real.pi / 12 / d * (r1 + r2 - d) ^ 2 * (d * d + 2 * d * (r1 + r2) - 3 * (r1 - r2) ^ 2) else 0

theorem common_nonneg {r1 r2 d : ℝ} (hr1 : 0 < r1) (hr2 : 0 < r2) (hd : 0 < d) (h12 : r1 - r2 ≤ d) (h21 : r2 - r1 ≤ d) : 0 ≤ common r1 r2 d := by
  unfold common
  split
  · rename_i h
    have : 0 ≤ d * d + 2 * d * (r1 + r2) - 3 * (r1 - r2) ^ 2 := by nlinarith
    have := Real.pi_pos
    positivity
  · exact le_refl _

theorem common_volume (c : ℝ) {r1 r2 d : ℝ} (hr1 : 0 < r1) (hr2 : 0 < r2) (hd : 0 < d) (h12 : r1 - r2 ≤ d) (h21 : r2 - r1 ≤ d) :
    volume (points (Ball ⟨0, 0, c⟩ r1) ∩ points (Ball ⟨0, 0, c + d⟩ r2)) = ENNReal.ofReal (common r1 r2 d) := by
  unfold common
  split
  · rename_i h
    exact lens_volume c hr1 hr2 hd h12 h21 h.le
  · rename_i h
    rw [ENNReal.ofReal_zero]
    convert measure_empty (μ := (volume : Measure ((ℝ × ℝ) × ℝ)))
    rw [points_ball, points_ball]
    ext p
    simp only [Set.mem_inter_iff, Set.mem_setOf_eq, Set.mem_empty_iff_false, iff_false, not_and, not_lt]
    intro h1
    have h2 : (p.2 - c) ^ 2 < r1 ^ 2 := by nlinarith [sq_nonneg p.1.1, sq_nonneg p.1.2]
    have h3 : p.2 - c < r1 := lt_of_pow_lt_pow_left₀ 2 hr1.le h2
    nlinarith [sq_nonneg p.1.1, sq_nonneg p.1.2]

/-- The ball between two balls holds their common part. -/
theorem between {c1 c2 c3 r1 r2 r3 : ℝ} (h12 : c1 ≤ c2) (h23 : c2 ≤ c3) (h13 : c1 < c3)
    (h : 0 ≤ (c3 - c1) * r2 ^ 2 - (c3 - c2) * r1 ^ 2 - (c2 - c1) * r3 ^ 2 + (c2 - c1) * (c3 - c2) * (c3 - c1)) :
    points (Ball ⟨0, 0, c1⟩ r1) ∩ points (Ball ⟨0, 0, c3⟩ r3) ⊆ points (Ball ⟨0, 0, c2⟩ r2) := by
  rw [points_ball, points_ball, points_ball]
  rintro p ⟨h1, h3⟩
  simp only [Set.mem_setOf_eq] at h1 h3 ⊢
  generalize p.1.1 ^ 2 + p.1.2 ^ 2 = q at *
  have key : (c3 - c1) * (r2 ^ 2 - (p.2 - c2) ^ 2 - q) = (c3 - c2) * (r1 ^ 2 - (p.2 - c1) ^ 2 - q) + (c2 - c1) * (r3 ^ 2 - (p.2 - c3) ^ 2 - q) +
      ((c3 - c1) * r2 ^ 2 - (c3 - c2) * r1 ^ 2 - (c2 - c1) * r3 ^ 2 + (c2 - c1) * (c3 - c2) * (c3 - c1)) := by ring
  have h4 : 0 < (c3 - c2) * (r1 ^ 2 - (p.2 - c1) ^ 2 - q) + (c2 - c1) * (r3 ^ 2 - (p.2 - c3) ^ 2 - q) := by
    rcases eq_or_lt_of_le h12 with e | e
    · rw [e, sub_self, zero_mul, add_zero]
      rw [e] at h13 h1
      exact mul_pos (by linarith) (by linarith)
    · exact add_pos_of_nonneg_of_pos (mul_nonneg (by linarith) (by linarith)) (mul_pos (by linarith) (by linarith))
  have h5 : 0 < (c3 - c1) * (r2 ^ 2 - (p.2 - c2) ^ 2 - q) := by rw [key]; linarith
  have := pos_of_mul_pos_right h5 (by linarith)
  linarith

/-- What has to hold for the volume of a row: neighbouring balls do not hold each other, and no ball meets another one outside of the ball between them. -/
structure Ordered (n : Nat) (c r : Nat → ℝ) : Prop where
  pos : ∀ k < n, 0 < r k
  up : ∀ k, k + 1 < n → c k < c (k + 1)
  left : ∀ k, k + 1 < n → r k - r (k + 1) ≤ c (k + 1) - c k
  right : ∀ k, k + 1 < n → r (k + 1) - r k ≤ c (k + 1) - c k
  between : ∀ i j, i < j → j + 1 < n → points (Ball ⟨0, 0, c i⟩ (r i)) ∩ points (Ball ⟨0, 0, c (j + 1)⟩ (r (j + 1))) ⊆ points (Ball ⟨0, 0, c j⟩ (r j))

theorem Ordered.mono {n m : Nat} {c r : Nat → ℝ} (h : Ordered n c r) (hm : m ≤ n) : Ordered m c r :=
  ⟨fun k hk => h.pos k (by omega), fun k hk => h.up k (by omega), fun k hk => h.left k (by omega), fun k hk => h.right k (by omega), fun i j hij hj => h.between i j hij (by omega)⟩

/-- The volume of a row: the sum over balls without the sum over neighbours. -/
noncomputable def rowVolume (n : Nat) (c r : Nat → ℝ) : ℝ :=
  ∑ k ∈ Finset.range (n + 1), 4 / 3 * Real.pi * r k ^ 3 - ∑ k ∈ Finset.range n, common (r k) (r (k + 1)) (c (k + 1) - c k)

/-- The measure of a union. -/
theorem union_volume {S T : Set ((ℝ × ℝ) × ℝ)} (hT : MeasurableSet T) {a b i : ℝ} (ha : 0 ≤ a) (hb : 0 ≤ b) (hi : 0 ≤ i) (hS : volume S = ENNReal.ofReal a) (hTv : volume T = ENNReal.ofReal b)
    (hI : volume (S ∩ T) = ENNReal.ofReal i) : 0 ≤ a + b - i ∧ volume (S ∪ T) = ENNReal.ofReal (a + b - i) := by
  have h := measure_union_add_inter (μ := volume) S hT
  rw [hS, hTv, hI, ← ENNReal.ofReal_add ha hb] at h
  have hle : i ≤ a := by
    have h2 : volume (S ∩ T) ≤ volume S := measure_mono Set.inter_subset_left
    rw [hI, hS] at h2
    exact (ENNReal.ofReal_le_ofReal_iff ha).mp h2
  refine ⟨by linarith, ?_⟩
  rw [ENNReal.ofReal_sub _ hi, ← h]
  exact (ENNReal.add_sub_cancel_right ENNReal.ofReal_ne_top).symm

theorem neighbours {n : Nat} {c r : Nat → ℝ} (h : Ordered (n + 2) c r) :
    points (Balls3 (row (n + 1) c r)) ∩ points (Ball ⟨0, 0, c (n + 1)⟩ (r (n + 1))) = points (Ball ⟨0, 0, c n⟩ (r n)) ∩ points (Ball ⟨0, 0, c (n + 1)⟩ (r (n + 1))) := by
  apply Set.Subset.antisymm
  · rintro p ⟨⟨d, hd, h1⟩, h2⟩
    obtain ⟨k, hk, rfl⟩ := List.mem_map.mp hd
    rw [List.mem_range] at hk
    rcases Nat.lt_or_ge k n with h3 | h3
    · exact ⟨h.between k n h3 (by omega) ⟨h1, h2⟩, h2⟩
    · obtain rfl : k = n := by omega
      exact ⟨h1, h2⟩
  · rintro p ⟨h1, h2⟩
    exact ⟨⟨_, List.mem_map.mpr ⟨n, List.mem_range.mpr (by omega), rfl⟩, h1⟩, h2⟩

/-- The volume of a row of balls. -/
theorem row_volume {c r : Nat → ℝ} : ∀ {n : Nat}, Ordered (n + 1) c r → HasVolume (Balls3 (row (n + 1) c r)) (rowVolume n c r)
  | 0, h => by
    have hp := h.pos 0 (by omega)
    refine ⟨?_, ?_⟩
    · unfold rowVolume
      have := Real.pi_pos
      simp
      positivity
    · rw [balls_succ, balls_zero, Set.empty_union, ball_volume _ hp]
      simp [rowVolume]
  | n + 1, h => by
    obtain ⟨h0, hv⟩ := row_volume (n := n) (h.mono (by omega))
    have hup := h.up n (by omega)
    have hpi := Real.pi_pos
    have hp1 := h.pos n (by omega)
    have hp2 := h.pos (n + 1) (by omega)
    have hcommon := common_volume (c n) hp1 hp2 (sub_pos.mpr hup) (h.left n (by omega)) (h.right n (by omega))
    rw [add_sub_cancel] at hcommon
    have := union_volume (measurable_ball (c (n + 1)) (r (n + 1))) (a := rowVolume n c r) (b := 4 / 3 * Real.pi * r (n + 1) ^ 3) h0 (by positivity)
      (common_nonneg hp1 hp2 (sub_pos.mpr hup) (h.left n (by omega)) (h.right n (by omega))) hv (ball_volume _ hp2) (by rw [neighbours h]; exact hcommon)
    have e : rowVolume (n + 1) c r = rowVolume n c r + 4 / 3 * Real.pi * r (n + 1) ^ 3 - common (r n) (r (n + 1)) (c (n + 1) - c n) := by
      unfold rowVolume
      rw [Finset.sum_range_succ _ (n + 1), Finset.sum_range_succ (fun k => common (r k) (r (k + 1)) (c (k + 1) - c k)) n]
      ring
    rw [HasVolume, e, balls_succ]
    exact this

end Rampack.Volume
