import Verif.Geometry.SegmentLemmas
import Mathlib.Tactic.NormNum
/-
C53: the distance of segments.
-/
namespace Rampack

open Spec Segment

theorem onSegment_start (a b : Vec3 ℝ) {s : ℝ} (h : 0 ≤ s ∧ s ≤ 1) : OnSegment a b (a + s • (b - a)) := ⟨s, h.1, h.2, rfl⟩

theorem points_diff (a1 b1 a2 b2 : Vec3 ℝ) (s t : ℝ) : a1 + s • (b1 - a1) - (a2 + t • (b2 - a2)) = a1 - a2 + s • (b1 - a1) - t • (b2 - a2) := by
  ext
  all_goals
    simp only [Vec3.add_x, Vec3.add_y, Vec3.add_z, Vec3.sub_x, Vec3.sub_y, Vec3.sub_z, Vec3.smul_x, Vec3.smul_y, Vec3.smul_z]
    ring

theorem eps_pos : 0 < EPSILON := by unfold EPSILON; norm_num

/-- C53: the squared distance is the one of a pair of points of segments, for all segments, so the distance is never smaller than the true one. -/
theorem C53_attained (a1 b1 a2 b2 : Vec3 ℝ) : ∃ p q, OnSegment a1 b1 p ∧ OnSegment a2 b2 q ∧ calculate a1 b1 a2 b2 = (p - q).norm2 := by
  obtain ⟨h1, h2⟩ := closest_unit eps_pos (b1 - a1) (b2 - a2) (a1 - a2)
  exact ⟨_, _, onSegment_start a1 b1 h1, onSegment_start a2 b2 h2, by rw [points_diff]; rfl⟩

/-- C53: no points of segments are nearer, up to a small error. The squared lengths of segments are at least `K`, and they are parallel or the squared area of their parallelogram is at least `K`, which is at
least 10⁻¹⁰; then the error is at most 10⁻¹⁰ / `K` times the sum of lengths. What is missing: segments which are not parallel, but for which the area is smaller, or which are short; see the counterexamples. -/
theorem C53_minimal_partial {K : ℝ} (hK : 1 / 10 ^ 10 ≤ K) {a1 b1 a2 b2 : Vec3 ℝ} (h1 : K ≤ (b1 - a1).norm2) (h2 : K ≤ (b2 - a2).norm2)
    (hD : area2 (b1 - a1) (b2 - a2) = 0 ∨ K ≤ area2 (b1 - a1) (b2 - a2)) {p q : Vec3 ℝ} (hp : OnSegment a1 b1 p) (hq : OnSegment a2 b2 q) :
    Real.sqrt (calculate a1 b1 a2 b2) ≤ (p - q).norm + 1 / 10 ^ 10 / K * ((b1 - a1).norm + (b2 - a2).norm) := by
  obtain ⟨s', hs1, hs2, rfl⟩ := hp
  obtain ⟨t', ht1, ht2, rfl⟩ := hq
  obtain ⟨s, t, ho, k1, k2⟩ := closest_near (w := a1 - a2) eps_pos (by unfold EPSILON; norm_num) hK h1 h2 hD
  obtain ⟨x, hx⟩ : ∃ x, x = (closest EPSILON (b1 - a1) (b2 - a2) (a1 - a2)).1 := ⟨_, rfl⟩
  obtain ⟨y, hy⟩ : ∃ y, y = (closest EPSILON (b1 - a1) (b2 - a2) (a1 - a2)).2 := ⟨_, rfl⟩
  rw [← hx] at k1
  rw [← hy] at k2
  rw [points_diff]
  show (a1 - a2 + (closest EPSILON (b1 - a1) (b2 - a2) (a1 - a2)).1 • (b1 - a1) - (closest EPSILON (b1 - a1) (b2 - a2) (a1 - a2)).2 • (b2 - a2)).norm ≤ _
  rw [← hx, ← hy]
  have e : a1 - a2 + x • (b1 - a1) - y • (b2 - a2) = (a1 - a2 + s • (b1 - a1) - t • (b2 - a2)) + ((x - s) • (b1 - a1) + (t - y) • (b2 - a2)) := by
    ext
    all_goals
      simp only [Vec3.add_x, Vec3.add_y, Vec3.add_z, Vec3.sub_x, Vec3.sub_y, Vec3.sub_z, Vec3.smul_x, Vec3.smul_y, Vec3.smul_z]
      ring
  have m1 := Domain.norm_add_le' (a1 - a2 + s • (b1 - a1) - t • (b2 - a2)) ((x - s) • (b1 - a1) + (t - y) • (b2 - a2))
  have m2 := Domain.norm_add_le' ((x - s) • (b1 - a1)) ((t - y) • (b2 - a2))
  rw [norm_smul', norm_smul', abs_sub_comm t y] at m2
  have m3 : (a1 - a2 + s • (b1 - a1) - t • (b2 - a2)).norm ≤ (a1 - a2 + s' • (b1 - a1) - t' • (b2 - a2)).norm := Real.sqrt_le_sqrt (optimal_min ho ⟨hs1, hs2⟩ ⟨ht1, ht2⟩)
  have m4 := mul_le_mul_of_nonneg_right k1 (Vec3.norm_nonneg (b1 - a1))
  have m5 := mul_le_mul_of_nonneg_right k2 (Vec3.norm_nonneg (b2 - a2))
  unfold EPSILON at m4 m5
  rw [e, mul_add]
  linarith

/-- Two perpendicular segments of length 2 meet the hypotheses with `K = 1`, so the error is at most 4·10⁻¹⁰. -/
example : 1 / 10 ^ 10 ≤ (1 : ℝ) ∧ (1 : ℝ) ≤ ((⟨1, 0, 0⟩ : Vec3 ℝ) - ⟨-1, 0, 0⟩).norm2 ∧ (1 : ℝ) ≤ ((⟨0, 1, 0⟩ : Vec3 ℝ) - ⟨0, -1, 0⟩).norm2 ∧
    (1 : ℝ) ≤ area2 ((⟨1, 0, 0⟩ : Vec3 ℝ) - ⟨-1, 0, 0⟩) ((⟨0, 1, 0⟩ : Vec3 ℝ) - ⟨0, -1, 0⟩) := by
  unfold area2 Vec3.norm2 Vec3.dot
  simp only [Vec3.sub_x, Vec3.sub_y, Vec3.sub_z]
  norm_num

/-- C53 fails for nearly parallel segments of unit length: the numerator of a parameter is taken for zero, although the denominator is small, too. The segments below have a common point, but their squared distance
is said to be 1/4. -/
theorem C53_near_parallel_violated : calculate ⟨0, 0, 0⟩ ⟨1, 0, 0⟩ ⟨-1 / 2, -11 / 10 ^ 6, 0⟩ ⟨1 / 2, 0, 0⟩ = 1 / 4 ∧
    OnSegment ⟨0, 0, 0⟩ ⟨1, 0, 0⟩ ⟨1 / 2, 0, 0⟩ ∧ OnSegment ⟨-1 / 2, -11 / 10 ^ 6, 0⟩ ⟨1 / 2, 0, 0⟩ ⟨1 / 2, 0, 0⟩ := by
  refine ⟨?_, ⟨1 / 2, by norm_num, by norm_num, ?_⟩, ⟨1, by norm_num, by norm_num, ?_⟩⟩
  · unfold calculate closest first second ratio EPSILON Vec3.norm2 Vec3.dot
    simp only [Vec3.add_x, Vec3.add_y, Vec3.add_z, Vec3.sub_x, Vec3.sub_y, Vec3.sub_z, Vec3.smul_x, Vec3.smul_y, Vec3.smul_z]
    norm_num [abs_of_pos]
  · ext
    all_goals
      simp only [Vec3.add_x, Vec3.add_y, Vec3.add_z, Vec3.sub_x, Vec3.sub_y, Vec3.sub_z, Vec3.smul_x, Vec3.smul_y, Vec3.smul_z]
      norm_num
  · ext
    all_goals
      simp only [Vec3.add_x, Vec3.add_y, Vec3.add_z, Vec3.sub_x, Vec3.sub_y, Vec3.sub_z, Vec3.smul_x, Vec3.smul_y, Vec3.smul_z]
      norm_num

/-- C53 fails for short segments: all of them are taken for parallel ones. The perpendicular segments of length 1/500 below cross each other, but their squared distance is said to be 10⁻⁶. -/
theorem C53_short_violated : calculate ⟨-1 / 1000, 0, 0⟩ ⟨1 / 1000, 0, 0⟩ ⟨0, -1 / 1000, 0⟩ ⟨0, 1 / 1000, 0⟩ = 1 / 10 ^ 6 ∧
    OnSegment ⟨-1 / 1000, 0, 0⟩ ⟨1 / 1000, 0, 0⟩ ⟨0, 0, 0⟩ ∧ OnSegment ⟨0, -1 / 1000, 0⟩ ⟨0, 1 / 1000, 0⟩ ⟨0, 0, 0⟩ := by
  refine ⟨?_, ⟨1 / 2, by norm_num, by norm_num, ?_⟩, ⟨1 / 2, by norm_num, by norm_num, ?_⟩⟩
  · unfold calculate closest first second ratio EPSILON Vec3.norm2 Vec3.dot
    simp only [Vec3.add_x, Vec3.add_y, Vec3.add_z, Vec3.sub_x, Vec3.sub_y, Vec3.sub_z, Vec3.smul_x, Vec3.smul_y, Vec3.smul_z]
    norm_num [abs_of_pos]
  · ext
    all_goals
      simp only [Vec3.add_x, Vec3.add_y, Vec3.add_z, Vec3.sub_x, Vec3.sub_y, Vec3.sub_z, Vec3.smul_x, Vec3.smul_y, Vec3.smul_z]
      norm_num
  · ext
    all_goals
      simp only [Vec3.add_x, Vec3.add_y, Vec3.add_z, Vec3.sub_x, Vec3.sub_y, Vec3.sub_z, Vec3.smul_x, Vec3.smul_y, Vec3.smul_z]
      norm_num

/-- A point as the second segment is not supported: the distance of the beginning of the first segment to it is given. -/
theorem C53_point_violated : calculate ⟨0, 0, 0⟩ ⟨2, 0, 0⟩ ⟨1, 0, 0⟩ ⟨1, 0, 0⟩ = 1 ∧ OnSegment ⟨0, 0, 0⟩ ⟨2, 0, 0⟩ ⟨1, 0, 0⟩ := by
  refine ⟨?_, ⟨1 / 2, by norm_num, by norm_num, ?_⟩⟩
  · unfold calculate closest first second ratio EPSILON Vec3.norm2 Vec3.dot
    simp only [Vec3.add_x, Vec3.add_y, Vec3.add_z, Vec3.sub_x, Vec3.sub_y, Vec3.sub_z, Vec3.smul_x, Vec3.smul_y, Vec3.smul_z]
    norm_num [abs_of_pos]
  · ext
    all_goals
      simp only [Vec3.add_x, Vec3.add_y, Vec3.add_z, Vec3.sub_x, Vec3.sub_y, Vec3.sub_z, Vec3.smul_x, Vec3.smul_y, Vec3.smul_z]
      norm_num

end Rampack
