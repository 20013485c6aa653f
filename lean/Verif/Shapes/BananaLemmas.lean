import Verif.Shapes.Banana
import Verif.Shapes.PlacedVolume
import Verif.Geometry.RotationProps
/-
Volumes of balls on an arc.
-/
namespace Rampack.Banana

open Rampack Spec Shapes Composite Volume MeasureTheory

/-- The point of the circle in the plane xz, with the centre on the x axis. -/
noncomputable def arcPoint (x0 R θ : ℝ) : Vec3 ℝ := ⟨x0 - R * Real.cos θ, 0, R * Real.sin θ⟩

theorem rotated (R θ : ℝ) : (Mat3.rotation 0 θ 0).mulVec ⟨-R, 0, 0⟩ = arcPoint 0 R θ := by
  ext <;> simp [Mat3.rotation, Mat3.mulVec, Vec3.dot, arcPoint] <;> ring

theorem turned (d θ : ℝ) : (Mat3.rotation 0 θ 0).mulVec ⟨0, 0, d⟩ = ⟨d * Real.sin θ, 0, d * Real.cos θ⟩ := by
  ext <;> simp [Mat3.rotation, Mat3.mulVec, Vec3.dot] <;> ring

theorem rotation_orthogonal (a b c : ℝ) : Orthogonal (Mat3.rotation a b c) := by
  have h := (C54_rotation ⟨a, b, c⟩).2.1
  have h2 := orthogonal_flip (m := (Mat3.rotation a b c).transpose) (by
    unfold Orthogonal
    rw [show (Mat3.rotation a b c).transpose.transpose = Mat3.rotation a b c by ext <;> rfl]
    exact h)
  rwa [show (Mat3.rotation a b c).transpose.transpose = Mat3.rotation a b c by ext <;> rfl] at h2

/-- The chord between two points of the circle. -/
theorem chord (x0 R a b : ℝ) : arcPoint x0 R b = (Mat3.rotation 0 ((a + b) / 2) 0).mulVec ⟨0, 0, 2 * R * Real.sin ((b - a) / 2)⟩ + arcPoint x0 R a := by
  rw [turned]
  have e1 := Real.cos_sub_cos a b
  have e2 := Real.sin_sub_sin b a
  have e3 : (a - b) / 2 = -((b - a) / 2) := by ring
  have e4 : (b + a) / 2 = (a + b) / 2 := by ring
  rw [e3, Real.sin_neg] at e1
  rw [e4] at e2
  unfold arcPoint
  ext
  · simp only [Vec3.add_x]; linear_combination R * e1
  · simp
  · simp only [Vec3.add_z]; linear_combination R * e2

theorem chord_length {x0 R a b : ℝ} (hR : 0 < R) (h1 : a < b) (h2 : b < a + 2 * Real.pi) : (arcPoint x0 R b - arcPoint x0 R a).norm = 2 * R * Real.sin ((b - a) / 2) ∧ 0 < 2 * R * Real.sin ((b - a) / 2) := by
  have hs : 0 < Real.sin ((b - a) / 2) := Real.sin_pos_of_pos_of_lt_pi (by linarith) (by linarith)
  have hd : 0 < 2 * R * Real.sin ((b - a) / 2) := by positivity
  refine ⟨?_, hd⟩
  rw [chord x0 R a b, turned]
  unfold Vec3.norm
  rw [Real.sqrt_eq_iff_eq_sq _ hd.le]
  · simp only [Vec3.norm2, Vec3.dot, Vec3.sub_x, Vec3.sub_y, Vec3.sub_z, Vec3.add_x, Vec3.add_y, Vec3.add_z]
    have := Real.sin_sq_add_cos_sq ((a + b) / 2)
    linear_combination (2 * R * Real.sin ((b - a) / 2)) ^ 2 * this
  · unfold Vec3.norm2 Vec3.dot; nlinarith [mul_self_nonneg 1]

/-- The common part of two equal balls on the circle. -/
theorem arc_common (x0 : ℝ) {R a b r : ℝ} (hR : 0 < R) (hr : 0 < r) (h1 : a < b) (h2 : b < a + 2 * Real.pi) :
    volume (points (Ball (arcPoint x0 R a) r) ∩ points (Ball (arcPoint x0 R b) r)) = ENNReal.ofReal (common r r (2 * R * Real.sin ((b - a) / 2))) := by
  obtain ⟨-, hd⟩ := chord_length (x0 := x0) hR h1 h2
  have ho := rotation_orthogonal 0 ((a + b) / 2) 0
  have key := common_volume 0 hr hr hd (by linarith) (by linarith)
  rw [zero_add] at key
  rw [← key]
  have := placed_volume (fun p => Ball ⟨0, 0, 0⟩ r p ∧ Ball ⟨0, 0, 2 * R * Real.sin ((b - a) / 2)⟩ r p) ho (arcPoint x0 R a)
  rw [show points (Ball ⟨0, 0, 0⟩ r) ∩ points (Ball ⟨0, 0, 2 * R * Real.sin ((b - a) / 2)⟩ r) = points (fun p => Ball ⟨0, 0, 0⟩ r p ∧ Ball ⟨0, 0, 2 * R * Real.sin ((b - a) / 2)⟩ r p) from rfl, ← this]
  congr 1
  ext p
  have hinv : ∀ v : Vec3 ℝ, (Mat3.rotation 0 ((a + b) / 2) 0).transpose.mulVec ((Mat3.rotation 0 ((a + b) / 2) 0).mulVec v) = v := by
    intro v
    rw [Mat3.mulVec_mulVec, show (Mat3.rotation 0 ((a + b) / 2) 0).transpose * Mat3.rotation 0 ((a + b) / 2) 0 = 1 from ho, Mat3.one_mulVec]
  have hn := fun v => orthogonal_norm2 (orthogonal_flip ho) v
  show (Ball (arcPoint x0 R a) r _ ∧ Ball (arcPoint x0 R b) r _) ↔ Placed _ _ _ _
  rw [placed_iff ho]
  generalize (⟨p.1.1, p.1.2, p.2⟩ : Vec3 ℝ) = q
  have e1 : ((Mat3.rotation 0 ((a + b) / 2) 0).transpose.mulVec (q - arcPoint x0 R a) - ⟨0, 0, 0⟩).norm2 = (q - arcPoint x0 R a).norm2 := by
    rw [← hn (q - arcPoint x0 R a)]
    congr 1
    ext <;> simp
  have e2 : ((Mat3.rotation 0 ((a + b) / 2) 0).transpose.mulVec (q - arcPoint x0 R a) - ⟨0, 0, 2 * R * Real.sin ((b - a) / 2)⟩).norm2 = (q - arcPoint x0 R b).norm2 := by
    rw [← hn (q - arcPoint x0 R b)]
    congr 1
    rw [chord x0 R a b]
    generalize hv : (⟨0, 0, 2 * R * Real.sin ((b - a) / 2)⟩ : Vec3 ℝ) = v
    have := hinv v
    have hsub : ∀ (m : Mat3) (u w z : Vec3 ℝ), m.mulVec (u - (w + z)) = m.mulVec (u - z) - m.mulVec w := by
      intro m u w z
      ext <;> simp only [Mat3.mulVec, Vec3.dot, Vec3.sub_x, Vec3.sub_y, Vec3.sub_z, Vec3.add_x, Vec3.add_y, Vec3.add_z] <;> ring
    rw [hsub, this]
  unfold Ball
  rw [e1, e2]

/-- A number which is above a level at two angles is above it at angles between. -/
theorem arc_between {α β k a b d : ℝ} (hk : 0 ≤ k) (hab : a ≤ b) (hbd : b ≤ d) (h : d - a ≤ Real.pi) (ha : k < α * Real.cos a + β * Real.sin a) (hd : k < α * Real.cos d + β * Real.sin d) :
    k < α * Real.cos b + β * Real.sin b := by
  have s1 : 0 ≤ Real.sin (d - b) := Real.sin_nonneg_of_nonneg_of_le_pi (by linarith) (by linarith)
  have s2 : 0 ≤ Real.sin (b - a) := Real.sin_nonneg_of_nonneg_of_le_pi (by linarith) (by linarith)
  have s3 : 0 ≤ Real.sin (d - a) := Real.sin_nonneg_of_nonneg_of_le_pi (by linarith) (by linarith)
  have id : Real.sin (d - a) * (α * Real.cos b + β * Real.sin b) = Real.sin (d - b) * (α * Real.cos a + β * Real.sin a) + Real.sin (b - a) * (α * Real.cos d + β * Real.sin d) := by
    rw [Real.sin_sub, Real.sin_sub, Real.sin_sub]; ring
  rcases eq_or_lt_of_le s3 with e | hpos
  · -- the ends are the same, or opposite
    have hz : d - a = 0 ∨ d - a = Real.pi := by
      by_contra hne
      rw [not_or] at hne
      have : 0 < Real.sin (d - a) := Real.sin_pos_of_pos_of_lt_pi (lt_of_le_of_ne (by linarith) (Ne.symm hne.1)) (lt_of_le_of_ne h hne.2)
      linarith
    rcases hz with hz | hz
    · have : b = a := by linarith
      rw [this]; exact ha
    · have : d = a + Real.pi := by linarith
      rw [this, Real.cos_add_pi, Real.sin_add_pi] at hd
      linarith
  · have hsum : Real.sin (d - a) ≤ Real.sin (d - b) + Real.sin (b - a) := by
      have : d - a = (d - b) + (b - a) := by ring
      rw [this, Real.sin_add]
      have c1 := Real.cos_le_one (b - a)
      have c2 := Real.cos_le_one (d - b)
      nlinarith
    have hstrict : Real.sin (d - a) * k < Real.sin (d - a) * (α * Real.cos b + β * Real.sin b) := by
      rw [id]
      have h1 : Real.sin (d - b) * k ≤ Real.sin (d - b) * (α * Real.cos a + β * Real.sin a) := mul_le_mul_of_nonneg_left ha.le s1
      have h2 : Real.sin (b - a) * k ≤ Real.sin (b - a) * (α * Real.cos d + β * Real.sin d) := mul_le_mul_of_nonneg_left hd.le s2
      have h3 : Real.sin (d - a) * k ≤ Real.sin (d - b) * k + Real.sin (b - a) * k := by nlinarith
      rcases eq_or_lt_of_le s1 with e1 | e1
      · have e2 : 0 < Real.sin (b - a) := by linarith
        have := mul_lt_mul_of_pos_left hd e2
        linarith
      · have := mul_lt_mul_of_pos_left ha e1
        linarith
    exact lt_of_mul_lt_mul_left hstrict hpos.le

/-- Which balls on the circle hold a point. -/
theorem inside_iff (x0 R r : ℝ) (p : Vec3 ℝ) (θ : ℝ) : Ball (arcPoint x0 R θ) r p ↔
    ((p.x - x0) ^ 2 + p.y ^ 2 + p.z ^ 2 + R ^ 2 - r ^ 2) / 2 < (-(R * (p.x - x0))) * Real.cos θ + (R * p.z) * Real.sin θ := by
  unfold Ball arcPoint
  simp only [Vec3.norm2, Vec3.dot, Vec3.sub_x, Vec3.sub_y, Vec3.sub_z]
  have := Real.sin_sq_add_cos_sq θ
  constructor <;> intro h <;> nlinarith

/-- The ball between two balls on the circle holds their common part. -/
theorem ball_between {x0 R r a b d : ℝ} (hr : 0 < r) (hR : r ≤ R) (hab : a ≤ b) (hbd : b ≤ d) (h : d - a ≤ Real.pi) {p : Vec3 ℝ} (ha : Ball (arcPoint x0 R a) r p) (hd : Ball (arcPoint x0 R d) r p) :
    Ball (arcPoint x0 R b) r p := by
  rw [inside_iff] at ha hd ⊢
  refine arc_between ?_ hab hbd h ha hd
  nlinarith [sq_nonneg (p.x - x0), sq_nonneg p.y, sq_nonneg p.z]

theorem arc_around (x0 R θ : ℝ) : arcPoint x0 R (θ + 2 * Real.pi) = arcPoint x0 R θ := by
  unfold arcPoint; rw [Real.cos_add_two_pi, Real.sin_add_two_pi]

/-- No point is in two opposite balls. -/
theorem opposite {x0 R r θ : ℝ} (hr : 0 < r) (hR : r ≤ R) {p : Vec3 ℝ} (h1 : Ball (arcPoint x0 R θ) r p) (h2 : Ball (arcPoint x0 R (θ + Real.pi)) r p) : False := by
  rw [inside_iff] at h1 h2
  rw [Real.cos_add_pi, Real.sin_add_pi] at h2
  nlinarith [sq_nonneg (p.x - x0), sq_nonneg p.y, sq_nonneg p.z]

/-- The measure of a union from parts which are in a set, but not in the next one. -/
theorem pieces_volume {n : ℕ} {A N : ℕ → Set ((ℝ × ℝ) × ℝ)} (hA : ∀ k < n, MeasurableSet (A k)) (hN : ∀ k < n, MeasurableSet (N k)) {a i : ℕ → ℝ} (ha0 : ∀ k < n, 0 ≤ a k) (hi0 : ∀ k < n, 0 ≤ i k)
    (ha : ∀ k < n, volume (A k) = ENNReal.ofReal (a k)) (hi : ∀ k < n, volume (A k ∩ N k) = ENNReal.ofReal (i k)) (hd : ∀ j k, j < k → k < n → Disjoint (A j \ N j) (A k \ N k))
    (hc : ∀ k < n, ∀ p ∈ A k, ∃ j < n, p ∈ A j \ N j) :
    0 ≤ ∑ k ∈ Finset.range n, (a k - i k) ∧ volume {p | ∃ k < n, p ∈ A k} = ENNReal.ofReal (∑ k ∈ Finset.range n, (a k - i k)) := by
  have hpiece : ∀ k < n, 0 ≤ a k - i k ∧ volume (A k \ N k) = ENNReal.ofReal (a k - i k) := by
    intro k hk
    have hle : i k ≤ a k := by
      have h2 : volume (A k ∩ N k) ≤ volume (A k) := measure_mono Set.inter_subset_left
      rw [hi k hk, ha k hk] at h2
      exact (ENNReal.ofReal_le_ofReal_iff (ha0 k hk)).mp h2
    refine ⟨by linarith, ?_⟩
    have := measure_diff_add_inter (μ := volume) (A k) (hN k hk)
    rw [hi k hk, ha k hk] at this
    rw [ENNReal.ofReal_sub _ (hi0 k hk), ← this]
    exact (ENNReal.add_sub_cancel_right ENNReal.ofReal_ne_top).symm
  refine ⟨Finset.sum_nonneg fun k hk => (hpiece k (Finset.mem_range.mp hk)).1, ?_⟩
  have e : {p | ∃ k < n, p ∈ A k} = ⋃ k ∈ Finset.range n, A k \ N k := by
    ext p
    simp only [Set.mem_setOf_eq, Set.mem_iUnion, Finset.mem_range, exists_prop]
    constructor
    · rintro ⟨k, hk, hp⟩; exact hc k hk p hp
    · rintro ⟨k, hk, hp⟩; exact ⟨k, hk, hp.1⟩
  rw [e, measure_biUnion_finset, ENNReal.ofReal_sum_of_nonneg]
  · exact Finset.sum_congr rfl fun k hk => (hpiece k (Finset.mem_range.mp hk)).2
  · exact fun k hk => (hpiece k (Finset.mem_range.mp hk)).1
  · intro j hj k hk hjk
    rw [Finset.mem_coe, Finset.mem_range] at hj hk
    rcases lt_or_gt_of_ne hjk with h | h
    · exact hd j k h hk
    · exact (hd k j h hj).symm
  · intro k hk
    exact (hA k (Finset.mem_range.mp hk)).diff (hN k (Finset.mem_range.mp hk))

end Rampack.Banana
