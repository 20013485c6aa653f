import Verif.Geometry.RotationSpec
import Mathlib.Tactic.LinearCombination
/-
Lemmas about rotations.
-/
namespace Rampack

open Spec Real

/-- Equations which hold for elements of a rotation matrix: products of rows, of columns, and elements being their cofactors. -/
structure Facts (m : Mat3) : Prop where
  r00 : m.r0.x * m.r0.x + m.r0.y * m.r0.y + m.r0.z * m.r0.z = 1
  r01 : m.r0.x * m.r1.x + m.r0.y * m.r1.y + m.r0.z * m.r1.z = 0
  r02 : m.r0.x * m.r2.x + m.r0.y * m.r2.y + m.r0.z * m.r2.z = 0
  r11 : m.r1.x * m.r1.x + m.r1.y * m.r1.y + m.r1.z * m.r1.z = 1
  r12 : m.r1.x * m.r2.x + m.r1.y * m.r2.y + m.r1.z * m.r2.z = 0
  r22 : m.r2.x * m.r2.x + m.r2.y * m.r2.y + m.r2.z * m.r2.z = 1
  c00 : m.r0.x * m.r0.x + m.r1.x * m.r1.x + m.r2.x * m.r2.x = 1
  c01 : m.r0.x * m.r0.y + m.r1.x * m.r1.y + m.r2.x * m.r2.y = 0
  c02 : m.r0.x * m.r0.z + m.r1.x * m.r1.z + m.r2.x * m.r2.z = 0
  c11 : m.r0.y * m.r0.y + m.r1.y * m.r1.y + m.r2.y * m.r2.y = 1
  c12 : m.r0.y * m.r0.z + m.r1.y * m.r1.z + m.r2.y * m.r2.z = 0
  c22 : m.r0.z * m.r0.z + m.r1.z * m.r1.z + m.r2.z * m.r2.z = 1
  k00 : m.r0.x = m.r1.y * m.r2.z - m.r1.z * m.r2.y
  k01 : m.r0.y = m.r1.z * m.r2.x - m.r1.x * m.r2.z
  k02 : m.r0.z = m.r1.x * m.r2.y - m.r1.y * m.r2.x
  k10 : m.r1.x = m.r2.y * m.r0.z - m.r2.z * m.r0.y
  k11 : m.r1.y = m.r2.z * m.r0.x - m.r2.x * m.r0.z
  k12 : m.r1.z = m.r2.x * m.r0.y - m.r2.y * m.r0.x
  k20 : m.r2.x = m.r0.y * m.r1.z - m.r0.z * m.r1.y
  k21 : m.r2.y = m.r0.z * m.r1.x - m.r0.x * m.r1.z
  k22 : m.r2.z = m.r0.x * m.r1.y - m.r0.y * m.r1.x

theorem rotation_transpose {m : Mat3} (h : ProperRotation m) : m.transpose = m.inverse := by
  have hd : m.det ≠ 0 := by rw [h.2]; norm_num
  rw [← Mat3.mul_one m.inverse, ← h.1, ← Mat3.mul_assoc, Mat3.inverse_mul_cancel hd, Mat3.one_mul]

theorem rotation_facts {m : Mat3} (h : ProperRotation m) : Facts m := by
  have hd : m.det ≠ 0 := by rw [h.2]; norm_num
  have h1 := h.1
  have h2 : m.transpose * m = 1 := by rw [(rotation_transpose h), Mat3.inverse_mul_cancel hd]
  have h3 := rotation_transpose h
  simp only [Mat3.mul_def, Mat3.mul, Mat3.one_def, Mat3.one, Mat3.transpose, Mat3.c0, Mat3.c1, Mat3.c2, Mat3.inverse, h.2, div_one, Vec3.dot, Mat3.mk.injEq, Vec3.mk.injEq] at h1 h2 h3
  obtain ⟨⟨a1, a2, a3⟩, ⟨a4, a5, a6⟩, a7, a8, a9⟩ := h1
  obtain ⟨⟨b1, b2, b3⟩, ⟨b4, b5, b6⟩, b7, b8, b9⟩ := h2
  obtain ⟨⟨c1, c2, c3⟩, ⟨c4, c5, c6⟩, c7, c8, c9⟩ := h3
  refine ⟨?_, ?_, ?_, ?_, ?_, ?_, ?_, ?_, ?_, ?_, ?_, ?_, ?_, ?_, ?_, ?_, ?_, ?_, ?_, ?_, ?_⟩ <;> linarith

/-- The quaternion, with the squared norm `4 n`, represents the matrix. -/
structure Rep (q : Quat) (m : Mat3) (n : ℝ) : Prop where
  norm : q.x * q.x + q.y * q.y + q.z * q.z + q.w * q.w = 4 * n
  e00 : 4 * n - 2 * (q.y * q.y + q.z * q.z) = 4 * n * m.r0.x
  e01 : 2 * (q.x * q.y - q.z * q.w) = 4 * n * m.r0.y
  e02 : 2 * (q.x * q.z + q.y * q.w) = 4 * n * m.r0.z
  e10 : 2 * (q.x * q.y + q.z * q.w) = 4 * n * m.r1.x
  e11 : 4 * n - 2 * (q.x * q.x + q.z * q.z) = 4 * n * m.r1.y
  e12 : 2 * (q.y * q.z - q.x * q.w) = 4 * n * m.r1.z
  e20 : 2 * (q.x * q.z - q.y * q.w) = 4 * n * m.r2.x
  e21 : 2 * (q.y * q.z + q.x * q.w) = 4 * n * m.r2.y
  e22 : 4 * n - 2 * (q.x * q.x + q.y * q.y) = 4 * n * m.r2.z

theorem rep_t {m : Mat3} (h : Facts m) : Rep ⟨m.r2.y - m.r1.z, m.r0.z - m.r2.x, m.r1.x - m.r0.y, 1 + (m.r0.x + m.r1.y + m.r2.z)⟩ m (1 + (m.r0.x + m.r1.y + m.r2.z)) := by
  refine ⟨?_, ?_, ?_, ?_, ?_, ?_, ?_, ?_, ?_, ?_⟩ <;> simp only
  · linear_combination (1) * h.r00 + (1) * h.r11 + (1) * h.r22 + (-2) * h.k00 + (-2) * h.k11 + (-2) * h.k22
  · linear_combination (-2) * h.r00 + (-2) * h.c00 + (4) * h.k11 + (4) * h.k22
  · linear_combination (-2) * h.r01 + (-2) * h.c01 + (-2) * h.k01 + (-2) * h.k10
  · linear_combination (-2) * h.r02 + (-2) * h.c02 + (-2) * h.k02 + (-2) * h.k20
  · linear_combination (-2) * h.r01 + (-2) * h.c01 + (-2) * h.k01 + (-2) * h.k10
  · linear_combination (-2) * h.r11 + (-2) * h.c11 + (4) * h.k00 + (4) * h.k22
  · linear_combination (-2) * h.r12 + (-2) * h.c12 + (-2) * h.k12 + (-2) * h.k21
  · linear_combination (-2) * h.r02 + (-2) * h.c02 + (-2) * h.k02 + (-2) * h.k20
  · linear_combination (-2) * h.r12 + (-2) * h.c12 + (-2) * h.k12 + (-2) * h.k21
  · linear_combination (-2) * h.r00 + (-2) * h.r11 + (-4) * h.r22 + (2) * h.c00 + (2) * h.c11 + (4) * h.k00 + (4) * h.k11

theorem rep_0 {m : Mat3} (h : Facts m) : Rep ⟨1 + m.r0.x - m.r1.y - m.r2.z, m.r1.x + m.r0.y, m.r2.x + m.r0.z, m.r2.y - m.r1.z⟩ m (1 + m.r0.x - m.r1.y - m.r2.z) := by
  refine ⟨?_, ?_, ?_, ?_, ?_, ?_, ?_, ?_, ?_, ?_⟩ <;> simp only
  · linear_combination (1) * h.r00 + (1) * h.r11 + (1) * h.r22 + (-2) * h.k00 + (2) * h.k11 + (2) * h.k22
  · linear_combination (-2) * h.r00 + (-2) * h.c00 + (-4) * h.k11 + (-4) * h.k22
  · linear_combination (2) * h.r01 + (-2) * h.c01 + (-2) * h.k01 + (2) * h.k10
  · linear_combination (2) * h.r02 + (-2) * h.c02 + (-2) * h.k02 + (2) * h.k20
  · linear_combination (-2) * h.r01 + (2) * h.c01 + (2) * h.k01 + (-2) * h.k10
  · linear_combination (-2) * h.r00 + (-2) * h.r22 + (2) * h.c11 + (-4) * h.k11
  · linear_combination (2) * h.r12 + (2) * h.c12 + (-2) * h.k12 + (-2) * h.k21
  · linear_combination (-2) * h.r02 + (2) * h.c02 + (2) * h.k02 + (-2) * h.k20
  · linear_combination (2) * h.r12 + (2) * h.c12 + (-2) * h.k12 + (-2) * h.k21
  · linear_combination (2) * h.r22 + (-2) * h.c00 + (-2) * h.c11 + (-4) * h.k22

theorem rep_1 {m : Mat3} (h : Facts m) : Rep ⟨m.r0.y + m.r1.x, 1 - m.r0.x + m.r1.y - m.r2.z, m.r2.y + m.r1.z, m.r0.z - m.r2.x⟩ m (1 - m.r0.x + m.r1.y - m.r2.z) := by
  refine ⟨?_, ?_, ?_, ?_, ?_, ?_, ?_, ?_, ?_, ?_⟩ <;> simp only
  · linear_combination (1) * h.r00 + (1) * h.r11 + (1) * h.r22 + (2) * h.k00 + (-2) * h.k11 + (2) * h.k22
  · linear_combination (-2) * h.r11 + (-2) * h.r22 + (2) * h.c00 + (-4) * h.k00
  · linear_combination (-2) * h.r01 + (2) * h.c01 + (-2) * h.k01 + (2) * h.k10
  · linear_combination (2) * h.r02 + (2) * h.c02 + (-2) * h.k02 + (-2) * h.k20
  · linear_combination (2) * h.r01 + (-2) * h.c01 + (2) * h.k01 + (-2) * h.k10
  · linear_combination (-2) * h.r11 + (-2) * h.c11 + (-4) * h.k00 + (-4) * h.k22
  · linear_combination (2) * h.r12 + (-2) * h.c12 + (-2) * h.k12 + (2) * h.k21
  · linear_combination (2) * h.r02 + (2) * h.c02 + (-2) * h.k02 + (-2) * h.k20
  · linear_combination (-2) * h.r12 + (2) * h.c12 + (2) * h.k12 + (-2) * h.k21
  · linear_combination (2) * h.r22 + (-2) * h.c00 + (-2) * h.c11 + (-4) * h.k22

theorem rep_2 {m : Mat3} (h : Facts m) : Rep ⟨m.r0.z + m.r2.x, m.r1.z + m.r2.y, 1 - m.r0.x - m.r1.y + m.r2.z, m.r1.x - m.r0.y⟩ m (1 - m.r0.x - m.r1.y + m.r2.z) := by
  refine ⟨?_, ?_, ?_, ?_, ?_, ?_, ?_, ?_, ?_, ?_⟩ <;> simp only
  · linear_combination (1) * h.r00 + (1) * h.r11 + (1) * h.r22 + (2) * h.k00 + (2) * h.k11 + (-2) * h.k22
  · linear_combination (-2) * h.r11 + (-2) * h.r22 + (2) * h.c00 + (-4) * h.k00
  · linear_combination (2) * h.r01 + (2) * h.c01 + (-2) * h.k01 + (-2) * h.k10
  · linear_combination (-2) * h.r02 + (2) * h.c02 + (-2) * h.k02 + (2) * h.k20
  · linear_combination (2) * h.r01 + (2) * h.c01 + (-2) * h.k01 + (-2) * h.k10
  · linear_combination (-2) * h.r00 + (-2) * h.r22 + (2) * h.c11 + (-4) * h.k11
  · linear_combination (-2) * h.r12 + (2) * h.c12 + (-2) * h.k12 + (2) * h.k21
  · linear_combination (2) * h.r02 + (-2) * h.c02 + (2) * h.k02 + (-2) * h.k20
  · linear_combination (2) * h.r12 + (-2) * h.c12 + (2) * h.k12 + (-2) * h.k21
  · linear_combination (-2) * h.r00 + (-2) * h.r11 + (-4) * h.r22 + (2) * h.c00 + (2) * h.c11 + (-4) * h.k00 + (-4) * h.k11

theorem raw_rep {m : Mat3} (h : Facts m) : ∃ n, 0 < n ∧ Rep (Quat.raw m) m n := by
  unfold Quat.raw
  by_cases ht : m.r0.x + m.r1.y + m.r2.z > 0
  · rw [if_pos ht]
    exact ⟨_, by linarith, rep_t h⟩
  · rw [if_neg ht]
    unfold Quat.largest
    by_cases h1 : m.r1.y > m.r0.x
    · rw [if_pos h1]
      by_cases h2 : m.r2.z > m.r1.y
      · rw [if_pos h2]
        exact ⟨_, by linarith, rep_2 h⟩
      · rw [if_neg h2]
        exact ⟨_, by linarith, rep_1 h⟩
    · rw [if_neg h1]
      by_cases h2 : m.r2.z > m.r0.x
      · rw [if_pos h2]
        exact ⟨_, by linarith, rep_2 h⟩
      · rw [if_neg h2]
        exact ⟨_, by linarith, rep_0 h⟩

/-- The normalized quaternion represents the matrix with `n = 1/4`. -/
theorem fromMatrix_rep {m : Mat3} (h : ProperRotation m) : Rep (Quat.fromMatrix m) m (1 / 4) := by
  obtain ⟨n, hn, hr⟩ := raw_rep (rotation_facts h)
  unfold Quat.fromMatrix Quat.normalized
  obtain ⟨q, hq⟩ : ∃ q, q = Quat.raw m := ⟨_, rfl⟩
  rw [← hq] at hr ⊢
  have hk : q.norm * q.norm = 4 * n := by
    unfold Quat.norm
    rw [hr.norm, Real.mul_self_sqrt (by linarith)]
  have hk0 : q.norm ≠ 0 := by
    intro h0
    rw [h0] at hk
    linarith
  have key : ∀ a b : ℝ, a / q.norm * (b / q.norm) = a * b / (4 * n) := by
    intro a b
    rw [div_mul_div_comm, hk]
  have hn4 : 4 * n ≠ 0 := by linarith
  obtain ⟨g0, g1, g2, g3, g4, g5, g6, g7, g8, g9⟩ := hr
  constructor <;> simp only [key]
  all_goals
    field_simp
    linarith

/-- Cosines and sines of angles of a vector. -/
theorem atan2_unit {x y : ℝ} (h : x ^ 2 + y ^ 2 = 1) : cos (EulerAngles.atan2 y x) = x ∧ sin (EulerAngles.atan2 y x) = y := by
  have hn : ‖(⟨x, y⟩ : ℂ)‖ = 1 := by
    rw [Complex.norm_def, Complex.normSq_mk, ← sq, ← sq, h, Real.sqrt_one]
  have hne : (⟨x, y⟩ : ℂ) ≠ 0 := by
    intro h0
    rw [h0] at hn
    simp at hn
  unfold EulerAngles.atan2
  rw [Complex.cos_arg hne, Complex.sin_arg, hn]
  simp

theorem rotation_eq (a b c : ℝ) : Mat3.rotation a b c = aroundZ c * (aroundY b * aroundX a) := by
  unfold Mat3.rotation aroundX aroundY aroundZ
  ext <;> simp only [Mat3.mul_def, Mat3.mul, Vec3.dot, Mat3.c0, Mat3.c1, Mat3.c2] <;> ring

theorem mat_ext {m k : Mat3} (h : ∀ v, m.mulVec v = k.mulVec v) : m = k := by
  have h0 := h ⟨1, 0, 0⟩
  have h1 := h ⟨0, 1, 0⟩
  have h2 := h ⟨0, 0, 1⟩
  simp only [Mat3.mulVec, Vec3.dot, mul_one, mul_zero, add_zero, zero_add, Vec3.mk.injEq] at h0 h1 h2
  ext
  · exact h0.1
  · exact h1.1
  · exact h2.1
  · exact h0.2.1
  · exact h1.2.1
  · exact h2.2.1
  · exact h0.2.2
  · exact h1.2.2
  · exact h2.2.2

theorem reproduces_iff (a : Vec3 ℝ) (m : Mat3) : Reproduces a m ↔ Mat3.rotation a.x a.y a.z = m := by
  unfold Reproduces
  constructor
  · intro h
    refine mat_ext fun v => ?_
    rw [h v, rotation_eq, Mat3.mulVec_mulVec, Mat3.mulVec_mulVec, Mat3.mul_assoc]
  · rintro rfl v
    rw [rotation_eq, Mat3.mulVec_mulVec, Mat3.mulVec_mulVec, Mat3.mul_assoc]

/-- Angles from a second angle with the right sine. -/
theorem angles_ok {m : Mat3} (h : Facts m) {theta : ℝ} (hs : sin theta = -m.r2.x) (hc : cos theta ≠ 0) :
    ∃ a, EulerAngles.anglesFor m theta (cos theta) = some a ∧ a.y = theta ∧ Reproduces a m := by
  have hc2 : cos theta ^ 2 = 1 - m.r2.x ^ 2 := by rw [cos_sq', hs]; ring
  refine ⟨⟨EulerAngles.atan2 (m.r2.y / cos theta) (m.r2.z / cos theta), theta, EulerAngles.atan2 (m.r1.x / cos theta) (m.r0.x / cos theta)⟩, ?_, rfl, ?_⟩
  · unfold EulerAngles.anglesFor EulerAngles.quotient
    simp only [if_neg hc]
    rfl
  · rw [reproduces_iff]
    obtain ⟨p1, p2⟩ := atan2_unit (x := m.r2.z / cos theta) (y := m.r2.y / cos theta) (by
      rw [div_pow, div_pow, ← add_div, div_eq_one_iff_eq (pow_ne_zero 2 hc), hc2]
      linarith [h.r22])
    obtain ⟨q1, q2⟩ := atan2_unit (x := m.r0.x / cos theta) (y := m.r1.x / cos theta) (by
      rw [div_pow, div_pow, ← add_div, div_eq_one_iff_eq (pow_ne_zero 2 hc), hc2]
      linarith [h.c00])
    unfold Mat3.rotation
    simp only [p1, p2, q1, q2, hs]
    have hne2 : cos theta ^ 2 ≠ 0 := pow_ne_zero 2 hc
    have hm : 1 - m.r2.x ^ 2 ≠ 0 := by rw [← hc2]; exact hne2
    ext
    · simp only; field_simp
    · simp only
      have : m.r2.y / cos theta * -m.r2.x * (m.r0.x / cos theta) - m.r2.z / cos theta * (m.r1.x / cos theta) = (-m.r2.y * m.r2.x * m.r0.x - m.r2.z * m.r1.x) / cos theta ^ 2 := by
        field_simp
      rw [this, hc2, div_eq_iff hm]
      linear_combination (-1) * h.k01 - m.r2.x * h.k12
    · simp only
      have : m.r2.z / cos theta * -m.r2.x * (m.r0.x / cos theta) + m.r2.y / cos theta * (m.r1.x / cos theta) = (-m.r2.z * m.r2.x * m.r0.x + m.r2.y * m.r1.x) / cos theta ^ 2 := by
        field_simp
      rw [this, hc2, div_eq_iff hm]
      linear_combination (-1) * h.k02 + m.r2.x * h.k11
    · simp only; field_simp
    · simp only
      have : m.r2.y / cos theta * -m.r2.x * (m.r1.x / cos theta) + m.r2.z / cos theta * (m.r0.x / cos theta) = (-m.r2.y * m.r2.x * m.r1.x + m.r2.z * m.r0.x) / cos theta ^ 2 := by
        field_simp
      rw [this, hc2, div_eq_iff hm]
      linear_combination (-1) * h.k11 + m.r2.x * h.k02
    · simp only
      have : m.r2.z / cos theta * -m.r2.x * (m.r1.x / cos theta) - m.r2.y / cos theta * (m.r0.x / cos theta) = (-m.r2.z * m.r2.x * m.r1.x - m.r2.y * m.r0.x) / cos theta ^ 2 := by
        field_simp
      rw [this, hc2, div_eq_iff hm]
      linear_combination (-1) * h.k12 - m.r2.x * h.k01
    · simp only; ring
    · simp only; field_simp
    · simp only; field_simp

theorem always_general (r : ℝ) : EulerAngles.general r := by
  unfold EulerAngles.general EulerAngles.EPSILON
  by_cases h : r > 0
  · exact Or.inl (by norm_num; linarith)
  · exact Or.inr (by norm_num; linarith)

end Rampack
