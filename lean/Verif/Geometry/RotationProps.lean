import Verif.Geometry.RotationLemmas
import Mathlib.Analysis.Real.Pi.Bounds
/-
C54: Euler angles, quaternions and rotation matrices.
-/
namespace Rampack

open Spec Real

/-- C54: the quaternion of a rotation matrix has a unit norm and reproduces the matrix: conjugation with it rotates all vectors as the matrix does. -/
theorem C54_quaternion {m : Mat3} (h : ProperRotation m) : Quaternion.normSq (hamilton (Quat.fromMatrix m)) = 1 ∧
    ∀ v, hamilton (Quat.fromMatrix m) * pureQuaternion v * star (hamilton (Quat.fromMatrix m)) = pureQuaternion (m.mulVec v) := by
  obtain ⟨g0, g1, g2, g3, g4, g5, g6, g7, g8, g9⟩ := fromMatrix_rep h
  obtain ⟨q, hq⟩ : ∃ q, q = Quat.fromMatrix m := ⟨_, rfl⟩
  rw [← hq] at g0 g1 g2 g3 g4 g5 g6 g7 g8 g9 ⊢
  constructor
  · rw [Quaternion.normSq_def']
    show q.w ^ 2 + q.x ^ 2 + q.y ^ 2 + q.z ^ 2 = 1
    linarith
  · intro v
    ext
    all_goals
      simp only [Quaternion.re_mul, Quaternion.imI_mul, Quaternion.imJ_mul, Quaternion.imK_mul, Quaternion.re_star, Quaternion.imI_star, Quaternion.imJ_star, Quaternion.imK_star]
      simp only [hamilton, pureQuaternion, Mat3.mulVec, Vec3.dot]
    · ring
    · linear_combination v.x * g1 + v.y * g2 + v.z * g3 + v.x * g0
    · linear_combination v.x * g4 + v.y * g5 + v.z * g6 + v.y * g0
    · linear_combination v.x * g7 + v.y * g8 + v.z * g9 + v.z * g0

/-- C54: the matrix for three angles is the composition of rotations around X, Y and Z, and it is a rotation. -/
theorem C54_rotation (a : Vec3 ℝ) : Reproduces a (Mat3.rotation a.x a.y a.z) ∧ ProperRotation (Mat3.rotation a.x a.y a.z) := by
  refine ⟨(reproduces_iff _ _).mpr rfl, ?_, ?_⟩
  · have hx := sin_sq_add_cos_sq a.x
    have hy := sin_sq_add_cos_sq a.y
    have hz := sin_sq_add_cos_sq a.z
    have e : ∀ t, aroundX t * (aroundX t).transpose = 1 ∧ aroundY t * (aroundY t).transpose = 1 ∧ aroundZ t * (aroundZ t).transpose = 1 := by
      intro t
      have ht := sin_sq_add_cos_sq t
      refine ⟨?_, ?_, ?_⟩
      all_goals
        ext <;> simp [aroundX, aroundY, aroundZ, Mat3.mul_def, Mat3.mul, Mat3.one_def, Mat3.one, Mat3.transpose, Vec3.dot, Mat3.c0, Mat3.c1, Mat3.c2] <;> nlinarith
    rw [rotation_eq, Mat3.transpose_mul, Mat3.transpose_mul, Mat3.mul_assoc, Mat3.mul_assoc, ← Mat3.mul_assoc (aroundX a.x), ← Mat3.mul_assoc (aroundX a.x), (e a.x).1, Mat3.one_mul,
      ← Mat3.mul_assoc (aroundY a.y), (e a.y).2.1, Mat3.one_mul, (e a.z).2.2]
  · have e : ∀ t, (aroundX t).det = 1 ∧ (aroundY t).det = 1 ∧ (aroundZ t).det = 1 := by
      intro t
      have ht := sin_sq_add_cos_sq t
      refine ⟨?_, ?_, ?_⟩
      all_goals
        simp [aroundX, aroundY, aroundZ, Mat3.det]
        nlinarith
    rw [rotation_eq, Mat3.det_mul, Mat3.det_mul, (e _).1, (e _).2.1, (e _).2.2]
    norm_num

/-- C54: the matrix for an axis of unit length and an angle is a rotation, which does not move the axis and turns perpendicular vectors by the angle. -/
theorem C54_axis {u : Vec3 ℝ} (hu : u.norm2 = 1) (angle : ℝ) : ProperRotation (Mat3.axisRotation u angle) ∧ (Mat3.axisRotation u angle).mulVec u = u ∧
    ∀ v, u.dot v = 0 → (Mat3.axisRotation u angle).mulVec v = cos angle • v + sin angle • u.cross v := by
  have hs := sin_sq_add_cos_sq angle
  unfold Vec3.norm2 Vec3.dot at hu
  have hR : Mat3.axisRotation u angle =
      ⟨⟨1 - (1 - cos angle) * (u.z * u.z + u.y * u.y), -sin angle * u.z + (1 - cos angle) * (u.y * u.x), sin angle * u.y + (1 - cos angle) * (u.z * u.x)⟩,
       ⟨sin angle * u.z + (1 - cos angle) * (u.x * u.y), 1 - (1 - cos angle) * (u.z * u.z + u.x * u.x), -sin angle * u.x + (1 - cos angle) * (u.z * u.y)⟩,
       ⟨-sin angle * u.y + (1 - cos angle) * (u.x * u.z), sin angle * u.x + (1 - cos angle) * (u.y * u.z), 1 - (1 - cos angle) * (u.y * u.y + u.x * u.x)⟩⟩ := by
    unfold Mat3.axisRotation Mat3.skew
    ext <;> simp [Mat3.mul_def, Mat3.mul, Mat3.one_def, Mat3.one, Vec3.dot, Mat3.c0, Mat3.c1, Mat3.c2] <;> ring
  obtain ⟨s, hsd⟩ : ∃ s, s = sin angle := ⟨_, rfl⟩
  obtain ⟨c, hcd⟩ : ∃ c, c = cos angle := ⟨_, rfl⟩
  rw [← hsd, ← hcd] at hR hs ⊢
  rw [hR]
  have hx : u.x * u.x = 1 - u.y * u.y - u.z * u.z := by linarith
  have hcs : s * s = 1 - c * c := by nlinarith
  refine ⟨⟨?_, ?_⟩, ?_, ?_⟩
  · ext <;> simp only [Mat3.mul_def, Mat3.mul, Mat3.one_def, Mat3.one, Mat3.transpose, Vec3.dot, Mat3.c0, Mat3.c1, Mat3.c2]
    · linear_combination (u.z * u.z + u.y * u.y) * hcs + (1 - c) ^ 2 * (u.z * u.z + u.y * u.y) * hx
    · linear_combination (-u.x * u.y) * hcs - (1 - c) ^ 2 * (u.x * u.y) * hx
    · linear_combination (-u.x * u.z) * hcs - (1 - c) ^ 2 * (u.x * u.z) * hx
    · linear_combination (-u.x * u.y) * hcs - (1 - c) ^ 2 * (u.x * u.y) * hx
    · linear_combination (u.z * u.z + u.x * u.x) * hcs + (1 - c) ^ 2 * (u.z * u.z + u.x * u.x) * hx
    · linear_combination (-u.z * u.y) * hcs - (1 - c) ^ 2 * (u.z * u.y) * hx
    · linear_combination (-u.x * u.z) * hcs - (1 - c) ^ 2 * (u.x * u.z) * hx
    · linear_combination (-u.z * u.y) * hcs - (1 - c) ^ 2 * (u.z * u.y) * hx
    · linear_combination (u.y * u.y + u.x * u.x) * hcs + (1 - c) ^ 2 * (u.y * u.y + u.x * u.x) * hx
  · simp only [Mat3.det]
    obtain ⟨x, y, z⟩ := u
    simp only at *
    have e : (1 - (1 - c) * (z * z + y * y)) * (1 - (1 - c) * (z * z + x * x)) * (1 - (1 - c) * (y * y + x * x)) +
      (-s * z + (1 - c) * (y * x)) * (-s * x + (1 - c) * (z * y)) * (-s * y + (1 - c) * (x * z)) +
      (s * y + (1 - c) * (z * x)) * (s * z + (1 - c) * (x * y)) * (s * x + (1 - c) * (y * z)) -
      (s * y + (1 - c) * (z * x)) * (1 - (1 - c) * (z * z + x * x)) * (-s * y + (1 - c) * (x * z)) -
      (-s * z + (1 - c) * (y * x)) * (s * z + (1 - c) * (x * y)) * (1 - (1 - c) * (y * y + x * x)) -
      (1 - (1 - c) * (z * z + y * y)) * (-s * x + (1 - c) * (z * y)) * (s * x + (1 - c) * (y * z)) =
      (1 - (1 - c) * (x * x + y * y + z * z)) ^ 2 + s * s * (x * x + y * y + z * z) := by ring
    rw [e, hu, hcs]
    ring
  · ext <;> simp only [Mat3.mulVec, Vec3.dot]
    · ring
    · ring
    · ring
  · intro v hv
    unfold Vec3.dot at hv
    ext <;> simp only [Mat3.mulVec, Vec3.dot, Vec3.add_x, Vec3.add_y, Vec3.add_z, Vec3.smul_x, Vec3.smul_y, Vec3.smul_z, Vec3.cross]
    · linear_combination (1 - c) * u.x * hv - (1 - c) * v.x * hu
    · linear_combination (1 - c) * u.y * hv - (1 - c) * v.y * hu
    · linear_combination (1 - c) * u.z * hv - (1 - c) * v.z * hu

/-- C54: both triples of Euler angles reproduce a rotation matrix, except for the gimbal lock. -/
theorem C54_euler_partial {m : Mat3} (h : ProperRotation m) (hg : m.r2.x ≠ 1 ∧ m.r2.x ≠ -1) : ∃ a b, EulerAngles.make m = .ok (some (a, b)) ∧ Reproduces a m ∧ Reproduces b m ∧
    b.y = π - a.y ∧ ¬ EulerAngles.hasGimbalLock a := by
  have hf := rotation_facts h
  have hr : -1 ≤ m.r2.x ∧ m.r2.x ≤ 1 := by
    have := hf.r22
    constructor <;> nlinarith [mul_self_nonneg m.r2.y, mul_self_nonneg m.r2.z]
  have hlt : -1 < m.r2.x ∧ m.r2.x < 1 := ⟨lt_of_le_of_ne hr.1 (Ne.symm hg.2), lt_of_le_of_ne hr.2 hg.1⟩
  have hs : sin (-arcsin m.r2.x) = -m.r2.x := by rw [sin_neg, sin_arcsin hr.1 hr.2]
  have hc : cos (-arcsin m.r2.x) ≠ 0 := by
    rw [cos_neg, cos_arcsin]
    exact ne_of_gt (Real.sqrt_pos.mpr (by nlinarith))
  obtain ⟨a, a1, a2, a3⟩ := angles_ok hf hs hc
  obtain ⟨b, b1, b2, b3⟩ := angles_ok hf (theta := π - -arcsin m.r2.x) (by rw [sin_pi_sub, hs]) (by rw [cos_pi_sub]; exact neg_ne_zero.mpr hc)
  refine ⟨a, b, ?_, a3, b3, by rw [b2, a2], ?_⟩
  · have hi : EulerAngles.isRotationMatrix m := by
      intro i j
      have e : (![m.r0, m.r1, m.r2] i).dot (![m.r0, m.r1, m.r2] j) = if i = j then 1 else 0 := by
        fin_cases i <;> fin_cases j <;> simp [Vec3.dot] <;> first | linarith [hf.r00] | linarith [hf.r11] | linarith [hf.r22] | linarith [hf.r01] | linarith [hf.r02] | linarith [hf.r12]
      rw [e, sub_self, abs_zero]
      unfold EulerAngles.EPSILON
      norm_num
    unfold EulerAngles.make
    rw [if_pos hi]
    unfold EulerAngles.forMatrix EulerAngles.forMatrixWith
    rw [if_pos (always_general _), a1, b1]
    rfl
  · unfold EulerAngles.hasGimbalLock
    rw [a2, abs_neg]
    intro he
    have h1 := neg_pi_div_two_lt_arcsin.mpr hlt.1
    have h2 := arcsin_lt_pi_div_two.mpr hlt.2
    have := abs_lt.mpr ⟨h1, h2⟩
    linarith

/-- Rotations meet the hypotheses: one with three angles which are not zero. -/
example : ∃ m, ProperRotation m ∧ m.r2.x ≠ 1 ∧ m.r2.x ≠ -1 ∧ m.r1.x ≠ 0 := by
  have h1 := sin_pos_of_pos_of_lt_pi (x := 1) (by norm_num) (by linarith [pi_gt_three])
  have h2 := cos_one_pos
  have h3 := sin_sq_add_cos_sq (1 : ℝ)
  refine ⟨Mat3.rotation 1 1 1, (C54_rotation ⟨1, 1, 1⟩).2, ?_, ?_, ?_⟩
  · show -sin 1 ≠ 1
    linarith
  · show -sin 1 ≠ -1
    intro h
    nlinarith
  · exact ne_of_gt (mul_pos h2 h1)

/-- The matrix which swaps axes cyclically. -/
def cyclic : Mat3 := ⟨⟨0, 1, 0⟩, ⟨0, 0, 1⟩, ⟨1, 0, 0⟩⟩

/-- C54 fails for the gimbal lock. The condition which should detect it is always true, so angles are calculated from divisions by the cosine of π/2: for the rotation which swaps axes cyclically, the angles are not
numbers, and whichever number is taken for the cosine, they do not reproduce the matrix. -/
theorem C54_gimbal_violated : (∀ r, EulerAngles.general r) ∧ ProperRotation cyclic ∧ EulerAngles.make cyclic = .ok none ∧
    ∀ cosine a b, EulerAngles.forMatrixWith cosine cyclic = some (a, b) → ¬ Reproduces a cyclic ∧ ¬ Reproduces b cyclic := by
  refine ⟨always_general, ⟨?_, ?_⟩, ?_, ?_⟩
  · ext <;> simp [cyclic, Mat3.mul_def, Mat3.mul, Mat3.one_def, Mat3.one, Mat3.transpose, Vec3.dot, Mat3.c0, Mat3.c1, Mat3.c2]
  · simp [cyclic, Mat3.det]
  · have hi : EulerAngles.isRotationMatrix cyclic := by
      intro i j
      unfold EulerAngles.EPSILON
      fin_cases i <;> fin_cases j <;> simp [Vec3.dot, cyclic]
    unfold EulerAngles.make
    rw [if_pos hi]
    unfold EulerAngles.forMatrix EulerAngles.forMatrixWith
    rw [if_pos (always_general _)]
    have : cos (-arcsin cyclic.r2.x) = 0 := by
      rw [show cyclic.r2.x = 1 from rfl, cos_neg, arcsin_one, cos_pi_div_two]
    rw [this]
    unfold EulerAngles.anglesFor EulerAngles.quotient
    rw [if_pos rfl]
    rfl
  · intro cosine a b h
    unfold EulerAngles.forMatrixWith at h
    rw [if_pos (always_general _)] at h
    have key : ∀ {t c x}, EulerAngles.anglesFor cyclic t c = some x → x.x = 0 ∧ x.z = 0 := by
      intro t c x hx
      unfold EulerAngles.anglesFor EulerAngles.quotient at hx
      by_cases hc : c = 0
      · rw [if_pos hc] at hx
        cases hx
      · simp only [if_neg hc] at hx
        obtain rfl := Option.some.inj hx
        have : EulerAngles.atan2 (0 / c) (0 / c) = 0 := by
          rw [zero_div]
          unfold EulerAngles.atan2
          rw [show (⟨0, 0⟩ : ℂ) = 0 from rfl, Complex.arg_zero]
        exact ⟨this, this⟩
    have bad : ∀ x : Vec3 ℝ, x.x = 0 ∧ x.z = 0 → ¬ Reproduces x cyclic := by
      rintro x ⟨h1, h2⟩ hr
      rw [reproduces_iff, h1, h2] at hr
      have : (Mat3.rotation 0 x.y 0).r0.y = cyclic.r0.y := by rw [hr]
      simp [Mat3.rotation, cyclic] at this
    cases h1 : EulerAngles.anglesFor cyclic (-arcsin cyclic.r2.x) (cosine (-arcsin cyclic.r2.x)) with
    | none => rw [h1] at h; cases h
    | some x =>
      cases h2 : EulerAngles.anglesFor cyclic (π - -arcsin cyclic.r2.x) (cosine (π - -arcsin cyclic.r2.x)) with
      | none => rw [h1, h2] at h; cases h
      | some y =>
        rw [h1, h2] at h
        obtain ⟨rfl, rfl⟩ := Prod.mk.inj (Option.some.inj h)
        exact ⟨bad _ (key h1), bad _ (key h2)⟩

/-- Reflections are taken for rotations, too: angles are given for them, although no angles reproduce them. -/
theorem C54_reflection_violated : ∃ m a b, EulerAngles.make m = .ok (some (a, b)) ∧ ∀ x, ¬ Reproduces x m := by
  have hi : EulerAngles.isRotationMatrix ⟨⟨1, 0, 0⟩, ⟨0, 1, 0⟩, ⟨0, 0, -1⟩⟩ := by
    intro i j
    unfold EulerAngles.EPSILON
    fin_cases i <;> fin_cases j <;> simp [Vec3.dot]
  have he : ∃ a b, EulerAngles.make ⟨⟨1, 0, 0⟩, ⟨0, 1, 0⟩, ⟨0, 0, -1⟩⟩ = .ok (some (a, b)) := by
    unfold EulerAngles.make
    rw [if_pos hi]
    unfold EulerAngles.forMatrix EulerAngles.forMatrixWith
    rw [if_pos (always_general _)]
    unfold EulerAngles.anglesFor EulerAngles.quotient
    simp only [arcsin_zero, neg_zero, cos_zero, sub_zero, cos_pi, one_ne_zero, neg_eq_zero, if_false]
    exact ⟨_, _, rfl⟩
  obtain ⟨a, b, he⟩ := he
  refine ⟨_, a, b, he, fun x hx => ?_⟩
  rw [reproduces_iff] at hx
  have := (C54_rotation x).2.2
  rw [hx] at this
  simp [Mat3.det] at this
  linarith

end Rampack
