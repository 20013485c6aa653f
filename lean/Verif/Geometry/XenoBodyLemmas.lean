import Verif.Geometry.XenoBodySpec
import Verif.Geometry.XenoProps
/-
Lemmas about bodies and their support functions.
-/
namespace Rampack

open Packing Spec Xeno

namespace XC

theorem norm2_eq (p : Vec3 ℝ) : p.norm2 = p.x ^ 2 + p.y ^ 2 + p.z ^ 2 := by simp only [Vec3.norm2, Vec3.dot]; ring

theorem signed_abs {h : ℝ} (hh : 0 ≤ h) (n : ℝ) : |signed n h| ≤ h := by
  unfold signed; split_ifs
  · rw [abs_neg, abs_of_nonneg hh]
  · rw [abs_of_nonneg hh]

theorem signed_le {h x : ℝ} (hx : |x| ≤ h) (n : ℝ) : x * n ≤ signed n h * n := by
  obtain ⟨h1, h2⟩ := abs_le.mp hx
  unfold signed; split_ifs with hn
  · nlinarith
  · nlinarith [not_lt.mp hn]

theorem abs_comb {x y h c : ℝ} (hx : |x| ≤ h) (hy : |y| ≤ h) (h0 : 0 ≤ c) (h1 : c ≤ 1) : |c * x + (1 - c) * y| ≤ h := by
  obtain ⟨a1, a2⟩ := abs_le.mp hx
  obtain ⟨b1, b2⟩ := abs_le.mp hy
  have h1' : 0 ≤ 1 - c := by linarith
  rw [abs_le]; constructor <;> nlinarith [mul_le_mul_of_nonneg_left a1 h0, mul_le_mul_of_nonneg_left a2 h0, mul_le_mul_of_nonneg_left b1 h1',
    mul_le_mul_of_nonneg_left b2 h1']

theorem sq_comb {x y c : ℝ} (h0 : 0 ≤ c) (h1 : c ≤ 1) : (c * x + (1 - c) * y) ^ 2 ≤ c * x ^ 2 + (1 - c) * y ^ 2 := by
  nlinarith [mul_nonneg (mul_nonneg h0 (sub_nonneg.mpr h1)) (sq_nonneg (x - y))]

theorem abs_sq_le {x h : ℝ} (hx : |x| ≤ h) : x ^ 2 ≤ h ^ 2 := by
  obtain ⟨h1, h2⟩ := abs_le.mp hx
  nlinarith

theorem abs_le_of_sq {x r : ℝ} (hr : 0 ≤ r) (h : x ^ 2 ≤ r ^ 2) : |x| ≤ r := abs_le_of_sq_le_sq h hr

/-- The direction and the length. -/
theorem normalized_self {n : Vec3 ℝ} (hn : n ≠ 0) : (normalized n).dot n = n.norm := by
  rw [Xeno.dot_comm', Xeno.normalized_dot]
  have hp := Xeno.norm_pos_of_ne hn
  have hs := Vec3.norm_sq n
  have : n.dot n = n.norm ^ 2 := by rw [hs]; rfl
  rw [this]; field_simp

theorem smul_dot (c : ℝ) (a b : Vec3 ℝ) : (c • a).dot b = c * a.dot b := by
  simp only [Vec3.dot, Vec3.smul_x, Vec3.smul_y, Vec3.smul_z]; ring

theorem dot_le_norm (a b : Vec3 ℝ) : a.dot b ≤ a.norm * b.norm := (abs_le.mp (Vec3.abs_dot_le a b)).2

theorem norm_le_of {p : Vec3 ℝ} {r : ℝ} (hr : 0 ≤ r) (h : p.norm2 ≤ r ^ 2) : p.norm ≤ r := Real.sqrt_le_iff.mpr ⟨hr, h⟩

theorem norm2_le_of {p : Vec3 ℝ} {r : ℝ} (h : p.norm ≤ r) : p.norm2 ≤ r ^ 2 := by
  rw [← Vec3.norm_sq]; exact pow_le_pow_left₀ p.norm_nonneg h 2

theorem closedBall_convex (r : ℝ) : ConvexBody (ClosedBall r) := by
  intro p q c hp hq h0 h1
  simp only [ClosedBall, norm2_eq, Vec3.add_x, Vec3.add_y, Vec3.add_z, Vec3.smul_x, Vec3.smul_y, Vec3.smul_z] at *
  have := sq_comb (x := p.x) (y := q.x) h0 h1
  have := sq_comb (x := p.y) (y := q.y) h0 h1
  have := sq_comb (x := p.z) (y := q.z) h0 h1
  nlinarith [mul_le_mul_of_nonneg_left hp h0, mul_le_mul_of_nonneg_left hq (sub_nonneg.mpr h1)]

/-! ### Arcs -/

/-- The radius of curvature is the radius of the circle. -/
theorem curvature_eq {h r : ℝ} (hr : r ≠ 0) : curvature h r = (h ^ 2 + r ^ 2) / (2 * r) := by
  unfold curvature; field_simp

theorem curvature_sq {h r : ℝ} (hr : r ≠ 0) : (curvature h r - r) ^ 2 + h ^ 2 = curvature h r ^ 2 := by
  rw [curvature_eq hr]; field_simp; ring

theorem curvature_ge {h r : ℝ} (hr : 0 < r) : h ≤ curvature h r := by
  rw [curvature_eq hr.ne', le_div_iff₀ (by linarith)]; nlinarith [sq_nonneg (h - r)]

theorem curvature_gt {h r : ℝ} (hr : 0 < r) (hrh : r < h) : h < curvature h r := by
  rw [curvature_eq hr.ne', lt_div_iff₀ (by linarith)]; nlinarith [mul_pos (sub_pos.mpr hrh) (sub_pos.mpr hrh)]

/-- Points inside the arc do not reach further than the point of the arc in this direction. -/
theorem arc_le {a b k R α β : ℝ} (hR : 0 ≤ R) (h : (a + k) ^ 2 + b ^ 2 ≤ R ^ 2) (hu : α ^ 2 + β ^ 2 = 1) : a * α + b * β ≤ R - k * α := by
  have h1 : ((a + k) * α + b * β) ^ 2 ≤ R ^ 2 := by
    nlinarith [sq_nonneg ((a + k) * β - b * α)]
  have := (abs_le.mp (abs_le_of_sq_le_sq h1 hR)).2
  nlinarith

/-- Points inside the arc do not reach further than its end in directions beyond the one of the end. -/
theorem arc_end {a b k R h α β : ℝ} (ha : 0 ≤ a) (hk : 0 ≤ k) (hR : 0 < R) (hh : 0 < h) (hq : k ^ 2 + h ^ 2 = R ^ 2)
    (hin : (a + k) ^ 2 + b ^ 2 ≤ R ^ 2) (hα : 0 ≤ α) (hu : α ^ 2 + β ^ 2 = 1) (hb : h < β * R) : a * α + b * β ≤ h * β := by
  have hβ : 0 < β := by
    by_contra hc
    nlinarith [not_lt.mp hc]
  -- tangent at the end of the arc
  have ht : (a + k) * k + b * h ≤ R * R := by
    have : ((a + k) * k + b * h) ^ 2 ≤ (R * R) ^ 2 := by
      nlinarith [sq_nonneg ((a + k) * h - b * k), sq_nonneg R, mul_le_mul_of_nonneg_right hin (sq_nonneg R)]
    exact (abs_le.mp (abs_le_of_sq_le_sq this (mul_nonneg hR.le hR.le))).2
  have ht' : (b - h) * h ≤ -(k * a) := by nlinarith
  have hαR : α * R ≤ k := by
    have : (α * R) ^ 2 ≤ k ^ 2 := by nlinarith [mul_self_nonneg (β * R - h)]
    exact (abs_le.mp (abs_le_of_sq_le_sq this hk)).2
  have hak : α * h ≤ k * β := by
    have : (α * h) * R ≤ (k * β) * R := by nlinarith [mul_le_mul_of_nonneg_right hαR hh.le, mul_le_mul_of_nonneg_left hb.le hk]
    exact le_of_mul_le_mul_right this hR
  have h3 : (a * α + (b - h) * β) * h ≤ 0 := by
    nlinarith [mul_le_mul_of_nonneg_right ht' hβ.le, mul_le_mul_of_nonneg_left hak ha]
  have : a * α + (b - h) * β ≤ 0 := by
    by_contra hc
    nlinarith [mul_pos (not_le.mp hc) hh]
  linarith

/-- The lateral part of a direction. -/
theorem lateral_dot {p n : Vec3 ℝ} : p.x * n.x + p.y * n.y ≤ Real.sqrt (p.x ^ 2 + p.y ^ 2) * Real.sqrt (n.x ^ 2 + n.y ^ 2) := by
  rw [← Real.sqrt_mul (by positivity)]
  refine Real.le_sqrt_of_sq_le ?_
  nlinarith [sq_nonneg (p.x * n.y - p.y * n.x)]

theorem normalized_lateral_norm (n : Vec3 ℝ) : (⟨n.x, n.y, 0⟩ : Vec3 ℝ).norm = Real.sqrt (n.x ^ 2 + n.y ^ 2) := by
  simp only [Vec3.norm, Vec3.norm2, Vec3.dot]; congr 1; ring

theorem lateral_ne {n : Vec3 ℝ} (h : ¬ isVectorZero ⟨n.x, n.y, 0⟩ = true) : (⟨n.x, n.y, 0⟩ : Vec3 ℝ) ≠ 0 := Xeno.ne_of_notZero h

end XC

end Rampack
