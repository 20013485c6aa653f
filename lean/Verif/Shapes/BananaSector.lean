import Verif.Shapes.BananaLemmas
import Verif.Shapes.WedgeVolume
import Mathlib.Analysis.SpecialFunctions.PolarCoord
/-
Areas and volumes of parts of rods which are cut by a plane at an end.
-/
namespace Rampack.Banana

open Rampack Spec Shapes Composite Volume MeasureTheory

theorem linear_area {t b : ℝ} (ht : 0 ≤ t) (hb : 0 ≤ b) : ∫⁻ x in Set.Ioo 0 b, ENNReal.ofReal (x * t) = ENNReal.ofReal (t * b ^ 2 / 2) := by
  rw [setLIntegral_congr Ioo_ae_eq_Ioc, piece (by fun_prop) hb]
  · congr 1
    rw [intervalIntegral.integral_mul_const, integral_id]
    ring
  · intro z hz
    exact mul_nonneg hz.1.le ht

theorem sqrt_area (k g : ℝ) (hk : 0 ≤ k) : ENNReal.ofReal (k * Real.sqrt g ^ 2) = ENNReal.ofReal k * ENNReal.ofReal g := by
  rw [ENNReal.ofReal_mul hk]
  congr 1
  rcases le_total 0 g with h | h
  · rw [Real.sq_sqrt h]
  · rw [Real.sqrt_eq_zero_of_nonpos h, ENNReal.ofReal_of_nonpos h]; simp

/-- A part of a disc. -/
theorem sector_area {h : ℝ} (h0 : 0 < h) (h1 : h < Real.pi / 2) (g : ℝ) :
    volume {q : ℝ × ℝ | q.2 ≤ 0 ∧ q.1 ^ 2 + q.2 ^ 2 < g ∧ q.2 * Real.cos h < q.1 * Real.sin h} = ENNReal.ofReal ((Real.pi - h) / 2) * ENNReal.ofReal g := by
  have hpi := Real.pi_pos
  have hm : MeasurableSet {q : ℝ × ℝ | q.2 ≤ 0 ∧ q.1 ^ 2 + q.2 ^ 2 < g ∧ q.2 * Real.cos h < q.1 * Real.sin h} := by
    have e : {q : ℝ × ℝ | q.2 ≤ 0 ∧ q.1 ^ 2 + q.2 ^ 2 < g ∧ q.2 * Real.cos h < q.1 * Real.sin h} = {q | q.2 ≤ 0} ∩ ({q | q.1 ^ 2 + q.2 ^ 2 < g} ∩ {q | q.2 * Real.cos h < q.1 * Real.sin h}) := rfl
    rw [e]
    exact (measurableSet_le (by fun_prop) (by fun_prop)).inter ((measurableSet_lt (by fun_prop) (by fun_prop)).inter (measurableSet_lt (by fun_prop) (by fun_prop)))
  rw [← lintegral_indicator_one hm, ← lintegral_comp_polarCoord_symm]
  have hT : MeasurableSet (Set.Iio (Real.sqrt g) ×ˢ Set.Ioc (h - Real.pi) 0) := measurableSet_Iio.prod measurableSet_Ioc
  have e : ∀ p ∈ polarCoord.target, ENNReal.ofReal p.1 • Set.indicator {q : ℝ × ℝ | q.2 ≤ 0 ∧ q.1 ^ 2 + q.2 ^ 2 < g ∧ q.2 * Real.cos h < q.1 * Real.sin h} 1 (polarCoord.symm p) =
      (Set.Iio (Real.sqrt g) ×ˢ Set.Ioc (h - Real.pi) 0).indicator (fun p : ℝ × ℝ => ENNReal.ofReal (p.1 * 1)) p := by
    rintro ⟨x, t⟩ ⟨hx, ht⟩
    simp only [Set.mem_Ioi, Set.mem_Ioo] at hx ht
    have hiff : polarCoord.symm (x, t) ∈ {q : ℝ × ℝ | q.2 ≤ 0 ∧ q.1 ^ 2 + q.2 ^ 2 < g ∧ q.2 * Real.cos h < q.1 * Real.sin h} ↔ (x, t) ∈ Set.Iio (Real.sqrt g) ×ˢ Set.Ioc (h - Real.pi) 0 := by
      show (x * Real.sin t ≤ 0 ∧ (x * Real.cos t) ^ 2 + (x * Real.sin t) ^ 2 < g ∧ x * Real.sin t * Real.cos h < x * Real.cos t * Real.sin h) ↔ (x < Real.sqrt g ∧ h - Real.pi < t ∧ t ≤ 0)
      have e1 : (x * Real.cos t) ^ 2 + (x * Real.sin t) ^ 2 = x ^ 2 := by have := Real.sin_sq_add_cos_sq t; linear_combination x ^ 2 * this
      have e2 : x * Real.sin t * Real.cos h < x * Real.cos t * Real.sin h ↔ Real.sin (t - h) < 0 := by
        rw [Real.sin_sub]
        constructor
        · intro hlt
          by_contra hge
          nlinarith [mul_nonneg hx.le (not_lt.mp hge)]
        · intro hlt
          nlinarith [mul_pos hx (neg_pos.mpr hlt)]
      have e3 : x * Real.sin t ≤ 0 ↔ t ≤ 0 := by
        constructor
        · intro hle
          by_contra hgt
          have := mul_pos hx (Real.sin_pos_of_pos_of_lt_pi (not_le.mp hgt) ht.2)
          linarith
        · intro hle
          have := Real.sin_nonpos_of_nonpos_of_neg_pi_le hle ht.1.le
          nlinarith
      rw [e1, e2, e3, Real.lt_sqrt hx.le]
      constructor
      · rintro ⟨a1, a2, a3⟩
        refine ⟨a2, ?_, a1⟩
        by_contra hle
        have : 0 ≤ Real.sin (t - h + 2 * Real.pi) := Real.sin_nonneg_of_nonneg_of_le_pi (by linarith) (by linarith)
        rw [Real.sin_add_two_pi] at this
        linarith
      · rintro ⟨a1, a2, a3⟩
        exact ⟨a3, a1, Real.sin_neg_of_neg_of_neg_pi_lt (by linarith) (by linarith)⟩
    by_cases hin : (x, t) ∈ Set.Iio (Real.sqrt g) ×ˢ Set.Ioc (h - Real.pi) 0
    · rw [Set.indicator_of_mem hin, Set.indicator_of_mem (hiff.mpr hin)]
      simp
    · rw [Set.indicator_of_notMem hin, Set.indicator_of_notMem (fun c => hin (hiff.mp c))]
      simp
  rw [setLIntegral_congr_fun polarCoord.open_target.measurableSet e, lintegral_indicator hT, Measure.restrict_restrict hT]
  have et : Set.Iio (Real.sqrt g) ×ˢ Set.Ioc (h - Real.pi) 0 ∩ polarCoord.target = Set.Ioo 0 (Real.sqrt g) ×ˢ Set.Ioc (h - Real.pi) 0 := by
    ext ⟨x, t⟩
    show ((x < Real.sqrt g ∧ h - Real.pi < t ∧ t ≤ 0) ∧ 0 < x ∧ -Real.pi < t ∧ t < Real.pi) ↔ ((0 < x ∧ x < Real.sqrt g) ∧ h - Real.pi < t ∧ t ≤ 0)
    constructor
    · rintro ⟨⟨a1, a2, a3⟩, a4, a5, a6⟩; exact ⟨⟨a4, a1⟩, a2, a3⟩
    · rintro ⟨⟨a4, a1⟩, a2, a3⟩; exact ⟨⟨a1, a2, a3⟩, a4, by linarith, by linarith⟩
  rw [et, Measure.volume_eq_prod, ← Measure.prod_restrict]
  have := lintegral_prod_mul (μ := volume.restrict (Set.Ioo 0 (Real.sqrt g))) (ν := volume.restrict (Set.Ioc (h - Real.pi) 0)) (f := fun x => ENNReal.ofReal (x * 1)) (g := fun _ => 1) (by fun_prop) (by fun_prop)
  simp only [mul_one] at this ⊢
  rw [this]
  have l := linear_area (zero_le_one) (Real.sqrt_nonneg g)
  simp only [mul_one] at l
  rw [l, lintegral_one, Measure.restrict_apply_univ, Real.volume_Ioc, mul_comm, ← ENNReal.ofReal_mul (by linarith), ← sqrt_area _ _ (by linarith)]
  congr 1
  ring

theorem triangle_area {h : ℝ} (h0 : 0 < h) (h1 : h < Real.pi / 2) (g : ℝ) :
    volume {q : ℝ × ℝ | 0 < q.2 ∧ q.1 ^ 2 < g ∧ q.2 * Real.cos h < q.1 * Real.sin h} = ENNReal.ofReal (Real.tan h / 2) * ENNReal.ofReal g := by
  have hc : 0 < Real.cos h := Real.cos_pos_of_mem_Ioo ⟨by linarith, h1⟩
  have hs : 0 < Real.sin h := Real.sin_pos_of_pos_of_lt_pi h0 (by linarith [Real.pi_pos])
  have ht : 0 < Real.tan h := Real.tan_pos_of_pos_of_lt_pi_div_two h0 h1
  have e : {q : ℝ × ℝ | 0 < q.2 ∧ q.1 ^ 2 < g ∧ q.2 * Real.cos h < q.1 * Real.sin h} = regionBetween (fun _ => 0) (fun x => x * Real.tan h) (Set.Ioo 0 (Real.sqrt g)) := by
    ext ⟨x, y⟩
    show (0 < y ∧ x ^ 2 < g ∧ y * Real.cos h < x * Real.sin h) ↔ ((0 < x ∧ x < Real.sqrt g) ∧ 0 < y ∧ y < x * Real.tan h)
    have e2 : y * Real.cos h < x * Real.sin h ↔ y < x * Real.tan h := by
      rw [Real.tan_eq_sin_div_cos, ← mul_div_assoc, lt_div_iff₀ hc]
    rw [e2]
    constructor
    · rintro ⟨a1, a2, a3⟩
      have hx : 0 < x := by
        by_contra hx
        nlinarith [mul_nonneg (neg_nonneg.mpr (not_lt.mp hx)) ht.le]
      exact ⟨⟨hx, (Real.lt_sqrt hx.le).mpr a2⟩, a1, a3⟩
    · rintro ⟨⟨a1, a2⟩, a3, a4⟩
      exact ⟨a3, (Real.lt_sqrt a1.le).mp a2, a4⟩
  rw [e, Measure.volume_eq_prod, volume_regionBetween_eq_lintegral (by fun_prop) (by fun_prop) measurableSet_Ioo]
  have l := linear_area ht.le (Real.sqrt_nonneg g)
  simp only [Pi.sub_apply, sub_zero]
  rw [l, ← sqrt_area _ _ (by linarith)]
  congr 1
  ring

/-- The end of a rod cut by a plane. -/
def Corner (r h : ℝ) (q : Vec3 ℝ) : Prop := (q.y ≤ 0 ∧ q.x ^ 2 + q.y ^ 2 + q.z ^ 2 < r ^ 2 ∨ 0 < q.y ∧ q.x ^ 2 + q.z ^ 2 < r ^ 2) ∧ q.y * Real.cos h < q.x * Real.sin h

theorem corner_measurable (r h : ℝ) : MeasurableSet (points (Corner r h)) := by
  have e : points (Corner r h) = ({p | p.1.2 ≤ 0} ∩ {p | p.1.1 ^ 2 + p.1.2 ^ 2 + p.2 ^ 2 < r ^ 2} ∪ {p | 0 < p.1.2} ∩ {p | p.1.1 ^ 2 + p.2 ^ 2 < r ^ 2}) ∩ {p | p.1.2 * Real.cos h < p.1.1 * Real.sin h} := rfl
  rw [e]
  refine (((measurableSet_le (by fun_prop) (by fun_prop)).inter (measurableSet_lt (by fun_prop) (by fun_prop))).union ((measurableSet_lt (by fun_prop) (by fun_prop)).inter (measurableSet_lt (by fun_prop) (by fun_prop)))).inter (measurableSet_lt (by fun_prop) (by fun_prop))

theorem height_integral {r : ℝ} (hr : 0 < r) : ∫⁻ z, ENNReal.ofReal (r ^ 2 - z ^ 2) = ENNReal.ofReal (4 / 3 * r ^ 3) := by
  have hv := ball_volume 0 hr
  rw [points_ball, revolve (g := fun z => r ^ 2 - (z - 0) ^ 2) (by fun_prop)] at hv
  simp only [sub_zero] at hv
  rw [show 4 / 3 * Real.pi * r ^ 3 = Real.pi * (4 / 3 * r ^ 3) by ring, ENNReal.ofReal_mul Real.pi_pos.le] at hv
  exact (ENNReal.mul_right_inj (by simpa using Real.pi_pos) ENNReal.ofReal_ne_top).mp hv

theorem corner_volume {r h : ℝ} (hr : 0 < r) (h0 : 0 < h) (h1 : h < Real.pi / 2) : volume (points (Corner r h)) = ENNReal.ofReal (2 / 3 * r ^ 3 * (Real.pi - h + Real.tan h)) := by
  have ht : 0 < Real.tan h := Real.tan_pos_of_pos_of_lt_pi_div_two h0 h1
  have hpi := Real.pi_pos
  rw [Measure.volume_eq_prod, Measure.prod_apply_symm (corner_measurable r h)]
  have e : ∀ z : ℝ, volume ((fun x => (x, z)) ⁻¹' points (Corner r h)) = ENNReal.ofReal ((Real.pi - h + Real.tan h) / 2) * ENNReal.ofReal (r ^ 2 - z ^ 2) := by
    intro z
    have es : (fun x => (x, z)) ⁻¹' points (Corner r h) = {q : ℝ × ℝ | q.2 ≤ 0 ∧ q.1 ^ 2 + q.2 ^ 2 < r ^ 2 - z ^ 2 ∧ q.2 * Real.cos h < q.1 * Real.sin h} ∪
        {q : ℝ × ℝ | 0 < q.2 ∧ q.1 ^ 2 < r ^ 2 - z ^ 2 ∧ q.2 * Real.cos h < q.1 * Real.sin h} := by
      ext ⟨x, y⟩
      show ((y ≤ 0 ∧ x ^ 2 + y ^ 2 + z ^ 2 < r ^ 2 ∨ 0 < y ∧ x ^ 2 + z ^ 2 < r ^ 2) ∧ y * Real.cos h < x * Real.sin h) ↔
        ((y ≤ 0 ∧ x ^ 2 + y ^ 2 < r ^ 2 - z ^ 2 ∧ y * Real.cos h < x * Real.sin h) ∨ (0 < y ∧ x ^ 2 < r ^ 2 - z ^ 2 ∧ y * Real.cos h < x * Real.sin h))
      rw [lt_sub_iff_add_lt, lt_sub_iff_add_lt]
      tauto
    rw [es, measure_union, sector_area h0 h1, triangle_area h0 h1, ← add_mul, ← ENNReal.ofReal_add (by linarith) (by linarith)]
    · congr 2; ring
    · rw [Set.disjoint_left]
      rintro q ⟨a, -⟩ ⟨b, -⟩
      exact absurd b (not_lt.mpr a)
    · have e : {q : ℝ × ℝ | 0 < q.2 ∧ q.1 ^ 2 < r ^ 2 - z ^ 2 ∧ q.2 * Real.cos h < q.1 * Real.sin h} = {q | 0 < q.2} ∩ ({q | q.1 ^ 2 < r ^ 2 - z ^ 2} ∩ {q | q.2 * Real.cos h < q.1 * Real.sin h}) := rfl
      rw [e]
      exact (measurableSet_lt (by fun_prop) (by fun_prop)).inter ((measurableSet_lt (by fun_prop) (by fun_prop)).inter (measurableSet_lt (by fun_prop) (by fun_prop)))
  simp only [e]
  rw [lintegral_const_mul _ (by fun_prop), height_integral hr, ← ENNReal.ofReal_mul (by linarith)]
  congr 1
  ring

/-- The squared radius of a rod on the z axis. -/
noncomputable def rodProfile (r L z : ℝ) : ℝ := if z ≤ 0 then r ^ 2 - z ^ 2 else if z ≤ L then r ^ 2 else r ^ 2 - (z - L) ^ 2

theorem rodProfile_iff {r L : ℝ} (hL : 0 ≤ L) (q w : ℝ) : (∃ s : ℝ, 0 ≤ s ∧ s ≤ 1 ∧ q + (w - s * L) ^ 2 < r ^ 2) ↔ q < rodProfile r L w := by
  unfold rodProfile
  constructor
  · rintro ⟨s, s0, s1, h⟩
    have h1 : 0 ≤ s * L := mul_nonneg s0 hL
    have h2 : s * L ≤ L := mul_le_of_le_one_left hL s1
    split
    · nlinarith
    · split <;> nlinarith
  · intro h
    split at h
    · exact ⟨0, le_refl _, zero_le_one, by rw [zero_mul, sub_zero]; linarith⟩
    next hw =>
      split at h
      next hw2 =>
        have hL0 : 0 < L := by linarith
        refine ⟨w / L, div_nonneg (by linarith) hL, (div_le_one hL0).mpr hw2, ?_⟩
        rw [div_mul_cancel₀ _ hL0.ne', sub_self]
        linarith
      · exact ⟨1, zero_le_one, le_refl _, by rw [one_mul]; linarith⟩

theorem points_rod {r L : ℝ} (hL : 0 ≤ L) : points (Capsule ⟨0, 0, 0⟩ ⟨0, 0, L⟩ r) = {p | p.1.1 ^ 2 + p.1.2 ^ 2 < rodProfile r L p.2} := by
  ext p
  show Capsule _ _ _ _ ↔ p.1.1 ^ 2 + p.1.2 ^ 2 < rodProfile r L p.2
  rw [← rodProfile_iff hL]
  constructor
  · rintro ⟨_, ⟨s, s0, s1, rfl⟩, h⟩
    refine ⟨s, s0, s1, ?_⟩
    simp only [Ball, Vec3.norm2, Vec3.dot, Vec3.sub_x, Vec3.sub_y, Vec3.sub_z, Vec3.add_x, Vec3.add_y, Vec3.add_z, Vec3.smul_x, Vec3.smul_y, Vec3.smul_z] at h
    nlinarith
  · rintro ⟨s, s0, s1, h⟩
    refine ⟨_, ⟨s, s0, s1, rfl⟩, ?_⟩
    simp only [Ball, Vec3.norm2, Vec3.dot, Vec3.sub_x, Vec3.sub_y, Vec3.sub_z, Vec3.add_x, Vec3.add_y, Vec3.add_z, Vec3.smul_x, Vec3.smul_y, Vec3.smul_z]
    nlinarith

theorem rod_volume {r L : ℝ} (hr : 0 < r) (hL : 0 ≤ L) : MeasurableSet (points (Capsule ⟨0, 0, 0⟩ ⟨0, 0, L⟩ r)) ∧ volume (points (Capsule ⟨0, 0, 0⟩ ⟨0, 0, L⟩ r)) = ENNReal.ofReal (Real.pi * L * r ^ 2 + 4 / 3 * Real.pi * r ^ 3) := by
  have hmeas : Measurable (rodProfile r L) := by
    unfold rodProfile
    exact Measurable.ite measurableSet_Iic (by fun_prop) (Measurable.ite measurableSet_Iic (by fun_prop) (by fun_prop))
  have hr3 := pow_pos hr 3
  rw [points_rod hL]
  refine ⟨measurable_revolve hmeas, ?_⟩
  rw [revolve hmeas, three_pieces (g1 := fun z => r ^ 2 - (z - 0) ^ 2) (g2 := fun _ => r ^ 2) (g3 := fun z => r ^ 2 - (z - L) ^ 2) (by fun_prop) (by fun_prop) (by fun_prop) (a := -r) (x := 0) (y := L) (b := L + r) (by linarith) hL (by linarith)]
  · rw [ball_integral, ball_integral, intervalIntegral.integral_const, ← ENNReal.ofReal_add, ← ENNReal.ofReal_add, ← ENNReal.ofReal_mul Real.pi_pos.le]
    · congr 1
      rw [smul_eq_mul]; ring
    · rw [smul_eq_mul]
      have : 0 ≤ (L - 0) * r ^ 2 := by rw [sub_zero]; positivity
      nlinarith
    · ring_nf; linarith
    · ring_nf; linarith
    · rw [smul_eq_mul, sub_zero]; positivity
  · rintro z ⟨h1, h2⟩
    exact ⟨by nlinarith, by unfold rodProfile; rw [if_pos h2, sub_zero]⟩
  · rintro z ⟨h1, h2⟩
    exact ⟨by positivity, by unfold rodProfile; rw [if_neg (not_le.mpr h1), if_pos h2]⟩
  · rintro z ⟨h1, h2⟩
    exact ⟨by nlinarith, by unfold rodProfile; rw [if_neg (by linarith), if_neg (not_le.mpr h1)]⟩
  · intro z hz
    simp only [Set.mem_Ioc, not_and_or, not_lt, not_le] at hz
    unfold rodProfile
    rcases hz with hz | hz
    · rw [if_pos (by linarith)]; nlinarith
    · rw [if_neg (by linarith), if_neg (by linarith)]; nlinarith

/-- A placed rod. -/
theorem placed_rod {m : Mat3} (ho : Orthogonal m) (a b v : Vec3 ℝ) (r : ℝ) : Placed (Capsule a b r) m v = Capsule (m.mulVec a + v) (m.mulVec b + v) r := by
  funext p
  have lin : ∀ s : ℝ, m.mulVec a + v + s • (m.mulVec b + v - (m.mulVec a + v)) = m.mulVec (a + s • (b - a)) + v := by
    intro s
    ext <;> simp only [Mat3.mulVec, Vec3.dot, Vec3.sub_x, Vec3.sub_y, Vec3.sub_z, Vec3.add_x, Vec3.add_y, Vec3.add_z, Vec3.smul_x, Vec3.smul_y, Vec3.smul_z] <;> ring
  have dist : ∀ c q : Vec3 ℝ, (m.mulVec q + v - (m.mulVec c + v)).norm2 = (q - c).norm2 := by
    intro c q
    rw [← orthogonal_norm2 ho (q - c)]
    congr 1
    ext <;> simp only [Mat3.mulVec, Vec3.dot, Vec3.sub_x, Vec3.sub_y, Vec3.sub_z, Vec3.add_x, Vec3.add_y, Vec3.add_z] <;> ring
  rw [eq_iff_iff]
  constructor
  · rintro ⟨q, ⟨_, ⟨s, s0, s1, rfl⟩, h⟩, rfl⟩
    refine ⟨_, ⟨s, s0, s1, rfl⟩, ?_⟩
    unfold Ball at h ⊢
    rw [lin, dist]; exact h
  · rintro ⟨_, ⟨s, s0, s1, rfl⟩, h⟩
    rw [placed_iff ho]
    refine ⟨_, ⟨s, s0, s1, rfl⟩, ?_⟩
    unfold Ball at h ⊢
    rw [← dist, Mat3.mulVec_mulVec, Xeno.orthogonal_transpose ho, Mat3.one_mulVec, ← lin, show p - v + v = p by ext <;> simp]
    exact h

end Rampack.Banana
