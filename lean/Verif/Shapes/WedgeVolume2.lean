import Verif.Shapes.WedgeVolume
/-
The volume of a smooth wedge and of a polyhedral one.
-/
namespace Rampack.Volume

open Rampack Spec Shapes MeasureTheory

theorem smooth_algebra {R r l : ℝ} (hl : 0 < l) (hS : 0 < l ^ 2 - (R - r) ^ 2) (c : ℝ) :
    (R ^ 2 * (c + R * (R - r) / l - (c - R)) - ((c + R * (R - r) / l - c) ^ 3 - (c - R - c) ^ 3) / 3) +
    ((R * l) ^ 2 * (c + (l + r * (R - r) / l) - (c + R * (R - r) / l)) - R * l * (R - r) * ((c + (l + r * (R - r) / l) - c) ^ 2 - (c + R * (R - r) / l - c) ^ 2) +
      (R - r) ^ 2 * ((c + (l + r * (R - r) / l) - c) ^ 3 - (c + R * (R - r) / l - c) ^ 3) / 3) / (l ^ 2 - (R - r) ^ 2) +
    (r ^ 2 * (c + (l + r) - (c + (l + r * (R - r) / l))) - ((c + (l + r) - (c + l)) ^ 3 - (c + (l + r * (R - r) / l) - (c + l)) ^ 3) / 3) =
    l / 3 * (R * R + R * r + r * r) * (1 + (R - r) / l * ((R - r) / l)) + 2 / 3 * (R * R * R + r * r * r) := by
  have h2 : l ^ 2 - (R - r) ^ 2 ≠ 0 := hS.ne'
  field_simp
  ring

theorem ends {R r l : ℝ} (hl : 0 < l) (h : |R - r| ≤ l) : -1 ≤ (R - r) / l ∧ (R - r) / l ≤ 1 := by
  obtain ⟨h1, h2⟩ := abs_le.mp h
  exact ⟨by rw [le_div_iff₀ hl]; linarith, by rw [div_le_one hl]; linarith⟩

theorem profile_low {R r l w : ℝ} (hl : 0 < l) (h : w ≤ R * (R - r) / l) : profile R r l w = R ^ 2 - w ^ 2 := by
  unfold profile
  rw [if_pos ((le_div_iff₀ hl).mp h)]

theorem profile_middle {R r l w : ℝ} (hl : 0 < l) (h : R * (R - r) / l < w) (h' : w ≤ l + r * (R - r) / l) : profile R r l w = (R * l - w * (R - r)) ^ 2 / (l ^ 2 - (R - r) ^ 2) := by
  unfold profile
  rw [if_neg (not_le.mpr ((div_lt_iff₀ hl).mp h)), if_pos]
  have := mul_le_mul_of_nonneg_right h' hl.le
  rw [add_mul, div_mul_cancel₀ _ hl.ne'] at this
  linarith

theorem profile_high {R r l w : ℝ} (hl : 0 < l) (h : |R - r| ≤ l) (h' : l + r * (R - r) / l < w) : profile R r l w = r ^ 2 - (w - l) ^ 2 := by
  have hS := square_slope hl h
  have := mul_lt_mul_of_pos_right h' hl
  rw [add_mul, div_mul_cancel₀ _ hl.ne'] at this
  unfold profile
  rw [if_neg (by linarith), if_neg (by linarith)]

theorem smooth_volume {R r l : ℝ} (hR : 0 < R) (hr : 0 < r) (hl : 0 < l) (h : |R - r| ≤ l) :
    MeasurableSet (points (SmoothWedge R r l)) ∧ volume (points (SmoothWedge R r l)) = ENNReal.ofReal (Real.pi * (l / 3 * (R * R + R * r + r * r) * (1 + (R - r) / l * ((R - r) / l)) + 2 / 3 * (R * R * R + r * r * r))) := by
  rw [points_smooth hR hr hl h]
  refine ⟨measurable_revolve_closed (measurable_profile R r l ((R - r - l) / 2)), ?_⟩
  generalize (R - r - l) / 2 = c
  rw [revolve_closed (measurable_profile R r l c)]
  have hS := square_slope hl h
  obtain ⟨s1, s2⟩ := ends hl h
  have hmid : R * (R - r) / l ≤ l + r * (R - r) / l := by
    rw [div_le_iff₀ hl, add_mul, div_mul_cancel₀ _ hl.ne']
    nlinarith
  have hlow : -R ≤ R * (R - r) / l := by rw [mul_div_assoc]; nlinarith
  have hlow' : R * (R - r) / l ≤ R := by rw [mul_div_assoc]; nlinarith
  have hhigh : l + r * (R - r) / l ≤ l + r := by
    have : r * (R - r) / l ≤ r := by rw [mul_div_assoc]; nlinarith
    linarith
  have hhigh' : l - r ≤ l + r * (R - r) / l := by
    have : -r ≤ r * (R - r) / l := by rw [mul_div_assoc]; nlinarith
    linarith
  have n1 : ∀ z, c - R ≤ z → z ≤ c + R * (R - r) / l → 0 ≤ R ^ 2 - (z - c) ^ 2 := by
    intro z h1 h2
    have : z - c ≤ R := by linarith
    have : -R ≤ z - c := by linarith
    nlinarith
  have n3 : ∀ z, c + (l + r * (R - r) / l) ≤ z → z ≤ c + (l + r) → 0 ≤ r ^ 2 - (z - (c + l)) ^ 2 := by
    intro z h1 h2
    have : z - (c + l) ≤ r := by linarith
    have : -r ≤ z - (c + l) := by linarith
    nlinarith
  have i1 : 0 ≤ ∫ z in (c - R)..(c + R * (R - r) / l), (R ^ 2 - (z - c) ^ 2) :=
    intervalIntegral.integral_nonneg (by linarith) fun z hz => n1 z hz.1 hz.2
  have i2 : 0 ≤ ∫ z in (c + R * (R - r) / l)..(c + (l + r * (R - r) / l)), (R * l - (z - c) * (R - r)) ^ 2 / (l ^ 2 - (R - r) ^ 2) :=
    intervalIntegral.integral_nonneg (by linarith) fun z hz => div_nonneg (sq_nonneg _) hS
  have i3 : 0 ≤ ∫ z in (c + (l + r * (R - r) / l))..(c + (l + r)), (r ^ 2 - (z - (c + l)) ^ 2) :=
    intervalIntegral.integral_nonneg (by linarith) fun z hz => n3 z hz.1 hz.2
  rw [three_pieces (g := fun z => profile R r l (z - c)) (g1 := fun z => R ^ 2 - (z - c) ^ 2) (g2 := fun z => (R * l - (z - c) * (R - r)) ^ 2 / (l ^ 2 - (R - r) ^ 2)) (g3 := fun z => r ^ 2 - (z - (c + l)) ^ 2)
    (by fun_prop) (by fun_prop) (by fun_prop) (a := c - R) (x := c + R * (R - r) / l) (y := c + (l + r * (R - r) / l)) (b := c + (l + r)) (by linarith) (by linarith) (by linarith)]
  · rw [← ENNReal.ofReal_add i1 i2, ← ENNReal.ofReal_add (add_nonneg i1 i2) i3, ← ENNReal.ofReal_mul Real.pi_pos.le]
    congr 2
    rw [ball_integral, ball_integral, cone_integral]
    rcases eq_or_lt_of_le hS with e | e
    · -- the balls touch from inside: there is no cone
      have hsq : (R - r) ^ 2 = l ^ 2 := by linarith
      have e2 : R * (R - r) / l = l + r * (R - r) / l := by
        rw [div_eq_iff hl.ne', add_mul, div_mul_cancel₀ _ hl.ne']
        nlinarith
      rw [← e2, ← e, div_zero, add_zero]
      rcases sq_eq_sq_iff_eq_or_eq_neg.mp hsq with hh | hh
      · obtain rfl : R = r + l := by linarith
        rw [show r + l - r = l by ring]
        field_simp
        ring
      · obtain rfl : r = R + l := by linarith
        rw [show R - (R + l) = -l by ring]
        field_simp
        ring
    · exact smooth_algebra hl e c
  · rintro z ⟨h1, h2⟩
    exact ⟨n1 z h1.le h2, profile_low hl (by linarith)⟩
  · rintro z ⟨h1, h2⟩
    exact ⟨div_nonneg (sq_nonneg _) hS, profile_middle hl (by linarith) (by linarith)⟩
  · rintro z ⟨h1, h2⟩
    exact ⟨n3 z h1.le h2, by rw [profile_high hl h (by linarith)]; ring⟩
  · intro z hz
    simp only [Set.mem_Ioc, not_and_or, not_lt, not_le] at hz
    rcases hz with hz | hz
    · show profile R r l (z - c) ≤ 0
      rw [profile_low hl (by linarith)]
      nlinarith
    · show profile R r l (z - c) ≤ 0
      rw [profile_high hl h (by linarith)]
      nlinarith

/-- The area of a rectangle. -/
theorem rectangle_area (a b : ℝ) : volume {q : ℝ × ℝ | |q.1| ≤ a / 2 ∧ |q.2| ≤ b / 2} = ENNReal.ofReal a * ENNReal.ofReal b := by
  have : {q : ℝ × ℝ | |q.1| ≤ a / 2 ∧ |q.2| ≤ b / 2} = Set.Icc (-(a / 2)) (a / 2) ×ˢ Set.Icc (-(b / 2)) (b / 2) := by
    ext q
    simp only [Set.mem_setOf_eq, Set.mem_prod, Set.mem_Icc, abs_le]
  rw [this, Measure.volume_eq_prod, Measure.prod_prod, Real.volume_Icc, Real.volume_Icc]
  congr 2 <;> ring

theorem prism_integral (l bx tx bz ty : ℝ) (hl : 0 < l) : ∫ z in (-l / 2)..(l / 2), (bx + (z / l + 1 / 2) * (tx - bx)) * (bz + (z / l + 1 / 2) * (ty - bz)) = l / 6 * (2 * bx * bz + tx * bz + bx * ty + 2 * tx * ty) := by
  have e : (fun z : ℝ => (bx + (z / l + 1 / 2) * (tx - bx)) * (bz + (z / l + 1 / 2) * (ty - bz))) = fun z =>
      (bx + tx) / 2 * ((bz + ty) / 2) + (((tx - bx) / l * ((bz + ty) / 2) + (bx + tx) / 2 * ((ty - bz) / l)) * z ^ 1 + (tx - bx) / l * ((ty - bz) / l) * z ^ 2) := by
    ext z; ring
  rw [e, intervalIntegral.integral_add (by simp) (by apply Continuous.intervalIntegrable; fun_prop), intervalIntegral.integral_add (by apply Continuous.intervalIntegrable; fun_prop) (by apply Continuous.intervalIntegrable; fun_prop)]
  simp only [intervalIntegral.integral_const_mul, integral_pow, intervalIntegral.integral_const, smul_eq_mul]
  push_cast
  field_simp
  ring

theorem points_boxy {bx bz tx ty l : ℝ} (hl : 0 < l) (h1 : 0 ≤ bx) (h2 : 0 ≤ bz) (h3 : 0 ≤ tx) (h4 : 0 ≤ ty) :
    points (PolyhedralWedge bx bz tx ty l) = {p | p.2 ∈ Set.Icc (-l / 2) (l / 2) ∧ |p.1.1| ≤ (bx + (p.2 / l + 1 / 2) * (tx - bx)) / 2 ∧ |p.1.2| ≤ (bz + (p.2 / l + 1 / 2) * (ty - bz)) / 2} := by
  ext p
  unfold points PolyhedralWedge
  have e : l / 2 = -l / 2 + l := by ring
  rw [Set.mem_setOf_eq, Set.mem_setOf_eq]
  conv_lhs => rw [e]
  rw [Wedge.join_rectangles h1 h2 h3 h4]
  constructor
  · rintro ⟨t, h0, h1, hz, hx, hy⟩
    have hz : p.2 = -l / 2 + t * l := hz
    have ht : p.2 / l + 1 / 2 = t := by rw [hz]; field_simp; ring
    have := mul_nonneg h0 hl.le
    have := mul_le_mul_of_nonneg_right h1 hl.le
    refine ⟨⟨by linarith, by linarith⟩, ?_, ?_⟩
    · rw [ht]; refine le_trans hx (le_of_eq ?_); ring
    · rw [ht]; refine le_trans hy (le_of_eq ?_); ring
  · rintro ⟨⟨hz1, hz2⟩, hx, hy⟩
    refine ⟨p.2 / l + 1 / 2, ?_, ?_, ?_, ?_, ?_⟩
    · have : -(1 / 2) ≤ p.2 / l := by rw [le_div_iff₀ hl]; linarith
      linarith
    · have : p.2 / l ≤ 1 / 2 := by rw [div_le_iff₀ hl]; linarith
      linarith
    · show p.2 = _
      field_simp; ring
    · refine le_trans hx (le_of_eq ?_); ring
    · refine le_trans hy (le_of_eq ?_); ring

theorem boxy_volume {bx bz tx ty l : ℝ} (hl : 0 < l) (h1 : 0 ≤ bx) (h2 : 0 ≤ bz) (h3 : 0 ≤ tx) (h4 : 0 ≤ ty) :
    volume (points (PolyhedralWedge bx bz tx ty l)) = ENNReal.ofReal (l / 6 * (2 * bx * bz + tx * bz + bx * ty + 2 * tx * ty)) := by
  rw [points_boxy hl h1 h2 h3 h4]
  have hm : MeasurableSet {p : (ℝ × ℝ) × ℝ | p.2 ∈ Set.Icc (-l / 2) (l / 2) ∧ |p.1.1| ≤ (bx + (p.2 / l + 1 / 2) * (tx - bx)) / 2 ∧ |p.1.2| ≤ (bz + (p.2 / l + 1 / 2) * (ty - bz)) / 2} := by
    have m1 : MeasurableSet {p : (ℝ × ℝ) × ℝ | |p.1.1| ≤ (bx + (p.2 / l + 1 / 2) * (tx - bx)) / 2} := measurableSet_le (by fun_prop) (by fun_prop)
    have m2 : MeasurableSet {p : (ℝ × ℝ) × ℝ | |p.1.2| ≤ (bz + (p.2 / l + 1 / 2) * (ty - bz)) / 2} := measurableSet_le (by fun_prop) (by fun_prop)
    exact MeasurableSet.inter (measurable_snd measurableSet_Icc) (MeasurableSet.inter m1 m2)
  rw [Measure.volume_eq_prod, Measure.prod_apply_symm hm]
  have key : ∀ z : ℝ, z ∈ Set.Icc (-l / 2) (l / 2) → 0 ≤ bx + (z / l + 1 / 2) * (tx - bx) ∧ 0 ≤ bz + (z / l + 1 / 2) * (ty - bz) := by
    rintro z ⟨hz1, hz2⟩
    have a1 : 0 ≤ z / l + 1 / 2 := by
      have : -(1 / 2) ≤ z / l := by rw [le_div_iff₀ hl]; linarith
      linarith
    have a2 : z / l + 1 / 2 ≤ 1 := by
      have : z / l ≤ 1 / 2 := by rw [div_le_iff₀ hl]; linarith
      linarith
    constructor <;> nlinarith
  have e : (fun z : ℝ => volume ((fun x => (x, z)) ⁻¹' {p : (ℝ × ℝ) × ℝ | p.2 ∈ Set.Icc (-l / 2) (l / 2) ∧ |p.1.1| ≤ (bx + (p.2 / l + 1 / 2) * (tx - bx)) / 2 ∧ |p.1.2| ≤ (bz + (p.2 / l + 1 / 2) * (ty - bz)) / 2})) =
      (Set.Icc (-l / 2) (l / 2)).indicator fun z => ENNReal.ofReal ((bx + (z / l + 1 / 2) * (tx - bx)) * (bz + (z / l + 1 / 2) * (ty - bz))) := by
    ext z
    by_cases hz : z ∈ Set.Icc (-l / 2) (l / 2)
    · rw [Set.indicator_of_mem hz, ENNReal.ofReal_mul (key z hz).1, ← rectangle_area]
      congr 1
      ext q
      exact and_iff_right hz
    · rw [Set.indicator_of_notMem hz]
      convert measure_empty (μ := (volume : Measure (ℝ × ℝ)))
      ext q
      simp only [Set.mem_preimage, Set.mem_setOf_eq, Set.mem_empty_iff_false, iff_false, not_and]
      exact fun h => absurd h hz
  rw [e, lintegral_indicator measurableSet_Icc, ← prism_integral l bx tx bz ty hl, ← restrict_Ioc_eq_restrict_Icc]
  refine piece (g := fun z => (bx + (z / l + 1 / 2) * (tx - bx)) * (bz + (z / l + 1 / 2) * (ty - bz))) (by fun_prop) (by linarith) fun z hz => ?_
  have := key z (Set.Ioc_subset_Icc_self hz)
  exact mul_nonneg this.1 this.2

end Rampack.Volume
