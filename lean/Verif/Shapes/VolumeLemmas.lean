import Verif.Shapes.VolumeSpec
import Mathlib.MeasureTheory.Integral.IntervalIntegral.FundThmCalculus
import Mathlib.Analysis.SpecialFunctions.Integrals.Basic
/-
Volumes of bodies of revolution about the z axis.
-/
namespace Rampack.Volume

open Rampack Spec Shapes MeasureTheory

theorem disc_area (g : ℝ) : volume {q : ℝ × ℝ | q.1 ^ 2 + q.2 ^ 2 < g} = ENNReal.ofReal Real.pi * ENNReal.ofReal g := by
  have h : Complex.measurableEquivRealProd ⁻¹' {q : ℝ × ℝ | q.1 ^ 2 + q.2 ^ 2 < g} = Metric.ball (0 : ℂ) (Real.sqrt g) := by
    ext w
    simp only [Set.mem_preimage, Set.mem_setOf_eq, Complex.measurableEquivRealProd_apply, mem_ball_zero_iff]
    rw [Complex.norm_def, Complex.normSq_apply, ← pow_two, ← pow_two]
    constructor
    · intro h
      exact Real.sqrt_lt_sqrt (by positivity) h
    · intro h
      exact (Real.sqrt_lt_sqrt_iff (by positivity)).mp h
  rw [← Complex.volume_preserving_equiv_real_prod.measure_preimage_equiv, h, Complex.volume_ball]
  rw [← ENNReal.ofReal_pow (Real.sqrt_nonneg g), mul_comm]
  congr 1
  · rw [← NNReal.coe_real_pi, ENNReal.ofReal_coe_nnreal]
  · rcases le_total 0 g with h | h
    · rw [Real.sq_sqrt h]
    · rw [Real.sqrt_eq_zero_of_nonpos h, ENNReal.ofReal_of_nonpos h]; simp

theorem measurable_revolve {g : ℝ → ℝ} (hg : Measurable g) : MeasurableSet {p : (ℝ × ℝ) × ℝ | p.1.1 ^ 2 + p.1.2 ^ 2 < g p.2} := by
  apply measurableSet_lt
  · fun_prop
  · exact hg.comp measurable_snd

/-- The volume of a body of revolution. -/
theorem revolve {g : ℝ → ℝ} (hg : Measurable g) : volume {p : (ℝ × ℝ) × ℝ | p.1.1 ^ 2 + p.1.2 ^ 2 < g p.2} = ENNReal.ofReal Real.pi * ∫⁻ z, ENNReal.ofReal (g z) := by
  rw [Measure.volume_eq_prod, Measure.prod_apply_symm (measurable_revolve hg), ← lintegral_const_mul _ (by fun_prop)]
  congr 1
  ext z
  exact disc_area (g z)

/-- The part between two heights. -/
theorem piece {g : ℝ → ℝ} (hg : Continuous g) {a b : ℝ} (hab : a ≤ b) (h : ∀ z ∈ Set.Ioc a b, 0 ≤ g z) :
    ∫⁻ z in Set.Ioc a b, ENNReal.ofReal (g z) = ENNReal.ofReal (∫ z in a..b, g z) := by
  rw [intervalIntegral.integral_of_le hab, ofReal_integral_eq_lintegral_ofReal]
  · exact (hg.integrableOn_Icc).mono_set Set.Ioc_subset_Icc_self
  · exact (ae_restrict_iff' measurableSet_Ioc).mpr (Filter.Eventually.of_forall h)

/-- The integral of the squared radius of a ball. -/
theorem ball_integral (r c a b : ℝ) : ∫ z in a..b, (r ^ 2 - (z - c) ^ 2) = r ^ 2 * (b - a) - ((b - c) ^ 3 - (a - c) ^ 3) / 3 := by
  rw [intervalIntegral.integral_comp_sub_right (fun z => r ^ 2 - z ^ 2) c, intervalIntegral.integral_sub (by simp) (by simp), integral_pow]
  simp
  norm_num
  ring

/-- The integral of a function which is positive only between `a` and `b`, and is given there by two formulas. -/
theorem two_pieces {g g1 g2 : ℝ → ℝ} (h1 : Continuous g1) (h2 : Continuous g2) {a x b : ℝ} (hax : a ≤ x) (hxb : x ≤ b)
    (e1 : ∀ z ∈ Set.Ioc a x, 0 ≤ g1 z ∧ g z = g1 z) (e2 : ∀ z ∈ Set.Ioc x b, 0 ≤ g2 z ∧ g z = g2 z) (e0 : ∀ z, z ∉ Set.Ioc a b → g z ≤ 0) :
    ∫⁻ z, ENNReal.ofReal (g z) = ENNReal.ofReal (∫ z in a..x, g1 z) + ENNReal.ofReal (∫ z in x..b, g2 z) := by
  rw [← piece h1 hax fun z hz => (e1 z hz).1, ← piece h2 hxb fun z hz => (e2 z hz).1]
  have : (fun z => ENNReal.ofReal (g z)) = (Set.Ioc a b).indicator fun z => ENNReal.ofReal (g z) := by
    ext z
    by_cases hz : z ∈ Set.Ioc a b
    · rw [Set.indicator_of_mem hz]
    · rw [Set.indicator_of_notMem hz, ENNReal.ofReal_of_nonpos (e0 z hz)]
  rw [this, lintegral_indicator measurableSet_Ioc, ← Set.Ioc_union_Ioc_eq_Ioc hax hxb, lintegral_union measurableSet_Ioc]
  · congr 1
    · exact setLIntegral_congr_fun measurableSet_Ioc fun z hz => by simp only [(e1 z hz).2]
    · exact setLIntegral_congr_fun measurableSet_Ioc fun z hz => by simp only [(e2 z hz).2]
  · rw [Set.disjoint_left]
    intro z hz hz'
    exact absurd hz.2 (not_le.mpr hz'.1)

/-- The ball with the centre on the z axis. -/
theorem points_ball (c r : ℝ) : points (Ball ⟨0, 0, c⟩ r) = {p | p.1.1 ^ 2 + p.1.2 ^ 2 < r ^ 2 - (p.2 - c) ^ 2} := by
  ext p
  simp only [points, Ball, Set.mem_setOf_eq, Vec3.norm2, Vec3.dot, Vec3.sub_x, Vec3.sub_y, Vec3.sub_z]
  constructor <;> intro h <;> linarith

theorem measurable_ball (c r : ℝ) : MeasurableSet (points (Ball ⟨0, 0, c⟩ r)) := by
  rw [points_ball]
  exact measurable_revolve (g := fun z => r ^ 2 - (z - c) ^ 2) (by fun_prop)

theorem ball_volume (c : ℝ) {r : ℝ} (hr : 0 < r) : volume (points (Ball ⟨0, 0, c⟩ r)) = ENNReal.ofReal (4 / 3 * Real.pi * r ^ 3) := by
  rw [points_ball, revolve (g := fun z => r ^ 2 - (z - c) ^ 2) (by fun_prop)]
  rw [two_pieces (g := fun z => r ^ 2 - (z - c) ^ 2) (g1 := fun z => r ^ 2 - (z - c) ^ 2) (g2 := fun z => r ^ 2 - (z - c) ^ 2) (by fun_prop) (by fun_prop) (a := c - r) (x := c) (b := c + r) (by linarith) (by linarith)]
  · rw [ball_integral, ball_integral, ← ENNReal.ofReal_add, ← ENNReal.ofReal_mul Real.pi_pos.le]
    · congr 1; ring
    · have := pow_pos hr 3
      ring_nf; linarith
    · have := pow_pos hr 3
      ring_nf; linarith
  · rintro z ⟨h1, h2⟩
    exact ⟨by nlinarith, rfl⟩
  · rintro z ⟨h1, h2⟩
    exact ⟨by nlinarith, rfl⟩
  · intro z hz
    simp only [Set.mem_Ioc, not_and_or, not_lt, not_le] at hz
    rcases hz with hz | hz <;> nlinarith

/-- The height of the plane in which two spheres cross. -/
noncomputable def crossing (r1 r2 d : ℝ) : ℝ := (d ^ 2 + r1 ^ 2 - r2 ^ 2) / (2 * d)

theorem crossing_spec {r1 r2 d : ℝ} (hd : 0 < d) : 2 * d * crossing r1 r2 d = d ^ 2 + r1 ^ 2 - r2 ^ 2 := by
  unfold crossing; field_simp

theorem crossing_le {r1 r2 d : ℝ} (hd : 0 < d) (h1 : r1 - r2 ≤ d) (h2 : d ≤ r1 + r2) : crossing r1 r2 d ≤ r1 := by
  have := crossing_spec (r1 := r1) (r2 := r2) hd
  nlinarith

theorem le_crossing {r1 r2 d : ℝ} (hd : 0 < d) (h1 : r2 - r1 ≤ d) (h2 : d ≤ r1 + r2) : d - r2 ≤ crossing r1 r2 d := by
  have := crossing_spec (r1 := r1) (r2 := r2) hd
  nlinarith

theorem lens_algebra (r1 r2 : ℝ) {d : ℝ} (hd : 0 < d) (c : ℝ) :
    r2 ^ 2 * (c + crossing r1 r2 d - (c + d - r2)) - ((c + crossing r1 r2 d - (c + d)) ^ 3 - (c + d - r2 - (c + d)) ^ 3) / 3 +
      (r1 ^ 2 * (c + r1 - (c + crossing r1 r2 d)) - ((c + r1 - c) ^ 3 - (c + crossing r1 r2 d - c) ^ 3) / 3) =
    1 / 12 / d * (r1 + r2 - d) ^ 2 * (d * d + 2 * d * (r1 + r2) - 3 * (r1 - r2) ^ 2) := by
  unfold crossing
  field_simp
  ring

/-- The common part of two crossing balls. -/
theorem lens_volume (c : ℝ) {r1 r2 d : ℝ} (hr1 : 0 < r1) (hr2 : 0 < r2) (hd : 0 < d) (h12 : r1 - r2 ≤ d) (h21 : r2 - r1 ≤ d) (hs : d ≤ r1 + r2) :
    volume (points (Ball ⟨0, 0, c⟩ r1) ∩ points (Ball ⟨0, 0, c + d⟩ r2)) =
      ENNReal.ofReal (Real.pi / 12 / d * (r1 + r2 - d) ^ 2 * (d * d + 2 * d * (r1 + r2) - 3 * (r1 - r2) ^ 2)) := by
  have hset : points (Ball ⟨0, 0, c⟩ r1) ∩ points (Ball ⟨0, 0, c + d⟩ r2) = {p | p.1.1 ^ 2 + p.1.2 ^ 2 < min (r1 ^ 2 - (p.2 - c) ^ 2) (r2 ^ 2 - (p.2 - (c + d)) ^ 2)} := by
    rw [points_ball, points_ball]
    ext p
    simp only [Set.mem_inter_iff, Set.mem_setOf_eq, lt_min_iff]
  have hx1 := crossing_le hd h12 hs
  have hx2 := le_crossing hd h21 hs
  have hx := crossing_spec (r1 := r1) (r2 := r2) hd
  have p1 : ∀ z, c + d - r2 < z → z ≤ c + crossing r1 r2 d → 0 ≤ r2 ^ 2 - (z - (c + d)) ^ 2 := by
    intro z h1 h2
    have : z ≤ c + d + r2 := by linarith
    nlinarith
  have p2 : ∀ z, c + crossing r1 r2 d < z → z ≤ c + r1 → 0 ≤ r1 ^ 2 - (z - c) ^ 2 := by
    intro z h1 h2
    have : c - r1 ≤ z := by linarith
    nlinarith
  rw [hset, revolve (g := fun z => min (r1 ^ 2 - (z - c) ^ 2) (r2 ^ 2 - (z - (c + d)) ^ 2)) (by fun_prop)]
  rw [two_pieces (g := fun z => min (r1 ^ 2 - (z - c) ^ 2) (r2 ^ 2 - (z - (c + d)) ^ 2)) (g1 := fun z => r2 ^ 2 - (z - (c + d)) ^ 2) (g2 := fun z => r1 ^ 2 - (z - c) ^ 2) (by fun_prop) (by fun_prop)
    (a := c + d - r2) (x := c + crossing r1 r2 d) (b := c + r1) (by linarith) (by linarith)]
  · rw [← ENNReal.ofReal_add, ← ENNReal.ofReal_mul Real.pi_pos.le, ball_integral, ball_integral, lens_algebra r1 r2 hd c]
    · congr 1; ring
    · apply intervalIntegral.integral_nonneg (by linarith)
      intro z hz
      rcases eq_or_lt_of_le hz.1 with e | h
      · rw [← e]; ring_nf; exact le_refl _
      · exact p1 z h hz.2
    · apply intervalIntegral.integral_nonneg (by linarith)
      intro z hz
      rcases eq_or_lt_of_le hz.1 with e | h
      · rw [← e]; nlinarith
      · exact p2 z h hz.2
  · rintro z ⟨h1, h2⟩
    refine ⟨p1 z h1 h2, min_eq_right ?_⟩
    nlinarith
  · rintro z ⟨h1, h2⟩
    refine ⟨p2 z h1 h2, min_eq_left ?_⟩
    nlinarith
  · intro z hz
    simp only [Set.mem_Ioc, not_and_or, not_lt, not_le] at hz
    rcases hz with hz | hz
    · refine le_trans (min_le_right _ _) ?_
      nlinarith
    · refine le_trans (min_le_left _ _) ?_
      nlinarith

end Rampack.Volume
