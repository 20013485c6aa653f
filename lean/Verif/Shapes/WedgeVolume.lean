import Verif.Shapes.WedgeLemmas
import Verif.Shapes.VolumeLemmas
/-
Volumes of wedges.
-/
namespace Rampack.Volume

open Rampack Spec Shapes MeasureTheory

theorem closed_disc_area (g : ℝ) : volume {q : ℝ × ℝ | q.1 ^ 2 + q.2 ^ 2 ≤ g} = ENNReal.ofReal Real.pi * ENNReal.ofReal g := by
  rcases lt_or_ge g 0 with hg | hg
  · have : {q : ℝ × ℝ | q.1 ^ 2 + q.2 ^ 2 ≤ g} = ∅ := by
      ext q
      simp only [Set.mem_setOf_eq, Set.mem_empty_iff_false, iff_false, not_le]
      have := sq_nonneg q.1
      have := sq_nonneg q.2
      linarith
    rw [this, ENNReal.ofReal_of_nonpos hg.le]; simp
  have h : Complex.measurableEquivRealProd ⁻¹' {q : ℝ × ℝ | q.1 ^ 2 + q.2 ^ 2 ≤ g} = Metric.closedBall (0 : ℂ) (Real.sqrt g) := by
    ext w
    simp only [Set.mem_preimage, Set.mem_setOf_eq, Complex.measurableEquivRealProd_apply, mem_closedBall_zero_iff]
    rw [Complex.norm_def, Complex.normSq_apply, ← pow_two, ← pow_two]
    exact (Real.sqrt_le_sqrt_iff hg).symm
  rw [← Complex.volume_preserving_equiv_real_prod.measure_preimage_equiv, h, Complex.volume_closedBall]
  rw [← ENNReal.ofReal_pow (Real.sqrt_nonneg g), mul_comm]
  congr 1
  · rw [← NNReal.coe_real_pi, ENNReal.ofReal_coe_nnreal]
  · rw [Real.sq_sqrt hg]

theorem measurable_revolve_closed {g : ℝ → ℝ} (hg : Measurable g) : MeasurableSet {p : (ℝ × ℝ) × ℝ | p.1.1 ^ 2 + p.1.2 ^ 2 ≤ g p.2} := by
  apply measurableSet_le
  · fun_prop
  · exact hg.comp measurable_snd

theorem revolve_closed {g : ℝ → ℝ} (hg : Measurable g) : volume {p : (ℝ × ℝ) × ℝ | p.1.1 ^ 2 + p.1.2 ^ 2 ≤ g p.2} = ENNReal.ofReal Real.pi * ∫⁻ z, ENNReal.ofReal (g z) := by
  rw [Measure.volume_eq_prod, Measure.prod_apply_symm (measurable_revolve_closed hg), ← lintegral_const_mul _ (by fun_prop)]
  congr 1
  ext z
  exact closed_disc_area (g z)

/-- A function which is positive only between `a` and `b` and is given there by three formulas. -/
theorem three_pieces {g g1 g2 g3 : ℝ → ℝ} (h1 : Continuous g1) (h2 : Continuous g2) (h3 : Continuous g3) {a x y b : ℝ} (hax : a ≤ x) (hxy : x ≤ y) (hyb : y ≤ b)
    (e1 : ∀ z ∈ Set.Ioc a x, 0 ≤ g1 z ∧ g z = g1 z) (e2 : ∀ z ∈ Set.Ioc x y, 0 ≤ g2 z ∧ g z = g2 z) (e3 : ∀ z ∈ Set.Ioc y b, 0 ≤ g3 z ∧ g z = g3 z) (e0 : ∀ z, z ∉ Set.Ioc a b → g z ≤ 0) :
    ∫⁻ z, ENNReal.ofReal (g z) = ENNReal.ofReal (∫ z in a..x, g1 z) + ENNReal.ofReal (∫ z in x..y, g2 z) + ENNReal.ofReal (∫ z in y..b, g3 z) := by
  rw [← piece h1 hax fun z hz => (e1 z hz).1, ← piece h2 hxy fun z hz => (e2 z hz).1, ← piece h3 hyb fun z hz => (e3 z hz).1]
  have : (fun z => ENNReal.ofReal (g z)) = (Set.Ioc a b).indicator fun z => ENNReal.ofReal (g z) := by
    ext z
    by_cases hz : z ∈ Set.Ioc a b
    · rw [Set.indicator_of_mem hz]
    · rw [Set.indicator_of_notMem hz, ENNReal.ofReal_of_nonpos (e0 z hz)]
  rw [this, lintegral_indicator measurableSet_Ioc, ← Set.Ioc_union_Ioc_eq_Ioc (hax.trans hxy) hyb, lintegral_union measurableSet_Ioc,
    ← Set.Ioc_union_Ioc_eq_Ioc hax hxy, lintegral_union measurableSet_Ioc]
  · congr 1
    · congr 1
      · exact setLIntegral_congr_fun measurableSet_Ioc fun z hz => by simp only [(e1 z hz).2]
      · exact setLIntegral_congr_fun measurableSet_Ioc fun z hz => by simp only [(e2 z hz).2]
    · exact setLIntegral_congr_fun measurableSet_Ioc fun z hz => by simp only [(e3 z hz).2]
  · rw [Set.disjoint_left]
    intro z hz hz'
    exact absurd hz.2 (not_le.mpr hz'.1)
  · rw [Set.disjoint_left]
    intro z hz hz'
    exact absurd hz.2 (not_le.mpr hz'.1)

/-- The squared radius of the section of a wedge at the height `w` above the centre of the bottom ball. -/
noncomputable def profile (R r l w : ℝ) : ℝ :=
  if w * l ≤ R * (R - r) then R ^ 2 - w ^ 2
  else if w * l - R * (R - r) ≤ l ^ 2 - (R - r) ^ 2 then (R * l - w * (R - r)) ^ 2 / (l ^ 2 - (R - r) ^ 2)
  else r ^ 2 - (w - l) ^ 2

theorem measurable_profile (R r l c : ℝ) : Measurable fun z => profile R r l (z - c) := by
  unfold profile
  refine Measurable.ite (measurableSet_le (by fun_prop) (by fun_prop)) (by fun_prop) ?_
  exact Measurable.ite (measurableSet_le (by fun_prop) (by fun_prop)) (by fun_prop) (by fun_prop)

theorem square_slope {R r l : ℝ} (hl : 0 < l) (h : |R - r| ≤ l) : 0 ≤ l ^ 2 - (R - r) ^ 2 := by
  have := sq_abs (R - r)
  have := abs_nonneg (R - r)
  nlinarith

/-- The quantity which the sweep maximises. -/
theorem sweep_square (R r l w t : ℝ) : ((1 - t) * R + t * r) ^ 2 - (w - t * l) ^ 2 = R ^ 2 - w ^ 2 + 2 * t * (w * l - R * (R - r)) - t ^ 2 * (l ^ 2 - (R - r) ^ 2) := by ring

theorem sweep_profile {R r l : ℝ} (hl : 0 < l) (h : |R - r| ≤ l) (w q : ℝ) : (∃ t : ℝ, 0 ≤ t ∧ t ≤ 1 ∧ q + (w - t * l) ^ 2 ≤ ((1 - t) * R + t * r) ^ 2) ↔ q ≤ profile R r l w := by
  have hs := square_slope hl h
  have e := fun t => sweep_square R r l w t
  have em : ∀ hd : l ^ 2 - (R - r) ^ 2 ≠ 0, (R * l - w * (R - r)) ^ 2 / (l ^ 2 - (R - r) ^ 2) = R ^ 2 - w ^ 2 + (w * l - R * (R - r)) ^ 2 / (l ^ 2 - (R - r) ^ 2) := by
    intro hd
    field_simp
    ring
  have er : r ^ 2 - (w - l) ^ 2 = R ^ 2 - w ^ 2 + 2 * (w * l - R * (R - r)) - (l ^ 2 - (R - r) ^ 2) := by ring
  have hsub : w * l ≤ R * (R - r) ↔ w * l - R * (R - r) ≤ 0 := by constructor <;> intro h <;> linarith
  unfold profile
  rw [er]
  simp only [hsub]
  generalize w * l - R * (R - r) = k at *
  generalize hS : l ^ 2 - (R - r) ^ 2 = S at *
  constructor
  · rintro ⟨t, h0, h1, hq⟩
    have hq' : q ≤ R ^ 2 - w ^ 2 + 2 * t * k - t ^ 2 * S := by rw [← e t]; linarith
    split_ifs with c1 c2
    · have := mul_nonneg h0 (neg_nonneg.mpr c1)
      have := mul_nonneg (sq_nonneg t) hs
      linarith
    · have hd : 0 < S := by linarith
      rw [em hd.ne']
      have : 2 * t * k - t ^ 2 * S ≤ k ^ 2 / S := by
        rw [le_div_iff₀ hd]
        nlinarith [sq_nonneg (k - t * S)]
      linarith
    · have : 0 ≤ (1 - t) * (2 * k - (1 + t) * S) := by
        apply mul_nonneg (by linarith)
        have := mul_le_mul_of_nonneg_right (show 1 + t ≤ 2 by linarith) hs
        linarith
      nlinarith
  · intro hq
    split_ifs at hq with c1 c2
    · exact ⟨0, le_refl _, zero_le_one, by linarith [e 0]⟩
    · have hd : 0 < S := by linarith
      rw [em hd.ne'] at hq
      refine ⟨k / S, div_nonneg (by linarith) hs, (div_le_one hd).mpr c2, ?_⟩
      have h1 := e (k / S)
      have h2 : 2 * (k / S) * k - (k / S) ^ 2 * S = k ^ 2 / S := by field_simp; ring
      linarith
    · exact ⟨1, zero_le_one, le_refl _, by linarith [e 1]⟩

theorem points_smooth {R r l : ℝ} (hR : 0 < R) (hr : 0 < r) (hl : 0 < l) (h : |R - r| ≤ l) : points (SmoothWedge R r l) = {p | p.1.1 ^ 2 + p.1.2 ^ 2 ≤ profile R r l (p.2 - (R - r - l) / 2)} := by
  ext p
  unfold points SmoothWedge
  rw [Set.mem_setOf_eq, Set.mem_setOf_eq, Wedge.join_balls hR hr, ← sweep_profile hl h]
  apply exists_congr; intro t
  apply and_congr_right; intro _
  apply and_congr_right; intro _
  unfold Wedge.Swept
  have : (1 - t) * ((R - r - l) / 2) + t * ((R - r + l) / 2) = (R - r - l) / 2 + t * l := by ring
  rw [this, show p.2 - ((R - r - l) / 2 + t * l) = p.2 - (R - r - l) / 2 - t * l by ring]

theorem cone_integral (R D l S c a b : ℝ) : ∫ z in a..b, (R * l - (z - c) * D) ^ 2 / S = ((R * l) ^ 2 * (b - a) - R * l * D * ((b - c) ^ 2 - (a - c) ^ 2) + D ^ 2 * ((b - c) ^ 3 - (a - c) ^ 3) / 3) / S := by
  rw [intervalIntegral.integral_comp_sub_right (fun z => (R * l - z * D) ^ 2 / S) c]
  have e : (fun z : ℝ => (R * l - z * D) ^ 2 / S) = fun z => (R * l) ^ 2 / S + (-(2 * R * l * D) / S * z ^ 1 + D ^ 2 / S * z ^ 2) := by
    ext z; ring
  rw [e, intervalIntegral.integral_add (by simp) (by apply Continuous.intervalIntegrable; fun_prop), intervalIntegral.integral_add (by apply Continuous.intervalIntegrable; fun_prop) (by apply Continuous.intervalIntegrable; fun_prop),
    intervalIntegral.integral_const_mul, intervalIntegral.integral_const_mul, integral_pow, integral_pow]
  simp
  norm_num
  ring

end Rampack.Volume
