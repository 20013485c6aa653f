import Verif.Geometry.SegmentSpec
import Verif.Domain.ApartLemmas
/-
Lemmas about the nearest points of segments.
-/
namespace Rampack

open Spec

namespace Segment

/-- The parameters give the nearest points: the derivative in each of them has the right sign or is zero. -/
def Optimal (a b c d e s t : ℝ) : Prop :=
  0 ≤ s ∧ s ≤ 1 ∧ 0 ≤ t ∧ t ≤ 1 ∧ (∀ s', 0 ≤ s' → s' ≤ 1 → 0 ≤ (d + s * a - t * b) * (s' - s)) ∧ ∀ t', 0 ≤ t' → t' ≤ 1 → 0 ≤ (-e - s * b + t * c) * (t' - t)

theorem norm2_nearest (w u v : Vec3 ℝ) (s t s' t' : ℝ) : (w + s' • u - t' • v).norm2 - (w + s • u - t • v).norm2 =
    2 * ((u.dot w + s * u.dot u - t * u.dot v) * (s' - s) + (-v.dot w - s * u.dot v + t * v.dot v) * (t' - t)) + ((s' - s) • u - (t' - t) • v).norm2 := by
  simp only [Vec3.norm2, Vec3.dot, Vec3.add_x, Vec3.add_y, Vec3.add_z, Vec3.sub_x, Vec3.sub_y, Vec3.sub_z, Vec3.smul_x, Vec3.smul_y, Vec3.smul_z]
  ring

theorem optimal_min {w u v : Vec3 ℝ} {s t : ℝ} (h : Optimal (u.dot u) (u.dot v) (v.dot v) (u.dot w) (v.dot w) s t) {s' t' : ℝ} (hs : 0 ≤ s' ∧ s' ≤ 1) (ht : 0 ≤ t' ∧ t' ≤ 1) :
    (w + s • u - t • v).norm2 ≤ (w + s' • u - t' • v).norm2 := by
  obtain ⟨-, -, -, -, h5, h6⟩ := h
  have := norm2_nearest w u v s t s' t'
  have h1 := h5 s' hs.1 hs.2
  have h2 := h6 t' ht.1 ht.2
  have h3 := Vec3.norm2_nonneg ((s' - s) • u - (t' - t) • v)
  linarith

/-- The value of `again`. -/
theorem again_ok {a n sD : ℝ} (ha : 0 < a) (hD : 0 < sD) : 0 ≤ (again a n sD).1 / (again a n sD).2 ∧ (again a n sD).1 / (again a n sD).2 ≤ 1 ∧
    ∀ s', 0 ≤ s' → s' ≤ 1 → 0 ≤ ((again a n sD).1 / (again a n sD).2 * a - n) * (s' - (again a n sD).1 / (again a n sD).2) := by
  unfold again
  split_ifs with h1 h2
  · simp only [zero_div]
    refine ⟨le_refl _, by norm_num, fun s' h _ => ?_⟩
    nlinarith
  · simp only [div_self (ne_of_gt hD)]
    refine ⟨by norm_num, le_refl _, fun s' _ h => ?_⟩
    nlinarith
  · simp only
    have e : n / a * a = n := div_mul_cancel₀ n (ne_of_gt ha)
    refine ⟨div_nonneg (by linarith) ha.le, (div_le_one ha).mpr (by linarith), fun s' _ _ => ?_⟩
    rw [e]
    simp

/-- From the nearest points with any parameter on the second line to the ones of segments. -/
theorem second_low {a b c d e s0 t0 s1 : ℝ} (ha : 0 ≤ a) (hc : 0 < c) (hD : b ^ 2 ≤ a * c) (h1 : e + s0 * b = t0 * c)
    (hs0 : 0 ≤ s0 ∧ s0 ≤ 1) (hg0 : ∀ s', 0 ≤ s' → s' ≤ 1 → 0 ≤ (d + s0 * a - t0 * b) * (s' - s0)) (ht : t0 < 0)
    (hs1 : 0 ≤ s1 ∧ s1 ≤ 1) (hg1 : ∀ s', 0 ≤ s' → s' ≤ 1 → 0 ≤ (s1 * a - -d) * (s' - s1)) : Optimal a b c d e s1 0 := by
  refine ⟨hs1.1, hs1.2, le_refl _, by norm_num, ?_, ?_⟩
  · intro s' h h'
    have := hg1 s' h h'
    nlinarith
  · intro t' h _
    have k0 := hg0 s1 hs1.1 hs1.2
    have k1 := hg1 s0 hs0.1 hs0.2
    have key : e + s1 * b ≤ 0 := by
      obtain ⟨x, hx⟩ : ∃ x, x = b * (s1 - s0) := ⟨_, rfl⟩
      have e1 : e + s1 * b = t0 * c + x := by rw [hx]; linarith
      have e2 : a * (s1 - s0) ^ 2 ≤ -t0 * x := by rw [hx]; nlinarith
      have e3 : x ^ 2 ≤ a * c * (s1 - s0) ^ 2 := by
        rw [hx, mul_pow]
        exact mul_le_mul_of_nonneg_right hD (sq_nonneg _)
      have e4 : x * x ≤ (-t0 * c) * x := by nlinarith
      rw [e1]
      by_contra hcon
      push Not at hcon
      have hxp : 0 < x := by nlinarith
      have := le_of_mul_le_mul_right e4 hxp
      linarith
    nlinarith

/-- The same at the other end. -/
theorem second_high {a b c d e s0 t0 s1 : ℝ} (ha : 0 ≤ a) (hc : 0 < c) (hD : b ^ 2 ≤ a * c) (h1 : e + s0 * b = t0 * c)
    (hs0 : 0 ≤ s0 ∧ s0 ≤ 1) (hg0 : ∀ s', 0 ≤ s' → s' ≤ 1 → 0 ≤ (d + s0 * a - t0 * b) * (s' - s0)) (ht : 1 < t0)
    (hs1 : 0 ≤ s1 ∧ s1 ≤ 1) (hg1 : ∀ s', 0 ≤ s' → s' ≤ 1 → 0 ≤ (s1 * a - (-d + b)) * (s' - s1)) : Optimal a b c d e s1 1 := by
  refine ⟨hs1.1, hs1.2, by norm_num, le_refl _, ?_, ?_⟩
  · intro s' h h'
    have := hg1 s' h h'
    nlinarith
  · intro t' _ h
    have k0 := hg0 s1 hs1.1 hs1.2
    have k1 := hg1 s0 hs0.1 hs0.2
    have key : c - e - s1 * b ≤ 0 := by
      obtain ⟨x, hx⟩ : ∃ x, x = b * (s1 - s0) := ⟨_, rfl⟩
      obtain ⟨τ, hτ⟩ : ∃ τ, τ = t0 - 1 := ⟨_, rfl⟩
      have e1 : c - e - s1 * b = -τ * c - x := by rw [hx, hτ]; linarith
      have e2 : a * (s1 - s0) ^ 2 ≤ -τ * x := by rw [hx, hτ]; nlinarith
      have e3 : x ^ 2 ≤ a * c * (s1 - s0) ^ 2 := by
        rw [hx, mul_pow]
        exact mul_le_mul_of_nonneg_right hD (sq_nonneg _)
      have e4 : (-x) * (-x) ≤ (τ * c) * (-x) := by nlinarith
      rw [e1]
      by_contra hcon
      push Not at hcon
      have hτ0 : 0 < τ := by rw [hτ]; linarith
      have hxp : 0 < -x := by nlinarith
      have := le_of_mul_le_mul_right e4 hxp
      linarith
    nlinarith

theorem second_ok {a b c d e : ℝ} {p : Params} (ha : 0 < a) (hc : 0 < c) (hD : b ^ 2 ≤ a * c) (hsD : 0 < p.sD) (htD : 0 < p.tD) (h1 : e + p.sN / p.sD * b = p.tN / p.tD * c)
    (hs0 : 0 ≤ p.sN / p.sD ∧ p.sN / p.sD ≤ 1) (hg0 : ∀ s', 0 ≤ s' → s' ≤ 1 → 0 ≤ (d + p.sN / p.sD * a - p.tN / p.tD * b) * (s' - p.sN / p.sD)) :
    Optimal a b c d e ((second a b d p).sN / (second a b d p).sD) ((second a b d p).tN / (second a b d p).tD) := by
  unfold second
  by_cases h2 : p.tN < 0
  · rw [if_pos h2]
    simp only [zero_div]
    obtain ⟨k1, k2, k3⟩ := again_ok (n := -d) ha hsD
    exact second_low ha.le hc hD h1 hs0 hg0 (div_neg_of_neg_of_pos h2 htD) ⟨k1, k2⟩ k3
  · rw [if_neg h2]
    by_cases h3 : p.tN > p.tD
    · rw [if_pos h3]
      simp only [div_self (ne_of_gt htD)]
      obtain ⟨k1, k2, k3⟩ := again_ok (n := -d + b) ha hsD
      exact second_high ha.le hc hD h1 hs0 hg0 ((one_lt_div htD).mpr h3) ⟨k1, k2⟩ k3
    · rw [if_neg h3]
      refine ⟨hs0.1, hs0.2, div_nonneg (by linarith) htD.le, (div_le_one htD).mpr (by linarith), hg0, ?_⟩
      intro t' _ _
      have : -e - p.sN / p.sD * b + p.tN / p.tD * c = 0 := by linarith
      rw [this]
      simp

theorem first_ok {eps a b c d e : ℝ} (heps : 0 < eps) (hc : 0 < c) (hpar : a * c - b * b = 0 → c * d = b * e) (hD : a * c - b * b = 0 ∨ eps ≤ a * c - b * b) :
    0 < (first eps a b c d e).sD ∧ 0 < (first eps a b c d e).tD ∧ e + (first eps a b c d e).sN / (first eps a b c d e).sD * b = (first eps a b c d e).tN / (first eps a b c d e).tD * c ∧
    (0 ≤ (first eps a b c d e).sN / (first eps a b c d e).sD ∧ (first eps a b c d e).sN / (first eps a b c d e).sD ≤ 1) ∧
    ∀ s', 0 ≤ s' → s' ≤ 1 → 0 ≤ (d + (first eps a b c d e).sN / (first eps a b c d e).sD * a - (first eps a b c d e).tN / (first eps a b c d e).tD * b) *
      (s' - (first eps a b c d e).sN / (first eps a b c d e).sD) := by
  unfold first
  have ec : e / c * c = e := div_mul_cancel₀ e (ne_of_gt hc)
  by_cases h1 : a * c - b * b < eps
  · rw [if_pos h1]
    have h0 : a * c - b * b = 0 := by
      rcases hD with h | h
      · exact h
      · linarith
    have hp := hpar h0
    have : d - e / c * b = 0 := by
      have : (d - e / c * b) * c = 0 := by
        rw [sub_mul, mul_right_comm, ec]
        linarith
      rcases mul_eq_zero.mp this with h | h
      · exact h
      · exact absurd h (ne_of_gt hc)
    simp only [zero_div, zero_mul, add_zero]
    refine ⟨by norm_num, hc, ec.symm, ⟨le_refl _, by norm_num⟩, fun s' _ _ => ?_⟩
    rw [this]
    simp
  · rw [if_neg h1]
    have hDp : 0 < a * c - b * b := by linarith
    by_cases h2 : b * e - c * d < 0
    · rw [if_pos h2]
      simp only [zero_div, zero_mul, add_zero]
      refine ⟨hDp, hc, ec.symm, ⟨le_refl _, by norm_num⟩, fun s' hs _ => ?_⟩
      have : 0 ≤ d - e / c * b := by
        have : 0 ≤ (d - e / c * b) * c := by
          rw [sub_mul, mul_right_comm, ec]
          linarith
        exact nonneg_of_mul_nonneg_left this hc
      rw [sub_zero]
      exact mul_nonneg this hs
    · rw [if_neg h2]
      by_cases h3 : b * e - c * d > a * c - b * b
      · rw [if_pos h3]
        have ec' : (e + b) / c * c = e + b := div_mul_cancel₀ _ (ne_of_gt hc)
        simp only [div_self (ne_of_gt hDp), one_mul]
        refine ⟨hDp, hc, ec'.symm, ⟨by norm_num, le_refl _⟩, fun s' _ hs => ?_⟩
        have : d + a - (e + b) / c * b ≤ 0 := by
          have : (d + a - (e + b) / c * b) * c ≤ 0 := by
            rw [sub_mul, mul_right_comm, ec']
            nlinarith
          by_contra hcon
          push Not at hcon
          nlinarith
        nlinarith
      · rw [if_neg h3]
        simp only
        have hne := ne_of_gt hDp
        refine ⟨hDp, hDp, ?_, ⟨div_nonneg (by linarith) hDp.le, (div_le_one hDp).mpr (by linarith)⟩, fun s' _ _ => ?_⟩
        · rw [div_mul_eq_mul_div, div_mul_eq_mul_div, eq_div_iff hne, add_mul, div_mul_cancel₀ _ hne]
          ring
        · have : d + (b * e - c * d) / (a * c - b * b) * a - (a * e - b * d) / (a * c - b * b) * b = 0 := by
            rw [div_mul_eq_mul_div, div_mul_eq_mul_div]
            have : (d + (b * e - c * d) * a / (a * c - b * b) - (a * e - b * d) * b / (a * c - b * b)) * (a * c - b * b) = 0 := by
              rw [sub_mul, add_mul, div_mul_cancel₀ _ hne, div_mul_cancel₀ _ hne]
              ring
            exact (mul_eq_zero.mp this).resolve_right hne
          rw [this]
          simp

theorem ratio_near {eps K n m : ℝ} (hK : 0 < K) (he : 0 < eps) (h : K ≤ m ∨ n = 0 ∨ (n = m ∧ eps ≤ m)) : |ratio eps n m - n / m| ≤ eps / K := by
  have hp : 0 ≤ eps / K := (div_pos he hK).le
  unfold ratio
  split_ifs with h1
  · rcases h with h | h | ⟨h, h'⟩
    · rw [zero_sub, abs_neg, abs_div, abs_of_pos (show 0 < m by linarith)]
      exact div_le_div₀ he.le h1.le hK h
    · rw [h]; simpa using hp
    · rw [h] at h1
      have := le_abs_self m
      linarith
  · simpa using hp

theorem first_dens {eps a b c d e K : ℝ} (heps : 0 < eps) (hK : eps ≤ K) (h1 : eps ≤ 1) (hc : K ≤ c) (hD : a * c - b * b = 0 ∨ K ≤ a * c - b * b) :
    ((K ≤ (first eps a b c d e).sD ∨ (first eps a b c d e).sN = 0) ∧ eps ≤ (first eps a b c d e).sD) ∧ K ≤ (first eps a b c d e).tD := by
  unfold first
  by_cases h : a * c - b * b < eps
  · rw [if_pos h]
    exact ⟨⟨Or.inr rfl, h1⟩, hc⟩
  · rw [if_neg h]
    have hKD : K ≤ a * c - b * b := by
      rcases hD with h0 | h0
      · rw [h0] at h; exact absurd heps h
      · exact h0
    have : eps ≤ a * c - b * b := by linarith
    split_ifs
    · exact ⟨⟨Or.inl hKD, this⟩, hc⟩
    · exact ⟨⟨Or.inl hKD, this⟩, hc⟩
    · exact ⟨⟨Or.inl hKD, this⟩, hKD⟩

theorem again_dens {eps a n K sD : ℝ} (ha : K ≤ a) (hs : eps ≤ sD) : K ≤ (again a n sD).2 ∨ (again a n sD).1 = 0 ∨ ((again a n sD).1 = (again a n sD).2 ∧ eps ≤ (again a n sD).2) := by
  unfold again
  split_ifs
  · exact Or.inr (Or.inl rfl)
  · exact Or.inr (Or.inr ⟨rfl, hs⟩)
  · exact Or.inl ha

theorem second_dens {eps a b d K : ℝ} {p : Params} (ha : K ≤ a) (hs : (K ≤ p.sD ∨ p.sN = 0) ∧ eps ≤ p.sD) (ht : K ≤ p.tD) :
    (K ≤ (second a b d p).sD ∨ (second a b d p).sN = 0 ∨ ((second a b d p).sN = (second a b d p).sD ∧ eps ≤ (second a b d p).sD)) ∧ K ≤ (second a b d p).tD := by
  unfold second
  split_ifs
  · exact ⟨again_dens ha hs.2, ht⟩
  · exact ⟨again_dens ha hs.2, ht⟩
  · exact ⟨hs.1.elim Or.inl fun h => Or.inr (Or.inl h), ht⟩

/-- The parameters are in segments, for all segments. -/
theorem ratio_unit {eps n m : ℝ} (he : 0 < eps) (h : n = 0 ∨ n = m ∨ (0 ≤ n ∧ n ≤ m)) : 0 ≤ ratio eps n m ∧ ratio eps n m ≤ 1 := by
  unfold ratio
  split_ifs with h1
  · exact ⟨le_refl _, by norm_num⟩
  · have hn : n ≠ 0 := by rintro rfl; simp at h1; linarith
    rcases h with h | rfl | ⟨h, h'⟩
    · exact absurd h hn
    · rw [div_self hn]; exact ⟨by norm_num, le_refl _⟩
    · have : 0 < n := lt_of_le_of_ne h (Ne.symm hn)
      exact ⟨div_nonneg h (by linarith), (div_le_one (by linarith)).mpr h'⟩

theorem first_unit {eps a b c d e : ℝ} : (first eps a b c d e).sN = 0 ∨ (first eps a b c d e).sN = (first eps a b c d e).sD ∨
    (0 ≤ (first eps a b c d e).sN ∧ (first eps a b c d e).sN ≤ (first eps a b c d e).sD) := by
  unfold first
  split_ifs with h1 h2 h3
  · exact Or.inl rfl
  · exact Or.inl rfl
  · exact Or.inr (Or.inl rfl)
  · exact Or.inr (Or.inr ⟨by simp only; linarith, by simp only; linarith⟩)

theorem again_unit {a n sD : ℝ} : (again a n sD).1 = 0 ∨ (again a n sD).1 = (again a n sD).2 ∨ (0 ≤ (again a n sD).1 ∧ (again a n sD).1 ≤ (again a n sD).2) := by
  unfold again
  split_ifs
  · exact Or.inl rfl
  · exact Or.inr (Or.inl rfl)
  · exact Or.inr (Or.inr ⟨by simp only; linarith, by simp only; linarith⟩)

theorem second_unit {a b d : ℝ} {p : Params} (h : p.sN = 0 ∨ p.sN = p.sD ∨ (0 ≤ p.sN ∧ p.sN ≤ p.sD)) :
    ((second a b d p).sN = 0 ∨ (second a b d p).sN = (second a b d p).sD ∨ (0 ≤ (second a b d p).sN ∧ (second a b d p).sN ≤ (second a b d p).sD)) ∧
    ((second a b d p).tN = 0 ∨ (second a b d p).tN = (second a b d p).tD ∨ (0 ≤ (second a b d p).tN ∧ (second a b d p).tN ≤ (second a b d p).tD)) := by
  unfold second
  split_ifs with h1 h2
  · exact ⟨again_unit, Or.inl rfl⟩
  · exact ⟨again_unit, Or.inr (Or.inl rfl)⟩
  · exact ⟨h, Or.inr (Or.inr ⟨by linarith, by linarith⟩)⟩

theorem closest_unit {eps : ℝ} (he : 0 < eps) (u v w : Vec3 ℝ) : (0 ≤ (closest eps u v w).1 ∧ (closest eps u v w).1 ≤ 1) ∧ 0 ≤ (closest eps u v w).2 ∧ (closest eps u v w).2 ≤ 1 :=
  ⟨ratio_unit he (second_unit first_unit).1, ratio_unit he (second_unit first_unit).2⟩

theorem parallel_dot {u v w : Vec3 ℝ} (h : u.dot u * v.dot v - u.dot v * u.dot v = 0) : v.dot v * u.dot w = u.dot v * v.dot w := by
  have hz : (v.dot v • u - u.dot v • v).norm2 = 0 := by
    have : (v.dot v • u - u.dot v • v).norm2 = v.dot v * (u.dot u * v.dot v - u.dot v * u.dot v) := by
      simp only [Vec3.norm2, Vec3.dot, Vec3.sub_x, Vec3.sub_y, Vec3.sub_z, Vec3.smul_x, Vec3.smul_y, Vec3.smul_z]
      ring
    rw [this, h, mul_zero]
  have h0 : v.dot v • u - u.dot v • v = 0 := by
    by_contra hne
    exact absurd hz (ne_of_gt (Vec3.norm2_pos_of_ne hne))
  have : (v.dot v • u - u.dot v • v).dot w = 0 := by rw [h0]; simp [Vec3.dot]
  have e : (v.dot v • u - u.dot v • v).dot w = v.dot v * u.dot w - u.dot v * v.dot w := by
    simp only [Vec3.dot, Vec3.sub_x, Vec3.sub_y, Vec3.sub_z, Vec3.smul_x, Vec3.smul_y, Vec3.smul_z]
    ring
  linarith

theorem norm_smul' (k : ℝ) (v : Vec3 ℝ) : (k • v).norm = |k| * v.norm := by
  unfold Vec3.norm
  rw [show (k • v).norm2 = k ^ 2 * v.norm2 by simp only [Vec3.norm2, Vec3.dot, Vec3.smul_x, Vec3.smul_y, Vec3.smul_z]; ring, Real.sqrt_mul (sq_nonneg k), Real.sqrt_sq_eq_abs]

/-- The parameters are near to ones of nearest points. -/
theorem closest_near {eps K : ℝ} (he : 0 < eps) (he1 : eps ≤ 1) (hK : eps ≤ K) {u v w : Vec3 ℝ} (hu : K ≤ u.norm2) (hv : K ≤ v.norm2) (hD : area2 u v = 0 ∨ K ≤ area2 u v) :
    ∃ s t, Optimal (u.dot u) (u.dot v) (v.dot v) (u.dot w) (v.dot w) s t ∧ |(closest eps u v w).1 - s| ≤ eps / K ∧ |(closest eps u v w).2 - t| ≤ eps / K := by
  have hK0 : 0 < K := by linarith
  have hD' : u.dot u * v.dot v - u.dot v * u.dot v = 0 ∨ K ≤ u.dot u * v.dot v - u.dot v * u.dot v := by
    unfold area2 Vec3.norm2 at hD
    rwa [sq] at hD
  have hcs : (u.dot v) ^ 2 ≤ u.dot u * v.dot v := Vec3.dot_sq_le u v
  obtain ⟨k1, k2, k3, k4, k5⟩ := first_ok (eps := eps) (a := u.dot u) (b := u.dot v) (c := v.dot v) (d := u.dot w) (e := v.dot w) he (lt_of_lt_of_le hK0 hv) parallel_dot
    (hD'.imp id fun h => by linarith)
  obtain ⟨j1, j2⟩ := first_dens (eps := eps) (a := u.dot u) (b := u.dot v) (c := v.dot v) (d := u.dot w) (e := v.dot w) he hK he1 hv hD'
  obtain ⟨i1, i2⟩ := second_dens (eps := eps) (b := u.dot v) (d := u.dot w) hu j1 j2
  refine ⟨_, _, second_ok (lt_of_lt_of_le hK0 hu) (lt_of_lt_of_le hK0 hv) hcs k1 k2 k3 k4 k5, ratio_near hK0 he i1, ratio_near hK0 he (Or.inl i2)⟩

end Segment

end Rampack
