import Verif.Geometry.XenoPrimitiveProps
/-
The building blocks whose support functions treat short vectors as zero: disks, ellipses and saucers; and points.
-/
namespace Rampack

open Packing Spec Xeno XC

variable {g : XCGeometry}

theorem XC.isVectorZero_lateral {n : Vec3 ℝ} : isVectorZero ⟨n.x, n.y, 0⟩ = true ↔ |n.x| < ZERO ∧ |n.y| < ZERO := by
  have : (0 : ℝ) < ZERO := by unfold ZERO; norm_num
  simp [isVectorZero, this]

/-- A disk: the support point always is a point of the disk, and is the furthest one but for the product of the radius and
twice the threshold; it is exactly the furthest one unless both lateral components of the direction are below the threshold. -/
theorem C75_disk_partial {r : ℝ} (hg : disk r = .ok g) (n : Vec3 ℝ) : DiskBody r (g.support n) ∧
    (∀ p, DiskBody r p → p.dot n ≤ (g.support n).dot n + 2 * r * ZERO) ∧
    (¬ (|n.x| < ZERO ∧ |n.y| < ZERO) → ∀ p, DiskBody r p → p.dot n ≤ (g.support n).dot n) ∧
    ConvexBody (DiskBody r) ∧ DiskBody r g.center ∧ CoveredBy (DiskBody r) g.circumsphereRadius ∧ g.insphereRadius = 0 ∧ HasOrigin (DiskBody r) := by
  obtain ⟨hb, rfl⟩ := require_pure hg
  have hr : 0 < r := of_decide_eq_true hb
  have hZ : (0 : ℝ) < ZERO := by unfold ZERO; norm_num
  have ho : DiskBody r 0 := ⟨by simp; positivity, rfl⟩
  have key : ¬ (|n.x| < ZERO ∧ |n.y| < ZERO) → ∀ p, DiskBody r p → p.dot n ≤ (diskSupport r n).dot n := by
    intro hz p hp
    have hz' : ¬ isVectorZero ⟨n.x, n.y, 0⟩ = true := fun h => hz (isVectorZero_lateral.mp h)
    unfold diskSupport
    rw [if_neg hz']
    have hl := lateral_ne hz'
    have e1 : p.dot n = p.dot ⟨n.x, n.y, 0⟩ := by simp only [Vec3.dot, hp.2]; ring
    have e2 : (r • normalized ⟨n.x, n.y, 0⟩).dot n = r * (⟨n.x, n.y, 0⟩ : Vec3 ℝ).norm := by
      rw [smul_dot, ← normalized_self hl]
      have := (lateral_unit hl).2
      simp only [Vec3.dot, this]; ring
    rw [e1, e2]
    refine (dot_le_norm _ _).trans (mul_le_mul_of_nonneg_right (norm_le_of hr.le ?_) (Vec3.norm_nonneg _))
    rw [norm2_eq, hp.2]; linarith [hp.1]
  refine ⟨?_, ?_, key, ?_, ho, ?_, rfl, ho⟩
  · show DiskBody r (diskSupport r n)
    unfold diskSupport
    split_ifs with hz
    · exact ho
    · have hl := lateral_ne hz
      obtain ⟨hu, hz'⟩ := lateral_unit hl
      refine ⟨?_, ?_⟩
      · simp only [Vec3.smul_x, Vec3.smul_y]; nlinarith
      · simp only [Vec3.smul_z, hz', mul_zero]
  · intro p hp
    by_cases hz : |n.x| < ZERO ∧ |n.y| < ZERO
    · show p.dot n ≤ (diskSupport r n).dot n + 2 * r * ZERO
      unfold diskSupport
      rw [if_pos (isVectorZero_lateral.mpr hz)]
      have h1 : |p.x| ≤ r := abs_le_of_sq hr.le (by nlinarith [hp.1, sq_nonneg p.y])
      have h2 : |p.y| ≤ r := abs_le_of_sq hr.le (by nlinarith [hp.1, sq_nonneg p.x])
      have m1 : |p.x * n.x| ≤ r * ZERO := by rw [abs_mul]; exact mul_le_mul h1 hz.1.le (abs_nonneg _) hr.le
      have m2 : |p.y * n.y| ≤ r * ZERO := by rw [abs_mul]; exact mul_le_mul h2 hz.2.le (abs_nonneg _) hr.le
      have := (abs_le.mp m1).2
      have := (abs_le.mp m2).2
      simp only [Vec3.dot, hp.2, Vec3.zero_x, Vec3.zero_y, Vec3.zero_z]; linarith
    · have := key hz p hp
      have : 0 ≤ 2 * r * ZERO := by positivity
      show p.dot n ≤ (diskSupport r n).dot n + 2 * r * ZERO
      linarith
  · rintro p q c ⟨h1, h2⟩ ⟨k1, k2⟩ h0 h1'
    refine ⟨?_, by simp [h2, k2]⟩
    simp only [Vec3.add_x, Vec3.add_y, Vec3.smul_x, Vec3.smul_y]
    have := sq_comb (x := p.x) (y := q.x) h0 h1'
    have := sq_comb (x := p.y) (y := q.y) h0 h1'
    nlinarith [mul_le_mul_of_nonneg_left h1 h0, mul_le_mul_of_nonneg_left k1 (sub_nonneg.mpr h1')]
  · rintro p ⟨h1, h2⟩
    show p.norm2 ≤ r ^ 2
    rw [norm2_eq, h2]; linarith

/-- For a short direction the support point of a disk is its centre, although the furthest point is on the edge. -/
theorem C75_disk_violated : ∃ (g : XCGeometry) (n p : Vec3 ℝ), disk 1 = .ok g ∧ n ≠ 0 ∧ DiskBody 1 p ∧ (g.support n).dot n < p.dot n := by
  refine ⟨_, ⟨1 / 10 ^ 13, 0, 0⟩, ⟨1, 0, 0⟩, by simp [disk, Outcome.require]; rfl, ?_, ?_, ?_⟩
  · intro h; have : (1 / 10 ^ 13 : ℝ) = 0 := congrArg Vec3.x h; norm_num at this
  · simp [DiskBody]
  · show (diskSupport 1 ⟨1 / 10 ^ 13, 0, 0⟩).dot _ < _
    unfold diskSupport
    rw [if_pos]
    · simp [Vec3.dot]
    · unfold isVectorZero ZERO
      simp only [decide_eq_true_eq]
      refine ⟨?_, ?_, ?_⟩ <;> norm_num [abs_of_pos]

/-- An ellipse: the support point is a point of the ellipse, and the furthest one unless the direction scaled by the semi-axes is
below the threshold. -/
theorem C75_ellipse_partial {a b : ℝ} (hg : ellipse a b = .ok g) (n : Vec3 ℝ) : EllipseBody a b (g.support n) ∧
    (∀ p, EllipseBody a b p → p.dot n ≤ (g.support n).dot n + 2 * ZERO) ∧
    (¬ (|a * n.x| < ZERO ∧ |b * n.y| < ZERO) → ∀ p, EllipseBody a b p → p.dot n ≤ (g.support n).dot n) ∧
    ConvexBody (EllipseBody a b) ∧ EllipseBody a b g.center ∧ CoveredBy (EllipseBody a b) g.circumsphereRadius ∧ g.insphereRadius = 0 ∧
    HasOrigin (EllipseBody a b) := by
  obtain ⟨hb', rfl⟩ := require_pure hg
  obtain ⟨ha, hb⟩ : 0 < a ∧ 0 < b := of_decide_eq_true hb'
  have hZ : (0 : ℝ) < ZERO := by unfold ZERO; norm_num
  have ho : EllipseBody a b 0 := ⟨by simp, rfl⟩
  have hzero : ∀ n : Vec3 ℝ, isVectorZero (compMul ⟨a, b, 0⟩ n) = true ↔ |a * n.x| < ZERO ∧ |b * n.y| < ZERO := by
    intro n; simp [isVectorZero, compMul, hZ]
  have hz0 : ∀ n : Vec3 ℝ, (normalized (compMul ⟨a, b, 0⟩ n)).z = 0 := by intro n; simp [normalized, compMul]
  have in1 : ∀ p : Vec3 ℝ, EllipseBody a b p → |p.x / a| ≤ 1 ∧ |p.y / b| ≤ 1 := by
    intro p hp
    exact ⟨abs_le_of_sq zero_le_one (by nlinarith [hp.1, sq_nonneg (p.y / b)]), abs_le_of_sq zero_le_one (by nlinarith [hp.1, sq_nonneg (p.x / a)])⟩
  have key : ¬ (|a * n.x| < ZERO ∧ |b * n.y| < ZERO) → ∀ p, EllipseBody a b p → p.dot n ≤ (ellipseSupport a b n).dot n := by
    intro hz p hp
    have hz' : ¬ isVectorZero (compMul ⟨a, b, 0⟩ n) = true := fun h => hz ((hzero n).mp h)
    unfold ellipseSupport
    rw [if_neg hz']
    have hl := Xeno.ne_of_notZero hz'
    have e1 : p.dot n = (⟨p.x / a, p.y / b, 0⟩ : Vec3 ℝ).dot (compMul ⟨a, b, 0⟩ n) := by
      simp only [Vec3.dot, compMul, hp.2]; field_simp; ring
    have e2 : (compMul (normalized (compMul ⟨a, b, 0⟩ n)) ⟨a, b, 0⟩).dot n = (compMul ⟨a, b, 0⟩ n).norm := by
      rw [← normalized_self hl]
      generalize normalized (compMul ⟨a, b, 0⟩ n) = u
      simp only [Vec3.dot, compMul]; ring
    rw [e1, e2]
    refine (dot_le_norm _ _).trans ?_
    have : (⟨p.x / a, p.y / b, 0⟩ : Vec3 ℝ).norm ≤ 1 := by
      refine norm_le_of zero_le_one ?_
      rw [norm2_eq]; simp only; linarith [hp.1]
    have := mul_le_mul_of_nonneg_right this (compMul ⟨a, b, 0⟩ n).norm_nonneg
    linarith
  refine ⟨?_, ?_, key, ?_, ho, ?_, rfl, ho⟩
  · show EllipseBody a b (ellipseSupport a b n)
    unfold ellipseSupport
    split_ifs with hz
    · exact ho
    · have hl := Xeno.ne_of_notZero hz
      have h1 := Xeno.normalized_norm2 hl
      have hz' := hz0 n
      rw [norm2_eq, hz'] at h1
      refine ⟨?_, ?_⟩
      · simp only [compMul] at *
        rw [mul_div_cancel_right₀ _ ha.ne', mul_div_cancel_right₀ _ hb.ne']; linarith
      · simp only [compMul] at *; rw [mul_zero]
  · intro p hp
    by_cases hz : |a * n.x| < ZERO ∧ |b * n.y| < ZERO
    · show p.dot n ≤ (ellipseSupport a b n).dot n + 2 * ZERO
      unfold ellipseSupport
      rw [if_pos ((hzero n).mpr hz)]
      obtain ⟨h1, h2⟩ := in1 p hp
      have m1 : |p.x / a * (a * n.x)| ≤ 1 * ZERO := by rw [abs_mul]; exact mul_le_mul h1 hz.1.le (abs_nonneg _) zero_le_one
      have m2 : |p.y / b * (b * n.y)| ≤ 1 * ZERO := by rw [abs_mul]; exact mul_le_mul h2 hz.2.le (abs_nonneg _) zero_le_one
      have e1 : p.x / a * (a * n.x) = p.x * n.x := by field_simp
      have e2 : p.y / b * (b * n.y) = p.y * n.y := by field_simp
      rw [e1] at m1; rw [e2] at m2
      have := (abs_le.mp m1).2
      have := (abs_le.mp m2).2
      simp only [Vec3.dot, hp.2, Vec3.zero_x, Vec3.zero_y, Vec3.zero_z]; linarith
    · have := key hz p hp
      show p.dot n ≤ (ellipseSupport a b n).dot n + 2 * ZERO
      linarith
  · rintro p q c ⟨h1, h2⟩ ⟨k1, k2⟩ h0 h1'
    refine ⟨?_, by simp [h2, k2]⟩
    simp only [Vec3.add_x, Vec3.add_y, Vec3.smul_x, Vec3.smul_y]
    have e : ∀ s t u : ℝ, (c * s + (1 - c) * t) / u = c * (s / u) + (1 - c) * (t / u) := by intro s t u; ring
    rw [e, e]
    have := sq_comb (x := p.x / a) (y := q.x / a) h0 h1'
    have := sq_comb (x := p.y / b) (y := q.y / b) h0 h1'
    nlinarith [mul_le_mul_of_nonneg_left h1 h0, mul_le_mul_of_nonneg_left k1 (sub_nonneg.mpr h1')]
  · rintro p ⟨h1, h2⟩
    show p.norm2 ≤ (max (max a b) 0) ^ 2
    have m1 : a ≤ max (max a b) 0 := (le_max_left _ _).trans (le_max_left _ _)
    have m2 : b ≤ max (max a b) 0 := (le_max_right _ _).trans (le_max_left _ _)
    generalize max (max a b) 0 = m at *
    have e : ∀ s u : ℝ, 0 < u → u ≤ m → s ^ 2 ≤ m ^ 2 * (s / u) ^ 2 := by
      intro s u hu hum
      have : s ^ 2 = u ^ 2 * (s / u) ^ 2 := by field_simp
      rw [this]; exact mul_le_mul_of_nonneg_right (by nlinarith) (sq_nonneg _)
    have := e p.x a ha m1
    have := e p.y b hb m2
    have := mul_le_mul_of_nonneg_left h1 (sq_nonneg m)
    rw [norm2_eq, h2]; nlinarith

example : ∃ g, ellipse 1 2 = .ok g := ⟨_, by simp [ellipse, Outcome.require]; rfl⟩

/-! ### Saucers -/

theorem XC.saucer_convex (h t : ℝ) : ConvexBody (SaucerBody h t) := by
  rintro p q c ⟨h1, h2⟩ ⟨k1, k2⟩ h0 h1'
  simp only [SaucerBody, Vec3.add_x, Vec3.add_y, Vec3.add_z, Vec3.smul_x, Vec3.smul_y, Vec3.smul_z]
  generalize (h ^ 2 + t ^ 2) / (2 * t) - t = k at *
  have := sq_comb (x := p.x) (y := q.x) h0 h1'
  have := sq_comb (x := p.y) (y := q.y) h0 h1'
  have e1 : c * p.z + (1 - c) * q.z + k = c * (p.z + k) + (1 - c) * (q.z + k) := by ring
  have e2 : c * p.z + (1 - c) * q.z - k = c * (p.z - k) + (1 - c) * (q.z - k) := by ring
  have := sq_comb (x := p.z + k) (y := q.z + k) h0 h1'
  have := sq_comb (x := p.z - k) (y := q.z - k) h0 h1'
  have m1 := mul_le_mul_of_nonneg_left h1 h0
  have m2 := mul_le_mul_of_nonneg_left k1 (sub_nonneg.mpr h1')
  have m3 := mul_le_mul_of_nonneg_left h2 h0
  have m4 := mul_le_mul_of_nonneg_left k2 (sub_nonneg.mpr h1')
  rw [e1, e2]
  constructor <;> nlinarith

theorem XC.saucer_inside {t R : ℝ} {p : Vec3 ℝ} (ht : 0 < t) (hk : 0 ≤ R - t) (hp : p.norm2 ≤ t ^ 2) :
    (|p.z| + (R - t)) ^ 2 + (p.x ^ 2 + p.y ^ 2) ≤ R ^ 2 := by
  rw [norm2_eq] at hp
  have hle : |p.z| ≤ t := abs_le_of_sq ht.le (by nlinarith [sq_nonneg p.x, sq_nonneg p.y])
  have h1 := mul_le_mul_of_nonneg_right hle hk
  have h2 := sq_abs p.z
  nlinarith

/-- A saucer of positive thickness: the support point is the furthest point unless the direction is short and flat: both lateral
components are below the threshold although the direction points at the rim. -/
theorem C75_saucer_partial {h t : ℝ} (ht : 0 < t) (hg : saucer h t = .ok g) :
    (∀ n, n ≠ 0 → ¬ ((|n.x| < ZERO ∧ |n.y| < ZERO) ∧ ((normalized n).x ^ 2 + (normalized n).y ^ 2) * ((h ^ 2 + t ^ 2) / (2 * t)) ^ 2 > h ^ 2) →
      SaucerBody h t (g.support n) ∧ ∀ p, SaucerBody h t p → p.dot n ≤ (g.support n).dot n) ∧
    ConvexBody (SaucerBody h t) ∧ SaucerBody h t g.center ∧ CoveredBy (SaucerBody h t) g.circumsphereRadius ∧
    Inscribed (SaucerBody h t) g.insphereRadius ∧ HasOrigin (SaucerBody h t) := by
  obtain ⟨_, hb, hg⟩ := Outcome.bind_eq_ok.mp hg
  have hh : 0 < h := of_decide_eq_true (Outcome.require_eq_ok.mp hb)
  obtain ⟨hb2, rfl⟩ := require_pure hg
  have hth : t ≤ h := of_decide_eq_true hb2
  have hR := curvature_ge (h := h) ht
  have hq := curvature_sq (h := h) ht.ne'
  have hR0 : 0 < curvature h t := hh.trans_le hR
  have hk : 0 ≤ curvature h t - t := by linarith
  have eB : ∀ p : Vec3 ℝ, SaucerBody h t p ↔ (|p.z| + (curvature h t - t)) ^ 2 + (Real.sqrt (p.x ^ 2 + p.y ^ 2)) ^ 2 ≤ curvature h t ^ 2 := by
    intro p
    rw [Real.sq_sqrt (by positivity)]
    simp only [SaucerBody, ← curvature_eq ht.ne']
    rcases abs_cases p.z with ⟨e, hz⟩ | ⟨e, hz⟩ <;> rw [e]
    · constructor
      · rintro ⟨h1, h2⟩; nlinarith
      · intro h1; constructor <;> nlinarith [mul_nonneg hz hk]
    · constructor
      · rintro ⟨h1, h2⟩; nlinarith
      · intro h1; constructor <;> nlinarith [mul_nonneg (neg_nonneg.mpr hz.le) hk]
  have ho : SaucerBody h t 0 := by
    rw [eB]; simp only [Vec3.zero_x, Vec3.zero_y, Vec3.zero_z, abs_zero]
    rw [Real.sq_sqrt (by norm_num)]
    nlinarith
  refine ⟨fun n hn hsmall => ?_, ?_, ho, ?_, ?_, ho⟩
  · show SaucerBody h t (saucerSupport h t n) ∧ ∀ p, SaucerBody h t p → p.dot n ≤ (saucerSupport h t n).dot n
    rw [← curvature_eq ht.ne'] at hsmall
    have hs := lateral_split hn
    have nn := Real.sqrt_nonneg ((normalized n).x ^ 2 + (normalized n).y ^ 2)
    have hνsq := Real.sq_sqrt (show 0 ≤ (normalized n).x ^ 2 + (normalized n).y ^ 2 by positivity)
    have hzz : (normalized n).z * signed n.z 1 = |(normalized n).z| := by
      have hp := Xeno.norm_pos_of_ne hn
      have e : (normalized n).z = n.z / n.norm := rfl
      unfold signed
      split_ifs with hneg
      · rw [abs_of_neg (by rw [e]; exact div_neg_of_neg_of_pos hneg hp)]; ring
      · rw [abs_of_nonneg (by rw [e]; exact div_nonneg (not_lt.mp hneg) hp.le)]; ring
    have hs1 : signed n.z 1 ^ 2 = 1 := by unfold signed; split_ifs <;> norm_num
    unfold saucerSupport
    by_cases c : isVectorZero ⟨n.x, n.y, 0⟩ = false ∧
      ((normalized n).x * (normalized n).x + (normalized n).y * (normalized n).y) * curvature h t * curvature h t > h * h
    · rw [if_pos c]
      have hl : (⟨n.x, n.y, 0⟩ : Vec3 ℝ) ≠ 0 := lateral_ne (by rw [c.1]; simp)
      obtain ⟨ex, ey⟩ := lateral_normalized hn hl
      obtain ⟨hu, hz⟩ := lateral_unit hl
      have hc2 := c.2
      have hνR : h < Real.sqrt ((normalized n).x ^ 2 + (normalized n).y ^ 2) * curvature h t := by
        by_contra hcon
        have := pow_le_pow_left₀ (by positivity) (not_lt.mp hcon) 2
        rw [mul_pow, hνsq] at this
        nlinarith
      constructor
      · rw [eB]
        simp only [Vec3.smul_x, Vec3.smul_y, Vec3.smul_z, hz, mul_zero, abs_zero]
        rw [sqrt_comb hu hh.le]; nlinarith
      · intro p hp
        rw [eB] at hp
        apply le_of_normalized hn
        have hpl := dot_lateral_le p (normalized n)
        have hzle : p.z * (normalized n).z ≤ |p.z| * |(normalized n).z| := by rw [← abs_mul]; exact le_abs_self _
        have := arc_end (a := |p.z|) (b := Real.sqrt (p.x ^ 2 + p.y ^ 2)) (k := curvature h t - t) (R := curvature h t) (h := h)
          (α := |(normalized n).z|) (β := Real.sqrt ((normalized n).x ^ 2 + (normalized n).y ^ 2)) (abs_nonneg _) hk hR0 hh hq hp (abs_nonneg _)
          (by rw [sq_abs]; linarith) hνR
        generalize Real.sqrt ((normalized n).x ^ 2 + (normalized n).y ^ 2) = ν at *
        have e : (h • normalized ⟨n.x, n.y, 0⟩).dot (normalized n) = h * ν := by
          have e1 : (normalized ⟨n.x, n.y, 0⟩).x * (normalized n).x + (normalized ⟨n.x, n.y, 0⟩).y * (normalized n).y = ν := by
            rw [ex, ey]; linear_combination ν * hu
          simp only [Vec3.dot, Vec3.smul_x, Vec3.smul_y, Vec3.smul_z, hz]
          linear_combination h * e1
        rw [e]; linarith
    · rw [if_neg c]
      -- the direction points at a cap
      have hνR : ((normalized n).x ^ 2 + (normalized n).y ^ 2) * curvature h t ^ 2 ≤ h ^ 2 := by
        by_contra hcon
        have hcon := not_le.mp hcon
        by_cases hz : |n.x| < ZERO ∧ |n.y| < ZERO
        · exact hsmall ⟨hz, hcon⟩
        · refine c ⟨?_, by nlinarith⟩
          have : ¬ isVectorZero ⟨n.x, n.y, 0⟩ = true := fun hh' => hz (isVectorZero_lateral.mp hh')
          simpa using this
      have hn1 := Xeno.normalized_norm2 hn
      rw [norm2_eq] at hn1
      have hzk : curvature h t - t ≤ curvature h t * |(normalized n).z| := by
        have h1 : (curvature h t - t) ^ 2 ≤ (curvature h t * |(normalized n).z|) ^ 2 := by
          rw [mul_pow, sq_abs]; nlinarith
        exact (abs_le_of_sq_le_sq' h1 (by positivity)).2
      constructor
      · rw [eB]
        have ez : |curvature h t * (normalized n).z - (curvature h t - t) * signed n.z 1| = curvature h t * |(normalized n).z| - (curvature h t - t) := by
          have e1 : curvature h t * (normalized n).z - (curvature h t - t) * signed n.z 1
              = signed n.z 1 * (curvature h t * |(normalized n).z| - (curvature h t - t)) := by
            rw [← hzz]; linear_combination (-(curvature h t * (normalized n).z)) * hs1
          have e2 : |signed n.z 1| = 1 := by unfold signed; split_ifs <;> norm_num
          rw [e1, abs_mul, e2, one_mul, abs_of_nonneg (by linarith)]
        simp only [saucerCap, Vec3.sub_x, Vec3.sub_y, Vec3.sub_z, Vec3.smul_x, Vec3.smul_y, Vec3.smul_z, mul_zero, sub_zero]
        rw [ez, Real.sq_sqrt (by positivity)]
        have : |(normalized n).z| ^ 2 = (normalized n).z ^ 2 := sq_abs _
        nlinarith
      · intro p hp
        rw [eB] at hp
        apply le_of_normalized hn
        have hpl := dot_lateral_le p (normalized n)
        have hzle : p.z * (normalized n).z ≤ |p.z| * |(normalized n).z| := by rw [← abs_mul]; exact le_abs_self _
        have := arc_le (a := |p.z|) (b := Real.sqrt (p.x ^ 2 + p.y ^ 2)) (k := curvature h t - t) (R := curvature h t)
          (α := |(normalized n).z|) (β := Real.sqrt ((normalized n).x ^ 2 + (normalized n).y ^ 2)) hR0.le hp (by rw [sq_abs]; linarith)
        have e : (saucerCap t (curvature h t) n).dot (normalized n) = curvature h t - (curvature h t - t) * |(normalized n).z| := by
          simp only [saucerCap, Vec3.dot, Vec3.sub_x, Vec3.sub_y, Vec3.sub_z, Vec3.smul_x, Vec3.smul_y, Vec3.smul_z]
          linear_combination curvature h t * hn1 - (curvature h t - t) * hzz
        rw [e]; linarith
  · exact saucer_convex h t
  · intro p hp
    rw [eB, Real.sq_sqrt (by positivity)] at hp
    show p.norm2 ≤ h ^ 2
    rw [norm2_eq]
    nlinarith [mul_nonneg (abs_nonneg p.z) hk, sq_abs p.z]
  · intro _ p hp
    rw [eB, Real.sq_sqrt (by positivity)]
    exact saucer_inside ht hk hp

example : ∃ g, saucer 2 1 = .ok g := ⟨_, by simp [saucer, Outcome.require]; rfl⟩

/-- For a short direction towards the rim the support point of a saucer is not even a point of the saucer. -/
theorem C75_saucer_violated : ∃ (g : XCGeometry) (n : Vec3 ℝ), saucer 2 1 = .ok g ∧ n ≠ 0 ∧ ¬ SaucerBody 2 1 (g.support n) := by
  refine ⟨_, ⟨1 / 10 ^ 13, 0, 0⟩, by simp [saucer, Outcome.require]; rfl, ?_, ?_⟩
  · intro h; have : (1 / 10 ^ 13 : ℝ) = 0 := congrArg Vec3.x h; norm_num at this
  · show ¬ SaucerBody 2 1 (saucerSupport 2 1 ⟨1 / 10 ^ 13, 0, 0⟩)
    have hz : isVectorZero (⟨1 / 10 ^ 13, 0, 0⟩ : Vec3 ℝ) = true := by
      unfold isVectorZero ZERO
      simp only [decide_eq_true_eq]
      refine ⟨?_, ?_, ?_⟩ <;> norm_num [abs_of_pos]
    have hnorm : (⟨1 / 10 ^ 13, 0, 0⟩ : Vec3 ℝ).norm = 1 / 10 ^ 13 := by
      have : (⟨1 / 10 ^ 13, 0, 0⟩ : Vec3 ℝ).norm2 = (1 / 10 ^ 13) ^ 2 := by simp only [Vec3.norm2, Vec3.dot]; ring
      rw [Vec3.norm, this, Real.sqrt_sq (by norm_num)]
    unfold saucerSupport
    rw [if_neg (by rintro ⟨h1, _⟩; rw [hz] at h1; simp at h1)]
    have hx : (normalized (⟨1 / 10 ^ 13, 0, 0⟩ : Vec3 ℝ)) = ⟨1, 0, 0⟩ := by
      simp only [normalized, hnorm]; ext <;> norm_num
    simp only [saucerCap, hx, SaucerBody, Vec3.sub_x, Vec3.sub_y, Vec3.sub_z, Vec3.smul_x, Vec3.smul_y, Vec3.smul_z, curvature]
    norm_num [signed]

/-- A saucer of no thickness or of a negative one is accepted. -/
theorem C75_thickness_violated : (∃ g, saucer 1 0 = .ok g) ∧ (∃ g, saucer 1 (-1) = .ok g ∧ g.insphereRadius < 0) := by
  constructor
  · exact ⟨_, by simp [saucer, Outcome.require]; rfl⟩
  · exact ⟨_, by norm_num [saucer, Outcome.require]; rfl, by norm_num⟩

/-! ### Points -/

/-- A point at the origin. -/
theorem C75_point_partial : Describes (point 0) (PointBody 0) ∧ HasOrigin (PointBody 0) := by
  refine ⟨⟨⟨fun n _ => rfl, fun n _ p hp => by rw [hp]; exact le_refl _⟩, ?_, rfl, le_refl _, le_refl _, ?_, ?_⟩, rfl⟩
  · rintro p q c rfl rfl _ _; ext <;> simp
  · rintro p rfl; simp [Vec3.norm2, Vec3.dot, point]
  · intro h; exact absurd h (lt_irrefl _)

/-- A point elsewhere is not in the ball of the circumsphere radius. -/
theorem C75_point_violated (pos : Vec3 ℝ) (h : pos ≠ 0) : PointBody pos pos ∧ ¬ CoveredBy (PointBody pos) (point pos).circumsphereRadius := by
  refine ⟨rfl, fun hc => ?_⟩
  have := hc pos rfl
  have hp := Vec3.norm2_pos_of_ne h
  simp only [point] at this
  norm_num at this
  linarith

end Rampack
