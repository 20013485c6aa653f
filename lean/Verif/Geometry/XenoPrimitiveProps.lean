import Verif.Geometry.XenoBodyLemmas
/-
The building blocks of convex shapes describe the bodies they stand for.
-/
namespace Rampack

open Packing Spec Xeno

namespace XC

theorem require_pure {b : Bool} {msg : String} {g g' : XCGeometry} (h : (do Outcome.require b msg; pure g' : Outcome XCGeometry) = .ok g) :
    b = true ∧ g = g' := by
  obtain ⟨_, h1, h2⟩ := Outcome.bind_eq_ok.mp h
  exact ⟨Outcome.require_eq_ok.mp h1, (Outcome.ok_inj.mp h2).symm⟩

end XC

open XC

variable {g : XCGeometry}

/-- A segment. -/
theorem C75_segment {h : ℝ} (hg : segment h = .ok g) : Describes g (SegmentBody h) ∧ HasOrigin (SegmentBody h) := by
  obtain ⟨hb, rfl⟩ := require_pure hg
  have hh : 0 < h := of_decide_eq_true hb
  have ho : SegmentBody h 0 := ⟨rfl, rfl, by simpa using hh.le⟩
  refine ⟨⟨⟨fun n _ => ⟨rfl, rfl, signed_abs hh.le _⟩, ?_⟩, ?_, ho, hh.le, le_refl _, ?_, ?_⟩, ho⟩
  · rintro n _ p ⟨h1, h2, h3⟩
    have := signed_le h3 n.z
    simp only [Vec3.dot, h1, h2]; linarith
  · rintro p q c ⟨h1, h2, h3⟩ ⟨k1, k2, k3⟩ h0 h1'
    exact ⟨by simp [h1, k1], by simp [h2, k2], abs_comb h3 k3 h0 h1'⟩
  · rintro p ⟨h1, h2, h3⟩
    have := abs_sq_le h3
    rw [norm2_eq, h1, h2]; linarith
  · intro h'; exact absurd h' (lt_irrefl _)

/-- A rectangle. -/
theorem C75_rectangle {a b : ℝ} (hg : rectangle a b = .ok g) : Describes g (RectangleBody a b) ∧ HasOrigin (RectangleBody a b) := by
  obtain ⟨hb, rfl⟩ := require_pure hg
  obtain ⟨ha, hb⟩ : 0 < a ∧ 0 < b := of_decide_eq_true hb
  have ho : RectangleBody a b 0 := ⟨by simpa using ha.le, by simpa using hb.le, rfl⟩
  refine ⟨⟨⟨fun n _ => ⟨signed_abs ha.le _, signed_abs hb.le _, rfl⟩, ?_⟩, ?_, ho, Vec3.norm_nonneg _, le_refl _, ?_, ?_⟩, ho⟩
  · rintro n _ p ⟨h1, h2, h3⟩
    have := signed_le h1 n.x
    have := signed_le h2 n.y
    simp only [Vec3.dot, h3]; linarith
  · rintro p q c ⟨h1, h2, h3⟩ ⟨k1, k2, k3⟩ h0 h1'
    exact ⟨abs_comb h1 k1 h0 h1', abs_comb h2 k2 h0 h1', by simp [h3, k3]⟩
  · rintro p ⟨h1, h2, h3⟩
    have := abs_sq_le h1
    have := abs_sq_le h2
    show p.norm2 ≤ (Vec3.norm ⟨a, b, 0⟩) ^ 2
    rw [Vec3.norm_sq, norm2_eq, norm2_eq, h3]; linarith
  · intro h'; exact absurd h' (lt_irrefl _)

/-- A cuboid. -/
theorem C75_cuboid {h : Vec3 ℝ} (hg : cuboid h = .ok g) : Describes g (CuboidBody h) ∧ HasOrigin (CuboidBody h) := by
  obtain ⟨hb, rfl⟩ := require_pure hg
  obtain ⟨hx, hy, hz⟩ : 0 < h.x ∧ 0 < h.y ∧ 0 < h.z := of_decide_eq_true hb
  have ho : CuboidBody h 0 := ⟨by simpa using hx.le, by simpa using hy.le, by simpa using hz.le⟩
  refine ⟨⟨⟨fun n _ => ⟨signed_abs hx.le _, signed_abs hy.le _, signed_abs hz.le _⟩, ?_⟩, ?_, ho, Vec3.norm_nonneg _,
    le_min (le_min hx.le hy.le) hz.le, ?_, ?_⟩, ho⟩
  · rintro n _ p ⟨h1, h2, h3⟩
    have := signed_le h1 n.x
    have := signed_le h2 n.y
    have := signed_le h3 n.z
    simp only [Vec3.dot]; linarith
  · rintro p q c ⟨h1, h2, h3⟩ ⟨k1, k2, k3⟩ h0 h1'
    exact ⟨abs_comb h1 k1 h0 h1', abs_comb h2 k2 h0 h1', abs_comb h3 k3 h0 h1'⟩
  · rintro p ⟨h1, h2, h3⟩
    have := abs_sq_le h1
    have := abs_sq_le h2
    have := abs_sq_le h3
    show p.norm2 ≤ h.norm ^ 2
    rw [Vec3.norm_sq, norm2_eq, norm2_eq]; linarith
  · intro hm p hp
    have hm : 0 < min (min h.x h.y) h.z := hm
    have hp : p.norm2 ≤ (min (min h.x h.y) h.z) ^ 2 := hp
    rw [norm2_eq] at hp
    have e1 : min (min h.x h.y) h.z ≤ h.x := (min_le_left _ _).trans (min_le_left _ _)
    have e2 : min (min h.x h.y) h.z ≤ h.y := (min_le_left _ _).trans (min_le_right _ _)
    have e3 : min (min h.x h.y) h.z ≤ h.z := min_le_right _ _
    exact ⟨(abs_le_of_sq hm.le (by nlinarith [sq_nonneg p.y, sq_nonneg p.z])).trans e1,
      (abs_le_of_sq hm.le (by nlinarith [sq_nonneg p.x, sq_nonneg p.z])).trans e2,
      (abs_le_of_sq hm.le (by nlinarith [sq_nonneg p.x, sq_nonneg p.y])).trans e3⟩

/-- A ball. -/
theorem C75_sphere {r : ℝ} (hg : sphere r = .ok g) : Describes g (ClosedBall r) ∧ HasOrigin (ClosedBall r) := by
  obtain ⟨hb, rfl⟩ := require_pure hg
  have hr : 0 < r := of_decide_eq_true hb
  have ho : ClosedBall r 0 := by simp [ClosedBall, Vec3.norm2, Vec3.dot]; positivity
  refine ⟨⟨⟨fun n hn => ?_, ?_⟩, closedBall_convex r, ho, hr.le, hr.le, fun p hp => hp, fun _ p hp => hp⟩, ho⟩
  · have := Xeno.normalized_norm2 hn
    have e : (r • normalized n).norm2 = r ^ 2 * (normalized n).norm2 := by
      simp only [Vec3.norm2, Vec3.dot, Vec3.smul_x, Vec3.smul_y, Vec3.smul_z]; ring
    show (r • normalized n).norm2 ≤ r ^ 2
    rw [e, this, mul_one]
  · intro n hn p hp
    show p.dot n ≤ (r • normalized n).dot n
    rw [smul_dot, normalized_self hn]
    exact (dot_le_norm p n).trans (mul_le_mul_of_nonneg_right (norm_le_of hr.le hp) n.norm_nonneg)

/-- An ellipsoid. -/
theorem C75_ellipsoid {a : Vec3 ℝ} (hg : ellipsoid a = .ok g) : Describes g (EllipsoidBody a) ∧ HasOrigin (EllipsoidBody a) := by
  obtain ⟨hb, rfl⟩ := require_pure hg
  obtain ⟨hx, hy, hz⟩ : 0 < a.x ∧ 0 < a.y ∧ 0 < a.z := of_decide_eq_true hb
  have ho : EllipsoidBody a 0 := by simp [EllipsoidBody]
  have hM : 0 < max (max a.x a.y) a.z := lt_of_lt_of_le hz (le_max_right _ _)
  have hm : 0 < min (min a.x a.y) a.z := lt_min (lt_min hx hy) hz
  have hne : ∀ n : Vec3 ℝ, n ≠ 0 → compMul n a ≠ 0 := by
    intro n hn h0; apply hn
    have e1 : n.x * a.x = 0 := congrArg Vec3.x h0
    have e2 : n.y * a.y = 0 := congrArg Vec3.y h0
    have e3 : n.z * a.z = 0 := congrArg Vec3.z h0
    ext
    · exact (mul_eq_zero.mp e1).resolve_right hx.ne'
    · exact (mul_eq_zero.mp e2).resolve_right hy.ne'
    · exact (mul_eq_zero.mp e3).resolve_right hz.ne'
  refine ⟨⟨⟨fun n hn => ?_, ?_⟩, ?_, ho, hM.le, hm.le, ?_, ?_⟩, ho⟩
  · have := Xeno.normalized_norm2 (hne n hn)
    rw [norm2_eq] at this
    show EllipsoidBody a (compMul (normalized (compMul n a)) a)
    simp only [EllipsoidBody, compMul] at *
    rw [mul_div_cancel_right₀ _ hx.ne', mul_div_cancel_right₀ _ hy.ne', mul_div_cancel_right₀ _ hz.ne']
    exact this.le
  · intro n hn p hp
    have hnorm : (⟨p.x / a.x, p.y / a.y, p.z / a.z⟩ : Vec3 ℝ).norm ≤ 1 := by
      refine norm_le_of zero_le_one ?_
      rw [norm2_eq, one_pow]; exact hp
    have e1 : p.dot n = (⟨p.x / a.x, p.y / a.y, p.z / a.z⟩ : Vec3 ℝ).dot (compMul n a) := by
      simp only [Vec3.dot, compMul]; field_simp
    have e2 : (compMul (normalized (compMul n a)) a).dot n = (normalized (compMul n a)).dot (compMul n a) := by
      simp only [Vec3.dot, compMul]; ring
    show p.dot n ≤ (compMul (normalized (compMul n a)) a).dot n
    rw [e1, e2, normalized_self (hne n hn)]
    refine (dot_le_norm _ _).trans ?_
    have := mul_le_mul_of_nonneg_right hnorm (compMul n a).norm_nonneg
    linarith
  · intro p q c hp hq h0 h1
    simp only [EllipsoidBody, Vec3.add_x, Vec3.add_y, Vec3.add_z, Vec3.smul_x, Vec3.smul_y, Vec3.smul_z] at *
    have e : ∀ s t u : ℝ, (c * s + (1 - c) * t) / u = c * (s / u) + (1 - c) * (t / u) := by intro s t u; ring
    rw [e, e, e]
    have := sq_comb (x := p.x / a.x) (y := q.x / a.x) h0 h1
    have := sq_comb (x := p.y / a.y) (y := q.y / a.y) h0 h1
    have := sq_comb (x := p.z / a.z) (y := q.z / a.z) h0 h1
    nlinarith [mul_le_mul_of_nonneg_left hp h0, mul_le_mul_of_nonneg_left hq (sub_nonneg.mpr h1)]
  · intro p hp
    show p.norm2 ≤ (max (max a.x a.y) a.z) ^ 2
    have m1 : a.x ≤ max (max a.x a.y) a.z := (le_max_left _ _).trans (le_max_left _ _)
    have m2 : a.y ≤ max (max a.x a.y) a.z := (le_max_right _ _).trans (le_max_left _ _)
    have m3 : a.z ≤ max (max a.x a.y) a.z := le_max_right _ _
    generalize max (max a.x a.y) a.z = m at *
    have e : ∀ s u : ℝ, 0 < u → u ≤ m → s ^ 2 ≤ m ^ 2 * (s / u) ^ 2 := by
      intro s u hu hum
      have : s ^ 2 = u ^ 2 * (s / u) ^ 2 := by field_simp
      rw [this]; exact mul_le_mul_of_nonneg_right (by nlinarith) (sq_nonneg _)
    have := e p.x a.x hx m1
    have := e p.y a.y hy m2
    have := e p.z a.z hz m3
    have := mul_le_mul_of_nonneg_left hp (sq_nonneg m)
    rw [norm2_eq]; simp only [EllipsoidBody] at *; nlinarith
  · intro _ p hp
    have hp : p.norm2 ≤ (min (min a.x a.y) a.z) ^ 2 := hp
    have m1 : min (min a.x a.y) a.z ≤ a.x := (min_le_left _ _).trans (min_le_left _ _)
    have m2 : min (min a.x a.y) a.z ≤ a.y := (min_le_left _ _).trans (min_le_right _ _)
    have m3 : min (min a.x a.y) a.z ≤ a.z := min_le_right _ _
    generalize min (min a.x a.y) a.z = m at *
    have e : ∀ s u : ℝ, m ≤ u → (s / u) ^ 2 ≤ s ^ 2 / m ^ 2 := by
      intro s u hum
      rw [div_pow]; exact div_le_div_of_nonneg_left (sq_nonneg _) (by positivity) (by nlinarith)
    have e1 := e p.x a.x m1
    have e2 := e p.y a.y m2
    have e3 := e p.z a.z m3
    have : (p.x ^ 2 + p.y ^ 2 + p.z ^ 2) / m ^ 2 ≤ 1 := by
      rw [div_le_one (by positivity)]; rw [norm2_eq] at hp; exact hp
    simp only [EllipsoidBody]
    rw [add_div, add_div] at this
    linarith

example : ∃ g, ellipsoid ⟨1, 2, 3⟩ = .ok g := ⟨_, by simp [ellipsoid, Outcome.require]; rfl⟩

/-! ### Footballs -/

theorem XC.lateral_split {n : Vec3 ℝ} (hn : n ≠ 0) :
    (Real.sqrt ((normalized n).x ^ 2 + (normalized n).y ^ 2)) ^ 2 + (normalized n).z ^ 2 = 1 := by
  rw [Real.sq_sqrt (by positivity), ← norm2_eq]; exact Xeno.normalized_norm2 hn

/-- The lateral direction of a vector is its lateral part over its lateral length. -/
theorem XC.lateral_normalized {n : Vec3 ℝ} (hn : n ≠ 0) (hl : (⟨n.x, n.y, 0⟩ : Vec3 ℝ) ≠ 0) :
    (normalized n).x = Real.sqrt ((normalized n).x ^ 2 + (normalized n).y ^ 2) * (normalized ⟨n.x, n.y, 0⟩).x ∧
    (normalized n).y = Real.sqrt ((normalized n).x ^ 2 + (normalized n).y ^ 2) * (normalized ⟨n.x, n.y, 0⟩).y := by
  have hp := Xeno.norm_pos_of_ne hn
  have hlp := Xeno.norm_pos_of_ne hl
  have e : Real.sqrt ((normalized n).x ^ 2 + (normalized n).y ^ 2) = (⟨n.x, n.y, 0⟩ : Vec3 ℝ).norm / n.norm := by
    rw [normalized_lateral_norm]
    simp only [normalized]
    rw [div_pow, div_pow, ← add_div, Real.sqrt_div (by positivity), Real.sqrt_sq hp.le]
  rw [e]
  constructor
  · show n.x / n.norm = _ * (n.x / (⟨n.x, n.y, 0⟩ : Vec3 ℝ).norm)
    field_simp
  · show n.y / n.norm = _ * (n.y / (⟨n.x, n.y, 0⟩ : Vec3 ℝ).norm)
    field_simp

/-- It is enough to compare along the direction of unit length. -/
theorem XC.le_of_normalized {p q n : Vec3 ℝ} (hn : n ≠ 0) (h : p.dot (normalized n) ≤ q.dot (normalized n)) : p.dot n ≤ q.dot n := by
  have hp := Xeno.norm_pos_of_ne hn
  rw [Xeno.normalized_dot, Xeno.normalized_dot] at h
  exact (div_le_div_iff_of_pos_right hp).mp h

theorem XC.dot_lateral_le (p u : Vec3 ℝ) :
    p.dot u ≤ Real.sqrt (p.x ^ 2 + p.y ^ 2) * Real.sqrt (u.x ^ 2 + u.y ^ 2) + p.z * u.z := by
  have := lateral_dot (p := p) (n := u)
  simp only [Vec3.dot]; linarith

theorem XC.lateral_unit {n : Vec3 ℝ} (hl : (⟨n.x, n.y, 0⟩ : Vec3 ℝ) ≠ 0) :
    (normalized ⟨n.x, n.y, 0⟩).x ^ 2 + (normalized ⟨n.x, n.y, 0⟩).y ^ 2 = 1 ∧ (normalized ⟨n.x, n.y, 0⟩).z = 0 := by
  have h := Xeno.normalized_norm2 hl
  have hz : (normalized ⟨n.x, n.y, 0⟩).z = 0 := by simp [normalized]
  rw [norm2_eq, hz] at h
  exact ⟨by linarith, hz⟩

theorem XC.sqrt_comb {n2 : Vec3 ℝ} (hu : n2.x ^ 2 + n2.y ^ 2 = 1) {c : ℝ} (hc : 0 ≤ c) : Real.sqrt ((c * n2.x) ^ 2 + (c * n2.y) ^ 2) = c := by
  have : (c * n2.x) ^ 2 + (c * n2.y) ^ 2 = c ^ 2 := by rw [mul_pow, mul_pow, ← mul_add, hu, mul_one]
  rw [this, Real.sqrt_sq hc]

/-- In the last case of the support function of a football which is not a ball the direction is not along the axis, so the
vector which the code normalises is not zero. -/
theorem XC.football_lateral {h r : ℝ} (hr : 0 < r) (hrh : r < h) {n : Vec3 ℝ} (hn : n ≠ 0) (c1 : ¬ (normalized n).z * curvature h r < -h)
    (c2 : ¬ (normalized n).z * curvature h r > h) : (⟨n.x, n.y, 0⟩ : Vec3 ℝ) ≠ 0 := by
  intro h0
  have hx : n.x = 0 := congrArg Vec3.x h0
  have hy : n.y = 0 := congrArg Vec3.y h0
  have h1 := Xeno.normalized_norm2 hn
  have ex : (normalized n).x = 0 := by simp [normalized, hx]
  have ey : (normalized n).y = 0 := by simp [normalized, hy]
  rw [norm2_eq, ex, ey] at h1
  have hR := curvature_gt hr hrh
  have c1 := not_lt.mp c1
  have c2 := not_lt.mp c2
  have h1 : (normalized n).z = 1 ∨ (normalized n).z = -1 := by
    have h2 : ((normalized n).z - 1) * ((normalized n).z + 1) = 0 := by linear_combination h1
    rcases mul_eq_zero.mp h2 with h3 | h3
    · left; linarith
    · right; linarith
  rcases h1 with h1 | h1 <;> rw [h1] at c1 c2 <;> linarith

theorem XC.football_convex {k R : ℝ} (hk : 0 ≤ k) : ConvexBody fun p : Vec3 ℝ => (Real.sqrt (p.x ^ 2 + p.y ^ 2) + k) ^ 2 + p.z ^ 2 ≤ R ^ 2 := by
  intro p q c hp hq h0 h1
  simp only [Vec3.add_x, Vec3.add_y, Vec3.add_z, Vec3.smul_x, Vec3.smul_y, Vec3.smul_z]
  have h1' : 0 ≤ 1 - c := by linarith
  have np := Real.sqrt_nonneg (p.x ^ 2 + p.y ^ 2)
  have nq := Real.sqrt_nonneg (q.x ^ 2 + q.y ^ 2)
  have hs : Real.sqrt ((c * p.x + (1 - c) * q.x) ^ 2 + (c * p.y + (1 - c) * q.y) ^ 2)
      ≤ c * Real.sqrt (p.x ^ 2 + p.y ^ 2) + (1 - c) * Real.sqrt (q.x ^ 2 + q.y ^ 2) := by
    refine Real.sqrt_le_iff.mpr ⟨by positivity, ?_⟩
    have ep := Real.sq_sqrt (show 0 ≤ p.x ^ 2 + p.y ^ 2 by positivity)
    have eq := Real.sq_sqrt (show 0 ≤ q.x ^ 2 + q.y ^ 2 by positivity)
    have l := lateral_dot (p := p) (n := q)
    have := mul_le_mul_of_nonneg_left l (mul_nonneg h0 h1')
    have e1 : ∀ a b : ℝ, (c * a + (1 - c) * b) ^ 2 = c ^ 2 * a ^ 2 + (1 - c) ^ 2 * b ^ 2 + 2 * (c * (1 - c) * (a * b)) := by intro a b; ring
    rw [e1 (Real.sqrt _), ep, eq, e1, e1]
    linarith
  have ns := Real.sqrt_nonneg ((c * p.x + (1 - c) * q.x) ^ 2 + (c * p.y + (1 - c) * q.y) ^ 2)
  generalize Real.sqrt ((c * p.x + (1 - c) * q.x) ^ 2 + (c * p.y + (1 - c) * q.y) ^ 2) = s at *
  generalize Real.sqrt (p.x ^ 2 + p.y ^ 2) = a at *
  generalize Real.sqrt (q.x ^ 2 + q.y ^ 2) = b at *
  have h2 : (s + k) ^ 2 ≤ (c * (a + k) + (1 - c) * (b + k)) ^ 2 := by
    apply pow_le_pow_left₀ (by linarith); linarith
  have h3 := sq_comb (x := a + k) (y := b + k) h0 h1
  have h4 := sq_comb (x := p.z) (y := q.z) h0 h1
  nlinarith [mul_le_mul_of_nonneg_left hp h0, mul_le_mul_of_nonneg_left hq h1']

/-- A football which is not a ball. For a football of length equal to its diameter see `C75_football_violated`. -/
theorem C75_football_partial {h r : ℝ} (hrh : r < h) (hg : football h r = .ok g) : Describes g (FootballBody h r) ∧ HasOrigin (FootballBody h r) := by
  obtain ⟨_, hb, hg⟩ := Outcome.bind_eq_ok.mp hg
  have hr : 0 < r := of_decide_eq_true (Outcome.require_eq_ok.mp hb)
  obtain ⟨_, rfl⟩ := require_pure hg
  have hh : 0 < h := hr.trans hrh
  have hR := curvature_gt hr hrh
  have hq := curvature_sq (h := h) hr.ne'
  have hR0 : 0 < curvature h r := hh.trans hR
  have hk : 0 ≤ curvature h r - r := by linarith
  have eB : FootballBody h r = fun p : Vec3 ℝ => (Real.sqrt (p.x ^ 2 + p.y ^ 2) + (curvature h r - r)) ^ 2 + p.z ^ 2 ≤ curvature h r ^ 2 := by
    funext p; simp only [FootballBody, curvature_eq hr.ne']
  have ho : FootballBody h r 0 := by
    rw [eB]; simp only [Vec3.zero_x, Vec3.zero_y, Vec3.zero_z]
    have : Real.sqrt ((0 : ℝ) ^ 2 + 0 ^ 2) = 0 := by norm_num
    rw [this]; nlinarith
  refine ⟨⟨⟨fun n hn => ?_, fun n hn p hp => ?_⟩, ?_, ho, hh.le, hr.le, ?_, ?_⟩, ho⟩
  · show FootballBody h r (footballSupport h r n)
    rw [eB]
    have s0 : Real.sqrt ((0 : ℝ) ^ 2 + 0 ^ 2) = 0 := by norm_num
    unfold footballSupport
    by_cases c1 : (normalized n).z * curvature h r < -h
    · rw [if_pos c1]; simp only [s0]; nlinarith
    · rw [if_neg c1]
      by_cases c2 : (normalized n).z * curvature h r > h
      · rw [if_pos c2]; simp only [s0]; nlinarith
      · rw [if_neg c2]
        have hl := football_lateral hr hrh hn c1 c2
        obtain ⟨ex, ey⟩ := lateral_normalized hn hl
        obtain ⟨hu, hz⟩ := lateral_unit hl
        have hs := lateral_split hn
        have nn := Real.sqrt_nonneg ((normalized n).x ^ 2 + (normalized n).y ^ 2)
        generalize Real.sqrt ((normalized n).x ^ 2 + (normalized n).y ^ 2) = ν at *
        have c1 := not_lt.mp c1
        have c2 := not_lt.mp c2
        have hνk : curvature h r - r ≤ curvature h r * ν := by
          have h1 : (curvature h r - r) ^ 2 ≤ (curvature h r * ν) ^ 2 := by
            have : ((normalized n).z * curvature h r) ^ 2 ≤ h ^ 2 := by nlinarith
            nlinarith
          exact (abs_le_of_sq_le_sq' h1 (by positivity)).2
        simp only [Vec3.sub_x, Vec3.sub_y, Vec3.sub_z, Vec3.smul_x, Vec3.smul_y, Vec3.smul_z]
        have ex' : curvature h r * (normalized n).x - (curvature h r - r) * (normalized ⟨n.x, n.y, 0⟩).x
            = (curvature h r * ν - (curvature h r - r)) * (normalized ⟨n.x, n.y, 0⟩).x := by rw [ex]; ring
        have ey' : curvature h r * (normalized n).y - (curvature h r - r) * (normalized ⟨n.x, n.y, 0⟩).y
            = (curvature h r * ν - (curvature h r - r)) * (normalized ⟨n.x, n.y, 0⟩).y := by rw [ey]; ring
        rw [ex', ey', sqrt_comb hu (by linarith), hz]
        nlinarith
  · rw [eB] at hp
    show p.dot n ≤ (footballSupport h r n).dot n
    apply le_of_normalized hn
    have hpl := dot_lateral_le p (normalized n)
    have hs := lateral_split hn
    have nn := Real.sqrt_nonneg ((normalized n).x ^ 2 + (normalized n).y ^ 2)
    have np := Real.sqrt_nonneg (p.x ^ 2 + p.y ^ 2)
    unfold footballSupport
    by_cases c1 : (normalized n).z * curvature h r < -h
    · rw [if_pos c1]
      have := arc_end (a := Real.sqrt (p.x ^ 2 + p.y ^ 2)) (b := -p.z) (k := curvature h r - r) (R := curvature h r) (h := h)
        (α := Real.sqrt ((normalized n).x ^ 2 + (normalized n).y ^ 2)) (β := -(normalized n).z) np hk hR0 hh hq (by rw [neg_sq]; exact hp) nn (by rw [neg_sq]; exact hs) (by linarith)
      have e : (⟨0, 0, -h⟩ : Vec3 ℝ).dot (normalized n) = h * -(normalized n).z := by simp only [Vec3.dot]; ring
      rw [e]; linarith
    · rw [if_neg c1]
      by_cases c2 : (normalized n).z * curvature h r > h
      · rw [if_pos c2]
        have := arc_end (a := Real.sqrt (p.x ^ 2 + p.y ^ 2)) (b := p.z) (k := curvature h r - r) (R := curvature h r) (h := h)
          (α := Real.sqrt ((normalized n).x ^ 2 + (normalized n).y ^ 2)) (β := (normalized n).z) np hk hR0 hh hq hp nn hs c2
        have e : (⟨0, 0, h⟩ : Vec3 ℝ).dot (normalized n) = h * (normalized n).z := by simp only [Vec3.dot]; ring
        rw [e]; linarith
      · rw [if_neg c2]
        have hl := football_lateral hr hrh hn c1 c2
        obtain ⟨ex, ey⟩ := lateral_normalized hn hl
        obtain ⟨hu, hz⟩ := lateral_unit hl
        have := arc_le (a := Real.sqrt (p.x ^ 2 + p.y ^ 2)) (b := p.z) (k := curvature h r - r) (R := curvature h r)
          (α := Real.sqrt ((normalized n).x ^ 2 + (normalized n).y ^ 2)) (β := (normalized n).z) hR0.le hp hs
        generalize Real.sqrt ((normalized n).x ^ 2 + (normalized n).y ^ 2) = ν at *
        have hn1 := Xeno.normalized_norm2 hn
        rw [norm2_eq] at hn1
        have e : (curvature h r • normalized n - (curvature h r - r) • normalized ⟨n.x, n.y, 0⟩).dot (normalized n)
            = curvature h r - (curvature h r - r) * ν := by
          have e1 : (normalized ⟨n.x, n.y, 0⟩).x * (normalized n).x + (normalized ⟨n.x, n.y, 0⟩).y * (normalized n).y = ν := by
            rw [ex, ey]; linear_combination ν * hu
          simp only [Vec3.dot, Vec3.sub_x, Vec3.sub_y, Vec3.sub_z, Vec3.smul_x, Vec3.smul_y, Vec3.smul_z, hz]
          linear_combination curvature h r * hn1 - (curvature h r - r) * e1
        rw [e]; linarith
  · rw [eB]; exact football_convex hk
  · intro p hp
    rw [eB] at hp
    have np := Real.sqrt_nonneg (p.x ^ 2 + p.y ^ 2)
    have ep := Real.sq_sqrt (show 0 ≤ p.x ^ 2 + p.y ^ 2 by positivity)
    show p.norm2 ≤ h ^ 2
    rw [norm2_eq]
    nlinarith [mul_nonneg np hk]
  · intro _ p hp
    have hp : p.norm2 ≤ r ^ 2 := hp
    rw [norm2_eq] at hp
    rw [eB]
    have np := Real.sqrt_nonneg (p.x ^ 2 + p.y ^ 2)
    have ep := Real.sq_sqrt (show 0 ≤ p.x ^ 2 + p.y ^ 2 by positivity)
    have hle : Real.sqrt (p.x ^ 2 + p.y ^ 2) ≤ r := Real.sqrt_le_iff.mpr ⟨hr.le, by nlinarith [sq_nonneg p.z]⟩
    show _ ≤ _
    nlinarith [mul_le_mul_of_nonneg_right hle hk]

example : ∃ g, football 2 1 = .ok g := ⟨_, by simp [football, Outcome.require]; rfl⟩

/-- A football of length equal to its diameter is accepted, but for the direction of its axis the code divides by the length of
the zero vector: neither of the first two cases applies, and the vector to normalise is zero. -/
theorem C75_football_violated : ∃ (g : XCGeometry) (n : Vec3 ℝ), football 1 1 = .ok g ∧ n ≠ 0 ∧
    ¬ (normalized n).z * curvature 1 1 < -1 ∧ ¬ (normalized n).z * curvature 1 1 > 1 ∧ (⟨n.x, n.y, 0⟩ : Vec3 ℝ).norm = 0 := by
  refine ⟨_, ⟨0, 0, 1⟩, by simp [football, Outcome.require]; rfl, ?_, ?_, ?_, ?_⟩
  · intro h; have : (1 : ℝ) = 0 := congrArg Vec3.z h; norm_num at this
  · norm_num [normalized, Vec3.norm, Vec3.norm2, Vec3.dot, curvature]
  · norm_num [normalized, Vec3.norm, Vec3.norm2, Vec3.dot, curvature]
  · simp [Vec3.norm, Vec3.norm2, Vec3.dot]

end Rampack
