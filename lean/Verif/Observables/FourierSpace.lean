import Verif.Observables.FourierProps
import Mathlib.Analysis.SpecialFunctions.Sqrt
import Mathlib.Analysis.SpecialFunctions.Trigonometric.Deriv
import Mathlib.Analysis.Calculus.LocalExtr.Basic
import Mathlib.Algebra.Polynomial.Roots
/-
**C99** The tracker in three dimensions.
-/
namespace Rampack

open Spec Fourier

noncomputable section

namespace Fourier

/-- Sums of squares for a plane with fixed `z`. -/
def qu (q : Quad) (z : ℝ) : ℝ := q.U * Real.cos z * Real.cos z + 2 * q.V * Real.sin z * Real.cos z + q.W * Real.sin z * Real.sin z
def qx (q : Quad) (z : ℝ) : ℝ := q.X * Real.cos z * Real.cos z + 2 * q.Y * Real.sin z * Real.cos z + q.Z * Real.sin z * Real.sin z

theorem amplitude_eq (q : Quad) (z : ℝ) : amplitude q (Real.cos z) (Real.sin z) = Real.sqrt (qu q z) + Real.sqrt (qx q z) := rfl

/-- Coefficients of the plane with fixed `z`. -/
def pA (C : Coefs) (c s : ℝ) : ℝ := C 0 0 0 * c + C 0 0 1 * s
def pB (C : Coefs) (c s : ℝ) : ℝ := C 0 1 0 * c + C 0 1 1 * s
def pC (C : Coefs) (c s : ℝ) : ℝ := C 1 0 0 * c + C 1 0 1 * s
def pD (C : Coefs) (c s : ℝ) : ℝ := C 1 1 0 * c + C 1 1 1 * s

/-- The value in a plane. -/
def plane (A B C D X Y : ℝ) : ℝ := A * (Real.cos X * Real.cos Y) + B * (Real.cos X * Real.sin Y) + C * (Real.sin X * Real.cos Y) + D * (Real.sin X * Real.sin Y)

theorem waves_plane (n : Vec3 Nat) (l : List (Vec3 ℝ × ℝ)) (s : Vec3 ℝ) :
    waves n l s = plane (pA (cf n l) (Real.cos (ph n s 2)) (Real.sin (ph n s 2))) (pB (cf n l) (Real.cos (ph n s 2)) (Real.sin (ph n s 2)))
      (pC (cf n l) (Real.cos (ph n s 2)) (Real.sin (ph n s 2))) (pD (cf n l) (Real.cos (ph n s 2)) (Real.sin (ph n s 2))) (ph n s 0) (ph n s 1) := by
  rw [waves_cf]
  simp only [plane, pA, pB, pC, pD, ph, Vec3.get_zero, Vec3.get_one, Vec3.get_two]
  ring

theorem sq_amp (C : Coefs) (c s : ℝ) :
    (pA C c s - pD C c s) * (pA C c s - pD C c s) + (pC C c s + pB C c s) * (pC C c s + pB C c s) = 4 * ((quad C).U * c * c + 2 * (quad C).V * s * c + (quad C).W * s * s) ∧
    (pA C c s + pD C c s) * (pA C c s + pD C c s) + (pC C c s - pB C c s) * (pC C c s - pB C c s) = 4 * ((quad C).X * c * c + 2 * (quad C).Y * s * c + (quad C).Z * s * s) := by
  simp only [pA, pB, pC, pD, quad]
  constructor <;> ring

/-- The greatest value in the plane, and the value in the point with guarded phases. -/
theorem plane_spec (A B C D u x : ℝ) (hu : (A - D) * (A - D) + (C + B) * (C + B) = 4 * u) (hx : (A + D) * (A + D) + (C - B) * (C - B) = 4 * x) :
    (∀ X Y, plane A B C D X Y ≤ Real.sqrt u + Real.sqrt x) ∧
    (∃ X Y, plane A B C D X Y = Real.sqrt u + Real.sqrt x) ∧
    ∀ i j : ℤ, Real.sqrt u + Real.sqrt x - 2 / 10 ^ 8 ≤ plane A B C D ((guardedAtan2 (C + B) (A - D) + guardedAtan2 (C - B) (A + D)) / 2 + i * (2 * Real.pi))
      ((guardedAtan2 (C + B) (A - D) - guardedAtan2 (C - B) (A + D)) / 2 + j * (2 * Real.pi)) := by
  obtain ⟨P, P0, P1, P2, P3⟩ := atan2_polar (A - D) (C + B)
  obtain ⟨R, R0, R1, R2, R3⟩ := atan2_polar (A + D) (C - B)
  have hP : Real.sqrt u = P / 2 := by
    rw [show u = (P / 2) ^ 2 by linarith [P1, hu], Real.sqrt_sq (by linarith)]
  have hR : Real.sqrt x = R / 2 := by
    rw [show x = (R / 2) ^ 2 by linarith [R1, hx], Real.sqrt_sq (by linarith)]
  have hw : ∀ X Y, plane A B C D X Y = P / 2 * Real.cos (X + Y - atan2 (C + B) (A - D)) + R / 2 * Real.cos (X - Y - atan2 (C - B) (A + D)) := by
    intro X Y
    rw [Real.cos_sub (X + Y), Real.cos_sub (X - Y), Real.cos_add, Real.sin_add, Real.cos_sub X, Real.sin_sub X]
    unfold plane
    generalize atan2 (C + B) (A - D) = a at *
    generalize atan2 (C - B) (A + D) = b at *
    linear_combination (1 / 2) * (Real.cos X * Real.cos Y - Real.sin X * Real.sin Y) * P2 + (1 / 2) * (Real.sin X * Real.cos Y + Real.cos X * Real.sin Y) * P3 +
      (1 / 2) * (Real.cos X * Real.cos Y + Real.sin X * Real.sin Y) * R2 + (1 / 2) * (Real.sin X * Real.cos Y - Real.cos X * Real.sin Y) * R3
  refine ⟨fun X Y => ?_, ⟨(atan2 (C + B) (A - D) + atan2 (C - B) (A + D)) / 2, (atan2 (C + B) (A - D) - atan2 (C - B) (A + D)) / 2, ?_⟩, fun i j => ?_⟩
  · rw [hw, hP, hR]
    linarith [mul_cos_le (P := P / 2) (by linarith) (X + Y - atan2 (C + B) (A - D)), mul_cos_le (P := R / 2) (by linarith) (X - Y - atan2 (C - B) (A + D))]
  · rw [hw, hP, hR]
    rw [show (atan2 (C + B) (A - D) + atan2 (C - B) (A + D)) / 2 + (atan2 (C + B) (A - D) - atan2 (C - B) (A + D)) / 2 - atan2 (C + B) (A - D) = 0 by ring,
      show (atan2 (C + B) (A - D) + atan2 (C - B) (A + D)) / 2 - (atan2 (C + B) (A - D) - atan2 (C - B) (A + D)) / 2 - atan2 (C - B) (A + D) = 0 by ring, Real.cos_zero]
    ring
  · rw [hw, hP, hR]
    rw [show (guardedAtan2 (C + B) (A - D) + guardedAtan2 (C - B) (A + D)) / 2 + i * (2 * Real.pi) + ((guardedAtan2 (C + B) (A - D) - guardedAtan2 (C - B) (A + D)) / 2 + j * (2 * Real.pi)) -
        atan2 (C + B) (A - D) = guardedAtan2 (C + B) (A - D) - atan2 (C + B) (A - D) + ((i + j : ℤ) : ℝ) * (2 * Real.pi) by push_cast; ring,
      show (guardedAtan2 (C + B) (A - D) + guardedAtan2 (C - B) (A + D)) / 2 + i * (2 * Real.pi) - ((guardedAtan2 (C + B) (A - D) - guardedAtan2 (C - B) (A + D)) / 2 + j * (2 * Real.pi)) -
        atan2 (C - B) (A + D) = guardedAtan2 (C - B) (A + D) - atan2 (C - B) (A + D) + ((i - j : ℤ) : ℝ) * (2 * Real.pi) by push_cast; ring,
      Real.cos_add_int_mul_two_pi, Real.cos_add_int_mul_two_pi]
    have hPa : P / 2 - 1 / 10 ^ 8 ≤ P / 2 * Real.cos (guardedAtan2 (C + B) (A - D) - atan2 (C + B) (A - D)) := by
      by_cases h : (A - D) * (A - D) + (C + B) * (C + B) < epsilon2
      · have := eps_lt P0 (by rw [P1]; exact h)
        linarith [neg_le_mul_cos (P := P / 2) (by linarith) (guardedAtan2 (C + B) (A - D) - atan2 (C + B) (A - D))]
      · rw [guarded_eq h, sub_self, Real.cos_zero]
        have : (0 : ℝ) < 1 / 10 ^ 8 := by norm_num
        linarith
    have hRb : R / 2 - 1 / 10 ^ 8 ≤ R / 2 * Real.cos (guardedAtan2 (C - B) (A + D) - atan2 (C - B) (A + D)) := by
      by_cases h : (A + D) * (A + D) + (C - B) * (C - B) < epsilon2
      · have := eps_lt R0 (by rw [R1]; exact h)
        linarith [neg_le_mul_cos (P := R / 2) (by linarith) (guardedAtan2 (C - B) (A + D) - atan2 (C - B) (A + D))]
      · rw [guarded_eq h, sub_self, Real.cos_zero]
        have : (0 : ℝ) < 1 / 10 ^ 8 := by norm_num
        linarith
    linarith

theorem quad_nonneg (C : Coefs) (z : ℝ) : 0 ≤ qu (quad C) z ∧ 0 ≤ qx (quad C) z := by
  obtain ⟨h1, h2⟩ := sq_amp C (Real.cos z) (Real.sin z)
  constructor
  · unfold qu
    nlinarith [mul_self_nonneg (pA C (Real.cos z) (Real.sin z) - pD C (Real.cos z) (Real.sin z)), mul_self_nonneg (pC C (Real.cos z) (Real.sin z) + pB C (Real.cos z) (Real.sin z))]
  · unfold qx
    nlinarith [mul_self_nonneg (pA C (Real.cos z) (Real.sin z) + pD C (Real.cos z) (Real.sin z)), mul_self_nonneg (pC C (Real.cos z) (Real.sin z) - pB C (Real.cos z) (Real.sin z))]

/-- The greatest value for given `z`. -/
def top (C : Coefs) (z : ℝ) : ℝ := Real.sqrt (qu (quad C) z) + Real.sqrt (qx (quad C) z)

theorem waves_le_top (n : Vec3 Nat) (l : List (Vec3 ℝ × ℝ)) (s : Vec3 ℝ) : waves n l s ≤ top (cf n l) (ph n s 2) := by
  rw [waves_plane]
  exact (plane_spec _ _ _ _ _ _ (sq_amp (cf n l) _ _).1 (sq_amp (cf n l) _ _).2).1 _ _

theorem exists_phase {n : Vec3 Nat} (hn : ∀ a, n.get a ≠ 0) (X Y Z : ℝ) : ∃ s : Vec3 ℝ, ph n s 0 = X ∧ ph n s 1 = Y ∧ ph n s 2 = Z := by
  have hp := Real.pi_pos
  have h0 : (n.x : ℝ) ≠ 0 := by exact_mod_cast hn 0
  have h1 : (n.y : ℝ) ≠ 0 := by exact_mod_cast hn 1
  have h2 : (n.z : ℝ) ≠ 0 := by exact_mod_cast hn 2
  refine ⟨⟨X / (2 * Real.pi * n.x), Y / (2 * Real.pi * n.y), Z / (2 * Real.pi * n.z)⟩, ?_, ?_, ?_⟩
  · show 2 * Real.pi * (n.x : ℝ) * (X / (2 * Real.pi * n.x)) = X
    field_simp
  · show 2 * Real.pi * (n.y : ℝ) * (Y / (2 * Real.pi * n.y)) = Y
    field_simp
  · show 2 * Real.pi * (n.z : ℝ) * (Z / (2 * Real.pi * n.z)) = Z
    field_simp

theorem top_attained {n : Vec3 Nat} (hn : ∀ a, n.get a ≠ 0) (l : List (Vec3 ℝ × ℝ)) (z : ℝ) : ∃ s, waves n l s = top (cf n l) z := by
  obtain ⟨-, ⟨X, Y, h⟩, -⟩ := plane_spec _ _ _ _ _ _ (sq_amp (cf n l) (Real.cos z) (Real.sin z)).1 (sq_amp (cf n l) (Real.cos z) (Real.sin z)).2
  obtain ⟨s, h0, h1, h2⟩ := exists_phase hn X Y z
  refine ⟨s, ?_⟩
  rw [waves_plane, h0, h1, h2]
  exact h

/-- Half of the derivative. -/
def du (U V W z : ℝ) : ℝ := V * (Real.cos z ^ 2 - Real.sin z ^ 2) + (W - U) * (Real.sin z * Real.cos z)

theorem hasDeriv_quad (U V W z : ℝ) : HasDerivAt (fun z => U * Real.cos z * Real.cos z + 2 * V * Real.sin z * Real.cos z + W * Real.sin z * Real.sin z) (2 * du U V W z) z := by
  have hc := Real.hasDerivAt_cos z
  have hs := Real.hasDerivAt_sin z
  have h1 := ((hc.const_mul U).mul hc).add (((hs.const_mul (2 * V)).mul hc).add ((hs.const_mul W).mul hs))
  refine (h1.congr_deriv ?_).congr_of_eventuallyEq (Filter.Eventually.of_forall fun x => ?_)
  · unfold du; ring
  · simp; ring

/-- The condition for the greatest amplitude, without square roots. -/
theorem stationary {f g : ℝ → ℝ} {f' g' z : ℝ} (hf : HasDerivAt f f' z) (hg : HasDerivAt g g' z) (f0 : ∀ x, 0 ≤ f x) (g0 : ∀ x, 0 ≤ g x)
    (hmax : ∀ x, Real.sqrt (f x) + Real.sqrt (g x) ≤ Real.sqrt (f z) + Real.sqrt (g z)) : f' ^ 2 * g z = g' ^ 2 * f z := by
  have zero : ∀ {h : ℝ → ℝ} {h' : ℝ}, HasDerivAt h h' z → (∀ x, 0 ≤ h x) → h z = 0 → h' = 0 := by
    intro h h' hd h0 hz
    refine IsLocalMin.hasDerivAt_eq_zero ?_ hd
    refine Filter.Eventually.of_forall fun x => ?_
    rw [hz]
    exact h0 x
  rcases (f0 z).eq_or_lt with hz | hz
  · rw [zero hf f0 hz.symm, ← hz]; ring
  rcases (g0 z).eq_or_lt with hz' | hz'
  · rw [zero hg g0 hz'.symm, ← hz']; ring
  have hd := (hf.sqrt hz.ne').add (hg.sqrt hz'.ne')
  have h0 : f' / (2 * Real.sqrt (f z)) + g' / (2 * Real.sqrt (g z)) = 0 := by
    refine IsLocalMax.hasDerivAt_eq_zero ?_ hd
    exact Filter.Eventually.of_forall hmax
  have s1 := Real.sqrt_pos.mpr hz
  have s2 := Real.sqrt_pos.mpr hz'
  have e : f' * Real.sqrt (g z) = -(g' * Real.sqrt (f z)) := by
    field_simp at h0
    linarith
  have e2 : (f' * Real.sqrt (g z)) ^ 2 = (g' * Real.sqrt (f z)) ^ 2 := by rw [e]; ring
  rw [mul_pow, mul_pow, Real.sq_sqrt hz.le, Real.sq_sqrt hz'.le] at e2
  exact e2

/-- The polynomial, as it is derived. -/
theorem poly_eq (q : Quad) (t : ℝ) : polyValue (tanZ q).reverse t =
    (q.V * (1 - t ^ 2) + (q.W - q.U) * t) ^ 2 * (q.X + 2 * q.Y * t + q.Z * t ^ 2) - (q.Y * (1 - t ^ 2) + (q.Z - q.X) * t) ^ 2 * (q.U + 2 * q.V * t + q.W * t ^ 2) := by
  simp only [polyValue, tanZ, List.reverse_cons, List.reverse_nil, List.nil_append, List.cons_append, List.foldl_cons, List.foldl_nil]
  ring

theorem peak_root {n : Vec3 Nat} (hn : ∀ a, n.get a ≠ 0) {l : List (Vec3 ℝ × ℝ)} {p : Vec3 ℝ} (hp : Peak n l p) (hc : Real.cos (ph n p 2) ≠ 0) :
    polyValue (tanZ (quad (cf n l))).reverse (Real.tan (ph n p 2)) = 0 := by
  set z := ph n p 2 with hz
  set q := quad (cf n l) with hq
  have hmax : ∀ x, Real.sqrt (qu q x) + Real.sqrt (qx q x) ≤ Real.sqrt (qu q z) + Real.sqrt (qx q z) := by
    intro x
    obtain ⟨s, hs⟩ := top_attained hn l x
    have h1 := hp s
    have h2 := waves_le_top n l p
    rw [hs] at h1
    exact h1.trans h2
  have hst := stationary (hasDeriv_quad q.U q.V q.W z) (hasDeriv_quad q.X q.Y q.Z z) (fun x => (quad_nonneg (cf n l) x).1) (fun x => (quad_nonneg (cf n l) x).2) hmax
  rw [poly_eq]
  rw [Real.tan_eq_sin_div_cos]
  set c := Real.cos z with hcz
  set s := Real.sin z with hsz
  unfold du at hst
  rw [← hcz, ← hsz] at hst
  have e : (c ^ 6) * ((q.V * (1 - (s / c) ^ 2) + (q.W - q.U) * (s / c)) ^ 2 * (q.X + 2 * q.Y * (s / c) + q.Z * (s / c) ^ 2) -
      (q.Y * (1 - (s / c) ^ 2) + (q.Z - q.X) * (s / c)) ^ 2 * (q.U + 2 * q.V * (s / c) + q.W * (s / c) ^ 2)) =
      (q.V * (c ^ 2 - s ^ 2) + (q.W - q.U) * (s * c)) ^ 2 * (q.X * c * c + 2 * q.Y * s * c + q.Z * s * s) -
      (q.Y * (c ^ 2 - s ^ 2) + (q.Z - q.X) * (s * c)) ^ 2 * (q.U * c * c + 2 * q.V * s * c + q.W * s * s) := by
    field_simp
  have h6 : c ^ 6 ≠ 0 := pow_ne_zero _ hc
  refine mul_left_cancel₀ h6 ?_
  rw [e, mul_zero]
  linarith

/-- What the loop over roots gives. -/
theorem fold_roots (q : Quad) (roots : List ℝ) : ∀ (b : ℝ × ℝ × ℝ),
    let r := roots.foldl (tryRoot q) b
    (r = b ∨ ∃ t ∈ roots, r = (t / Real.sqrt (1 + t * t), 1 / Real.sqrt (1 + t * t), amplitude q (1 / Real.sqrt (1 + t * t)) (t / Real.sqrt (1 + t * t)))) ∧
    b.2.2 ≤ r.2.2 ∧ ∀ t ∈ roots, amplitude q (1 / Real.sqrt (1 + t * t)) (t / Real.sqrt (1 + t * t)) ≤ r.2.2 := by
  induction roots with
  | nil => intro b; simp
  | cons x roots ih =>
    intro b
    simp only [List.foldl_cons]
    rw [show tryRoot q b x = if amplitude q (1 / Real.sqrt (1 + x * x)) (x / Real.sqrt (1 + x * x)) > b.2.2 then
      (x / Real.sqrt (1 + x * x), 1 / Real.sqrt (1 + x * x), amplitude q (1 / Real.sqrt (1 + x * x)) (x / Real.sqrt (1 + x * x))) else b from rfl]
    by_cases h : amplitude q (1 / Real.sqrt (1 + x * x)) (x / Real.sqrt (1 + x * x)) > b.2.2
    · rw [if_pos h]
      obtain ⟨h1, h2, h3⟩ := ih (x / Real.sqrt (1 + x * x), 1 / Real.sqrt (1 + x * x), amplitude q (1 / Real.sqrt (1 + x * x)) (x / Real.sqrt (1 + x * x)))
      refine ⟨Or.inr ?_, h.le.trans h2, ?_⟩
      · rcases h1 with h1 | ⟨t, ht, h1⟩
        · exact ⟨x, List.mem_cons_self .., h1⟩
        · exact ⟨t, List.mem_cons_of_mem _ ht, h1⟩
      · intro t ht
        rcases List.mem_cons.mp ht with rfl | ht
        · exact h2
        · exact h3 t ht
    · rw [if_neg h]
      obtain ⟨h1, h2, h3⟩ := ih b
      refine ⟨?_, h2, ?_⟩
      · rcases h1 with h1 | ⟨t, ht, h1⟩
        · exact Or.inl h1
        · exact Or.inr ⟨t, List.mem_cons_of_mem _ ht, h1⟩
      · intro t ht
        rcases List.mem_cons.mp ht with rfl | ht
        · exact (not_lt.mp h).trans h2
        · exact h3 t ht

theorem amplitude_tan (q : Quad) {z : ℝ} (hc : Real.cos z ≠ 0) :
    amplitude q (1 / Real.sqrt (1 + Real.tan z * Real.tan z)) (Real.tan z / Real.sqrt (1 + Real.tan z * Real.tan z)) = amplitude q (Real.cos z) (Real.sin z) := by
  have key : ∀ w, 0 < Real.cos w → 1 / Real.sqrt (1 + Real.tan w * Real.tan w) = Real.cos w ∧ Real.tan w / Real.sqrt (1 + Real.tan w * Real.tan w) = Real.sin w := by
    intro w hw
    rw [← pow_two]
    exact ⟨by rw [one_div]; exact Real.inv_sqrt_one_add_tan_sq hw, Real.tan_div_sqrt_one_add_tan_sq hw⟩
  rcases lt_or_gt_of_ne hc with h | h
  · obtain ⟨h1, h2⟩ := key (z + Real.pi) (by rw [Real.cos_add_pi]; linarith)
    rw [Real.tan_add_pi] at h1 h2
    rw [h1, h2, Real.cos_add_pi, Real.sin_add_pi]
    unfold amplitude
    congr 2 <;> ring
  · obtain ⟨h1, h2⟩ := key z h
    rw [h1, h2]

theorem unit_phase {c s : ℝ} (h : c * c + s * s = 1) : Real.cos (guardedAtan2 s c) = c ∧ Real.sin (guardedAtan2 s c) = s := by
  rw [guarded_eq (by rw [h]; norm_num [epsilon2])]
  obtain ⟨r, h0, h1, h2, h3⟩ := atan2_polar c s
  have : r = 1 := by nlinarith
  rw [this, one_mul] at h2 h3
  exact ⟨h2.symm, h3.symm⟩

/-- The waves change the sign after half of the period. -/
theorem waves_odd {n : Vec3 Nat} (hn : n.x ≠ 0) (l : List (Vec3 ℝ × ℝ)) (s : Vec3 ℝ) : waves n l (s + ⟨1 / (2 * n.x), 0, 0⟩) = -waves n l s := by
  unfold waves
  rw [eq_neg_iff_add_eq_zero, ← List.sum_map_add]
  refine List.sum_eq_zero fun x hx => ?_
  obtain ⟨q, -, rfl⟩ := List.mem_map.mp hx
  have h := half_cos n.x 1 (fun h => absurd h hn) s.x q.1.x
  unfold half at h
  rw [if_pos (Nat.pos_of_ne_zero hn)] at h
  simp only [Vec3.add_x, Vec3.add_y, Vec3.add_z, add_zero]
  rw [show (1 : ℝ) / (2 * n.x) = ((1 : ℤ) : ℝ) / (2 * n.x) by push_cast; rfl, h]
  simp

theorem idxs_three {n : Vec3 Nat} (h : ∀ a, n.get a ≠ 0) : nonzeroIdxs n = [0, 1, 2] := by
  unfold nonzeroIdxs
  rw [List.filter_eq_self]
  intro a _
  simpa using Nat.pos_of_ne_zero (h a)

theorem small_top {C : Coefs} {z : ℝ} (h : C 0 0 0 * C 0 0 0 + C 0 0 1 * C 0 0 1 + C 0 1 0 * C 0 1 0 + C 0 1 1 * C 0 1 1 + C 1 0 0 * C 1 0 0 + C 1 0 1 * C 1 0 1 + C 1 1 0 * C 1 1 0 + C 1 1 1 * C 1 1 1 < epsilon2) :
    top C z ≤ 1 / 10 ^ 8 := by
  obtain ⟨h1, h2⟩ := quad_nonneg C z
  have hs : qu (quad C) z + qx (quad C) z ≤ epsilon2 / 2 := by
    have hcs := Real.sin_sq_add_cos_sq z
    have key : ∀ a b : ℝ, (a * Real.cos z + b * Real.sin z) * (a * Real.cos z + b * Real.sin z) ≤ a * a + b * b := by
      intro a b
      nlinarith [sq_nonneg (a * Real.sin z - b * Real.cos z)]
    have e : qu (quad C) z + qx (quad C) z = ((C 0 0 0 * Real.cos z + C 0 0 1 * Real.sin z) * (C 0 0 0 * Real.cos z + C 0 0 1 * Real.sin z) +
        (C 1 1 0 * Real.cos z + C 1 1 1 * Real.sin z) * (C 1 1 0 * Real.cos z + C 1 1 1 * Real.sin z) +
        (C 0 1 0 * Real.cos z + C 0 1 1 * Real.sin z) * (C 0 1 0 * Real.cos z + C 0 1 1 * Real.sin z) +
        (C 1 0 0 * Real.cos z + C 1 0 1 * Real.sin z) * (C 1 0 0 * Real.cos z + C 1 0 1 * Real.sin z)) / 2 := by
      simp only [qu, qx, quad]; ring
    rw [e]
    have := key (C 0 0 0) (C 0 0 1)
    have := key (C 1 1 0) (C 1 1 1)
    have := key (C 0 1 0) (C 0 1 1)
    have := key (C 1 0 0) (C 1 0 1)
    linarith
  unfold top
  have a0 := Real.sqrt_nonneg (qu (quad C) z)
  have b0 := Real.sqrt_nonneg (qx (quad C) z)
  have a1 := Real.mul_self_sqrt h1
  have b1 := Real.mul_self_sqrt h2
  unfold epsilon2 at hs
  by_contra hc
  push Not at hc
  nlinarith [sq_nonneg (Real.sqrt (qu (quad C) z) - Real.sqrt (qx (quad C) z))]

end Fourier

/-- **C99** (three dimensions, partial) When the polynomial which is solved is not zero and there is a maximum away from quarters of the period along z, the point which is found is not further
from the maximum than twice the threshold of amplitudes. Missing: maxima only in quarters of the period along z, where the claim is false (`C99_space_violated`), and polynomials which are zero, for
which the solver has nothing to find. -/
theorem C99_space_partial {solve : List ℝ → List ℝ} (hsolve : Solver solve) {f : Shape → Outcome ℝ} {T : FourierTracker} {V : View} {l : List (Vec3 ℝ × ℝ)} (hb : V.box.WF) (hl : Sampled f V l)
    (hn : ∀ a, T.wavenumbers.get a ≠ 0) {C : Coefs} (hC : coefficients T.wavenumbers f V = .ok C) (hz : ∃ a ∈ tanZ (quad C), a ≠ 0)
    {p : Vec3 ℝ} (hp : Peak T.wavenumbers l p) (hc : Real.cos (2 * Real.pi * T.wavenumbers.z * p.z) ≠ 0) :
    ∃ T', calculateOrigin solve f T V = .ok T' ∧ T'.wavenumbers = T.wavenumbers ∧ T'.origin = combo V.box T'.previous ∧
      ∀ s, waves T.wavenumbers l s ≤ waves T.wavenumbers l T'.previous + 2 / 10 ^ 8 := by
  set n := T.wavenumbers with hnn
  have hCc : C = cf n l := by
    rw [coefficients_ok hb hl] at hC
    exact (Outcome.ok_inj.mp hC).symm
  subst hCc
  have hrel : relativeOrigin solve n (cf n l) = .ok (relative3D solve n (cf n l)) := by
    unfold relativeOrigin
    rw [idxs_three hn]
  have hax : OnAxes n (relative3D solve n (cf n l)) := fun a ha => absurd ha (hn a)
  refine ⟨_, calculate_of hb hl hrel, rfl, Box.relToAbs_eq_combo _ _, fun s => ?_⟩
  rw [normalize_waves hax]
  have hsp := hp s
  refine hsp.trans ?_
  have hle : ∀ s, waves n l s ≤ waves n l p := hp
  set C := cf n l with hCdef
  by_cases hs : C 0 0 0 * C 0 0 0 + C 0 0 1 * C 0 0 1 + C 0 1 0 * C 0 1 0 + C 0 1 1 * C 0 1 1 + C 1 0 0 * C 1 0 0 + C 1 0 1 * C 1 0 1 + C 1 1 0 * C 1 1 0 + C 1 1 1 * C 1 1 1 < epsilon2
  · have h1 := (waves_le_top n l p).trans (small_top hs)
    have h2 := (waves_le_top n l (relative3D solve n C + ⟨1 / (2 * n.x), 0, 0⟩)).trans (small_top hs)
    rw [waves_odd (hn 0)] at h2
    linarith
  · have hroot : Real.tan (ph n p 2) ∈ solve (tanZ (quad C)).reverse := by
      rw [hsolve _ (by obtain ⟨a, ha, h0⟩ := hz; exact ⟨a, List.mem_reverse.mpr ha, h0⟩)]
      exact peak_root hn hp hc
    obtain ⟨f1, -, f3⟩ := fold_roots (quad C) (solve (tanZ (quad C)).reverse) (0, 0, 0)
    have hbest := f3 _ hroot
    rw [amplitude_tan (z := ph n p 2) (quad C) hc] at hbest
    have htop : waves n l p ≤ ((solve (tanZ (quad C)).reverse).foldl (tryRoot (quad C)) (0, 0, 0)).2.2 := (waves_le_top n l p).trans hbest
    rcases f1 with f1 | ⟨t, -, f1⟩
    · rw [f1] at htop
      have h2 := hle (relative3D solve n C + ⟨1 / (2 * n.x), 0, 0⟩)
      rw [waves_odd (hn 0)] at h2
      have : (0 : ℝ) < 2 / 10 ^ 8 := by norm_num
      simp only at htop
      linarith
    · rw [f1] at htop
      have ht : 0 < 1 + t * t := by nlinarith [mul_self_nonneg t]
      have hunit : 1 / Real.sqrt (1 + t * t) * (1 / Real.sqrt (1 + t * t)) + t / Real.sqrt (1 + t * t) * (t / Real.sqrt (1 + t * t)) = 1 := by
        have h1 := Real.mul_self_sqrt ht.le
        rw [div_mul_div_comm, div_mul_div_comm, h1, one_mul, ← add_div, div_self ht.ne']
      obtain ⟨u1, u2⟩ := unit_phase hunit
      have hb1 : bestSinCos (quad C) (solve (tanZ (quad C)).reverse) = (t / Real.sqrt (1 + t * t), 1 / Real.sqrt (1 + t * t)) := by
        unfold bestSinCos
        simp only
        rw [f1]
      generalize hcz : 1 / Real.sqrt (1 + t * t) = cz at *
      generalize hsz : t / Real.sqrt (1 + t * t) = sz at *
      have g1 := guarded_mem (pC C cz sz + pB C cz sz) (pA C cz sz - pD C cz sz)
      have g2 := guarded_mem (pC C cz sz - pB C cz sz) (pA C cz sz + pD C cz sz)
      have hpi := Real.pi_pos
      obtain ⟨i, hi⟩ := phasePos_spec (Nat.pos_of_ne_zero (hn 0))
        (phase := (guardedAtan2 (pC C cz sz + pB C cz sz) (pA C cz sz - pD C cz sz) + guardedAtan2 (pC C cz sz - pB C cz sz) (pA C cz sz + pD C cz sz)) / 2) ⟨by linarith, by linarith⟩
      obtain ⟨j, hj⟩ := phasePos_spec (Nat.pos_of_ne_zero (hn 1))
        (phase := (guardedAtan2 (pC C cz sz + pB C cz sz) (pA C cz sz - pD C cz sz) - guardedAtan2 (pC C cz sz - pB C cz sz) (pA C cz sz + pD C cz sz)) / 2) ⟨by linarith, by linarith⟩
      obtain ⟨k, hk⟩ := phasePos_spec (Nat.pos_of_ne_zero (hn 2)) (guarded_mem sz cz)
      have hr : relative3D solve n C = ⟨phasePos ((guardedAtan2 (pC C cz sz + pB C cz sz) (pA C cz sz - pD C cz sz) + guardedAtan2 (pC C cz sz - pB C cz sz) (pA C cz sz + pD C cz sz)) / 2) n.x,
          phasePos ((guardedAtan2 (pC C cz sz + pB C cz sz) (pA C cz sz - pD C cz sz) - guardedAtan2 (pC C cz sz - pB C cz sz) (pA C cz sz + pD C cz sz)) / 2) n.y,
          phasePos (guardedAtan2 sz cz) n.z⟩ := by
        unfold relative3D
        rw [if_neg hs]
        simp only [hb1]
        rfl
      have hspec := (plane_spec _ _ _ _ _ _ (sq_amp C cz sz).1 (sq_amp C cz sz).2).2.2 i j
      rw [waves_plane n l (relative3D solve n C), ← hCdef, hr]
      have e0 : ∀ X Y Z, ph n ⟨X, Y, Z⟩ 0 = 2 * Real.pi * n.x * X := fun _ _ _ => rfl
      have e1 : ∀ X Y Z, ph n ⟨X, Y, Z⟩ 1 = 2 * Real.pi * n.y * Y := fun _ _ _ => rfl
      have e2 : ∀ X Y Z, ph n ⟨X, Y, Z⟩ 2 = 2 * Real.pi * n.z * Z := fun _ _ _ => rfl
      simp only [Vec3.get_zero, Vec3.get_one, Vec3.get_two] at hi hj hk
      rw [e0, e1, e2, hi, hj, hk, Real.cos_add_int_mul_two_pi, Real.sin_add_int_mul_two_pi, u1, u2]
      have hamp : amplitude (quad C) cz sz = Real.sqrt ((quad C).U * cz * cz + 2 * (quad C).V * sz * cz + (quad C).W * sz * sz) +
        Real.sqrt ((quad C).X * cz * cz + 2 * (quad C).Y * sz * cz + (quad C).Z * sz * sz) := rfl
      simp only [hamp] at htop
      linarith

namespace Fourier

theorem quarter : Real.cos (2 * Real.pi * ((1 : Nat) : ℝ) * (1 / 4)) = 0 ∧ Real.sin (2 * Real.pi * ((1 : Nat) : ℝ) * (1 / 4)) = 1 := by
  rw [show 2 * Real.pi * ((1 : Nat) : ℝ) * (1 / 4) = Real.pi / 2 by push_cast; ring]
  exact ⟨Real.cos_pi_div_two, Real.sin_pi_div_two⟩

theorem two_quarters : Real.cos (2 * Real.pi * ((1 : Nat) : ℝ) * (1 / 2)) = -1 ∧ Real.sin (2 * Real.pi * ((1 : Nat) : ℝ) * (1 / 2)) = 0 := by
  rw [show 2 * Real.pi * ((1 : Nat) : ℝ) * (1 / 2) = Real.pi by push_cast; ring]
  exact ⟨Real.cos_pi, Real.sin_pi⟩

theorem three_quarters : Real.cos (2 * Real.pi * ((1 : Nat) : ℝ) * (3 / 4)) = 0 ∧ Real.sin (2 * Real.pi * ((1 : Nat) : ℝ) * (3 / 4)) = -1 := by
  rw [show 2 * Real.pi * ((1 : Nat) : ℝ) * (3 / 4) = Real.pi / 2 + Real.pi by push_cast; ring, Real.cos_add_pi, Real.sin_add_pi, Real.cos_pi_div_two, Real.sin_pi_div_two]
  simp

/-- Three particles; `z` of the maxima is `z` of the first one. -/
def trio (z : ℝ) : List (Vec3 ℝ × ℝ) := [(⟨0, 1 / 4, z⟩, 1), (⟨0, 3 / 4, z + 1 / 2⟩, 1), (⟨1 / 4, 0, z⟩, 1)]

def trioView (z : ℝ) : View := ⟨⟨1, 1⟩, [⟨⟨0, 1 / 4, z⟩, 1⟩, ⟨⟨0, 3 / 4, z + 1 / 2⟩, 1⟩, ⟨⟨1 / 4, 0, z⟩, 1⟩]⟩

theorem trio_sampled (z : ℝ) : Sampled (fun _ => .ok 1) (trioView z) (trio z) := by
  have e : ∀ p : Vec3 ℝ, p = combo ⟨1, 1⟩ p := fun p => by rw [← Box.relToAbs_eq_combo]; exact (unit_relToAbs p).symm
  exact .cons ⟨e _, rfl⟩ (.cons ⟨e _, rfl⟩ (.cons ⟨e _, rfl⟩ .nil))

theorem trio_waves (z : ℝ) (s : Vec3 ℝ) : waves ⟨1, 1, 1⟩ (trio z) s =
    (2 * Real.cos (2 * Real.pi * s.x) * Real.sin (2 * Real.pi * s.y) + Real.sin (2 * Real.pi * s.x) * Real.cos (2 * Real.pi * s.y)) * Real.cos (2 * Real.pi * (s.z - z)) := by
  have e1 : ∀ x : ℝ, Real.cos (2 * Real.pi * (x - 1 / 4)) = Real.sin (2 * Real.pi * x) := fun x => by
    rw [show 2 * Real.pi * (x - 1 / 4) = 2 * Real.pi * x - Real.pi / 2 by ring, Real.cos_sub_pi_div_two]
  have e2 : ∀ x : ℝ, Real.cos (2 * Real.pi * (x - 3 / 4)) = -Real.sin (2 * Real.pi * x) := fun x => by
    rw [show 2 * Real.pi * (x - 3 / 4) = 2 * Real.pi * x - Real.pi / 2 - Real.pi by ring, Real.cos_sub_pi, Real.cos_sub_pi_div_two]
  have e3 : Real.cos (2 * Real.pi * (s.z - (z + 1 / 2))) = -Real.cos (2 * Real.pi * (s.z - z)) := by
    rw [show 2 * Real.pi * (s.z - (z + 1 / 2)) = 2 * Real.pi * (s.z - z) - Real.pi by ring, Real.cos_sub_pi]
  simp only [waves, trio, List.map_cons, List.map_nil, List.sum_cons, List.sum_nil, Nat.cast_one, mul_one, sub_zero]
  rw [e1, e2, e1, e3]
  ring

/-- Polynomials have finitely many roots, so that a solver exists. -/
theorem exists_solver : ∃ solve, Solver solve := by
  classical
  let P : List ℝ → Polynomial ℝ := fun c => c.foldl (fun v a => v * Polynomial.X + Polynomial.C a) 0
  have hev : ∀ (c : List ℝ) (x : ℝ), (P c).eval x = polyValue c x := by
    intro c x
    induction c using List.reverseRecOn with
    | nil => simp [P, polyValue]
    | append_singleton c a ih =>
      simp only [P, polyValue, List.foldl_append, List.foldl_cons, List.foldl_nil] at ih ⊢
      simp [ih]
  have hne : ∀ c : List ℝ, P c = 0 → ∀ a ∈ c, a = 0 := by
    intro c
    induction c using List.reverseRecOn with
    | nil => simp
    | append_singleton c a ih =>
      intro h
      simp only [P, List.foldl_append, List.foldl_cons, List.foldl_nil] at h
      have h0 : a = 0 := by
        have := congrArg (fun p : Polynomial ℝ => p.coeff 0) h
        simpa using this
      rw [h0, Polynomial.C_0, add_zero] at h
      have h1 : P c = 0 := by
        rcases mul_eq_zero.mp h with h | h
        · exact h
        · exact absurd h Polynomial.X_ne_zero
      intro b hb
      rcases List.mem_append.mp hb with hb | hb
      · exact ih h1 b hb
      · simpa [h0] using hb
  refine ⟨fun c => (P c).roots.toList, fun c ⟨a, ha, h0⟩ x => ?_⟩
  have hP : P c ≠ 0 := fun h => h0 (hne c h a ha)
  rw [Multiset.mem_toList, Polynomial.mem_roots hP, Polynomial.IsRoot.def, hev]

theorem stuck {q : Quad} (hU : q.U = 0) (hX : q.X = 0) : ∀ (L : List ℝ), (∀ t ∈ L, t = 0) → L.foldl (tryRoot q) (0, 0, 0) = (0, 0, 0) := by
  intro L
  induction L with
  | nil => intro _; rfl
  | cons t L ih =>
    intro h
    rw [List.foldl_cons, h t (List.mem_cons_self ..)]
    have : tryRoot q (0, 0, 0) 0 = (0, 0, 0) := by
      unfold tryRoot amplitude
      simp [hU, hX]
    rw [this]
    exact ih fun t ht => h t (List.mem_cons_of_mem _ ht)

end Fourier

/-- Non-vacuity: particles with a maximum in the plane `z = 0`. -/
example : (∃ solve, Solver solve) ∧ Sampled (fun _ => .ok 1) (trioView 0) (trio 0) ∧ (∃ C, coefficients ⟨1, 1, 1⟩ (fun _ => .ok 1) (trioView 0) = .ok C ∧ ∃ a ∈ tanZ (quad C), a ≠ 0) ∧
    Peak ⟨1, 1, 1⟩ (trio 0) ⟨0, 1 / 4, 0⟩ ∧ Real.cos (2 * Real.pi * ((1 : Nat) : ℝ) * 0) ≠ 0 := by
  refine ⟨exists_solver, trio_sampled 0, ⟨_, coefficients_ok unitBox_wf (trio_sampled 0), 9 / 8, ?_, by norm_num⟩, fun s => ?_, by simp⟩
  · simp only [tanZ, quad, cf, trio, List.map_cons, List.map_nil, List.sum_cons, List.sum_nil, tr_zero, tr_one, quarter.1, quarter.2, three_quarters.1, three_quarters.2, mul_zero, zero_add,
      Real.cos_zero, Real.sin_zero, two_quarters.1, two_quarters.2]
    norm_num
  · rw [trio_waves, trio_waves]
    rw [show 2 * Real.pi * (⟨0, 1 / 4, 0⟩ : Vec3 ℝ).y = Real.pi / 2 by show 2 * Real.pi * (1 / 4) = _; ring]
    simp only [mul_zero, Real.cos_zero, Real.sin_pi_div_two, Real.sin_zero, sub_zero]
    generalize 2 * Real.pi * s.x = x
    generalize 2 * Real.pi * s.y = y
    generalize 2 * Real.pi * s.z = z
    have h1 := Real.sin_sq_add_cos_sq x
    have h2 := Real.sin_sq_add_cos_sq y
    have hb : (2 * Real.cos x * Real.sin y + Real.sin x * Real.cos y) ^ 2 ≤ 4 := by
      nlinarith [sq_nonneg (2 * Real.cos x * Real.cos y - Real.sin x * Real.sin y), sq_nonneg (Real.sin x)]
    have hz := abs_le.mp (Real.abs_cos_le_one z)
    have hv := abs_le_of_sq_le_sq (a := 2 * Real.cos x * Real.sin y + Real.sin x * Real.cos y) (b := 2) (by linarith) (by norm_num)
    have := abs_mul (2 * Real.cos x * Real.sin y + Real.sin x * Real.cos y) (Real.cos z)
    have h3 : |2 * Real.cos x * Real.sin y + Real.sin x * Real.cos y| * |Real.cos z| ≤ 2 * 1 := mul_le_mul hv (Real.abs_cos_le_one z) (abs_nonneg _) (by norm_num)
    have h4 := le_abs_self ((2 * Real.cos x * Real.sin y + Real.sin x * Real.cos y) * Real.cos z)
    linarith

/-- **C99 fails in three dimensions**: when maxima are in quarters of the period along z, the tangent of the phase is infinite and the polynomial has no such root. For three particles the tracker then
reports the point 0, where the wave is 0, although its maximum is 2. -/
theorem C99_space_violated {solve : List ℝ → List ℝ} (hsolve : Solver solve) :
    ∃ (V : View) (l : List (Vec3 ℝ × ℝ)) (T T' : FourierTracker), Fourier.create ⟨1, 1, 1⟩ (.const 1) = .ok T ∧ V.box.WF ∧ Sampled (fun _ => .ok 1) V l ∧
      calculateOrigin solve (fun _ => .ok 1) T V = .ok T' ∧ T'.previous = 0 ∧ waves ⟨1, 1, 1⟩ l T'.previous = 0 ∧ waves ⟨1, 1, 1⟩ l ⟨0, 1 / 4, 1 / 4⟩ = 2 := by
  have hC : ∀ C, C = cf ⟨1, 1, 1⟩ (trio (1 / 4)) → C 0 0 0 = 0 ∧ C 0 0 1 = 0 ∧ C 0 1 0 = 0 ∧ C 0 1 1 = 2 ∧ C 1 0 0 = 0 ∧ C 1 0 1 = 1 ∧ C 1 1 0 = 0 ∧ C 1 1 1 = 0 := by
    rintro C rfl
    have e : (1 : ℝ) / 4 + 1 / 2 = 3 / 4 := by norm_num
    simp only [cf, trio, e, List.map_cons, List.map_nil, List.sum_cons, List.sum_nil, tr_zero, tr_one, quarter.1, quarter.2, three_quarters.1, three_quarters.2, mul_zero,
      Real.cos_zero, Real.sin_zero]
    norm_num
  obtain ⟨c1, c2, c3, c4, c5, c6, c7, c8⟩ := hC _ rfl
  have hq : quad (cf ⟨1, 1, 1⟩ (trio (1 / 4))) = ⟨0, 0, 9 / 4, 0, 0, 1 / 4⟩ := by
    unfold quad
    simp only [c1, c2, c3, c4, c5, c6, c7, c8]
    norm_num
  have htan : tanZ ⟨0, 0, 9 / 4, 0, 0, 1 / 4⟩ = [0, 0, 0, 0, 9 / 8, 0, 0] := by
    unfold tanZ
    norm_num
  have hroots : ∀ t ∈ solve [0, 0, 0, 0, 9 / 8, 0, 0].reverse, t = 0 := by
    intro t ht
    rw [hsolve _ ⟨9 / 8, by simp, by norm_num⟩] at ht
    simp [polyValue] at ht
    exact ht
  have hrel : relative3D solve ⟨1, 1, 1⟩ (cf ⟨1, 1, 1⟩ (trio (1 / 4))) = 0 := by
    unfold relative3D
    rw [if_neg (by rw [c1, c2, c3, c4, c5, c6, c7, c8]; norm_num [epsilon2])]
    have hbest : bestSinCos (quad (cf ⟨1, 1, 1⟩ (trio (1 / 4)))) (solve (tanZ (quad (cf ⟨1, 1, 1⟩ (trio (1 / 4))))).reverse) = (0, 0) := by
      rw [hq, htan]
      unfold bestSinCos
      rw [stuck rfl rfl _ hroots]
    have hg : guardedAtan2 0 0 = 0 := by
      unfold guardedAtan2
      rw [if_pos (by norm_num [epsilon2])]
    have hph : phasePos 0 1 = 0 := by
      unfold phasePos fmod1
      norm_num
    simp only [hbest, mul_zero, add_zero, sub_zero, hg, zero_div, hph]
    rfl
  have hro : relativeOrigin solve ⟨1, 1, 1⟩ (cf ⟨1, 1, 1⟩ (trio (1 / 4))) = .ok 0 := by
    unfold relativeOrigin
    rw [idxs_three (by intro a; fin_cases a <;> decide)]
    exact congrArg Outcome.ok hrel
  have hnorm : normalizeOrigin ⟨1, 1, 1⟩ 0 0 = 0 := by
    obtain ⟨h1, h2, h3, -⟩ := argmin_fold 0 ((candidates ⟨1, 1, 1⟩).map (next ⟨1, 1, 1⟩ 0)) 0
    have hz : PBC.getDistance2 ⟨1, 1⟩ 0 0 = 0 := by
      have h := unit_distance_le 0 0 ⟨0, 0, 0⟩
      rw [unit_distance] at h ⊢
      have e : dist2 (0 : Vec3 ℝ) (0 + (⟨((0 : ℤ) : ℝ), ((0 : ℤ) : ℝ), ((0 : ℤ) : ℝ)⟩ : Vec3 ℝ)) = 0 := by simp [dist2]
      have h' := h.trans e.le
      refine le_antisymm h' (by positivity)
    have hfix : ∀ L : List (Vec3 ℝ), L.foldl (tryNext 0) (0, 0) = (0, 0) := by
      intro L
      induction L with
      | nil => rfl
      | cons p L ih =>
        rw [List.foldl_cons]
        have : tryNext 0 (0, 0) p = (0, 0) := by
          unfold tryNext
          rw [if_neg]
          rw [unit_distance]
          exact not_lt.mpr (by positivity)
        rw [this]
        exact ih
    unfold normalizeOrigin
    rw [hz, hfix]
  have hs := trio_sampled (1 / 4)
  have hcalc := calculate_of (solve := solve) (T := ⟨⟨1, 1, 1⟩, 0, 0⟩) unitBox_wf hs hro
  refine ⟨trioView (1 / 4), trio (1 / 4), ⟨⟨1, 1, 1⟩, 0, 0⟩, _, ?_, unitBox_wf, hs, hcalc, hnorm, ?_, ?_⟩
  · obtain ⟨T, hT⟩ := (C99_create ⟨1, 1, 1⟩ (.const 1)).1.mpr ⟨⟨0, by simp⟩, rfl⟩
    unfold Fourier.create at hT ⊢
    rw [idxs_three (by intro a; fin_cases a <;> decide)]
    rfl
  · show waves _ _ (normalizeOrigin ⟨1, 1, 1⟩ 0 0) = 0
    rw [hnorm, trio_waves]
    simp
  · rw [trio_waves]
    rw [show 2 * Real.pi * (⟨0, 1 / 4, 1 / 4⟩ : Vec3 ℝ).y = Real.pi / 2 by show 2 * Real.pi * (1 / 4) = _; ring]
    simp

end

end Rampack
