import Verif.Observables.NematicSpec
import Verif.Shapes.AxesProps
import Mathlib.Analysis.Matrix.Spectrum
import Mathlib.LinearAlgebra.Matrix.ToLinearEquiv
import Mathlib.LinearAlgebra.Matrix.Charpoly.Basic
/-
Theorems about the nematic order parameter and the drift of rotation matrices (C90, C91).
-/
namespace Rampack

open Spec NematicOrder

noncomputable section

namespace NematicOrder

/-- The matrix as one of Mathlib's. -/
def toMatrix (A : Mat3) : Matrix (Fin 3) (Fin 3) ℝ := !![A.r0.x, A.r0.y, A.r0.z; A.r1.x, A.r1.y, A.r1.z; A.r2.x, A.r2.y, A.r2.z]

theorem symmetric_iff {A : Mat3} : SymmetricMat A ↔ A.r1.x = A.r0.y ∧ A.r2.x = A.r0.z ∧ A.r2.y = A.r1.z := by
  unfold SymmetricMat Mat3.transpose Mat3.c0 Mat3.c1 Mat3.c2
  constructor
  · intro h
    have h0 := congrArg Mat3.r0 h
    have h1 := congrArg Mat3.r1 h
    exact ⟨congrArg Vec3.y h0, congrArg Vec3.z h0, congrArg Vec3.z h1⟩
  · rintro ⟨h1, h2, h3⟩
    ext <;> simp [h1, h2, h3]

/-- The characteristic polynomial. -/
theorem char_eq {A : Mat3} (h : SymmetricMat A) (x : ℝ) : (x • (1 : Mat3) - A).det = x ^ 3 - coefB A * x ^ 2 + coefC A * x + coefD A := by
  obtain ⟨h1, h2, h3⟩ := symmetric_iff.mp h
  simp only [Mat3.det, Mat3.sub_r0, Mat3.sub_r1, Mat3.sub_r2, Mat3.smul_r0, Mat3.smul_r1, Mat3.smul_r2, Vec3.sub_x, Vec3.sub_y, Vec3.sub_z, Vec3.smul_x, Vec3.smul_y, Vec3.smul_z,
    Mat3.one_def, Mat3.one, coefB, coefC, coefD, h1, h2, h3]
  ring

theorem det_toMatrix (A : Mat3) : (toMatrix A).det = A.det := by
  unfold toMatrix Mat3.det
  rw [Matrix.det_fin_three]
  simp
  ring

/-- Real roots of the characteristic polynomial. -/
theorem real_roots {A : Mat3} (h : SymmetricMat A) : ∃ u v w : ℝ, coefB A = u + v + w ∧ coefC A = u * v + u * w + v * w ∧ coefD A = -(u * v * w) := by
  obtain ⟨h1, h2, h3⟩ := symmetric_iff.mp h
  have hA : (toMatrix A).IsHermitian := by
    unfold toMatrix
    ext i j
    fin_cases i <;> fin_cases j <;> simp [h1, h2, h3]
  have hc : ∀ x : ℝ, (x • (1 : Mat3) - A).det = ∏ i, (x - hA.eigenvalues i) := by
    intro x
    have := congrArg (Polynomial.eval x) hA.charpoly_eq
    rw [Matrix.eval_charpoly, Polynomial.eval_prod] at this
    simp only [Polynomial.eval_sub, Polynomial.eval_X, Polynomial.eval_C] at this
    rw [← det_toMatrix]
    have hm : toMatrix (x • (1 : Mat3) - A) = Matrix.scalar (Fin 3) x - toMatrix A := by
      unfold toMatrix
      ext i j
      fin_cases i <;> fin_cases j <;> simp [Mat3.one_def, Mat3.one]
    rw [hm, this]
    rfl
  refine ⟨hA.eigenvalues 0, hA.eigenvalues 1, hA.eigenvalues 2, ?_⟩
  have e : ∀ x : ℝ, x ^ 3 - coefB A * x ^ 2 + coefC A * x + coefD A = (x - hA.eigenvalues 0) * (x - hA.eigenvalues 1) * (x - hA.eigenvalues 2) := by
    intro x
    rw [← char_eq h, hc, Fin.prod_univ_three]
  have e0 := e 0
  have e1 := e 1
  have e2 := e (-1)
  refine ⟨?_, ?_, ?_⟩
  · linear_combination (1 / 2 : ℝ) * (-e1 - e2) + e0
  · linear_combination (1 / 2 : ℝ) * (e1 - e2)
  · linear_combination e0

theorem coefP_nonneg {A : Mat3} (h : SymmetricMat A) : 0 ≤ coefP A := by
  obtain ⟨u, v, w, hb, hc, -⟩ := real_roots h
  unfold coefP
  rw [hb, hc]
  nlinarith [sq_nonneg (u - v), sq_nonneg (u - w), sq_nonneg (v - w)]

theorem coefP_eq (A : Mat3) : coefP A = ((A.r0.x - A.r1.y) ^ 2 + (A.r0.x - A.r2.z) ^ 2 + (A.r1.y - A.r2.z) ^ 2) / 2 + 3 * (A.r0.y ^ 2 + A.r0.z ^ 2 + A.r1.z ^ 2) := by
  unfold coefP coefB coefC
  ring

/-- `p` is zero only for multiples of the identity. -/
theorem coefP_zero {A : Mat3} (h : SymmetricMat A) : coefP A = 0 ↔ A = (A.r0.x) • (1 : Mat3) := by
  obtain ⟨h1, h2, h3⟩ := symmetric_iff.mp h
  rw [coefP_eq]
  constructor
  · intro e
    have a1 : (A.r0.x - A.r1.y) ^ 2 = 0 := by nlinarith [sq_nonneg (A.r0.x - A.r1.y), sq_nonneg (A.r0.x - A.r2.z), sq_nonneg (A.r1.y - A.r2.z), sq_nonneg A.r0.y, sq_nonneg A.r0.z, sq_nonneg A.r1.z]
    have a2 : (A.r0.x - A.r2.z) ^ 2 = 0 := by nlinarith [sq_nonneg (A.r0.x - A.r1.y), sq_nonneg (A.r0.x - A.r2.z), sq_nonneg (A.r1.y - A.r2.z), sq_nonneg A.r0.y, sq_nonneg A.r0.z, sq_nonneg A.r1.z]
    have a3 : A.r0.y ^ 2 = 0 := by nlinarith [sq_nonneg (A.r0.x - A.r1.y), sq_nonneg (A.r0.x - A.r2.z), sq_nonneg (A.r1.y - A.r2.z), sq_nonneg A.r0.y, sq_nonneg A.r0.z, sq_nonneg A.r1.z]
    have a4 : A.r0.z ^ 2 = 0 := by nlinarith [sq_nonneg (A.r0.x - A.r1.y), sq_nonneg (A.r0.x - A.r2.z), sq_nonneg (A.r1.y - A.r2.z), sq_nonneg A.r0.y, sq_nonneg A.r0.z, sq_nonneg A.r1.z]
    have a5 : A.r1.z ^ 2 = 0 := by nlinarith [sq_nonneg (A.r0.x - A.r1.y), sq_nonneg (A.r0.x - A.r2.z), sq_nonneg (A.r1.y - A.r2.z), sq_nonneg A.r0.y, sq_nonneg A.r0.z, sq_nonneg A.r1.z]
    have b1 := pow_eq_zero_iff (two_ne_zero) |>.mp a1
    have b2 := pow_eq_zero_iff (two_ne_zero) |>.mp a2
    have b3 := pow_eq_zero_iff (two_ne_zero) |>.mp a3
    have b4 := pow_eq_zero_iff (two_ne_zero) |>.mp a4
    have b5 := pow_eq_zero_iff (two_ne_zero) |>.mp a5
    ext <;> simp [Mat3.one_def, Mat3.one] <;> linarith
  · intro e
    have q1 := congrArg (fun M : Mat3 => M.r1.y) e
    have q2 := congrArg (fun M : Mat3 => M.r2.z) e
    have q3 := congrArg (fun M : Mat3 => M.r0.y) e
    have q4 := congrArg (fun M : Mat3 => M.r0.z) e
    have q5 := congrArg (fun M : Mat3 => M.r1.z) e
    simp [Mat3.one_def, Mat3.one] at q1 q2 q3 q4 q5
    rw [q1, q2, q3, q4, q5]
    ring

/-- The discriminant is not negative. -/
theorem ratio_le {A : Mat3} (h : SymmetricMat A) (hp : 0 < coefP A) : |ratio A| ≤ 1 := by
  obtain ⟨u, v, w, hb, hc, hd⟩ := real_roots h
  have hs : 0 < Real.sqrt (coefP A) := Real.sqrt_pos.mpr hp
  have hq : Real.sqrt (coefP A) ^ 2 = coefP A := Real.sq_sqrt hp.le
  have hD : (2 * coefB A * coefB A * coefB A - 9 * coefB A * coefC A - 27 * coefD A) ^ 2 ≤ (2 * (Real.sqrt (coefP A) * Real.sqrt (coefP A) * Real.sqrt (coefP A))) ^ 2 := by
    have e1 : (2 * (Real.sqrt (coefP A) * Real.sqrt (coefP A) * Real.sqrt (coefP A))) ^ 2 = 4 * coefP A ^ 3 := by
      linear_combination (4 * (Real.sqrt (coefP A) ^ 4 + Real.sqrt (coefP A) ^ 2 * coefP A + coefP A ^ 2)) * hq
    rw [e1]
    unfold coefP
    rw [hb, hc, hd]
    nlinarith [sq_nonneg ((u - v) * (u - w) * (v - w))]
  have h3 : 0 < 2 * (Real.sqrt (coefP A) * Real.sqrt (coefP A) * Real.sqrt (coefP A)) := by positivity
  have := abs_le_of_sq_le_sq hD h3.le
  unfold ratio
  rw [div_div, abs_div, abs_of_pos h3, div_le_one h3]
  exact this

theorem clamped_ok {r : ℝ} (h : |r| ≤ 1) : clamped r = .ok r := by
  unfold clamped
  rw [if_neg (not_lt.mpr h)]

/-- **C90** The argument of the arccosine which rounding moved out of the domain is replaced by the nearest number of the domain, and nothing else is changed; when it is further
than rounding can move it the calculation stops. (With exact numbers it is never out of the domain, see `C90_eigenvalues`.) -/
theorem C90_clamped (r : ℝ) :
    (|r| ≤ 1 + 1 / 10 ^ 15 ↔ ∃ r', clamped r = .ok r') ∧
    ∀ r', clamped r = .ok r' → |r'| ≤ 1 ∧ ∀ t : ℝ, |t| ≤ 1 → |r' - r| ≤ |t - r| := by
  unfold clamped
  by_cases h : 1 < |r|
  · rw [if_pos h]
    refine ⟨⟨fun h1 => ?_, fun ⟨r', h1⟩ => ?_⟩, fun r' h1 => ?_⟩
    · rw [decide_eq_true h1, Outcome.require_true]
      exact ⟨_, rfl⟩
    · obtain ⟨_, h2, _⟩ := Outcome.bind_eq_ok.mp h1
      simpa using Outcome.require_eq_ok.mp h2
    · obtain ⟨_, _, h2⟩ := Outcome.bind_eq_ok.mp h1
      have h2 := Outcome.ok_inj.mp h2
      by_cases h0 : r < 0
      · rw [if_pos h0] at h2
        rw [abs_of_neg h0] at h
        subst h2
        refine ⟨by norm_num, fun t ht => ?_⟩
        obtain ⟨a, b⟩ := abs_le.mp ht
        rw [abs_of_nonneg (by linarith), abs_of_nonneg (by linarith)]
        linarith
      · rw [if_neg h0] at h2
        rw [abs_of_nonneg (not_lt.mp h0)] at h
        subst h2
        refine ⟨by norm_num, fun t ht => ?_⟩
        obtain ⟨a, b⟩ := abs_le.mp ht
        rw [abs_of_nonpos (by linarith), abs_of_nonpos (by linarith)]
        linarith
  · rw [if_neg h]
    refine ⟨⟨fun _ => ⟨_, rfl⟩, fun _ => by linarith [not_lt.mp h]⟩, fun r' h1 => ?_⟩
    have := Outcome.ok_inj.mp h1
    subst this
    exact ⟨not_lt.mp h, fun t _ => by simp⟩

/-- Non-vacuity: a number just below -1. -/
example : clamped (-1 - 1 / 10 ^ 16) = .ok (-1) := by
  unfold clamped
  rw [if_pos (by rw [abs_of_neg (by norm_num)]; norm_num), decide_eq_true (by rw [abs_of_neg (by norm_num)]; norm_num), Outcome.require_true]
  rw [if_pos (by norm_num)]
  rfl

/-- What is returned, as a product. -/
theorem roots_prod {b p r : ℝ} (hr : |r| ≤ 1) : ∃ l0 l1 l2 : ℝ, roots b p (Real.arccos r) = [l0, l1, l2] ∧ l0 + l1 + l2 = b ∧
    l0 * l1 + l0 * l2 + l1 * l2 = (b ^ 2 - Real.sqrt p ^ 2) / 3 ∧ l0 * l1 * l2 = (b ^ 3 - 3 * b * Real.sqrt p ^ 2 + 2 * Real.sqrt p ^ 3 * r) / 27 ∧
    l1 ≤ l2 ∧ l2 ≤ l0 := by
  refine ⟨_, _, _, rfl, ?_⟩
  obtain ⟨hr1, hr2⟩ := abs_le.mp hr
  set t := Real.arccos r / 3 with ht
  have hcos : Real.cos (3 * t) = r := by
    rw [ht, mul_div_cancel₀ _ (by norm_num : (3 : ℝ) ≠ 0), Real.cos_arccos hr1 hr2]
  rw [Real.cos_three_mul] at hcos
  have e1 : (Real.arccos r + 2 * Real.pi) / 3 = t + 2 * Real.pi / 3 := by rw [ht]; ring
  have e2 : (Real.arccos r - 2 * Real.pi) / 3 = t - 2 * Real.pi / 3 := by rw [ht]; ring
  have c1 : Real.cos (2 * Real.pi / 3) = -1 / 2 := by
    rw [show 2 * Real.pi / 3 = Real.pi - Real.pi / 3 by ring, Real.cos_pi_sub, Real.cos_pi_div_three]; ring
  have s1 : Real.sin (2 * Real.pi / 3) = Real.sqrt 3 / 2 := by
    rw [show 2 * Real.pi / 3 = Real.pi - Real.pi / 3 by ring, Real.sin_pi_sub, Real.sin_pi_div_three]
  have hs3 : Real.sqrt 3 ^ 2 = 3 := Real.sq_sqrt (by norm_num)
  have t0 : 0 ≤ t := by rw [ht]; have := Real.arccos_nonneg r; positivity
  have t1 : t ≤ Real.pi / 3 := by rw [ht]; have := Real.arccos_le_pi r; linarith
  have hS : 0 ≤ Real.sin t := Real.sin_nonneg_of_nonneg_of_le_pi t0 (by linarith [Real.pi_pos])
  have hcs := Real.sin_sq_add_cos_sq t
  have hC : Real.sin t * Real.sqrt 3 ≤ 3 * Real.cos t := by
    have hmono : Real.cos (Real.pi / 3) ≤ Real.cos t := Real.cos_le_cos_of_nonneg_of_le_pi t0 (by linarith [Real.pi_pos]) t1
    rw [Real.cos_pi_div_three] at hmono
    apply abs_le_of_sq_le_sq' _ (by linarith) |>.2
    rw [mul_pow, hs3]
    nlinarith
  rw [e1, e2, Real.cos_add, Real.cos_sub, c1, s1]
  have hq : 0 ≤ Real.sqrt p := Real.sqrt_nonneg p
  have h3 : 0 ≤ Real.sqrt 3 := Real.sqrt_nonneg 3
  refine ⟨by ring, ?_, ?_, ?_, ?_⟩
  · linear_combination (-1 / 9 * Real.sqrt p ^ 2 * Real.sin t ^ 2) * hs3 - (1 / 3 * Real.sqrt p ^ 2) * hcs
  · rw [← hcos]
    linear_combination (-(1 / 27) * Real.sqrt p ^ 2 * Real.sin t ^ 2 * (b + 2 * Real.sqrt p * Real.cos t)) * hs3 - (1 / 9 * Real.sqrt p ^ 2 * (b + 2 * Real.sqrt p * Real.cos t)) * hcs
  · have : 0 ≤ Real.sqrt p * (Real.sin t * Real.sqrt 3) := by positivity
    linarith
  · have : 0 ≤ Real.sqrt p * (3 * Real.cos t - Real.sin t * Real.sqrt 3) := mul_nonneg hq (by linarith)
    linarith

end NematicOrder

/-- C90: eigenvalues of a symmetric matrix are all three roots of its characteristic polynomial, the largest one first; for multiples of the identity there is an exception. -/
theorem C90_eigenvalues {A : Mat3} (h : SymmetricMat A) :
    ((∃ k : ℝ, A = k • (1 : Mat3)) → calculateEigenvalues A = .throw "Assert(p > 0)") ∧
    ((¬∃ k : ℝ, A = k • (1 : Mat3)) → ∃ l0 l1 l2 : ℝ, calculateEigenvalues A = .ok [l0, l1, l2] ∧ l1 ≤ l2 ∧ l2 ≤ l0 ∧
      ∀ x : ℝ, (x • (1 : Mat3) - A).det = (x - l0) * (x - l1) * (x - l2)) := by
  have hz := coefP_zero h
  constructor
  · rintro ⟨k, hk⟩
    have : coefP A = 0 := by
      rw [hz]
      have : A.r0.x = k := by rw [hk]; simp [Mat3.one_def, Mat3.one]
      rw [this]; exact hk
    unfold calculateEigenvalues
    rw [this, show decide ((0 : ℝ) > 0) = false from decide_eq_false (lt_irrefl _)]
    rfl
  · intro hk
    have hp : 0 < coefP A := lt_of_le_of_ne (coefP_nonneg h) fun e => hk ⟨_, hz.mp e.symm⟩
    have hr := ratio_le h hp
    obtain ⟨l0, l1, l2, hl, hb, hc, hd, h12, h20⟩ := roots_prod (b := coefB A) (p := coefP A) hr
    refine ⟨l0, l1, l2, ?_, h12, h20, fun x => ?_⟩
    · unfold calculateEigenvalues
      rw [show decide (coefP A > 0) = true from decide_eq_true hp, Outcome.require_true, clamped_ok hr]
      simp only [Outcome.ok_bind, Outcome.pure_eq, hl]
    · rw [char_eq h]
      have hq : Real.sqrt (coefP A) ^ 2 = coefP A := Real.sq_sqrt hp.le
      have hs : 0 < Real.sqrt (coefP A) := Real.sqrt_pos.mpr hp
      have hr' : 2 * Real.sqrt (coefP A) ^ 3 * ratio A = 2 * coefB A * coefB A * coefB A - 9 * coefB A * coefC A - 27 * coefD A := by
        unfold ratio
        field_simp
      rw [hr', hq] at hd
      rw [hq] at hc
      unfold coefP at hc hd
      linear_combination x ^ 2 * hb - x * hc + hd

/-- The sum of products of components. -/
theorem accumulate_dot : ∀ (axes : List (Vec3 ℝ)) (Q : Mat3) (v : Vec3 ℝ),
    (axes.foldl (fun Q a => Q + outer a) Q).mulVec v = Q.mulVec v + (axes.map fun a => (v.dot a) • a).sum
  | [], Q, v => by simp
  | a :: l, Q, v => by
    rw [List.foldl_cons, accumulate_dot l, List.map_cons, List.sum_cons]
    have : (Q + outer a).mulVec v = Q.mulVec v + (v.dot a) • a := by
      ext <;> simp [Mat3.mulVec, Vec3.dot, outer] <;> ring
    rw [this]
    abel

theorem accumulate_symm : ∀ (axes : List (Vec3 ℝ)) {Q : Mat3}, SymmetricMat Q → SymmetricMat (axes.foldl (fun Q a => Q + outer a) Q)
  | [], _, h => h
  | a :: l, Q, h => by
    rw [List.foldl_cons]
    apply accumulate_symm l
    rw [symmetric_iff] at h ⊢
    obtain ⟨h1, h2, h3⟩ := h
    simp only [Mat3.add_r0, Mat3.add_r1, Mat3.add_r2, Vec3.add_x, Vec3.add_y, Vec3.add_z, outer]
    exact ⟨by linear_combination h1, by linear_combination h2, by linear_combination h3⟩

theorem qTensor_symm (axes : List (Vec3 ℝ)) : SymmetricMat (qTensor axes) := by
  have h := accumulate_symm axes (Q := zero) (by rw [symmetric_iff]; simp [zero])
  rw [symmetric_iff] at h ⊢
  obtain ⟨h1, h2, h3⟩ := h
  unfold qTensor accumulate
  simp only [Mat3.smul_r0, Mat3.smul_r1, Mat3.smul_r2, Mat3.sub_r0, Mat3.sub_r1, Mat3.sub_r2, Vec3.smul_x, Vec3.smul_y, Vec3.smul_z, Vec3.sub_x, Vec3.sub_y, Vec3.sub_z, h1, h2, h3, Mat3.one_def, Mat3.one]
  exact ⟨trivial, trivial, trivial⟩

theorem dot_sum (w : Vec3 ℝ) : ∀ l : List (Vec3 ℝ), w.dot l.sum = (l.map w.dot).sum
  | [] => by simp [Vec3.dot]
  | a :: l => by
    rw [List.sum_cons, List.map_cons, List.sum_cons, ← dot_sum w l]
    simp [Vec3.dot]; ring

/-- The tensor as a quadratic form: the mean of Legendre polynomials for unit vectors. -/
theorem qTensor_form {axes : List (Vec3 ℝ)} (hn : axes ≠ []) (v : Vec3 ℝ) :
    v.dot ((qTensor axes).mulVec v) = averageOf (fun a => 3 / 2 * (v.dot a) ^ 2 - 1 / 2 * v.norm2) axes := by
  have hl : (axes.length : ℝ) ≠ 0 := by
    simpa using hn
  have e : (qTensor axes).mulVec v = (3 / 2 / axes.length : ℝ) • (axes.map fun a => (v.dot a) • a).sum - (1 / 2 : ℝ) • v := by
    have := accumulate_dot axes zero v
    have hz : zero.mulVec v = 0 := by ext <;> simp [Mat3.mulVec, zero, Vec3.dot]
    rw [hz, zero_add] at this
    have h2 : (qTensor axes).mulVec v = (3 / 2 / axes.length : ℝ) • (accumulate axes).mulVec v - (1 / 2 : ℝ) • v := by
      unfold qTensor
      ext <;> simp [Mat3.mulVec, Vec3.dot, Mat3.one_def, Mat3.one] <;> ring
    rw [h2]
    unfold accumulate
    rw [this]
  have hd : ∀ (x y : Vec3 ℝ) (k m : ℝ), v.dot (k • x - m • y) = k * v.dot x - m * v.dot y := by
    intro x y k m; simp [Vec3.dot]; ring
  rw [e, hd, dot_sum, List.map_map]
  unfold averageOf
  have hs : ∀ l : List (Vec3 ℝ), (l.map fun a => 3 / 2 * (v.dot a) ^ 2 - 1 / 2 * v.norm2).sum = 3 / 2 * (l.map (v.dot ∘ fun a => v.dot a • a)).sum - l.length * (1 / 2 * v.norm2) := by
    intro l
    induction l with
    | nil => simp
    | cons a l ih =>
      rw [List.map_cons, List.sum_cons, ih, List.map_cons, List.sum_cons, List.length_cons]
      have : (v.dot ∘ fun a => v.dot a • a) a = v.dot a ^ 2 := by simp [Vec3.dot]; ring
      rw [this]
      push_cast
      ring
  rw [hs]
  have : v.dot v = v.norm2 := rfl
  rw [this]
  field_simp

theorem qTensor_trace {axes : List (Vec3 ℝ)} (hn : axes ≠ []) (hu : ∀ a ∈ axes, a.norm2 = 1) : coefB (qTensor axes) = 0 := by
  have key : ∀ (l : List (Vec3 ℝ)) (Q : Mat3), (∀ a ∈ l, a.norm2 = 1) → coefB (l.foldl (fun Q a => Q + outer a) Q) = coefB Q + l.length := by
    intro l
    induction l with
    | nil => simp
    | cons a l ih =>
      intro Q h
      rw [List.foldl_cons, ih _ fun b hb => h b (List.mem_cons_of_mem _ hb)]
      have ha := h a (List.mem_cons_self ..)
      unfold Vec3.norm2 Vec3.dot at ha
      have : coefB (Q + outer a) = coefB Q + 1 := by
        unfold coefB outer
        simp only [Mat3.add_r0, Mat3.add_r1, Mat3.add_r2, Vec3.add_x, Vec3.add_y, Vec3.add_z]
        linear_combination ha
      rw [this, List.length_cons]
      push_cast
      ring
  have h0 := key axes zero hu
  have hl : (axes.length : ℝ) ≠ 0 := by simpa using hn
  have h2 : coefB (qTensor axes) = 3 / 2 / axes.length * coefB (accumulate axes) - 3 / 2 := by
    unfold qTensor coefB
    simp [Mat3.one_def, Mat3.one]
    ring
  have hz : coefB zero = 0 := by simp [coefB, zero]
  rw [h2]
  unfold accumulate
  rw [h0, hz]
  field_simp
  ring

theorem eigenvalue_of_det {A : Mat3} {x : ℝ} (h : (x • (1 : Mat3) - A).det = 0) : IsEigenvalue A x := by
  rw [← det_toMatrix] at h
  obtain ⟨v, hv, e⟩ := Matrix.exists_mulVec_eq_zero_iff.mpr h
  refine ⟨⟨v 0, v 1, v 2⟩, ?_, ?_⟩
  · intro h0
    apply hv
    funext i
    have hx := congrArg Vec3.x h0
    have hy := congrArg Vec3.y h0
    have hz := congrArg Vec3.z h0
    fin_cases i
    · exact hx
    · exact hy
    · exact hz
  · have e0 := congrFun e 0
    have e1 := congrFun e 1
    have e2 := congrFun e 2
    simp [toMatrix, Matrix.mulVec, dotProduct, Fin.sum_univ_three, Mat3.one_def, Mat3.one] at e0 e1 e2
    ext
    · simp [Mat3.mulVec, Vec3.dot]; linear_combination -e0
    · simp [Mat3.mulVec, Vec3.dot]; linear_combination -e1
    · simp [Mat3.mulVec, Vec3.dot]; linear_combination -e2

theorem det_of_eigenvalue {A : Mat3} {x : ℝ} (h : IsEigenvalue A x) : (x • (1 : Mat3) - A).det = 0 := by
  obtain ⟨v, hv, e⟩ := h
  rw [← det_toMatrix]
  apply Matrix.exists_mulVec_eq_zero_iff.mp
  refine ⟨![v.x, v.y, v.z], ?_, ?_⟩
  · intro h0
    apply hv
    have hx := congrFun h0 0
    have hy := congrFun h0 1
    have hz := congrFun h0 2
    ext
    · simpa using hx
    · simpa using hy
    · simpa using hz
  · have ex := congrArg Vec3.x e
    have ey := congrArg Vec3.y e
    have ez := congrArg Vec3.z e
    simp only [Mat3.mulVec, Vec3.dot, Vec3.smul_x, Vec3.smul_y, Vec3.smul_z] at ex ey ez
    funext i
    fin_cases i
    · simp [toMatrix, Matrix.mulVec, dotProduct, Fin.sum_univ_three, Mat3.one_def, Mat3.one]; linear_combination -ex
    · simp [toMatrix, Matrix.mulVec, dotProduct, Fin.sum_univ_three, Mat3.one_def, Mat3.one]; linear_combination -ey
    · simp [toMatrix, Matrix.mulVec, dotProduct, Fin.sum_univ_three, Mat3.one_def, Mat3.one]; linear_combination -ez

theorem largest_ok (x : ℝ) (l : List ℝ) : ∃ m, largest (x :: l) = .ok m ∧ m ∈ x :: l ∧ ∀ y ∈ x :: l, |y| ≤ |m| := by
  unfold largest
  refine ⟨_, rfl, ?_⟩
  have key : ∀ (l : List ℝ) (x : ℝ), l.foldl (fun m y => if |m| < |y| then y else m) x ∈ x :: l ∧ ∀ y ∈ x :: l, |y| ≤ |l.foldl (fun m y => if |m| < |y| then y else m) x| := by
    intro l
    induction l with
    | nil => intro x; simp
    | cons z l ih =>
      intro x
      rw [List.foldl_cons]
      by_cases h : |x| < |z|
      · rw [if_pos h]
        obtain ⟨i1, i2⟩ := ih z
        refine ⟨List.mem_cons_of_mem _ i1, fun y hy => ?_⟩
        rcases List.mem_cons.mp hy with rfl | hy
        · exact h.le.trans (i2 z (List.mem_cons_self ..))
        · exact i2 y hy
      · rw [if_neg h]
        obtain ⟨i1, i2⟩ := ih x
        refine ⟨?_, fun y hy => ?_⟩
        · rcases List.mem_cons.mp i1 with e | i1
          · rw [e]; exact List.mem_cons_self ..
          · exact List.mem_cons_of_mem _ (List.mem_cons_of_mem _ i1)
        · rcases List.mem_cons.mp hy with rfl | hy
          · exact i2 y (List.mem_cons_self ..)
          · rcases List.mem_cons.mp hy with rfl | hy
            · exact (not_lt.mp h).trans (i2 x (List.mem_cons_self ..))
            · exact i2 y (List.mem_cons_of_mem _ hy)
  exact key l x

theorem dot_le_of_unit {v a : Vec3 ℝ} (ha : a.norm2 = 1) : (v.dot a) ^ 2 ≤ v.norm2 := by
  have := Vec3.dot_sq_le v a
  rwa [ha, mul_one] at this

theorem sum_le_sum_of {α : Type} {f g : α → ℝ} : ∀ {l : List α}, (∀ a ∈ l, f a ≤ g a) → (l.map f).sum ≤ (l.map g).sum
  | [], _ => le_refl _
  | a :: l, h => by
    rw [List.map_cons, List.map_cons, List.sum_cons, List.sum_cons]
    exact add_le_add (h a (List.mem_cons_self ..)) (sum_le_sum_of fun b hb => h b (List.mem_cons_of_mem _ hb))

theorem sum_const {α : Type} (c : ℝ) (l : List α) : (l.map fun _ => c).sum = l.length * c := by
  rw [List.map_const', List.sum_replicate, nsmul_eq_mul]

theorem mean_between {α : Type} {f : α → ℝ} {l : List α} (hn : l ≠ []) {p q : ℝ} (h : ∀ a ∈ l, p ≤ f a ∧ f a ≤ q) : p ≤ averageOf f l ∧ averageOf f l ≤ q := by
  have hl : (0 : ℝ) < l.length := by
    have := List.length_pos_of_ne_nil hn
    exact_mod_cast this
  unfold averageOf
  rw [le_div_iff₀ hl, div_le_iff₀ hl]
  constructor
  · have := sum_le_sum_of (f := fun _ => p) (g := f) fun a ha => (h a ha).1
    rw [sum_const] at this
    linarith
  · have := sum_le_sum_of (f := f) (g := fun _ => q) fun a ha => (h a ha).2
    rw [sum_const] at this
    linarith

/-- Eigenvalues are between -1/2 and 1. -/
theorem eigenvalue_range {axes : List (Vec3 ℝ)} (hn : axes ≠ []) (hu : ∀ a ∈ axes, a.norm2 = 1) {x : ℝ} (h : IsEigenvalue (qTensor axes) x) : -(1 / 2) ≤ x ∧ x ≤ 1 := by
  obtain ⟨v, hv, e⟩ := h
  have hp := Vec3.norm2_pos_of_ne hv
  have hf := qTensor_form hn v
  have he : v.dot (x • v) = x * v.norm2 := by simp [Vec3.norm2, Vec3.dot]; ring
  rw [e, he] at hf
  obtain ⟨m1, m2⟩ := mean_between (f := fun a => 3 / 2 * (v.dot a) ^ 2 - 1 / 2 * v.norm2) hn (p := -(1 / 2) * v.norm2) (q := v.norm2) fun a ha => by
    have := dot_le_of_unit (v := v) (hu a ha)
    constructor <;> nlinarith [sq_nonneg (v.dot a)]
  rw [← hf] at m1 m2
  exact ⟨le_of_mul_le_mul_right m1 hp, le_of_mul_le_mul_right (by linarith) hp⟩

/-- A vector which is as long as its projection on a unit vector. -/
theorem parallel_of_dot {v a : Vec3 ℝ} (hv : v.norm2 = 1) (ha : a.norm2 = 1) (h : (v.dot a) ^ 2 = 1) : a = v ∨ a = -v := by
  have key : ∀ k : ℝ, k * k = 1 → v.dot a = k → a = k • v := by
    intro k hk hd
    have : (a - k • v).norm2 = 0 := by
      have : (a - k • v).norm2 = a.norm2 - 2 * k * v.dot a + k * k * v.norm2 := by simp [Vec3.norm2, Vec3.dot]; ring
      rw [this, ha, hv, hd]
      linarith
    by_contra hne
    have h0 : a - k • v ≠ 0 := fun e => hne (sub_eq_zero.mp e)
    exact absurd this (Vec3.norm2_pos_of_ne h0).ne'
  rcases mul_self_eq_one_iff.mp (show v.dot a * v.dot a = 1 by rw [← sq]; exact h) with e | e
  · left
    rw [key 1 (by ring) e]; ext <;> simp
  · right
    rw [key (-1) (by ring) e]; ext <;> simp

theorem zero_of_multiple {axes : List (Vec3 ℝ)} (hn : axes ≠ []) (hu : ∀ a ∈ axes, a.norm2 = 1) {k : ℝ} (h : qTensor axes = k • (1 : Mat3)) : qTensor axes = zero := by
  have := qTensor_trace hn hu
  rw [h] at this ⊢
  unfold coefB at this
  simp [Mat3.one_def, Mat3.one] at this
  have hk : k = 0 := by linarith
  rw [hk]
  ext <;> simp [zero]

theorem unit_eigenvector {A : Mat3} {x : ℝ} (h : IsEigenvalue A x) : ∃ v : Vec3 ℝ, v.norm2 = 1 ∧ A.mulVec v = x • v := by
  obtain ⟨v, hv, e⟩ := h
  have hp := Vec3.norm2_pos_of_ne hv
  have hs : 0 < v.norm := Real.sqrt_pos.mpr hp
  refine ⟨(1 / v.norm) • v, ?_, ?_⟩
  · have : ((1 / v.norm) • v).norm2 = (1 / v.norm) ^ 2 * v.norm2 := by simp [Vec3.norm2, Vec3.dot]; ring
    rw [this, ← Vec3.norm_sq]
    field_simp
  · have ex := congrArg Vec3.x e
    have ey := congrArg Vec3.y e
    have ez := congrArg Vec3.z e
    simp only [Mat3.mulVec, Vec3.dot, Vec3.smul_x, Vec3.smul_y, Vec3.smul_z] at ex ey ez
    ext
    · simp only [Mat3.mulVec, Vec3.dot, Vec3.smul_x, Vec3.smul_y, Vec3.smul_z]; linear_combination (1 / v.norm) * ex
    · simp only [Mat3.mulVec, Vec3.dot, Vec3.smul_x, Vec3.smul_y, Vec3.smul_z]; linear_combination (1 / v.norm) * ey
    · simp only [Mat3.mulVec, Vec3.dot, Vec3.smul_x, Vec3.smul_y, Vec3.smul_z]; linear_combination (1 / v.norm) * ez

/-- If the mean of numbers which are at most `q` is `q`, all of them are. -/
theorem all_of_mean {α : Type} {f : α → ℝ} {q : ℝ} {l : List α} (hn : l ≠ []) (h : ∀ a ∈ l, f a ≤ q) (hm : averageOf f l = q) : ∀ a ∈ l, f a = q := by
  have hl : (l.length : ℝ) ≠ 0 := by simpa using hn
  unfold averageOf at hm
  rw [div_eq_iff hl] at hm
  have key : ∀ l : List α, (∀ a ∈ l, f a ≤ q) → q * l.length ≤ (l.map f).sum → ∀ a ∈ l, f a = q := by
    intro l
    induction l with
    | nil => simp
    | cons b l ih =>
      intro h hs
      rw [List.map_cons, List.sum_cons, List.length_cons] at hs
      have h1 := h b (List.mem_cons_self ..)
      have h2 := sum_le_sum_of (f := f) (g := fun _ => q) (l := l) fun a ha => h a (List.mem_cons_of_mem _ ha)
      rw [sum_const] at h2
      push_cast at hs
      intro a ha
      rcases List.mem_cons.mp ha with rfl | ha
      · nlinarith
      · exact ih (fun a ha => h a (List.mem_cons_of_mem _ ha)) (by nlinarith) a ha
  exact key l h hm.ge

/-- Axes along one line give the eigenvalue 1. -/
theorem line_eigenvalue {axes : List (Vec3 ℝ)} (hn : axes ≠ []) {n : Vec3 ℝ} (hu : n.norm2 = 1) (h : ∀ a ∈ axes, a = n ∨ a = -n) : IsEigenvalue (qTensor axes) 1 := by
  have hl : (axes.length : ℝ) ≠ 0 := by simpa using hn
  refine ⟨n, ?_, ?_⟩
  · intro e
    rw [e] at hu
    simp [Vec3.norm2, Vec3.dot] at hu
  · have hs : ∀ l : List (Vec3 ℝ), (∀ a ∈ l, a = n ∨ a = -n) → (l.map fun a => (n.dot a) • a).sum = (l.length : ℝ) • n := by
      intro l
      induction l with
      | nil => intro _; ext <;> simp
      | cons b l ih =>
        intro h
        rw [List.map_cons, List.sum_cons, ih fun a ha => h a (List.mem_cons_of_mem _ ha)]
        have : (n.dot b) • b = n := by
          unfold Vec3.norm2 Vec3.dot at hu
          rcases h b (List.mem_cons_self ..) with rfl | rfl
          · ext <;> simp [Vec3.dot, hu]
          · ext <;> simp only [Vec3.dot, Vec3.neg_x, Vec3.neg_y, Vec3.neg_z, Vec3.smul_x, Vec3.smul_y, Vec3.smul_z]
            · linear_combination n.x * hu
            · linear_combination n.y * hu
            · linear_combination n.z * hu
        rw [this]
        ext <;> simp <;> ring
    have ha := accumulate_dot axes zero n
    have hz : zero.mulVec n = 0 := by ext <;> simp [Mat3.mulVec, zero, Vec3.dot]
    rw [hz, zero_add, hs axes h] at ha
    have h2 : (qTensor axes).mulVec n = (3 / 2 / axes.length : ℝ) • (accumulate axes).mulVec n - (1 / 2 : ℝ) • n := by
      unfold qTensor
      ext <;> simp [Mat3.mulVec, Vec3.dot, Mat3.one_def, Mat3.one] <;> ring
    rw [h2]
    unfold accumulate
    rw [ha]
    ext <;> simp <;> field_simp <;> ring

/-- C90: for particles with unit axes, the tensor is the one whose values along unit vectors are means of Legendre polynomials, and the order parameter is its eigenvalue of the largest magnitude. It is between -1/2 and 1
and it is 1 exactly for axes along one line. If the tensor is zero, there is an exception. -/
theorem C90_order_partial {axes : List (Vec3 ℝ)} (hn : axes ≠ []) (hu : ∀ a ∈ axes, a.norm2 = 1) :
    (SymmetricMat (qTensor axes) ∧ ∀ n : Vec3 ℝ, n.norm2 = 1 → n.dot ((qTensor axes).mulVec n) = averageOf (legendre2 n) axes) ∧
    (qTensor axes = zero → ofAxes axes = .throw "Assert(p > 0)") ∧
    (qTensor axes ≠ zero → ∃ P2, ofAxes axes = .ok (P2, qTensor axes) ∧ IsEigenvalue (qTensor axes) P2 ∧ (∀ x, IsEigenvalue (qTensor axes) x → |x| ≤ |P2|) ∧
      -(1 / 2) ≤ P2 ∧ P2 ≤ 1 ∧ (P2 = 1 ↔ AlongOneLine axes)) := by
  have hsym := qTensor_symm axes
  obtain ⟨hk, hk'⟩ := C90_eigenvalues hsym
  refine ⟨⟨hsym, fun n h => ?_⟩, fun h0 => ?_, fun h0 => ?_⟩
  · rw [qTensor_form hn, h]
    unfold legendre2
    simp only [mul_one]
  · unfold ofAxes
    rw [if_neg hn, hk ⟨0, by rw [h0]; ext <;> simp [zero]⟩]
    rfl
  · obtain ⟨l0, l1, l2, he, -, -, hd⟩ := hk' fun ⟨k, e⟩ => h0 (zero_of_multiple hn hu e)
    obtain ⟨m, hm, hmem, hmax⟩ := largest_ok l0 [l1, l2]
    have hroot : ∀ y ∈ [l0, l1, l2], IsEigenvalue (qTensor axes) y := by
      intro y hy
      apply eigenvalue_of_det
      rw [hd]
      simp only [List.mem_cons, List.not_mem_nil, or_false] at hy
      rcases hy with rfl | rfl | rfl <;> ring
    have hback : ∀ x, IsEigenvalue (qTensor axes) x → |x| ≤ |m| := by
      intro x hx
      have := det_of_eigenvalue hx
      rw [hd, mul_eq_zero, mul_eq_zero, sub_eq_zero, sub_eq_zero, sub_eq_zero] at this
      apply hmax
      simp only [List.mem_cons, List.not_mem_nil, or_false]
      tauto
    obtain ⟨r1, r2⟩ := eigenvalue_range hn hu (hroot m hmem)
    refine ⟨m, ?_, hroot m hmem, hback, r1, r2, ?_⟩
    · unfold ofAxes
      rw [if_neg hn, he, Outcome.ok_bind, hm]
      rfl
    · constructor
      · rintro rfl
        obtain ⟨v, hv, e⟩ := unit_eigenvector (hroot 1 hmem)
        have hf := qTensor_form hn v
        rw [e, hv] at hf
        have h1 : v.dot ((1 : ℝ) • v) = 1 := by
          have : v.dot ((1 : ℝ) • v) = v.norm2 := by simp [Vec3.norm2, Vec3.dot]
          rw [this, hv]
        rw [h1] at hf
        have hall := all_of_mean (q := 1) hn (fun a ha => by
          have := dot_le_of_unit (v := v) (hu a ha)
          rw [hv] at this
          linarith) hf.symm
        exact ⟨v, hv, fun a ha => parallel_of_dot hv (hu a ha) (by linarith [hall a ha])⟩
      · rintro ⟨n, h1, h2⟩
        have := hback 1 (line_eigenvalue hn h1 h2)
        rw [abs_one] at this
        rcases abs_cases m with ⟨e, _⟩ | ⟨e, _⟩ <;> linarith

theorem getPrimary_mapM {G : Geometry} {a : Vec3 ℝ} (h : G.primary = some a) : ∀ l : List Shape, l.mapM G.getPrimaryAxis = .ok (l.map fun s => s.rot.mulVec a)
  | [] => rfl
  | s :: l => by
    have : G.getPrimaryAxis s = .ok (s.rot.mulVec a) := by unfold Geometry.getPrimaryAxis; rw [h]
    rw [List.mapM_cons, this, Outcome.ok_bind, getPrimary_mapM h l]
    rfl

/-- C90: for a packing, axes are the primary axes of particles; they are unit vectors if the axis of the shape is and orientations are rotations. -/
theorem C90_axes {G : Geometry} {a : Vec3 ℝ} (h : G.primary = some a) (ha : a.norm2 = 1) (V : View) (hr : ∀ s ∈ V.shapes, IsRotation s.rot) :
    NematicOrder.calculate V G = ofAxes (V.shapes.map fun s => s.rot.mulVec a) ∧ ∀ b ∈ V.shapes.map fun s => s.rot.mulVec a, b.norm2 = 1 := by
  constructor
  · unfold NematicOrder.calculate
    rw [getPrimary_mapM h, Outcome.ok_bind]
  · intro b hb
    obtain ⟨s, hs, rfl⟩ := List.mem_map.mp hb
    have := dot_rot (hr s hs) a a
    unfold Vec3.norm2 at ha ⊢
    rw [this, ha]

theorem mat_ext_mulVec {A B : Mat3} (h : ∀ v, A.mulVec v = B.mulVec v) : A = B := by
  have hx := h ⟨1, 0, 0⟩
  have hy := h ⟨0, 1, 0⟩
  have hz := h ⟨0, 0, 1⟩
  simp [Mat3.mulVec, Vec3.dot] at hx hy hz
  ext <;> simp_all

theorem qTensor_perm {l l' : List (Vec3 ℝ)} (h : l.Perm l') : qTensor l = qTensor l' := by
  have : accumulate l = accumulate l' := by
    apply mat_ext_mulVec
    intro v
    unfold accumulate
    rw [accumulate_dot, accumulate_dot, (h.map _).sum_eq]
  unfold qTensor
  rw [this, h.length_eq]

theorem accumulate_turned {R : Mat3} : ∀ {l l' : List (Vec3 ℝ)} {Q : Mat3}, List.Forall₂ (fun a b => UpToSign (R.mulVec a) b) l l' →
    l'.foldl (fun Q a => Q + outer a) (R * Q * R.transpose) = R * l.foldl (fun Q a => Q + outer a) Q * R.transpose
  | _, _, _, .nil => rfl
  | _, _, Q, .cons (a := a) (b := b) h t => by
    rw [List.foldl_cons, List.foldl_cons, ← accumulate_turned t]
    congr 1
    rcases h with rfl | rfl <;>
    · ext <;> simp only [Mat3.mul_def, Mat3.mul, Mat3.transpose, Vec3.dot, Mat3.c0, Mat3.c1, Mat3.c2, outer, Mat3.add_r0, Mat3.add_r1, Mat3.add_r2, Vec3.add_x, Vec3.add_y, Vec3.add_z, Mat3.mulVec,
        Vec3.neg_x, Vec3.neg_y, Vec3.neg_z] <;> ring

theorem rot_transpose {R : Mat3} (h : IsRotation R) : R * R.transpose = 1 := by
  have hd : R.det ≠ 0 := by rw [h.2]; norm_num
  have : R.transpose = R.inverse := by
    rw [← Mat3.mul_one R.transpose, ← Mat3.mul_inverse_cancel hd, ← Mat3.mul_assoc, h.1, Mat3.one_mul]
  rw [this, Mat3.mul_inverse_cancel hd]

theorem qTensor_turned {R : Mat3} (hR : IsRotation R) {l l' : List (Vec3 ℝ)} (h : List.Forall₂ (fun a b => UpToSign (R.mulVec a) b) l l') :
    qTensor l' = R * qTensor l * R.transpose := by
  have h0 := accumulate_turned (Q := zero) h
  have hz : R * zero * R.transpose = zero := by
    ext <;> simp [Mat3.mul_def, Mat3.mul, Mat3.transpose, Vec3.dot, Mat3.c0, Mat3.c1, Mat3.c2, zero]
  rw [hz] at h0
  have h1 : accumulate l' = R * accumulate l * R.transpose := h0
  have hl := h.length_eq
  have hRR : R * 1 * R.transpose = 1 := by rw [Mat3.mul_one]; exact rot_transpose hR
  unfold qTensor
  rw [h1, ← hl]
  conv_lhs => rw [← hRR]
  ext <;> simp [Mat3.mul_def, Mat3.mul, Mat3.transpose, Vec3.dot, Mat3.c0, Mat3.c1, Mat3.c2, Mat3.one_def, Mat3.one] <;> ring

theorem det_turned {R : Mat3} (hR : IsRotation R) (A : Mat3) (x : ℝ) : (x • (1 : Mat3) - R * A * R.transpose).det = (x • (1 : Mat3) - A).det := by
  have hRR : R * 1 * R.transpose = 1 := by rw [Mat3.mul_one]; exact rot_transpose hR
  have : x • (1 : Mat3) - R * A * R.transpose = R * (x • (1 : Mat3) - A) * R.transpose := by
    conv_lhs => rw [← hRR]
    ext <;> simp [Mat3.mul_def, Mat3.mul, Mat3.transpose, Vec3.dot, Mat3.c0, Mat3.c1, Mat3.c2, Mat3.one_def, Mat3.one] <;> ring
  rw [this, Mat3.det_mul, Mat3.det_mul]
  have ht : R.transpose.det = R.det := by simp [Mat3.det, Mat3.transpose, Mat3.c0, Mat3.c1, Mat3.c2]; ring
  rw [ht, hR.2]
  ring

theorem eigenvalues_congr {A B : Mat3} (hA : SymmetricMat A) (hB : SymmetricMat B) (h : ∀ x : ℝ, (x • (1 : Mat3) - A).det = (x • (1 : Mat3) - B).det) :
    calculateEigenvalues A = calculateEigenvalues B := by
  have e : ∀ x : ℝ, x ^ 3 - coefB A * x ^ 2 + coefC A * x + coefD A = x ^ 3 - coefB B * x ^ 2 + coefC B * x + coefD B := by
    intro x
    rw [← char_eq hA, ← char_eq hB, h]
  have e0 := e 0
  have e1 := e 1
  have e2 := e (-1)
  have hb : coefB A = coefB B := by linear_combination (1 / 2 : ℝ) * (-e1 - e2) + e0
  have hc : coefC A = coefC B := by linear_combination (1 / 2 : ℝ) * (e1 - e2)
  have hd : coefD A = coefD B := by linear_combination e0
  have hp : coefP A = coefP B := by unfold coefP; rw [hb, hc]
  unfold calculateEigenvalues ratio
  rw [hb, hc, hd, hp]

/-- C90: the order parameter does not change when the whole system is turned, when axes of any particles are reversed and when particles are listed in another order. -/
theorem C90_invariant {axes axes' : List (Vec3 ℝ)} {R : Mat3} (hR : IsRotation R) (h : ∃ l, l.Perm axes ∧ List.Forall₂ (fun a b => UpToSign (R.mulVec a) b) l axes') (P2 : ℝ) :
    (∃ Q, ofAxes axes = .ok (P2, Q)) ↔ ∃ Q, ofAxes axes' = .ok (P2, Q) := by
  obtain ⟨l, hp, hf⟩ := h
  have hq := qTensor_turned hR hf
  rw [qTensor_perm hp] at hq
  have he : calculateEigenvalues (qTensor axes') = calculateEigenvalues (qTensor axes) := by
    apply eigenvalues_congr (qTensor_symm _) (qTensor_symm _)
    intro x
    rw [hq, det_turned hR]
  have hlen : axes'.length = axes.length := by rw [← hf.length_eq, hp.length_eq]
  have hnil : axes' = [] ↔ axes = [] := by rw [← List.length_eq_zero_iff, ← List.length_eq_zero_iff, hlen]
  unfold ofAxes
  by_cases hn : axes = []
  · rw [if_pos hn, if_pos (hnil.mpr hn)]
  · rw [if_neg hn, if_neg fun h => hn (hnil.mp h), he]
    have key : ∀ (Q Q' : Mat3) (o : Outcome ℝ), (∃ q, (o >>= fun P => (pure (P, Q) : Outcome (ℝ × Mat3))) = .ok (P2, q)) → ∃ q, (o >>= fun P => (pure (P, Q') : Outcome (ℝ × Mat3))) = .ok (P2, q) := by
      rintro Q Q' o ⟨q, e⟩
      obtain ⟨P, h1, h2⟩ := Outcome.bind_eq_ok.mp e
      simp only [Outcome.pure_eq, Outcome.ok_inj, Prod.mk.injEq] at h2
      refine ⟨Q', ?_⟩
      rw [h1, Outcome.ok_bind, h2.1, Outcome.pure_eq]
    constructor
    · rintro ⟨q, e⟩
      obtain ⟨r, h1, h2⟩ := Outcome.bind_eq_ok.mp e
      obtain ⟨q', e'⟩ := key _ (qTensor axes') _ ⟨q, h2⟩
      exact ⟨q', by rw [h1, Outcome.ok_bind]; exact e'⟩
    · rintro ⟨q, e⟩
      obtain ⟨r, h1, h2⟩ := Outcome.bind_eq_ok.mp e
      obtain ⟨q', e'⟩ := key _ (qTensor axes) _ ⟨q, h2⟩
      exact ⟨q', by rw [h1, Outcome.ok_bind]; exact e'⟩

theorem one_row0 : (1 : Mat3).r0 = ⟨1, 0, 0⟩ := rfl

theorem one_row1 : (1 : Mat3).r1 = ⟨0, 1, 0⟩ := rfl

theorem one_row2 : (1 : Mat3).r2 = ⟨0, 0, 1⟩ := rfl

/-- C90 fails for a perfectly isotropic system: for three perpendicular particles the tensor is zero, and instead of the order parameter 0 there is an exception. -/
theorem C90_isotropic_violated :
    NematicOrder.calculate ⟨⟨1, 1⟩, [⟨0, 1⟩, ⟨0, ⟨⟨0, 0, 1⟩, ⟨1, 0, 0⟩, ⟨0, 1, 0⟩⟩⟩, ⟨0, ⟨⟨0, 1, 0⟩, ⟨0, 0, 1⟩, ⟨1, 0, 0⟩⟩⟩]⟩ ⟨some ⟨0, 0, 1⟩, none, 0, [], false⟩ = .throw "Assert(p > 0)" ∧
    IsRotation ⟨⟨0, 0, 1⟩, ⟨1, 0, 0⟩, ⟨0, 1, 0⟩⟩ ∧ IsRotation ⟨⟨0, 1, 0⟩, ⟨0, 0, 1⟩, ⟨1, 0, 0⟩⟩ := by
  refine ⟨?_, ?_, ?_⟩
  · unfold NematicOrder.calculate
    rw [getPrimary_mapM rfl, Outcome.ok_bind]
    have hu : ∀ a ∈ [⟨0, 0, 1⟩, ⟨1, 0, 0⟩, (⟨0, 1, 0⟩ : Vec3 ℝ)], a.norm2 = 1 := by
      intro a ha
      simp only [List.mem_cons, List.not_mem_nil, or_false] at ha
      rcases ha with rfl | rfl | rfl <;> norm_num [Vec3.norm2, Vec3.dot]
    have := (C90_order_partial (by simp) hu).2.1 (by ext <;> norm_num [qTensor, accumulate, outer, zero, one_row0, one_row1, one_row2])
    rw [← this]
    congr 1
    simp [Mat3.mulVec, Vec3.dot, Mat3.one_def, Mat3.one]
  all_goals
    refine ⟨?_, ?_⟩
    · unfold Orthogonal
      ext <;> norm_num [Mat3.mul_def, Mat3.mul, one_row0, one_row1, one_row2, Mat3.transpose, Vec3.dot, Mat3.c0, Mat3.c1, Mat3.c2]
    · norm_num [Mat3.det]

/-- Non-vacuity: two perpendicular particles have unit axes and a tensor different from zero, and they are not along one line. -/
example : (∀ a ∈ [⟨1, 0, 0⟩, (⟨0, 1, 0⟩ : Vec3 ℝ)], a.norm2 = 1) ∧ qTensor [⟨1, 0, 0⟩, ⟨0, 1, 0⟩] ≠ zero ∧ ¬AlongOneLine [⟨1, 0, 0⟩, ⟨0, 1, 0⟩] := by
  refine ⟨?_, ?_, ?_⟩
  · intro a ha
    simp only [List.mem_cons, List.not_mem_nil, or_false] at ha
    rcases ha with rfl | rfl <;> norm_num [Vec3.norm2, Vec3.dot]
  · intro h
    have := congrArg (fun M : Mat3 => M.r2.z) h
    norm_num [qTensor, accumulate, outer, zero, one_row0, one_row1, one_row2] at this
  · rintro ⟨n, -, h⟩
    have h1 := h ⟨1, 0, 0⟩ (by simp)
    have h2 := h ⟨0, 1, 0⟩ (by simp)
    rcases h1 with e | e <;> rcases h2 with e' | e' <;>
    · have := congrArg Vec3.x (e.symm)
      have := congrArg Vec3.x (e'.symm)
      simp at *
      linarith

/-- The error does not depend on the order in which the matrix and its transpose are multiplied. -/
theorem drift_error (R : Mat3) : RotationDrift.error R = departure R := by
  unfold RotationDrift.error RotationDrift.matNorm2 departure
  simp only [Mat3.mul_def, Mat3.mul, one_row0, one_row1, one_row2, Mat3.transpose, Vec3.dot, Mat3.c0, Mat3.c1, Mat3.c2, Vec3.norm2, Mat3.sub_r0, Mat3.sub_r1, Mat3.sub_r2, Vec3.sub_x, Vec3.sub_y, Vec3.sub_z]
  ring

theorem departure_nonneg (R : Mat3) : 0 ≤ departure R := by
  unfold departure
  exact add_nonneg (add_nonneg (Vec3.norm2_nonneg _) (Vec3.norm2_nonneg _)) (Vec3.norm2_nonneg _)

theorem drift_fold : ∀ (l : List Shape) (m : ℝ) (M S : ℝ), ∃ m' M', l.foldl RotationDrift.step ⟨some m, M, S⟩ = ⟨some m', M', S + (l.map fun s => departure s.rot).sum⟩ ∧
    m' ≤ m ∧ M ≤ M' ∧ (∀ s ∈ l, m' ≤ departure s.rot ∧ departure s.rot ≤ M') ∧ (m' = m ∨ ∃ s ∈ l, m' = departure s.rot) ∧ (M' = M ∨ ∃ s ∈ l, M' = departure s.rot)
  | [], m, M, S => ⟨m, M, by simp, le_refl _, le_refl _, by simp, Or.inl rfl, Or.inl rfl⟩
  | s :: l, m, M, S => by
    rw [List.foldl_cons]
    have hs : RotationDrift.step ⟨some m, M, S⟩ s = ⟨some (min (departure s.rot) m), max M (departure s.rot), S + departure s.rot⟩ := by
      unfold RotationDrift.step
      simp only [drift_error]
      congr 1
      · by_cases h : departure s.rot < m
        · rw [if_pos h, min_eq_left h.le]
        · rw [if_neg h, min_eq_right (not_lt.mp h)]
      · by_cases h : departure s.rot > M
        · rw [if_pos h, max_eq_right h.le]
        · rw [if_neg h, max_eq_left (not_lt.mp h)]
    obtain ⟨m', M', h1, h2, h3, h4, h5, h6⟩ := drift_fold l (min (departure s.rot) m) (max M (departure s.rot)) (S + departure s.rot)
    refine ⟨m', M', ?_, h2.trans (min_le_right _ _), (le_max_left _ _).trans h3, ?_, ?_, ?_⟩
    · rw [hs, h1, List.map_cons, List.sum_cons, add_assoc]
    · intro t ht
      rcases List.mem_cons.mp ht with rfl | ht
      · exact ⟨h2.trans (min_le_left _ _), (le_max_right _ _).trans h3⟩
      · exact h4 t ht
    · rcases h5 with e | ⟨t, ht, e⟩
      · rcases min_choice (departure s.rot) m with e' | e'
        · exact Or.inr ⟨s, List.mem_cons_self .., e.trans e'⟩
        · exact Or.inl (e.trans e')
      · exact Or.inr ⟨t, List.mem_cons_of_mem _ ht, e⟩
    · rcases h6 with e | ⟨t, ht, e⟩
      · rcases max_choice M (departure s.rot) with e' | e'
        · exact Or.inl (e.trans e')
        · exact Or.inr ⟨s, List.mem_cons_self .., e.trans e'⟩
      · exact Or.inr ⟨t, List.mem_cons_of_mem _ ht, e⟩

theorem departure_zero {R : Mat3} : departure R = 0 ↔ R.transpose * R = 1 := by
  constructor
  · intro h
    have hz : ∀ v : Vec3 ℝ, v.norm2 = 0 → v = 0 := fun v hv => by
      by_contra hne
      exact absurd hv (Vec3.norm2_pos_of_ne hne).ne'
    unfold departure at h
    have p0 := Vec3.norm2_nonneg (R.transpose * R - 1).r0
    have p1 := Vec3.norm2_nonneg (R.transpose * R - 1).r1
    have p2 := Vec3.norm2_nonneg (R.transpose * R - 1).r2
    have z0 := hz _ (by linarith : (R.transpose * R - 1).r0.norm2 = 0)
    have z1 := hz _ (by linarith : (R.transpose * R - 1).r1.norm2 = 0)
    have z2 := hz _ (by linarith : (R.transpose * R - 1).r2.norm2 = 0)
    rw [Mat3.sub_r0] at z0
    rw [Mat3.sub_r1] at z1
    rw [Mat3.sub_r2] at z2
    apply Mat3.ext
    · exact sub_eq_zero.mp z0
    · exact sub_eq_zero.mp z1
    · exact sub_eq_zero.mp z2
  · intro h
    unfold departure
    rw [h]
    simp [Vec3.norm2, Vec3.dot]

/-- C91: the drift of rotation matrices is reported as the mean, the least and the largest departure of orientations from orthogonal matrices, and the largest one is zero exactly if all of them are orthogonal. -/
theorem C91_drift {V : View} (hn : V.shapes ≠ []) : ∃ least largest, RotationDrift.calculate V = .ok (averageOf (fun s => departure s.rot) V.shapes, least, largest) ∧
    (∀ s ∈ V.shapes, least ≤ departure s.rot ∧ departure s.rot ≤ largest) ∧ (∃ s ∈ V.shapes, least = departure s.rot) ∧ (∃ s ∈ V.shapes, largest = departure s.rot) ∧
    (largest = 0 ↔ ∀ s ∈ V.shapes, s.rot.transpose * s.rot = 1) := by
  obtain ⟨b, l⟩ := V
  cases l with
  | nil => exact absurd rfl hn
  | cons s l =>
    obtain ⟨m', M', h1, h2, h3, h4, h5, h6⟩ := drift_fold l (departure s.rot) (departure s.rot) (departure s.rot)
    have hs : RotationDrift.step ⟨none, 0, 0⟩ s = ⟨some (departure s.rot), departure s.rot, departure s.rot⟩ := by
      unfold RotationDrift.step
      simp only [drift_error, zero_add]
      congr 1
      by_cases h : departure s.rot > 0
      · rw [if_pos h]
      · rw [if_neg h]
        exact le_antisymm (departure_nonneg _) (not_lt.mp h)
    have hrange : ∀ t ∈ s :: l, m' ≤ departure t.rot ∧ departure t.rot ≤ M' := by
      intro t ht
      rcases List.mem_cons.mp ht with rfl | ht
      · exact ⟨h2, h3⟩
      · exact h4 t ht
    have hmax : ∃ t ∈ s :: l, M' = departure t.rot := by
      rcases h6 with e | ⟨t, ht, e⟩
      · exact ⟨s, List.mem_cons_self .., e⟩
      · exact ⟨t, List.mem_cons_of_mem _ ht, e⟩
    refine ⟨m', M', ?_, hrange, ?_, hmax, ?_⟩
    · unfold RotationDrift.calculate averageOf
      simp only [List.foldl_cons, hs, h1, List.map_cons, List.sum_cons]
    · rcases h5 with e | ⟨t, ht, e⟩
      · exact ⟨s, List.mem_cons_self .., e⟩
      · exact ⟨t, List.mem_cons_of_mem _ ht, e⟩
    · constructor
      · intro e t ht
        rw [← departure_zero]
        have := (hrange t ht).2
        rw [e] at this
        exact le_antisymm this (departure_nonneg _)
      · intro h
        obtain ⟨t, ht, e⟩ := hmax
        rw [e, departure_zero]
        exact h t ht

/-- Non-vacuity: a packing of two particles, one of which has a matrix which is not orthogonal. -/
example : (⟨⟨1, 1⟩, [⟨0, 1⟩, ⟨0, Mat3.diag 2 1 1⟩]⟩ : View).shapes ≠ [] ∧ departure (Mat3.diag 2 1 1) = 9 := by
  refine ⟨by simp, ?_⟩
  norm_num [departure, Mat3.diag, Mat3.mul_def, Mat3.mul, one_row0, one_row1, one_row2, Mat3.transpose, Vec3.dot, Mat3.c0, Mat3.c1, Mat3.c2, Vec3.norm2]

end

end Rampack
