import Verif.Packing.RenormLemmas
import Verif.Packing.RenormSpec
import Mathlib.LinearAlgebra.Matrix.PosDef
import Mathlib.Analysis.Matrix.Normed
import Mathlib.Algebra.Order.Star.Real
import Mathlib.Tactic.NoncommRing
import Mathlib.Tactic.Module
/-
Helper lemmas: what one iteration of the orientation fix does to the deviation from orthogonality.
-/
namespace Rampack

open Matrix

/-- 3×3 matrices as Mathlib's matrices. -/
def Mat3.toM (R : Mat3) : Matrix (Fin 3) (Fin 3) ℝ :=
  !![R.r0.x, R.r0.y, R.r0.z; R.r1.x, R.r1.y, R.r1.z; R.r2.x, R.r2.y, R.r2.z]

/-- Vectors as functions. -/
def Vec3.toF (v : Vec3 ℝ) : Fin 3 → ℝ := ![v.x, v.y, v.z]

namespace Mat3

theorem toM_mul (A B : Mat3) : (A * B).toM = A.toM * B.toM := by
  ext i j
  fin_cases i <;> fin_cases j <;>
    simp [toM, mul_def, mul, Vec3.dot, c0, c1, c2, Matrix.mul_apply, Fin.sum_univ_three]

theorem toM_sub (A B : Mat3) : (A - B).toM = A.toM - B.toM := by
  ext i j
  fin_cases i <;> fin_cases j <;> simp [toM]

theorem toM_smul (k : ℝ) (A : Mat3) : (k • A).toM = k • A.toM := by
  ext i j
  fin_cases i <;> fin_cases j <;> simp [toM]

theorem toM_one : (1 : Mat3).toM = 1 := by
  ext i j
  fin_cases i <;> fin_cases j <;> simp [toM, one_def, one]

theorem toM_transpose (A : Mat3) : A.transpose.toM = A.toMᵀ := by
  ext i j
  fin_cases i <;> fin_cases j <;> simp [toM, transpose, c0, c1, c2]

theorem toM_mulVec (A : Mat3) (v : Vec3 ℝ) : (A.mulVec v).toF = A.toM *ᵥ v.toF := by
  ext i
  fin_cases i <;> simp [toM, mulVec, Vec3.toF, Vec3.dot, Matrix.mulVec, dotProduct, Fin.sum_univ_three]

end Mat3

theorem Vec3.norm2_toF (v : Vec3 ℝ) : v.norm2 = v.toF ⬝ᵥ v.toF := by
  simp [Vec3.norm2, Vec3.dot, Vec3.toF, dotProduct, Fin.sum_univ_three]

namespace Ortho

variable (A : Matrix (Fin 3) (Fin 3) ℝ)

/-- Deviation of `AᵀA` from the identity. -/
def dev : Matrix (Fin 3) (Fin 3) ℝ := Aᵀ * A - 1

/-- One iteration. -/
noncomputable def step : Matrix (Fin 3) (Fin 3) ℝ := (3 / 2 : ℝ) • A - ((1 / 2 : ℝ) • A) * Aᵀ * A

theorem dev_transpose : (dev A)ᵀ = dev A := by
  simp [dev, Matrix.transpose_mul, Matrix.transpose_sub]

theorem step_eq : step A = A * (1 - (1 / 2 : ℝ) • dev A) := by
  unfold step dev
  simp only [Matrix.mul_sub, Matrix.mul_smul, Matrix.smul_mul, Matrix.mul_one, smul_sub, Matrix.mul_assoc]
  module

theorem dev_step : dev (step A) = (1 / 4 : ℝ) • (dev A * dev A * dev A - (3 : ℝ) • (dev A * dev A)) := by
  have h : Aᵀ * A = 1 + dev A := by unfold dev; abel
  have ht : (step A)ᵀ = (1 - (1 / 2 : ℝ) • dev A) * Aᵀ := by
    rw [step_eq, Matrix.transpose_mul, Matrix.transpose_sub, Matrix.transpose_smul, dev_transpose, Matrix.transpose_one]
  have : dev (step A) = (1 - (1 / 2 : ℝ) • dev A) * (Aᵀ * A) * (1 - (1 / 2 : ℝ) • dev A) - 1 := by
    rw [dev, ht, step_eq]; simp only [Matrix.mul_assoc]
  rw [this, h]
  generalize dev A = D
  simp only [Matrix.mul_sub, Matrix.sub_mul, Matrix.mul_add, Matrix.add_mul, Matrix.mul_smul, Matrix.smul_mul, Matrix.mul_one,
    Matrix.one_mul, smul_sub, Matrix.mul_assoc, smul_smul]
  module

/-- No direction is stretched by more than `√5`. -/
def Tame : Prop := (5 - Aᵀ * A).PosSemidef

variable {A}

theorem smul_psd {M : Matrix (Fin 3) (Fin 3) ℝ} (h : M.PosSemidef) {k : ℝ} (hk : 0 ≤ k) : (k • M).PosSemidef := h.smul hk

theorem sandwich {M B : Matrix (Fin 3) (Fin 3) ℝ} (h : M.PosSemidef) (hB : Bᵀ = B) : (B * M * B).PosSemidef := by
  have := h.conjTranspose_mul_mul_same B
  rwa [Matrix.conjTranspose_eq_transpose_of_trivial, hB] at this

theorem five_eq : (5 : Matrix (Fin 3) (Fin 3) ℝ) = (5 : ℝ) • 1 := by
  rw [← Matrix.diagonal_one, ← Matrix.diagonal_smul]
  ext i j; simp [Matrix.diagonal, Matrix.ofNat_apply]

theorem Tame.step (h : Tame A) : Tame (step A) := by
  have e : 5 - (Ortho.step A)ᵀ * Ortho.step A = (5 : ℝ) • 1 - (1 + dev (Ortho.step A)) := by
    rw [five_eq]; unfold dev; abel
  unfold Tame
  rw [e, dev_step]
  have h' : (5 - Aᵀ * A) = (4 : ℝ) • 1 - dev A := by
    rw [five_eq]; unfold dev; module
  unfold Tame at h
  rw [h'] at h
  have ht := dev_transpose A
  generalize dev A = D at h ht ⊢
  have hB : (D + (1 / 2 : ℝ) • 1)ᵀ = D + (1 / 2 : ℝ) • 1 := by
    rw [Matrix.transpose_add, ht, Matrix.transpose_smul, Matrix.transpose_one]
  have key := (smul_psd (sandwich h hB) (k := 1 / 4) (by norm_num)).add (smul_psd h (k := 15 / 16) (by norm_num))
  convert key using 1
  simp only [Matrix.mul_sub, Matrix.sub_mul, Matrix.mul_add, Matrix.add_mul, Matrix.mul_smul, Matrix.smul_mul, Matrix.mul_one,
    Matrix.one_mul, smul_sub, smul_add, Matrix.mul_assoc, smul_smul]
  module

theorem trace_step (h : Tame A) : (dev (step A) * dev (step A)).trace ≤ (dev A * dev A).trace := by
  have hAA : 5 - Aᵀ * A = (4 : ℝ) • 1 - dev A := by
    rw [five_eq]; unfold dev; module
  have ht := dev_transpose A
  have hM : ((1 + dev A) * ((4 : ℝ) • 1 - dev A)).PosSemidef := by
    have h1 : (1 + dev A) = Aᵀ * A := by unfold dev; abel
    have hT : (5 - A * Aᵀ).PosSemidef := by
      have h5 : (5 - A * Aᵀ)ᵀ = 5 - A * Aᵀ := by
        rw [five_eq]; simp [Matrix.transpose_mul, Matrix.transpose_sub]
      have q1 := Matrix.PosSemidef.one.conjTranspose_mul_mul_same (R := ℝ) (5 - A * Aᵀ)
      have q2 := h.mul_mul_conjTranspose_same A
      rw [Matrix.conjTranspose_eq_transpose_of_trivial, h5, Matrix.mul_one] at q1
      rw [Matrix.conjTranspose_eq_transpose_of_trivial] at q2
      convert smul_psd (q1.add q2) (k := 1 / 5) (by norm_num) using 1
      rw [five_eq]
      simp only [Matrix.mul_sub, Matrix.sub_mul, Matrix.mul_smul, Matrix.smul_mul, Matrix.mul_one,
        Matrix.one_mul, smul_sub, smul_add, Matrix.mul_assoc, smul_smul]
      module
    have := hT.conjTranspose_mul_mul_same A
    rw [Matrix.conjTranspose_eq_transpose_of_trivial] at this
    convert this using 1
    rw [← hAA, h1, five_eq]
    simp only [Matrix.mul_sub, Matrix.sub_mul, Matrix.mul_smul, Matrix.smul_mul, Matrix.mul_one, Matrix.one_mul, Matrix.mul_assoc]
  rw [dev_step]
  generalize dev A = D at ht hM ⊢
  have hB : (D - (3 / 2 : ℝ) • 1)ᵀ = D - (3 / 2 : ℝ) • 1 := by
    rw [Matrix.transpose_sub, ht, Matrix.transpose_smul, Matrix.transpose_one]
  have key := (sandwich ((smul_psd (sandwich hM hB) (k := 1 / 16) (by norm_num)).add
    (smul_psd hM (k := 7 / 64) (by norm_num))) ht).trace_nonneg
  rw [← sub_nonneg, ← Matrix.trace_sub]
  refine le_of_le_of_eq key (congrArg Matrix.trace ?_)
  simp only [Matrix.mul_sub, Matrix.sub_mul, Matrix.mul_add, Matrix.add_mul, Matrix.mul_smul, Matrix.smul_mul, Matrix.mul_one,
    Matrix.one_mul, smul_sub, smul_add, Matrix.mul_assoc, smul_smul]
  module

section Norm
open scoped Matrix.Norms.Frobenius

theorem trace_eq_norm (A : Matrix (Fin 3) (Fin 3) ℝ) : (dev A * dev A).trace = ‖dev A‖ ^ 2 := by
  rw [Matrix.frobenius_norm_def, ← Real.sqrt_eq_rpow, Real.sq_sqrt (Finset.sum_nonneg fun i _ => Finset.sum_nonneg fun j _ => by positivity)]
  simp only [Matrix.trace, Matrix.diag, Matrix.mul_apply]
  refine Finset.sum_congr rfl fun i _ => Finset.sum_congr rfl fun j _ => ?_
  have : dev A j i = dev A i j := congrFun (congrFun (dev_transpose A) i) j
  rw [this, Real.rpow_two, Real.norm_eq_abs, sq_abs, sq]

theorem norm_step (A : Matrix (Fin 3) (Fin 3) ℝ) (h : (dev A * dev A).trace ≤ 1) :
    (dev (step A) * dev (step A)).trace ≤ (dev A * dev A).trace ^ 2 := by
  rw [trace_eq_norm] at h ⊢
  rw [trace_eq_norm, dev_step]
  have h1 : ‖dev A‖ ≤ 1 := by nlinarith [norm_nonneg (dev A)]
  have h2 : ‖dev A * dev A‖ ≤ ‖dev A‖ ^ 2 := by rw [sq]; exact Matrix.frobenius_norm_mul _ _
  have h3 : ‖dev A * dev A * dev A‖ ≤ ‖dev A‖ ^ 2 := by
    refine (Matrix.frobenius_norm_mul _ _).trans ?_
    nlinarith [norm_nonneg (dev A), norm_nonneg (dev A * dev A)]
  have h4 : ‖(1 / 4 : ℝ) • (dev A * dev A * dev A - (3 : ℝ) • (dev A * dev A))‖ ≤ ‖dev A‖ ^ 2 := by
    rw [norm_smul]
    have := norm_sub_le (dev A * dev A * dev A) ((3 : ℝ) • (dev A * dev A))
    rw [norm_smul] at this
    norm_num at this ⊢
    linarith
  exact pow_le_pow_left₀ (norm_nonneg _) h4 2

end Norm

theorem step_toM (R : Mat3) : (Packing.fixRotationStep R).toM = step R.toM := by
  unfold Packing.fixRotationStep step
  rw [Mat3.toM_sub, Mat3.toM_smul, Mat3.toM_mul, Mat3.toM_mul, Mat3.toM_smul, Mat3.toM_transpose]

theorem fix_toM (R : Mat3) : (Packing.fixRotationMatrix R).toM = step (step (step R.toM)) := by
  unfold Packing.fixRotationMatrix
  rw [step_toM, step_toM, step_toM]

theorem defect_toM (R : Mat3) : Spec.defect R = (dev R.toM * dev R.toM).trace := by
  simp only [Spec.defect, dev, Mat3.toM, Matrix.trace, Matrix.diag, Matrix.mul_apply, Matrix.sub_apply, Matrix.one_apply,
    Matrix.transpose_apply, Fin.sum_univ_three, Vec3.dot, Mat3.c0, Mat3.c1, Mat3.c2]
  simp
  ring

theorem tame_of_stretch {R : Mat3} (h : ∀ v, (R.mulVec v).norm2 ≤ 5 * v.norm2) : Tame R.toM := by
  refine Matrix.PosSemidef.of_dotProduct_mulVec_nonneg ?_ ?_
  · show _ = _
    rw [Matrix.conjTranspose_eq_transpose_of_trivial, five_eq]
    simp [Matrix.transpose_sub, Matrix.transpose_mul]
  · intro x
    have hx := h ⟨x 0, x 1, x 2⟩
    have ex : (⟨x 0, x 1, x 2⟩ : Vec3 ℝ).toF = x := by
      ext i; fin_cases i <;> rfl
    rw [Vec3.norm2_toF, Vec3.norm2_toF, Mat3.toM_mulVec, ex] at hx
    rw [five_eq, star_trivial, Matrix.sub_mulVec, Matrix.smul_mulVec, Matrix.one_mulVec, dotProduct_sub, dotProduct_smul,
      ← Matrix.mulVec_mulVec, Matrix.dotProduct_mulVec x, Matrix.vecMul_transpose]
    simpa using hx

theorem fix_defect {R : Mat3} (h : ∀ v, (R.mulVec v).norm2 ≤ 5 * v.norm2) :
    Spec.defect (Packing.fixRotationMatrix R) ≤ Spec.defect R := by
  have h0 := tame_of_stretch h
  rw [defect_toM, defect_toM, fix_toM]
  exact (trace_step h0.step.step).trans ((trace_step h0.step).trans (trace_step h0))

theorem defect_nonneg (R : Mat3) : 0 ≤ Spec.defect R := by
  unfold Spec.defect; positivity

theorem fix_rate {R : Mat3} (h : Spec.defect R ≤ 1) : Spec.defect (Packing.fixRotationMatrix R) ≤ Spec.defect R ^ 8 := by
  have h0 := defect_nonneg R
  rw [defect_toM] at h h0
  rw [defect_toM, defect_toM, fix_toM]
  have a1 := norm_step R.toM h
  have a2 := norm_step (step R.toM) (a1.trans (pow_le_one₀ h0 h))
  have b1 : 0 ≤ (dev (step R.toM) * dev (step R.toM)).trace := by rw [trace_eq_norm]; positivity
  have b2 : 0 ≤ (dev (step (step R.toM)) * dev (step (step R.toM))).trace := by rw [trace_eq_norm]; positivity
  have c1 := pow_le_pow_left₀ b1 a1 2
  have a3 := norm_step (step (step R.toM)) (a2.trans (pow_le_one₀ b1 (a1.trans (pow_le_one₀ h0 h))))
  have c2 := pow_le_pow_left₀ b2 (a2.trans c1) 2
  calc _ ≤ _ := a3
    _ ≤ _ := c2
    _ = _ := by ring

end Ortho

end Rampack
