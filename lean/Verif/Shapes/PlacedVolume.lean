import Verif.Shapes.CompositeProps4
import Verif.Geometry.XenoSpec
import Verif.Geometry.XenoProps
import Mathlib.MeasureTheory.Measure.Lebesgue.EqHaar
/-
The volume of a body does not depend on its position and orientation.
-/
namespace Rampack.Volume

open Rampack Spec Shapes MeasureTheory

/-- A triple of numbers as a vector, and back. -/
def vec (p : (ℝ × ℝ) × ℝ) : Vec3 ℝ := ⟨p.1.1, p.1.2, p.2⟩
def tri (v : Vec3 ℝ) : (ℝ × ℝ) × ℝ := ((v.x, v.y), v.z)

/-- The matrix acting on triples. -/
def act (m : Mat3) : ((ℝ × ℝ) × ℝ) →ₗ[ℝ] ((ℝ × ℝ) × ℝ) where
  toFun p := tri (m.mulVec (vec p))
  map_add' p q := by
    simp only [tri, vec, Mat3.mulVec, Vec3.dot, Prod.mk_add_mk, Prod.fst_add, Prod.snd_add, Prod.mk.injEq]
    refine ⟨⟨?_, ?_⟩, ?_⟩ <;> ring
  map_smul' c p := by
    simp only [tri, vec, Mat3.mulVec, Vec3.dot, Prod.smul_mk, Prod.smul_fst, Prod.smul_snd, smul_eq_mul, RingHom.id_apply, Prod.mk.injEq]
    refine ⟨⟨?_, ?_⟩, ?_⟩ <;> ring

theorem act_apply (m : Mat3) (p : (ℝ × ℝ) × ℝ) : vec (act m p) = m.mulVec (vec p) := rfl

theorem haar3 : (volume : Measure ((ℝ × ℝ) × ℝ)).IsAddHaarMeasure := by
  have h1 : (volume : Measure ((ℝ × ℝ) × ℝ)) = ((volume : Measure ℝ).prod volume).prod volume := rfl
  rw [h1]
  exact Measure.prod.instIsAddHaarMeasure _ _

/-- Rotations keep volumes: the linear map keeps the ball, so its determinant is one or minus one. -/
theorem act_volume {m : Mat3} (ho : Orthogonal m) (s : Set ((ℝ × ℝ) × ℝ)) : volume (act m ⁻¹' s) = volume s := by
  haveI := haar3
  have hball : ∀ p : (ℝ × ℝ) × ℝ, p ∈ points (Ball ⟨0, 0, 0⟩ 1) ↔ (vec p).norm2 < 1 := by
    intro p
    show ((vec p) - ⟨0, 0, 0⟩).norm2 < 1 ^ 2 ↔ _
    rw [one_pow, show vec p - ⟨0, 0, 0⟩ = vec p by ext <;> simp]
  have hb : act m ⁻¹' points (Ball ⟨0, 0, 0⟩ 1) = points (Ball ⟨0, 0, 0⟩ 1) := by
    ext p
    rw [Set.mem_preimage, hball, hball, act_apply, orthogonal_norm2 ho]
  have hinv : act m ∘ₗ act m.transpose = LinearMap.id := by
    ext p <;> simp only [LinearMap.comp_apply, LinearMap.coe_inl, LinearMap.coe_inr, Function.comp_apply, LinearMap.id_apply] <;>
      (first | skip) <;>
      (show _ = _) <;>
      simp only [act, LinearMap.coe_mk, AddHom.coe_mk] <;>
      (rw [show ∀ v, vec (tri v) = v from fun v => rfl, Mat3.mulVec_mulVec, Xeno.orthogonal_transpose ho, Mat3.one_mulVec]) <;> rfl
  have hdet : LinearMap.det (act m) ≠ 0 := by
    intro h0
    have := congrArg LinearMap.det hinv
    rw [LinearMap.det_comp, h0, zero_mul, LinearMap.det_id] at this
    exact zero_ne_one this
  have hv := Measure.addHaar_preimage_linearMap volume hdet (points (Ball ⟨0, 0, 0⟩ 1))
  rw [hb, ball_volume 0 one_pos] at hv
  rw [Measure.addHaar_preimage_linearMap volume hdet s]
  have hpos : ENNReal.ofReal (4 / 3 * Real.pi * 1 ^ 3) ≠ 0 := by
    rw [ne_eq, ENNReal.ofReal_eq_zero, not_le]
    have := Real.pi_pos
    positivity
  have h1 : ENNReal.ofReal |(LinearMap.det (act m))⁻¹| = 1 := by
    have h2 : 1 * ENNReal.ofReal (4 / 3 * Real.pi * 1 ^ 3) = ENNReal.ofReal |(LinearMap.det (act m))⁻¹| * ENNReal.ofReal (4 / 3 * Real.pi * 1 ^ 3) := by rw [one_mul]; exact hv
    exact ((ENNReal.mul_left_inj hpos ENNReal.ofReal_ne_top).mp h2).symm
  rw [h1, one_mul]

theorem orthogonal_flip {m : Mat3} (ho : Orthogonal m) : Orthogonal m.transpose := by
  have := Xeno.orthogonal_transpose ho
  unfold Orthogonal
  have e : m.transpose.transpose = m := by ext <;> rfl
  rw [e]; exact this

theorem placed_iff {B : Vec3 ℝ → Prop} {m : Mat3} (ho : Orthogonal m) (pos p : Vec3 ℝ) : Placed B m pos p ↔ B (m.transpose.mulVec (p - pos)) := by
  constructor
  · rintro ⟨q, hq, rfl⟩
    rw [show m.mulVec q + pos - pos = m.mulVec q by ext <;> simp, Mat3.mulVec_mulVec, show m.transpose * m = 1 from ho, Mat3.one_mulVec]
    exact hq
  · intro h
    refine ⟨_, h, ?_⟩
    rw [Mat3.mulVec_mulVec, Xeno.orthogonal_transpose ho, Mat3.one_mulVec]
    ext <;> simp

theorem placed_volume (B : Vec3 ℝ → Prop) {m : Mat3} (ho : Orthogonal m) (pos : Vec3 ℝ) : volume (points (Placed B m pos)) = volume (points B) := by
  have e : points (Placed B m pos) = points (movedBy pos fun p => B (m.transpose.mulVec p)) := by
    ext p; exact placed_iff ho pos _
  rw [e, moved_volume, ← act_volume (orthogonal_flip ho) (points B)]
  rfl

theorem placed_measurable {B : Vec3 ℝ → Prop} (h : MeasurableSet (points B)) {m : Mat3} (ho : Orthogonal m) (pos : Vec3 ℝ) : MeasurableSet (points (Placed B m pos)) := by
  have e : points (Placed B m pos) = points (movedBy pos fun p => B (m.transpose.mulVec p)) := by
    ext p; exact placed_iff ho pos _
  rw [e]
  refine moved_measurable ?_ pos
  have : points (fun p => B (m.transpose.mulVec p)) = act m.transpose ⁻¹' points B := rfl
  rw [this]
  have hc : Continuous (act m.transpose) := LinearMap.continuous_of_finiteDimensional _
  exact hc.measurable h

end Rampack.Volume
