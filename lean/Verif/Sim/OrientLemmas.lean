import Verif.Sim.SoundLemmas
import Verif.Sim.OrientSpec
import Mathlib.Tactic.LinearCombination
/-
Orientations of molecules in runs.
-/
namespace Rampack

open Spec Packing

theorem axisRotation_entries (n : Vec3 ℝ) (a : ℝ) : axisRotation n a =
    ⟨⟨1 - (1 - Real.cos a) * (n.y * n.y + n.z * n.z), -(Real.sin a * n.z) + (1 - Real.cos a) * (n.x * n.y),
        Real.sin a * n.y + (1 - Real.cos a) * (n.x * n.z)⟩,
      ⟨Real.sin a * n.z + (1 - Real.cos a) * (n.x * n.y), 1 - (1 - Real.cos a) * (n.x * n.x + n.z * n.z),
        -(Real.sin a * n.x) + (1 - Real.cos a) * (n.y * n.z)⟩,
      ⟨-(Real.sin a * n.y) + (1 - Real.cos a) * (n.x * n.z), Real.sin a * n.x + (1 - Real.cos a) * (n.y * n.z),
        1 - (1 - Real.cos a) * (n.x * n.x + n.y * n.y)⟩⟩ := by
  unfold axisRotation
  ext <;> simp [Mat3.mul_def, Mat3.mul, Mat3.one_def, Mat3.one, Vec3.dot, Mat3.c0, Mat3.c1, Mat3.c2] <;> ring

theorem axisRotation_isRotation {n : Vec3 ℝ} (hn : n.norm2 = 1) (a : ℝ) : IsRotation (axisRotation n a) := by
  rw [axisRotation_entries]
  have hs := Real.sin_sq_add_cos_sq a
  generalize Real.sin a = s at *
  generalize Real.cos a = c at *
  obtain ⟨x, y, z⟩ := n
  have hq : x * x + y * y + z * z = 1 := hn
  have he : 2 * (1 - c) - (1 - c) * (1 - c) * (x * x + y * y + z * z) - s * s = 0 := by rw [hq]; linear_combination -hs
  constructor
  · unfold Orthogonal
    ext <;> simp only [Mat3.mul_def, Mat3.mul, Mat3.one_def, Mat3.one, Vec3.dot, Mat3.transpose, Mat3.c0, Mat3.c1, Mat3.c2]
    · linear_combination (-(y * y + z * z)) * he
    · linear_combination (x * y) * he
    · linear_combination (x * z) * he
    · linear_combination (x * y) * he
    · linear_combination (-(x * x + z * z)) * he
    · linear_combination (y * z) * he
    · linear_combination (x * z) * he
    · linear_combination (y * z) * he
    · linear_combination (-(x * x + y * y)) * he
  · have : Mat3.det ⟨⟨1 - (1 - c) * (y * y + z * z), -(s * z) + (1 - c) * (x * y), s * y + (1 - c) * (x * z)⟩,
        ⟨s * z + (1 - c) * (x * y), 1 - (1 - c) * (x * x + z * z), -(s * x) + (1 - c) * (y * z)⟩,
        ⟨-(s * y) + (1 - c) * (x * z), s * x + (1 - c) * (y * z), 1 - (1 - c) * (x * x + y * y)⟩⟩ =
        (1 - (1 - c) * (x * x + y * y + z * z)) ^ 2 + s ^ 2 * (x * x + y * y + z * z) := by
      simp only [Mat3.det]; ring
    rw [this, hq]
    linear_combination hs

theorem axisRotation_about {n : Vec3 ℝ} (hn : n.norm2 = 1) (a : ℝ) : RotatesAbout (axisRotation n a) n a := by
  rw [axisRotation_entries]
  unfold RotatesAbout
  generalize Real.sin a = s at *
  generalize Real.cos a = c at *
  obtain ⟨x, y, z⟩ := n
  have hq : x * x + y * y + z * z = 1 := hn
  refine ⟨?_, ?_⟩
  · intro k
    ext <;> simp [Mat3.mulVec, Vec3.dot] <;> ring
  · rintro ⟨p, q, r⟩ hv
    have hv : x * p + y * q + z * r = 0 := hv
    ext <;> simp [Mat3.mulVec, Vec3.dot, Vec3.cross]
    · linear_combination (1 - c) * x * hv - (1 - c) * p * hq
    · linear_combination (1 - c) * y * hv - (1 - c) * q * hq
    · linear_combination (1 - c) * z * hv - (1 - c) * r * hq

theorem normalize_ok {v n : Vec3 ℝ} (h : normalize v = .ok n) : n.norm2 = 1 := by
  unfold normalize at h
  split_ifs at h with h0
  injection h with h
  subst h
  have h2 := v.norm_sq
  have h3 : v.norm2 = v.x * v.x + v.y * v.y + v.z * v.z := rfl
  unfold Vec3.norm2 Vec3.dot
  simp only
  field_simp
  rw [h2, h3]
  ring

theorem isRotation_mul {A B : Mat3} (hA : IsRotation A) (hB : IsRotation B) : IsRotation (A * B) := by
  refine ⟨?_, by rw [Mat3.det_mul, hA.2, hB.2]; ring⟩
  have h1 : A.transpose * A = 1 := hA.1
  have h2 : B.transpose * B = 1 := hB.1
  show (A * B).transpose * (A * B) = 1
  rw [Mat3.transpose_mul, Mat3.mul_assoc, ← Mat3.mul_assoc A.transpose, h1, Mat3.one_mul, h2]

theorem orthogonal_step {R : Mat3} (h : Orthogonal R) : fixRotationStep R = R := by
  have h : R.transpose * R = 1 := h
  unfold fixRotationStep
  rw [Mat3.mul_assoc, h, Mat3.mul_one]
  ext <;> simp <;> ring

theorem orthogonal_fixed {s : Shape} (h : Orthogonal s.rot) : s.fixed = s := by
  unfold Shape.fixed fixRotationMatrix
  rw [orthogonal_step h, orthogonal_step h, orthogonal_step h]

/-- A sampled move turns the molecule by a proper rotation, if at all. -/
theorem Sampler.sampleMove_rotation {P : Packing} {idxs : List Nat} {t t' : Tape} {s s' : Sampler} {mv : MoveData}
    (h : s.sampleMove P idxs t = .ok (mv, s', t')) :
    match mv.kind with
    | .translation _ => True
    | .rotation R => ∃ axis angle, axis.norm2 = 1 ∧ R = axisRotation axis angle
    | .move _ R => ∃ axis angle, axis.norm2 = 1 ∧ R = axisRotation axis angle := by
  rcases s with x | ⟨x, m, i⟩ | ⟨x, _ | y, m, i⟩ | ⟨e, a, o, z⟩
  · unfold sampleMove at h
    obtain ⟨⟨R, t1⟩, h1, h⟩ := Outcome.bind_eq_ok.mp h
    simp only at h
    obtain ⟨⟨j, t2⟩, h2, h⟩ := Outcome.bind_eq_ok.mp h
    obtain ⟨n, v, k, h3, h4, -⟩ := sampleRotation_ok h1
    injection h with h
    injection h with h6 h7
    subst h6
    exact ⟨n, _, normalize_ok h3, h4⟩
  · unfold sampleMove at h
    simp only [sampleTranslation] at h
    obtain ⟨⟨j, t2⟩, h2, h⟩ := Outcome.bind_eq_ok.mp h
    injection h with h
    injection h with h6 h7
    subst h6
    trivial
  · cases h
  · unfold sampleMove at h
    simp only [sampleTranslation] at h
    obtain ⟨⟨R, t1⟩, h1, h⟩ := Outcome.bind_eq_ok.mp h
    simp only at h
    obtain ⟨⟨j, t2⟩, h2, h⟩ := Outcome.bind_eq_ok.mp h
    obtain ⟨n, v, k, h3, h4, -⟩ := sampleRotation_ok h1
    injection h with h
    injection h with h6 h7
    subst h6
    exact ⟨n, _, normalize_ok h3, h4⟩
  · unfold sampleMove at h
    obtain ⟨⟨j, t2⟩, h2, h⟩ := Outcome.bind_eq_ok.mp h
    simp only at h
    obtain ⟨sh, h3, h⟩ := Outcome.bind_eq_ok.mp h
    obtain ⟨kd, h4, h⟩ := Outcome.bind_eq_ok.mp h
    injection h with h
    injection h with h7 h8
    subst h7
    unfold flipMove at h4
    obtain ⟨n, h5, h4⟩ := Outcome.bind_eq_ok.mp h4
    rcases Outcome.ite_eq_ok.mp h4 with ⟨-, h4⟩ | ⟨-, h4⟩
    · injection h4 with h4
      subst h4
      exact ⟨n, _, normalize_ok h5, rfl⟩
    · injection h4 with h4
      subst h4
      exact ⟨n, _, normalize_ok h5, rfl⟩

theorem Sampler.sampleMove_proper {P : Packing} {idxs : List Nat} {t t' : Tape} {s s' : Sampler} {mv : MoveData}
    (h : s.sampleMove P idxs t = .ok (mv, s', t')) {b : Box} {sh : Shape} (hs : IsRotation sh.rot) :
    IsRotation (mv.kind.apply b sh).rot := by
  have := Sampler.sampleMove_rotation h
  cases hk : mv.kind with
  | translation v => exact hs
  | rotation R =>
    rw [hk] at this
    obtain ⟨n, a, h1, rfl⟩ := this
    exact isRotation_mul (axisRotation_isRotation h1 a) hs
  | move v R =>
    rw [hk] at this
    obtain ⟨n, a, h1, rfl⟩ := this
    exact isRotation_mul (axisRotation_isRotation h1 a) hs

namespace Sim

/-- Sound, with proper orientations. -/
def Proper (T : Traits) (n : Nat) (S : Sim) : Prop := Sound T n S ∧ ProperlyOriented S.P

theorem proper_kept (T : Traits) (n : Nat) : Kept T n (Proper T n) where
  size h := ⟨h.1.size, h.1.all⟩
  core h hs := ⟨h.1.core hs, by rw [hs.P]; exact h.2⟩
  tape h ht := ⟨h.1.tape ht, h.2⟩
  move h hi hm := by
    obtain ⟨h1, -, h2⟩ := h.1.tryMove hi hm
    refine ⟨h1, ?_⟩
    rcases h2 with ⟨h2, -⟩ | ⟨s, mv, s', t, t', sh, h2, -, h3, h4, -⟩
    · unfold ProperlyOriented
      rw [h2]
      exact h.2
    · intro x hx
      rw [h4] at hx
      rcases List.mem_or_eq_of_mem_set hx with hx | rfl
      · exact h.2 x hx
      · exact Sampler.sampleMove_proper h2 (h.2 sh (List.mem_of_getElem? h3))
  scaling h hs := by
    obtain ⟨h1, -, -, h2⟩ := h.1.tryScaling hs
    refine ⟨h1, ?_⟩
    rcases h2 with ⟨h2, -⟩ | ⟨s, b, t, t', M, dE, -, -, -, -, -, h3, -⟩
    · unfold ProperlyOriented
      rw [h2]
      exact h.2
    · intro x hx
      rw [h3, List.mem_map] at hx
      obtain ⟨y, hy, rfl⟩ := hx
      exact h.2 y hy
  thermo h hs := by
    obtain ⟨h1, h2, -⟩ := h.1.updateThermo hs
    exact ⟨h1, by rw [h2]; exact h.2⟩
  fix h hs := by
    obtain ⟨h1, -, ⟨bs, -, h2⟩, -⟩ := h.1.fixRotationMatrices hs
    refine ⟨h1, ?_⟩
    intro x hx
    rw [h2] at hx
    unfold fixSome at hx
    obtain ⟨i, hi, rfl⟩ := List.getElem_of_mem hx
    rw [List.getElem_zipWith]
    have hi' : i < (mols _).length := lt_of_lt_of_le hi (by rw [List.length_zipWith]; exact min_le_right _ _)
    have := h.2 _ (List.getElem_mem hi')
    split_ifs
    · rw [orthogonal_fixed this.1]; exact this
    · exact this

end Sim

end Rampack
