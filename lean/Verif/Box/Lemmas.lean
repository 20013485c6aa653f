import Verif.Box.Model
/-
Helper lemmas about boxes and periodic boundary conditions.
-/
namespace Rampack

namespace Box

/-- Invariant of every constructed box. -/
structure WF (b : Box) : Prop where
  det_ne : b.dims.det ≠ 0
  inv_eq : b.inv = b.dims.inverse

theorem make_wf {m : Mat3} {b : Box} (h : make m = .ok b) : b.WF ∧ b.dims = m := by
  unfold make at h
  split at h
  · cases h
  · next hd => cases h; exact ⟨⟨hd, rfl⟩, rfl⟩

variable {b : Box}

theorem relToAbs_absToRel (h : b.WF) (p : Vec3 ℝ) : b.relToAbs (b.absToRel p) = p := by
  rw [relToAbs, absToRel, Mat3.mulVec_mulVec, h.inv_eq, Mat3.mul_inverse_cancel h.det_ne, Mat3.one_mulVec]

theorem absToRel_relToAbs (h : b.WF) (s : Vec3 ℝ) : b.absToRel (b.relToAbs s) = s := by
  rw [relToAbs, absToRel, Mat3.mulVec_mulVec, h.inv_eq, Mat3.inverse_mul_cancel h.det_ne, Mat3.one_mulVec]

theorem relToAbs_add (s t : Vec3 ℝ) : b.relToAbs (s + t) = b.relToAbs s + b.relToAbs t := Mat3.mulVec_add _ _ _
theorem relToAbs_sub (s t : Vec3 ℝ) : b.relToAbs (s - t) = b.relToAbs s - b.relToAbs t := Mat3.mulVec_sub _ _ _
theorem relToAbs_neg (s : Vec3 ℝ) : b.relToAbs (-s) = -b.relToAbs s := Mat3.mulVec_neg _ _
theorem absToRel_add (s t : Vec3 ℝ) : b.absToRel (s + t) = b.absToRel s + b.absToRel t := Mat3.mulVec_add _ _ _
theorem absToRel_sub (s t : Vec3 ℝ) : b.absToRel (s - t) = b.absToRel s - b.absToRel t := Mat3.mulVec_sub _ _ _
theorem absToRel_neg (s : Vec3 ℝ) : b.absToRel (-s) = -b.absToRel s := Mat3.mulVec_neg _ _

theorem sides_x : b.sides.x = b.dims.c0 := by
  ext <;> simp [sides, relToAbs, Mat3.mulVec, Vec3.dot, Mat3.c0]
theorem sides_y : b.sides.y = b.dims.c1 := by
  ext <;> simp [sides, relToAbs, Mat3.mulVec, Vec3.dot, Mat3.c1]
theorem sides_z : b.sides.z = b.dims.c2 := by
  ext <;> simp [sides, relToAbs, Mat3.mulVec, Vec3.dot, Mat3.c2]

theorem triple_eq_det : (b.sides.x.cross b.sides.y).dot b.sides.z = b.dims.det := by
  rw [sides_x, sides_y, sides_z]
  simp only [Vec3.cross, Vec3.dot, Mat3.c0, Mat3.c1, Mat3.c2, Mat3.det]; ring

theorem volume_eq : b.volume = |b.dims.det| := by rw [volume, triple_eq_det]

theorem volume_pos (h : b.WF) : 0 < b.volume := by rw [volume_eq]; exact abs_pos.mpr h.det_ne

theorem inv_r0 (h : b.WF) : b.inv.r0 = (1 / b.dims.det) • (b.sides.y.cross b.sides.z) := by
  rw [h.inv_eq, sides_y, sides_z]
  ext <;> simp [Mat3.inverse, Vec3.cross, Mat3.c1, Mat3.c2] <;> ring

theorem inv_r1 (h : b.WF) : b.inv.r1 = (1 / b.dims.det) • (b.sides.z.cross b.sides.x) := by
  rw [h.inv_eq, sides_z, sides_x]
  ext <;> simp [Mat3.inverse, Vec3.cross, Mat3.c0, Mat3.c2] <;> ring

theorem inv_r2 (h : b.WF) : b.inv.r2 = (1 / b.dims.det) • (b.sides.x.cross b.sides.y) := by
  rw [h.inv_eq, sides_x, sides_y]
  ext <;> simp [Mat3.inverse, Vec3.cross, Mat3.c0, Mat3.c1] <;> ring

/-- If the cross product of two sides has zero length, the determinant is zero. -/
theorem cross_norm_pos_of (h : b.WF) {u w : Vec3 ℝ} (ht : u.dot w = b.dims.det) : 0 < u.norm := by
  unfold Vec3.norm
  apply Real.sqrt_pos.mpr
  apply Vec3.norm2_pos_of_ne
  intro h0
  apply h.det_ne
  rw [← ht, h0]; simp [Vec3.dot]

theorem triple_yzx : (b.sides.y.cross b.sides.z).dot b.sides.x = b.dims.det := by
  rw [← triple_eq_det]; simp only [Vec3.cross, Vec3.dot]; ring
theorem triple_zxy : (b.sides.z.cross b.sides.x).dot b.sides.y = b.dims.det := by
  rw [← triple_eq_det]; simp only [Vec3.cross, Vec3.dot]; ring

theorem heights_pos (h : b.WF) : 0 < b.heights.x ∧ 0 < b.heights.y ∧ 0 < b.heights.z := by
  have hv := volume_pos h
  exact ⟨div_pos hv (cross_norm_pos_of h triple_yzx), div_pos hv (cross_norm_pos_of h triple_zxy),
    div_pos hv (cross_norm_pos_of h triple_eq_det)⟩

private theorem coord_le {d : ℝ} {u v : Vec3 ℝ} (hd : d ≠ 0) (hu : 0 < u.norm) :
    |((1 / d) • u).dot v| * (|d| / u.norm) ≤ v.norm := by
  have e : ((1 / d) • u).dot v = u.dot v / d := by simp [Vec3.dot]; ring
  rw [e, abs_div, div_mul_div_comm, mul_comm |d|, mul_div_mul_right _ _ (abs_ne_zero.mpr hd)]
  rw [div_le_iff₀ hu, mul_comm]
  exact Vec3.abs_dot_le u v

/-- Relative coordinate times the height never exceeds the length. -/
theorem height_mul_rel_le (h : b.WF) (v : Vec3 ℝ) :
    |(b.absToRel v).x| * b.heights.x ≤ v.norm ∧ |(b.absToRel v).y| * b.heights.y ≤ v.norm ∧
      |(b.absToRel v).z| * b.heights.z ≤ v.norm := by
  refine ⟨?_, ?_, ?_⟩
  · show |b.inv.r0.dot v| * _ ≤ _
    rw [inv_r0 h]; simp only [heights, volume_eq]
    exact coord_le h.det_ne (cross_norm_pos_of h triple_yzx)
  · show |b.inv.r1.dot v| * _ ≤ _
    rw [inv_r1 h]; simp only [heights, volume_eq]
    exact coord_le h.det_ne (cross_norm_pos_of h triple_zxy)
  · show |b.inv.r2.dot v| * _ ≤ _
    rw [inv_r2 h]; simp only [heights, volume_eq]
    exact coord_le h.det_ne (cross_norm_pos_of h triple_eq_det)

end Box

namespace PBC

theorem corrUp_spec (p c : ℝ) : ∃ k : ℕ, corrUp p c = c + k ∧ 0 ≤ p + corrUp p c ∧ (k ≠ 0 → p + corrUp p c < 1) := by
  fun_induction corrUp p c with
  | case1 c h ih =>
    obtain ⟨k, h1, h2, h3⟩ := ih
    refine ⟨k + 1, by rw [h1]; push_cast; ring, h2, fun _ => ?_⟩
    by_cases hk : k = 0
    · subst hk; rw [h1]; push_cast; linarith
    · exact h3 hk
  | case2 c h => exact ⟨0, by simp, by linarith, by simp⟩

theorem corrDown_spec (p c : ℝ) : ∃ k : ℕ, corrDown p c = c - k ∧ p + corrDown p c < 1 ∧
    (k ≠ 0 → 0 ≤ p + corrDown p c) := by
  fun_induction corrDown p c with
  | case1 c h ih =>
    obtain ⟨k, h1, h2, h3⟩ := ih
    refine ⟨k + 1, by rw [h1]; push_cast; ring, h2, fun _ => ?_⟩
    by_cases hk : k = 0
    · subst hk; rw [h1]; push_cast; linarith
    · exact h3 hk
  | case2 c h => exact ⟨0, by simp, by linarith, by simp⟩

/-- The two loops compute minus the floor. -/
theorem corr1_eq (p : ℝ) : corr1 p = -(⌊p⌋ : ℝ) := by
  obtain ⟨k, h1, h2, h3⟩ := corrUp_spec p 0
  obtain ⟨l, g1, g2, g3⟩ := corrDown_spec p (corrUp p 0)
  have hlow : 0 ≤ p + corr1 p := by
    unfold corr1
    by_cases hl : l = 0
    · subst hl; rw [g1]; simp; exact h2
    · exact g3 hl
  have hup : p + corr1 p < 1 := g2
  have e : corr1 p = ((k : ℤ) - (l : ℤ) : ℤ) := by unfold corr1; rw [g1, h1]; push_cast; ring
  have : ⌊p⌋ = -((k : ℤ) - (l : ℤ)) := by
    rw [Int.floor_eq_iff]; rw [e] at hlow hup; push_cast at *; constructor <;> linarith
  rw [this, e]; push_cast; ring

theorem transDown_spec (p1 p2 t : ℝ) : ∃ k : ℕ, transDown p1 p2 t = t - k ∧ p2 + transDown p1 p2 t - p1 ≤ 1 / 2 ∧
    (k ≠ 0 → -(1 / 2) < p2 + transDown p1 p2 t - p1) := by
  fun_induction transDown p1 p2 t with
  | case1 t h ih =>
    obtain ⟨k, h1, h2, h3⟩ := ih
    refine ⟨k + 1, by rw [h1]; push_cast; ring, h2, fun _ => ?_⟩
    by_cases hk : k = 0
    · subst hk; rw [h1]; push_cast; linarith
    · exact h3 hk
  | case2 t h => exact ⟨0, by simp, by linarith, by simp⟩

theorem transUp_spec (p1 p2 t : ℝ) : ∃ k : ℕ, transUp p1 p2 t = t + k ∧ -(1 / 2) ≤ p2 + transUp p1 p2 t - p1 ∧
    (k ≠ 0 → p2 + transUp p1 p2 t - p1 < 1 / 2) := by
  fun_induction transUp p1 p2 t with
  | case1 t h ih =>
    obtain ⟨k, h1, h2, h3⟩ := ih
    refine ⟨k + 1, by rw [h1]; push_cast; ring, h2, fun _ => ?_⟩
    by_cases hk : k = 0
    · subst hk; rw [h1]; push_cast; linarith
    · exact h3 hk
  | case2 t h => exact ⟨0, by simp, by linarith, by simp⟩

/-- The translation along one axis is a whole number bringing the difference to `[-1/2, 1/2]`; the end `-1/2` (`1/2`)
is taken only when no shift or a shift up (down) was needed. -/
theorem trans1_spec (p1 p2 : ℝ) : ∃ n : ℤ, trans1 p1 p2 = n ∧ |p2 + trans1 p1 p2 - p1| ≤ 1 / 2 ∧
    (n < 0 → -(1 / 2) < p2 + trans1 p1 p2 - p1) ∧ (0 < n → p2 + trans1 p1 p2 - p1 < 1 / 2) := by
  obtain ⟨k, h1, h2, h3⟩ := transDown_spec p1 p2 0
  obtain ⟨l, g1, g2, g3⟩ := transUp_spec p1 p2 (transDown p1 p2 0)
  have hup : p2 + trans1 p1 p2 - p1 ≤ 1 / 2 := by
    unfold trans1
    by_cases hl : l = 0
    · subst hl; rw [g1]; simp; linarith
    · exact (g3 hl).le
  have e : trans1 p1 p2 = ((l : ℤ) - (k : ℤ) : ℤ) := by unfold trans1; rw [g1, h1]; push_cast; ring
  refine ⟨(l : ℤ) - (k : ℤ), e, abs_le.mpr ⟨g2, hup⟩, fun hn => ?_, fun hn => ?_⟩
  · have hk : k ≠ 0 := by omega
    by_cases hl : l = 0
    · subst hl
      have : trans1 p1 p2 = transDown p1 p2 0 := by unfold trans1; rw [g1]; simp
      rw [this]; exact h3 hk
    · exfalso
      have a := h3 hk
      unfold trans1 at *
      -- the second loop runs only if the first one left something below -1/2
      have : transUp p1 p2 (transDown p1 p2 0) = transDown p1 p2 0 := by
        rw [transUp]; rw [if_neg (by linarith)]
      rw [this] at g1
      have : (l : ℝ) = 0 := by linarith
      exact hl (by exact_mod_cast this)
  · have hl : l ≠ 0 := by omega
    exact g3 hl

theorem distWrap_spec (d : ℝ) : ∃ k : ℕ, distWrap d = d - k ∧ distWrap d ≤ 1 / 2 ∧ (k ≠ 0 → -(1 / 2) < distWrap d) := by
  fun_induction distWrap d with
  | case1 d h ih =>
    obtain ⟨k, h1, h2, h3⟩ := ih
    refine ⟨k + 1, by rw [h1]; push_cast; ring, h2, fun _ => ?_⟩
    by_cases hk : k = 0
    · subst hk; rw [h1]; push_cast; linarith
    · exact h3 hk
  | case2 d h => exact ⟨0, by simp, by linarith, by simp⟩

end PBC

end Rampack
