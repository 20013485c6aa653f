import Verif.Shapes.PlacedVolume
import Verif.Box.Props
import Mathlib.LinearAlgebra.Matrix.ToLin
import Mathlib.LinearAlgebra.Determinant
import Mathlib.MeasureTheory.Function.Floor
/-
Bodies which do not meet, also when moved by vectors of the lattice, have together at most the volume of the box.
-/
namespace Rampack.Volume

open Rampack Spec Shapes MeasureTheory

/-- Triples as functions of three arguments. -/
def triEquiv : ((ℝ × ℝ) × ℝ) ≃ₗ[ℝ] (Fin 3 → ℝ) where
  toFun p := ![p.1.1, p.1.2, p.2]
  invFun f := ((f 0, f 1), f 2)
  left_inv p := rfl
  right_inv f := by ext i; fin_cases i <;> rfl
  map_add' p q := by ext i; fin_cases i <;> rfl
  map_smul' c p := by ext i; fin_cases i <;> rfl

theorem act_det (m : Mat3) : LinearMap.det (act m) = m.det := by
  rw [← LinearMap.det_conj (act m) triEquiv]
  have e : (triEquiv : _ →ₗ[ℝ] _) ∘ₗ act m ∘ₗ (triEquiv.symm : _ →ₗ[ℝ] _) =
      Matrix.toLin' !![m.r0.x, m.r0.y, m.r0.z; m.r1.x, m.r1.y, m.r1.z; m.r2.x, m.r2.y, m.r2.z] := by
    apply LinearMap.ext
    intro f
    ext i
    fin_cases i <;>
    · simp [Matrix.toLin'_apply, Matrix.mulVec, dotProduct, Fin.sum_univ_three]
      rfl
  rw [e, LinearMap.det_toLin', Matrix.det_fin_three]
  simp [Mat3.det]
  ring

/-- Where all three whole parts are the given ones. -/
def cellOf (t : (ℤ × ℤ) × ℤ) : Set ((ℝ × ℝ) × ℝ) := {p | ((⌊p.1.1⌋, ⌊p.1.2⌋), ⌊p.2⌋) = t}

def shiftOf (t : (ℤ × ℤ) × ℤ) : (ℝ × ℝ) × ℝ := (((t.1.1 : ℝ), (t.1.2 : ℝ)), (t.2 : ℝ))

theorem cellOf_measurable (t : (ℤ × ℤ) × ℤ) : MeasurableSet (cellOf t) := by
  have hm : Measurable fun p : (ℝ × ℝ) × ℝ => ((⌊p.1.1⌋, ⌊p.1.2⌋), ⌊p.2⌋) :=
    ((Int.measurable_floor.comp (measurable_fst.comp measurable_fst)).prodMk (Int.measurable_floor.comp (measurable_snd.comp measurable_fst))).prodMk
      (Int.measurable_floor.comp measurable_snd)
  exact hm (measurableSet_singleton t)

theorem cellOf_shift (t : (ℤ × ℤ) × ℤ) (p : (ℝ × ℝ) × ℝ) : p + shiftOf t ∈ cellOf t ↔ p ∈ cellOf 0 := by
  obtain ⟨⟨x, y⟩, z⟩ := p
  obtain ⟨⟨a, b⟩, c⟩ := t
  simp [cellOf, shiftOf, Int.floor_add_intCast]

theorem cellOf_zero_volume : volume (cellOf 0) = 1 := by
  have e : cellOf 0 = (Set.Ico (0:ℝ) 1 ×ˢ Set.Ico (0:ℝ) 1) ×ˢ Set.Ico (0:ℝ) 1 := by
    ext ⟨⟨x, y⟩, z⟩
    simp [cellOf, Int.floor_eq_zero_iff]
  rw [e]
  have h1 : (volume : Measure ((ℝ × ℝ) × ℝ)) = ((volume : Measure ℝ).prod volume).prod volume := rfl
  rw [h1, Measure.prod_prod, Measure.prod_prod]
  simp

/-- A volume is the sum of volumes of parts in cells, which may be moved to one cell. -/
theorem volume_cells {S : Set ((ℝ × ℝ) × ℝ)} (hS : MeasurableSet S) : volume S = ∑' t, volume ({p | p + shiftOf t ∈ S} ∩ cellOf 0) := by
  have := haar3
  have e : S = ⋃ t, S ∩ cellOf t := by
    ext p
    simp [cellOf]
  conv_lhs => rw [e]
  rw [measure_iUnion]
  · congr 1
    ext t
    rw [← measure_preimage_add_right volume (shiftOf t)]
    congr 1
    ext p
    show p + shiftOf t ∈ S ∧ p + shiftOf t ∈ cellOf t ↔ _
    rw [cellOf_shift]; rfl
  · intro a b hab
    refine Set.disjoint_left.mpr ?_
    rintro p ⟨_, h1⟩ ⟨_, h2⟩
    exact hab (h1.symm.trans h2)
  · exact fun t => hS.inter (cellOf_measurable t)

/-- Sets which do not meet, also when moved by vectors of whole numbers, have together at most the volume one. -/
theorem unit_fill {n : ℕ} {S : Fin n → Set ((ℝ × ℝ) × ℝ)} (hS : ∀ i, MeasurableSet (S i))
    (hd : ∀ i j s t, (i, s) ≠ (j, t) → ∀ p, p + shiftOf s ∈ S i → ¬ p + shiftOf t ∈ S j) : ∑ i, volume (S i) ≤ 1 := by
  have e : ∑ i, volume (S i) = ∑' q : Fin n × ((ℤ × ℤ) × ℤ), volume ({p | p + shiftOf q.2 ∈ S q.1} ∩ cellOf 0) := by
    rw [ENNReal.tsum_prod (f := fun i t => volume ({p | p + shiftOf t ∈ S i} ∩ cellOf 0)), tsum_fintype]
    exact Finset.sum_congr rfl fun i _ => volume_cells (hS i)
  rw [e, ← measure_iUnion, ← cellOf_zero_volume]
  · exact measure_mono (Set.iUnion_subset fun _ => Set.inter_subset_right)
  · rintro ⟨i, s⟩ ⟨j, t⟩ hne
    refine Set.disjoint_left.mpr ?_
    rintro p ⟨h1, _⟩ ⟨h2, _⟩
    exact hd i j s t hne p h1 h2
  · rintro ⟨i, s⟩
    have hm : Measurable fun p : (ℝ × ℝ) × ℝ => p + shiftOf s := by fun_prop
    exact (hm (hS i)).inter (cellOf_measurable 0)

/-- Bodies of equal volumes which do not meet each other and their images fit in the box. -/
theorem fill {b : Box} (hb : b.WF) {n : ℕ} {B : Fin n → Vec3 ℝ → Prop} {v : ℝ} (hm : ∀ i, MeasurableSet (points (B i))) (hv : ∀ i, HasVolume (B i) v)
    (hd : ∀ i j (t : Vec3 ℤ), (i ≠ j ∨ t ≠ 0) → ¬ Meet (B i) (movedBy (lattice b t) (B j))) : n * v ≤ |b.dims.det| := by
  have := haar3
  have hdet : LinearMap.det (act b.dims) ≠ 0 := by rw [act_det]; exact hb.det_ne
  have hc : Measurable (act b.dims) := (LinearMap.continuous_of_finiteDimensional _).measurable
  have hpos : 0 < |b.dims.det| := abs_pos.mpr hb.det_ne
  have h1 := unit_fill (S := fun i => act b.dims ⁻¹' points (B i)) (fun i => hc (hm i)) (by
    intro i j s t hne p hp hq
    have hl : ∀ (s t : (ℤ × ℤ) × ℤ), b.dims.mulVec (vec (p + shiftOf s)) - lattice b ⟨s.1.1 - t.1.1, s.1.2 - t.1.2, s.2 - t.2⟩ = b.dims.mulVec (vec (p + shiftOf t)) := by
      intro s t
      obtain ⟨⟨x, y⟩, z⟩ := p
      ext <;> simp [lattice, combo, Mat3.mulVec, Vec3.dot, Mat3.c0, Mat3.c1, Mat3.c2, vec, shiftOf] <;> ring
    refine hd i j ⟨s.1.1 - t.1.1, s.1.2 - t.1.2, s.2 - t.2⟩ ?_ ⟨b.dims.mulVec (vec (p + shiftOf s)), hp, ?_⟩
    · by_contra hc
      push Not at hc
      obtain ⟨rfl, h0⟩ := hc
      apply hne
      have hx := congrArg Vec3.x h0
      have hy := congrArg Vec3.y h0
      have hz := congrArg Vec3.z h0
      simp only [Vec3.zero_x, Vec3.zero_y, Vec3.zero_z, sub_eq_zero] at hx hy hz
      rw [show s = t from Prod.ext (Prod.ext hx hy) hz]
    · unfold movedBy
      rw [hl]; exact hq)
  have h2 : ∀ i, volume (act b.dims ⁻¹' points (B i)) = ENNReal.ofReal (|b.dims.det|⁻¹ * v) := by
    intro i
    rw [Measure.addHaar_preimage_linearMap volume hdet, act_det, (hv i).2, ← ENNReal.ofReal_mul (abs_nonneg _), abs_inv]
  rw [Finset.sum_congr rfl fun i _ => h2 i, Finset.sum_const, Finset.card_univ, Fintype.card_fin, nsmul_eq_mul, ← ENNReal.ofReal_natCast,
    ← ENNReal.ofReal_mul (Nat.cast_nonneg _), ← ENNReal.ofReal_one, ENNReal.ofReal_le_ofReal_iff zero_le_one] at h1
  rw [inv_mul_eq_div, mul_div_assoc', div_le_one hpos] at h1
  exact h1

end Rampack.Volume
