import Verif.Box.Lemmas
import Verif.Box.Spec
import Mathlib.Tactic.NormNum
import Mathlib.Tactic.LinearCombination
/-
Properties C05, C06, C07 (periodic boundary conditions).
-/
namespace Rampack

open Spec

namespace Box

theorem relToAbs_eq_combo (b : Box) (s : Vec3 ℝ) : b.relToAbs s = combo b s := by
  ext <;> simp [relToAbs, combo, Mat3.mulVec, Vec3.dot, Mat3.c0, Mat3.c1, Mat3.c2] <;> ring

theorem inside_iff {b : Box} (h : b.WF) (p : Vec3 ℝ) :
    Inside b p ↔ (0 ≤ (b.absToRel p).x ∧ (b.absToRel p).x < 1) ∧ (0 ≤ (b.absToRel p).y ∧ (b.absToRel p).y < 1) ∧
      (0 ≤ (b.absToRel p).z ∧ (b.absToRel p).z < 1) := by
  constructor
  · rintro ⟨s, hx, hy, hz, rfl⟩
    rw [← relToAbs_eq_combo, absToRel_relToAbs h]; exact ⟨hx, hy, hz⟩
  · rintro ⟨hx, hy, hz⟩
    exact ⟨_, hx, hy, hz, by rw [← relToAbs_eq_combo, relToAbs_absToRel h]⟩

theorem absToRel_lattice {b : Box} (h : b.WF) (n : Vec3 ℤ) :
    b.absToRel (lattice b n) = n.map (fun k : ℤ => (k : ℝ)) := by
  rw [lattice, ← relToAbs_eq_combo, absToRel_relToAbs h]

end Box

open Box PBC

/-- **C05** Correction brings every point inside, by a lattice vector, is zero for inside points and identifies points
which differ by a lattice vector. -/
theorem C05_correction {m : Mat3} {b : Box} (hb : Box.make m = .ok b) (p : Vec3 ℝ) :
    Inside b (p + getCorrection b p) ∧ IsLattice b (getCorrection b p) ∧
      (Inside b p → getCorrection b p = 0) ∧
      (∀ q, IsLattice b (q - p) → q + getCorrection b q = p + getCorrection b p) := by
  have h := (make_wf hb).1
  have hc : ∀ p, getCorrection b p = b.relToAbs (Vec3.map (fun k : ℤ => (k : ℝ))
      ⟨-⌊(b.absToRel p).x⌋, -⌊(b.absToRel p).y⌋, -⌊(b.absToRel p).z⌋⟩) := by
    intro p; simp only [getCorrection, corr1_eq, Vec3.map]; push_cast; rfl
  refine ⟨?_, ?_, ?_, ?_⟩
  · rw [inside_iff h, absToRel_add, hc, absToRel_relToAbs h]
    have f := fun x : ℝ => Int.floor_le x
    have g := fun x : ℝ => Int.lt_floor_add_one x
    refine ⟨⟨?_, ?_⟩, ⟨?_, ?_⟩, ⟨?_, ?_⟩⟩ <;> simp
    all_goals first
      | linarith [f (b.absToRel p).x, g (b.absToRel p).x]
      | linarith [f (b.absToRel p).y, g (b.absToRel p).y]
      | linarith [f (b.absToRel p).z, g (b.absToRel p).z]
  · exact ⟨_, by rw [hc, relToAbs_eq_combo]; rfl⟩
  · intro hi
    obtain ⟨hx, hy, hz⟩ := (inside_iff h p).mp hi
    rw [hc]
    have e : ∀ x : ℝ, 0 ≤ x ∧ x < 1 → ⌊x⌋ = 0 := fun x hx => Int.floor_eq_zero_iff.mpr hx
    rw [e _ hx, e _ hy, e _ hz]
    ext <;> simp [relToAbs, Mat3.mulVec, Vec3.dot]
  · rintro q ⟨n, hn⟩
    have hq : q = p + lattice b n := by rw [← hn]; abel
    have hr : b.absToRel q = b.absToRel p + n.map (fun k : ℤ => (k : ℝ)) := by
      rw [hq, absToRel_add, absToRel_lattice h]
    rw [hc q, hc p, hr]
    have : q = p + b.relToAbs (n.map (fun k : ℤ => (k : ℝ))) := by rw [hq, relToAbs_eq_combo]; rfl
    rw [this, add_assoc, ← relToAbs_add]
    congr 2
    ext <;> simp

/-- A sheared, non-cubic box used as a witness below. -/
noncomputable def shearedDims : Mat3 := ⟨⟨1, 1 / 2, 0⟩, ⟨0, 1, 0⟩, ⟨0, 0, 1⟩⟩

theorem shearedDims_det : shearedDims.det = 1 := by norm_num [shearedDims, Mat3.det]

theorem shearedDims_ok : Box.make shearedDims = .ok ⟨shearedDims, shearedDims.inverse⟩ := by
  unfold Box.make; rw [if_neg (by rw [shearedDims_det]; norm_num)]

theorem sheared_inverse : shearedDims.inverse = ⟨⟨1, -1 / 2, 0⟩, ⟨0, 1, 0⟩, ⟨0, 0, 1⟩⟩ := by
  ext <;> simp [Mat3.inverse, shearedDims_det] <;> norm_num [shearedDims]

/-- Non-vacuity of C05: a sheared box exists, and a point outside it is really moved. -/
example : Box.make shearedDims = .ok ⟨shearedDims, shearedDims.inverse⟩ ∧
    getCorrection ⟨shearedDims, shearedDims.inverse⟩ ⟨0, -1 / 4, 7 / 2⟩ = ⟨1 / 2, 1, -3⟩ := by
  refine ⟨shearedDims_ok, ?_⟩
  have e1 : ⌊(1 / 8 : ℝ)⌋ = 0 := by norm_num
  have e2 : ⌊(-1 / 4 : ℝ)⌋ = -1 := by rw [Int.floor_eq_iff]; norm_num
  have e3 : ⌊(7 / 2 : ℝ)⌋ = 3 := by rw [Int.floor_eq_iff]; norm_num
  simp only [getCorrection, absToRel, sheared_inverse, Mat3.mulVec, Vec3.dot, corr1_eq]
  ext <;> norm_num [relToAbs, Mat3.mulVec, Vec3.dot, shearedDims]

private theorem trans_int (b : Box) (p q : Vec3 ℝ) : ∃ n : Vec3 ℤ, getTranslation b p q = lattice b n ∧
    (trans1 (b.absToRel p).x (b.absToRel q).x = n.x ∧ trans1 (b.absToRel p).y (b.absToRel q).y = n.y ∧
      trans1 (b.absToRel p).z (b.absToRel q).z = n.z) := by
  obtain ⟨nx, hx, -⟩ := trans1_spec (b.absToRel p).x (b.absToRel q).x
  obtain ⟨ny, hy, -⟩ := trans1_spec (b.absToRel p).y (b.absToRel q).y
  obtain ⟨nz, hz, -⟩ := trans1_spec (b.absToRel p).z (b.absToRel q).z
  refine ⟨⟨nx, ny, nz⟩, ?_, hx, hy, hz⟩
  simp only [getTranslation, hx, hy, hz, relToAbs_eq_combo, lattice, Vec3.map]

private theorem norm2_combo_rect {b : Box} (hr : Rectangular b) (s : Vec3 ℝ) :
    (combo b s).norm2 = s.x ^ 2 * b.dims.c0.norm2 + s.y ^ 2 * b.dims.c1.norm2 + s.z ^ 2 * b.dims.c2.norm2 := by
  obtain ⟨h1, h2, h3⟩ := hr
  simp only [combo, Vec3.norm2, Vec3.dot, Vec3.add_x, Vec3.add_y, Vec3.add_z, Vec3.smul_x, Vec3.smul_y,
    Vec3.smul_z] at *
  linear_combination 2 * s.x * s.y * h1 + 2 * s.y * s.z * h2 + 2 * s.z * s.x * h3

private theorem sq_le_of_int {x : ℝ} (hx : |x| ≤ 1 / 2) (n : ℤ) : x ^ 2 ≤ (x + n) ^ 2 := by
  rcases eq_or_ne n 0 with rfl | hn
  · simp
  · have h1 : (1 : ℝ) ≤ |(n : ℝ)| := by exact_mod_cast Int.one_le_abs hn
    have h2 : |(n : ℝ)| - |x| ≤ |x + n| := by
      have := abs_sub_abs_le_abs_sub (n : ℝ) (-x); rw [abs_neg] at this
      rwa [sub_neg_eq_add, add_comm] at this
    have : |x| ≤ |x + n| := by linarith
    exact sq_le_sq.mpr this

/-- **C06** The reported translation is a lattice vector giving a relative separation of at most one half along each
axis; in a rectangular box it gives the nearest image; in any box an image nearer than half of each height is the
reported one; swapping the points negates it. -/
theorem C06_translation {m : Mat3} {b : Box} (hb : Box.make m = .ok b) (p q : Vec3 ℝ) :
    (∃ n : Vec3 ℤ, getTranslation b p q = lattice b n) ∧
      (∃ s : Vec3 ℝ, q + getTranslation b p q - p = combo b s ∧ |s.x| ≤ 1 / 2 ∧ |s.y| ≤ 1 / 2 ∧ |s.z| ≤ 1 / 2) ∧
      (Rectangular b → ∀ n : Vec3 ℤ, dist2 p (q + getTranslation b p q) ≤ dist2 p (q + lattice b n)) ∧
      (∀ n : Vec3 ℤ, (∀ h ∈ [b.heights.x, b.heights.y, b.heights.z], dist2 p (q + lattice b n) < (h / 2) ^ 2) →
        lattice b n = getTranslation b p q) ∧
      getTranslation b q p = -getTranslation b p q := by
  have h := (make_wf hb).1
  obtain ⟨n, hn, hnx, hny, hnz⟩ := trans_int b p q
  obtain ⟨_, -, bx, -⟩ := trans1_spec (b.absToRel p).x (b.absToRel q).x
  obtain ⟨_, -, by', -⟩ := trans1_spec (b.absToRel p).y (b.absToRel q).y
  obtain ⟨_, -, bz, -⟩ := trans1_spec (b.absToRel p).z (b.absToRel q).z
  rw [hnx] at bx; rw [hny] at by'; rw [hnz] at bz
  have rel : ∀ k : Vec3 ℤ, q + lattice b k - p = combo b (b.absToRel q + k.map (fun i : ℤ => (i : ℝ)) - b.absToRel p) := by
    intro k
    rw [← relToAbs_eq_combo, relToAbs_sub, relToAbs_add, relToAbs_absToRel h, relToAbs_absToRel h, lattice,
      relToAbs_eq_combo]
  have d2 : ∀ v : Vec3 ℝ, dist2 p (q + v) = (q + v - p).norm2 := by
    intro v; simp only [dist2, Vec3.norm2, Vec3.dot, Vec3.sub_x, Vec3.sub_y, Vec3.sub_z]; ring
  refine ⟨⟨n, hn⟩, ⟨_, by rw [hn]; exact rel n, by simpa using bx, by simpa using by', by simpa using bz⟩, ?_, ?_, ?_⟩
  · intro hr k
    rw [d2, d2, hn, rel n, rel k, norm2_combo_rect hr, norm2_combo_rect hr]
    simp only [Vec3.sub_x, Vec3.add_x, Vec3.map_x, Vec3.sub_y, Vec3.add_y, Vec3.map_y, Vec3.sub_z, Vec3.add_z,
      Vec3.map_z]
    have ex := sq_le_of_int bx (k.x - n.x)
    have ey := sq_le_of_int by' (k.y - n.y)
    have ez := sq_le_of_int bz (k.z - n.z)
    push_cast at ex ey ez
    have e1 : (b.absToRel q).x + k.x - (b.absToRel p).x = (b.absToRel q).x + n.x - (b.absToRel p).x + (k.x - n.x) := by
      ring
    have e2 : (b.absToRel q).y + k.y - (b.absToRel p).y = (b.absToRel q).y + n.y - (b.absToRel p).y + (k.y - n.y) := by
      ring
    have e3 : (b.absToRel q).z + k.z - (b.absToRel p).z = (b.absToRel q).z + n.z - (b.absToRel p).z + (k.z - n.z) := by
      ring
    rw [e1, e2, e3]
    have n0 := Vec3.norm2_nonneg b.dims.c0
    have n1 := Vec3.norm2_nonneg b.dims.c1
    have n2 := Vec3.norm2_nonneg b.dims.c2
    have := mul_le_mul_of_nonneg_right ex n0
    have := mul_le_mul_of_nonneg_right ey n1
    have := mul_le_mul_of_nonneg_right ez n2
    linarith
  · intro k hk
    have hh := heights_pos h
    have hle := height_mul_rel_le h (q + lattice b k - p)
    have key : ∀ ht : ℝ, 0 < ht → ht ∈ [b.heights.x, b.heights.y, b.heights.z] →
        (q + lattice b k - p).norm < ht / 2 := by
      intro ht h0 hm
      have := hk ht hm
      rw [d2, ← Vec3.norm_sq] at this
      exact lt_of_pow_lt_pow_left₀ 2 (by linarith) this
    have coord : ∀ (r ht a : ℝ) (i j : ℤ), 0 < ht → |r| * ht ≤ (q + lattice b k - p).norm →
        (q + lattice b k - p).norm < ht / 2 → r = a + i → |a + j| ≤ 1 / 2 → i = j := by
      intro r ht a i j h0 h1 h2 h3 h4
      have h5 : |r| < 1 / 2 := by
        by_contra hc; push Not at hc; nlinarith
      rw [h3] at h5
      have h6 : |((i - j : ℤ) : ℝ)| < 1 := by
        have e : ((i - j : ℤ) : ℝ) = (a + i) - (a + j) := by push_cast; ring
        rw [e]
        calc |(a + i) - (a + j)| ≤ |a + i| + |a + j| := abs_sub _ _
          _ < 1 := by linarith
      have h7 : |i - j| < 1 := by exact_mod_cast h6
      have := Int.abs_lt_one_iff.mp h7
      omega
    have hr : b.absToRel (q + lattice b k - p) = b.absToRel q + k.map (fun i : ℤ => (i : ℝ)) - b.absToRel p := by
      rw [absToRel_sub, absToRel_add, absToRel_lattice h]
    have ix := coord _ _ ((b.absToRel q).x - (b.absToRel p).x) k.x n.x hh.1 hle.1 (key _ hh.1 (by simp))
      (by rw [hr]; simp; ring) (by convert bx using 2; ring)
    have iy := coord _ _ ((b.absToRel q).y - (b.absToRel p).y) k.y n.y hh.2.1 hle.2.1 (key _ hh.2.1 (by simp))
      (by rw [hr]; simp; ring) (by convert by' using 2; ring)
    have iz := coord _ _ ((b.absToRel q).z - (b.absToRel p).z) k.z n.z hh.2.2 hle.2.2 (key _ hh.2.2 (by simp))
      (by rw [hr]; simp; ring) (by convert bz using 2; ring)
    rw [hn]
    congr 1
    exact Vec3.ext ix iy iz
  · have anti : ∀ x y : ℝ, trans1 y x = -trans1 x y := by
      intro x y
      obtain ⟨n, e1, a1, b1, c1⟩ := trans1_spec x y
      obtain ⟨k, e2, a2, b2, c2⟩ := trans1_spec y x
      rw [e1] at a1 b1 c1 ⊢; rw [e2] at a2 b2 c2 ⊢
      have h1 := abs_le.mp a1
      have h2 := abs_le.mp a2
      have h3 : |((n + k : ℤ) : ℝ)| ≤ 1 := by
        rw [abs_le]; push_cast; constructor <;> linarith
      have h4 : |n + k| ≤ 1 := by exact_mod_cast h3
      obtain ⟨l, r⟩ := abs_le.mp h4
      have h5 : n + k = 0 := by
        by_contra hne
        have : n + k = 1 ∨ n + k = -1 := by omega
        rcases this with hs | hs
        · have hs' : (n : ℝ) + k = 1 := by exact_mod_cast hs
          -- both separations are +1/2
          have : 0 < n ∨ 0 < k := by omega
          rcases this with hp | hp
          · have := c1 hp; linarith
          · have := c2 hp; linarith
        · have hs' : (n : ℝ) + k = -1 := by exact_mod_cast hs
          have : n < 0 ∨ k < 0 := by omega
          rcases this with hp | hp
          · have := b1 hp; linarith
          · have := b2 hp; linarith
      have : (n : ℝ) + k = 0 := by exact_mod_cast h5
      linarith
    rw [getTranslation, getTranslation, ← relToAbs_neg]
    congr 1
    ext
    · exact anti _ _
    · exact anti _ _
    · exact anti _ _

/-- Non-vacuity of C06: in the unit cube the points (0.1,0,0), (0.9,0,0) are shifted by -1 along x. -/
example : getTranslation ⟨1, Mat3.inverse 1⟩ ⟨1 / 10, 0, 0⟩ ⟨9 / 10, 0, 0⟩ = ⟨-1, 0, 0⟩ := by
  have hi : Mat3.inverse 1 = 1 := by
    ext <;> simp [Mat3.inverse, Mat3.det, Mat3.one_def, Mat3.one]
  have hx : trans1 (1 / 10) (9 / 10) = -1 := by
    unfold trans1
    rw [transDown, if_pos (by norm_num), transDown, if_neg (by norm_num), transUp, if_neg (by norm_num)]; norm_num
  have h0 : trans1 0 0 = 0 := by
    unfold trans1
    rw [transDown, if_neg (by norm_num), transUp, if_neg (by norm_num)]
  simp only [getTranslation, absToRel, hi, Mat3.one_mulVec, hx, h0, relToAbs]

private theorem wrap_sq (x y : ℝ) : (distWrap |y - x|) ^ 2 = (y + trans1 x y - x) ^ 2 := by
  obtain ⟨k, h1, h2, h3⟩ := distWrap_spec |y - x|
  obtain ⟨n, e1, a1, -, -⟩ := trans1_spec x y
  rw [e1] at a1 ⊢
  have hl : -(1 / 2) ≤ distWrap |y - x| := by
    by_cases hk : k = 0
    · subst hk; rw [h1]; have := abs_nonneg (y - x); push_cast; linarith
    · exact (h3 hk).le
  rw [h1] at h2 hl ⊢
  obtain ⟨l, r⟩ := abs_le.mp a1
  rcases abs_cases (y - x) with ⟨he, _⟩ | ⟨he, _⟩
  · rw [he] at h2 hl ⊢
    have h5 : |(((n : ℤ) + (k : ℤ) : ℤ) : ℝ)| ≤ 1 := by
      rw [abs_le]; push_cast; constructor <;> linarith
    have h6 : |(n : ℤ) + (k : ℤ)| ≤ 1 := by exact_mod_cast h5
    obtain ⟨u, v⟩ := abs_le.mp h6
    have : n + (k : ℤ) = 0 ∨ n + (k : ℤ) = 1 ∨ n + (k : ℤ) = -1 := by omega
    rcases this with hs | hs | hs
    · have : (n : ℝ) + k = 0 := by exact_mod_cast hs
      have : (n : ℝ) = -k := by linarith
      rw [this]; ring
    · have : (n : ℝ) + k = 1 := by exact_mod_cast hs
      have ha : y - x - k = -(1 / 2) := by linarith
      have hb : y + n - x = 1 / 2 := by linarith
      rw [ha, hb]; norm_num
    · have : (n : ℝ) + k = -1 := by exact_mod_cast hs
      have ha : y - x - k = (1 / 2) := by linarith
      have hb : y + n - x = -(1 / 2) := by linarith
      rw [ha, hb]; norm_num
  · rw [he] at h2 hl ⊢
    have h5 : |(((n : ℤ) - (k : ℤ) : ℤ) : ℝ)| ≤ 1 := by
      rw [abs_le]; push_cast; constructor <;> linarith
    have h6 : |(n : ℤ) - (k : ℤ)| ≤ 1 := by exact_mod_cast h5
    obtain ⟨u, v⟩ := abs_le.mp h6
    have : n - (k : ℤ) = 0 ∨ n - (k : ℤ) = 1 ∨ n - (k : ℤ) = -1 := by omega
    rcases this with hs | hs | hs
    · have : (n : ℝ) - k = 0 := by exact_mod_cast hs
      have : (n : ℝ) = k := by linarith
      rw [this]; ring
    · have : (n : ℝ) - k = 1 := by exact_mod_cast hs
      have ha : -(y - x) - k = (1 / 2) := by linarith
      have hb : y + n - x = 1 / 2 := by linarith
      rw [ha, hb]
    · have : (n : ℝ) - k = -1 := by exact_mod_cast hs
      have ha : -(y - x) - k = -(1 / 2) := by linarith
      have hb : y + n - x = -(1 / 2) := by linarith
      rw [ha, hb]

/-- **C07** (partial) The reported squared distance is the squared length of the reported separation — proved for
rectangular boxes. Missing: sheared boxes, where the claim is false (`C07_sheared_counterexample`). -/
theorem C07_distance2_partial {m : Mat3} {b : Box} (hb : Box.make m = .ok b) (hr : Rectangular b) (p q : Vec3 ℝ) :
    getDistance2 b p q = dist2 p (q + getTranslation b p q) := by
  have h := (make_wf hb).1
  have e : dist2 p (q + getTranslation b p q) = (q + getTranslation b p q - p).norm2 := by
    simp only [dist2, Vec3.norm2, Vec3.dot, Vec3.sub_x, Vec3.sub_y, Vec3.sub_z]; ring
  have e2 : q + getTranslation b p q - p = combo b ⟨(b.absToRel q).x + trans1 (b.absToRel p).x (b.absToRel q).x -
      (b.absToRel p).x, (b.absToRel q).y + trans1 (b.absToRel p).y (b.absToRel q).y - (b.absToRel p).y,
      (b.absToRel q).z + trans1 (b.absToRel p).z (b.absToRel q).z - (b.absToRel p).z⟩ := by
    conv_lhs => rw [← relToAbs_absToRel h q, ← relToAbs_absToRel h p, getTranslation, absToRel_relToAbs h,
      absToRel_relToAbs h, ← relToAbs_add, ← relToAbs_sub, relToAbs_eq_combo]
    rfl
  rw [e, e2, getDistance2, relToAbs_eq_combo, norm2_combo_rect hr, norm2_combo_rect hr, wrap_sq, wrap_sq, wrap_sq]

/-- Non-vacuity of C07 : the cube of side 2 is rectangular. -/
example : ∃ b, Box.make (Mat3.diag 2 2 2) = .ok b ∧ Rectangular b := by
  refine ⟨⟨Mat3.diag 2 2 2, (Mat3.diag 2 2 2).inverse⟩, ?_, ?_⟩
  · unfold Box.make; rw [if_neg (by norm_num [Mat3.det, Mat3.diag])]
  · norm_num [Rectangular, Mat3.diag, Mat3.c0, Mat3.c1, Mat3.c2, Vec3.dot]

/-- **C07 fails for sheared boxes**: with sides (1,0,0), (1/2,1,0), (0,0,1) and relative separation (0.3, -0.3, 0) the
reported squared distance (0.2925) is not the squared length of the separation (0.1125), although no periodic shift is
involved and both points are inside the box. -/
theorem C07_sheared_counterexample : ∃ (b : Box) (p q : Vec3 ℝ), Box.make shearedDims = .ok b ∧ Inside b p ∧
    Inside b q ∧ getTranslation b p q = 0 ∧ getDistance2 b p q = 117 / 400 ∧ dist2 p (q + getTranslation b p q) = 9 / 80 := by
  refine ⟨_, combo ⟨shearedDims, shearedDims.inverse⟩ ⟨1 / 10, 1 / 2, 0⟩,
    combo ⟨shearedDims, shearedDims.inverse⟩ ⟨4 / 10, 1 / 5, 0⟩, shearedDims_ok,
    ⟨_, by norm_num, by norm_num, by norm_num, rfl⟩, ⟨_, by norm_num, by norm_num, by norm_num, rfl⟩, ?_⟩
  have hw := (make_wf shearedDims_ok).1
  have w0 : distWrap (3 / 10) = 3 / 10 := by rw [distWrap, if_neg (by norm_num)]
  have w1 : distWrap 0 = 0 := by rw [distWrap, if_neg (by norm_num)]
  have t1 : trans1 (1 / 10) (4 / 10) = 0 := by
    unfold trans1; rw [transDown, if_neg (by norm_num), transUp, if_neg (by norm_num)]
  have t2 : trans1 (1 / 2) (1 / 5) = 0 := by
    unfold trans1; rw [transDown, if_neg (by norm_num), transUp, if_neg (by norm_num)]
  have t3 : trans1 0 0 = 0 := by
    unfold trans1; rw [transDown, if_neg (by norm_num), transUp, if_neg (by norm_num)]
  have ht : getTranslation ⟨shearedDims, shearedDims.inverse⟩ (combo ⟨shearedDims, shearedDims.inverse⟩ ⟨1 / 10, 1 / 2, 0⟩)
      (combo ⟨shearedDims, shearedDims.inverse⟩ ⟨4 / 10, 1 / 5, 0⟩) = 0 := by
    rw [getTranslation, ← relToAbs_eq_combo, ← relToAbs_eq_combo, absToRel_relToAbs hw, absToRel_relToAbs hw]
    simp only [t1, t2, t3]
    exact Mat3.mulVec_zero _
  refine ⟨ht, ?_, ?_⟩
  · rw [getDistance2, ← relToAbs_eq_combo, ← relToAbs_eq_combo, absToRel_relToAbs hw, absToRel_relToAbs hw]
    have a1 : |(4 / 10 : ℝ) - 1 / 10| = 3 / 10 := by rw [abs_of_nonneg] <;> norm_num
    have a2 : |(1 / 5 : ℝ) - 1 / 2| = 3 / 10 := by rw [abs_of_nonpos] <;> norm_num
    have a3 : |(0 : ℝ) - 0| = 0 := by norm_num
    simp only [a1, a2, a3, w0, w1]
    norm_num [relToAbs, Mat3.mulVec, Vec3.dot, Vec3.norm2, shearedDims]
  · rw [ht]
    norm_num [dist2, combo, shearedDims, Mat3.c0, Mat3.c1, Mat3.c2]

end Rampack
