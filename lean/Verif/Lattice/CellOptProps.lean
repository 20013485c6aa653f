import Verif.Lattice.CellOpt
import Verif.Lattice.DistanceProps
/-
Theorems about the optimisation of cells: C101.
-/
namespace Rampack

open Spec Packing Lattice DistanceOptimizer

namespace CellOptimizationTransformer

theorem stretch_sides {m : Mat3} {b b' : Box} {f : Vec3 ℝ} (hm : b.dims = m) (hb' : b'.dims = stretch m f) :
    b'.sides.x = f.x • b.sides.x ∧ b'.sides.y = f.y • b.sides.y ∧ b'.sides.z = f.z • b.sides.z := by
  simp only [Box.sides_x, Box.sides_y, Box.sides_z, hb', hm]
  refine ⟨?_, ?_, ?_⟩ <;> ext <;>
    simp only [stretch, Mat3.diag, Mat3.mul_def, Mat3.mul, Vec3.dot, Mat3.c0, Mat3.c1, Mat3.c2, Vec3.smul_x, Vec3.smul_y, Vec3.smul_z] <;> ring

theorem cross_scale (u v : Vec3 ℝ) (s t : ℝ) : ((s • u).cross (t • v)).norm = |s * t| * (u.cross v).norm := by
  have : (s • u).cross (t • v) = (s * t) • u.cross v := by
    ext <;> simp only [Vec3.cross, Vec3.smul_x, Vec3.smul_y, Vec3.smul_z] <;> ring
  rw [this]
  unfold Vec3.norm
  have e : ((s * t) • u.cross v).norm2 = (s * t) ^ 2 * (u.cross v).norm2 := by
    simp only [Vec3.norm2, Vec3.dot, Vec3.smul_x, Vec3.smul_y, Vec3.smul_z]; ring
  rw [e, Real.sqrt_mul (sq_nonneg _), Real.sqrt_sq_eq_abs]

theorem heights_stretch {b b' : Box} {f : Vec3 ℝ} (hf : ∀ a, 0 < f.get a) (hb' : b'.dims = stretch b.dims f) (a : Fin 3) :
    b'.heights.get a = f.get a * b.heights.get a := by
  obtain ⟨h1, h2, h3⟩ := stretch_sides rfl hb'
  have hx : 0 < f.x := hf 0
  have hy : 0 < f.y := hf 1
  have hz : 0 < f.z := hf 2
  have hv : b'.volume = f.x * f.y * f.z * b.volume := by
    rw [Box.volume_eq, Box.volume_eq, hb', stretch_det, abs_mul, abs_of_pos (by positivity : 0 < f.x * f.y * f.z), mul_comm]
  have ht : b'.heights = ⟨f.x * b.heights.x, f.y * b.heights.y, f.z * b.heights.z⟩ := by
    unfold Box.heights
    rw [h1, h2, h3, hv]
    simp only [cross_scale]
    rw [abs_of_pos (mul_pos hy hz), abs_of_pos (mul_pos hz hx), abs_of_pos (mul_pos hx hy)]
    have key : ∀ {p q r v n : ℝ}, 0 < p → 0 < q → p * q * r * v / (p * q * n) = r * (v / n) := by
      intro p q r v n hp hq
      by_cases hn : n = 0
      · rw [hn]; simp
      · field_simp
    congr 1
    · rw [← key hy hz]; congr 1; ring
    · rw [← key hz hx]; congr 1; ring
    · rw [← key hx hy]
  rw [ht]
  match a with
  | 0 => rfl
  | 1 => rfl
  | 2 => rfl

theorem stretch_stretch (m : Mat3) (f g : Vec3 ℝ) : stretch (stretch m f) g = stretch m ⟨f.x * g.x, f.y * g.y, f.z * g.z⟩ := by
  ext <;> simp only [stretch, Mat3.diag, Mat3.mul_def, Mat3.mul, Vec3.dot, Mat3.c0, Mat3.c1, Mat3.c2] <;> ring

theorem ofSides_stretch {b : Box} (s : Vec3 ℝ) : Box.ofSides (s.x • b.sides.x) (s.y • b.sides.y) (s.z • b.sides.z) = Box.make (stretch b.dims s) := by
  unfold Box.ofSides
  congr 1
  rw [Box.sides_x, Box.sides_y, Box.sides_z]
  ext <;> simp only [stretch, Mat3.diag, Mat3.mul_def, Mat3.mul, Vec3.dot, Mat3.c0, Mat3.c1, Mat3.c2, Vec3.smul_x, Vec3.smul_y, Vec3.smul_z] <;> ring

theorem latticeBox_stretch {L : Lattice} : L.latticeBox = Box.make (stretch L.box.dims ⟨L.dims.x, L.dims.y, L.dims.z⟩) :=
  ofSides_stretch ⟨L.dims.x, L.dims.y, L.dims.z⟩

/-- The molecules of a normalised lattice are within its box. -/
theorem gen_inside {L : Lattice} (h : L.Inv) (hn : L.isNormalized = true) {B : Box} (hB : L.latticeBox = .ok B) : ∀ s ∈ gen L, Inside B s.pos := by
  intro s hs
  obtain ⟨i, hi, hs⟩ := List.mem_flatMap.mp hs
  obtain ⟨t, ht, rfl⟩ := List.mem_map.mp hs
  have hi := mem_allCells.mp hi
  obtain ⟨⟨w1, w2⟩, ⟨w3, w4⟩, w5, w6⟩ := (normalized_iff h).mp hn i hi t ht
  obtain ⟨B', hB', hr⟩ := latticeBox_ok h
  rw [hB] at hB'
  injection hB' with hB'
  subst hB'
  have hw := (Box.make_wf (latticeBox_stretch ▸ hB)).1
  have hx : (0 : ℝ) < L.dims.x := Nat.cast_pos.mpr h.x
  have hy : (0 : ℝ) < L.dims.y := Nat.cast_pos.mpr h.y
  have hz : (0 : ℝ) < L.dims.z := Nat.cast_pos.mpr h.z
  have e : (place L.box i t).pos = B.relToAbs ⟨(i.x + t.pos.x) / L.dims.x, (i.y + t.pos.y) / L.dims.y, (i.z + t.pos.z) / L.dims.z⟩ := by
    rw [hr]
    unfold place
    simp only
    congr 1
    unfold ofCell
    ext <;> simp only [Vec3.add_x, Vec3.add_y, Vec3.add_z] <;> field_simp
  have key : ∀ {j d : Nat} {x : ℝ}, j < d → 0 ≤ x → x < 1 → 0 ≤ ((j : ℝ) + x) / d ∧ ((j : ℝ) + x) / d < 1 := by
    intro j d x hj h0 h1
    have hd : (0 : ℝ) < d := Nat.cast_pos.mpr (by omega)
    have : (j : ℝ) + 1 ≤ d := by exact_mod_cast hj
    refine ⟨by positivity, ?_⟩
    rw [div_lt_one hd]
    linarith
  rw [e, Box.inside_iff hw, Box.absToRel_relToAbs hw]
  obtain ⟨k1, k2⟩ := key hi.1 w1 w2
  obtain ⟨k3, k4⟩ := key hi.2.1 w3 w4
  obtain ⟨k5, k6⟩ := key hi.2.2 w5 w6
  exact ⟨⟨k1, k2⟩, ⟨k3, k4⟩, k5, k6⟩

theorem cell_matrix {M : Mat3} {d f : Vec3 ℝ} (hM : M.det ≠ 0) (hd : d.x ≠ 0 ∧ d.y ≠ 0 ∧ d.z ≠ 0) :
    stretch (stretch M d) f * (stretch M d).inverse * M = stretch M f := by
  obtain ⟨h1, h2, h3⟩ := hd
  have hN : (stretch M d).det ≠ 0 := by
    rw [stretch_det]
    exact mul_ne_zero hM (mul_ne_zero (mul_ne_zero h1 h2) h3)
  have hinv := Mat3.inverse_mul_cancel hN
  have hMd : M = stretch M d * Mat3.diag (1 / d.x) (1 / d.y) (1 / d.z) := by
    ext <;> simp only [stretch, Mat3.diag, Mat3.mul_def, Mat3.mul, Vec3.dot, Mat3.c0, Mat3.c1, Mat3.c2] <;> field_simp <;> ring
  have assoc : ∀ a b c : Mat3, a * b * c = a * (b * c) := fun a b c => by
    ext <;> simp only [Mat3.mul_def, Mat3.mul, Vec3.dot, Mat3.c0, Mat3.c1, Mat3.c2] <;> ring
  have one : ∀ a : Mat3, 1 * a = a := fun a => by
    ext <;> simp [Mat3.mul_def, Mat3.mul, Vec3.dot, Mat3.c0, Mat3.c1, Mat3.c2, Mat3.one_def, Mat3.one]
  have key : (stretch M d).inverse * M = Mat3.diag (1 / d.x) (1 / d.y) (1 / d.z) := by
    have : (stretch M d).inverse * (stretch M d * Mat3.diag (1 / d.x) (1 / d.y) (1 / d.z)) = Mat3.diag (1 / d.x) (1 / d.y) (1 / d.z) := by
      rw [← assoc, hinv, one]
    rwa [← hMd] at this
  rw [assoc, key, stretch_stretch]
  ext <;> simp only [stretch, Mat3.diag, Mat3.mul_def, Mat3.mul, Vec3.dot, Mat3.c0, Mat3.c1, Mat3.c2] <;> field_simp <;> ring

theorem shrink_start {P P' : Packing} {I : Interaction} (hP : PInv P I) (hI : Contract I) {order : List Char} (h : shrinkPacking P I order = .ok P') :
    P.countTotalOverlaps I false = .ok 0 := by
  obtain ⟨K, -, hK⟩ := count_numTotal hP.q hI
  obtain ⟨n, en, hn, -⟩ := hK true
  obtain ⟨n', en', -, hn'⟩ := hK false
  unfold shrinkPacking at h
  obtain ⟨_, _, h⟩ := Outcome.bind_eq_ok.mp h
  obtain ⟨_, _, h⟩ := Outcome.bind_eq_ok.mp h
  obtain ⟨n'', e, h⟩ := Outcome.bind_eq_ok.mp h
  rw [en] at e
  have e := Outcome.ok_inj.mp e
  subst e
  obtain ⟨_, e, _⟩ := Outcome.bind_eq_ok.mp h
  by_cases h0 : n = 0
  · rw [en', hn' rfl]
    congr 1
    omega
  · rw [decide_eq_false h0] at e
    cases e

theorem space_ok {T : Transformer} {b : Box} {d : Vec3 Nat} (hw : b.WF) : (∃ m, space T b d = .throw m) ∨
    ∃ n s, space T b d = .ok n ∧ Box.make (stretch b.dims s) = .ok n ∧ ∀ a, 0 < s.get a ∧ s.get a * b.heights.get a = b.heights.get a + T.spacings.get a * (d.get a : ℝ) := by
  unfold space
  by_cases hp : ∀ i, spacedHeight T b.heights d i > 0
  swap
  · rw [decide_eq_false hp]; exact Or.inl ⟨_, rfl⟩
  rw [decide_eq_true hp, Outcome.require_true, Outcome.ok_bind]
  have hh : ∀ a, 0 < b.heights.get a := by
    obtain ⟨q1, q2, q3⟩ := Box.heights_pos hw
    intro a
    match a with
    | 0 => exact q1
    | 1 => exact q2
    | 2 => exact q3
  set s : Vec3 ℝ := ⟨scaleFactor T b.heights d 0, scaleFactor T b.heights d 1, scaleFactor T b.heights d 2⟩ with hs
  have hg : ∀ a, s.get a = scaleFactor T b.heights d a := by
    intro a
    match a with
    | 0 => rfl
    | 1 => rfl
    | 2 => rfl
  have hsp : ∀ a, 0 < s.get a := fun a => by rw [hg]; exact div_pos (hp a) (hh a)
  have hdet : (stretch b.dims s).det ≠ 0 := by
    rw [stretch_det]
    exact mul_ne_zero hw.det_ne (mul_ne_zero (mul_ne_zero (hsp 0).ne' (hsp 1).ne') (hsp 2).ne')
  refine Or.inr ⟨⟨stretch b.dims s, (stretch b.dims s).inverse⟩, s, ?_, ?_, fun a => ⟨hsp a, ?_⟩⟩
  · exact (ofSides_stretch s).trans (by unfold Box.make; rw [if_neg hdet])
  · unfold Box.make; rw [if_neg hdet]
  · rw [hg]
    unfold scaleFactor
    rw [div_mul_cancel₀ _ (hh a).ne']
    rfl

end CellOptimizationTransformer

open CellOptimizationTransformer

/-- C101: the optimisation of a cell is refused, or it multiplies its sides by positive factors, so that angles are preserved, as well as relative positions of
molecules in all cells and numbers of cells. Each height is, after that, the height of the compressed cell plus the spacing. The compressed cell has no overlaps,
and it is nearly as small as possible: with any side shorter by a factor of at most 2 * 10^-12, when its turn comes in the given order, the molecules
overlap. -/
theorem C101_cell {L : Lattice} {I : Interaction} {T : Transformer} {order : List Char} {spacings : Vec3 ℝ} (hT : CellOptimizationTransformer.create order spacings = .ok T)
    (h : LatticeReached L) (hI : Contract I) (hR : 0 < I.totalRange) (hcap : sites L.size I.centres.length < 2 ^ 50) :
    (∃ m, transform T I L = .throw m) ∨
    ∃ L' B g P P' f k, transform T I L = .ok L' ∧ LatticeReached L' ∧
      -- the new lattice
      L'.dims = L.dims ∧ L'.regular = L.regular ∧ L'.isNormalized = true ∧ (∀ i, L'.getSpecific i = L.getSpecific i) ∧
      Box.make (stretch L.box.dims f) = .ok L'.box ∧ (∀ a, 0 < f.get a ∧ L'.box.heights.get a = k.get a * L.box.heights.get a + spacings.get a) ∧
      -- the molecules of the old one
      L.latticeBox = .ok B ∧ L.generate = .ok g ∧ Packing.create B g I 1 = .ok P ∧ P.countTotalOverlaps I false = .ok 0 ∧
      -- the compressed ones
      Box.make (stretch B.dims k) = .ok P'.box ∧ (∀ a, 0 < k.get a ∧ k.get a ≤ 1 + precision) ∧ P'.countTotalOverlaps I false = .ok 0 ∧
      List.Forall₂ (fun s t => t.rot = s.rot ∧ ∀ a, (P'.box.absToRel t.pos).get a ≤ (B.absToRel s.pos).get a ∧
        (B.absToRel s.pos).get a ≤ (1 + precision) * (P'.box.absToRel t.pos).get a) g (mols P') ∧
      ∀ a, ∃ x, 0 < x ∧ x < k.get a ∧ k.get a - x ≤ 2 * precision ∧ OverlapsStretched P I (stageFactors order k a x) := by
  have hTe : T = ⟨order, spacings⟩ := by
    unfold CellOptimizationTransformer.create at hT
    obtain ⟨_, _, hT⟩ := Outcome.bind_eq_ok.mp hT
    exact (Outcome.ok_inj.mp hT).symm
  subst hTe
  have hv := h.inv
  unfold transform
  cases hh : I.hasHard with
  | false => exact Or.inl ⟨_, rfl⟩
  | true =>
  rw [Outcome.require_true, Outcome.ok_bind]
  cases hn : L.isNormalized with
  | false => exact Or.inl ⟨_, rfl⟩
  | true =>
  rw [Outcome.require_true, Outcome.ok_bind]
  obtain ⟨B, hB, -⟩ := latticeBox_ok hv
  have hBm := latticeBox_stretch ▸ hB
  obtain ⟨hBw, hBd⟩ := Box.make_wf hBm
  rw [hB, Outcome.ok_bind, generate_ok hv, Outcome.ok_bind]
  by_cases hne : gen L = []
  · left
    rw [hne]
    unfold Packing.create reset
    by_cases h1 : B.volume ≠ 0
    swap
    · rw [decide_eq_false h1]; exact ⟨_, rfl⟩
    rw [decide_eq_true h1]
    by_cases h2 : I.range > 0
    swap
    · rw [decide_eq_false h2]; exact ⟨_, rfl⟩
    rw [decide_eq_true h2]
    exact ⟨_, rfl⟩
  have hin := gen_inside hv hn hB
  rw [size_eq hv] at hcap
  obtain ⟨P, eP, hP, hPm, hPb, -⟩ := Packing.create_ok hI hBw hne hin hcap 1
  have hPr : Reachable P I := .create hI hBm hne hin hcap eP
  rw [eP, Outcome.ok_bind]
  rcases C55_shrink hPr hR order with ⟨m, hm⟩ | ⟨P', k, hs, hbox, hk, h0, hw, hf2, hov⟩
  · simp only
    rw [hm]; exact Or.inl ⟨m, rfl⟩
  simp only
  rw [hs, Outcome.ok_bind]
  obtain ⟨hw', hd'⟩ := Box.make_wf hbox
  rcases space_ok (T := ⟨order, spacings⟩) (d := L.dims) hw' with ⟨m, hm⟩ | ⟨n, s, hsp, hnb, hsa⟩
  · rw [hm]; exact Or.inl ⟨m, rfl⟩
  rw [hsp, Outcome.ok_bind]
  obtain ⟨hnw, hnd⟩ := Box.make_wf hnb
  have hx : (0 : ℝ) < L.dims.x := Nat.cast_pos.mpr hv.x
  have hy : (0 : ℝ) < L.dims.y := Nat.cast_pos.mpr hv.y
  have hz : (0 : ℝ) < L.dims.z := Nat.cast_pos.mpr hv.z
  set f : Vec3 ℝ := ⟨k.x * s.x, k.y * s.y, k.z * s.z⟩ with hf
  have hfg : ∀ a, f.get a = k.get a * s.get a := by
    intro a
    match a with
    | 0 => rfl
    | 1 => rfl
    | 2 => rfl
  have hfp : ∀ a, 0 < f.get a := fun a => by rw [hfg]; exact mul_pos (hk a).1 (hsa a).1
  have hmat : n.dims * P.box.dims.inverse * L.box.dims = stretch L.box.dims f := by
    rw [hnd, hd', stretch_stretch, hPb, hBd]
    exact cell_matrix hv.wf.det_ne ⟨hx.ne', hy.ne', hz.ne'⟩
  have hdet : (stretch L.box.dims f).det ≠ 0 := by
    rw [stretch_det]
    exact mul_ne_zero hv.wf.det_ne (mul_ne_zero (mul_ne_zero (hfp 0).ne' (hfp 1).ne') (hfp 2).ne')
  have hmk : Box.make (stretch L.box.dims f) = .ok ⟨stretch L.box.dims f, (stretch L.box.dims f).inverse⟩ := by
    unfold Box.make; rw [if_neg hdet]
  have htr : L.box.transform (n.dims * P.box.dims.inverse) = .ok ⟨stretch L.box.dims f, (stretch L.box.dims f).inverse⟩ := by
    unfold Box.transform
    rw [hmat, hmk]
  rw [htr, Outcome.ok_bind]
  right
  refine ⟨L.setBox ⟨stretch L.box.dims f, (stretch L.box.dims f).inverse⟩, B, gen L, P, P', f, k, rfl, h.box (Box.make_wf hmk).1, rfl, rfl, hn, fun i => rfl, hmk,
    fun a => ⟨hfp a, ?_⟩, rfl, rfl, eP, ?_, ?_, hk, h0, ?_, hov⟩
  · have dg : ∀ a, (⟨L.dims.x, L.dims.y, L.dims.z⟩ : Vec3 ℝ).get a = (L.dims.get a : ℝ) ∧ (0 : ℝ) < (L.dims.get a : ℝ) := by
      intro a
      match a with
      | 0 => exact ⟨rfl, hx⟩
      | 1 => exact ⟨rfl, hy⟩
      | 2 => exact ⟨rfl, hz⟩
    have e1 := heights_stretch (b := L.box) (b' := B) (f := ⟨L.dims.x, L.dims.y, L.dims.z⟩) (fun a => by rw [(dg a).1]; exact (dg a).2) hBd a
    have e2 := heights_stretch (b := B) (b' := P'.box) (fun a => (hk a).1) (by rw [hd', hPb]) a
    have e3 := heights_stretch (b := L.box) (b' := ⟨stretch L.box.dims f, (stretch L.box.dims f).inverse⟩) hfp rfl a
    have e4 := (hsa a).2
    rw [(dg a).1] at e1
    rw [e2, e1] at e4
    have hda := (dg a).2.ne'
    refine e3.trans ?_
    rw [hfg]
    have : (L.dims.get a : ℝ) * (k.get a * s.get a * L.box.heights.get a) = L.dims.get a * (k.get a * L.box.heights.get a + spacings.get a) := by
      linear_combination e4
    exact mul_left_cancel₀ hda this
  · exact shrink_start hP hI hs
  · rw [← hPb]; exact hbox
  · rw [← hPb, ← hPm]; exact hf2

/-- A lattice which may be optimised: 2 × 2 × 2 unit cubes with a ball in each of them. -/
example : ∃ L I T, CellOptimizationTransformer.create ['z', 'x', 'y'] ⟨1 / 10, 0, -1 / 100⟩ = .ok T ∧ LatticeReached L ∧ Contract I ∧ 0 < I.totalRange ∧
    sites L.size I.centres.length < 2 ^ 50 ∧ I.hasHard = true ∧ L.isNormalized = true ∧ L.size = 8 := by
  obtain ⟨L, h1, -, -, -, h5, -⟩ := (C40_create (c := ⟨demoCell.box, [⟨⟨1 / 2, 0, 1 / 4⟩, .one⟩]⟩) (d := ⟨2, 2, 2⟩) (by norm_num)).1 (by norm_num)
  have hR : LatticeReached L := .create (c := ⟨demoCell.box, [⟨⟨1 / 2, 0, 1 / 4⟩, .one⟩]⟩) (d := ⟨2, 2, 2⟩) demoCell_wf (by norm_num) h1
  have hs : L.size = 8 := by rw [h5]; norm_num
  refine ⟨L, ballsI [] (1 / 20) (1 / 10), ⟨['z', 'x', 'y'], ⟨1 / 10, 0, -1 / 100⟩⟩, rfl, hR, ballsI_contract _ (by norm_num) _, by norm_num [ballsI],
    by rw [hs]; norm_num [sites, ballsI], rfl, ?_, hs⟩
  unfold Lattice.create at h1
  rw [show (decide (0 < 2) && decide (0 < 2) && decide (0 < 2)) = true from rfl, Outcome.require_true, Outcome.ok_bind] at h1
  rw [← Outcome.ok_inj.mp h1]
  norm_num [isNormalized, cellNormalized]

/-- C101: the documentation asks only for a regular lattice; but regular lattices are refused as well if they are not normalised. -/
theorem C101_regular_violated : ∃ L I, LatticeReached L ∧ Contract I ∧ I.hasHard = true ∧ L.regular = true ∧ ∀ T, ∃ m, transform T I L = .throw m := by
  obtain ⟨L, h1, -, -, h4, -, h5⟩ := (C40_create (c := demoCell) (d := ⟨2, 3, 4⟩) (by norm_num)).1 (by norm_num)
  have hR : LatticeReached L := .create demoCell_wf (by norm_num) h1
  refine ⟨L, ballsI [] (1 / 20) 1, hR, ballsI_contract _ (by norm_num) _, rfl, h4, fun T => ?_⟩
  have hn : L.isNormalized = false := by
    rw [Bool.eq_false_iff]
    intro hq
    have hr : InRange L.dims ⟨0, 0, 0⟩ := ⟨hR.inv.x, hR.inv.y, hR.inv.z⟩
    have := (normalized_iff hR.inv).mp hq ⟨0, 0, 0⟩ hr
    have e := getSpecific_ok hR.inv hr
    rw [h5 _ ⟨by norm_num, by norm_num, by norm_num⟩] at e
    injection e with e
    rw [← e] at this
    have := this ⟨⟨-1 / 4, 0, 0⟩, .one⟩ (by simp [demoCell])
    unfold Within at this
    norm_num at this
  unfold transform
  rw [hn]
  exact ⟨_, rfl⟩

end Rampack
