import Verif.Packing.WallLemmas
import Verif.Packing.Violations
/-
C19: overlaps with walls.
-/
namespace Rampack

open Rampack.Spec Rampack.Grid Rampack.Packing

/-- C19: in a right-handed box, at least as thick along each walled axis as the total interaction range, the overlaps of a
molecule with walls are found by `countParticleWallOverlaps` and all of them together by `countWallOverlaps`: both walls of
each walled axis are checked for each interaction site.
Missing: thinner boxes, where the further wall is not checked (`C19_thin_box_violated`), and left-handed boxes
(`C19_left_handed_violated`). -/
theorem C19_walls_partial {P : Packing} {I : Interaction} (h : Reachable P I) (hr : ∀ s ∈ mols P, WallRange I s)
    (hd : 0 < P.box.dims.det) (ht : ThickEnough P.box P.hasWall I) {n : Vec3 (Vec3 ℝ)}
    (hx : Inward P.box.sides.y P.box.sides.z P.box.sides.x n.x) (hy : Inward P.box.sides.z P.box.sides.x P.box.sides.y n.y)
    (hz : Inward P.box.sides.x P.box.sides.y P.box.sides.z n.z) :
    (∀ i s, (mols P)[i]? = some s → P.countParticleWallOverlaps I i false = .ok (wallOverlaps P.box P.hasWall I n s) ∧
      ∃ k, P.countParticleWallOverlaps I i true = .ok k ∧ (0 < k ↔ 0 < wallOverlaps P.box P.hasWall I n s)) ∧
    P.countWallOverlaps I false = .ok ((mols P).map (wallOverlaps P.box P.hasWall I n)).sum ∧
    ∃ k, P.countWallOverlaps I true = .ok k ∧ (0 < k ↔ ∃ s ∈ mols P, 0 < wallOverlaps P.box P.hasWall I n s) := by
  obtain ⟨hP, hI⟩ := h.inv
  have en : n = codeNormals P.box := by
    have ex := Inward.unique (by rw [Box.triple_yzx]; exact hd.ne') hx (inward_cross (by rw [Box.triple_yzx]; exact hd))
    have ey := Inward.unique (by rw [Box.triple_zxy]; exact hd.ne') hy (inward_cross (by rw [Box.triple_zxy]; exact hd))
    have ez := Inward.unique (by rw [Box.triple_eq_det]; exact hd.ne') hz (inward_cross (by rw [Box.triple_eq_det]; exact hd))
    unfold codeNormals
    rw [← ex, ← ey, ← ez]
  rw [en]
  have hw : ∀ s ∈ mols P, wallNum P.box P.hasWall I s = wallOverlaps P.box P.hasWall I (codeNormals P.box) s :=
    fun s hs => wallNum_eq hd (hr s hs) ht
  have hsum : ((List.range P.size).map fun i => wallNum P.box P.hasWall I (P.shapeFn i)).sum =
      ((mols P).map (wallOverlaps P.box P.hasWall I (codeNormals P.box))).sum := by
    rw [← List.map_congr_left hw, mols_eq_map, List.map_map]
    rfl
  refine ⟨fun i s hs => ?_, ?_, ?_⟩
  · have hi : i < P.size := by
      by_contra hi
      rw [List.getElem?_eq_none (by rw [mols_length]; omega)] at hs; cases hs
    have hs' : P.shapes[i]? = some s := by rw [← mols_getElem? hi]; exact hs
    have hm := List.mem_of_getElem? hs
    obtain ⟨k, ek, -, h2⟩ := wallCount_ok hP.q.core.m_eq (hP.q.core.slots i s hi hs') false
    obtain ⟨k', ek', h1', -⟩ := wallCount_ok hP.q.core.m_eq (hP.q.core.slots i s hi hs') true
    rw [h2 rfl, hw s hm] at ek
    rw [hw s hm] at h1'
    exact ⟨ek, k', ek', h1'⟩
  · obtain ⟨k, ek, -, h2⟩ := countWall_ok hP.q.core (I := I) false
    rw [ek, h2 rfl, hsum]
  · obtain ⟨k, ek, h1, -⟩ := countWall_ok hP.q.core (I := I) true
    refine ⟨k, ek, ?_⟩
    rw [h1, hsum]
    rw [Nat.pos_iff_ne_zero, ne_eq, List.sum_eq_zero_iff]
    simp only [List.mem_map, forall_exists_index, and_imp, forall_apply_eq_imp_iff₂, not_forall, Nat.pos_iff_ne_zero, exists_prop]

/-- Walls along x switched on in a new packing. -/
theorem walled_reachable {I : Interaction} (hI : Contract I) {M : Mat3} {b : Box} (hb : Box.make M = .ok b) {s : Shape}
    (hs : Inside b s.pos) (hc : I.centres.length < 2 ^ 50) (w : Vec3 Bool) :
    ∃ P, Reachable P I ∧ mols P = [s] ∧ P.box = b ∧ P.hasWall = w := by
  have hcap : [s].length * max 1 I.centres.length < 2 ^ 50 := by simp; omega
  obtain ⟨P, e, h, h1, h2, -, h4, -⟩ := create_ok hI (Box.make_wf hb).1 (shapes := [s]) (by simp) (by simpa using hs) hcap 1
  have hr : Reachable P I := .create hI hb (by simp) (by simpa using hs) hcap e
  exact ⟨_, .step (.walls w) hr h4 rfl, h1, h2, rfl⟩

theorem ballsI_wallRange {cs : List (Vec3 ℝ)} {r total : ℝ} (hr : 0 ≤ r) (h1 : 3 * r ≤ total) (h2 : ∀ c ∈ cs, 3 * r + 2 * c.norm ≤ total) {s : Shape}
    (hs : s.rot.transpose * s.rot = 1) : WallRange (ballsI cs r total) s := by
  refine WallRange.of_sites ?_ ⟨h1, h2⟩ hs
  intro x o n _ hw
  simp only [ballsI, decide_eq_true_eq] at hw ⊢
  linarith

theorem one_orthogonal : (1 : Mat3).transpose * 1 = 1 := by
  show Mat3.mul (Mat3.transpose Mat3.one) Mat3.one = Mat3.one
  ext <;> simp [Mat3.mul, Mat3.transpose, Mat3.one, Mat3.c0, Mat3.c1, Mat3.c2, Vec3.dot]

theorem unitBox_inward : Inward unitBox.sides.y unitBox.sides.z unitBox.sides.x ⟨1, 0, 0⟩ ∧
    Inward unitBox.sides.z unitBox.sides.x unitBox.sides.y ⟨0, 1, 0⟩ ∧ Inward unitBox.sides.x unitBox.sides.y unitBox.sides.z ⟨0, 0, 1⟩ := by
  rw [unitBox_sides]
  refine ⟨⟨?_, ?_, ?_, ?_⟩, ⟨?_, ?_, ?_, ?_⟩, ⟨?_, ?_, ?_, ?_⟩⟩ <;> simp [Vec3.norm2, Vec3.dot]

/-- The hypotheses are met by a molecule of two balls in the unit cube, one of which overlaps a wall, and so is the
conclusion not trivial. -/
example : ∃ P I n, Reachable P I ∧ (∀ s ∈ mols P, WallRange I s) ∧ 0 < P.box.dims.det ∧ ThickEnough P.box P.hasWall I ∧
    Inward P.box.sides.y P.box.sides.z P.box.sides.x n.x ∧ Inward P.box.sides.z P.box.sides.x P.box.sides.y n.y ∧
    Inward P.box.sides.x P.box.sides.y P.box.sides.z n.z ∧ (mols P).map (wallOverlaps P.box P.hasWall I n) = [1] := by
  obtain ⟨P, h, hm, hb, hw⟩ := walled_reachable (ballsI_contract [⟨1 / 20, 0, 0⟩, ⟨-1 / 20, 0, 0⟩] (r := 1 / 10) (by norm_num) (1 / 2))
    unitBox_ok (s := ⟨⟨1 / 10, 1 / 2, 1 / 2⟩, 1⟩) (unitBox_inside (by norm_num) (by norm_num) (by norm_num)) (by simp [ballsI])
    ⟨true, false, true⟩
  have hb : P.box = unitBox := hb
  have hn1 : (⟨1 / 20, 0, 0⟩ : Vec3 ℝ).norm = 1 / 20 := by
    rw [Vec3.norm, show (⟨1 / 20, 0, 0⟩ : Vec3 ℝ).norm2 = (1 / 20) ^ 2 by simp [Vec3.norm2, Vec3.dot]; norm_num]
    exact Real.sqrt_sq (by norm_num)
  have hn2 : (⟨-1 / 20, 0, 0⟩ : Vec3 ℝ).norm = 1 / 20 := by
    rw [Vec3.norm, show (⟨-1 / 20, 0, 0⟩ : Vec3 ℝ).norm2 = (1 / 20) ^ 2 by simp [Vec3.norm2, Vec3.dot]; norm_num]
    exact Real.sqrt_sq (by norm_num)
  refine ⟨P, _, ⟨⟨1, 0, 0⟩, ⟨0, 1, 0⟩, ⟨0, 0, 1⟩⟩, h, ?_, ?_, ?_, ?_⟩
  · rw [hm]
    intro s hs
    rw [List.mem_singleton] at hs
    subst hs
    refine ballsI_wallRange (by norm_num) (by norm_num) ?_ one_orthogonal
    intro c hc
    simp only [List.mem_cons, List.not_mem_nil, or_false] at hc
    rcases hc with rfl | rfl
    · rw [hn1]; norm_num
    · rw [hn2]; norm_num
  · rw [hb]; norm_num [unitBox, Mat3.diag, Mat3.det]
  · rw [hb]; simp only [ThickEnough, unitBox_heights, ballsI]; norm_num
  · rw [hb, hw, hm]
    refine ⟨unitBox_inward.1, unitBox_inward.2.1, unitBox_inward.2.2, ?_⟩
    have e1 : ∀ v : Vec3 ℝ, (1 : Mat3).mulVec v = v := by
      intro v
      show Mat3.one.mulVec v = v
      ext <;> simp [Mat3.one, Mat3.mulVec, Vec3.dot]
    simp only [List.map_cons, List.map_nil, wallOverlaps, axisOverlaps, bodySites, ballsI, corner, unitBox_sides]
    norm_num [List.range_succ, e1, Vec3.dot, List.countP_cons]

/-- A thin hard needle with the ends `± (2/5, 0, 1/2)`; two of them never overlap. -/
noncomputable def needleI : Interaction where
  hasHard := true
  hasSoft := false
  isConvex := true
  centres := []
  range := 13 / 10
  totalRange := 13 / 10
  overlap := fun _ _ _ => false
  energy := fun _ _ _ => 0
  wall := fun x o v => decide ((x.pos + x.rot.mulVec ⟨2 / 5, 0, 1 / 2⟩ - o).dot v < 0 ∨ (x.pos - x.rot.mulVec ⟨2 / 5, 0, 1 / 2⟩ - o).dot v < 0)

theorem needleI_contract : Contract needleI where
  range_pos := by norm_num [needleI]
  overlap_symm := by intros; rfl
  overlap_symm_pbc := by intros; rfl
  overlap_range := by intro _ _ _ h; simp [needleI] at h
  energy_symm := by intros; rfl
  energy_symm_pbc := by intros; rfl
  energy_range := by intro _ _ _ h; simp [needleI] at h
  noHard_overlap := by intros; rfl
  noHard_wall := by intro h; simp [needleI] at h

/-- C19 does not hold in thin boxes: a needle in the unit cube sticks out through the wall `z = 1`, and no overlap with walls is
reported, since the molecule is nearer to the wall `z = 0` than half of the total interaction range and the other wall
is not checked then. -/
theorem C19_thin_box_violated : ∃ P I n, Reachable P I ∧ (∀ s ∈ mols P, WallRange I s) ∧ 0 < P.box.dims.det ∧
    Inward P.box.sides.y P.box.sides.z P.box.sides.x n.x ∧ Inward P.box.sides.z P.box.sides.x P.box.sides.y n.y ∧
    Inward P.box.sides.x P.box.sides.y P.box.sides.z n.z ∧
    ((mols P).map (wallOverlaps P.box P.hasWall I n)).sum = 1 ∧ P.countWallOverlaps I false = .ok 0 := by
  obtain ⟨P, h, hm, hb, hw⟩ := walled_reachable needleI_contract unitBox_ok (s := ⟨⟨1 / 2, 1 / 2, 11 / 20⟩, 1⟩)
    (unitBox_inside (by norm_num) (by norm_num) (by norm_num)) (by simp [needleI]) ⟨false, false, true⟩
  have hb : P.box = unitBox := hb
  have e1 : ∀ v : Vec3 ℝ, (1 : Mat3).mulVec v = v := by
    intro v
    show Mat3.one.mulVec v = v
    ext <;> simp [Mat3.one, Mat3.mulVec, Vec3.dot]
  refine ⟨P, _, ⟨⟨1, 0, 0⟩, ⟨0, 1, 0⟩, ⟨0, 0, 1⟩⟩, h, ?_, ?_, ?_⟩
  · rw [hm]
    intro s hs
    rw [List.mem_singleton] at hs
    subst hs
    intro o n hn x hx hw
    simp only [bodySites, needleI, List.length_nil, if_true, List.mem_singleton] at hx
    subst hx
    simp only [needleI, e1, decide_eq_true_eq] at hw ⊢
    have h3 := Vec3.dot_sq_le ⟨2 / 5, 0, 1 / 2⟩ n
    rw [hn] at h3
    simp only [Vec3.norm2] at h3
    simp only [Vec3.dot, Vec3.sub_x, Vec3.sub_y, Vec3.sub_z, Vec3.add_x, Vec3.add_y, Vec3.add_z] at hw h3 ⊢
    have h4 : |2 / 5 * n.x + 0 * n.y + 1 / 2 * n.z| ≤ 13 / 20 := abs_le_of_sq_le_sq (by nlinarith) (by norm_num)
    obtain ⟨h5, h6⟩ := abs_le.mp h4
    rcases hw with hw | hw <;> linarith
  · rw [hb]; norm_num [unitBox, Mat3.diag, Mat3.det]
  · obtain ⟨k, ek, -, h2⟩ := countWall_ok h.inv.1.q.core (I := needleI) false
    have hs1 : P.size = 1 := by rw [← mols_length, hm]; rfl
    have f0 : P.shapeFn 0 = ⟨⟨1 / 2, 1 / 2, 11 / 20⟩, 1⟩ := shapeFn_of_mols (by omega) hm
    rw [ek, h2 rfl]
    rw [hs1, hb, hw, hm]
    refine ⟨unitBox_inward.1, unitBox_inward.2.1, unitBox_inward.2.2, ?_, ?_⟩
    · simp only [List.map_cons, List.map_nil, wallOverlaps, axisOverlaps, bodySites, needleI, corner, unitBox_sides]
      norm_num [e1, Vec3.dot, List.countP_cons]
    · simp only [List.range_one, List.map_cons, List.map_nil, f0, wallNum, wallAxis, wallSites, needleI, unitBox_sides]
      norm_num [e1, Vec3.dot, normalized, Vec3.cross, Vec3.norm, Vec3.norm2]

/-- The unit cube with two sides exchanged: a left-handed box. -/
noncomputable def leftDims : Mat3 := ⟨⟨1, 0, 0⟩, ⟨0, 0, 1⟩, ⟨0, 1, 0⟩⟩

theorem leftDims_ok : Box.make leftDims = .ok ⟨leftDims, leftDims.inverse⟩ := by
  have : leftDims.det ≠ 0 := by norm_num [leftDims, Mat3.det]
  rw [Box.make, if_neg this]

/-- C19 does not hold in left-handed boxes: a ball in the middle of a cube whose second and third side are exchanged is
reported to overlap the wall. -/
theorem C19_left_handed_violated : ∃ P I n, Reachable P I ∧ (∀ s ∈ mols P, WallRange I s) ∧ ThickEnough P.box P.hasWall I ∧
    Inward P.box.sides.y P.box.sides.z P.box.sides.x n.x ∧ Inward P.box.sides.z P.box.sides.x P.box.sides.y n.y ∧
    Inward P.box.sides.x P.box.sides.y P.box.sides.z n.z ∧
    ((mols P).map (wallOverlaps P.box P.hasWall I n)).sum = 0 ∧ P.countWallOverlaps I false = .ok 1 := by
  have hin : Inside ⟨leftDims, leftDims.inverse⟩ (⟨1 / 2, 1 / 2, 1 / 2⟩ : Vec3 ℝ) :=
    ⟨⟨1 / 2, 1 / 2, 1 / 2⟩, by norm_num, by norm_num, by norm_num, by
      ext <;> simp [combo, leftDims, Mat3.c0, Mat3.c1, Mat3.c2]⟩
  obtain ⟨P, h, hm, hb, hw⟩ := walled_reachable (ballsI_contract [] (r := 1 / 20) (by norm_num) (3 / 20)) leftDims_ok (s := ⟨⟨1 / 2, 1 / 2, 1 / 2⟩, 1⟩)
    hin (by simp [ballsI]) ⟨true, false, false⟩
  have hsides : Box.sides ⟨leftDims, leftDims.inverse⟩ = ⟨⟨1, 0, 0⟩, ⟨0, 0, 1⟩, ⟨0, 1, 0⟩⟩ := by
    simp [Box.sides, Box.relToAbs, leftDims, Mat3.mulVec, Vec3.dot]
  refine ⟨P, _, ⟨⟨1, 0, 0⟩, ⟨0, 0, 1⟩, ⟨0, 1, 0⟩⟩, h, ?_, ?_, ?_⟩
  · rw [hm]
    intro s hs
    rw [List.mem_singleton] at hs
    subst hs
    exact ballsI_wallRange (by norm_num) (by norm_num) (by simp) one_orthogonal
  · rw [hb, hw]
    simp only [ThickEnough, Box.heights, Box.volume, hsides, ballsI]
    norm_num [Vec3.cross, Vec3.dot, Vec3.norm, Vec3.norm2]
  · obtain ⟨k, ek, -, h2⟩ := countWall_ok h.inv.1.q.core (I := ballsI [] (1 / 20) (3 / 20)) false
    have hs1 : P.size = 1 := by rw [← mols_length, hm]; rfl
    have f0 : P.shapeFn 0 = ⟨⟨1 / 2, 1 / 2, 1 / 2⟩, 1⟩ := shapeFn_of_mols (by omega) hm
    rw [ek, h2 rfl]
    rw [hs1, hb, hw, hm, hsides]
    refine ⟨⟨?_, ?_, ?_, ?_⟩, ⟨?_, ?_, ?_, ?_⟩, ⟨?_, ?_, ?_, ?_⟩, ?_, ?_⟩
    iterate 12 simp [Vec3.norm2, Vec3.dot]
    · simp only [List.map_cons, List.map_nil, wallOverlaps, axisOverlaps, bodySites, ballsI, corner, hsides]
      norm_num [Vec3.dot, List.countP_cons]
    · simp only [List.range_one, List.map_cons, List.map_nil, f0, wallNum, wallAxis, wallSites, ballsI, hsides]
      norm_num [Vec3.dot, normalized, Vec3.cross, Vec3.norm, Vec3.norm2]

end Rampack
