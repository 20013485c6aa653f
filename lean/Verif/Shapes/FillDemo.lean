import Verif.Shapes.FillProps
/-
C105: packings which meet the hypotheses, and packings in small boxes, for which the packing fraction is more than one.
-/
namespace Rampack

open Spec Packing Grid Volume Shapes MeasureTheory

namespace Fill

/-- A packing in the unit cube. -/
theorem cube_reachable {I : Interaction} (hI : Contract I) {shapes : List Shape} (hne : shapes ≠ []) (hin : ∀ s ∈ shapes, Inside unitBox s.pos)
    (hcap : shapes.length * max 1 I.centres.length < 2 ^ 50) : ∃ P, Reachable P I ∧ mols P = shapes ∧ P.box = unitBox ∧ P.hasWall = ⟨false, false, false⟩ ∧
      (I.range ≤ 1 / 5 → P.ng.isSome = true) := by
  obtain ⟨P, e, h, h1, h2, h3, h4, h5⟩ := create_ok hI unitBox_wf (shapes := shapes) hne hin hcap 1
  refine ⟨P, .create hI unitBox_ok hne hin hcap e, h1, h2, h3, fun hr => ?_⟩
  rw [h.used]
  exact unitBox_usesGrid h h2 hr

theorem count_none {P : Packing} {I : Interaction} (h : Reachable P I) (hw : P.hasWall = ⟨false, false, false⟩)
    (hz : ∀ (i : ℕ) s, (mols P)[i]? = some s → overlapsOf P I i s = 0) : P.countTotalOverlaps I false = .ok 0 := by
  obtain ⟨hP, hI⟩ := h.inv
  obtain ⟨K, ek, hK⟩ := count_exact hP hI
  rw [ek]
  have : numTotal P I = 0 := by
    unfold numTotal
    rw [double_overlaps hP hI]
    have e1 : ((List.range P.size).map fun i => overlapsOf P I i (P.shapeFn i)).sum = 0 := by
      rw [List.sum_eq_zero_iff]
      intro k hk
      rw [List.mem_map] at hk
      obtain ⟨i, hi, rfl⟩ := hk
      have hi := List.mem_range.mp hi
      exact hz i _ (by rw [mols_getElem? hi, shape_some hi])
    have e2 : ((List.range P.size).map fun i => wallNum P.box P.hasWall I (P.shapeFn i)).sum = 0 := by
      rw [List.sum_eq_zero_iff]
      intro k hk
      rw [List.mem_map] at hk
      obtain ⟨i, hi, rfl⟩ := hk
      exact wallNum_of_none I (by simp [hasAnyWalls, hw]) _
    rw [e1, e2]; simp
  rw [this] at hK
  congr 1
  exact_mod_cast hK

theorem count_single {P : Packing} {I : Interaction} (h : Reachable P I) (hw : P.hasWall = ⟨false, false, false⟩) {s : Shape} (hm : mols P = [s]) :
    P.countTotalOverlaps I false = .ok 0 := by
  refine count_none h hw fun i t ht => ?_
  rw [hm] at ht
  match i with
  | 0 => unfold overlapsOf; rw [hm]; simp
  | i + 1 => simp at ht

/-- Two separate balls of diameter 1/5 in the unit cube. -/
theorem two_balls : ∃ I P, sphere (1 / 10) = .ok I ∧ Reachable P I ∧ mols P = [⟨⟨1 / 4, 1 / 2, 1 / 2⟩, 1⟩, ⟨⟨3 / 4, 1 / 2, 1 / 2⟩, 1⟩] ∧ P.ng.isSome = true ∧
    P.countTotalOverlaps I false = .ok 0 := by
  obtain ⟨I, hI⟩ : ∃ I, sphere (1 / 10) = .ok I := by
    unfold sphere
    rw [decide_eq_true (by norm_num)]
    exact ⟨_, rfl⟩
  obtain ⟨hr, hIe⟩ := sphere_ok hI
  obtain ⟨P, h, hm, hb, hw, hg⟩ := cube_reachable (C70_spheres hI).1 (shapes := [⟨⟨1 / 4, 1 / 2, 1 / 2⟩, 1⟩, ⟨⟨3 / 4, 1 / 2, 1 / 2⟩, 1⟩]) (by simp) (by
    intro s hs
    simp only [List.mem_cons, List.not_mem_nil, or_false] at hs
    rcases hs with rfl | rfl <;> exact unitBox_inside (by norm_num) (by norm_num) (by norm_num)) (by rw [hIe]; simp)
  have hg := hg (by rw [hIe]; norm_num)
  refine ⟨I, P, hI, h, hm, hg, count_none h hw ?_⟩
  have hc : I.centres = [] := by rw [hIe]
  have key : ∀ a b : ℝ, (b - a = 1 / 2 ∨ b - a = -(1 / 2)) → pairOverlaps P I ⟨⟨a, 1 / 2, 1 / 2⟩, 1⟩ ⟨⟨b, 1 / 2, 1 / 2⟩, 1⟩ = 0 := by
    intro a b hab
    rw [pairOverlaps_single hc, if_pos hg]
    unfold overlappingImages
    have : {t : Vec3 ℤ | I.overlap ⟨⟨a, 1 / 2, 1 / 2⟩, 1, 0⟩ ⟨⟨b, 1 / 2, 1 / 2⟩, 1, 0⟩ (BC.hard (lattice P.box t)) = true} = ∅ := by
      rw [Set.eq_empty_iff_forall_notMem]
      intro t ht
      have ht : I.overlap ⟨⟨a, 1 / 2, 1 / 2⟩, 1, 0⟩ ⟨⟨b, 1 / 2, 1 / 2⟩, 1, 0⟩ (BC.hard (lattice P.box t)) = true := ht
      rw [hIe] at ht
      simp only [hard_distance2, hb] at ht
      have ht := of_decide_eq_true ht
      simp only [Vec3.norm2, Vec3.dot, Vec3.sub_x, Vec3.sub_y, Vec3.sub_z, Vec3.add_x, Vec3.add_y, Vec3.add_z] at ht
      have ex : (lattice unitBox t).x = t.x := by simp [lattice, combo, unitBox, Mat3.diag, Mat3.c0, Mat3.c1, Mat3.c2]
      rw [ex] at ht
      have hx : (1 / 2 : ℝ) ≤ |b + t.x - a| := by
        rcases hab with hab | hab
        · rcases le_or_gt 0 t.x with h | h
          · have : (0 : ℝ) ≤ t.x := by exact_mod_cast h
            rw [abs_of_nonneg (by linarith)]; linarith
          · have : (t.x : ℝ) ≤ -1 := by exact_mod_cast Int.le_sub_one_of_lt h
            rw [abs_of_nonpos (by linarith)]; linarith
        · rcases le_or_gt 1 t.x with h | h
          · have : (1 : ℝ) ≤ t.x := by exact_mod_cast h
            rw [abs_of_nonneg (by linarith)]; linarith
          · have : (t.x : ℝ) ≤ 0 := by exact_mod_cast Int.le_of_lt_add_one h
            rw [abs_of_nonpos (by linarith)]; linarith
      have hsq : (1 / 4 : ℝ) ≤ (b + t.x - a) * (b + t.x - a) := by
        rw [← abs_mul_abs_self]; nlinarith
      nlinarith [mul_self_nonneg (1 / 2 + (lattice unitBox t).y - 1 / 2), mul_self_nonneg (1 / 2 + (lattice unitBox t).z - 1 / 2)]
    rw [this, Set.ncard_empty]
  intro i s hs
  rw [hm] at hs
  unfold overlapsOf
  rw [hm]
  match i with
  | 0 =>
    simp only [List.getElem?_cons_zero, Option.some.injEq] at hs
    subst hs
    simpa using key (1 / 4) (3 / 4) (by norm_num)
  | 1 =>
    simp only [List.getElem?_cons_succ, List.getElem?_cons_zero, Option.some.injEq] at hs
    subst hs
    simpa using key (3 / 4) (1 / 4) (by norm_num)
  | i + 2 => simp at hs

/-- A pile of balls of diameter 1/5, which touch each other. -/
noncomputable def pile (n : ℕ) : List SphereData := (List.range n).map fun i : ℕ => ⟨⟨0, 0, (i : ℝ) / 5⟩, 1 / 10⟩

theorem pile_radii (n : ℕ) : PositiveRadii (pile n) := by
  intro d hd
  obtain ⟨i, -, rfl⟩ := List.mem_map.mp hd
  norm_num

theorem pile_apart (n : ℕ) : (pile n).Pairwise fun d1 d2 => ¬ Meet (SphereData.Inside d1) (SphereData.Inside d2) := by
  unfold pile
  rw [List.pairwise_map]
  refine List.Pairwise.imp ?_ List.pairwise_lt_range
  intro i j hij
  unfold SphereData.Inside
  rw [meet_balls (by norm_num) (by norm_num), not_lt]
  have : (i : ℝ) + 1 ≤ j := by exact_mod_cast hij
  simp only [Vec3.norm2, Vec3.dot, Vec3.sub_x, Vec3.sub_y, Vec3.sub_z]
  nlinarith

theorem pile_volume (n : ℕ) : ∃ v, polysphereVolume (pile n) = .ok v ∧ HasVolume (Balls3 (pile n)) v ∧ v = n * (4 / 3 * Real.pi * (1 / 10) ^ 3) := by
  obtain ⟨h0, _, hv⟩ := disjoint_volume (pile_radii n) (pile_apart n)
  refine ⟨_, C71_disjoint (pile_radii n) (pile_apart n), ⟨h0, hv⟩, ?_⟩
  unfold pile
  rw [List.map_map]
  have : ((fun d : SphereData => 4 / 3 * Real.pi * d.radius ^ 3) ∘ fun i : ℕ => (⟨⟨0, 0, (i : ℝ) / 5⟩, 1 / 10⟩ : SphereData)) = fun _ => 4 / 3 * Real.pi * (1 / 10) ^ 3 := rfl
  rw [this, List.map_const', List.sum_replicate, List.length_range, nsmul_eq_mul]

/-- One molecule made of a pile of balls, in the unit cube. -/
theorem pile_packing {n : ℕ} (h1 : 1 ≤ n) (h2 : n < 2 ^ 40) : ∃ I P, polysphere (pile n) = .ok I ∧ Reachable P I ∧ mols P = [⟨⟨1 / 2, 1 / 2, 1 / 2⟩, 1⟩] ∧
    P.ng.isSome = true ∧ P.box = unitBox ∧ P.countTotalOverlaps I false = .ok 0 := by
  obtain ⟨k, rfl⟩ : ∃ k, n = k + 1 := ⟨n - 1, by omega⟩
  have hcons : pile (k + 1) = ⟨⟨0, 0, ((0 : ℕ) : ℝ) / 5⟩, 1 / 10⟩ :: (((List.range k).map Nat.succ).map fun i : ℕ => (⟨⟨0, 0, (i : ℝ) / 5⟩, 1 / 10⟩ : SphereData)) := by
    unfold pile
    rw [List.range_succ_eq_map, List.map_cons]
  obtain ⟨I, hI⟩ : ∃ I, polysphere (pile (k + 1)) = .ok I := by rw [hcons]; exact ⟨_, rfl⟩
  obtain ⟨d, rest, hd, hIe⟩ := polysphere_ok hI
  have hrange : I.range = 1 / 5 := by
    rw [hIe]
    show polysphereRange d rest = _
    unfold polysphereRange
    have hm : maxBy SphereData.radius d rest ∈ pile (k + 1) := by rw [hd]; exact maxBy_mem SphereData.radius rest d
    obtain ⟨i, -, e⟩ := List.mem_map.mp hm
    rw [← e]; norm_num
  obtain ⟨P, h, hm, hb, hw, hg⟩ := cube_reachable (C70_polyspheres hI (pile_radii _)).1 (shapes := [⟨⟨1 / 2, 1 / 2, 1 / 2⟩, 1⟩]) (by simp) (by
    intro s hs
    simp only [List.mem_cons, List.not_mem_nil, or_false] at hs
    subst hs
    exact unitBox_inside (by norm_num) (by norm_num) (by norm_num)) (by
      rw [hIe]
      show 1 * max 1 ((pile (k + 1)).map SphereData.position).length < _
      rw [List.length_map]
      unfold pile
      rw [List.length_map, List.length_range]
      omega)
  exact ⟨I, P, hI, h, hm, hg (by rw [hrange]), hb, count_single h hw hm⟩

end Fill

open Fill

/-- Two separate balls meet the hypotheses of the theorem for balls. -/
example : ∃ I P, sphere (1 / 10) = .ok I ∧ Reachable P I ∧ (mols P).length = 2 ∧
    ∃ theta, Thermo.packingFraction.calculate P 1 1 (Wedge.sphereVolume (1 / 10)) I = .ok [theta] ∧ 0 ≤ theta ∧ theta ≤ 1 := by
  obtain ⟨I, P, hI, h, hm, hg, h0⟩ := two_balls
  exact ⟨I, P, hI, h, by rw [hm]; rfl, C105_spheres_partial h hI h0 (Or.inl hg) 1 1⟩

/-- A molecule of two balls meets the hypotheses of the theorem for molecules made of balls. -/
example : ∃ I P v, polysphere (pile 2) = .ok I ∧ Reachable P I ∧ polysphereVolume (pile 2) = .ok v ∧
    ∃ theta, Thermo.packingFraction.calculate P 1 1 v I = .ok [theta] ∧ 0 ≤ theta ∧ theta ≤ 1 := by
  obtain ⟨I, P, hI, h, hm, hg, hb, h0⟩ := pile_packing (n := 2) (by norm_num) (by norm_num)
  obtain ⟨v, hv, hv', -⟩ := pile_volume 2
  refine ⟨I, P, v, hI, h, hv, C105_polyspheres_partial h hI (pile_radii 2) hv' ?_ h0 (Or.inl hg) ?_ 1 1⟩
  · intro s hs
    rw [hm, List.mem_singleton] at hs
    subst hs
    unfold Orthogonal
    ext <;> simp [Mat3.mul_def, Mat3.mul, Mat3.transpose, Mat3.c0, Mat3.c1, Mat3.c2, Vec3.dot, Mat3.one_def, Mat3.one]
  · have : I.totalRange ≤ 1 := by
      obtain ⟨d, rest, hd, hIe⟩ := polysphere_ok hI
      have hr : pile 2 = [⟨⟨0, 0, ((0 : ℕ) : ℝ) / 5⟩, 1 / 10⟩, ⟨⟨0, 0, ((1 : ℕ) : ℝ) / 5⟩, 1 / 10⟩] := rfl
      rw [hr] at hd hIe
      obtain ⟨rfl, rfl⟩ := List.cons.inj hd
      rw [hIe]
      clear hIe hI hv h h0 hd hr
      have hs : Real.sqrt (1 / 5 * (1 / 5)) = 1 / 5 := Real.sqrt_mul_self (by norm_num)
      norm_num [Interaction.totalRangeRadius, polysphereRange, maxBy, Vec3.norm2, Vec3.dot] at hs ⊢
      rw [hs]; norm_num
    rw [hb, unitBox_heights]
    exact ⟨this, this, this⟩

/-- C105, violated in a small box: images of a ball are not compared with the ball itself, so a ball of radius 1 in the unit cube overlaps nothing. -/
theorem C105_small_violated : ∃ I P, sphere 1 = .ok I ∧ Reachable P I ∧ Rectangular P.box ∧ P.countTotalOverlaps I false = .ok 0 ∧
    ∃ theta, Thermo.packingFraction.calculate P 1 1 (Wedge.sphereVolume 1) I = .ok [theta] ∧ 4 < theta := by
  obtain ⟨I, hI⟩ : ∃ I, sphere 1 = .ok I := by
    unfold sphere
    rw [decide_eq_true (by norm_num)]
    exact ⟨_, rfl⟩
  obtain ⟨hr, hIe⟩ := sphere_ok hI
  obtain ⟨P, h, hm, hb, hw, -⟩ := cube_reachable (C70_spheres hI).1 (shapes := [⟨⟨1 / 2, 1 / 2, 1 / 2⟩, 1⟩]) (by simp) (by
    intro s hs
    simp only [List.mem_cons, List.not_mem_nil, or_false] at hs
    subst hs
    exact unitBox_inside (by norm_num) (by norm_num) (by norm_num)) (by rw [hIe]; simp)
  refine ⟨I, P, hI, h, ?_, count_single h hw hm, ?_⟩
  · rw [hb]; norm_num [Rectangular, unitBox, Mat3.diag, Mat3.c0, Mat3.c1, Mat3.c2, Vec3.dot]
  · have hpi := Real.pi_gt_three
    obtain ⟨-, h2, -⟩ := C100_state h 1 1 (Wedge.sphereVolume 1)
    obtain ⟨theta, e, ht⟩ := h2 (by unfold Wedge.sphereVolume; linarith)
    refine ⟨theta, e, ?_⟩
    rw [← Box.volume_eq, hb, unitBox_volume, hm] at ht
    simp only [List.length_singleton, Nat.cast_one, one_mul, mul_one, Wedge.sphereVolume] at ht
    rw [ht]; linarith

/-- C105, violated for long molecules: images of a molecule are not compared with the molecule itself, also when the grid is used. A pile of 300 balls of diameter 1/5
fits in the unit cube without overlaps. -/
theorem C105_long_violated : ∃ I P v, polysphere (pile 300) = .ok I ∧ polysphereVolume (pile 300) = .ok v ∧ Reachable P I ∧ P.ng.isSome = true ∧ Rectangular P.box ∧
    P.countTotalOverlaps I false = .ok 0 ∧ ∃ theta, Thermo.packingFraction.calculate P 1 1 v I = .ok [theta] ∧ 1 < theta := by
  obtain ⟨I, P, hI, h, hm, hg, hb, h0⟩ := pile_packing (n := 300) (by norm_num) (by norm_num)
  obtain ⟨v, hv, hv', ev⟩ := pile_volume 300
  refine ⟨I, P, v, hI, hv, h, hg, ?_, h0, ?_⟩
  · rw [hb]; norm_num [Rectangular, unitBox, Mat3.diag, Mat3.c0, Mat3.c1, Mat3.c2, Vec3.dot]
  · have hpi := Real.pi_gt_three
    obtain ⟨-, h2, -⟩ := C100_state h 1 1 v
    obtain ⟨theta, e, ht⟩ := h2 hv'.1
    refine ⟨theta, e, ?_⟩
    rw [← Box.volume_eq, hb, unitBox_volume, hm, ev] at ht
    simp only [List.length_singleton, Nat.cast_one, one_mul, mul_one] at ht
    rw [ht]; push_cast; nlinarith

end Rampack
