import Verif.Shapes.HardRodProps
/-
C70: ranges of hard shapes. C71: the volume computed automatically. C72: the mass centre.
-/
namespace Rampack

open Spec Shapes Segment

theorem distance2_comm (b : Box) (p q : Vec3 ℝ) : PBC.getDistance2 b p q = PBC.getDistance2 b q p := by
  unfold PBC.getDistance2
  simp only
  rw [abs_sub_comm (b.absToRel q).x, abs_sub_comm (b.absToRel q).y, abs_sub_comm (b.absToRel q).z]

theorem hard_flip (p q t : Vec3 ℝ) : (q + t - p).norm2 = (p + -t - q).norm2 := by
  simp only [Vec3.norm2, Vec3.dot, Vec3.sub_x, Vec3.sub_y, Vec3.sub_z, Vec3.add_x, Vec3.add_y, Vec3.add_z, Vec3.neg_x, Vec3.neg_y, Vec3.neg_z]; ring

theorem dist2_hard (p q t : Vec3 ℝ) : dist2 p (q + t) = (q + t - p).norm2 := by
  simp only [dist2, Vec3.norm2, Vec3.dot, Vec3.sub_x, Vec3.sub_y, Vec3.sub_z]; ring

/-- C70: hard spheres keep what the packing requires of an interaction: symmetry, and no overlap beyond the range. -/
theorem C70_spheres {r : ℝ} {I : Interaction} (hI : sphere r = .ok I) : Contract I ∧ TotalRange I ∧ Balls I (2 * r) ∧ SiteWallRange I := by
  obtain ⟨hr, rfl⟩ := sphere_ok hI
  refine ⟨⟨by show 0 < 2 * r; linarith, ?_, ?_, ?_, fun _ _ _ => rfl, fun _ _ _ _ _ => rfl, fun _ _ _ h => absurd rfl h, fun h => by simp at h, fun h => by simp at h⟩, ⟨le_rfl, by simp⟩, ⟨rfl, ?_⟩, ?_⟩
  · intro s1 s2 t
    show decide ((s2.pos + t - s1.pos).norm2 < _) = decide ((s1.pos + -t - s2.pos).norm2 < _)
    rw [hard_flip]
  · intro m b s1 s2 _
    show decide (PBC.getDistance2 b s1.pos s2.pos < _) = decide (PBC.getDistance2 b s2.pos s1.pos < _)
    rw [distance2_comm]
  · intro s1 s2 t h
    rw [decide_eq_true_eq] at h
    rw [dist2_hard]
    exact h.le
  · intro x y t
    rw [dist2_hard, decide_eq_true_eq]
    rfl
  · intro x o n _ h
    rw [decide_eq_true_eq, dot_comm'] at h
    show _ < 2 * r / 2
    linarith

theorem radius_le_range {d : SphereData} {rest : List SphereData} (hr : PositiveRadii (d :: rest)) (k : Nat) : 0 ≤ radiusAt (d :: rest) k ∧ radiusAt (d :: rest) k ≤ polysphereRange d rest / 2 := by
  have hm := hr _ (maxBy_mem SphereData.radius rest d)
  unfold polysphereRange
  cases hg : (d :: rest)[k]? with
  | none =>
    unfold radiusAt
    rw [hg]
    simp only [Option.map_none, Option.getD_none, le_refl, true_and]
    linarith
  | some e =>
    rw [radiusAt_of hg]
    have m := List.mem_of_getElem? hg
    refine ⟨(hr e m).le, ?_⟩
    have := le_maxBy SphereData.radius rest d
    rcases List.mem_cons.mp m with rfl | m
    · linarith [this.1]
    · linarith [this.2 e m]

/-- C70 for molecules made of spheres. -/
theorem C70_polyspheres {data : List SphereData} {I : Interaction} (hI : polysphere data = .ok I) (hr : PositiveRadii data) : Contract I ∧ TotalRange I ∧ SiteWallRange I := by
  obtain ⟨d, rest, hd, rfl⟩ := polysphere_ok hI
  subst hd
  have hrange := fun k => radius_le_range hr k
  have hpos : 0 < polysphereRange d rest := by
    have := hr _ (maxBy_mem SphereData.radius rest d)
    unfold polysphereRange
    linarith
  refine ⟨⟨hpos, ?_, ?_, ?_, fun _ _ _ => rfl, fun _ _ _ _ _ => rfl, fun _ _ _ h => absurd rfl h, fun h => by simp at h, fun h => by simp at h⟩, totalRange_ge (cs := (d :: rest).map SphereData.position) (r := polysphereRange d rest), ?_⟩
  · intro s1 s2 t
    show decide ((s2.pos + t - s1.pos).norm2 < _) = decide ((s1.pos + -t - s2.pos).norm2 < _)
    rw [hard_flip, add_comm (radiusAt (d :: rest) s1.idx)]
  · intro m b s1 s2 _
    show decide (PBC.getDistance2 b s1.pos s2.pos < _) = decide (PBC.getDistance2 b s2.pos s1.pos < _)
    rw [distance2_comm, add_comm (radiusAt (d :: rest) s1.idx)]
  · intro s1 s2 t h
    rw [decide_eq_true_eq] at h
    rw [dist2_hard]
    have h' : (s2.pos + t - s1.pos).norm2 < (radiusAt (d :: rest) s1.idx + radiusAt (d :: rest) s2.idx) * (radiusAt (d :: rest) s1.idx + radiusAt (d :: rest) s2.idx) := h
    have a := hrange s1.idx
    have b := hrange s2.idx
    show _ ≤ polysphereRange d rest ^ 2
    nlinarith
  · intro x o n _ h
    rw [decide_eq_true_eq, dot_comm'] at h
    have a := hrange x.idx
    show _ < polysphereRange d rest / 2
    linarith

/-- C70 for spherocylinders, the part which does not depend on the order: the range is not exceeded by reported overlaps, nor by wall overlaps. -/
theorem C70_rods {L r : ℝ} {I : Interaction} (hI : spherocylinder L r = .ok I) : 0 < I.range ∧ TotalRange I ∧ UsesTranslation I ∧
    (∀ s1 s2 t, I.overlap s1 s2 (BC.hard t) = true → dist2 s1.pos (s2.pos + t) ≤ I.range ^ 2) ∧ (∀ s, Orthogonal s.rot → WallRange I s) := by
  obtain ⟨hL, hr, rfl⟩ := spherocylinder_ok hI
  refine ⟨by show 0 < 2 * r + L; linarith, ⟨le_rfl, by simp⟩, ⟨fun _ _ _ => rfl, fun _ _ _ => rfl⟩, ?_, ?_⟩
  · intro s1 s2 t h
    have h' : rodsOverlap L r ⟨s1.pos, s1.rot⟩ ⟨s2.pos + t, s2.rot⟩ = true := h
    rw [dist2_hard]
    show _ ≤ (2 * r + L) ^ 2
    unfold rodsOverlap at h'
    split at h'
    next k =>
      have k' : (s2.pos + t - s1.pos).norm2 < 4 * r * r := k
      nlinarith
    next =>
      split at h'
      next => simp at h'
      next k => exact (not_le.mp k).le
  · intro s o0 o n hn x hx h
    have hx' : x = ⟨s.pos, s.rot, 0⟩ := by simpa [bodySites] using hx
    subst hx'
    have h' : rodWall L r ⟨s.pos, s.rot, 0⟩ o n = true := h
    have hc : (s.rot.c2).norm2 = 1 := by
      have e : s.rot.c2 = s.rot.mulVec ⟨0, 0, 1⟩ := by
        unfold Mat3.mulVec Mat3.c2 Vec3.dot
        ext <;> simp
      rw [e, orthogonal_norm2 o0]
      simp [Vec3.norm2, Vec3.dot]
    have cs : ∀ a : Vec3 ℝ, a.norm2 = 1 → -1 ≤ n.dot a ∧ n.dot a ≤ 1 := by
      intro a ha
      simp only [Vec3.norm2, Vec3.dot] at ha hn ⊢
      constructor
      · nlinarith [sq_nonneg (n.x + a.x), sq_nonneg (n.y + a.y), sq_nonneg (n.z + a.z)]
      · nlinarith [sq_nonneg (n.x - a.x), sq_nonneg (n.y - a.y), sq_nonneg (n.z - a.z)]
    obtain ⟨c1, c2⟩ := cs _ hc
    have e1 : n.dot (s.pos + (L / 2) • s.rot.c2 - o) = (s.pos - o).dot n + L / 2 * n.dot s.rot.c2 := by
      simp only [Vec3.dot, Vec3.add_x, Vec3.add_y, Vec3.add_z, Vec3.sub_x, Vec3.sub_y, Vec3.sub_z, Vec3.smul_x, Vec3.smul_y, Vec3.smul_z]; ring
    have e2 : n.dot (s.pos - (L / 2) • s.rot.c2 - o) = (s.pos - o).dot n - L / 2 * n.dot s.rot.c2 := by
      simp only [Vec3.dot, Vec3.sub_x, Vec3.sub_y, Vec3.sub_z, Vec3.smul_x, Vec3.smul_y, Vec3.smul_z]; ring
    show _ < (2 * r + L) / 2
    unfold rodWall at h'
    split at h'
    next k => rw [e1] at k; nlinarith
    next =>
      split at h'
      next k => rw [e2] at k; nlinarith
      next => simp at h'

/-- C70 fails for short rods: the overlap is not symmetric. -/
theorem C70_rods_violated : ∃ I, spherocylinder (1 / 500) (1 / 4000) = .ok I ∧ ¬ Contract I := by
  obtain ⟨I, s1, s2, hI, _, _, h1, h2⟩ := C68_order_violated
  refine ⟨I, hI, fun h => ?_⟩
  have := h.overlap_symm s1 s2 0
  have e : (-0 : Vec3 ℝ) = 0 := by ext <;> simp
  rw [e, h1, h2] at this
  exact absurd this (by simp)

/-- C70: in rectangular boxes the periodic overlap of spheres is the overlap with the image given by the translation. -/
theorem C70_rectangular {r : ℝ} {I : Interaction} (hI : sphere r = .ok I) {m : Mat3} {b : Box} (hb : Box.make m = .ok b) (hrect : Rectangular b) (s1 s2 : Site) :
    I.overlap s1 s2 (BC.pbc b) = I.overlap s1 s2 (BC.hard (PBC.getTranslation b s1.pos s2.pos)) := by
  obtain ⟨_, rfl⟩ := sphere_ok hI
  show decide (PBC.getDistance2 b s1.pos s2.pos < _) = decide ((s2.pos + PBC.getTranslation b s1.pos s2.pos - s1.pos).norm2 < _)
  rw [C07_distance2_partial hb hrect, dist2_hard]

/-- C70 fails in sheared boxes: spheres of radius 1/4 which overlap, both in the box, are not reported as overlapping with periodic boundary conditions. -/
theorem C70_sheared_violated : ∃ (I : Interaction) (m : Mat3) (b : Box) (s1 s2 : Site), sphere (1 / 4) = .ok I ∧ Box.make m = .ok b ∧ Inside b s1.pos ∧ Inside b s2.pos ∧
    Meet (Ball s1.pos (1 / 4)) (Ball s2.pos (1 / 4)) ∧ I.overlap s1 s2 (BC.pbc b) = false := by
  obtain ⟨b, p, q, hb, hp, hq, ht, h1, h2⟩ := C07_sheared_counterexample
  have e : (q + 0 : Vec3 ℝ) = q := by ext <;> simp
  refine ⟨_, _, b, ⟨p, 1, 0⟩, ⟨q, 1, 0⟩, by rw [sphere, decide_eq_true (by norm_num)]; rfl, hb, hp, hq, ?_, ?_⟩
  · rw [meet_balls (by norm_num) (by norm_num)]
    rw [ht, dist2_hard, e] at h2
    show (q - p).norm2 < _
    rw [h2]
    norm_num
  · show decide (PBC.getDistance2 b p q < _) = false
    rw [h1]
    norm_num

theorem rod_le_range {d : RodData} {rest : List RodData} (hw : WellBuilt (d :: rest)) (k : Nat) : 0 ≤ (rodAt (d :: rest) k).radius ∧ (rodAt (d :: rest) k).radius ≤ (rodAt (d :: rest) k).circumsphereRadius ∧
    (rodAt (d :: rest) k).circumsphereRadius ≤ polyrodRange d rest / 2 := by
  have hm := hw _ (maxBy_mem RodData.circumsphereRadius rest d)
  have hn : ∀ v : Vec3 ℝ, 0 ≤ v.norm := fun v => Real.sqrt_nonneg _
  unfold polyrodRange
  cases hg : (d :: rest)[k]? with
  | none =>
    unfold rodAt
    rw [List.getD_eq_getElem?_getD, hg]
    simp only [Option.getD_none, le_refl, true_and]
    rw [hm.2.2]
    linarith [hm.1, hn (maxBy RodData.circumsphereRadius d rest).halfAxis]
  | some e =>
    rw [rodAt_of hg]
    have m := List.mem_of_getElem? hg
    have he := hw e m
    refine ⟨he.1.le, by rw [he.2.2]; linarith [hn e.halfAxis], ?_⟩
    have := le_maxBy RodData.circumsphereRadius rest d
    rcases List.mem_cons.mp m with rfl | m
    · linarith [this.1]
    · linarith [this.2 e m]

/-- C70 for molecules made of spherocylinders. -/
theorem C70_polyrods {data : List RodData} {I : Interaction} (hI : polyspherocylinder data = .ok I) (hw : WellBuilt data) : 0 < I.range ∧ TotalRange I ∧ UsesTranslation I ∧
    (∀ s1 s2 t, I.overlap s1 s2 (BC.hard t) = true → dist2 s1.pos (s2.pos + t) ≤ I.range ^ 2) := by
  obtain ⟨d, rest, hd, rfl⟩ := polyspherocylinder_ok hI
  subst hd
  have hpos : 0 < polyrodRange d rest := by
    have := hw _ (maxBy_mem RodData.circumsphereRadius rest d)
    have hn : 0 ≤ (maxBy RodData.circumsphereRadius d rest).halfAxis.norm := Real.sqrt_nonneg _
    unfold polyrodRange
    rw [this.2.2]
    linarith [this.1]
  refine ⟨hpos, totalRange_ge (cs := (d :: rest).map RodData.position) (r := polyrodRange d rest), ⟨fun _ _ _ => rfl, fun _ _ _ => rfl⟩, ?_⟩
  intro s1 s2 t h
  have h' : polyrodsOverlap (rodAt (d :: rest) s1.idx) (rodAt (d :: rest) s2.idx) s1.pos s1.rot (s2.pos + t) s2.rot = true := h
  obtain ⟨a1, a2, a3⟩ := rod_le_range hw s1.idx
  obtain ⟨b1, b2, b3⟩ := rod_le_range hw s2.idx
  rw [dist2_hard]
  show _ ≤ polyrodRange d rest ^ 2
  unfold polyrodsOverlap at h'
  split at h'
  next k => nlinarith
  next =>
    split at h'
    next => simp at h'
    next k => nlinarith [not_le.mp k]

/-- C70: whole molecules which are further than the total range do not overlap. -/
theorem C70_molecules {I : Interaction} (hrange : ∀ s1 s2 t, I.overlap s1 s2 (BC.hard t) = true → dist2 s1.pos (s2.pos + t) ≤ I.range ^ 2) (hpos : 0 < I.range) (ht : TotalRange I) {s1 s2 : Shape} {t : Vec3 ℝ}
    (o1 : Orthogonal s1.rot) (o2 : Orthogonal s2.rot) (h : I.overlapBetweenShapes s1 s2 (BC.hard t) = true) : (s2.pos + t - s1.pos).norm ≤ I.totalRange := by
  rw [overlapBetweenShapes_iff] at h
  obtain ⟨x, hx, y, hy, h⟩ := h
  have hd := hrange x y t h
  rw [dist2_hard] at hd
  have hd' := (norm_le_iff hpos.le).mpr hd
  by_cases hc : I.centres = []
  · rw [shapeSites_single hc, List.mem_singleton] at hx hy
    subst hx
    subst hy
    exact le_trans hd' ht.1
  · obtain ⟨k1, c1, g1, rfl⟩ := (mem_shapeSites hc).mp hx
    obtain ⟨k2, c2, g2, rfl⟩ := (mem_shapeSites hc).mp hy
    have m1 := ht.2 c1 (List.mem_of_getElem? g1)
    have m2 := ht.2 c2 (List.mem_of_getElem? g2)
    have n1 : (s1.rot.mulVec c1).norm = c1.norm := by unfold Vec3.norm; rw [orthogonal_norm2 o1]
    have n2 : (-s2.rot.mulVec c2).norm = c2.norm := by unfold Vec3.norm; rw [norm2_neg, orthogonal_norm2 o2]
    simp only at hd'
    have e : s2.pos + t - s1.pos = (s2.pos + s2.rot.mulVec c2 + t - (s1.pos + s1.rot.mulVec c1)) + (s1.rot.mulVec c1 + -s2.rot.mulVec c2) := by
      ext
      all_goals
        simp only [Vec3.add_x, Vec3.add_y, Vec3.add_z, Vec3.sub_x, Vec3.sub_y, Vec3.sub_z, Vec3.neg_x, Vec3.neg_y, Vec3.neg_z]
        ring
    have k1 := Domain.norm_add_le' (s2.pos + s2.rot.mulVec c2 + t - (s1.pos + s1.rot.mulVec c1)) (s1.rot.mulVec c1 + -s2.rot.mulVec c2)
    have k2 := Domain.norm_add_le' (s1.rot.mulVec c1) (-s2.rot.mulVec c2)
    rw [← e] at k1
    linarith

/-! Automatic volume -/

theorem spheresOverlap_iff {data : List SphereData} : spheresOverlap data = false ↔ data.Pairwise fun d1 d2 => (d1.radius + d2.radius) ^ 2 ≤ (d1.position - d2.position).norm2 * (1 / 10 ^ 12 + 1) := by
  induction data with
  | nil => simp [spheresOverlap]
  | cons d rest ih =>
    rw [spheresOverlap, Bool.or_eq_false_iff, ih, List.pairwise_cons, sphereOverlapsAny, List.any_eq_false]
    simp only [decide_eq_true_eq, not_lt]

theorem foldl_volume (data : List SphereData) : ∀ v : ℝ, data.foldl (fun v d => v + 4 * Real.pi / 3 * d.radius * d.radius * d.radius) v = v + (data.map fun d => 4 / 3 * Real.pi * d.radius ^ 3).sum := by
  induction data with
  | nil => simp
  | cons d rest ih =>
    intro v
    rw [List.foldl_cons, ih, List.map_cons, List.sum_cons]
    ring

/-- C71: if no two spheres have a common point, the volume is the sum of volumes of balls. -/
theorem C71_disjoint {data : List SphereData} (hr : PositiveRadii data) (h : data.Pairwise fun d1 d2 => ¬ Meet (SphereData.Inside d1) (SphereData.Inside d2)) :
    polysphereVolume data = .ok (data.map fun d => 4 / 3 * Real.pi * d.radius ^ 3).sum := by
  have : spheresOverlap data = false := by
    rw [spheresOverlap_iff]
    refine h.imp_of_mem ?_
    intro d1 d2 m1 m2 hm
    unfold SphereData.Inside at hm
    rw [meet_balls (hr d1 m1) (hr d2 m2), not_lt, norm2_sub_comm] at hm
    have : 0 ≤ (d1.position - d2.position).norm2 := le_trans (sq_nonneg _) hm
    nlinarith
  unfold polysphereVolume
  rw [this, foldl_volume, zero_add]
  rfl

/-- C71: if the volume is computed, balls made smaller by the factor 1 - 10⁻¹² have no common point. The refusal is thus exact up to this factor. -/
theorem C71_refused {data : List SphereData} (hr : PositiveRadii data) {v : ℝ} (h : polysphereVolume data = .ok v) :
    data.Pairwise fun d1 d2 => ¬ Meet (SphereData.Inside (shrunk (1 - 1 / 10 ^ 12) d1)) (SphereData.Inside (shrunk (1 - 1 / 10 ^ 12) d2)) := by
  unfold polysphereVolume at h
  obtain ⟨_, h1, _⟩ := Outcome.bind_eq_ok.mp h
  have h2 := Outcome.require_eq_ok.mp h1
  rw [Bool.not_eq_true', spheresOverlap_iff] at h2
  refine h2.imp_of_mem ?_
  intro d1 d2 m1 m2 hd
  have r1 := hr d1 m1
  have r2 := hr d2 m2
  unfold SphereData.Inside shrunk
  rw [meet_balls (mul_pos (by norm_num) r1) (mul_pos (by norm_num) r2), not_lt, norm2_sub_comm, ← mul_add, mul_pow]
  nlinarith [sq_nonneg (d1.radius + d2.radius)]

/-- Two touching balls. -/
example : PositiveRadii [⟨⟨0, 0, 0⟩, 1⟩, ⟨⟨2, 0, 0⟩, 1⟩] ∧ [(⟨⟨0, 0, 0⟩, 1⟩ : SphereData), ⟨⟨2, 0, 0⟩, 1⟩].Pairwise fun d1 d2 => ¬ Meet (SphereData.Inside d1) (SphereData.Inside d2) := by
  refine ⟨by intro d hd; simp at hd; rcases hd with rfl | rfl <;> norm_num, ?_⟩
  simp only [List.pairwise_cons, List.mem_singleton, forall_eq, List.not_mem_nil, false_imp_iff, implies_true, List.Pairwise.nil, and_true]
  unfold SphereData.Inside
  rw [meet_balls (by norm_num) (by norm_num)]
  simp [Vec3.norm2, Vec3.dot]
  norm_num

theorem foldl_rodVolume (data : List RodData) : ∀ v : ℝ, data.foldl (fun v d => v + d.volume) v = v + (data.map RodData.volume).sum := by
  induction data with
  | nil => simp
  | cons d rest ih =>
    intro v
    rw [List.foldl_cons, ih, List.map_cons, List.sum_cons]
    ring

/-- C71 for spherocylinders: the volume, when it is computed, is the sum of volumes of spherocylinders. When it is computed is wrong, see below; this is what is missing. -/
theorem C71_rods_partial {data : List RodData} (hw : WellBuilt data) {v : ℝ} (h : polyrodVolume data = .ok v) :
    v = (data.map fun d => 4 / 3 * Real.pi * d.radius ^ 3 + Real.pi * d.radius ^ 2 * (2 * d.halfAxis.norm)).sum := by
  unfold polyrodVolume at h
  obtain ⟨_, _, h2⟩ := Outcome.bind_eq_ok.mp h
  rw [← Outcome.ok_inj.mp h2, foldl_rodVolume, zero_add]
  congr 1
  apply List.map_congr_left
  intro d hd
  rw [RodData.volume, (hw d hd).2.1]
  ring

theorem two_rods {x : ℝ} : calculate ((⟨0, 0, 0⟩ : Vec3 ℝ) - ⟨0, 0, 1⟩) (⟨0, 0, 0⟩ + ⟨0, 0, 1⟩) (⟨x, 0, 0⟩ - ⟨0, 0, 1⟩) (⟨x, 0, 0⟩ + ⟨0, 0, 1⟩) = x ^ 2 := by
  unfold calculate closest first second ratio EPSILON Vec3.norm2 Vec3.dot
  simp only [Vec3.add_x, Vec3.add_y, Vec3.add_z, Vec3.sub_x, Vec3.sub_y, Vec3.sub_z, Vec3.smul_x, Vec3.smul_y, Vec3.smul_z]
  norm_num [abs_of_pos, pow_two]

/-- C71 fails for spherocylinders: rods which have a common point are counted twice instead of being refused; two parallel rods with radius 2 in the distance 3. -/
theorem C71_overlapping_rods_violated : ∃ d1 d2 : RodData, RodData.make ⟨0, 0, 0⟩ ⟨0, 0, 1⟩ 2 = .ok d1 ∧ RodData.make ⟨3, 0, 0⟩ ⟨0, 0, 1⟩ 2 = .ok d2 ∧ Meet (RodData.Inside d1) (RodData.Inside d2) ∧
    polyrodVolume [d1, d2] = .ok (d1.volume + d2.volume) := by
  refine ⟨_, _, by rw [RodData.make, decide_eq_true (by norm_num)]; rfl, by rw [RodData.make, decide_eq_true (by norm_num)]; rfl, ?_, ?_⟩
  · unfold RodData.Inside
    rw [meet_capsules (by norm_num) (by norm_num)]
    refine ⟨⟨0, 0, 0⟩, ⟨3, 0, 0⟩, ⟨1 / 2, by norm_num, by norm_num, ?_⟩, ⟨1 / 2, by norm_num, by norm_num, ?_⟩, ?_⟩
    · ext <;> simp <;> norm_num
    · ext <;> simp <;> norm_num
    · simp [Vec3.norm2, Vec3.dot]; norm_num
  · unfold polyrodVolume
    simp only [rodsOverlapEachOther, rodOverlapsAny, List.any_cons, List.any_nil, two_rods]
    rw [decide_eq_false (by norm_num)]
    simp [Outcome.require, RodData.volume]

/-- C71 fails for spherocylinders: rods with no common point are refused; two parallel rods with radius 1/4 in the distance 3/5. -/
theorem C71_disjoint_rods_violated : ∃ d1 d2 : RodData, RodData.make ⟨0, 0, 0⟩ ⟨0, 0, 1⟩ (1 / 4) = .ok d1 ∧ RodData.make ⟨3 / 5, 0, 0⟩ ⟨0, 0, 1⟩ (1 / 4) = .ok d2 ∧ ¬ Meet (RodData.Inside d1) (RodData.Inside d2) ∧
    ∀ v, polyrodVolume [d1, d2] ≠ .ok v := by
  refine ⟨_, _, by rw [RodData.make, decide_eq_true (by norm_num)]; rfl, by rw [RodData.make, decide_eq_true (by norm_num)]; rfl, ?_, ?_⟩
  · unfold RodData.Inside
    rw [meet_capsules (by norm_num) (by norm_num)]
    rintro ⟨p, q, ⟨k, _, _, rfl⟩, ⟨l, _, _, rfl⟩, h⟩
    simp only [Vec3.norm2, Vec3.dot, Vec3.add_x, Vec3.add_y, Vec3.add_z, Vec3.sub_x, Vec3.sub_y, Vec3.sub_z, Vec3.smul_x, Vec3.smul_y, Vec3.smul_z] at h
    nlinarith [sq_nonneg (l * (0 + 1 - (0 - 1)) - k * (0 + 1 - (0 - 1)) : ℝ)]
  · intro v h
    unfold polyrodVolume at h
    simp only [rodsOverlapEachOther, rodOverlapsAny, List.any_cons, List.any_nil, two_rods] at h
    rw [decide_eq_true (by norm_num)] at h
    simp [Outcome.require] at h

/-! The mass centre -/

theorem foldl_weight (data : List SphereData) : ∀ w : ℝ, data.foldl (fun w d => w + d.radius * d.radius * d.radius) w = w + (data.map fun d => d.radius ^ 3).sum := by
  induction data with
  | nil => simp
  | cons d rest ih =>
    intro v
    rw [List.foldl_cons, ih, List.map_cons, List.sum_cons]
    ring

theorem foldl_moment (data : List SphereData) : ∀ c : Vec3 ℝ, data.foldl (fun c d => c + (d.radius * d.radius * d.radius) • d.position) c = c + (data.map fun d => (d.radius ^ 3) • d.position).sum := by
  induction data with
  | nil => intro c; simp
  | cons d rest ih =>
    intro c
    rw [List.foldl_cons, ih, List.map_cons, List.sum_cons, ← add_assoc]
    congr 3
    ring

theorem sum_moved (data : List SphereData) (c : Vec3 ℝ) :
    (data.map fun d => (d.radius ^ 3) • (d.position - c)).sum = (data.map fun d => (d.radius ^ 3) • d.position).sum - (data.map fun d => d.radius ^ 3).sum • c := by
  induction data with
  | nil => ext <;> simp
  | cons d rest ih =>
    rw [List.map_cons, List.sum_cons, ih, List.map_cons, List.sum_cons, List.map_cons, List.sum_cons]
    ext
    all_goals
      simp only [Vec3.add_x, Vec3.add_y, Vec3.add_z, Vec3.sub_x, Vec3.sub_y, Vec3.sub_z, Vec3.smul_x, Vec3.smul_y, Vec3.smul_z]
      ring

theorem weight_pos {data : List SphereData} (hne : data ≠ []) (hr : PositiveRadii data) : 0 < (data.map fun d => d.radius ^ 3).sum := by
  apply List.sum_pos
  · intro x hx
    obtain ⟨d, hd, rfl⟩ := List.mem_map.mp hx
    exact pow_pos (hr d hd) 3
  · simpa using hne

/-- C72: masses balance at the mass centre, and only there. -/
theorem C72_balances {data : List SphereData} (hne : data ≠ []) (hr : PositiveRadii data) (c : Vec3 ℝ) : Balances data c ↔ c = massCentre data := by
  have hw := weight_pos hne hr
  unfold Balances massCentre
  rw [sum_moved, foldl_weight, foldl_moment, zero_add, zero_add]
  obtain ⟨w, e1⟩ : ∃ w, w = (data.map fun d => d.radius ^ 3).sum := ⟨_, rfl⟩
  obtain ⟨m, e2⟩ : ∃ m, m = (data.map fun d => (d.radius ^ 3) • d.position).sum := ⟨_, rfl⟩
  rw [← e1] at hw ⊢
  rw [← e2]
  have hw' := hw.ne'
  constructor
  · intro h
    have hx := congrArg Vec3.x h
    have hy := congrArg Vec3.y h
    have hz := congrArg Vec3.z h
    simp only [Vec3.sub_x, Vec3.sub_y, Vec3.sub_z, Vec3.smul_x, Vec3.smul_y, Vec3.smul_z, Vec3.zero_x, Vec3.zero_y, Vec3.zero_z] at hx hy hz
    ext
    all_goals
      simp only [Vec3.smul_x, Vec3.smul_y, Vec3.smul_z]
      field_simp
      linarith
  · rintro rfl
    ext
    all_goals
      simp only [Vec3.sub_x, Vec3.sub_y, Vec3.sub_z, Vec3.smul_x, Vec3.smul_y, Vec3.smul_z, Vec3.zero_x, Vec3.zero_y, Vec3.zero_z]
      field_simp
      ring

/-- C72: normalising moves everything by one vector: spheres keep their radii, and spheres, the geometric origin and named points keep their positions with respect to each other. Afterwards masses balance at the
origin. -/
theorem C72_normalised {g : PolysphereGeometry} (hne : g.spheres ≠ []) (hr : PositiveRadii g.spheres) : ∃ t : Vec3 ℝ,
    g.normalizeMassCentre.spheres = (g.spheres.map fun d => ⟨d.position + t, d.radius⟩) ∧ g.normalizeMassCentre.geometricOrigin = g.geometricOrigin + t ∧
    g.normalizeMassCentre.namedPoints = (g.namedPoints.map fun p => (p.1, p.2 + t)) ∧ Balances g.normalizeMassCentre.spheres 0 := by
  have sub : ∀ a b : Vec3 ℝ, a - b = a + -b := by
    intro a b
    ext
    all_goals
      simp only [Vec3.add_x, Vec3.add_y, Vec3.add_z, Vec3.sub_x, Vec3.sub_y, Vec3.sub_z, Vec3.neg_x, Vec3.neg_y, Vec3.neg_z]
      ring
  refine ⟨-massCentre g.spheres, ?_, ?_, rfl, ?_⟩
  · unfold PolysphereGeometry.normalizeMassCentre
    simp only [sub]
  · unfold PolysphereGeometry.normalizeMassCentre
    simp only [sub]
  · have h := (C72_balances hne hr _).mpr rfl
    unfold Balances at h ⊢
    unfold PolysphereGeometry.normalizeMassCentre
    rw [List.map_map]
    refine Eq.trans ?_ h
    congr 1
    apply List.map_congr_left
    intro d _
    show (d.radius ^ 3) • (d.position - massCentre g.spheres - 0) = _
    congr 1
    ext
    all_goals
      simp only [Vec3.sub_x, Vec3.sub_y, Vec3.sub_z, Vec3.zero_x, Vec3.zero_y, Vec3.zero_z]
      ring

/-- C72: normalising again changes nothing. -/
theorem C72_idempotent {g : PolysphereGeometry} (hne : g.spheres ≠ []) (hr : PositiveRadii g.spheres) : g.normalizeMassCentre.normalizeMassCentre = g.normalizeMassCentre := by
  obtain ⟨t, h1, _, _, h4⟩ := C72_normalised hne hr
  have hne' : g.normalizeMassCentre.spheres ≠ [] := by rw [h1]; simpa using hne
  have hr' : PositiveRadii g.normalizeMassCentre.spheres := by
    rw [h1]
    intro d hd
    obtain ⟨e, he, rfl⟩ := List.mem_map.mp hd
    exact hr e he
  have hc := (C72_balances hne' hr' 0).mp h4
  obtain ⟨G, hG⟩ : ∃ G, G = g.normalizeMassCentre := ⟨_, rfl⟩
  rw [← hG] at hc ⊢
  unfold PolysphereGeometry.normalizeMassCentre
  rw [← hc]
  have s0 : ∀ a : Vec3 ℝ, a - 0 = a := by intro a; ext <;> simp
  simp [s0]

/-- Two spheres of different sizes. -/
example : ∃ g : PolysphereGeometry, g.spheres ≠ [] ∧ PositiveRadii g.spheres ∧ massCentre g.spheres = ⟨8 / 9 * 3, 0, 0⟩ := by
  refine ⟨⟨[⟨⟨0, 0, 0⟩, 1⟩, ⟨⟨3, 0, 0⟩, 2⟩], 0, []⟩, by simp, by intro d hd; simp at hd; rcases hd with rfl | rfl <;> norm_num, ?_⟩
  unfold massCentre
  ext <;> simp <;> norm_num

end Rampack
