import Verif.Shapes.HardProps
/-
C68 for molecules made of spherocylinders, and counterexamples. C69: wall tests tell whether a part of the body is behind the wall.
-/
namespace Rampack

open Spec Shapes Segment

theorem polyspherocylinder_ok {data : List RodData} {I : Interaction} (h : polyspherocylinder data = .ok I) : ∃ d rest, data = d :: rest ∧ I =
    { hasHard := true, hasSoft := false, isConvex := false, centres := data.map RodData.position, range := polyrodRange d rest,
      totalRange := Interaction.totalRangeRadius (data.map RodData.position) (polyrodRange d rest),
      overlap := fun s1 s2 bc => polyrodsOverlap (rodAt data s1.idx) (rodAt data s2.idx) s1.pos s1.rot (s2.pos + bc.translation s1.pos s2.pos) s2.rot,
      energy := fun _ _ _ => 0, wall := fun s o v => polyrodWall (rodAt data s.idx) s o v } := by
  cases data with
  | nil => simp [polyspherocylinder] at h
  | cons d rest =>
    refine ⟨d, rest, rfl, ?_⟩
    rw [polyspherocylinder] at h
    exact (Outcome.ok_inj.mp h).symm

theorem rodAt_of {data : List RodData} {k : Nat} {d : RodData} (h : data[k]? = some d) : rodAt data k = d := by
  unfold rodAt; rw [List.getD_eq_getElem?_getD, h]; rfl

theorem onSegment_swap {a b p : Vec3 ℝ} : OnSegment a b p ↔ OnSegment b a p := by
  have : ∀ a b : Vec3 ℝ, OnSegment a b p → OnSegment b a p := by
    rintro a b ⟨k, h0, h1, rfl⟩
    refine ⟨1 - k, by linarith, by linarith, ?_⟩
    ext
    all_goals
      simp only [Vec3.add_x, Vec3.add_y, Vec3.add_z, Vec3.sub_x, Vec3.sub_y, Vec3.sub_z, Vec3.smul_x, Vec3.smul_y, Vec3.smul_z]
      ring
  exact ⟨this a b, this b a⟩

/-- The ends of a spherocylinder of a molecule, from its centre. -/
theorem rod_ends (p c h : Vec3 ℝ) (R : Mat3) : p + R.mulVec (c - h) = p + R.mulVec c - R.mulVec h ∧ p + R.mulVec (c + h) = p + R.mulVec c + R.mulVec h := by
  unfold Mat3.mulVec Vec3.dot
  constructor
  all_goals
    ext
    all_goals
      simp only [Vec3.add_x, Vec3.add_y, Vec3.add_z, Vec3.sub_x, Vec3.sub_y, Vec3.sub_z]
      ring

theorem moved_capsule {a b t : Vec3 ℝ} {r : ℝ} : movedBy t (Capsule a b r) = Capsule (a + t) (b + t) r := by
  funext p
  apply propext
  unfold movedBy Capsule
  constructor
  · rintro ⟨q, ⟨k, h0, h1, rfl⟩, h⟩
    refine ⟨_, ⟨k, h0, h1, rfl⟩, ?_⟩
    have e := congrFun (moved_ball (c := a + k • (b - a)) (t := t) (r := r)) p
    have h' : Ball (a + k • (b - a) + t) r p := by rw [← e]; exact h
    have e2 : a + t + k • (b + t - (a + t)) = a + k • (b - a) + t := by
      ext
      all_goals
        simp only [Vec3.add_x, Vec3.add_y, Vec3.add_z, Vec3.sub_x, Vec3.sub_y, Vec3.sub_z, Vec3.smul_x, Vec3.smul_y, Vec3.smul_z]
        ring
    rw [e2]
    exact h'
  · rintro ⟨q, ⟨k, h0, h1, rfl⟩, h⟩
    refine ⟨_, ⟨k, h0, h1, rfl⟩, ?_⟩
    have e := congrFun (moved_ball (c := a + k • (b - a)) (t := t) (r := r)) p
    have e2 : a + t + k • (b + t - (a + t)) = a + k • (b - a) + t := by
      ext
      all_goals
        simp only [Vec3.add_x, Vec3.add_y, Vec3.add_z, Vec3.sub_x, Vec3.sub_y, Vec3.sub_z, Vec3.smul_x, Vec3.smul_y, Vec3.smul_z]
        ring
    rw [e2] at h
    have h' : movedBy t (Ball (a + k • (b - a)) r) p := by rw [e]; exact h
    exact h'

theorem polyrods_sound {d1 d2 : RodData} (h1 : 0 < d1.radius) (h2 : 0 < d2.radius) {p1 p2 : Vec3 ℝ} {r1 r2 : Mat3} (h : polyrodsOverlap d1 d2 p1 r1 p2 r2 = true) :
    Meet (Capsule (p1 - r1.mulVec d1.halfAxis) (p1 + r1.mulVec d1.halfAxis) d1.radius) (Capsule (p2 - r2.mulVec d2.halfAxis) (p2 + r2.mulVec d2.halfAxis) d2.radius) := by
  rw [meet_capsules h1 h2]
  unfold polyrodsOverlap at h
  have hm : ∀ p v : Vec3 ℝ, OnSegment (p - v) (p + v) p := by
    intro p v
    have := middle_onSegment p v
    have e : p + -v = p - v := by
      ext
      all_goals
        simp only [Vec3.add_x, Vec3.add_y, Vec3.add_z, Vec3.sub_x, Vec3.sub_y, Vec3.sub_z, Vec3.neg_x, Vec3.neg_y, Vec3.neg_z]
        ring
    rwa [e] at this
  split at h
  next k => exact ⟨p1, p2, hm _ _, hm _ _, by rw [pow_two]; exact k⟩
  next =>
    split at h
    next => simp at h
    next =>
      obtain ⟨p, q, hp, hq, e⟩ := C53_attained (p1 + r1.mulVec d1.halfAxis) (p1 - r1.mulVec d1.halfAxis) (p2 + r2.mulVec d2.halfAxis) (p2 - r2.mulVec d2.halfAxis)
      rw [decide_eq_true_eq, e, norm2_sub_comm, ← pow_two] at h
      exact ⟨p, q, onSegment_swap.mp hp, onSegment_swap.mp hq, h⟩

theorem rods_sites {data : List RodData} {I : Interaction} (hI : polyspherocylinder data = .ok I) {s : Shape} {x : Site} :
    x ∈ I.shapeSites s ↔ ∃ (k : Nat) (d : RodData), data[k]? = some d ∧ x = ⟨s.pos + s.rot.mulVec d.position, s.rot, k⟩ := by
  obtain ⟨d, rest, hd, rfl⟩ := polyspherocylinder_ok hI
  have hne : data.map RodData.position ≠ [] := by simp [hd]
  rw [mem_shapeSites hne]
  constructor
  · rintro ⟨k, c, g, rfl⟩
    have g' : (data.map RodData.position)[k]? = some c := g
    clear g
    obtain ⟨d, g, rfl⟩ := map_getElem?.mp g'
    exact ⟨k, d, g, rfl⟩
  · rintro ⟨k, d, g, rfl⟩
    exact ⟨k, _, map_getElem?.mpr ⟨d, g, rfl⟩, rfl⟩

/-- C68 for molecules made of spherocylinders, one direction: if the overlap is reported, the bodies have a common point. -/
theorem C68_polyrods_sound {data : List RodData} {I : Interaction} (hI : polyspherocylinder data = .ok I) (hw : WellBuilt data) (s1 s2 : Shape) (t : Vec3 ℝ)
    (h : I.overlapBetweenShapes s1 s2 (BC.hard t) = true) : Meet (RodsBody data s1) (movedBy t (RodsBody data s2)) := by
  rw [overlapBetweenShapes_iff] at h
  obtain ⟨x, hx, y, hy, h⟩ := h
  obtain ⟨k1, d1, g1, rfl⟩ := (rods_sites hI).mp hx
  obtain ⟨k2, d2, g2, rfl⟩ := (rods_sites hI).mp hy
  obtain ⟨d, rest, hd, rfl⟩ := polyspherocylinder_ok hI
  have h' : polyrodsOverlap (rodAt data k1) (rodAt data k2) (s1.pos + s1.rot.mulVec d1.position) s1.rot (s2.pos + s2.rot.mulVec d2.position + t) s2.rot = true := h
  rw [rodAt_of g1, rodAt_of g2] at h'
  have m1 := List.mem_of_getElem? g1
  have m2 := List.mem_of_getElem? g2
  obtain ⟨p, hp1, hp2⟩ := polyrods_sound (hw d1 m1).1 (hw d2 m2).1 h'
  refine ⟨p, ⟨d1, m1, ?_⟩, ⟨d2, m2, ?_⟩⟩
  · rw [(rod_ends _ _ _ _).1, (rod_ends _ _ _ _).2]; exact hp1
  · rw [(rod_ends _ _ _ _).1, (rod_ends _ _ _ _).2]
    show movedBy t (Capsule _ _ _) p
    rw [moved_capsule]
    have e1 : s2.pos + s2.rot.mulVec d2.position - s2.rot.mulVec d2.halfAxis + t = s2.pos + s2.rot.mulVec d2.position + t - s2.rot.mulVec d2.halfAxis := by
      ext
      all_goals
        simp only [Vec3.add_x, Vec3.add_y, Vec3.add_z, Vec3.sub_x, Vec3.sub_y, Vec3.sub_z]
        ring
    have e2 : s2.pos + s2.rot.mulVec d2.position + s2.rot.mulVec d2.halfAxis + t = s2.pos + s2.rot.mulVec d2.position + t + s2.rot.mulVec d2.halfAxis := by
      ext
      all_goals
        simp only [Vec3.add_x, Vec3.add_y, Vec3.add_z]
        ring
    rw [e1, e2]
    exact hp2

theorem rodsOverlap_third {L r : ℝ} {s1 s2 : Shape} (h1 : 4 * r * r ≤ (s2.pos - s1.pos).norm2) (h2 : (s2.pos - s1.pos).norm2 < (2 * r + L) ^ 2) :
    rodsOverlap L r s1 s2 = decide (calculate (capCentre L (-1) s1) (capCentre L 1 s1) (capCentre L (-1) s2) (capCentre L 1 s2) < 4 * r * r) := by
  unfold rodsOverlap
  rw [if_neg (not_lt.mpr h1), if_neg (not_le.mpr h2)]

/-- C68 fails for nearly parallel rods: the axis of the second rod ends in the middle of the first one, but no overlap is reported. The length is 1, the radius is 1/5 and the angle is about 10⁻⁵. -/
theorem C68_rods_violated : ∃ (I : Interaction) (s1 s2 : Site), spherocylinder 1 (1 / 5) = .ok I ∧ Orthogonal s1.rot ∧ Orthogonal s2.rot ∧
    Meet (RodBody 1 (1 / 5) ⟨s1.pos, s1.rot⟩) (RodBody 1 (1 / 5) ⟨s2.pos, s2.rot⟩) ∧ I.overlap s1 s2 (BC.hard 0) = false := by
  refine ⟨_, ⟨⟨0, 0, 0⟩, ⟨⟨1, 0, 0⟩, ⟨0, 1, 0⟩, ⟨0, 0, 1⟩⟩, 0⟩,
    ⟨⟨0, -(22000000 / 4000000000121) / 1, -(3999999999879 / 4000000000121) / 2⟩, ⟨⟨1, 0, 0⟩, ⟨0, 3999999999879 / 4000000000121, 44000000 / 4000000000121⟩, ⟨0, -(44000000 / 4000000000121), 3999999999879 / 4000000000121⟩⟩, 0⟩,
    by rw [spherocylinder, decide_eq_true (by norm_num), decide_eq_true (by norm_num)]; rfl, ?_, ?_, ?_, ?_⟩
  · unfold Orthogonal Mat3.transpose Mat3.c0 Mat3.c1 Mat3.c2; rw [Mat3.mul_def, Mat3.one_def]; unfold Mat3.mul Mat3.one; simp [Vec3.dot, Mat3.c0, Mat3.c1, Mat3.c2]
  · unfold Orthogonal Mat3.transpose Mat3.c0 Mat3.c1 Mat3.c2; rw [Mat3.mul_def, Mat3.one_def]; unfold Mat3.mul Mat3.one; norm_num [Vec3.dot, Mat3.c0, Mat3.c1, Mat3.c2]
  · unfold RodBody
    rw [meet_capsules (by norm_num) (by norm_num)]
    refine ⟨⟨0, 0, 0⟩, ⟨0, 0, 0⟩, ⟨1 / 2, by norm_num, by norm_num, ?_⟩, ⟨1, by norm_num, by norm_num, ?_⟩, ?_⟩
    · unfold Mat3.mulVec Vec3.dot
      ext
      all_goals
        simp only [Vec3.add_x, Vec3.add_y, Vec3.add_z, Vec3.sub_x, Vec3.sub_y, Vec3.sub_z, Vec3.smul_x, Vec3.smul_y, Vec3.smul_z]
        norm_num
    · unfold Mat3.mulVec Vec3.dot
      ext
      all_goals
        simp only [Vec3.add_x, Vec3.add_y, Vec3.add_z, Vec3.sub_x, Vec3.sub_y, Vec3.sub_z, Vec3.smul_x, Vec3.smul_y, Vec3.smul_z]
        norm_num
    · unfold Vec3.norm2 Vec3.dot
      simp only [Vec3.sub_x, Vec3.sub_y, Vec3.sub_z]
      norm_num
  · show rodsOverlap _ _ _ _ = false
    refine (rodsOverlap_third ?_ ?_).trans ?_
    · unfold BC.hard Vec3.norm2 Vec3.dot
      simp only [Vec3.add_x, Vec3.add_y, Vec3.add_z, Vec3.sub_x, Vec3.sub_y, Vec3.sub_z, Vec3.zero_x, Vec3.zero_y, Vec3.zero_z]
      norm_num
    · unfold BC.hard Vec3.norm2 Vec3.dot
      simp only [Vec3.add_x, Vec3.add_y, Vec3.add_z, Vec3.sub_x, Vec3.sub_y, Vec3.sub_z, Vec3.zero_x, Vec3.zero_y, Vec3.zero_z]
      norm_num
    rw [decide_eq_false_iff_not]
    unfold BC.hard calculate closest first second ratio EPSILON Vec3.norm2 Vec3.dot capCentre Mat3.c2
    simp only [Vec3.add_x, Vec3.add_y, Vec3.add_z, Vec3.sub_x, Vec3.sub_y, Vec3.sub_z, Vec3.smul_x, Vec3.smul_y, Vec3.smul_z, Vec3.zero_x, Vec3.zero_y, Vec3.zero_z]
    norm_num [abs_of_pos]

/-- C68 fails for short rods: whether the overlap is reported depends on which rod is the first. The length is 1/500 and the radius is 1/4000. -/
theorem C68_order_violated : ∃ (I : Interaction) (s1 s2 : Site), spherocylinder (1 / 500) (1 / 4000) = .ok I ∧ Orthogonal s1.rot ∧ Orthogonal s2.rot ∧
    I.overlap s1 s2 (BC.hard 0) = false ∧ I.overlap s2 s1 (BC.hard 0) = true := by
  refine ⟨_, ⟨⟨0, 0, 0⟩, ⟨⟨1, 0, 0⟩, ⟨0, 1, 0⟩, ⟨0, 0, 1⟩⟩, 0⟩, ⟨⟨0, 1 / 1000, 0⟩, ⟨⟨1, 0, 0⟩, ⟨0, 0, 1⟩, ⟨0, -1, 0⟩⟩, 0⟩,
    by rw [spherocylinder, decide_eq_true (by norm_num), decide_eq_true (by norm_num)]; rfl, ?_, ?_, ?_, ?_⟩
  · unfold Orthogonal Mat3.transpose Mat3.c0 Mat3.c1 Mat3.c2; rw [Mat3.mul_def, Mat3.one_def]; unfold Mat3.mul Mat3.one; simp [Vec3.dot, Mat3.c0, Mat3.c1, Mat3.c2]
  · unfold Orthogonal Mat3.transpose Mat3.c0 Mat3.c1 Mat3.c2; rw [Mat3.mul_def, Mat3.one_def]; unfold Mat3.mul Mat3.one; norm_num [Vec3.dot, Mat3.c0, Mat3.c1, Mat3.c2]
  · show rodsOverlap _ _ _ _ = false
    refine (rodsOverlap_third ?_ ?_).trans ?_
    · unfold BC.hard Vec3.norm2 Vec3.dot
      simp only [Vec3.add_x, Vec3.add_y, Vec3.add_z, Vec3.sub_x, Vec3.sub_y, Vec3.sub_z, Vec3.zero_x, Vec3.zero_y, Vec3.zero_z]
      norm_num
    · unfold BC.hard Vec3.norm2 Vec3.dot
      simp only [Vec3.add_x, Vec3.add_y, Vec3.add_z, Vec3.sub_x, Vec3.sub_y, Vec3.sub_z, Vec3.zero_x, Vec3.zero_y, Vec3.zero_z]
      norm_num
    rw [decide_eq_false_iff_not]
    unfold BC.hard calculate closest first second ratio EPSILON Vec3.norm2 Vec3.dot capCentre Mat3.c2
    simp only [Vec3.add_x, Vec3.add_y, Vec3.add_z, Vec3.sub_x, Vec3.sub_y, Vec3.sub_z, Vec3.smul_x, Vec3.smul_y, Vec3.smul_z, Vec3.zero_x, Vec3.zero_y, Vec3.zero_z]
    norm_num [abs_of_pos]
  · show rodsOverlap _ _ _ _ = true
    refine (rodsOverlap_third ?_ ?_).trans ?_
    · unfold BC.hard Vec3.norm2 Vec3.dot
      simp only [Vec3.add_x, Vec3.add_y, Vec3.add_z, Vec3.sub_x, Vec3.sub_y, Vec3.sub_z, Vec3.zero_x, Vec3.zero_y, Vec3.zero_z]
      norm_num
    · unfold BC.hard Vec3.norm2 Vec3.dot
      simp only [Vec3.add_x, Vec3.add_y, Vec3.add_z, Vec3.sub_x, Vec3.sub_y, Vec3.sub_z, Vec3.zero_x, Vec3.zero_y, Vec3.zero_z]
      norm_num
    rw [decide_eq_true_eq]
    unfold BC.hard calculate closest first second ratio EPSILON Vec3.norm2 Vec3.dot capCentre Mat3.c2
    simp only [Vec3.add_x, Vec3.add_y, Vec3.add_z, Vec3.sub_x, Vec3.sub_y, Vec3.sub_z, Vec3.smul_x, Vec3.smul_y, Vec3.smul_z, Vec3.zero_x, Vec3.zero_y, Vec3.zero_z]
    norm_num [abs_of_pos]

/-- C69 for spheres: the wall test is true exactly if a part of the ball is behind the wall. The wall vector has unit length. -/
theorem C69_spheres {r : ℝ} {I : Interaction} (hI : sphere r = .ok I) (s : Shape) {o n : Vec3 ℝ} (hn : n.norm2 = 1) : I.overlapWithWallForShape s o n = true ↔ BehindWall o n (Ball s.pos r) := by
  obtain ⟨hr, rfl⟩ := sphere_ok hI
  rw [overlapWithWallForShape_iff, shapeSites_single rfl, behind_ball hn hr]
  simp [dot_comm' n]

/-- C69 for molecules made of spheres. -/
theorem C69_polyspheres {data : List SphereData} {I : Interaction} (hI : polysphere data = .ok I) (hr : PositiveRadii data) (s : Shape) {o n : Vec3 ℝ} (hn : n.norm2 = 1) :
    I.overlapWithWallForShape s o n = true ↔ BehindWall o n (SphereBody data s) := by
  obtain ⟨d, rest, hd, rfl⟩ := polysphere_ok hI
  have hne : data.map SphereData.position ≠ [] := by simp [hd]
  rw [overlapWithWallForShape_iff]
  constructor
  · rintro ⟨x, hx, h⟩
    obtain ⟨k, c, g, rfl⟩ := (mem_shapeSites hne).mp hx
    have g' : (data.map SphereData.position)[k]? = some c := g
    clear g
    obtain ⟨e, g, rfl⟩ := map_getElem?.mp g'
    have m := List.mem_of_getElem? g
    have h' : decide (n.dot (s.pos + s.rot.mulVec e.position - o) < radiusAt data k) = true := h
    rw [decide_eq_true_eq, radiusAt_of g, dot_comm'] at h'
    obtain ⟨p, hp, hq⟩ := (behind_ball hn (hr e m)).mpr h'
    exact ⟨p, ⟨e, m, hp⟩, hq⟩
  · rintro ⟨p, ⟨e, m, hp⟩, hq⟩
    obtain ⟨k, g⟩ := List.mem_iff_getElem?.mp m
    refine ⟨_, (mem_shapeSites hne).mpr ⟨k, _, map_getElem?.mpr ⟨e, g, rfl⟩, rfl⟩, ?_⟩
    show decide (n.dot (s.pos + s.rot.mulVec e.position - o) < radiusAt data k) = true
    rw [decide_eq_true_eq, radiusAt_of g, dot_comm']
    exact (behind_ball hn (hr e m)).mp ⟨p, hp, hq⟩

/-- C69 for spherocylinders. -/
theorem C69_rods {L r : ℝ} {I : Interaction} (hI : spherocylinder L r = .ok I) (s : Shape) {o n : Vec3 ℝ} (hn : n.norm2 = 1) : I.overlapWithWallForShape s o n = true ↔ BehindWall o n (RodBody L r s) := by
  obtain ⟨_, hr, rfl⟩ := spherocylinder_ok hI
  rw [overlapWithWallForShape_iff, shapeSites_single rfl, RodBody, behind_capsule hn hr]
  have e1 : s.pos - (L / 2) • s.rot.c2 = s.pos + s.rot.mulVec ⟨0, 0, -L / 2⟩ := by
    unfold Mat3.mulVec Mat3.c2 Vec3.dot
    ext
    all_goals
      simp only [Vec3.add_x, Vec3.add_y, Vec3.add_z, Vec3.sub_x, Vec3.sub_y, Vec3.sub_z, Vec3.smul_x, Vec3.smul_y, Vec3.smul_z]
      ring
  have e2 : s.pos + (L / 2) • s.rot.c2 = s.pos + s.rot.mulVec ⟨0, 0, L / 2⟩ := by
    unfold Mat3.mulVec Mat3.c2 Vec3.dot
    ext
    all_goals
      simp only [Vec3.add_x, Vec3.add_y, Vec3.add_z, Vec3.smul_x, Vec3.smul_y, Vec3.smul_z]
      ring
  simp only [List.mem_singleton, exists_eq_left, rodWall, e1, e2, dot_comm' n]
  split_ifs with h1 h2
  · simp [h1]
  · simp [h2]
  · simp [h1, h2]

/-- C69 for molecules made of spherocylinders. -/
theorem C69_polyrods {data : List RodData} {I : Interaction} (hI : polyspherocylinder data = .ok I) (hw : WellBuilt data) (s : Shape) {o n : Vec3 ℝ} (hn : n.norm2 = 1) :
    I.overlapWithWallForShape s o n = true ↔ BehindWall o n (RodsBody data s) := by
  rw [overlapWithWallForShape_iff]
  have key : ∀ d ∈ data, ∀ k, (polyrodWall d ⟨s.pos + s.rot.mulVec d.position, s.rot, k⟩ o n = true ↔
      BehindWall o n (Capsule (s.pos + s.rot.mulVec (d.position - d.halfAxis)) (s.pos + s.rot.mulVec (d.position + d.halfAxis)) d.radius)) := by
    intro d hd k
    rw [behind_capsule hn (hw d hd).1, (rod_ends _ _ _ _).1, (rod_ends _ _ _ _).2]
    simp only [polyrodWall, dot_comm' n]
    split_ifs with h1 h2
    · simp [h1]
    · simp [h2]
    · simp [h1, h2]
  have hwall : ∀ (k : Nat) (d : RodData), data[k]? = some d → ∀ x : Site, x.idx = k → I.wall x o n = polyrodWall d x o n := by
    intro k d g x hx
    obtain ⟨d0, rest, hd, rfl⟩ := polyspherocylinder_ok hI
    show polyrodWall (rodAt data x.idx) x o n = _
    rw [hx, rodAt_of g]
  constructor
  · rintro ⟨x, hx, h⟩
    obtain ⟨k, d, g, rfl⟩ := (rods_sites hI).mp hx
    rw [hwall k d g _ rfl, key d (List.mem_of_getElem? g)] at h
    obtain ⟨p, hp, hq⟩ := h
    exact ⟨p, ⟨d, List.mem_of_getElem? g, hp⟩, hq⟩
  · rintro ⟨p, ⟨d, m, hp⟩, hq⟩
    obtain ⟨k, g⟩ := List.mem_iff_getElem?.mp m
    refine ⟨_, (rods_sites hI).mpr ⟨k, d, g, rfl⟩, ?_⟩
    rw [hwall k d g _ rfl, key d m]
    exact ⟨p, hp, hq⟩

/-- A rod of length 2 standing on the wall z = 0, its centre at the height 1.5 and its radius 1: a part is behind the wall. -/
example : ∃ I, spherocylinder 2 1 = .ok I ∧ BehindWall 0 ⟨0, 0, 1⟩ (RodBody 2 1 ⟨⟨0, 0, 3 / 2⟩, 1⟩) ∧ ¬ BehindWall 0 ⟨0, 0, 1⟩ (RodBody 2 1 ⟨⟨0, 0, 2⟩, 1⟩) := by
  refine ⟨_, by rw [spherocylinder, decide_eq_true (by norm_num), decide_eq_true (by norm_num)]; rfl, ?_, ?_⟩
  · rw [RodBody, behind_capsule (by simp [Vec3.norm2, Vec3.dot]) (by norm_num)]
    left
    rw [Mat3.one_mulVec]
    simp [Vec3.dot]
    norm_num
  · rw [RodBody, behind_capsule (by simp [Vec3.norm2, Vec3.dot]) (by norm_num)]
    rw [Mat3.one_mulVec, Mat3.one_mulVec]
    simp [Vec3.dot]
    norm_num

end Rampack
