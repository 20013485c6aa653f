import Verif.Shapes.HardLemmas
/-
C68: hard overlap tests tell whether bodies have a common point. C69: wall tests tell whether a part of the body is behind the wall.
-/
namespace Rampack

open Spec Shapes Segment

theorem sphere_ok {r : ℝ} {I : Interaction} (h : sphere r = .ok I) : 0 < r ∧ I =
    { hasHard := true, hasSoft := false, isConvex := true, centres := [], range := 2 * r, totalRange := 2 * r, overlap := fun s1 s2 bc => decide (bc.distance2 s1.pos s2.pos < (2 * r) ^ 2),
      energy := fun _ _ _ => 0, wall := fun s o v => decide (v.dot (s.pos - o) < r) } := by
  unfold sphere at h
  obtain ⟨_, h1, h2⟩ := Outcome.bind_eq_ok.mp h
  have := Outcome.require_eq_ok.mp h1
  exact ⟨by simpa using this, (Outcome.ok_inj.mp h2).symm⟩

theorem hard_distance2 (t p q : Vec3 ℝ) : (BC.hard t).distance2 p q = (q + t - p).norm2 := rfl

/-- C68 for spheres: two of them overlap exactly if the balls have a common point. -/
theorem C68_spheres {r : ℝ} {I : Interaction} (hI : sphere r = .ok I) (s1 s2 : Site) (t : Vec3 ℝ) : I.overlap s1 s2 (BC.hard t) = true ↔ Meet (Ball s1.pos r) (Ball (s2.pos + t) r) := by
  obtain ⟨hr, rfl⟩ := sphere_ok hI
  rw [meet_balls hr hr, decide_eq_true_eq, hard_distance2, two_mul]

theorem polysphere_ok {data : List SphereData} {I : Interaction} (h : polysphere data = .ok I) : ∃ d rest, data = d :: rest ∧ I =
    { hasHard := true, hasSoft := false, isConvex := false, centres := data.map SphereData.position, range := polysphereRange d rest,
      totalRange := Interaction.totalRangeRadius (data.map SphereData.position) (polysphereRange d rest),
      overlap := fun s1 s2 bc => decide (bc.distance2 s1.pos s2.pos < (radiusAt data s1.idx + radiusAt data s2.idx) * (radiusAt data s1.idx + radiusAt data s2.idx)),
      energy := fun _ _ _ => 0, wall := fun s o v => decide (v.dot (s.pos - o) < radiusAt data s.idx) } := by
  cases data with
  | nil => simp [polysphere] at h
  | cons d rest =>
    refine ⟨d, rest, rfl, ?_⟩
    rw [polysphere] at h
    exact (Outcome.ok_inj.mp h).symm

theorem map_getElem? {α β : Type} {f : α → β} {l : List α} {k : Nat} {c : β} : (l.map f)[k]? = some c ↔ ∃ d, l[k]? = some d ∧ f d = c := by
  rw [List.getElem?_map, Option.map_eq_some_iff]

theorem radiusAt_of {data : List SphereData} {k : Nat} {d : SphereData} (h : data[k]? = some d) : radiusAt data k = d.radius := by
  unfold radiusAt; rw [h]; rfl

theorem moved_ball {c t : Vec3 ℝ} {r : ℝ} : movedBy t (Ball c r) = Ball (c + t) r := by
  funext p
  unfold movedBy Ball
  have : p - t - c = p - (c + t) := by
    ext
    all_goals
      simp only [Vec3.add_x, Vec3.add_y, Vec3.add_z, Vec3.sub_x, Vec3.sub_y, Vec3.sub_z]
      ring
  rw [this]

/-- C68 for molecules made of spheres: two of them overlap, the second one moved by `t`, exactly if the bodies have a common point. -/
theorem C68_polyspheres {data : List SphereData} {I : Interaction} (hI : polysphere data = .ok I) (hr : PositiveRadii data) (s1 s2 : Shape) (t : Vec3 ℝ) :
    I.overlapBetweenShapes s1 s2 (BC.hard t) = true ↔ Meet (SphereBody data s1) (movedBy t (SphereBody data s2)) := by
  obtain ⟨d, rest, hd, rfl⟩ := polysphere_ok hI
  have hne : data.map SphereData.position ≠ [] := by simp [hd]
  rw [overlapBetweenShapes_iff]
  constructor
  · rintro ⟨x, hx, y, hy, h⟩
    obtain ⟨k1, c1, g1, rfl⟩ := (mem_shapeSites hne).mp hx
    obtain ⟨k2, c2, g2, rfl⟩ := (mem_shapeSites hne).mp hy
    have g1' : (data.map SphereData.position)[k1]? = some c1 := g1
    have g2' : (data.map SphereData.position)[k2]? = some c2 := g2
    clear g1 g2
    obtain ⟨d1, g1, rfl⟩ := map_getElem?.mp g1'
    obtain ⟨d2, g2, rfl⟩ := map_getElem?.mp g2'
    rw [decide_eq_true_eq, hard_distance2, radiusAt_of g1, radiusAt_of g2, ← pow_two] at h
    obtain ⟨p, hp1, hp2⟩ := (meet_balls (hr d1 (List.mem_of_getElem? g1)) (hr d2 (List.mem_of_getElem? g2))).mpr h
    rw [← moved_ball] at hp2
    exact ⟨p, ⟨d1, List.mem_of_getElem? g1, hp1⟩, ⟨d2, List.mem_of_getElem? g2, hp2⟩⟩
  · rintro ⟨p, ⟨d1, m1, hp1⟩, ⟨d2, m2, hp2⟩⟩
    obtain ⟨k1, g1⟩ := List.mem_iff_getElem?.mp m1
    obtain ⟨k2, g2⟩ := List.mem_iff_getElem?.mp m2
    refine ⟨_, (mem_shapeSites hne).mpr ⟨k1, _, map_getElem?.mpr ⟨d1, g1, rfl⟩, rfl⟩, _, (mem_shapeSites hne).mpr ⟨k2, _, map_getElem?.mpr ⟨d2, g2, rfl⟩, rfl⟩, ?_⟩
    rw [decide_eq_true_eq, hard_distance2, radiusAt_of g1, radiusAt_of g2, ← pow_two]
    have h2 : movedBy t (Ball (s2.pos + s2.rot.mulVec d2.position) d2.radius) p := hp2
    rw [moved_ball] at h2
    exact (meet_balls (hr d1 m1) (hr d2 m2)).mp ⟨p, hp1, h2⟩

theorem spherocylinder_ok {L r : ℝ} {I : Interaction} (h : spherocylinder L r = .ok I) : 0 ≤ L ∧ 0 < r ∧ I =
    { hasHard := true, hasSoft := false, isConvex := true, centres := [], range := 2 * r + L, totalRange := 2 * r + L,
      overlap := fun s1 s2 bc => rodsOverlap L r ⟨s1.pos, s1.rot⟩ ⟨s2.pos + bc.translation s1.pos s2.pos, s2.rot⟩, energy := fun _ _ _ => 0, wall := rodWall L r } := by
  unfold spherocylinder at h
  obtain ⟨_, h1, h2⟩ := Outcome.bind_eq_ok.mp h
  obtain ⟨_, h3, h4⟩ := Outcome.bind_eq_ok.mp h2
  have k1 := Outcome.require_eq_ok.mp h1
  have k2 := Outcome.require_eq_ok.mp h3
  exact ⟨by simpa using k1, by simpa using k2, (Outcome.ok_inj.mp h4).symm⟩

theorem cap_lower (L : ℝ) (s : Shape) : capCentre L (-1) s = s.pos + s.rot.mulVec ⟨0, 0, -L / 2⟩ := by
  unfold capCentre Mat3.mulVec Mat3.c2 Vec3.dot
  ext
  all_goals
    simp only [Vec3.add_x, Vec3.add_y, Vec3.add_z, Vec3.smul_x, Vec3.smul_y, Vec3.smul_z]
    ring

theorem cap_upper (L : ℝ) (s : Shape) : capCentre L 1 s = s.pos + s.rot.mulVec ⟨0, 0, L / 2⟩ := by
  unfold capCentre Mat3.mulVec Mat3.c2 Vec3.dot
  ext
  all_goals
    simp only [Vec3.add_x, Vec3.add_y, Vec3.add_z, Vec3.smul_x, Vec3.smul_y, Vec3.smul_z]
    ring

theorem middle_onSegment (p v : Vec3 ℝ) : OnSegment (p + -v) (p + v) p := by
  refine ⟨1 / 2, by norm_num, by norm_num, ?_⟩
  ext
  all_goals
    simp only [Vec3.add_x, Vec3.add_y, Vec3.add_z, Vec3.sub_x, Vec3.sub_y, Vec3.sub_z, Vec3.smul_x, Vec3.smul_y, Vec3.smul_z, Vec3.neg_x, Vec3.neg_y, Vec3.neg_z]
    ring

theorem axis_neg (L : ℝ) (R : Mat3) : R.mulVec ⟨0, 0, -L / 2⟩ = -R.mulVec ⟨0, 0, L / 2⟩ := by
  rw [← Mat3.mulVec_neg]
  congr 1
  ext
  all_goals
    simp only [Vec3.neg_x, Vec3.neg_y, Vec3.neg_z]
    ring

theorem rodsOverlap_sound {L r : ℝ} (hr : 0 < r) {s1 s2 : Shape} (h : rodsOverlap L r s1 s2 = true) : Meet (RodBody L r s1) (RodBody L r s2) := by
  unfold RodBody
  rw [meet_capsules hr hr]
  unfold rodsOverlap at h
  split at h
  next h1 =>
    refine ⟨s1.pos, s2.pos, ?_, ?_, by nlinarith⟩
    · rw [axis_neg]; exact middle_onSegment _ _
    · rw [axis_neg]; exact middle_onSegment _ _
  next =>
    split at h
    next => simp at h
    next =>
      rw [cap_lower, cap_upper, cap_lower, cap_upper] at h
      obtain ⟨p, q, hp, hq, e⟩ := C53_attained (s1.pos + s1.rot.mulVec ⟨0, 0, -L / 2⟩) (s1.pos + s1.rot.mulVec ⟨0, 0, L / 2⟩) (s2.pos + s2.rot.mulVec ⟨0, 0, -L / 2⟩) (s2.pos + s2.rot.mulVec ⟨0, 0, L / 2⟩)
      rw [decide_eq_true_eq, e, norm2_sub_comm] at h
      exact ⟨p, q, hp, hq, by nlinarith⟩

/-- C68 for spherocylinders, one direction: if the overlap is reported, the bodies have a common point. -/
theorem C68_rods_sound {L r : ℝ} {I : Interaction} (hI : spherocylinder L r = .ok I) (s1 s2 : Site) (t : Vec3 ℝ) (h : I.overlap s1 s2 (BC.hard t) = true) :
    Meet (RodBody L r ⟨s1.pos, s1.rot⟩) (RodBody L r ⟨s2.pos + t, s2.rot⟩) := by
  obtain ⟨_, hr, rfl⟩ := spherocylinder_ok hI
  exact rodsOverlap_sound hr h

theorem rodsOverlap_complete {L r ρ K : ℝ} (hL : 0 ≤ L) (hr : 0 < r) (hρ : 0 < ρ) (hK : 1 / 10 ^ 10 ≤ K) (hKL : K ≤ L ^ 2) (hρr : ρ + 1 / 10 ^ 10 / K * L ≤ r) {s1 s2 : Shape} (o1 : Orthogonal s1.rot)
    (o2 : Orthogonal s2.rot) (hD : area2 (s1.rot.mulVec ⟨0, 0, L⟩) (s2.rot.mulVec ⟨0, 0, L⟩) = 0 ∨ K ≤ area2 (s1.rot.mulVec ⟨0, 0, L⟩) (s2.rot.mulVec ⟨0, 0, L⟩))
    (h : Meet (RodBody L ρ s1) (RodBody L ρ s2)) : rodsOverlap L r s1 s2 = true := by
  have hK0 : 0 < K := lt_of_lt_of_le (by norm_num) hK
  have herr : 0 ≤ 1 / 10 ^ 10 / K * L := by positivity
  unfold RodBody at h
  rw [meet_capsules hρ hρ] at h
  obtain ⟨p, q, hp, hq, hpq⟩ := h
  have hpq' : (q - p).norm < ρ + ρ := (norm_lt_iff (by linarith)).mpr hpq
  have hax : ∀ s : Shape, s.pos + s.rot.mulVec ⟨0, 0, L / 2⟩ - (s.pos + s.rot.mulVec ⟨0, 0, -L / 2⟩) = s.rot.mulVec ⟨0, 0, L⟩ := by
    intro s
    unfold Mat3.mulVec Vec3.dot
    ext
    all_goals
      simp only [Vec3.add_x, Vec3.add_y, Vec3.add_z, Vec3.sub_x, Vec3.sub_y, Vec3.sub_z]
      ring
  have hn : ∀ s : Shape, Orthogonal s.rot → (s.rot.mulVec ⟨0, 0, L⟩).norm2 = L ^ 2 := by
    intro s o
    rw [orthogonal_norm2 o]
    simp only [Vec3.norm2, Vec3.dot]
    ring
  have hnn : ∀ s : Shape, Orthogonal s.rot → (s.rot.mulVec ⟨0, 0, L⟩).norm = L := by
    intro s o
    unfold Vec3.norm
    rw [hn s o, Real.sqrt_sq hL]
  unfold rodsOverlap
  split
  next => rfl
  next hnear =>
    split
    next hfar =>
      exfalso
      have hmid : ∀ (s : Shape) (x : Vec3 ℝ), Orthogonal s.rot → OnSegment (s.pos + s.rot.mulVec ⟨0, 0, -L / 2⟩) (s.pos + s.rot.mulVec ⟨0, 0, L / 2⟩) x → (x - s.pos).norm ≤ L / 2 := by
        rintro s x o ⟨k, hk0, hk1, rfl⟩
        rw [hax]
        have e : s.pos + s.rot.mulVec ⟨0, 0, -L / 2⟩ + k • s.rot.mulVec ⟨0, 0, L⟩ - s.pos = (k - 1 / 2) • s.rot.mulVec ⟨0, 0, L⟩ := by
          unfold Mat3.mulVec Vec3.dot
          ext
          all_goals
            simp only [Vec3.add_x, Vec3.add_y, Vec3.add_z, Vec3.sub_x, Vec3.sub_y, Vec3.sub_z, Vec3.smul_x, Vec3.smul_y, Vec3.smul_z]
            ring
        rw [e, norm_smul', hnn s o]
        have : |k - 1 / 2| ≤ 1 / 2 := abs_le.mpr ⟨by linarith, by linarith⟩
        nlinarith
      have m1 := hmid s1 p o1 hp
      have m2 := hmid s2 q o2 hq
      have e : s2.pos - s1.pos = (p - s1.pos) + ((q - p) + -(q - s2.pos)) := by
        ext
        all_goals
          simp only [Vec3.add_x, Vec3.add_y, Vec3.add_z, Vec3.sub_x, Vec3.sub_y, Vec3.sub_z, Vec3.neg_x, Vec3.neg_y, Vec3.neg_z]
          ring
      have k1 := Domain.norm_add_le' (p - s1.pos) ((q - p) + -(q - s2.pos))
      have k2 := Domain.norm_add_le' (q - p) (-(q - s2.pos))
      have k3 : (-(q - s2.pos)).norm = (q - s2.pos).norm := by unfold Vec3.norm; rw [norm2_neg]
      rw [← e] at k1
      have k4 : (s2.pos - s1.pos).norm < 2 * r + L := by linarith
      have k5 := (norm_lt_iff (by linarith)).mp k4
      linarith
    next hclose =>
      rw [decide_eq_true_eq, cap_lower, cap_upper, cap_lower, cap_upper]
      have hmin := C53_minimal_partial (K := K) hK (a1 := s1.pos + s1.rot.mulVec ⟨0, 0, -L / 2⟩) (b1 := s1.pos + s1.rot.mulVec ⟨0, 0, L / 2⟩) (a2 := s2.pos + s2.rot.mulVec ⟨0, 0, -L / 2⟩)
        (b2 := s2.pos + s2.rot.mulVec ⟨0, 0, L / 2⟩) (by rw [hax, hn s1 o1]; exact hKL) (by rw [hax, hn s2 o2]; exact hKL) (by rw [hax, hax]; exact hD) hp hq
      rw [hax, hax, hnn s1 o1, hnn s2 o2] at hmin
      have e : (p - q).norm = (q - p).norm := by unfold Vec3.norm; rw [norm2_sub_comm]
      have hlt : Real.sqrt (calculate (s1.pos + s1.rot.mulVec ⟨0, 0, -L / 2⟩) (s1.pos + s1.rot.mulVec ⟨0, 0, L / 2⟩) (s2.pos + s2.rot.mulVec ⟨0, 0, -L / 2⟩) (s2.pos + s2.rot.mulVec ⟨0, 0, L / 2⟩)) < 2 * r := by
        rw [e] at hmin
        nlinarith
      have := (Real.sqrt_lt' (by linarith)).mp hlt
      nlinarith

/-- C68 for spherocylinders, the other direction: if the rods, made thinner by 10⁻¹⁰ `L / K`, have a common point, the overlap is reported. Here `K` is not smaller than 10⁻¹⁰, and it is not larger than the squared
length, and the squared area of the parallelogram of axes is zero (parallel rods) or at least `K`. What is missing: short rods, and rods which are nearly parallel; see `C68_rods_violated`. -/
theorem C68_rods_partial {L r ρ K : ℝ} {I : Interaction} (hI : spherocylinder L r = .ok I) (hρ : 0 < ρ) (hK : 1 / 10 ^ 10 ≤ K) (hKL : K ≤ L ^ 2) (hρr : ρ + 1 / 10 ^ 10 / K * L ≤ r) {s1 s2 : Site} {t : Vec3 ℝ}
    (o1 : Orthogonal s1.rot) (o2 : Orthogonal s2.rot)
    (hD : area2 (s1.rot.mulVec ⟨0, 0, L⟩) (s2.rot.mulVec ⟨0, 0, L⟩) = 0 ∨ K ≤ area2 (s1.rot.mulVec ⟨0, 0, L⟩) (s2.rot.mulVec ⟨0, 0, L⟩))
    (h : Meet (RodBody L ρ ⟨s1.pos, s1.rot⟩) (RodBody L ρ ⟨s2.pos + t, s2.rot⟩)) : I.overlap s1 s2 (BC.hard t) = true := by
  obtain ⟨hL, hr, rfl⟩ := spherocylinder_ok hI
  exact rodsOverlap_complete (s1 := ⟨s1.pos, s1.rot⟩) (s2 := ⟨s2.pos + t, s2.rot⟩) hL hr hρ hK hKL hρr o1 o2 hD h

/-- Perpendicular rods of length 2 and radius 1 meet the hypotheses with `K = 1` and `ρ = 9/10`. -/
example : ∃ (I : Interaction) (s1 s2 : Site), spherocylinder 2 1 = .ok I ∧ (9 / 10 : ℝ) + 1 / 10 ^ 10 / 1 * 2 ≤ 1 ∧ Orthogonal s1.rot ∧ Orthogonal s2.rot ∧
    (1 : ℝ) ≤ area2 (s1.rot.mulVec ⟨0, 0, 2⟩) (s2.rot.mulVec ⟨0, 0, 2⟩) ∧ Meet (RodBody 2 (9 / 10) ⟨s1.pos, s1.rot⟩) (RodBody 2 (9 / 10) ⟨s2.pos + 0, s2.rot⟩) := by
  refine ⟨_, ⟨0, 1, 0⟩, ⟨⟨1, 0, 0⟩, ⟨⟨1, 0, 0⟩, ⟨0, 0, 1⟩, ⟨0, -1, 0⟩⟩, 0⟩, by rw [spherocylinder, decide_eq_true (by norm_num), decide_eq_true (by norm_num)]; rfl, by norm_num, ?_, ?_, ?_, ?_⟩
  · unfold Orthogonal Mat3.transpose Mat3.c0 Mat3.c1 Mat3.c2; rw [Mat3.mul_def, Mat3.one_def]; unfold Mat3.mul Mat3.one; simp [Vec3.dot, Mat3.c0, Mat3.c1, Mat3.c2]
  · unfold Orthogonal Mat3.transpose Mat3.c0 Mat3.c1 Mat3.c2; rw [Mat3.mul_def, Mat3.one_def]; unfold Mat3.mul Mat3.one; simp [Vec3.dot, Mat3.c0, Mat3.c1, Mat3.c2]
  · rw [Mat3.one_mulVec]; unfold area2 Mat3.mulVec Vec3.norm2 Vec3.dot; norm_num
  · unfold RodBody
    rw [meet_capsules (by norm_num) (by norm_num)]
    refine ⟨0, ⟨1, 0, 0⟩, ⟨1 / 2, by norm_num, by norm_num, ?_⟩, ⟨1 / 2, by norm_num, by norm_num, ?_⟩, ?_⟩
    · rw [Mat3.one_mulVec, Mat3.one_mulVec]; ext <;> simp <;> norm_num
    · unfold Mat3.mulVec Vec3.dot; ext <;> simp; norm_num
    · unfold Vec3.norm2 Vec3.dot; simp; norm_num

end Rampack
