import Verif.Shapes.HardWallProps
/-
C68 for molecules made of spherocylinders, the other direction.
-/
namespace Rampack

open Spec Shapes Segment

theorem calculate_ends {p v : Vec3 ℝ} : p - v - (p + v) = (-2 : ℝ) • v := by
  ext
  all_goals
    simp only [Vec3.add_x, Vec3.add_y, Vec3.add_z, Vec3.sub_x, Vec3.sub_y, Vec3.sub_z, Vec3.smul_x, Vec3.smul_y, Vec3.smul_z]
    ring

theorem area2_scaled (u v : Vec3 ℝ) : area2 ((-2 : ℝ) • u) ((-2 : ℝ) • v) = 16 * area2 u v := by
  unfold area2 Vec3.norm2 Vec3.dot
  simp only [Vec3.smul_x, Vec3.smul_y, Vec3.smul_z]
  ring

theorem norm2_scaled (u : Vec3 ℝ) : ((-2 : ℝ) • u).norm2 = 4 * u.norm2 := by rw [norm2_smul]; ring

theorem norm_scaled (u : Vec3 ℝ) : ((-2 : ℝ) • u).norm = 2 * u.norm := by rw [norm_smul']; norm_num

theorem near_middle {p v x : Vec3 ℝ} (h : OnSegment (p - v) (p + v) x) : (x - p).norm ≤ v.norm := by
  obtain ⟨k, h0, h1, rfl⟩ := h
  have e : p - v + k • (p + v - (p - v)) - p = (2 * k - 1) • v := by
    ext
    all_goals
      simp only [Vec3.add_x, Vec3.add_y, Vec3.add_z, Vec3.sub_x, Vec3.sub_y, Vec3.sub_z, Vec3.smul_x, Vec3.smul_y, Vec3.smul_z]
      ring
  rw [e, norm_smul']
  have k1 : |2 * k - 1| ≤ 1 := abs_le.mpr ⟨by linarith, by linarith⟩
  have k2 : 0 ≤ v.norm := Real.sqrt_nonneg _
  nlinarith

theorem polyrods_complete {d1 d2 : RodData} {δ K H : ℝ} (hK : 1 / 10 ^ 10 ≤ K) (hδ : 1 / 10 ^ 10 / K * (2 * H) ≤ δ) (w1 : 0 < d1.radius ∧ d1.halfLength = d1.halfAxis.norm ∧ d1.circumsphereRadius = d1.radius + d1.halfAxis.norm)
    (w2 : 0 < d2.radius ∧ d2.halfLength = d2.halfAxis.norm ∧ d2.circumsphereRadius = d2.radius + d2.halfAxis.norm) (l1 : K ≤ 4 * d1.halfAxis.norm2 ∧ d1.halfAxis.norm ≤ H ∧ δ < d1.radius)
    (l2 : K ≤ 4 * d2.halfAxis.norm2 ∧ d2.halfAxis.norm ≤ H ∧ δ < d2.radius) {p1 p2 : Vec3 ℝ} {r1 r2 : Mat3} (o1 : Orthogonal r1) (o2 : Orthogonal r2)
    (hD : area2 (r1.mulVec d1.halfAxis) (r2.mulVec d2.halfAxis) = 0 ∨ K ≤ 16 * area2 (r1.mulVec d1.halfAxis) (r2.mulVec d2.halfAxis))
    (h : Meet (Capsule (p1 - r1.mulVec d1.halfAxis) (p1 + r1.mulVec d1.halfAxis) (d1.radius - δ)) (Capsule (p2 - r2.mulVec d2.halfAxis) (p2 + r2.mulVec d2.halfAxis) (d2.radius - δ))) :
    polyrodsOverlap d1 d2 p1 r1 p2 r2 = true := by
  have hK0 : 0 < K := lt_of_lt_of_le (by norm_num) hK
  have hH : 0 ≤ H := le_trans (Real.sqrt_nonneg _) l1.2.1
  have hc : 0 ≤ 1 / 10 ^ 10 / K := by positivity
  have hδ0 : 0 ≤ δ := le_trans (by positivity) hδ
  rw [meet_capsules (by linarith [l1.2.2]) (by linarith [l2.2.2])] at h
  obtain ⟨p, q, hp, hq, hpq⟩ := h
  have hpq' : (q - p).norm < d1.radius - δ + (d2.radius - δ) := (norm_lt_iff (by linarith [l1.2.2, l2.2.2])).mpr hpq
  have hn1 : (r1.mulVec d1.halfAxis).norm = d1.halfAxis.norm := by unfold Vec3.norm; rw [orthogonal_norm2 o1]
  have hn2 : (r2.mulVec d2.halfAxis).norm = d2.halfAxis.norm := by unfold Vec3.norm; rw [orthogonal_norm2 o2]
  unfold polyrodsOverlap
  split
  next => rfl
  next =>
    split
    next hfar =>
      exfalso
      have m1 := near_middle hp
      have m2 := near_middle hq
      rw [hn1] at m1
      rw [hn2] at m2
      have e : p2 - p1 = (p - p1) + ((q - p) + -(q - p2)) := by
        ext
        all_goals
          simp only [Vec3.add_x, Vec3.add_y, Vec3.add_z, Vec3.sub_x, Vec3.sub_y, Vec3.sub_z, Vec3.neg_x, Vec3.neg_y, Vec3.neg_z]
          ring
      have k1 := Domain.norm_add_le' (p - p1) ((q - p) + -(q - p2))
      have k2 := Domain.norm_add_le' (q - p) (-(q - p2))
      have k3 : (-(q - p2)).norm = (q - p2).norm := by unfold Vec3.norm; rw [norm2_neg]
      rw [← e] at k1
      have k4 : (p2 - p1).norm < d1.circumsphereRadius + d2.circumsphereRadius := by rw [w1.2.2, w2.2.2]; linarith
      have hpos : 0 < d1.circumsphereRadius + d2.circumsphereRadius := lt_of_le_of_lt (Real.sqrt_nonneg _) k4
      have k5 := (norm_lt_iff hpos).mp k4
      rw [pow_two] at k5
      linarith
    next =>
      rw [decide_eq_true_eq]
      have hmin := C53_minimal_partial (K := K) hK (a1 := p1 + r1.mulVec d1.halfAxis) (b1 := p1 - r1.mulVec d1.halfAxis) (a2 := p2 + r2.mulVec d2.halfAxis) (b2 := p2 - r2.mulVec d2.halfAxis)
        (by rw [calculate_ends, norm2_scaled, orthogonal_norm2 o1]; exact l1.1) (by rw [calculate_ends, norm2_scaled, orthogonal_norm2 o2]; exact l2.1)
        (by rw [calculate_ends, calculate_ends, area2_scaled]; exact hD.imp (fun h => by rw [h]; norm_num) id) (onSegment_swap.mp hp) (onSegment_swap.mp hq)
      rw [calculate_ends, calculate_ends, norm_scaled, norm_scaled, hn1, hn2] at hmin
      have e : (p - q).norm = (q - p).norm := by unfold Vec3.norm; rw [norm2_sub_comm]
      rw [e] at hmin
      have hb : 1 / 10 ^ 10 / K * (2 * d1.halfAxis.norm + 2 * d2.halfAxis.norm) ≤ 1 / 10 ^ 10 / K * (2 * H) + 1 / 10 ^ 10 / K * (2 * H) := by
        have := mul_le_mul_of_nonneg_left (show 2 * d1.halfAxis.norm + 2 * d2.halfAxis.norm ≤ 2 * H + 2 * H by linarith [l1.2.1, l2.2.1]) hc
        linarith
      have := (Real.sqrt_lt' (by linarith [w1.1, w2.1])).mp (lt_of_le_of_lt hmin (show _ < d1.radius + d2.radius by linarith))
      rw [pow_two] at this
      exact this

/-- C68 for molecules made of spherocylinders, the other direction: if the molecules with their rods made thinner by `δ` have a common point, the overlap is reported. Here `K` is not smaller than 10⁻¹⁰ and not larger
than squared lengths of rods, no half-length exceeds `H`, `δ` is not smaller than 10⁻¹⁰ 2`H` / `K`, and for each pair of rods the squared area of the parallelogram of axes is zero or at least `K`. What is missing: short rods
and rods which are nearly parallel. -/
theorem C68_polyrods_partial {data : List RodData} {I : Interaction} (hI : polyspherocylinder data = .ok I) (hw : WellBuilt data) {δ K H : ℝ} (hK : 1 / 10 ^ 10 ≤ K) (hδ : 1 / 10 ^ 10 / K * (2 * H) ≤ δ)
    (hl : ∀ d ∈ data, K ≤ 4 * d.halfAxis.norm2 ∧ d.halfAxis.norm ≤ H ∧ δ < d.radius) {s1 s2 : Shape} {t : Vec3 ℝ} (o1 : Orthogonal s1.rot) (o2 : Orthogonal s2.rot)
    (hD : ∀ d1 ∈ data, ∀ d2 ∈ data, area2 (s1.rot.mulVec d1.halfAxis) (s2.rot.mulVec d2.halfAxis) = 0 ∨ K ≤ 16 * area2 (s1.rot.mulVec d1.halfAxis) (s2.rot.mulVec d2.halfAxis))
    (h : Meet (RodsBody (thinner δ data) s1) (movedBy t (RodsBody (thinner δ data) s2))) : I.overlapBetweenShapes s1 s2 (BC.hard t) = true := by
  obtain ⟨p, ⟨d1', m1', hp⟩, ⟨d2', m2', hq⟩⟩ := h
  obtain ⟨d1, m1, rfl⟩ := List.mem_map.mp m1'
  obtain ⟨d2, m2, rfl⟩ := List.mem_map.mp m2'
  obtain ⟨k1, g1⟩ := List.mem_iff_getElem?.mp m1
  obtain ⟨k2, g2⟩ := List.mem_iff_getElem?.mp m2
  rw [overlapBetweenShapes_iff]
  refine ⟨_, (rods_sites hI).mpr ⟨k1, d1, g1, rfl⟩, _, (rods_sites hI).mpr ⟨k2, d2, g2, rfl⟩, ?_⟩
  obtain ⟨d, rest, hd, rfl⟩ := polyspherocylinder_ok hI
  show polyrodsOverlap (rodAt data k1) (rodAt data k2) (s1.pos + s1.rot.mulVec d1.position) s1.rot (s2.pos + s2.rot.mulVec d2.position + t) s2.rot = true
  rw [rodAt_of g1, rodAt_of g2]
  apply polyrods_complete hK hδ (hw d1 m1) (hw d2 m2) (hl d1 m1) (hl d2 m2) o1 o2 (hD d1 m1 d2 m2)
  refine ⟨p, ?_, ?_⟩
  · rw [← (rod_ends _ _ _ _).1, ← (rod_ends _ _ _ _).2]; exact hp
  · have hq' : movedBy t (Capsule (s2.pos + s2.rot.mulVec (d2.position - d2.halfAxis)) (s2.pos + s2.rot.mulVec (d2.position + d2.halfAxis)) (d2.radius - δ)) p := hq
    rw [moved_capsule, (rod_ends _ _ _ _).1, (rod_ends _ _ _ _).2] at hq'
    have e1 : s2.pos + s2.rot.mulVec d2.position - s2.rot.mulVec d2.halfAxis + t = s2.pos + s2.rot.mulVec d2.position + t - s2.rot.mulVec d2.halfAxis := by
      ext
      all_goals
        simp only [Vec3.add_x, Vec3.add_y, Vec3.add_z, Vec3.sub_x, Vec3.sub_y, Vec3.sub_z]
        ring
    have e2 : s2.pos + s2.rot.mulVec d2.position + s2.rot.mulVec d2.halfAxis + t = s2.pos + s2.rot.mulVec d2.position + t + s2.rot.mulVec d2.halfAxis := by
      ext
      all_goals
        simp only [Vec3.add_x, Vec3.add_y, Vec3.add_z]
        ring
    rwa [e1, e2] at hq'

/-- Two parallel rods of half-length 1 and radius 1 in the distance 3/2, with `K = 1`, `H = 1` and `δ = 1/10`. -/
example : ∃ (d : RodData) (I : Interaction), RodData.make 0 ⟨0, 0, 1⟩ 1 = .ok d ∧ polyspherocylinder [d] = .ok I ∧ WellBuilt [d] ∧ (1 : ℝ) / 10 ^ 10 / 1 * (2 * 1) ≤ 1 / 10 ∧
    (∀ e ∈ [d], (1 : ℝ) ≤ 4 * e.halfAxis.norm2 ∧ e.halfAxis.norm ≤ 1 ∧ (1 / 10 : ℝ) < e.radius) ∧
    (∀ d1 ∈ [d], ∀ d2 ∈ [d], area2 (Mat3.mulVec 1 d1.halfAxis) (Mat3.mulVec 1 d2.halfAxis) = 0) ∧
    Meet (RodsBody (thinner (1 / 10) [d]) ⟨0, 1⟩) (movedBy ⟨3 / 2, 0, 0⟩ (RodsBody (thinner (1 / 10) [d]) ⟨0, 1⟩)) := by
  have hn : (⟨0, 0, 1⟩ : Vec3 ℝ).norm = 1 := by unfold Vec3.norm Vec3.norm2 Vec3.dot; norm_num
  refine ⟨⟨0, ⟨0, 0, 1⟩, 1, 1, 1 + 1⟩, _, ?_, rfl, ?_, by norm_num, ?_, ?_, ?_⟩
  · rw [RodData.make, decide_eq_true (by norm_num), hn]; rfl
  · intro e he
    rw [List.mem_singleton] at he
    subst he
    exact ⟨one_pos, hn.symm, by rw [hn]⟩
  · intro e he
    rw [List.mem_singleton] at he
    subst he
    exact ⟨by simp [Vec3.norm2, Vec3.dot], hn.le, by norm_num⟩
  · intro d1 h1 d2 h2
    rw [List.mem_singleton] at h1 h2
    subst h1
    subst h2
    rw [Mat3.one_mulVec]
    simp [area2, Vec3.norm2, Vec3.dot]
  · refine ⟨⟨3 / 4, 0, 0⟩, ⟨_, List.mem_singleton.mpr rfl, 0, ⟨1 / 2, by norm_num, by norm_num, ?_⟩, ?_⟩, ⟨_, List.mem_singleton.mpr rfl, 0, ⟨1 / 2, by norm_num, by norm_num, ?_⟩, ?_⟩⟩
    · simp only [Mat3.one_mulVec]; ext <;> simp <;> norm_num
    · simp only [Ball, Vec3.norm2, Vec3.dot]; simp; norm_num
    · simp only [Mat3.one_mulVec]; ext <;> simp <;> norm_num
    · simp only [Ball, Vec3.norm2, Vec3.dot]; simp; norm_num

end Rampack
