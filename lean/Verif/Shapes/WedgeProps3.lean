import Verif.Shapes.WedgeProps2
/-
C104: volumes of balls and spherocylinders, in every position and orientation.
-/
namespace Rampack

open Spec Packing Wedge Volume MeasureTheory Shapes

namespace Volume

/-- The sweep without the surface. -/
theorem sweep_profile_lt {R r l : ℝ} (hl : 0 < l) (h : |R - r| ≤ l) (w q : ℝ) : (∃ t : ℝ, 0 ≤ t ∧ t ≤ 1 ∧ q + (w - t * l) ^ 2 < ((1 - t) * R + t * r) ^ 2) ↔ q < profile R r l w := by
  constructor
  · rintro ⟨t, h0, h1, hq⟩
    have := (sweep_profile hl h w (((1 - t) * R + t * r) ^ 2 - (w - t * l) ^ 2)).mp ⟨t, h0, h1, by linarith⟩
    linarith
  · intro hq
    obtain ⟨t, h0, h1, ht⟩ := (sweep_profile hl h w (profile R r l w)).mpr le_rfl
    exact ⟨t, h0, h1, by linarith⟩

theorem rod_points {L r : ℝ} (hL : 0 < L) : points (RodBody L r Shape.default) = {p | p.1.1 ^ 2 + p.1.2 ^ 2 < profile r r L (p.2 - -L / 2)} := by
  ext p
  rw [Set.mem_setOf_eq, ← sweep_profile_lt hL (by simpa using hL.le)]
  show (∃ q, OnSegment _ _ q ∧ Ball q r ⟨p.1.1, p.1.2, p.2⟩) ↔ _
  have e : ∀ z : ℝ, Shape.default.pos + Shape.default.rot.mulVec ⟨0, 0, z⟩ = ⟨0, 0, z⟩ := by
    intro z
    show (0 : Vec3 ℝ) + (1 : Mat3).mulVec ⟨0, 0, z⟩ = _
    rw [Mat3.one_mulVec]; ext <;> simp
  rw [e, e]
  have key : ∀ t : ℝ, Ball ((⟨0, 0, -L / 2⟩ : Vec3 ℝ) + t • ((⟨0, 0, L / 2⟩ : Vec3 ℝ) - ⟨0, 0, -L / 2⟩)) r ⟨p.1.1, p.1.2, p.2⟩ ↔ p.1.1 ^ 2 + p.1.2 ^ 2 + (p.2 - -L / 2 - t * L) ^ 2 < ((1 - t) * r + t * r) ^ 2 := by
    intro t
    unfold Ball
    simp only [Vec3.norm2, Vec3.dot, Vec3.sub_x, Vec3.sub_y, Vec3.sub_z, Vec3.add_x, Vec3.add_y, Vec3.add_z, Vec3.smul_x, Vec3.smul_y, Vec3.smul_z]
    rw [show (1 - t) * r + t * r = r by ring]
    ring_nf
  constructor
  · rintro ⟨q, ⟨t, h0, h1, rfl⟩, hq⟩
    exact ⟨t, h0, h1, (key t).mp hq⟩
  · rintro ⟨t, h0, h1, hq⟩
    exact ⟨_, ⟨t, h0, h1, rfl⟩, (key t).mpr hq⟩

theorem rod_zero (r : ℝ) : RodBody 0 r Shape.default = Ball ⟨0, 0, 0⟩ r := by
  ext p
  have e : ∀ z : ℝ, Shape.default.pos + Shape.default.rot.mulVec ⟨0, 0, z⟩ = ⟨0, 0, z⟩ := by
    intro z
    show (0 : Vec3 ℝ) + (1 : Mat3).mulVec ⟨0, 0, z⟩ = _
    rw [Mat3.one_mulVec]; ext <;> simp
  unfold RodBody Capsule
  rw [e, e, neg_zero, zero_div]
  have e2 : ∀ t : ℝ, (⟨0, 0, 0⟩ : Vec3 ℝ) + t • ((⟨0, 0, 0⟩ : Vec3 ℝ) - ⟨0, 0, 0⟩) = ⟨0, 0, 0⟩ := by intro t; ext <;> simp
  constructor
  · rintro ⟨q, ⟨t, _, _, rfl⟩, hq⟩
    rw [e2] at hq; exact hq
  · intro hq
    exact ⟨_, ⟨0, le_rfl, zero_le_one, (e2 0).symm⟩, hq⟩

theorem rod_measure {L r : ℝ} (hL : 0 ≤ L) (hr : 0 < r) : MeasurableSet (points (RodBody L r Shape.default)) ∧ volume (points (RodBody L r Shape.default)) = ENNReal.ofReal (rodVolume L r) := by
  rcases eq_or_lt_of_le hL with e | hL
  · rw [← e, rod_zero]
    refine ⟨measurable_ball 0 r, ?_⟩
    rw [ball_volume 0 hr]
    congr 1
    unfold rodVolume
    ring
  · have h1 := (smooth_volume hr hr hL (by simpa using hL.le)).2
    rw [points_smooth hr hr hL (by simpa using hL.le), revolve_closed (measurable_profile r r L _)] at h1
    rw [rod_points hL]
    refine ⟨measurable_revolve (measurable_profile r r L (-L / 2)), ?_⟩
    rw [revolve (measurable_profile r r L (-L / 2))]
    rw [show (r - r - L) / 2 = -L / 2 by ring] at h1
    rw [h1]
    congr 1
    unfold rodVolume
    rw [sub_self, zero_div]
    ring

/-- A rod anywhere is the rod at the origin, rotated and moved. -/
theorem rod_placed (L r : ℝ) {s : Shape} (ho : Orthogonal s.rot) : RodBody L r s = Placed (RodBody L r Shape.default) s.rot s.pos := by
  have e : ∀ z : ℝ, Shape.default.pos + Shape.default.rot.mulVec ⟨0, 0, z⟩ = ⟨0, 0, z⟩ := by
    intro z
    show (0 : Vec3 ℝ) + (1 : Mat3).mulVec ⟨0, 0, z⟩ = _
    rw [Mat3.one_mulVec]; ext <;> simp
  have seg : ∀ t : ℝ, s.pos + s.rot.mulVec ⟨0, 0, -L / 2⟩ + t • (s.pos + s.rot.mulVec ⟨0, 0, L / 2⟩ - (s.pos + s.rot.mulVec ⟨0, 0, -L / 2⟩)) =
      s.rot.mulVec ((⟨0, 0, -L / 2⟩ : Vec3 ℝ) + t • ((⟨0, 0, L / 2⟩ : Vec3 ℝ) - ⟨0, 0, -L / 2⟩)) + s.pos := by
    intro t
    ext <;> simp only [Mat3.mulVec, Vec3.dot, Vec3.sub_x, Vec3.sub_y, Vec3.sub_z, Vec3.add_x, Vec3.add_y, Vec3.add_z, Vec3.smul_x, Vec3.smul_y, Vec3.smul_z] <;> ring
  ext p
  unfold RodBody Capsule
  rw [e, e]
  have ball : ∀ q x : Vec3 ℝ, Ball (s.rot.mulVec q + s.pos) r (s.rot.mulVec x + s.pos) ↔ Ball q r x := by
    intro q x
    unfold Ball
    rw [show s.rot.mulVec x + s.pos - (s.rot.mulVec q + s.pos) = s.rot.mulVec (x - q) by rw [Mat3.mulVec_sub]; ext <;> simp, orthogonal_norm2 ho]
  constructor
  · rintro ⟨q, ⟨t, h0, h1, rfl⟩, hq⟩
    rw [seg] at hq
    have hp : p = s.rot.mulVec (s.rot.transpose.mulVec (p - s.pos)) + s.pos := by
      rw [Mat3.mulVec_mulVec, Xeno.orthogonal_transpose ho, Mat3.one_mulVec]; ext <;> simp
    rw [hp, ball] at hq
    exact ⟨_, ⟨_, ⟨t, h0, h1, rfl⟩, hq⟩, hp⟩
  · rintro ⟨x, ⟨q, ⟨t, h0, h1, rfl⟩, hq⟩, rfl⟩
    refine ⟨_, ⟨t, h0, h1, rfl⟩, ?_⟩
    rw [seg, ball]; exact hq

end Volume

/-- C104: the volume given for a ball is the volume of every ball of this radius. -/
theorem C104_sphere {r : ℝ} {I : Interaction} (h : sphere r = .ok I) (c : Vec3 ℝ) : HasVolume (Ball c r) (sphereVolume r) := by
  unfold sphere at h
  obtain ⟨_, h1, _⟩ := Outcome.bind_eq_ok.mp h
  have hr : 0 < r := of_decide_eq_true (Outcome.require_eq_ok.mp h1)
  have := Real.pi_pos
  exact ⟨by unfold sphereVolume; positivity, any_ball_volume c hr⟩

/-- C104: the volume given for a spherocylinder is the volume of its body in every position and orientation. -/
theorem C104_rod {L r : ℝ} {I : Interaction} (h : spherocylinder L r = .ok I) {s : Shape} (ho : Orthogonal s.rot) : HasVolume (RodBody L r s) (rodVolume L r) := by
  unfold spherocylinder at h
  obtain ⟨_, h1, h⟩ := Outcome.bind_eq_ok.mp h
  obtain ⟨_, h2, _⟩ := Outcome.bind_eq_ok.mp h
  have hL : 0 ≤ L := of_decide_eq_true (Outcome.require_eq_ok.mp h1)
  have hr : 0 < r := of_decide_eq_true (Outcome.require_eq_ok.mp h2)
  have := Real.pi_pos
  refine ⟨by unfold rodVolume; positivity, ?_⟩
  rw [rod_placed L r ho, placed_volume _ ho]
  exact (rod_measure hL hr).2

/-- C104: a molecule has the same volume wherever it is and however it is turned. -/
theorem C104_placed {B : Vec3 ℝ → Prop} {v : ℝ} (h : HasVolume B v) {rot : Mat3} (ho : Orthogonal rot) (pos : Vec3 ℝ) : HasVolume (Placed B rot pos) v :=
  ⟨h.1, by rw [placed_volume B ho pos]; exact h.2⟩

/-- A rod of length 3 and radius 1/2 turned about the x axis. -/
example : HasVolume (RodBody 3 (1 / 2) ⟨⟨1, 2, 3⟩, ⟨⟨1, 0, 0⟩, ⟨0, 0, -1⟩, ⟨0, 1, 0⟩⟩⟩) (Real.pi * (11 / 12)) := by
  have h : ∃ I, spherocylinder 3 (1 / 2) = .ok I := by
    unfold spherocylinder
    rw [decide_eq_true (by norm_num), decide_eq_true (by norm_num)]
    exact ⟨_, rfl⟩
  obtain ⟨I, hI⟩ := h
  have := C104_rod hI (s := ⟨⟨1, 2, 3⟩, ⟨⟨1, 0, 0⟩, ⟨0, 0, -1⟩, ⟨0, 1, 0⟩⟩⟩) (by
    unfold Orthogonal
    ext <;> simp [Mat3.mul_def, Mat3.mul, Mat3.transpose, Mat3.c0, Mat3.c1, Mat3.c2, Vec3.dot, Mat3.one_def, Mat3.one])
  rw [show rodVolume 3 (1 / 2) = Real.pi * (11 / 12) by unfold rodVolume; ring] at this
  exact this

end Rampack
