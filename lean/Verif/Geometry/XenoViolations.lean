import Verif.Geometry.XenoOperationProps
/-
Collision tests which end with a wrong answer, and tests which meet the hypotheses of the theorems.
-/
namespace Rampack

open Packing Spec Xeno XC

namespace XC

/-- The difference of two cuboids, as the collision test sees it. -/
theorem cuboid_difference (h : Vec3 ℝ) (pos1 pos2 : Vec3 ℝ) (c1 c2 i1 i2 : ℝ) (rot1 : Mat3) (n : Vec3 ℝ) :
    differenceSupport ⟨⟨fun n => ⟨signed n.x h.x, signed n.y h.y, signed n.z h.z⟩, 0, c1, i1⟩, pos1, rot1⟩
      ⟨⟨fun n => ⟨signed n.x h.x, signed n.y h.y, signed n.z h.z⟩, 0, c2, i2⟩, pos2, 1⟩ n
    = ⟨signed n.x h.x, signed n.y h.y, signed n.z h.z⟩ + pos2
      - (rot1.mulVec ⟨signed (-(rot1.c0.dot n)) h.x, signed (-(rot1.c1.dot n)) h.y, signed (-(rot1.c2.dot n)) h.z⟩ + pos1) := by
  have e : (1 : Mat3).transpose.mulVec n = n := by
    ext <;> simp [Mat3.mulVec, Mat3.transpose, Mat3.c0, Mat3.c1, Mat3.c2, Vec3.dot, Mat3.one_def, Mat3.one]
  have e' : rot1.transpose.mulVec (-n) = ⟨-(rot1.c0.dot n), -(rot1.c1.dot n), -(rot1.c2.dot n)⟩ := by
    ext <;> simp only [Mat3.mulVec, Mat3.transpose, Mat3.c0, Mat3.c1, Mat3.c2, Vec3.dot, Vec3.neg_x, Vec3.neg_y, Vec3.neg_z] <;> ring
  simp only [differenceSupport, Entry.support, e, e', Mat3.one_mulVec]

end XC

theorem XC.cubes_difference (pos2 : Vec3 ℝ) (c1 c2 i1 i2 : ℝ) (n : Vec3 ℝ) :
    differenceSupport ⟨⟨fun n => ⟨signed n.x 1, signed n.y 1, signed n.z 1⟩, 0, c1, i1⟩, 0, 1⟩
      ⟨⟨fun n => ⟨signed n.x 1, signed n.y 1, signed n.z 1⟩, 0, c2, i2⟩, pos2, 1⟩ n
    = ⟨signed n.x 1 - signed (-n.x) 1 + pos2.x, signed n.y 1 - signed (-n.y) 1 + pos2.y, signed n.z 1 - signed (-n.z) 1 + pos2.z⟩ := by
  have e : ∀ m : Vec3 ℝ, (1 : Mat3).transpose.mulVec m = m := by
    intro m; ext <;> simp [Mat3.mulVec, Mat3.transpose, Mat3.c0, Mat3.c1, Mat3.c2, Vec3.dot, Mat3.one_def, Mat3.one]
  simp only [differenceSupport, Entry.support, e, Mat3.one_mulVec]
  ext <;> simp <;> ring

/-- The refinement goes on. -/
theorem Xeno.refinedToMiss_false {tol : ℝ} {v3 v4 n : Vec3 ℝ} (ht : 0 ≤ tol) (h1 : 0 < v4.dot n) (h2 : 0 < (v4 - v3).dot n)
    (h3 : n.norm2 * tol ^ 2 < (v4 - v3).dot n ^ 2) : refinedToMiss tol v3 v4 n = false := by
  have hn : n ≠ 0 := by
    rintro rfl
    simp [Vec3.dot] at h1
  have hp := Xeno.norm_pos_of_ne hn
  unfold refinedToMiss
  simp only [decide_eq_false_iff_not, not_or, not_le, ge_iff_le]
  rw [Xeno.normalized_dot, Xeno.normalized_dot]
  refine ⟨by have := div_pos h1 hp; linarith, ?_⟩
  rw [lt_div_iff₀ hp]
  rw [← Vec3.norm_sq] at h3
  have := abs_lt_of_sq_lt_sq (a := tol * n.norm) (b := (v4 - v3).dot n) (by rw [mul_pow]; linarith) h2.le
  exact (abs_lt.mp this).2

/-- A rotation about the z axis. -/
noncomputable def XC.tilt : Mat3 := ⟨⟨3/5, -(4/5), 0⟩, ⟨4/5, 3/5, 0⟩, ⟨0, 0, 1⟩⟩

theorem XC.tilt_orthogonal : Orthogonal tilt := by
  unfold Orthogonal tilt
  rw [Mat3.mul_def, Mat3.one_def]
  simp [Mat3.mul, Mat3.one, Mat3.transpose, Mat3.c0, Mat3.c1, Mat3.c2, Vec3.dot]
  norm_num

theorem XC.cuboid_ok {h : Vec3 ℝ} (hx : 0 < h.x) (hy : 0 < h.y) (hz : 0 < h.z) : cuboid h = .ok
    ⟨fun n => ⟨signed n.x h.x, signed n.y h.y, signed n.z h.z⟩, 0, h.norm, min (min h.x h.y) h.z⟩ := by
  simp [cuboid, Outcome.require, hx, hy, hz]

theorem XC.signed_pos {n h : ℝ} (hn : 0 ≤ n) : signed n h = h := if_neg (not_lt.mpr hn)

theorem XC.signed_neg {n h : ℝ} (hn : n < 0) : signed n h = -h := if_pos hn

/-- The collision test says that two cuboids overlap, although they are more than 1/2 apart: a tie in the refinement makes it
take a portal through which the way to the origin does not go. The cuboids have half-sides 3, 3, 2; the first one is rotated about the
z axis by arccos(3/5), the second one is moved by (6, -5, 2). -/
theorem C76_hit_violated : ∃ (g : XCGeometry) (rot : Mat3) (pos : Vec3 ℝ), cuboid ⟨3, 3, 2⟩ = .ok g ∧ Orthogonal rot ∧
    overlapBetween 8 g g 0 rot pos 1 0 = .ok true ∧
    FarApart (Placed (CuboidBody ⟨3, 3, 2⟩) rot 0) (Placed (CuboidBody ⟨3, 3, 2⟩) 1 pos) (1 / 2) := by
  refine ⟨_, tilt, ⟨6, -5, 2⟩, cuboid_ok (by norm_num) (by norm_num) (by norm_num), tilt_orthogonal, ?_, ?_⟩
  · have hnorm : (⟨3, 3, 2⟩ : Vec3 ℝ).norm ^ 2 = 22 := by rw [Vec3.norm_sq]; norm_num [Vec3.norm2, Vec3.dot]
    have hmin : min (min (3 : ℝ) 3) 2 = 2 := by norm_num
    have hpos : (⟨6, -5, 2⟩ : Vec3 ℝ) + 0 = ⟨6, -5, 2⟩ := add_zero _
    unfold overlapBetween
    simp only [hpos, sub_zero, hmin]
    rw [if_neg (by
      have : (⟨6, -5, 2⟩ : Vec3 ℝ).norm2 = 65 := by norm_num [Vec3.norm2, Vec3.dot]
      rw [this]; nlinarith), if_neg (by norm_num [Vec3.norm2, Vec3.dot])]
    -- the support points which come up
    unfold intersect
    generalize hsup : differenceSupport _ _ = sup
    have hS : ∀ n : Vec3 ℝ, sup n = ⟨signed n.x 3, signed n.y 3, signed n.z 2⟩ + ⟨6, -5, 2⟩
        - (tilt.mulVec ⟨signed (-(tilt.c0.dot n)) 3, signed (-(tilt.c1.dot n)) 3, signed (-(tilt.c2.dot n)) 2⟩ + 0) := by
      intro n; rw [← hsup]; exact cuboid_difference ⟨3, 3, 2⟩ _ _ _ _ _ _ _ n
    have ev : ∀ (n m : Vec3 ℝ) (s1 s2 s3 s4 s5 s6 : ℝ), signed n.x 3 = s1 → signed n.y 3 = s2 → signed n.z 2 = s3 →
        signed (-(tilt.c0.dot n)) 3 = s4 → signed (-(tilt.c1.dot n)) 3 = s5 → signed (-(tilt.c2.dot n)) 2 = s6 →
        m.x = s1 + 6 - (3/5 * s4 - 4/5 * s5) → m.y = s2 - 5 - (4/5 * s4 + 3/5 * s5) → m.z = s3 + 2 - s6 → sup n = m := by
      intro n m s1 s2 s3 s4 s5 s6 h1 h2 h3 h4 h5 h6 hx hy hz
      rw [hS, h1, h2, h3, h4, h5, h6]
      ext
      · rw [hx]; simp only [tilt, Mat3.mulVec, Vec3.dot, Vec3.add_x, Vec3.sub_x, Vec3.zero_x]; ring
      · rw [hy]; simp only [tilt, Mat3.mulVec, Vec3.dot, Vec3.add_y, Vec3.sub_y, Vec3.zero_y]; ring
      · rw [hz]; simp only [tilt, Mat3.mulVec, Vec3.dot, Vec3.add_z, Vec3.sub_z, Vec3.zero_z]; ring
    have d0 : ∀ n : Vec3 ℝ, tilt.c0.dot n = 3/5 * n.x + 4/5 * n.y := by intro n; simp [tilt, Mat3.c0, Vec3.dot]
    have d1 : ∀ n : Vec3 ℝ, tilt.c1.dot n = -(4/5) * n.x + 3/5 * n.y := by intro n; simp [tilt, Mat3.c1, Vec3.dot]
    have d2 : ∀ n : Vec3 ℝ, tilt.c2.dot n = n.z := by intro n; simp [tilt, Mat3.c2, Vec3.dot]
    have s1 : sup ⟨-6, 5, -2⟩ = ⟨12/5, 11/5, -2⟩ := by
      refine ev _ _ (-3) 3 (-2) (-3) (-3) 2 ?_ ?_ ?_ ?_ ?_ ?_ ?_ ?_ ?_ <;> norm_num [signed, d0, d1, d2]
    have s2 : sup ⟨-(28/5), -(84/5), -(126/5)⟩ = ⟨18/5, -(61/5), -2⟩ := by
      refine ev _ _ (-3) (-3) (-2) 3 3 2 ?_ ?_ ?_ ?_ ?_ ?_ ?_ ?_ ?_ <;> norm_num [signed, d0, d1, d2]
    have s3 : sup ⟨-(288/5), -(24/5), 216/5⟩ = ⟨-(6/5), -(43/5), 6⟩ := by
      refine ev _ _ (-3) (-3) 2 3 (-3) (-2) ?_ ?_ ?_ ?_ ?_ ?_ ?_ ?_ ?_ <;> norm_num [signed, d0, d1, d2]
    have s4 : sup ⟨-(576/5), -(48/5), -(324/5)⟩ = ⟨-(6/5), -(43/5), -2⟩ := by
      refine ev _ _ (-3) (-3) (-2) 3 (-3) 2 ?_ ?_ ?_ ?_ ?_ ?_ ?_ ?_ ?_ <;> norm_num [signed, d0, d1, d2]
    have s5 : sup ⟨-(432/5), 144/5, 0⟩ = ⟨-(6/5), -(13/5), 2⟩ := by
      refine ev _ _ (-3) 3 2 3 (-3) 2 ?_ ?_ ?_ ?_ ?_ ?_ ?_ ?_ ?_ <;> norm_num [signed, d0, d1, d2]
    have hc : Entry.center ⟨⟨fun n => ⟨signed n.x 3, signed n.y 3, signed n.z 2⟩, 0, (⟨3, 3, 2⟩ : Vec3 ℝ).norm, 2⟩, ⟨6, -5, 2⟩, 1⟩
        - Entry.center ⟨⟨fun n => ⟨signed n.x 3, signed n.y 3, signed n.z 2⟩, 0, (⟨3, 3, 2⟩ : Vec3 ℝ).norm, 2⟩, 0, tilt⟩ = ⟨6, -5, 2⟩ := by
      simp only [Entry.center, Mat3.mulVec_zero]; ext <;> norm_num
    rw [hc]
    unfold search
    rw [if_neg (by norm_num [isVectorZero, ZERO]), show -(⟨6, -5, 2⟩ : Vec3 ℝ) = ⟨-6, 5, -2⟩ by ext <;> norm_num, s1,
      if_neg (by norm_num [Vec3.dot])]
    unfold fromTwo
    rw [show (⟨12/5, 11/5, -2⟩ : Vec3 ℝ).cross ⟨6, -5, 2⟩ = ⟨-(28/5), -(84/5), -(126/5)⟩ by ext <;> norm_num [Vec3.cross], s2,
      if_neg (by norm_num [isVectorZero, ZERO, abs_of_neg]), if_neg (by norm_num [Vec3.dot])]
    unfold fromThree
    rw [show ((⟨12/5, 11/5, -2⟩ : Vec3 ℝ) - ⟨6, -5, 2⟩).cross (⟨18/5, -(61/5), -2⟩ - ⟨6, -5, 2⟩) = ⟨-(288/5), -(24/5), 216/5⟩ by
      ext <;> norm_num [Vec3.cross], if_neg (by norm_num [Vec3.dot])]
    unfold findPortal
    rw [s3, if_neg (by norm_num [Vec3.dot]), if_neg (by norm_num [Vec3.dot, Vec3.cross]), if_neg (by norm_num [Vec3.dot, Vec3.cross])]
    unfold refine
    rw [show portalNormal (⟨12/5, 11/5, -2⟩ : Vec3 ℝ) ⟨18/5, -(61/5), -2⟩ ⟨-(6/5), -(43/5), 6⟩ = ⟨-(576/5), -(48/5), -(324/5)⟩ by
      unfold portalNormal; ext <;> norm_num [Vec3.cross], if_neg (by norm_num [Vec3.dot]), s4,
      Xeno.refinedToMiss_false (by norm_num) (by norm_num [Vec3.dot]) (by norm_num [Vec3.dot]) (by norm_num [Vec3.norm2, Vec3.dot])]
    rw [if_neg (by simp)]
    rw [show nextPortal (⟨6, -5, 2⟩ : Vec3 ℝ) ⟨12/5, 11/5, -2⟩ ⟨18/5, -(61/5), -2⟩ ⟨-(6/5), -(43/5), 6⟩ ⟨-(6/5), -(43/5), -2⟩
        = (⟨12/5, 11/5, -2⟩, ⟨-(6/5), -(43/5), -2⟩, ⟨-(6/5), -(43/5), 6⟩) by norm_num [nextPortal, Vec3.dot, Vec3.cross]]
    unfold refine
    rw [show portalNormal (⟨12/5, 11/5, -2⟩ : Vec3 ℝ) ⟨-(6/5), -(43/5), -2⟩ ⟨-(6/5), -(43/5), 6⟩ = ⟨-(432/5), 144/5, 0⟩ by
      unfold portalNormal; ext <;> norm_num [Vec3.cross], if_neg (by norm_num [Vec3.dot]), s5,
      Xeno.refinedToMiss_false (by norm_num) (by norm_num [Vec3.dot]) (by norm_num [Vec3.dot]) (by norm_num [Vec3.norm2, Vec3.dot])]
    rw [if_neg (by simp)]
    rw [show nextPortal (⟨6, -5, 2⟩ : Vec3 ℝ) ⟨12/5, 11/5, -2⟩ ⟨-(6/5), -(43/5), -2⟩ ⟨-(6/5), -(43/5), 6⟩ ⟨-(6/5), -(13/5), 2⟩
        = (⟨-(6/5), -(13/5), 2⟩, ⟨-(6/5), -(43/5), -2⟩, ⟨-(6/5), -(43/5), 6⟩) by norm_num [nextPortal, Vec3.dot, Vec3.cross]]
    unfold refine
    rw [show portalNormal (⟨-(6/5), -(13/5), 2⟩ : Vec3 ℝ) ⟨-(6/5), -(43/5), -2⟩ ⟨-(6/5), -(43/5), 6⟩ = ⟨-48, 0, 0⟩ by
      unfold portalNormal; ext <;> norm_num [Vec3.cross], if_pos (by norm_num [Vec3.dot])]
  · -- separated along the second axis of the first cuboid
    rintro a b ⟨p, hp, rfl⟩ ⟨q, hq, rfl⟩
    rw [Mat3.one_mulVec]
    obtain ⟨p1, p2, p3⟩ := hp
    obtain ⟨q1, q2, q3⟩ := hq
    have hk : ((q + ⟨6, -5, 2⟩ - (tilt.mulVec p + 0)).dot ⟨-(4/5), 3/5, 0⟩) ≤ -(3/5) := by
      simp only [tilt, Mat3.mulVec, Vec3.dot, Vec3.add_x, Vec3.add_y, Vec3.add_z, Vec3.sub_x, Vec3.sub_y, Vec3.sub_z, Vec3.zero_x, Vec3.zero_y,
        Vec3.zero_z]
      have := (abs_le.mp q1).1
      have := (abs_le.mp q2).2
      have := (abs_le.mp p2).1
      simp only at *
      linarith
    have hcs := Vec3.abs_dot_le (q + ⟨6, -5, 2⟩ - (tilt.mulVec p + 0)) ⟨-(4/5), 3/5, 0⟩
    have hu : (⟨-(4/5), 3/5, 0⟩ : Vec3 ℝ).norm = 1 := by
      rw [Vec3.norm, show (⟨-(4/5), 3/5, 0⟩ : Vec3 ℝ).norm2 = 1 by norm_num [Vec3.norm2, Vec3.dot], Real.sqrt_one]
    rw [hu, mul_one] at hcs
    rw [← Vec3.norm_sq]
    have := (abs_le.mp hcs).1
    nlinarith

/-! ### Radii -/

theorem XC.sphere_ok {r : ℝ} (hr : 0 < r) : sphere r = .ok ⟨fun n => r • normalized n, 0, r, r⟩ := by
  simp [sphere, Outcome.require, hr]

theorem XC.sum_two {e1 e2 : Entry} {B1 B2 : Vec3 ℝ → Prop} {p : Vec3 ℝ} (h : SumBody (placedAll [e1, e2] [B1, B2]) p) :
    ∃ a b, Placed B1 e1.rot e1.pos a ∧ Placed B2 e2.rot e2.pos b ∧ p = a + b := by
  obtain ⟨a, b, ha, ⟨c, d, hc, hd, rfl⟩, rfl⟩ := h
  rw [show d = 0 from hd]
  exact ⟨a, c, ha, hc, by rw [add_zero]⟩

/-- Half a turn about the z axis. -/
def XC.halfTurn : Mat3 := ⟨⟨-1, 0, 0⟩, ⟨0, -1, 0⟩, ⟨0, 0, 1⟩⟩

theorem XC.halfTurn_orthogonal : Orthogonal halfTurn := by
  unfold Orthogonal halfTurn
  rw [Mat3.mul_def, Mat3.one_def]
  simp [Mat3.mul, Mat3.one, Mat3.transpose, Mat3.c0, Mat3.c1, Mat3.c2, Vec3.dot]

theorem XC.one_orthogonal : Orthogonal (1 : Mat3) := by
  unfold Orthogonal
  rw [Mat3.mul_def, Mat3.one_def]
  simp [Mat3.mul, Mat3.one, Mat3.transpose, Mat3.c0, Mat3.c1, Mat3.c2, Vec3.dot]

theorem XC.one_placed {B : Vec3 ℝ → Prop} {p : Vec3 ℝ} : Placed B 1 0 p ↔ B p := by
  constructor
  · rintro ⟨q, hq, rfl⟩; rwa [Mat3.one_mulVec, add_zero]
  · intro h; exact ⟨p, h, by rw [Mat3.one_mulVec, add_zero]⟩

/-- A ball of radius 3 added to the point (5, 0, 0) is said to have a ball of radius 3 about the origin inside, although even the
origin is outside; so the overlap test says yes for two such shapes which are 4 apart. -/
theorem C75_sum_violated : ∃ g3 g : XCGeometry, sphere 3 = .ok g3 ∧ g = XC.sum [⟨point ⟨5, 0, 0⟩, 0, 1⟩, ⟨g3, 0, 1⟩] ∧ g.insphereRadius = 3 ∧
    ¬ SumBody (placedAll [⟨point ⟨5, 0, 0⟩, 0, 1⟩, ⟨g3, 0, 1⟩] [PointBody ⟨5, 0, 0⟩, ClosedBall 3]) 0 ∧
    ∃ rot, Orthogonal rot ∧ (∀ fuel, overlapBetween fuel g g 0 1 ⟨0, 0, 5⟩ rot 0 = .ok true) ∧
      FarApart (Placed (SumBody (placedAll [⟨point ⟨5, 0, 0⟩, 0, 1⟩, ⟨g3, 0, 1⟩] [PointBody ⟨5, 0, 0⟩, ClosedBall 3])) 1 0)
        (Placed (SumBody (placedAll [⟨point ⟨5, 0, 0⟩, 0, 1⟩, ⟨g3, 0, 1⟩] [PointBody ⟨5, 0, 0⟩, ClosedBall 3])) rot ⟨0, 0, 5⟩) 4 := by
  have hz : (0 : Vec3 ℝ).norm = 0 := by simp [Vec3.norm, Vec3.norm2, Vec3.dot]
  have hin : (XC.sum [⟨point ⟨5, 0, 0⟩, 0, 1⟩, ⟨⟨fun n => (3 : ℝ) • normalized n, 0, 3, 3⟩, 0, 1⟩]).insphereRadius = 3 := by
    simp [XC.sum, point, hz]
  have hcirc : (XC.sum [⟨point ⟨5, 0, 0⟩, 0, 1⟩, ⟨⟨fun n => (3 : ℝ) • normalized n, 0, 3, 3⟩, 0, 1⟩]).circumsphereRadius = 3 := by
    simp [XC.sum, point, hz]
  have hbody : ∀ (g3 : XCGeometry) (p : Vec3 ℝ), SumBody (placedAll [⟨point ⟨5, 0, 0⟩, 0, 1⟩, ⟨g3, 0, 1⟩] [PointBody ⟨5, 0, 0⟩, ClosedBall 3]) p →
      (p - ⟨5, 0, 0⟩).norm ≤ 3 := by
    intro g3 p hp
    obtain ⟨a, b, ha, hb, rfl⟩ := sum_two hp
    have ha : PointBody ⟨5, 0, 0⟩ a := one_placed.mp ha
    have hb : b.norm2 ≤ 3 ^ 2 := one_placed.mp hb
    rw [show a = ⟨5, 0, 0⟩ from ha, add_sub_cancel_left]
    exact norm_le_of (by norm_num) hb
  refine ⟨_, _, sphere_ok (by norm_num), rfl, hin, ?_, halfTurn, halfTurn_orthogonal, ?_, ?_⟩
  · intro h
    have := norm2_le_of (hbody _ _ h)
    norm_num [Vec3.norm2, Vec3.dot] at this
  · intro fuel
    unfold overlapBetween
    rw [hin, hcirc, if_neg (by norm_num [Vec3.norm2, Vec3.dot]), if_pos (by norm_num [Vec3.norm2, Vec3.dot])]
  · rintro a b ha ⟨q, hq, rfl⟩
    have ha := hbody _ _ (one_placed.mp ha)
    have hq := norm2_le_of (hbody _ _ hq)
    have ha2 := norm2_le_of ha
    rw [norm2_eq] at ha2 hq ⊢
    simp only [halfTurn, Mat3.mulVec, Vec3.dot, Vec3.add_x, Vec3.add_y, Vec3.add_z, Vec3.sub_x, Vec3.sub_y, Vec3.sub_z] at *
    have h1 : 2 ≤ a.x := by nlinarith [sq_nonneg a.y, sq_nonneg a.z, sq_nonneg (a.y - 0), sq_nonneg (a.z - 0)]
    have h2 : 2 ≤ q.x := by nlinarith [sq_nonneg (q.y - 0), sq_nonneg (q.z - 0)]
    nlinarith [sq_nonneg (-1 * q.x + 0 * q.y + 0 * q.z + 0 - a.x), sq_nonneg (0 * q.x + -1 * q.y + 0 * q.z + 0 - a.y),
      sq_nonneg (0 * q.x + 0 * q.y + 1 * q.z + 5 - a.z)]

/-- The hull of two unit balls at (5, 0, 0) is said to have the unit ball about the origin inside. -/
theorem C75_hull_violated : ∃ g1 : XCGeometry, sphere 1 = .ok g1 ∧ Describes g1 (ClosedBall 1) ∧ (hull ⟨g1, ⟨5, 0, 0⟩, 1⟩ [⟨g1, ⟨5, 0, 0⟩, 1⟩]).insphereRadius = 1 ∧
    ¬ HullBody (placedAll [⟨g1, ⟨5, 0, 0⟩, 1⟩, ⟨g1, ⟨5, 0, 0⟩, 1⟩] [ClosedBall 1, ClosedBall 1]) 0 := by
  have hz : (0 : Vec3 ℝ).norm = 0 := by simp [Vec3.norm, Vec3.norm2, Vec3.dot]
  refine ⟨_, sphere_ok (by norm_num), (C75_sphere (sphere_ok (by norm_num))).1, ?_, ?_⟩
  · show insphereRadius2 _ _ = 1
    simp [insphereRadius2, hz]
  · intro h
    have := h ⟨-1, 0, 0⟩ (-4) ?_
    · norm_num [Vec3.dot] at this
    · intro B hB q hq
      have hB : B = Placed (ClosedBall 1) 1 ⟨5, 0, 0⟩ := by
        simp only [placedAll, List.zipWith_cons_cons, List.zipWith_nil_left, List.mem_cons, List.not_mem_nil, or_false, or_self] at hB
        exact hB
      subst hB
      obtain ⟨r, hr, rfl⟩ := hq
      have hr : r.norm2 ≤ 1 ^ 2 := hr
      rw [norm2_eq] at hr
      rw [Mat3.one_mulVec]
      simp only [Vec3.dot, Vec3.add_x, Vec3.add_y, Vec3.add_z]
      nlinarith [sq_nonneg r.y, sq_nonneg r.z]

/-- The corners of an octahedron. -/
def XC.octahedron : List (Vec3 ℝ) := [⟨3, 0, 0⟩, ⟨-3, 0, 0⟩, ⟨0, 3, 0⟩, ⟨0, -3, 0⟩, ⟨0, 0, 3⟩, ⟨0, 0, -3⟩]

/-- The hull of points away from the origin is given the range zero: two octahedra with the corners 3 away from their centres
are said not to overlap although the centres are only 1 apart, and every plane cuts at least 1 deep. -/
theorem C75_points_violated : ∃ g : XCGeometry, g = hull ⟨point ⟨3, 0, 0⟩, 0, 1⟩ (octahedron.tail.map fun c => ⟨point c, 0, 1⟩) ∧
    rangeRadius [g] = 0 ∧ (∀ fuel, overlapBetween fuel g g 0 1 ⟨1, 0, 0⟩ 1 0 = .ok false) ∧
    ¬ ApartBut (HullBody (octahedron.map PointBody)) (Placed (HullBody (octahedron.map PointBody)) 1 ⟨1, 0, 0⟩) 1 := by
  have hz : (0 : Vec3 ℝ).norm = 0 := by simp [Vec3.norm, Vec3.norm2, Vec3.dot]
  have hc : (hull ⟨point ⟨3, 0, 0⟩, 0, 1⟩ (octahedron.tail.map fun c => ⟨point c, 0, 1⟩)).circumsphereRadius = 0 := by
    simp [hull, octahedron, Entry.reach, point, hz]
  refine ⟨_, rfl, ?_, ?_, ?_⟩
  · simp only [rangeRadius, List.map_cons, List.map_nil, hc, List.foldl_cons, List.foldl_nil, max_self, mul_zero]
  · intro fuel
    unfold overlapBetween
    rw [hc, if_pos (by norm_num [Vec3.norm2, Vec3.dot])]
  · rintro ⟨n, hn, h⟩
    have hin : ∀ c ∈ octahedron, HullBody (octahedron.map PointBody) c := fun c hc => hull_mem (List.mem_map_of_mem hc) rfl
    have key : ∀ c d : Vec3 ℝ, c ∈ octahedron → d ∈ octahedron → (d + ⟨1, 0, 0⟩ - c).dot n ≤ 1 := by
      intro c d hc hd
      refine h c (d + ⟨1, 0, 0⟩) (hin c hc) ⟨d, hin d hd, by rw [Mat3.one_mulVec]⟩
    rw [norm2_eq] at hn
    have h1 := key ⟨3, 0, 0⟩ ⟨-3, 0, 0⟩ (by simp [octahedron]) (by simp [octahedron])
    have h2 := key ⟨-3, 0, 0⟩ ⟨3, 0, 0⟩ (by simp [octahedron]) (by simp [octahedron])
    have h3 := key ⟨0, 3, 0⟩ ⟨0, -3, 0⟩ (by simp [octahedron]) (by simp [octahedron])
    have h4 := key ⟨0, -3, 0⟩ ⟨0, 3, 0⟩ (by simp [octahedron]) (by simp [octahedron])
    have h5 := key ⟨0, 0, 3⟩ ⟨0, 0, -3⟩ (by simp [octahedron]) (by simp [octahedron])
    have h6 := key ⟨0, 0, -3⟩ ⟨0, 0, 3⟩ (by simp [octahedron]) (by simp [octahedron])
    simp only [Vec3.dot, Vec3.add_x, Vec3.add_y, Vec3.add_z, Vec3.sub_x, Vec3.sub_y, Vec3.sub_z] at h1 h2 h3 h4 h5 h6
    have hx : |n.x| ≤ 1 / 5 := abs_le.mpr ⟨by linarith, by linarith⟩
    have hy : |n.y| ≤ 1 / 5 := abs_le.mpr ⟨by linarith [(abs_le.mp hx).1], by linarith [(abs_le.mp hx).1]⟩
    have hz' : |n.z| ≤ 1 / 5 := abs_le.mpr ⟨by linarith [(abs_le.mp hx).1], by linarith [(abs_le.mp hx).1]⟩
    have := abs_sq_le hx
    have := abs_sq_le hy
    have := abs_sq_le hz'
    linarith

/-! ### Tests which meet the hypotheses -/

/-- A spherocylinder as the sum of a segment and a ball, and as the hull of two balls. -/
example : ∃ gs gb : XCGeometry, segment 2 = .ok gs ∧ sphere 1 = .ok gb ∧
    Describes (XC.sum [⟨gs, 0, 1⟩, ⟨gb, 0, 1⟩]) (SumBody (placedAll [⟨gs, 0, 1⟩, ⟨gb, 0, 1⟩] [SegmentBody 2, ClosedBall 1])) ∧
    Describes (hull ⟨gb, ⟨0, 0, -2⟩, 1⟩ [⟨gb, ⟨0, 0, 2⟩, 1⟩])
      (HullBody (placedAll [⟨gb, ⟨0, 0, -2⟩, 1⟩, ⟨gb, ⟨0, 0, 2⟩, 1⟩] [ClosedBall 1, ClosedBall 1])) ∧
    Describes (XC.diff ⟨gs, 0, 1⟩ ⟨gb, ⟨0, 0, 2⟩, 1⟩) (DifferenceBody (Placed (SegmentBody 2) 1 0) (Placed (ClosedBall 1) 1 ⟨0, 0, 2⟩)) := by
  have hs : segment 2 = .ok ⟨fun n => ⟨0, 0, signed n.z 2⟩, 0, 2, 0⟩ := by simp [segment, Outcome.require]
  have hb := sphere_ok (r := 1) (by norm_num)
  have ds := C75_segment hs
  have db := C75_sphere hb
  refine ⟨_, _, hs, hb, C75_sum_partial (.cons ⟨ds.1, one_orthogonal⟩ (.cons ⟨db.1, one_orthogonal⟩ .nil)) ?_,
    C75_hull_partial (.cons ⟨db.1, one_orthogonal⟩ (.cons ⟨db.1, one_orthogonal⟩ .nil)) ?_ ?_,
    C75_difference_partial ds.1 db.1 one_orthogonal one_orthogonal ds.2 db.2⟩
  · intro B hB
    rcases List.mem_cons.mp hB with rfl | hB
    · exact ds.2
    · rw [List.mem_singleton.mp hB]; exact db.2
  · intro B hB
    rcases List.mem_cons.mp hB with rfl | hB
    · exact db.2
    · rw [List.mem_singleton.mp hB]; exact db.2
  · intro e' he'
    simp only [List.cons.injEq, and_true] at he'
    subst he'
    intro h
    exfalso
    have : (⟨0, 0, 2⟩ - ⟨0, 0, -2⟩ : Vec3 ℝ).norm = 4 := by
      rw [Vec3.norm, show (⟨0, 0, 2⟩ - ⟨0, 0, -2⟩ : Vec3 ℝ).norm2 = 4 ^ 2 by norm_num [Vec3.norm2, Vec3.dot], Real.sqrt_sq (by norm_num)]
    rw [this] at h
    norm_num at h

/-- Two unit cubes: moved by (3, 1/2, 1/4) the test says no, and moved by (1, 1/2, 1/4) it says yes without a tie. -/
theorem XC.cubes_demo : ∃ g : XCGeometry, cuboid ⟨1, 1, 1⟩ = .ok g ∧
    intersect 8 ⟨g, 0, 1⟩ ⟨g, ⟨3, 1/2, 1/4⟩, 1⟩ (1 / 10 ^ 12) = .ok false ∧
    intersect 8 ⟨g, 0, 1⟩ ⟨g, ⟨1, 1/2, 1/4⟩, 1⟩ (1 / 10 ^ 12) = .ok true ∧ ¬ Ties 8 ⟨g, 0, 1⟩ ⟨g, ⟨1, 1/2, 1/4⟩, 1⟩ (1 / 10 ^ 12) := by
  refine ⟨_, cuboid_ok (by norm_num) (by norm_num) (by norm_num), ?_, ?_⟩
  · unfold intersect
    generalize hsup : differenceSupport _ _ = sup
    have hS : ∀ n : Vec3 ℝ, sup n = ⟨signed n.x 1 - signed (-n.x) 1 + 3, signed n.y 1 - signed (-n.y) 1 + 1/2, signed n.z 1 - signed (-n.z) 1 + 1/4⟩ := by
      intro n; rw [← hsup]; exact cubes_difference _ _ _ _ _ n
    have hc : Entry.center ⟨⟨fun n => ⟨signed n.x 1, signed n.y 1, signed n.z 1⟩, 0, (⟨1, 1, 1⟩ : Vec3 ℝ).norm, min (min 1 1) 1⟩, ⟨3, 1/2, 1/4⟩, 1⟩
        - Entry.center ⟨⟨fun n => ⟨signed n.x 1, signed n.y 1, signed n.z 1⟩, 0, (⟨1, 1, 1⟩ : Vec3 ℝ).norm, min (min 1 1) 1⟩, 0, 1⟩ = ⟨3, 1/2, 1/4⟩ := by
      simp only [Entry.center, Mat3.mulVec_zero]; ext <;> norm_num
    have s1 : sup ⟨-3, -(1/2), -(1/4)⟩ = ⟨1, -(3/2), -(7/4)⟩ := by
      rw [hS]; ext <;> norm_num [signed]
    rw [hc]
    unfold search
    rw [if_neg (by norm_num [isVectorZero, ZERO]), show -(⟨3, 1/2, 1/4⟩ : Vec3 ℝ) = ⟨-3, -(1/2), -(1/4)⟩ by ext <;> norm_num, s1,
      if_pos (by norm_num [Vec3.dot])]
  · unfold Ties intersect
    generalize hsup : differenceSupport _ _ = sup
    have hS : ∀ n : Vec3 ℝ, sup n = ⟨signed n.x 1 - signed (-n.x) 1 + 1, signed n.y 1 - signed (-n.y) 1 + 1/2, signed n.z 1 - signed (-n.z) 1 + 1/4⟩ := by
      intro n; rw [← hsup]; exact cubes_difference _ _ _ _ _ n
    have hc : Entry.center ⟨⟨fun n => ⟨signed n.x 1, signed n.y 1, signed n.z 1⟩, 0, (⟨1, 1, 1⟩ : Vec3 ℝ).norm, min (min 1 1) 1⟩, ⟨1, 1/2, 1/4⟩, 1⟩
        - Entry.center ⟨⟨fun n => ⟨signed n.x 1, signed n.y 1, signed n.z 1⟩, 0, (⟨1, 1, 1⟩ : Vec3 ℝ).norm, min (min 1 1) 1⟩, 0, 1⟩ = ⟨1, 1/2, 1/4⟩ := by
      simp only [Entry.center, Mat3.mulVec_zero]; ext <;> norm_num
    have s1 : sup ⟨-1, -(1/2), -(1/4)⟩ = ⟨-1, -(3/2), -(7/4)⟩ := by
      rw [hS]; ext <;> norm_num [signed]
    have s2 : sup ⟨1/2, -(3/2), 1⟩ = ⟨3, -(3/2), 9/4⟩ := by
      rw [hS]; ext <;> norm_num [signed]
    have s3 : sup ⟨-8, 0, 8⟩ = ⟨-1, 1/2, 9/4⟩ := by
      rw [hS]; ext <;> norm_num [signed]
    have s4 : sup ⟨-4, 8, -4⟩ = ⟨-1, 5/2, -(7/4)⟩ := by
      rw [hS]; ext <;> norm_num [signed]
    have n0 : -(⟨1, 1/2, 1/4⟩ : Vec3 ℝ) = ⟨-1, -(1/2), -(1/4)⟩ := by ext <;> norm_num
    have n1 : (⟨-1, -(3/2), -(7/4)⟩ : Vec3 ℝ).cross ⟨1, 1/2, 1/4⟩ = ⟨1/2, -(3/2), 1⟩ := by ext <;> norm_num [Vec3.cross]
    have n2 : ((⟨-1, -(3/2), -(7/4)⟩ : Vec3 ℝ) - ⟨1, 1/2, 1/4⟩).cross (⟨3, -(3/2), 9/4⟩ - ⟨1, 1/2, 1/4⟩) = ⟨-8, 0, 8⟩ := by ext <;> norm_num [Vec3.cross]
    have n3 : ((⟨-1, -(3/2), -(7/4)⟩ : Vec3 ℝ) - ⟨1, 1/2, 1/4⟩).cross (⟨-1, 1/2, 9/4⟩ - ⟨1, 1/2, 1/4⟩) = ⟨-4, 8, -4⟩ := by ext <;> norm_num [Vec3.cross]
    have n4 : portalNormal (⟨-1, -(3/2), -(7/4)⟩ : Vec3 ℝ) ⟨-1, 1/2, 9/4⟩ ⟨-1, 5/2, -(7/4)⟩ = ⟨-16, 0, 0⟩ := by
      unfold portalNormal; ext <;> norm_num [Vec3.cross]
    have c1 : ((⟨-1, -(3/2), -(7/4)⟩ : Vec3 ℝ).cross ⟨-1, 1/2, 9/4⟩).dot ⟨1, 1/2, 1/4⟩ < 0 := by norm_num [Vec3.dot, Vec3.cross]
    have c2 : ¬ ((⟨-1, -(3/2), -(7/4)⟩ : Vec3 ℝ).cross ⟨-1, 5/2, -(7/4)⟩).dot ⟨1, 1/2, 1/4⟩ < 0 := by norm_num [Vec3.dot, Vec3.cross]
    have c3 : ¬ ((⟨-1, 5/2, -(7/4)⟩ : Vec3 ℝ).cross ⟨-1, 1/2, 9/4⟩).dot ⟨1, 1/2, 1/4⟩ < 0 := by norm_num [Vec3.dot, Vec3.cross]
    have c4 : (⟨-16, 0, 0⟩ : Vec3 ℝ).dot ⟨-1, -(3/2), -(7/4)⟩ ≥ 0 := by norm_num [Vec3.dot]
    rw [hc]
    constructor
    · unfold search
      rw [if_neg (by norm_num [isVectorZero, ZERO]), n0, s1, if_neg (by norm_num [Vec3.dot])]
      unfold fromTwo
      rw [n1, s2, if_neg (by norm_num [isVectorZero, ZERO]), if_neg (by norm_num [Vec3.dot])]
      unfold fromThree
      rw [n2, if_neg (by norm_num [Vec3.dot])]
      unfold findPortal
      rw [s3, if_neg (by norm_num [Vec3.dot]), if_pos c1, n3]
      unfold findPortal
      rw [s4, if_neg (by norm_num [Vec3.dot]), if_neg c2, if_neg c3]
      unfold refine
      rw [n4, if_pos c4]
    · simp only [n0, s1, n1, s2, n2]
      unfold PortalTies
      rw [s3, if_pos c1, n3]
      unfold PortalTies
      rw [s4, if_neg c2, if_neg c3]
      unfold RefineTies
      rw [n4]
      exact fun h => h.1 c4

end Rampack
