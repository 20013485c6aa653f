import Verif.Shapes.HardSpec
import Verif.Geometry.SegmentProps
import Verif.Packing.Demo
import Verif.Packing.UpscaleProps
import Verif.OutcomeLemmas
/-
Lemmas on balls and spherocylinders as sets of points.
-/
namespace Rampack

open Spec Shapes

theorem norm2_smul (k : ℝ) (v : Vec3 ℝ) : (k • v).norm2 = k ^ 2 * v.norm2 := by
  simp only [Vec3.norm2, Vec3.dot, Vec3.smul_x, Vec3.smul_y, Vec3.smul_z]; ring

theorem norm2_neg (v : Vec3 ℝ) : (-v).norm2 = v.norm2 := by
  simp only [Vec3.norm2, Vec3.dot, Vec3.neg_x, Vec3.neg_y, Vec3.neg_z]; ring

theorem norm2_sub_comm (v w : Vec3 ℝ) : (v - w).norm2 = (w - v).norm2 := by
  simp only [Vec3.norm2, Vec3.dot, Vec3.sub_x, Vec3.sub_y, Vec3.sub_z]; ring

theorem norm_lt_iff {v : Vec3 ℝ} {r : ℝ} (hr : 0 < r) : v.norm < r ↔ v.norm2 < r ^ 2 := Real.sqrt_lt' hr

theorem norm_le_iff {v : Vec3 ℝ} {r : ℝ} (hr : 0 ≤ r) : v.norm ≤ r ↔ v.norm2 ≤ r ^ 2 := Real.sqrt_le_left hr

theorem meet_balls {c1 c2 : Vec3 ℝ} {r1 r2 : ℝ} (h1 : 0 < r1) (h2 : 0 < r2) : Meet (Ball c1 r1) (Ball c2 r2) ↔ (c2 - c1).norm2 < (r1 + r2) ^ 2 := by
  constructor
  · rintro ⟨p, hp1, hp2⟩
    have k1 := (norm_lt_iff h1).mpr hp1
    have k2 := (norm_lt_iff h2).mpr hp2
    have e : c2 - c1 = (p - c1) + -(p - c2) := by
      ext
      all_goals
        simp only [Vec3.add_x, Vec3.add_y, Vec3.add_z, Vec3.sub_x, Vec3.sub_y, Vec3.sub_z, Vec3.neg_x, Vec3.neg_y, Vec3.neg_z]
        ring
    have k3 := Domain.norm_add_le' (p - c1) (-(p - c2))
    rw [← e] at k3
    have k4 : (-(p - c2)).norm = (p - c2).norm := by unfold Vec3.norm; rw [norm2_neg]
    exact (norm_lt_iff (by linarith)).mp (by linarith)
  · intro h
    have hs : 0 < r1 + r2 := by linarith
    refine ⟨c1 + (r1 / (r1 + r2)) • (c2 - c1), ?_, ?_⟩
    · show (c1 + (r1 / (r1 + r2)) • (c2 - c1) - c1).norm2 < r1 ^ 2
      have e : c1 + (r1 / (r1 + r2)) • (c2 - c1) - c1 = (r1 / (r1 + r2)) • (c2 - c1) := by
        ext
        all_goals
          simp only [Vec3.add_x, Vec3.add_y, Vec3.add_z, Vec3.sub_x, Vec3.sub_y, Vec3.sub_z]
          ring
      rw [e, norm2_smul]
      have := mul_lt_mul_of_pos_left h (show 0 < (r1 / (r1 + r2)) ^ 2 by positivity)
      rwa [← mul_pow, div_mul_cancel₀ _ hs.ne'] at this
    · show (c1 + (r1 / (r1 + r2)) • (c2 - c1) - c2).norm2 < r2 ^ 2
      have e : c1 + (r1 / (r1 + r2)) • (c2 - c1) - c2 = (-(r2 / (r1 + r2))) • (c2 - c1) := by
        have h1 : r1 / (r1 + r2) = 1 - r2 / (r1 + r2) := by field_simp; ring
        ext
        all_goals
          simp only [Vec3.add_x, Vec3.add_y, Vec3.add_z, Vec3.sub_x, Vec3.sub_y, Vec3.sub_z, Vec3.smul_x, Vec3.smul_y, Vec3.smul_z, h1]
          ring
      rw [e, norm2_smul, neg_pow_two]
      have := mul_lt_mul_of_pos_left h (show 0 < (r2 / (r1 + r2)) ^ 2 by positivity)
      rwa [← mul_pow, div_mul_cancel₀ _ hs.ne'] at this

theorem meet_capsules {a b c d : Vec3 ℝ} {r1 r2 : ℝ} (h1 : 0 < r1) (h2 : 0 < r2) :
    Meet (Capsule a b r1) (Capsule c d r2) ↔ ∃ p q, OnSegment a b p ∧ OnSegment c d q ∧ (q - p).norm2 < (r1 + r2) ^ 2 := by
  constructor
  · rintro ⟨x, ⟨p, hp, hpx⟩, ⟨q, hq, hqx⟩⟩
    exact ⟨p, q, hp, hq, (meet_balls h1 h2).mp ⟨x, hpx, hqx⟩⟩
  · rintro ⟨p, q, hp, hq, h⟩
    obtain ⟨x, h3, h4⟩ := (meet_balls h1 h2).mpr h
    exact ⟨x, ⟨p, hp, h3⟩, ⟨q, hq, h4⟩⟩

theorem dot_comm' (a b : Vec3 ℝ) : a.dot b = b.dot a := by simp only [Vec3.dot]; ring

theorem behind_ball {o n c : Vec3 ℝ} {r : ℝ} (hn : n.norm2 = 1) (hr : 0 < r) : BehindWall o n (Ball c r) ↔ (c - o).dot n < r := by
  constructor
  · rintro ⟨p, hp, h⟩
    have k1 := (norm_lt_iff hr).mpr hp
    have k2 := Vec3.abs_dot_le (p - c) n
    have k3 : n.norm = 1 := by unfold Vec3.norm; rw [hn, Real.sqrt_one]
    rw [k3, mul_one] at k2
    have k4 := (abs_le.mp k2).1
    have e : (p - o).dot n = (c - o).dot n + (p - c).dot n := by simp only [Vec3.dot, Vec3.sub_x, Vec3.sub_y, Vec3.sub_z]; ring
    linarith
  · intro h
    obtain ⟨x, hx⟩ : ∃ x, x = (c - o).dot n := ⟨_, rfl⟩
    rw [← hx] at h
    obtain ⟨k, hk1, hk2, hk3⟩ : ∃ k, 0 < k ∧ k < r ∧ x < k := by
      rcases le_or_gt x 0 with h0 | h0
      · exact ⟨r / 2, by linarith, by linarith, by linarith⟩
      · exact ⟨(x + r) / 2, by linarith, by linarith, by linarith⟩
    refine ⟨c - k • n, ?_, ?_⟩
    · show (c - k • n - c).norm2 < r ^ 2
      have e : c - k • n - c = (-k) • n := by
        ext
        all_goals
          simp only [Vec3.sub_x, Vec3.sub_y, Vec3.sub_z, Vec3.smul_x, Vec3.smul_y, Vec3.smul_z]
          ring
      rw [e, norm2_smul, hn]
      nlinarith
    · have e : (c - k • n - o).dot n = (c - o).dot n - k * n.norm2 := by
        simp only [Vec3.norm2, Vec3.dot, Vec3.sub_x, Vec3.sub_y, Vec3.sub_z, Vec3.smul_x, Vec3.smul_y, Vec3.smul_z]; ring
      rw [e, hn, ← hx]
      linarith

theorem behind_capsule {o n a b : Vec3 ℝ} {r : ℝ} (hn : n.norm2 = 1) (hr : 0 < r) : BehindWall o n (Capsule a b r) ↔ (a - o).dot n < r ∨ (b - o).dot n < r := by
  constructor
  · rintro ⟨p, ⟨q, ⟨s, hs0, hs1, rfl⟩, hq⟩, h⟩
    have k := (behind_ball hn hr).mp ⟨p, hq, h⟩
    have e : (a + s • (b - a) - o).dot n = (1 - s) * (a - o).dot n + s * (b - o).dot n := by
      simp only [Vec3.dot, Vec3.sub_x, Vec3.sub_y, Vec3.sub_z, Vec3.add_x, Vec3.add_y, Vec3.add_z, Vec3.smul_x, Vec3.smul_y, Vec3.smul_z]; ring
    rw [e] at k
    by_contra hc
    push Not at hc
    nlinarith [mul_le_mul_of_nonneg_left hc.1 (show 0 ≤ 1 - s by linarith), mul_le_mul_of_nonneg_left hc.2 hs0]
  · rintro (h | h)
    · obtain ⟨p, hp, hp2⟩ := (behind_ball hn hr).mpr h
      refine ⟨p, ⟨a, ⟨0, le_rfl, by norm_num, ?_⟩, hp⟩, hp2⟩
      ext <;> simp
    · obtain ⟨p, hp, hp2⟩ := (behind_ball hn hr).mpr h
      refine ⟨p, ⟨b, ⟨1, by norm_num, le_rfl, ?_⟩, hp⟩, hp2⟩
      ext <;> simp

/-! Largest elements -/

theorem le_maxBy {α : Type} (f : α → ℝ) (l : List α) : ∀ x, f x ≤ f (maxBy f x l) ∧ ∀ y ∈ l, f y ≤ f (maxBy f x l) := by
  induction l with
  | nil => intro x; exact ⟨le_rfl, by simp⟩
  | cons z l ih =>
    intro x
    obtain ⟨h1, h2⟩ := ih (if f x < f z then z else x)
    have h3 : f x ≤ f (if f x < f z then z else x) ∧ f z ≤ f (if f x < f z then z else x) := by
      split
      next h => exact ⟨h.le, le_rfl⟩
      next h => exact ⟨le_rfl, not_lt.mp h⟩
    refine ⟨h3.1.trans h1, fun y hy => ?_⟩
    rcases List.mem_cons.mp hy with rfl | hy
    · exact h3.2.trans h1
    · exact h2 y hy

theorem maxBy_mem {α : Type} (f : α → ℝ) (l : List α) : ∀ x, maxBy f x l ∈ x :: l := by
  induction l with
  | nil => intro x; simp [maxBy]
  | cons z l ih =>
    intro x
    have h := ih (if f x < f z then z else x)
    rw [maxBy]
    rcases List.mem_cons.mp h with h | h
    · rw [h]
      split <;> simp
    · exact List.mem_cons_of_mem _ (List.mem_cons_of_mem _ h)

/-! Total range -/

theorem foldl_max {l : List (Vec3 ℝ)} : ∀ m : ℝ, m ≤ l.foldl (fun m c => if c.norm2 > m then c.norm2 else m) m ∧ ∀ c ∈ l, c.norm2 ≤ l.foldl (fun m c => if c.norm2 > m then c.norm2 else m) m := by
  induction l with
  | nil => intro m; exact ⟨le_rfl, by simp⟩
  | cons z l ih =>
    intro m
    obtain ⟨h1, h2⟩ := ih (if z.norm2 > m then z.norm2 else m)
    have h3 : m ≤ (if z.norm2 > m then z.norm2 else m) ∧ z.norm2 ≤ (if z.norm2 > m then z.norm2 else m) := by
      split
      next h => exact ⟨h.le, le_rfl⟩
      next h => exact ⟨le_rfl, not_lt.mp h⟩
    refine ⟨h3.1.trans h1, fun y hy => ?_⟩
    rcases List.mem_cons.mp hy with rfl | hy
    · exact h3.2.trans h1
    · exact h2 y hy

theorem totalRange_ge {cs : List (Vec3 ℝ)} {r : ℝ} : r ≤ Interaction.totalRangeRadius cs r ∧ ∀ c ∈ cs, r + 2 * c.norm ≤ Interaction.totalRangeRadius cs r := by
  unfold Interaction.totalRangeRadius
  split
  next h => rw [List.isEmpty_iff.mp h]; exact ⟨le_rfl, by simp⟩
  next h =>
    obtain ⟨_, h2⟩ := foldl_max (l := cs) 0
    refine ⟨by linarith [Real.sqrt_nonneg (cs.foldl (fun m c => if c.norm2 > m then c.norm2 else m) 0)], fun c hc => ?_⟩
    have := Real.sqrt_le_sqrt (h2 c hc)
    unfold Vec3.norm
    linarith

/-! Sites of molecules -/

theorem mem_shapeSites {I : Interaction} {s : Shape} {x : Site} (hc : I.centres ≠ []) : x ∈ I.shapeSites s ↔ ∃ k c, I.centres[k]? = some c ∧ x = ⟨s.pos + s.rot.mulVec c, s.rot, k⟩ := by
  unfold Interaction.shapeSites
  rw [if_neg (by simpa using hc), List.mem_map]
  constructor
  · rintro ⟨⟨c, k⟩, h, rfl⟩
    exact ⟨k, c, List.mem_zipIdx_iff_getElem?.mp h, rfl⟩
  · rintro ⟨k, c, h, rfl⟩
    exact ⟨(c, k), List.mem_zipIdx_iff_getElem?.mpr h, rfl⟩

theorem shapeSites_single {I : Interaction} {s : Shape} (hc : I.centres = []) : I.shapeSites s = [⟨s.pos, s.rot, 0⟩] := by
  unfold Interaction.shapeSites
  rw [if_pos (by simp [hc])]

theorem overlapBetweenShapes_iff {I : Interaction} {s1 s2 : Shape} {bc : BC} : I.overlapBetweenShapes s1 s2 bc = true ↔ ∃ x ∈ I.shapeSites s1, ∃ y ∈ I.shapeSites s2, I.overlap x y bc = true := by
  unfold Interaction.overlapBetweenShapes
  simp only [List.any_eq_true]

theorem overlapWithWallForShape_iff {I : Interaction} {s : Shape} {o n : Vec3 ℝ} : I.overlapWithWallForShape s o n = true ↔ ∃ x ∈ I.shapeSites s, I.wall x o n = true := by
  unfold Interaction.overlapWithWallForShape
  simp only [List.any_eq_true]

end Rampack
