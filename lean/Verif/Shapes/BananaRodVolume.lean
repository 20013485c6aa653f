import Verif.Shapes.BananaSector
import Verif.Shapes.BananaRods
/-
The volume of rods on chords of an arc.
-/
namespace Rampack.Banana

open Rampack Spec Shapes Composite Volume MeasureTheory

/-- The component of a point along the circle, and along its radius. -/
noncomputable def along (x0 : ℝ) (p : Vec3 ℝ) (θ : ℝ) : ℝ := (p.x - x0) * Real.sin θ + p.z * Real.cos θ
noncomputable def outward (x0 : ℝ) (p : Vec3 ℝ) (θ : ℝ) : ℝ := -(p.x - x0) * Real.cos θ + p.z * Real.sin θ

/-- The mirror plane between two chords. -/
theorem mirror_square (x0 R θ a s : ℝ) (p : Vec3 ℝ) : (p - (arcPoint x0 R θ + s • (arcPoint x0 R (θ - a) - arcPoint x0 R θ))).norm2 =
    (p - (arcPoint x0 R θ + s • (arcPoint x0 R (θ + a) - arcPoint x0 R θ))).norm2 + 4 * s * R * Real.sin a * along x0 p θ := by
  simp only [arcPoint, along, Vec3.norm2, Vec3.dot, Vec3.sub_x, Vec3.sub_y, Vec3.sub_z, Vec3.add_x, Vec3.add_y, Vec3.add_z, Vec3.smul_x, Vec3.smul_y, Vec3.smul_z, Real.cos_sub, Real.sin_sub, Real.cos_add, Real.sin_add]
  ring

theorem capsule_swap (a b : Vec3 ℝ) (r : ℝ) (p : Vec3 ℝ) : Capsule a b r p ↔ Capsule b a r p := by
  have one : ∀ a b : Vec3 ℝ, Capsule a b r p → Capsule b a r p := by
    rintro a b ⟨_, ⟨s, s0, s1, rfl⟩, h⟩
    refine ⟨_, ⟨1 - s, by linarith, by linarith, rfl⟩, ?_⟩
    rw [show b + (1 - s) • (a - b) = a + s • (b - a) by
      ext <;> simp only [Vec3.sub_x, Vec3.sub_y, Vec3.sub_z, Vec3.add_x, Vec3.add_y, Vec3.add_z, Vec3.smul_x, Vec3.smul_y, Vec3.smul_z] <;> ring]
    exact h
  exact ⟨one a b, one b a⟩

theorem mirror_down {x0 R θ a r : ℝ} (hR : 0 ≤ R) (ha : 0 ≤ Real.sin a) {p : Vec3 ℝ} (hp : along x0 p θ ≤ 0) (h : Capsule (arcPoint x0 R θ) (arcPoint x0 R (θ + a)) r p) : Capsule (arcPoint x0 R (θ - a)) (arcPoint x0 R θ) r p := by
  rw [capsule_swap]
  obtain ⟨_, ⟨s, s0, s1, rfl⟩, h⟩ := h
  refine ⟨_, ⟨s, s0, s1, rfl⟩, ?_⟩
  unfold Ball at h ⊢
  rw [mirror_square]
  have : 0 ≤ 4 * s * R * Real.sin a * -along x0 p θ := mul_nonneg (by positivity) (by linarith)
  linarith

theorem mirror_up {x0 R θ a r : ℝ} (hR : 0 ≤ R) (ha : 0 ≤ Real.sin a) {p : Vec3 ℝ} (hp : 0 ≤ along x0 p θ) (h : Capsule (arcPoint x0 R (θ - a)) (arcPoint x0 R θ) r p) : Capsule (arcPoint x0 R θ) (arcPoint x0 R (θ + a)) r p := by
  rw [capsule_swap] at h
  obtain ⟨_, ⟨s, s0, s1, rfl⟩, h⟩ := h
  refine ⟨_, ⟨s, s0, s1, rfl⟩, ?_⟩
  unfold Ball at h ⊢
  rw [mirror_square] at h
  have : 0 ≤ 4 * s * R * Real.sin a * along x0 p θ := mul_nonneg (by positivity) hp
  linarith

/-- A point of a rod is on the same side of the centre of the arc. -/
theorem outward_pos {x0 R θ h r : ℝ} (hr : 0 < r) (hR : 0 < R) (hD : r ≤ R * Real.cos h) {p : Vec3 ℝ} (hp : Capsule (arcPoint x0 R θ) (arcPoint x0 R (θ + 2 * h)) r p) : 0 < outward x0 p θ ∨ 0 < outward x0 p (θ + 2 * h) := by
  obtain ⟨_, ⟨s, s0, s1, rfl⟩, hb⟩ := hp
  by_contra hno
  rw [not_or, not_lt, not_lt] at hno
  obtain ⟨n1, n2⟩ := hno
  have hsq : (p - (arcPoint x0 R θ + s • (arcPoint x0 R (θ + 2 * h) - arcPoint x0 R θ))).norm2 =
      (p.x - x0) ^ 2 + p.y ^ 2 + p.z ^ 2 - 2 * R * ((1 - s) * outward x0 p θ + s * outward x0 p (θ + 2 * h)) + R ^ 2 * (1 - 4 * s * (1 - s) * Real.sin h ^ 2) := by
    have c2 : Real.cos (2 * h) = 1 - 2 * Real.sin h ^ 2 := by rw [Real.cos_two_mul, Real.cos_sq']; ring
    have e1 : Real.cos θ * Real.cos (θ + 2 * h) + Real.sin θ * Real.sin (θ + 2 * h) = Real.cos (2 * h) := by
      rw [← Real.cos_sub, show θ - (θ + 2 * h) = -(2 * h) by ring, Real.cos_neg]
    have e2 := Real.sin_sq_add_cos_sq θ
    have e3 := Real.sin_sq_add_cos_sq (θ + 2 * h)
    rw [c2] at e1
    simp only [arcPoint, outward, Vec3.norm2, Vec3.dot, Vec3.sub_x, Vec3.sub_y, Vec3.sub_z, Vec3.add_x, Vec3.add_y, Vec3.add_z, Vec3.smul_x, Vec3.smul_y, Vec3.smul_z]
    linear_combination R ^ 2 * (1 - s) ^ 2 * e2 + R ^ 2 * s ^ 2 * e3 + 2 * R ^ 2 * s * (1 - s) * e1
  unfold Ball at hb
  rw [hsq] at hb
  have h1 : r ^ 2 ≤ R ^ 2 * (1 - 4 * s * (1 - s) * Real.sin h ^ 2) := by
    have hc : r ^ 2 ≤ (R * Real.cos h) ^ 2 := by nlinarith
    have hs4 : 4 * s * (1 - s) ≤ 1 := by nlinarith [sq_nonneg (2 * s - 1)]
    have e2 := Real.sin_sq_add_cos_sq h
    have : R ^ 2 * Real.sin h ^ 2 * (4 * s * (1 - s)) ≤ R ^ 2 * Real.sin h ^ 2 * 1 := mul_le_mul_of_nonneg_left hs4 (by positivity)
    nlinarith
  have h2 : (1 - s) * outward x0 p θ + s * outward x0 p (θ + 2 * h) ≤ 0 := by nlinarith
  nlinarith [sq_nonneg (p.x - x0), sq_nonneg p.y, sq_nonneg p.z, mul_nonneg hR.le (neg_nonneg.mpr h2)]

theorem outward_between {x0 a b d : ℝ} (hab : a ≤ b) (hbd : b ≤ d) (h : d - a ≤ Real.pi) {p : Vec3 ℝ} (ha : 0 < outward x0 p a) (hd : 0 < outward x0 p d) : 0 < outward x0 p b := by
  unfold outward at *
  exact arc_between (le_refl 0) hab hbd h ha hd

/-- Sides of planes. -/
theorem along_later {x0 a b : ℝ} (hab : a ≤ b) (hpi : b - a ≤ Real.pi) {p : Vec3 ℝ} (h1 : 0 < outward x0 p a) (h2 : 0 < outward x0 p b) (h : along x0 p a ≤ 0) : along x0 p b ≤ 0 := by
  have s0 : 0 ≤ Real.sin (b - a) := Real.sin_nonneg_of_nonneg_of_le_pi (by linarith) hpi
  have e1 : along x0 p b = Real.cos (b - a) * along x0 p a - Real.sin (b - a) * outward x0 p a := by
    rw [show b = (b - a) + a by ring]
    generalize b - a = d
    simp only [add_sub_cancel_right]
    unfold along outward
    rw [Real.sin_add, Real.cos_add]; ring
  have e2 : outward x0 p b = Real.cos (b - a) * outward x0 p a + Real.sin (b - a) * along x0 p a := by
    rw [show b = (b - a) + a by ring]
    generalize b - a = d
    simp only [add_sub_cancel_right]
    unfold along outward
    rw [Real.sin_add, Real.cos_add]; ring
  rcases le_or_gt 0 (Real.cos (b - a)) with hc | hc
  · rw [e1]; nlinarith [mul_nonneg hc (neg_nonneg.mpr h), mul_nonneg s0 h1.le]
  · rw [e2] at h2; nlinarith [mul_pos (neg_pos.mpr hc) h1, mul_nonneg s0 (neg_nonneg.mpr h)]

/-- The rod between two rods holds their common part. -/
theorem rod_between {x0 R A r : ℝ} {n : ℕ} (hA : 0 < A) (hA2 : A ≤ Real.pi) (hn : 1 ≤ n) (hr : 0 < r) (hR : 0 < R) (hD : r ≤ R * Real.cos (A / n / 2)) {p : Vec3 ℝ} {i j : ℕ} (hij : i < j) (hj : j < n)
    (h1 : Capsule (arcPoint x0 R (ang A n i)) (arcPoint x0 R (ang A n (i + 1))) r p) (h2 : Capsule (arcPoint x0 R (ang A n j)) (arcPoint x0 R (ang A n (j + 1))) r p) :
    Capsule (arcPoint x0 R (ang A n (i + 1))) (arcPoint x0 R (ang A n (i + 1 + 1))) r p := by
  have hn0 : (1 : ℝ) ≤ n := by exact_mod_cast hn
  have hs : 0 ≤ Real.sin (A / n) := Real.sin_nonneg_of_nonneg_of_le_pi (by positivity) ((div_le_self hA.le hn0).trans hA2)
  have up : ∀ k, ang A n (k + 1) = ang A n k + A / n := fun k => by have := ang_step A n k; linarith
  have dn : ∀ k, ang A n k = ang A n (k + 1) - A / n := fun k => by have := ang_step A n k; linarith
  have span : ∀ {a b : ℕ}, a ≤ b → b ≤ n → ang A n b - ang A n a ≤ Real.pi := by
    intro a b hab hb
    have h1 := ang_le hA hn (Nat.zero_le a)
    have h2 := ang_le hA hn hb
    rw [ang_zero] at h1
    rw [ang_last A hn] at h2
    linarith
  rcases le_or_gt 0 (along x0 p (ang A n (i + 1))) with hu | hu
  · rw [up (i + 1)]
    refine mirror_up hR.le hs hu ?_
    rw [← dn i]
    exact h1
  -- the point is before the plane
  have hpos : ∀ {k : ℕ}, k < n → Capsule (arcPoint x0 R (ang A n k)) (arcPoint x0 R (ang A n (k + 1))) r p → 0 < outward x0 p (ang A n k) ∨ 0 < outward x0 p (ang A n (k + 1)) := by
    intro k _ hk
    have e : ang A n (k + 1) = ang A n k + 2 * (A / n / 2) := by rw [up]; ring
    rw [e] at hk ⊢
    exact outward_pos hr hR hD hk
  have out : ∀ k, i + 1 ≤ k → k ≤ j → 0 < outward x0 p (ang A n k) := by
    intro k hk1 hk2
    rcases hpos (by omega) h1 with a | a <;> rcases hpos hj h2 with b | b
    · exact outward_between (ang_le hA hn (by omega)) (ang_le hA hn hk2) (span (by omega) (by omega)) a b
    · exact outward_between (ang_le hA hn (by omega)) (ang_le hA hn (by omega)) (span (by omega) (by omega)) a b
    · exact outward_between (ang_le hA hn hk1) (ang_le hA hn hk2) (span (by omega) (by omega)) a b
    · exact outward_between (ang_le hA hn hk1) (ang_le hA hn (by omega)) (span (by omega) (by omega)) a b
  have back : ∀ d, i + 1 + d ≤ j → Capsule (arcPoint x0 R (ang A n (i + 1 + d))) (arcPoint x0 R (ang A n (i + 1 + d + 1))) r p → Capsule (arcPoint x0 R (ang A n (i + 1))) (arcPoint x0 R (ang A n (i + 1 + 1))) r p := by
    intro d
    induction d with
    | zero => intro _ h; exact h
    | succ d ih =>
      intro hd h
      apply ih (by omega)
      have hneg : along x0 p (ang A n (i + 1 + d + 1)) ≤ 0 :=
        along_later (ang_le hA hn (by omega)) (span (by omega) (by omega)) (out (i + 1) (by omega) (by omega)) (out (i + 1 + d + 1) (by omega) (by omega)) hu.le
      rw [dn (i + 1 + d)]
      refine mirror_down hR.le hs hneg ?_
      rw [← up]
      exact h
  obtain ⟨d, rfl⟩ : ∃ d, j = i + 1 + d := ⟨j - (i + 1), by omega⟩
  exact back d le_rfl h2

/-- Frames at the end of a chord. -/
noncomputable def frameUp (θ : ℝ) : Mat3 := ⟨⟨Real.cos θ, Real.sin θ, 0⟩, ⟨0, 0, 1⟩, ⟨-Real.sin θ, Real.cos θ, 0⟩⟩
noncomputable def frameDown (θ : ℝ) : Mat3 := ⟨⟨Real.cos θ, -Real.sin θ, 0⟩, ⟨0, 0, 1⟩, ⟨-Real.sin θ, -Real.cos θ, 0⟩⟩

theorem frameUp_orthogonal (θ : ℝ) : Orthogonal (frameUp θ) := by
  have := Real.sin_sq_add_cos_sq θ
  unfold Orthogonal frameUp
  show _ = (⟨⟨1, 0, 0⟩, ⟨0, 1, 0⟩, ⟨0, 0, 1⟩⟩ : Mat3)
  ext <;> simp [Mat3.mul_def, Mat3.mul, Mat3.transpose, Vec3.dot, Mat3.c0, Mat3.c1, Mat3.c2] <;> first | linear_combination this | ring

theorem frameDown_orthogonal (θ : ℝ) : Orthogonal (frameDown θ) := by
  have := Real.sin_sq_add_cos_sq θ
  unfold Orthogonal frameDown
  show _ = (⟨⟨1, 0, 0⟩, ⟨0, 1, 0⟩, ⟨0, 0, 1⟩⟩ : Mat3)
  ext <;> simp [Mat3.mul_def, Mat3.mul, Mat3.transpose, Vec3.dot, Mat3.c0, Mat3.c1, Mat3.c2] <;> first | linear_combination this | ring

theorem corner_iff {r h L : ℝ} (hr : 0 < r) (hs : 0 < Real.sin h) (hc : 0 < Real.cos h) (hL : r * Real.sin h ≤ L * Real.cos h) (q : Vec3 ℝ) :
    (Capsule ⟨0, 0, 0⟩ ⟨0, L, 0⟩ r q ∧ q.y * Real.cos h < q.x * Real.sin h) ↔ Corner r h q := by
  have hL0 : 0 < L := by
    by_contra hn
    nlinarith [mul_pos hr hs, mul_nonneg (neg_nonneg.mpr (not_lt.mp hn)) hc.le]
  unfold Corner
  refine and_congr_left fun hside => ?_
  constructor
  · rintro ⟨_, ⟨s, s0, s1, rfl⟩, hb⟩
    simp only [Ball, Vec3.norm2, Vec3.dot, Vec3.sub_x, Vec3.sub_y, Vec3.sub_z, Vec3.add_x, Vec3.add_y, Vec3.add_z, Vec3.smul_x, Vec3.smul_y, Vec3.smul_z] at hb
    have h1 : 0 ≤ s * L := mul_nonneg s0 hL0.le
    rcases le_or_gt q.y 0 with hy | hy
    · left; exact ⟨hy, by nlinarith⟩
    · right; exact ⟨hy, by nlinarith [sq_nonneg (q.y - s * L)]⟩
  · rintro (⟨hy, hb⟩ | ⟨hy, hb⟩)
    · refine ⟨_, ⟨0, le_refl _, zero_le_one, rfl⟩, ?_⟩
      simp only [Ball, Vec3.norm2, Vec3.dot, Vec3.sub_x, Vec3.sub_y, Vec3.sub_z, Vec3.add_x, Vec3.add_y, Vec3.add_z, Vec3.smul_x, Vec3.smul_y, Vec3.smul_z]
      nlinarith
    · have hx : q.x < r := by nlinarith [sq_nonneg q.z]
      have hyL : q.y ≤ L := by
        by_contra hgt
        nlinarith [mul_lt_mul_of_pos_right hx hs, mul_lt_mul_of_pos_right (not_le.mp hgt) hc]
      refine ⟨_, ⟨q.y / L, by positivity, (div_le_one hL0).mpr hyL, rfl⟩, ?_⟩
      have : q.y / L * (L - 0) = q.y := by rw [sub_zero, div_mul_cancel₀ _ hL0.ne']
      simp only [Ball, Vec3.norm2, Vec3.dot, Vec3.sub_x, Vec3.sub_y, Vec3.sub_z, Vec3.add_x, Vec3.add_y, Vec3.add_z, Vec3.smul_x, Vec3.smul_y, Vec3.smul_z, this]
      nlinarith

theorem cut_up {x0 R θ h r : ℝ} (hr : 0 < r) (hs : 0 < Real.sin h) (hc : 0 < Real.cos h) (hD : r ≤ R * Real.cos h) :
    points (fun p => Capsule (arcPoint x0 R θ) (arcPoint x0 R (θ + 2 * h)) r p ∧ along x0 p θ < 0) = points (Placed (Corner r h) (frameUp (θ + h)) (arcPoint x0 R θ)) := by
  ext p
  show (Capsule _ _ _ _ ∧ _) ↔ Placed _ _ _ _
  generalize (⟨p.1.1, p.1.2, p.2⟩ : Vec3 ℝ) = q
  have ho := frameUp_orthogonal (θ + h)
  have e1 : (frameUp (θ + h)).mulVec ⟨0, 0, 0⟩ + arcPoint x0 R θ = arcPoint x0 R θ := by
    ext <;> simp [frameUp, Mat3.mulVec, Vec3.dot]
  have e2 : (frameUp (θ + h)).mulVec ⟨0, 2 * R * Real.sin h, 0⟩ + arcPoint x0 R θ = arcPoint x0 R (θ + 2 * h) := by
    have := chord x0 R θ (θ + 2 * h)
    rw [turned, show (θ + (θ + 2 * h)) / 2 = θ + h by ring, show (θ + 2 * h - θ) / 2 = h by ring] at this
    rw [this]
    ext <;> simp [frameUp, Mat3.mulVec, Vec3.dot] <;> ring
  have hcap := placed_rod ho ⟨0, 0, 0⟩ ⟨0, 2 * R * Real.sin h, 0⟩ (arcPoint x0 R θ) r
  rw [e1, e2] at hcap
  rw [← hcap, placed_iff ho, placed_iff ho, ← corner_iff hr hs hc (L := 2 * R * Real.sin h) (by nlinarith)]
  refine and_congr_right fun _ => ?_
  have e3 : ((frameUp (θ + h)).transpose.mulVec (q - arcPoint x0 R θ)).y * Real.cos h - ((frameUp (θ + h)).transpose.mulVec (q - arcPoint x0 R θ)).x * Real.sin h = along x0 q θ := by
    have a1 : Real.sin (θ + h) * Real.cos h - Real.cos (θ + h) * Real.sin h = Real.sin θ := by rw [← Real.sin_sub]; congr 1; ring
    have a2 : Real.cos (θ + h) * Real.cos h + Real.sin (θ + h) * Real.sin h = Real.cos θ := by rw [← Real.cos_sub]; congr 1; ring
    simp only [frameUp, arcPoint, along, Mat3.mulVec, Mat3.transpose, Mat3.c0, Mat3.c1, Mat3.c2, Vec3.dot, Vec3.sub_x, Vec3.sub_y, Vec3.sub_z]
    linear_combination (q.x - (x0 - R * Real.cos θ)) * a1 + (q.z - R * Real.sin θ) * a2
  rw [← e3]
  constructor <;> intro h <;> linarith

theorem cut_down {x0 R θ h r : ℝ} (hr : 0 < r) (hs : 0 < Real.sin h) (hc : 0 < Real.cos h) (hD : r ≤ R * Real.cos h) :
    points (fun p => Capsule (arcPoint x0 R (θ - 2 * h)) (arcPoint x0 R θ) r p ∧ 0 < along x0 p θ) = points (Placed (Corner r h) (frameDown (θ - h)) (arcPoint x0 R θ)) := by
  ext p
  show (Capsule _ _ _ _ ∧ _) ↔ Placed _ _ _ _
  generalize (⟨p.1.1, p.1.2, p.2⟩ : Vec3 ℝ) = q
  have ho := frameDown_orthogonal (θ - h)
  have e1 : (frameDown (θ - h)).mulVec ⟨0, 0, 0⟩ + arcPoint x0 R θ = arcPoint x0 R θ := by
    ext <;> simp [frameDown, Mat3.mulVec, Vec3.dot]
  have e2 : (frameDown (θ - h)).mulVec ⟨0, 2 * R * Real.sin h, 0⟩ + arcPoint x0 R θ = arcPoint x0 R (θ - 2 * h) := by
    have := chord x0 R (θ - 2 * h) θ
    rw [turned, show (θ - 2 * h + θ) / 2 = θ - h by ring, show (θ - (θ - 2 * h)) / 2 = h by ring] at this
    rw [this]
    ext <;> simp [frameDown, Mat3.mulVec, Vec3.dot] <;> ring
  have hcap := placed_rod ho ⟨0, 0, 0⟩ ⟨0, 2 * R * Real.sin h, 0⟩ (arcPoint x0 R θ) r
  rw [e1, e2] at hcap
  rw [capsule_swap, ← hcap, placed_iff ho, placed_iff ho, ← corner_iff hr hs hc (L := 2 * R * Real.sin h) (by nlinarith)]
  refine and_congr_right fun _ => ?_
  have e3 : ((frameDown (θ - h)).transpose.mulVec (q - arcPoint x0 R θ)).y * Real.cos h - ((frameDown (θ - h)).transpose.mulVec (q - arcPoint x0 R θ)).x * Real.sin h = -along x0 q θ := by
    have a1 : Real.sin (θ - h) * Real.cos h + Real.cos (θ - h) * Real.sin h = Real.sin θ := by rw [← Real.sin_add]; congr 1; ring
    have a2 : Real.cos (θ - h) * Real.cos h - Real.sin (θ - h) * Real.sin h = Real.cos θ := by rw [← Real.cos_add]; congr 1; ring
    simp only [frameDown, arcPoint, along, Mat3.mulVec, Mat3.transpose, Mat3.c0, Mat3.c1, Mat3.c2, Vec3.dot, Vec3.sub_x, Vec3.sub_y, Vec3.sub_z]
    linear_combination -(q.x - (x0 - R * Real.cos θ)) * a1 - (q.z - R * Real.sin θ) * a2
  constructor <;> intro h <;> linarith

/-- The mirror plane has no volume. -/
theorem plane_null (x0 θ : ℝ) : volume (points fun p => along x0 p θ = 0) = 0 := by
  haveI := haar3
  let l : ((ℝ × ℝ) × ℝ) →ₗ[ℝ] ℝ := Real.sin θ • (LinearMap.fst ℝ ℝ ℝ ∘ₗ LinearMap.fst ℝ (ℝ × ℝ) ℝ) + Real.cos θ • LinearMap.snd ℝ (ℝ × ℝ) ℝ
  have hl : ∀ p, l p = Real.sin θ * p.1.1 + Real.cos θ * p.2 := fun p => rfl
  have hne : LinearMap.ker l ≠ ⊤ := by
    intro htop
    have : (((Real.sin θ, 0), Real.cos θ) : (ℝ × ℝ) × ℝ) ∈ LinearMap.ker l := by rw [htop]; trivial
    rw [LinearMap.mem_ker, hl] at this
    have e := Real.sin_sq_add_cos_sq θ
    simp only at this
    nlinarith
  have h0 := Measure.addHaar_submodule volume (LinearMap.ker l) hne
  rw [show (points fun p => along x0 p θ = 0) = points (movedBy ⟨x0, 0, 0⟩ fun p => Real.sin θ * p.x + Real.cos θ * p.z = 0) from ?_, moved_volume]
  · rw [← h0]; rfl
  · ext p
    show along _ _ _ = 0 ↔ Real.sin θ * (p.1.1 - x0) + Real.cos θ * (p.2 - 0) = 0
    unfold along
    constructor <;> intro h <;> linarith

/-- The common part of two rods with a common end. -/
theorem rods_common {x0 R θ h r : ℝ} (hr : 0 < r) (h0 : 0 < h) (h1 : h < Real.pi / 2) (hD : r ≤ R * Real.cos h) :
    volume (points (Capsule (arcPoint x0 R (θ - 2 * h)) (arcPoint x0 R θ) r) ∩ points (Capsule (arcPoint x0 R θ) (arcPoint x0 R (θ + 2 * h)) r)) = ENNReal.ofReal (4 / 3 * r ^ 3 * (Real.pi - h + Real.tan h)) := by
  have hpi := Real.pi_pos
  have hc : 0 < Real.cos h := Real.cos_pos_of_mem_Ioo ⟨by linarith, h1⟩
  have hs : 0 < Real.sin h := Real.sin_pos_of_pos_of_lt_pi h0 (by linarith)
  have hs2 : 0 ≤ Real.sin (2 * h) := Real.sin_nonneg_of_nonneg_of_le_pi (by linarith) (by linarith)
  have ht : 0 < Real.tan h := Real.tan_pos_of_pos_of_lt_pi_div_two h0 h1
  have hR : 0 < R := by
    by_contra hn
    nlinarith [mul_nonneg (neg_nonneg.mpr (not_lt.mp hn)) hc.le]
  have v1 : volume (points (fun p => Capsule (arcPoint x0 R θ) (arcPoint x0 R (θ + 2 * h)) r p ∧ along x0 p θ < 0)) = ENNReal.ofReal (2 / 3 * r ^ 3 * (Real.pi - h + Real.tan h)) := by
    rw [cut_up hr hs hc hD, placed_volume _ (frameUp_orthogonal _), corner_volume hr h0 h1]
  have v2 : volume (points (fun p => Capsule (arcPoint x0 R (θ - 2 * h)) (arcPoint x0 R θ) r p ∧ 0 < along x0 p θ)) = ENNReal.ofReal (2 / 3 * r ^ 3 * (Real.pi - h + Real.tan h)) := by
    rw [cut_down hr hs hc hD, placed_volume _ (frameDown_orthogonal _), corner_volume hr h0 h1]
  have m2 : MeasurableSet (points (fun p => Capsule (arcPoint x0 R (θ - 2 * h)) (arcPoint x0 R θ) r p ∧ 0 < along x0 p θ)) := by
    rw [cut_down hr hs hc hD]
    exact placed_measurable (corner_measurable r h) (frameDown_orthogonal _) _
  have hdis : Disjoint (points (fun p => Capsule (arcPoint x0 R θ) (arcPoint x0 R (θ + 2 * h)) r p ∧ along x0 p θ < 0)) (points (fun p => Capsule (arcPoint x0 R (θ - 2 * h)) (arcPoint x0 R θ) r p ∧ 0 < along x0 p θ)) := by
    rw [Set.disjoint_left]
    rintro p ⟨-, a⟩ ⟨-, b⟩
    exact absurd a (not_lt.mpr b.le)
  have hu := measure_union (μ := volume) hdis m2
  have hk : 0 ≤ 2 / 3 * r ^ 3 * (Real.pi - h + Real.tan h) := mul_nonneg (by positivity) (by linarith)
  rw [v1, v2, ← ENNReal.ofReal_add hk hk] at hu
  rw [show 4 / 3 * r ^ 3 * (Real.pi - h + Real.tan h) = 2 / 3 * r ^ 3 * (Real.pi - h + Real.tan h) + 2 / 3 * r ^ 3 * (Real.pi - h + Real.tan h) by ring, ← hu]
  apply le_antisymm
  · refine le_trans (measure_mono (t := ((points fun p => Capsule (arcPoint x0 R θ) (arcPoint x0 R (θ + 2 * h)) r p ∧ along x0 p θ < 0) ∪ points fun p => Capsule (arcPoint x0 R (θ - 2 * h)) (arcPoint x0 R θ) r p ∧ 0 < along x0 p θ) ∪ points fun p => along x0 p θ = 0) ?_) (le_trans (measure_union_le _ _) (by rw [plane_null, add_zero]))
    rintro p ⟨a, b⟩
    rcases lt_trichotomy (along x0 ⟨p.1.1, p.1.2, p.2⟩ θ) 0 with c | c | c
    · exact Or.inl (Or.inl ⟨b, c⟩)
    · exact Or.inr c
    · exact Or.inl (Or.inr ⟨a, c⟩)
  · apply measure_mono
    rintro p (⟨a, b⟩ | ⟨a, b⟩)
    · exact ⟨mirror_down hR.le hs2 b.le a, a⟩
    · exact ⟨a, mirror_up hR.le hs2 b.le a⟩

theorem chord_rod {x0 R a b r : ℝ} (hr : 0 < r) (hR : 0 < R) (h1 : a < b) (h2 : b < a + 2 * Real.pi) : MeasurableSet (points (Capsule (arcPoint x0 R a) (arcPoint x0 R b) r)) ∧
    volume (points (Capsule (arcPoint x0 R a) (arcPoint x0 R b) r)) = ENNReal.ofReal (Real.pi * (2 * R * Real.sin ((b - a) / 2)) * r ^ 2 + 4 / 3 * Real.pi * r ^ 3) := by
  obtain ⟨-, hd⟩ := chord_length (x0 := x0) hR h1 h2
  have ho := rotation_orthogonal 0 ((a + b) / 2) 0
  have e := placed_rod ho ⟨0, 0, 0⟩ ⟨0, 0, 2 * R * Real.sin ((b - a) / 2)⟩ (arcPoint x0 R a) r
  rw [← chord, show (Mat3.rotation 0 ((a + b) / 2) 0).mulVec ⟨0, 0, 0⟩ + arcPoint x0 R a = arcPoint x0 R a by ext <;> simp [Mat3.mulVec, Vec3.dot]] at e
  obtain ⟨hm, hv⟩ := rod_volume hr hd.le
  rw [← e, placed_volume _ ho, hv]
  exact ⟨placed_measurable hm ho _, rfl⟩

/-- The volume of rods on equal chords of an arc. -/
theorem rods_volume {x0 R A r : ℝ} {n : ℕ} (hA : 0 < A) (hA2 : A ≤ Real.pi) (hn : 2 ≤ n) (hr : 0 < r) (hR : 0 < R) (hD : r ≤ R * Real.cos (A / n / 2)) :
    HasVolume (fun p => ∃ k < n, Capsule (arcPoint x0 R (ang A n k)) (arcPoint x0 R (ang A n (k + 1))) r p) (rodBananaVolume R A n r) := by
  have hpi := Real.pi_pos
  have hn0 : (2 : ℝ) ≤ n := by exact_mod_cast hn
  have hst0 : 0 < A / n := by positivity
  have hst : A / n < Real.pi := lt_of_lt_of_le (div_lt_self hA (by linarith)) hA2
  have h0 : 0 < A / n / 2 := by linarith
  have h1 : A / n / 2 < Real.pi / 2 := by linarith
  have ht : 0 < Real.tan (A / n / 2) := Real.tan_pos_of_pos_of_lt_pi_div_two h0 h1
  have hs : 0 < Real.sin (A / n / 2) := Real.sin_pos_of_pos_of_lt_pi h0 (by linarith)
  let S : ℕ → Set ((ℝ × ℝ) × ℝ) := fun k => points (Capsule (arcPoint x0 R (ang A n k)) (arcPoint x0 R (ang A n (k + 1))) r)
  let T : ℕ → Set ((ℝ × ℝ) × ℝ) := fun k => if k + 1 < n then S (k + 1) else ∅
  have rod : ∀ k, MeasurableSet (S k) ∧ volume (S k) = ENNReal.ofReal (Real.pi * (2 * R * Real.sin (A / n / 2)) * r ^ 2 + 4 / 3 * Real.pi * r ^ 3) := by
    intro k
    have := ang_step A n k
    have := chord_rod (x0 := x0) (a := ang A n k) (b := ang A n (k + 1)) hr hR (by linarith) (by linarith)
    rwa [ang_step] at this
  have T1 : ∀ {k}, k + 1 < n → T k = S (k + 1) := fun hk => if_pos hk
  have T2 : ∀ {k}, ¬ k + 1 < n → T k = ∅ := fun hk => if_neg hk
  let i : ℕ → ℝ := fun k => if k + 1 < n then 4 / 3 * r ^ 3 * (Real.pi - A / n / 2 + Real.tan (A / n / 2)) else 0
  have key := pieces_volume (n := n) (A := S) (N := T) (fun k _ => (rod k).1) ?_ (a := fun _ => Real.pi * (2 * R * Real.sin (A / n / 2)) * r ^ 2 + 4 / 3 * Real.pi * r ^ 3) (i := i) (fun k _ => by positivity) ?_ (fun k _ => (rod k).2) ?_ ?_ ?_
  · have e : ∑ k ∈ Finset.range n, (Real.pi * (2 * R * Real.sin (A / n / 2)) * r ^ 2 + 4 / 3 * Real.pi * r ^ 3 - i k) = rodBananaVolume R A n r := by
      rw [Finset.sum_sub_distrib, Finset.sum_const, Finset.card_range, nsmul_eq_mul]
      obtain ⟨N, rfl⟩ : ∃ N, n = N + 1 := ⟨n - 1, by omega⟩
      have e2 : ∑ k ∈ Finset.range (N + 1), i k = N * (4 / 3 * r ^ 3 * (Real.pi - A / ((N + 1 : ℕ) : ℝ) / 2 + Real.tan (A / ((N + 1 : ℕ) : ℝ) / 2))) := by
        rw [Finset.sum_range_succ, Finset.sum_congr rfl (g := fun _ => 4 / 3 * r ^ 3 * (Real.pi - A / ((N + 1 : ℕ) : ℝ) / 2 + Real.tan (A / ((N + 1 : ℕ) : ℝ) / 2))) fun k hk => if_pos (by have := Finset.mem_range.mp hk; omega)]
        rw [Finset.sum_const, Finset.card_range, nsmul_eq_mul, show i N = 0 from if_neg (lt_irrefl _), add_zero]
      rw [e2]
      unfold rodBananaVolume
      simp only []
      push_cast
      field_simp
      ring
    rw [e] at key
    exact ⟨key.1, key.2⟩
  · intro k _
    by_cases hk : k + 1 < n
    · rw [T1 hk]; exact (rod _).1
    · rw [T2 hk]; exact MeasurableSet.empty
  · intro k _
    show 0 ≤ if k + 1 < n then 4 / 3 * r ^ 3 * (Real.pi - A / n / 2 + Real.tan (A / n / 2)) else 0
    split
    · exact mul_nonneg (by positivity) (by linarith)
    · exact le_refl _
  · intro k hk
    show volume (S k ∩ T k) = ENNReal.ofReal (if k + 1 < n then 4 / 3 * r ^ 3 * (Real.pi - A / n / 2 + Real.tan (A / n / 2)) else 0)
    split
    next h =>
      rw [T1 h]
      have := rods_common (x0 := x0) (θ := ang A n (k + 1)) hr h0 h1 hD
      have e1 : ang A n (k + 1) - 2 * (A / n / 2) = ang A n k := by have := ang_step A n k; linarith
      have e2 : ang A n (k + 1) + 2 * (A / n / 2) = ang A n (k + 1 + 1) := by have := ang_step A n (k + 1); linarith
      rw [e1, e2] at this
      exact this
    next h => rw [T2 h, Set.inter_empty]; simp
  · intro j k hjk hk
    rw [Set.disjoint_left]
    rintro p ⟨hj1, hj2⟩ ⟨hk1, -⟩
    rw [T1 (by omega)] at hj2
    exact hj2 (rod_between hA hA2 (by omega) hr hR hD hjk hk hj1 hk1)
  · intro k hk p hp
    by_contra hno
    push Not at hno
    have hup : ∀ m, k + m < n → p ∈ S (k + m) := by
      intro m
      induction m with
      | zero => intro _; exact hp
      | succ m ih =>
        intro hm
        by_contra hn
        refine hno (k + m) (by omega) ⟨ih (by omega), ?_⟩
        rw [T1 (by omega)]; exact hn
    have hlast := hup (n - 1 - k) (by omega)
    rw [show k + (n - 1 - k) = n - 1 by omega] at hlast
    refine hno (n - 1) (by omega) ⟨hlast, ?_⟩
    rw [T2 (by omega)]; exact Set.notMem_empty p

end Rampack.Banana
