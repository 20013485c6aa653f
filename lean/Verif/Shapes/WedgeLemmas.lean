import Verif.Shapes.WedgeSpec
import Verif.Geometry.XenoBodyLemmas
import Verif.OutcomeLemmas
/-
Lemmas on wedges.
-/
namespace Rampack.Wedge

open Rampack Spec Packing XC

/-- The ball of interpolated radius about an interpolated centre. -/
def Swept (c1 R c2 r : ℝ) (t : ℝ) (p : Vec3 ℝ) : Prop := p.x ^ 2 + p.y ^ 2 + (p.z - ((1 - t) * c1 + t * c2)) ^ 2 ≤ ((1 - t) * R + t * r) ^ 2

theorem ballAt_iff {z r : ℝ} {p : Vec3 ℝ} : BallAt z r p ↔ p.x ^ 2 + p.y ^ 2 + (p.z - z) ^ 2 ≤ r ^ 2 := by
  unfold BallAt
  simp only [Vec3.norm2, Vec3.dot, Vec3.sub_x, Vec3.sub_y, Vec3.sub_z, sub_zero]
  ring_nf

/-- Cauchy's inequality for offsets within two radii. -/
theorem offsets_dot {a b c a' b' c' R r : ℝ} (hR : 0 ≤ R) (hr : 0 ≤ r) (h1 : a ^ 2 + b ^ 2 + c ^ 2 ≤ R ^ 2) (h2 : a' ^ 2 + b' ^ 2 + c' ^ 2 ≤ r ^ 2) : a * a' + b * b' + c * c' ≤ R * r := by
  apply abs_le_of_sq_le_sq' _ (mul_nonneg hR hr) |>.2
  have h3 : (a * a' + b * b' + c * c') ^ 2 ≤ (a ^ 2 + b ^ 2 + c ^ 2) * (a' ^ 2 + b' ^ 2 + c' ^ 2) := by
    nlinarith [sq_nonneg (a * b' - b * a'), sq_nonneg (a * c' - c * a'), sq_nonneg (b * c' - c * b')]
  have h4 : (a ^ 2 + b ^ 2 + c ^ 2) * (a' ^ 2 + b' ^ 2 + c' ^ 2) ≤ R ^ 2 * r ^ 2 := mul_le_mul h1 h2 (by positivity) (by positivity)
  rw [mul_pow]; linarith

theorem join_balls {c1 R c2 r : ℝ} (hR : 0 < R) (hr : 0 < r) (p : Vec3 ℝ) : JoinBody (BallAt c1 R) (BallAt c2 r) p ↔ ∃ t : ℝ, 0 ≤ t ∧ t ≤ 1 ∧ Swept c1 R c2 r t p := by
  constructor
  · rintro ⟨a, b, t, ha, hb, h0, h1, rfl⟩
    rw [ballAt_iff] at ha hb
    refine ⟨t, h0, h1, ?_⟩
    have := offsets_dot hR.le hr.le ha hb
    unfold Swept
    simp only [Vec3.add_x, Vec3.add_y, Vec3.add_z, Vec3.smul_x, Vec3.smul_y, Vec3.smul_z]
    have e : ((1 - t) * a.x + t * b.x) ^ 2 + ((1 - t) * a.y + t * b.y) ^ 2 + ((1 - t) * a.z + t * b.z - ((1 - t) * c1 + t * c2)) ^ 2 =
        (1 - t) ^ 2 * (a.x ^ 2 + a.y ^ 2 + (a.z - c1) ^ 2) + t ^ 2 * (b.x ^ 2 + b.y ^ 2 + (b.z - c2) ^ 2) +
        2 * ((1 - t) * t) * (a.x * b.x + a.y * b.y + (a.z - c1) * (b.z - c2)) := by ring
    have e2 : ((1 - t) * R + t * r) ^ 2 = (1 - t) ^ 2 * R ^ 2 + t ^ 2 * r ^ 2 + 2 * ((1 - t) * t) * (R * r) := by ring
    rw [e, e2]
    have i1 := mul_le_mul_of_nonneg_left ha (sq_nonneg (1 - t))
    have i2 := mul_le_mul_of_nonneg_left hb (sq_nonneg t)
    have i3 := mul_le_mul_of_nonneg_left this (show 0 ≤ 2 * ((1 - t) * t) from by have := mul_nonneg (sub_nonneg.mpr h1) h0; linarith)
    linarith
  · rintro ⟨t, h0, h1, h⟩
    unfold Swept at h
    have hρ : 0 < (1 - t) * R + t * r := by
      rcases eq_or_lt_of_le h0 with e | e
      · rw [← e]; simpa using hR
      · have := mul_pos e hr
        have := mul_nonneg (sub_nonneg.mpr h1) hR.le
        linarith
    generalize hρ' : (1 - t) * R + t * r = ρ at h hρ
    generalize hc : (1 - t) * c1 + t * c2 = c at h
    have key : ∀ s z : ℝ, 0 ≤ s → BallAt z s ⟨s / ρ * p.x, s / ρ * p.y, z + s / ρ * (p.z - c)⟩ := by
      intro s z hs
      rw [ballAt_iff]
      show (s / ρ * p.x) ^ 2 + (s / ρ * p.y) ^ 2 + (z + s / ρ * (p.z - c) - z) ^ 2 ≤ s ^ 2
      have e : (s / ρ * p.x) ^ 2 + (s / ρ * p.y) ^ 2 + (z + s / ρ * (p.z - c) - z) ^ 2 = (s / ρ) ^ 2 * (p.x ^ 2 + p.y ^ 2 + (p.z - c) ^ 2) := by ring
      rw [e]
      calc _ ≤ (s / ρ) ^ 2 * ρ ^ 2 := mul_le_mul_of_nonneg_left h (sq_nonneg _)
        _ = s ^ 2 := by field_simp
    refine ⟨_, _, t, key R c1 hR.le, key r c2 hr.le, h0, h1, ?_⟩
    have hx : ∀ x : ℝ, (1 - t) * (R / ρ * x) + t * (r / ρ * x) = x := by
      intro x
      have : (1 - t) * (R / ρ * x) + t * (r / ρ * x) = ((1 - t) * R + t * r) / ρ * x := by ring
      rw [this, hρ', div_self hρ.ne', one_mul]
    ext
    · exact (hx _).symm
    · exact (hx _).symm
    · show p.z = (1 - t) * (c1 + R / ρ * (p.z - c)) + t * (c2 + r / ρ * (p.z - c))
      have := hx (p.z - c)
      linarith

/-- A body made by joining is convex when both are. -/
theorem join_convex {A B : Vec3 ℝ → Prop} (hA : ConvexBody A) (hB : ConvexBody B) : ConvexBody (JoinBody A B) := by
  rintro _ _ c ⟨a, b, t, ha, hb, h0, h1, rfl⟩ ⟨a', b', t', ha', hb', h0', h1', rfl⟩ hc0 hc1
  have hc : 0 ≤ 1 - c := sub_nonneg.mpr hc1
  -- weights of the two bodies
  have pick : ∀ {D : Vec3 ℝ → Prop}, ConvexBody D → ∀ (u v : Vec3 ℝ) (w w' : ℝ), D u → D v → 0 ≤ w → 0 ≤ w' → ∃ x, D x ∧ (w + w') • x = w • u + w' • v := by
    intro D hD u v w w' hu hv hw hw'
    rcases eq_or_lt_of_le (add_nonneg hw hw') with e | e
    · refine ⟨u, hu, ?_⟩
      have h1 : w = 0 := by linarith
      have h2 : w' = 0 := by linarith
      rw [h1, h2]; ext <;> simp
    · refine ⟨(w / (w + w')) • u + (1 - w / (w + w')) • v, hD u v _ hu hv (by positivity) ((div_le_one e).mpr (by linarith)), ?_⟩
      have h1 : 1 - w / (w + w') = w' / (w + w') := by field_simp; ring
      rw [h1]
      ext <;> simp only [Vec3.add_x, Vec3.add_y, Vec3.add_z, Vec3.smul_x, Vec3.smul_y, Vec3.smul_z] <;> field_simp
  obtain ⟨x, hx, ex⟩ := pick hA a a' (c * (1 - t)) ((1 - c) * (1 - t')) ha ha' (mul_nonneg hc0 (by linarith)) (mul_nonneg hc (by linarith))
  obtain ⟨y, hy, ey⟩ := pick hB b b' (c * t) ((1 - c) * t') hb hb' (mul_nonneg hc0 h0) (mul_nonneg hc h0')
  refine ⟨x, y, c * t + (1 - c) * t', hx, hy, add_nonneg (mul_nonneg hc0 h0) (mul_nonneg hc h0'), ?_, ?_⟩
  · have := mul_le_mul_of_nonneg_left h1 hc0
    have := mul_le_mul_of_nonneg_left h1' hc
    linarith
  · have e : 1 - (c * t + (1 - c) * t') = c * (1 - t) + (1 - c) * (1 - t') := by ring
    rw [e, ex, ey]
    ext <;> simp only [Vec3.add_x, Vec3.add_y, Vec3.add_z, Vec3.smul_x, Vec3.smul_y, Vec3.smul_z] <;> ring

theorem ballAt_convex (z r : ℝ) : ConvexBody (BallAt z r) := by
  intro p q c hp hq h0 h1
  have := closedBall_convex r (p - ⟨0, 0, z⟩) (q - (⟨0, 0, z⟩ : Vec3 ℝ)) c hp hq h0 h1
  unfold BallAt
  have e : c • p + (1 - c) • q - ⟨0, 0, z⟩ = c • (p - ⟨0, 0, z⟩) + (1 - c) • (q - ⟨0, 0, z⟩) := by
    ext <;> simp only [Vec3.add_x, Vec3.add_y, Vec3.add_z, Vec3.smul_x, Vec3.smul_y, Vec3.smul_z, Vec3.sub_x, Vec3.sub_y, Vec3.sub_z] <;> ring
  rw [e]; exact this

theorem rectangleAt_convex (z ax ay : ℝ) : ConvexBody (RectangleAt z ax ay) := by
  rintro p q c ⟨h1, h2, h3⟩ ⟨h1', h2', h3'⟩ hc0 hc1
  refine ⟨abs_comb h1 h1' hc0 hc1, abs_comb h2 h2' hc0 hc1, ?_⟩
  show c * p.z + (1 - c) * q.z = z
  rw [h3, h3']; ring

theorem join_left {A B : Vec3 ℝ → Prop} {a : Vec3 ℝ} (ha : A a) {b : Vec3 ℝ} (hb : B b) : JoinBody A B a :=
  ⟨a, b, 0, ha, hb, le_refl _, zero_le_one, by ext <;> simp⟩

theorem join_right {A B : Vec3 ℝ → Prop} {a : Vec3 ℝ} (ha : A a) {b : Vec3 ℝ} (hb : B b) : JoinBody A B b :=
  ⟨a, b, 1, ha, hb, zero_le_one, le_refl _, by ext <;> simp⟩

/-- The furthest points of two bodies joined. -/
theorem join_support {A B : Vec3 ℝ → Prop} {fa fb f : Vec3 ℝ → Vec3 ℝ} (hA : SupportOf fa A) (hB : SupportOf fb B) (hf : ∀ n, n ≠ 0 → (f n = fa n ∧ (fb n).dot n ≤ (fa n).dot n) ∨ (f n = fb n ∧ (fa n).dot n ≤ (fb n).dot n)) :
    SupportOf f (JoinBody A B) := by
  constructor
  · intro n hn
    rcases hf n hn with ⟨e, _⟩ | ⟨e, _⟩
    · rw [e]; exact join_left (hA.mem n hn) (hB.mem n hn)
    · rw [e]; exact join_right (hA.mem n hn) (hB.mem n hn)
  · rintro n hn _ ⟨a, b, t, ha, hb, h0, h1, rfl⟩
    have e : ((1 - t) • a + t • b).dot n = (1 - t) * a.dot n + t * b.dot n := by
      simp only [Vec3.dot, Vec3.add_x, Vec3.add_y, Vec3.add_z, Vec3.smul_x, Vec3.smul_y, Vec3.smul_z]; ring
    rw [e]
    have i1 := hA.furthest n hn a ha
    have i2 := hB.furthest n hn b hb
    have key : a.dot n ≤ (f n).dot n ∧ b.dot n ≤ (f n).dot n := by
      rcases hf n hn with ⟨e, h⟩ | ⟨e, h⟩ <;> rw [e] <;> constructor <;> linarith
    have j1 := mul_le_mul_of_nonneg_left key.1 (sub_nonneg.mpr h1)
    have j2 := mul_le_mul_of_nonneg_left key.2 h0
    linarith

theorem ballAt_support {z r : ℝ} (hr : 0 < r) : SupportOf (fun n => r • normalized n + ⟨0, 0, z⟩) (BallAt z r) := by
  constructor
  · intro n hn
    have h := Xeno.normalized_norm2 hn
    unfold BallAt
    have e : r • normalized n + ⟨0, 0, z⟩ - ⟨0, 0, z⟩ = r • normalized n := by ext <;> simp
    rw [e]
    have e2 : (r • normalized n).norm2 = r ^ 2 * (normalized n).norm2 := by
      simp only [Vec3.norm2, Vec3.dot, Vec3.smul_x, Vec3.smul_y, Vec3.smul_z]; ring
    rw [e2, h]; linarith
  · intro n hn p hp
    have h1 := norm_le_of hr.le hp
    have h2 := dot_le_norm (p - ⟨0, 0, z⟩) n
    have h3 : (p - ⟨0, 0, z⟩).norm * n.norm ≤ r * n.norm := mul_le_mul_of_nonneg_right h1 n.norm_nonneg
    have h4 := normalized_self hn
    have e1 : (p - ⟨0, 0, z⟩).dot n = p.dot n - z * n.z := by simp only [Vec3.dot, Vec3.sub_x, Vec3.sub_y, Vec3.sub_z]; ring
    have e2 : (r • normalized n + ⟨0, 0, z⟩).dot n = r * (normalized n).dot n + z * n.z := by
      simp only [Vec3.dot, Vec3.smul_x, Vec3.smul_y, Vec3.smul_z, Vec3.add_x, Vec3.add_y, Vec3.add_z]; ring
    rw [e2, h4]; linarith

theorem rectangleAt_support {z ax ay : ℝ} (hx : 0 ≤ ax) (hy : 0 ≤ ay) : SupportOf (fun n => ⟨XC.signed n.x (ax / 2), XC.signed n.y (ay / 2), z⟩) (RectangleAt z ax ay) := by
  constructor
  · intro n hn
    exact ⟨signed_abs (by linarith) _, signed_abs (by linarith) _, rfl⟩
  · rintro n hn p ⟨h1, h2, h3⟩
    have i1 := signed_le h1 n.x
    have i2 := signed_le h2 n.y
    show p.x * n.x + p.y * n.y + p.z * n.z ≤ _ * n.x + _ * n.y + z * n.z
    rw [h3]; linarith

/-- A rectangle joined with another: sections are rectangles. -/
theorem join_rectangles {l bx bz tx ty : ℝ} (h1 : 0 ≤ bx) (h2 : 0 ≤ bz) (h3 : 0 ≤ tx) (h4 : 0 ≤ ty) {z0 : ℝ} (p : Vec3 ℝ) :
    JoinBody (RectangleAt z0 bx bz) (RectangleAt (z0 + l) tx ty) p ↔
      ∃ t : ℝ, 0 ≤ t ∧ t ≤ 1 ∧ p.z = z0 + t * l ∧ |p.x| ≤ ((1 - t) * bx + t * tx) / 2 ∧ |p.y| ≤ ((1 - t) * bz + t * ty) / 2 := by
  constructor
  · rintro ⟨a, b, t, ⟨ax, ay, az⟩, ⟨b1, b2, b3⟩, h0, h1, rfl⟩
    have key : ∀ u v A B : ℝ, |u| ≤ A / 2 → |v| ≤ B / 2 → |(1 - t) * u + t * v| ≤ ((1 - t) * A + t * B) / 2 := by
      intro u v A B hu hv
      have := abs_add_le ((1 - t) * u) (t * v)
      rw [abs_mul, abs_mul, abs_of_nonneg h0, abs_of_nonneg (sub_nonneg.mpr h1)] at this
      have i1 := mul_le_mul_of_nonneg_left hu (sub_nonneg.mpr h1)
      have i2 := mul_le_mul_of_nonneg_left hv h0
      linarith
    refine ⟨t, h0, h1, ?_, key _ _ _ _ ax b1, key _ _ _ _ ay b2⟩
    show (1 - t) * a.z + t * b.z = _
    rw [az, b3]; ring
  · rintro ⟨t, h0, h1', hz, hx, hy⟩
    have key : ∀ u A B : ℝ, 0 ≤ A → 0 ≤ B → |u| ≤ ((1 - t) * A + t * B) / 2 → ∃ a b : ℝ, |a| ≤ A / 2 ∧ |b| ≤ B / 2 ∧ u = (1 - t) * a + t * b := by
      intro u A B hA hB hu
      have hW : 0 ≤ (1 - t) * A + t * B := add_nonneg (mul_nonneg (sub_nonneg.mpr h1') hA) (mul_nonneg h0 hB)
      rcases eq_or_lt_of_le hW with e | e
      · rw [← e] at hu
        have : u = 0 := by
          rw [zero_div] at hu
          exact abs_eq_zero.mp (le_antisymm hu (abs_nonneg _))
        exact ⟨0, 0, by simp; linarith, by simp; linarith, by rw [this]; ring⟩
      · generalize hWe : (1 - t) * A + t * B = W at hu e
        have hs : |u / W| ≤ 1 / 2 := by
          rw [abs_div, abs_of_pos e, div_le_iff₀ e]; linarith
        refine ⟨u / W * A, u / W * B, ?_, ?_, ?_⟩
        · rw [abs_mul, abs_of_nonneg hA]
          have := mul_le_mul_of_nonneg_right hs hA
          linarith
        · rw [abs_mul, abs_of_nonneg hB]
          have := mul_le_mul_of_nonneg_right hs hB
          linarith
        · have : (1 - t) * (u / W * A) + t * (u / W * B) = u / W * ((1 - t) * A + t * B) := by ring
          rw [this, hWe, div_mul_cancel₀ _ e.ne']
    obtain ⟨a, b, ha, hb, e1⟩ := key _ _ _ h1 h3 hx
    obtain ⟨a', b', ha', hb', e2⟩ := key _ _ _ h2 h4 hy
    refine ⟨⟨a, a', z0⟩, ⟨b, b', z0 + l⟩, t, ⟨ha, ha', rfl⟩, ⟨hb, hb', rfl⟩, h0, h1', ?_⟩
    ext
    · exact e1
    · exact e2
    · show p.z = (1 - t) * z0 + t * (z0 + l)
      rw [hz]; ring

end Rampack.Wedge
