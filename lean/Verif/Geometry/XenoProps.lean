import Verif.Geometry.XenoLemmas
/-
The collision test of convex bodies: what a miss and a hit mean.
-/
namespace Rampack

open Packing Spec Xeno

namespace Xeno

theorem mulVec_dot (R : Mat3) (q n : Vec3 ℝ) : (R.mulVec q).dot n = q.dot (R.transpose.mulVec n) := by
  simp only [Mat3.mulVec, Mat3.transpose, Mat3.c0, Mat3.c1, Mat3.c2, Vec3.dot]; ring

theorem orthogonal_transpose {R : Mat3} (h : Orthogonal R) : R * R.transpose = 1 := by
  unfold Orthogonal at h
  have hd : R.det ≠ 0 := by
    intro h0
    have h1 := congrArg Mat3.det h
    rw [Mat3.det_mul, h0, mul_zero] at h1
    simp [Mat3.one_def, Mat3.one, Mat3.det] at h1
  have : R.transpose = R.inverse := by
    calc R.transpose = R.transpose * (R * R.inverse) := by rw [Mat3.mul_inverse_cancel hd, Mat3.mul_one]
      _ = R.transpose * R * R.inverse := (Mat3.mul_assoc _ _ _).symm
      _ = R.inverse := by rw [h, Mat3.one_mul]
  rw [this, Mat3.mul_inverse_cancel hd]

theorem transpose_ne {R : Mat3} (h : Orthogonal R) {n : Vec3 ℝ} (hn : n ≠ 0) : R.transpose.mulVec n ≠ 0 := by
  intro h0
  have := congrArg R.mulVec h0
  rw [Mat3.mulVec_mulVec, orthogonal_transpose h, Mat3.one_mulVec, Mat3.mulVec_zero] at this
  exact hn this

theorem transpose_norm2 {R : Mat3} (h : Orthogonal R) (v : Vec3 ℝ) : (R.transpose.mulVec v).norm2 = v.norm2 := by
  have := orthogonal_norm2 h (R.transpose.mulVec v)
  rw [Mat3.mulVec_mulVec, orthogonal_transpose h, Mat3.one_mulVec] at this
  exact this.symm

/-- The support function of a rotated and moved body. -/
theorem placed_support {g : XCGeometry} {B : Vec3 ℝ → Prop} (hS : SupportOf g.support B) {rot : Mat3} (ho : Orthogonal rot) (pos : Vec3 ℝ) :
    SupportOf (XC.Entry.support ⟨g, pos, rot⟩) (Placed B rot pos) := by
  constructor
  · intro n hn
    exact ⟨_, hS.mem _ (transpose_ne ho hn), rfl⟩
  · rintro n hn p ⟨q, hq, rfl⟩
    have := hS.furthest _ (transpose_ne ho hn) q hq
    have e : ∀ v : Vec3 ℝ, (rot.mulVec v + pos).dot n = v.dot (rot.transpose.mulVec n) + pos.dot n := by
      intro v; rw [← mulVec_dot]; simp only [Vec3.dot, Vec3.add_x, Vec3.add_y, Vec3.add_z]; ring
    show (rot.mulVec q + pos).dot n ≤ (rot.mulVec (g.support (rot.transpose.mulVec n)) + pos).dot n
    rw [e, e]; linarith

theorem placed_convex {B : Vec3 ℝ → Prop} (hB : ConvexBody B) (rot : Mat3) (pos : Vec3 ℝ) : ConvexBody (Placed B rot pos) := by
  rintro p q c ⟨p', hp, rfl⟩ ⟨q', hq, rfl⟩ h0 h1
  refine ⟨_, hB p' q' c hp hq h0 h1, ?_⟩
  ext <;> simp only [Mat3.mulVec, Vec3.dot, Vec3.add_x, Vec3.add_y, Vec3.add_z, Vec3.smul_x, Vec3.smul_y, Vec3.smul_z] <;> ring

/-- The differences of points of two bodies. -/
def Differences (A B : Vec3 ℝ → Prop) (m : Vec3 ℝ) : Prop := ∃ a b, A a ∧ B b ∧ m = b - a

theorem differences_convex {A B : Vec3 ℝ → Prop} (hA : ConvexBody A) (hB : ConvexBody B) : ConvexBody (Differences A B) := by
  rintro p q c ⟨a, b, ha, hb, rfl⟩ ⟨a', b', ha', hb', rfl⟩ h0 h1
  refine ⟨_, _, hA a a' c ha ha' h0 h1, hB b b' c hb hb' h0 h1, ?_⟩
  ext <;> simp only [Vec3.add_x, Vec3.add_y, Vec3.add_z, Vec3.smul_x, Vec3.smul_y, Vec3.smul_z, Vec3.sub_x, Vec3.sub_y, Vec3.sub_z] <;> ring

theorem difference_support {e1 e2 : XC.Entry} {A B : Vec3 ℝ → Prop} (hA : SupportOf e1.support A) (hB : SupportOf e2.support B) :
    SupportOf (differenceSupport e1 e2) (Differences A B) := by
  constructor
  · intro n hn
    exact ⟨_, _, hA.mem (-n) (by simpa using hn), hB.mem n hn, rfl⟩
  · rintro n hn _ ⟨a, b, ha, hb, rfl⟩
    have h1 := hA.furthest (-n) (by simpa using hn) a ha
    have h2 := hB.furthest n hn b hb
    show (b - a).dot n ≤ (e2.support n - e1.support (-n)).dot n
    simp only [Vec3.dot, Vec3.sub_x, Vec3.sub_y, Vec3.sub_z, Vec3.neg_x, Vec3.neg_y, Vec3.neg_z] at *
    linarith

end Xeno

variable {g1 g2 : XCGeometry} {B1 B2 : Vec3 ℝ → Prop} {rot1 rot2 : Mat3}

/-- When the collision test ends with a miss, some plane has the bodies on its two sides, but for a slab as thin as the tolerance. -/
theorem C76_miss (s1 : SupportOf g1.support B1) (s2 : SupportOf g2.support B2) (o1 : Orthogonal rot1) (o2 : Orthogonal rot2) (pos1 pos2 : Vec3 ℝ)
    {tol : ℝ} (ht : 0 ≤ tol) {fuel : ℕ} (h : intersect fuel ⟨g1, pos1, rot1⟩ ⟨g2, pos2, rot2⟩ tol = .ok false) :
    ApartBut (Placed B1 rot1 pos1) (Placed B2 rot2 pos2) tol := by
  obtain ⟨n, hn, hb⟩ := search_miss (difference_support (placed_support s1 o1 pos1) (placed_support s2 o2 pos2)) ht h
  exact ⟨n, hn, fun a b ha hb' => hb _ ⟨a, b, ha, hb', rfl⟩⟩

/-- When the collision test ends with a hit and has met no tie, the bodies have points less than 1e-6 apart. The full claim,
without the condition about ties, is false: see `C76_hit_violated`. -/
theorem C76_hit_partial (s1 : SupportOf g1.support B1) (s2 : SupportOf g2.support B2) (c1 : ConvexBody B1) (c2 : ConvexBody B2)
    (m1 : B1 g1.center) (m2 : B2 g2.center) (o1 : Orthogonal rot1) (o2 : Orthogonal rot2) (pos1 pos2 : Vec3 ℝ) {tol : ℝ} {fuel : ℕ}
    (hT : ¬ Ties fuel ⟨g1, pos1, rot1⟩ ⟨g2, pos2, rot2⟩ tol) (h : intersect fuel ⟨g1, pos1, rot1⟩ ⟨g2, pos2, rot2⟩ tol = .ok true) :
    Near (Placed B1 rot1 pos1) (Placed B2 rot2 pos2) (1 / 10 ^ 6) := by
  obtain ⟨m, ⟨a, b, ha, hb, rfl⟩, hm⟩ := search_hit (difference_support (placed_support s1 o1 pos1) (placed_support s2 o2 pos2))
    (differences_convex (placed_convex c1 rot1 pos1) (placed_convex c2 rot2 pos2)) (tol := tol) (k := fuel)
    (v0 := XC.Entry.center ⟨g2, pos2, rot2⟩ - XC.Entry.center ⟨g1, pos1, rot1⟩)
    ⟨_, _, ⟨_, m1, rfl⟩, ⟨_, m2, rfl⟩, rfl⟩ hT h
  exact ⟨a, b, ha, hb, hm⟩

/-! ### The verdict does not depend on how long one waits -/

theorem Xeno.refine_mono (sup : Vec3 ℝ → Vec3 ℝ) (tol : ℝ) (v0 : Vec3 ℝ) {b : Bool} : ∀ (k : ℕ) (v1 v2 v3 : Vec3 ℝ),
    refine sup tol v0 k v1 v2 v3 = .ok b → refine sup tol v0 (k + 1) v1 v2 v3 = .ok b
  | 0, _, _, _, h => by simp [refine] at h
  | k + 1, v1, v2, v3, h => by
    unfold refine at h ⊢
    split_ifs at h ⊢
    · exact h
    · exact h
    · exact Xeno.refine_mono sup tol v0 k _ _ _ h

theorem Xeno.findPortal_mono (sup : Vec3 ℝ → Vec3 ℝ) (tol : ℝ) (v0 : Vec3 ℝ) {b : Bool} : ∀ (k : ℕ) (v1 v2 n : Vec3 ℝ),
    findPortal sup tol v0 k v1 v2 n = .ok b → findPortal sup tol v0 (k + 1) v1 v2 n = .ok b
  | 0, _, _, _, h => by simp [findPortal] at h
  | k + 1, v1, v2, n, h => by
    unfold findPortal at h ⊢
    split_ifs at h ⊢
    · exact h
    · exact Xeno.findPortal_mono sup tol v0 k _ _ _ h
    · exact Xeno.findPortal_mono sup tol v0 k _ _ _ h
    · exact Xeno.refine_mono sup tol v0 k _ _ _ h

theorem Xeno.search_mono (sup : Vec3 ℝ → Vec3 ℝ) (tol : ℝ) (v0 : Vec3 ℝ) {b : Bool} {k : ℕ} (h : search sup tol k v0 = .ok b) :
    search sup tol (k + 1) v0 = .ok b := by
  unfold search fromTwo fromThree at h ⊢
  split_ifs at h ⊢
  all_goals first | exact h | exact Xeno.findPortal_mono sup tol v0 k _ _ _ h

theorem Xeno.search_le {sup : Vec3 ℝ → Vec3 ℝ} {tol : ℝ} {v0 : Vec3 ℝ} {b : Bool} {k m : ℕ} (hkm : k ≤ m) (h : search sup tol k v0 = .ok b) :
    search sup tol m v0 = .ok b := by
  induction hkm with
  | refl => exact h
  | step _ ih => exact Xeno.search_mono sup tol v0 ih

/-- Two runs of the test which end give the same answer. -/
theorem C76_one_answer {e1 e2 : XC.Entry} {tol : ℝ} {b b' : Bool} {k m : ℕ} (h : intersect k e1 e2 tol = .ok b) (h' : intersect m e1 e2 tol = .ok b') :
    b = b' := by
  unfold intersect at h h'
  rcases le_total k m with hkm | hkm
  · rw [Xeno.search_le hkm h] at h'; exact Outcome.ok_inj.mp h'
  · rw [Xeno.search_le hkm h'] at h; exact (Outcome.ok_inj.mp h).symm

/-! ### The overlap test of shapes -/

theorem Xeno.placed_near {B : Vec3 ℝ → Prop} {r : ℝ} (h : CoveredBy B r) {rot : Mat3} (ho : Orthogonal rot) {pos p : Vec3 ℝ} (hp : Placed B rot pos p) :
    (p - pos).norm2 ≤ r ^ 2 := by
  obtain ⟨q, hq, rfl⟩ := hp
  have : rot.mulVec q + pos - pos = rot.mulVec q := by abel
  rw [this, orthogonal_norm2 ho]; exact h q hq

theorem Xeno.placed_of_near {B : Vec3 ℝ → Prop} {r : ℝ} (hr : 0 < r) (h : Inscribed B r) {rot : Mat3} (ho : Orthogonal rot) {pos p : Vec3 ℝ}
    (hp : (p - pos).norm2 ≤ r ^ 2) : Placed B rot pos p := by
  refine ⟨rot.transpose.mulVec (p - pos), h hr _ (by rw [transpose_norm2 ho]; exact hp), ?_⟩
  rw [Mat3.mulVec_mulVec, orthogonal_transpose ho, Mat3.one_mulVec]; abel

/-- When the overlap test of two shapes says no, some plane has the shapes on its two sides, but for a slab of thickness 1e-12. -/
theorem C76_overlap_miss (d1 : Describes g1 B1) (d2 : Describes g2 B2) (o1 : Orthogonal rot1) (o2 : Orthogonal rot2) (pos1 pos2 t : Vec3 ℝ)
    {fuel : ℕ} (h : overlapBetween fuel g1 g2 pos1 rot1 pos2 rot2 t = .ok false) :
    ApartBut (Placed B1 rot1 pos1) (Placed B2 rot2 (pos2 + t)) (1 / 10 ^ 12) := by
  unfold overlapBetween at h
  split at h
  · rename_i hd
    -- the direction towards the first centre
    generalize hD : pos2 + t - pos1 = D at hd
    have hc1 := d1.circumsphere_nonneg
    have hc2 := d2.circumsphere_nonneg
    have hcov1 := d1.covered
    generalize g1.circumsphereRadius = c1 at *
    have hlt : c1 + g2.circumsphereRadius < D.norm := by
      have := Vec3.norm_sq D
      have := D.norm_nonneg
      by_contra hcon
      have hcon := not_lt.mp hcon
      nlinarith
    have hDne : D ≠ 0 := by
      rintro rfl
      have : (0 : Vec3 ℝ).norm2 = 0 := by simp [Vec3.norm2, Vec3.dot]
      nlinarith
    refine ⟨normalized (-D), Xeno.normalized_norm2 (by simpa using hDne), fun a b ha hb => ?_⟩
    have na := placed_near hcov1 o1 ha
    have nb := placed_near d2.covered o2 hb
    have hneg : (-D).norm = D.norm := by simp [Vec3.norm, Vec3.norm2, Vec3.dot]
    have un : (normalized (-D)).norm2 = 1 := Xeno.normalized_norm2 (by simpa using hDne)
    have un' : (normalized (-D)).norm = 1 := by rw [Vec3.norm, un, Real.sqrt_one]
    have e : (b - a).dot (normalized (-D)) = (b - (pos2 + t)).dot (normalized (-D)) - (a - pos1).dot (normalized (-D)) + D.dot (normalized (-D)) := by
      rw [← hD]; simp only [Vec3.dot, Vec3.sub_x, Vec3.sub_y, Vec3.sub_z, Vec3.add_x, Vec3.add_y, Vec3.add_z]; ring
    have eD : D.dot (normalized (-D)) = -D.norm := by
      rw [Xeno.normalized_dot, hneg]
      have hp := norm_pos_of_ne hDne
      have hs := Vec3.norm_sq D
      have : D.dot (-D) = -D.norm ^ 2 := by rw [hs]; simp only [Vec3.norm2, Vec3.dot, Vec3.neg_x, Vec3.neg_y, Vec3.neg_z]; ring
      rw [this]; field_simp
    have b1 := Vec3.abs_dot_le (b - (pos2 + t)) (normalized (-D))
    have b2 := Vec3.abs_dot_le (a - pos1) (normalized (-D))
    rw [un', mul_one] at b1 b2
    have n1 : (a - pos1).norm ≤ c1 := Real.sqrt_le_iff.mpr ⟨hc1, na⟩
    have n2 : (b - (pos2 + t)).norm ≤ g2.circumsphereRadius := Real.sqrt_le_iff.mpr ⟨hc2, nb⟩
    have l1 := (abs_le.mp b1).2
    have l2 := (abs_le.mp b2).1
    rw [e, eD]
    have : (0 : ℝ) ≤ 1 / 10 ^ 12 := by norm_num
    linarith
  · split at h
    · simp at h
    · exact C76_miss d1.support d2.support o1 o2 _ _ (by norm_num) h

/-- When the overlap test of two shapes says yes and has met no tie, the shapes have points less than 1e-6 apart. -/
theorem C76_overlap_hit_partial (d1 : Describes g1 B1) (d2 : Describes g2 B2) (hi : g1.insphereRadius = 0 ↔ g2.insphereRadius = 0)
    (o1 : Orthogonal rot1) (o2 : Orthogonal rot2) (pos1 pos2 t : Vec3 ℝ) {fuel : ℕ}
    (hT : ¬ Ties fuel ⟨g1, pos1, rot1⟩ ⟨g2, pos2 + t, rot2⟩ (1 / 10 ^ 12)) (h : overlapBetween fuel g1 g2 pos1 rot1 pos2 rot2 t = .ok true) :
    Near (Placed B1 rot1 pos1) (Placed B2 rot2 (pos2 + t)) (1 / 10 ^ 6) := by
  unfold overlapBetween at h
  split at h
  · simp at h
  · split at h
    · rename_i hd
      have i1 := d1.insphere_nonneg
      have i2 := d2.insphere_nonneg
      have hin1 := d1.inscribed
      have hin2 := d2.inscribed
      generalize g1.insphereRadius = r1 at *
      generalize g2.insphereRadius = r2 at *
      have hsum : 0 < r1 + r2 := by
        rcases (add_nonneg i1 i2).lt_or_eq with h' | h'
        · exact h'
        · rw [← h'] at hd; have := (pos2 + t - pos1).norm2_nonneg; linarith
      have p1 : 0 < r1 := lt_of_le_of_ne i1 (fun h0 => by have h1 := h0.symm; have h2 := hi.mp h1; linarith)
      have p2 : 0 < r2 := lt_of_le_of_ne i2 (fun h0 => by have h1 := h0.symm; have h2 := hi.mpr h1; linarith)
      generalize hD : pos2 + t - pos1 = D at hd
      refine ⟨pos1 + (r1 / (r1 + r2)) • D, pos1 + (r1 / (r1 + r2)) • D, placed_of_near p1 hin1 o1 ?_, placed_of_near p2 hin2 o2 ?_, ?_⟩
      · have e : pos1 + (r1 / (r1 + r2)) • D - pos1 = (r1 / (r1 + r2)) • D := by abel
        have e2 : ((r1 / (r1 + r2)) • D).norm2 = (r1 / (r1 + r2)) ^ 2 * D.norm2 := by
          simp only [Vec3.norm2, Vec3.dot, Vec3.smul_x, Vec3.smul_y, Vec3.smul_z]; ring
        rw [e, e2]
        calc (r1 / (r1 + r2)) ^ 2 * D.norm2 ≤ (r1 / (r1 + r2)) ^ 2 * ((r1 + r2) * (r1 + r2)) := mul_le_mul_of_nonneg_left hd.le (sq_nonneg _)
          _ = r1 ^ 2 := by field_simp
      · have e2 : (pos1 + (r1 / (r1 + r2)) • D - (pos2 + t)).norm2 = (r2 / (r1 + r2)) ^ 2 * D.norm2 := by
          have e1 : pos1 + (r1 / (r1 + r2)) • D - (pos2 + t) = (-(r2 / (r1 + r2))) • D := by
            have hb : r1 / (r1 + r2) = 1 - r2 / (r1 + r2) := by field_simp; ring
            rw [hb, ← hD]
            ext <;> simp only [Vec3.add_x, Vec3.add_y, Vec3.add_z, Vec3.smul_x, Vec3.smul_y, Vec3.smul_z, Vec3.sub_x, Vec3.sub_y, Vec3.sub_z] <;> ring
          rw [e1]; simp only [Vec3.norm2, Vec3.dot, Vec3.smul_x, Vec3.smul_y, Vec3.smul_z]; ring
        rw [e2]
        calc (r2 / (r1 + r2)) ^ 2 * D.norm2 ≤ (r2 / (r1 + r2)) ^ 2 * ((r1 + r2) * (r1 + r2)) := mul_le_mul_of_nonneg_left hd.le (sq_nonneg _)
          _ = r2 ^ 2 := by field_simp
      · have : ∀ v : Vec3 ℝ, (v - v).norm2 = 0 := by intro v; simp [Vec3.norm2, Vec3.dot]
        rw [this]; norm_num
    · exact C76_hit_partial d1.support d2.support d1.convex d2.convex d1.center d2.center o1 o2 _ _ hT h

/-- A shape is found to overlap with a wall exactly when one of its points lies on the wall or behind it. -/
theorem C76_wall {g : XCGeometry} {B : Vec3 ℝ → Prop} (hS : SupportOf g.support B) {rot : Mat3} (ho : Orthogonal rot) (pos o : Vec3 ℝ) {n : Vec3 ℝ}
    (hn : n ≠ 0) : overlapWithWall g pos rot o n = true ↔ ∃ p, Placed B rot pos p ∧ (p - o).dot n ≤ 0 := by
  have hne : -(rot.transpose.mulVec n) ≠ 0 := by simpa using transpose_ne ho hn
  have hm := hS.mem _ hne
  have hf := hS.furthest _ hne
  have e : ∀ q : Vec3 ℝ, (rot.mulVec q + pos - o).dot n = q.dot (rot.transpose.mulVec n) - (rot.transpose.mulVec (o - pos)).dot (rot.transpose.mulVec n) := by
    intro q
    rw [← mulVec_dot rot q, ← mulVec_dot rot, Mat3.mulVec_mulVec, orthogonal_transpose ho, Mat3.one_mulVec]
    simp only [Vec3.dot, Vec3.sub_x, Vec3.sub_y, Vec3.sub_z, Vec3.add_x, Vec3.add_y, Vec3.add_z]; ring
  have hneg : ∀ v w : Vec3 ℝ, v.dot (-w) = -(v.dot w) := by
    intro v w; simp only [Vec3.dot, Vec3.neg_x, Vec3.neg_y, Vec3.neg_z]; ring
  unfold overlapWithWall
  constructor
  · intro h
    split at h
    · simp at h
    · rename_i hc
      refine ⟨_, ⟨_, hm, rfl⟩, ?_⟩
      rw [e]; linarith [not_lt.mp hc]
  · rintro ⟨p, ⟨q, hq, rfl⟩, hle⟩
    rw [e] at hle
    have := hf q hq
    rw [hneg, hneg] at this
    rw [if_neg]
    rw [not_lt]; linarith

/-- The test says no for shapes further apart than the range. -/
theorem C76_range {gs : List XCGeometry} (h1 : g1 ∈ gs) (h2 : g2 ∈ gs) (n1 : 0 ≤ g1.circumsphereRadius) (n2 : 0 ≤ g2.circumsphereRadius)
    (pos1 pos2 t : Vec3 ℝ) (rot1 rot2 : Mat3) (hd : (Xeno.rangeRadius gs) ^ 2 < (pos2 + t - pos1).norm2) (fuel : ℕ) :
    overlapBetween fuel g1 g2 pos1 rot1 pos2 rot2 t = .ok false := by
  have hmax : ∀ (l : List ℝ) (a : ℝ), a ≤ l.foldl max a ∧ ∀ x ∈ l, x ≤ l.foldl max a := by
    intro l
    induction l with
    | nil => intro a; exact ⟨le_refl _, by simp⟩
    | cons y l ih =>
      intro a
      obtain ⟨i1, i2⟩ := ih (max a y)
      refine ⟨(le_max_left a y).trans i1, fun x hx => ?_⟩
      rcases List.mem_cons.mp hx with rfl | hx
      · exact (le_max_right a x).trans i1
      · exact i2 x hx
  have k1 := (hmax (gs.map XCGeometry.circumsphereRadius) 0).2 _ (List.mem_map_of_mem h1)
  have k2 := (hmax (gs.map XCGeometry.circumsphereRadius) 0).2 _ (List.mem_map_of_mem h2)
  unfold Xeno.rangeRadius at hd
  unfold overlapBetween
  rw [if_pos]
  generalize (gs.map XCGeometry.circumsphereRadius).foldl max 0 = m at *
  nlinarith

end Rampack
