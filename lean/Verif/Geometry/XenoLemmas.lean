import Verif.Geometry.XenoSpec
import Verif.OutcomeLemmas
import Verif.Packing.UpscaleProps
import Mathlib.Tactic.LinearCombination
import Mathlib.Tactic.NormNum
/-
Lemmas about the search for the origin in the Minkowski difference.
-/
namespace Rampack

open Packing Spec Xeno

namespace Xeno

theorem dot_comm' (a b : Vec3 ℝ) : a.dot b = b.dot a := by simp only [Vec3.dot]; ring

theorem norm_pos_of_ne {a : Vec3 ℝ} (h : a ≠ 0) : 0 < a.norm := Real.sqrt_pos.mpr (Vec3.norm2_pos_of_ne h)

theorem normalized_dot (a n : Vec3 ℝ) : a.dot (normalized n) = a.dot n / n.norm := by
  simp only [normalized, Vec3.dot]; ring

theorem normalized_norm2 {n : Vec3 ℝ} (h : n ≠ 0) : (normalized n).norm2 = 1 := by
  have hp := norm_pos_of_ne h
  have hs := Vec3.norm_sq n
  simp only [Vec3.norm2, Vec3.dot, normalized] at hs ⊢
  field_simp
  linarith [hs]

theorem ne_of_dot_ne {n v : Vec3 ℝ} (h : n.dot v ≠ 0) : n ≠ 0 := by
  rintro rfl; apply h; simp [Vec3.dot]

theorem ne_of_dot_ne' {n v : Vec3 ℝ} (h : v.dot n ≠ 0) : n ≠ 0 := by
  rintro rfl; apply h; simp [Vec3.dot]

/-- Three planes in general position meet at the origin only. -/
theorem eq_zero_of_dots {c a b d : Vec3 ℝ} (ha : c.dot a = 0) (hb : c.dot b = 0) (hd : c.dot d = 0) (h : (b.cross d).dot a ≠ 0) : c = 0 := by
  have key : ∀ i : Fin 3, ((b.cross d).dot a) * c.get i = 0 := by
    intro i
    simp only [Vec3.dot, Vec3.cross] at *
    match i with
    | 0 =>
      simp only [Vec3.get]
      linear_combination (b.y * d.z - b.z * d.y) * ha + (d.y * a.z - d.z * a.y) * hb + (a.y * b.z - a.z * b.y) * hd
    | 1 =>
      simp only [Vec3.get]
      linear_combination (b.z * d.x - b.x * d.z) * ha + (d.z * a.x - d.x * a.z) * hb + (a.z * b.x - a.x * b.z) * hd
    | 2 =>
      simp only [Vec3.get]
      linear_combination (b.x * d.y - b.y * d.x) * ha + (d.x * a.y - d.y * a.x) * hb + (a.x * b.y - a.y * b.x) * hd
  apply Vec3.ext_get
  intro i
  have := key i
  rcases mul_eq_zero.mp this with h0 | h0
  · exact absurd h0 h
  · rw [h0]; match i with | 0 => rfl | 1 => rfl | 2 => rfl

/-- The origin is in a convex body with two points on opposite sides of it. -/
theorem mem_zero_of_collinear {M : Vec3 ℝ → Prop} (hM : ConvexBody M) {p q n : Vec3 ℝ} (hp : M p) (hq : M q) (hc : q.cross p = 0)
    (h1 : p.dot n < 0) (h2 : 0 < q.dot n) : M 0 := by
  have hs : 0 < q.dot n - p.dot n := by linarith
  have := hM q p ((-(p.dot n)) / (q.dot n - p.dot n)) hq hp (by apply div_nonneg <;> linarith) (by rw [div_le_one hs]; linarith)
  have e : (-(p.dot n) / (q.dot n - p.dot n)) • q + (1 - -(p.dot n) / (q.dot n - p.dot n)) • p = 0 := by
    have hx : q.y * p.z - q.z * p.y = 0 := congrArg Vec3.x hc
    have hy : q.z * p.x - q.x * p.z = 0 := congrArg Vec3.y hc
    have hz : q.x * p.y - q.y * p.x = 0 := congrArg Vec3.z hc
    have e1 : 1 - -(p.dot n) / (q.dot n - p.dot n) = q.dot n / (q.dot n - p.dot n) := by field_simp; ring
    rw [e1]
    generalize hD : q.dot n - p.dot n = D at hs
    ext <;> simp only [Vec3.add_x, Vec3.add_y, Vec3.add_z, Vec3.smul_x, Vec3.smul_y, Vec3.smul_z, Vec3.zero_x, Vec3.zero_y, Vec3.zero_z] <;>
      field_simp <;> simp only [Vec3.dot]
    · linear_combination n.z * hy - n.y * hz
    · linear_combination n.x * hz - n.z * hx
    · linear_combination n.y * hx - n.x * hy
  rwa [e] at this

/-- Combination of four points of a convex body with weights of a positive sum. -/
theorem convex_four {M : Vec3 ℝ → Prop} (hM : ConvexBody M) {p0 p1 p2 p3 : Vec3 ℝ} (h0 : M p0) (h1 : M p1) (h2 : M p2) (h3 : M p3)
    {a b c d : ℝ} (ha : 0 ≤ a) (hb : 0 ≤ b) (hc : 0 ≤ c) (hd : 0 ≤ d) (hs : 0 < a + b + c + d)
    (e : a • p0 + b • p1 + c • p2 + d • p3 = 0) : M 0 := by
  -- join two points with weights
  have join : ∀ (p q : Vec3 ℝ) (s t : ℝ), M p → M q → 0 ≤ s → 0 ≤ t → ∃ r, M r ∧ (s + t) • r = s • p + t • q := by
    intro p q s t hp hq hs' ht'
    rcases (add_nonneg hs' ht').lt_or_eq with hpos | hz
    · refine ⟨_, hM p q (s / (s + t)) hp hq (div_nonneg hs' hpos.le) (by rw [div_le_one hpos]; linarith), ?_⟩
      ext <;> simp only [Vec3.add_x, Vec3.add_y, Vec3.add_z, Vec3.smul_x, Vec3.smul_y, Vec3.smul_z] <;> field_simp <;> ring
    · have hs0 : s = 0 := by linarith
      have ht0 : t = 0 := by linarith
      subst hs0; subst ht0
      exact ⟨p, hp, by ext <;> simp⟩
  obtain ⟨r, hr, er⟩ := join p0 p1 a b h0 h1 ha hb
  obtain ⟨s, hs1, es⟩ := join p2 p3 c d h2 h3 hc hd
  obtain ⟨t, ht, et⟩ := join r s (a + b) (c + d) hr hs1 (by linarith) (by linarith)
  have : t = 0 := by
    rw [er, es] at et
    have e2 : (a + b + (c + d)) • t = 0 := by
      rw [et, ← e]; ext <;> simp only [Vec3.add_x, Vec3.add_y, Vec3.add_z, Vec3.smul_x, Vec3.smul_y, Vec3.smul_z] <;> ring
    have hne : a + b + (c + d) ≠ 0 := by linarith
    have hx : (a + b + (c + d)) * t.x = 0 := congrArg Vec3.x e2
    have hy : (a + b + (c + d)) * t.y = 0 := congrArg Vec3.y e2
    have hz : (a + b + (c + d)) * t.z = 0 := congrArg Vec3.z e2
    ext
    · exact (mul_eq_zero.mp hx).resolve_left hne
    · exact (mul_eq_zero.mp hy).resolve_left hne
    · exact (mul_eq_zero.mp hz).resolve_left hne
  rwa [this] at ht

/-! ### Misses -/

/-- A direction in which the body does not reach further than `δ`. -/
def Bounded (M : Vec3 ℝ → Prop) (δ : ℝ) : Prop := ∃ n : Vec3 ℝ, n.norm2 = 1 ∧ ∀ m, M m → m.dot n ≤ δ

theorem bounded_of {sup : Vec3 ℝ → Vec3 ℝ} {M : Vec3 ℝ → Prop} (hS : SupportOf sup M) {n : Vec3 ℝ} (hn : n ≠ 0) {δ : ℝ} (hδ : 0 ≤ δ)
    (h : (sup n).dot n ≤ 0) : Bounded M δ := by
  refine ⟨normalized n, normalized_norm2 hn, fun m hm => ?_⟩
  rw [normalized_dot]
  refine (div_nonpos_of_nonpos_of_nonneg ((hS.furthest n hn m hm).trans h) n.norm_nonneg).trans hδ

theorem portalNormal_dot (v1 v2 v3 : Vec3 ℝ) : v3.dot (portalNormal v1 v2 v3) = (portalNormal v1 v2 v3).dot v1 := by
  simp only [portalNormal, Vec3.dot, Vec3.cross, Vec3.sub_x, Vec3.sub_y, Vec3.sub_z]; ring

theorem refine_miss {sup : Vec3 ℝ → Vec3 ℝ} {M : Vec3 ℝ → Prop} (hS : SupportOf sup M) {tol : ℝ} (ht : 0 ≤ tol) {v0 : Vec3 ℝ} :
    ∀ (k : ℕ) (v1 v2 v3 : Vec3 ℝ), refine sup tol v0 k v1 v2 v3 = .ok false → Bounded M tol
  | 0, _, _, _, h => by simp [refine] at h
  | k + 1, v1, v2, v3, h => by
    unfold refine at h
    split at h
    · simp at h
    · rename_i hneg
      split at h
      · rename_i hm
        have hlt : (portalNormal v1 v2 v3).dot v1 < 0 := not_le.mp hneg
        have hn : portalNormal v1 v2 v3 ≠ 0 := ne_of_dot_ne hlt.ne
        have h3 := portalNormal_dot v1 v2 v3
        simp only [refinedToMiss, decide_eq_true_eq, normalized_dot] at hm
        generalize hN : portalNormal v1 v2 v3 = N at *
        have hnp := norm_pos_of_ne hn
        rcases hm with hm | hm
        · refine bounded_of hS hn ht ?_
          by_contra hc
          have := div_pos (not_le.mp hc) hnp
          linarith
        · refine ⟨normalized N, normalized_norm2 hn, fun m hmM => ?_⟩
          rw [normalized_dot]
          have h1 := div_le_div_of_nonneg_right (hS.furthest N hn m hmM) hnp.le
          have h2 : (sup N - v3).dot N / N.norm = (sup N).dot N / N.norm - v3.dot N / N.norm := by
            simp only [Vec3.dot, Vec3.sub_x, Vec3.sub_y, Vec3.sub_z]; ring
          have h4 : v3.dot N / N.norm < 0 := by rw [h3]; exact div_neg_of_neg_of_pos hlt hnp
          linarith
      · exact refine_miss hS ht k _ _ _ h

theorem normal_dot (v0 v1 v2 : Vec3 ℝ) : v0.dot ((v1 - v0).cross (v2 - v0)) = (v1.cross v2).dot v0 := by
  simp only [Vec3.dot, Vec3.cross, Vec3.sub_x, Vec3.sub_y, Vec3.sub_z]; ring

theorem findPortal_miss {sup : Vec3 ℝ → Vec3 ℝ} {M : Vec3 ℝ → Prop} (hS : SupportOf sup M) {tol : ℝ} (ht : 0 ≤ tol) {v0 : Vec3 ℝ} :
    ∀ (k : ℕ) (v1 v2 n : Vec3 ℝ), n = (v1 - v0).cross (v2 - v0) → (v1.cross v2).dot v0 < 0 → findPortal sup tol v0 k v1 v2 n = .ok false →
      Bounded M tol
  | 0, _, _, _, _, _, h => by simp [findPortal] at h
  | k + 1, v1, v2, n, hn, hD, h => by
    have hne : n ≠ 0 := by
      subst hn; exact ne_of_dot_ne' (v := v0) (by rw [normal_dot]; exact hD.ne)
    unfold findPortal at h
    split at h
    · rename_i hm; exact bounded_of hS hne ht hm
    · split at h
      · rename_i h1; exact findPortal_miss hS ht k _ _ _ rfl h1 h
      · split at h
        · rename_i h1; exact findPortal_miss hS ht k _ _ _ rfl h1 h
        · exact refine_miss hS ht k _ _ _ h

theorem triple_swap (v0 v1 v2 : Vec3 ℝ) : (v1.cross v2).dot v0 = -(v2.dot (v1.cross v0)) := by
  simp only [Vec3.dot, Vec3.cross]; ring

theorem normal_dot' (v0 v1 v2 : Vec3 ℝ) : ((v1 - v0).cross (v2 - v0)).dot v0 = (v1.cross v2).dot v0 := by
  simp only [Vec3.dot, Vec3.cross, Vec3.sub_x, Vec3.sub_y, Vec3.sub_z]; ring

theorem isVectorZero_zero : XC.isVectorZero 0 = true := by
  simp [XC.isVectorZero, XC.ZERO]

theorem ne_of_notZero {v : Vec3 ℝ} (h : ¬ XC.isVectorZero v = true) : v ≠ 0 := by
  rintro rfl; exact h isVectorZero_zero

/-- With the origin in front of the first three points the plane need not be reversed. -/
theorem fromThree_eq {sup : Vec3 ℝ → Vec3 ℝ} {tol : ℝ} {k : ℕ} {v0 v1 v2 : Vec3 ℝ} (h : 0 < v2.dot (v1.cross v0)) :
    fromThree sup tol k v0 v1 v2 = findPortal sup tol v0 k v1 v2 ((v1 - v0).cross (v2 - v0)) := by
  unfold fromThree
  rw [if_neg]
  rw [normal_dot', triple_swap]; linarith

theorem search_miss {sup : Vec3 ℝ → Vec3 ℝ} {M : Vec3 ℝ → Prop} (hS : SupportOf sup M) {tol : ℝ} (ht : 0 ≤ tol) {v0 : Vec3 ℝ} {k : ℕ}
    (h : search sup tol k v0 = .ok false) : Bounded M tol := by
  unfold search at h
  split at h
  · simp at h
  · rename_i h0
    have hv0 := ne_of_notZero h0
    have hnv : -v0 ≠ 0 := by simpa using hv0
    split at h
    · rename_i hm; exact bounded_of hS hnv ht hm
    · unfold fromTwo at h
      split at h
      · simp at h
      · rename_i hc
        split at h
        · rename_i hm; exact bounded_of hS (ne_of_notZero hc) ht hm
        · rename_i hm
          rw [fromThree_eq (not_le.mp hm)] at h
          exact findPortal_miss hS ht k _ _ _ rfl (by rw [triple_swap]; linarith [not_le.mp hm]) h

/-! ### Hits -/

/-- The triangle `v1 v2 v3` is crossed by the ray from `v0` through the origin, and none of its vertices lies on the line. -/
structure Portal (v0 v1 v2 v3 : Vec3 ℝ) : Prop where
  d12 : (v1.cross v2).dot v0 ≤ 0
  d23 : (v2.cross v3).dot v0 ≤ 0
  d31 : (v3.cross v1).dot v0 ≤ 0
  some : (v1.cross v2).dot v0 + (v2.cross v3).dot v0 + (v3.cross v1).dot v0 < 0
  n1 : v1.cross v0 ≠ 0
  n2 : v2.cross v0 ≠ 0
  n3 : v3.cross v0 ≠ 0

theorem cramer (v0 v1 v2 v3 : Vec3 ℝ) : ((portalNormal v1 v2 v3).dot v1) • v0 + (-((v2.cross v3).dot v0)) • v1 + (-((v3.cross v1).dot v0)) • v2
    + (-((v1.cross v2).dot v0)) • v3 = 0 := by
  ext <;> simp only [Vec3.add_x, Vec3.add_y, Vec3.add_z, Vec3.smul_x, Vec3.smul_y, Vec3.smul_z, Vec3.zero_x, Vec3.zero_y, Vec3.zero_z, portalNormal,
    Vec3.dot, Vec3.cross, Vec3.sub_x, Vec3.sub_y, Vec3.sub_z] <;> ring

theorem portal_hit {M : Vec3 ℝ → Prop} (hM : ConvexBody M) {v0 v1 v2 v3 : Vec3 ℝ} (h0 : M v0) (h1 : M v1) (h2 : M v2) (h3 : M v3)
    (hP : Portal v0 v1 v2 v3) (h : 0 ≤ (portalNormal v1 v2 v3).dot v1) : M 0 :=
  convex_four hM h0 h1 h2 h3 h (by linarith [hP.d23]) (by linarith [hP.d31]) (by linarith [hP.d12]) (by linarith [hP.some]) (cramer v0 v1 v2 v3)

theorem portal_normal_dot (v0 v1 v2 v3 : Vec3 ℝ) :
    v0.dot (portalNormal v1 v2 v3) = (v1.cross v2).dot v0 + (v2.cross v3).dot v0 + (v3.cross v1).dot v0 := by
  simp only [portalNormal, Vec3.dot, Vec3.cross, Vec3.sub_x, Vec3.sub_y, Vec3.sub_z]; ring

theorem balance (v0 v1 v2 v3 v4 : Vec3 ℝ) : (v2.cross v3).dot v0 * v1.dot (v4.cross v0) + (v3.cross v1).dot v0 * v2.dot (v4.cross v0)
    + (v1.cross v2).dot v0 * v3.dot (v4.cross v0) = 0 := by
  simp only [Vec3.dot, Vec3.cross]; ring

theorem cross_dot (a b c : Vec3 ℝ) : (a.cross b).dot c = a.dot (b.cross c) := by
  simp only [Vec3.dot, Vec3.cross]; ring

theorem cross_dot' (a b c : Vec3 ℝ) : (b.cross a).dot c = -(a.dot (b.cross c)) := by
  simp only [Vec3.dot, Vec3.cross]; ring

/-- One turn of the refinement keeps the portal, unless there is a tie. -/
theorem nextPortal_portal {v0 v1 v2 v3 v4 : Vec3 ℝ} (hP : Portal v0 v1 v2 v3) (h4 : v4.cross v0 ≠ 0) (hT : ¬ TieAt v0 v1 v2 v3 v4) :
    Portal v0 (nextPortal v0 v1 v2 v3 v4).1 (nextPortal v0 v1 v2 v3 v4).2.1 (nextPortal v0 v1 v2 v3 v4).2.2 := by
  have hb := balance v0 v1 v2 v3 v4
  have e14 : (v1.cross v4).dot v0 = v1.dot (v4.cross v0) := cross_dot _ _ _
  have e24 : (v2.cross v4).dot v0 = v2.dot (v4.cross v0) := cross_dot _ _ _
  have e34 : (v3.cross v4).dot v0 = v3.dot (v4.cross v0) := cross_dot _ _ _
  have e41 : (v4.cross v1).dot v0 = -v1.dot (v4.cross v0) := cross_dot' _ _ _
  have e42 : (v4.cross v2).dot v0 = -v2.dot (v4.cross v0) := cross_dot' _ _ _
  have e43 : (v4.cross v3).dot v0 = -v3.dot (v4.cross v0) := cross_dot' _ _ _
  obtain ⟨d12, d23, d31, sm, n1, n2, n3⟩ := hP
  have hT' : v3.dot (v4.cross v0) = 0 → v1.dot (v4.cross v0) ≠ 0 ∧ v2.dot (v4.cross v0) ≠ 0 := by
    intro h3
    constructor
    · intro h; exact hT ⟨h4, h3, Or.inl h⟩
    · intro h; exact hT ⟨h4, h3, Or.inr h⟩
  -- a vertex off the line cannot lie in two planes
  have z1 : (v1.cross v2).dot v0 = 0 → (v3.cross v1).dot v0 = 0 → (v2.cross v3).dot v0 ≠ 0 → False := by
    intro h h' hne
    refine n1 (eq_zero_of_dots (a := v0) (b := v2) (d := v3) ?_ ?_ ?_ hne)
    · simp only [Vec3.dot, Vec3.cross]; ring
    · rw [triple_swap] at h; rw [dot_comm']; linarith
    · rw [dot_comm']; rw [cross_dot] at h'; exact h'
  have z2 : (v1.cross v2).dot v0 = 0 → (v2.cross v3).dot v0 = 0 → (v3.cross v1).dot v0 ≠ 0 → False := by
    intro h h' hne
    refine n2 (eq_zero_of_dots (a := v0) (b := v3) (d := v1) ?_ ?_ ?_ hne)
    · simp only [Vec3.dot, Vec3.cross]; ring
    · rw [triple_swap] at h'; rw [dot_comm']; linarith
    · rw [dot_comm']; rw [cross_dot] at h; exact h
  have z3 : (v3.cross v1).dot v0 = 0 → (v2.cross v3).dot v0 = 0 → (v1.cross v2).dot v0 ≠ 0 → False := by
    intro h h' hne
    refine n3 (eq_zero_of_dots (a := v0) (b := v1) (d := v2) ?_ ?_ ?_ hne)
    · simp only [Vec3.dot, Vec3.cross]; ring
    · rw [triple_swap] at h; rw [dot_comm']; linarith
    · rw [dot_comm']; rw [cross_dot] at h'; exact h'
  have hD12 : (v1.cross v2).dot v0 = 0 ∨ (v1.cross v2).dot v0 < 0 := by rcases d12.lt_or_eq with h | h; exacts [Or.inr h, Or.inl h]
  have hD23 : (v2.cross v3).dot v0 = 0 ∨ (v2.cross v3).dot v0 < 0 := by rcases d23.lt_or_eq with h | h; exacts [Or.inr h, Or.inl h]
  have hD31 : (v3.cross v1).dot v0 = 0 ∨ (v3.cross v1).dot v0 < 0 := by rcases d31.lt_or_eq with h | h; exacts [Or.inr h, Or.inl h]
  unfold nextPortal
  by_cases c1 : v1.dot (v4.cross v0) > 0
  · rw [if_pos c1]
    by_cases c2 : v2.dot (v4.cross v0) > 0
    · rw [if_pos c2]
      refine ⟨by rw [e42]; linarith, d23, ?_, ?_, h4, n2, n3⟩
      · show (v3.cross v4).dot v0 ≤ 0
        rw [e34]
        by_contra hc
        have hc := not_le.mp hc
        have k1 := mul_nonpos_of_nonpos_of_nonneg d23 c1.le
        have k2 := mul_nonpos_of_nonpos_of_nonneg d31 c2.le
        have k3 := mul_nonpos_of_nonpos_of_nonneg d12 hc.le
        have q1 : (v2.cross v3).dot v0 * v1.dot (v4.cross v0) = 0 := by linarith
        have q2 : (v3.cross v1).dot v0 * v2.dot (v4.cross v0) = 0 := by linarith
        have q3 : (v1.cross v2).dot v0 * v3.dot (v4.cross v0) = 0 := by linarith
        have r1 := (mul_eq_zero.mp q1).resolve_right c1.ne'
        have r2 := (mul_eq_zero.mp q2).resolve_right c2.ne'
        have r3 := (mul_eq_zero.mp q3).resolve_right hc.ne'
        linarith
      · show (v4.cross v2).dot v0 + (v2.cross v3).dot v0 + (v3.cross v4).dot v0 < 0
        have k3 : (v3.cross v4).dot v0 ≤ 0 := by
          rw [e34]
          by_contra hc
          have hc := not_le.mp hc
          have k1 := mul_nonpos_of_nonpos_of_nonneg d23 c1.le
          have k2 := mul_nonpos_of_nonpos_of_nonneg d31 c2.le
          have k3 := mul_nonpos_of_nonpos_of_nonneg d12 hc.le
          have q1 : (v2.cross v3).dot v0 * v1.dot (v4.cross v0) = 0 := by linarith
          have q2 : (v3.cross v1).dot v0 * v2.dot (v4.cross v0) = 0 := by linarith
          have q3 : (v1.cross v2).dot v0 * v3.dot (v4.cross v0) = 0 := by linarith
          have r1 := (mul_eq_zero.mp q1).resolve_right c1.ne'
          have r2 := (mul_eq_zero.mp q2).resolve_right c2.ne'
          have r3 := (mul_eq_zero.mp q3).resolve_right hc.ne'
          linarith
        rw [e42]; linarith
    · rw [if_neg c2]
      have c2' := not_lt.mp c2
      refine ⟨d12, by rw [e24]; exact c2', by rw [e41]; linarith, ?_, n1, n2, h4⟩
      show (v1.cross v2).dot v0 + (v2.cross v4).dot v0 + (v4.cross v1).dot v0 < 0
      rw [e24, e41]; linarith
  · rw [if_neg c1]
    have c1' := not_lt.mp c1
    by_cases c3 : v3.dot (v4.cross v0) > 0
    · rw [if_pos c3]
      refine ⟨by rw [e14]; exact c1', by rw [e43]; linarith, d31, ?_, n1, h4, n3⟩
      show (v1.cross v4).dot v0 + (v4.cross v3).dot v0 + (v3.cross v1).dot v0 < 0
      rw [e14, e43]; linarith
    · rw [if_neg c3]
      have c3' := not_lt.mp c3
      have k1 := mul_nonneg_of_nonpos_of_nonpos d23 c1'
      have k3 := mul_nonneg_of_nonpos_of_nonpos d12 c3'
      have ha2 : 0 ≤ v2.dot (v4.cross v0) := by
        by_contra hc
        have hc := not_le.mp hc
        have k2 := mul_nonneg_of_nonpos_of_nonpos d31 hc.le
        have q1 : (v2.cross v3).dot v0 * v1.dot (v4.cross v0) = 0 := by linarith
        have q2 : (v3.cross v1).dot v0 * v2.dot (v4.cross v0) = 0 := by linarith
        have q3 : (v1.cross v2).dot v0 * v3.dot (v4.cross v0) = 0 := by linarith
        have r2 := (mul_eq_zero.mp q2).resolve_right hc.ne
        rcases mul_eq_zero.mp q3 with r3 | r3
        · rcases mul_eq_zero.mp q1 with r1 | r1
          · linarith
          · exact z1 r3 r2 (by intro h; linarith)
        · obtain ⟨u1, _⟩ := hT' r3
          have r1 := (mul_eq_zero.mp q1).resolve_right u1
          exact z3 r2 r1 (by intro h; linarith)
      refine ⟨by rw [e42]; linarith, d23, by rw [e34]; exact c3', ?_, h4, n2, n3⟩
      show (v4.cross v2).dot v0 + (v2.cross v3).dot v0 + (v3.cross v4).dot v0 < 0
      rw [e42, e34]
      rcases ha2.lt_or_eq with h | h
      · linarith
      · rcases c3'.lt_or_eq with h' | h'
        · linarith
        · exact absurd h.symm (hT' h').2

theorem refine_hit {sup : Vec3 ℝ → Vec3 ℝ} {M : Vec3 ℝ → Prop} (hS : SupportOf sup M) (hM : ConvexBody M) {tol : ℝ} {v0 : Vec3 ℝ} (h0 : M v0) :
    ∀ (k : ℕ) (v1 v2 v3 : Vec3 ℝ), M v1 → M v2 → M v3 → Portal v0 v1 v2 v3 → ¬ RefineTies sup tol v0 k v1 v2 v3 →
      refine sup tol v0 k v1 v2 v3 = .ok true → M 0
  | 0, _, _, _, _, _, _, _, _, h => by simp [refine] at h
  | k + 1, v1, v2, v3, h1, h2, h3, hP, hT, h => by
    unfold refine at h
    unfold RefineTies at hT
    split at h
    · rename_i hn; exact portal_hit hM h0 h1 h2 h3 hP hn
    · rename_i hneg
      split at h
      · simp at h
      · rename_i hm
        have hlt : (portalNormal v1 v2 v3).dot v1 < 0 := not_le.mp hneg
        have hn : portalNormal v1 v2 v3 ≠ 0 := ne_of_dot_ne hlt.ne
        have hd0 := portal_normal_dot v0 v1 v2 v3
        have hm' : refinedToMiss tol v3 (sup (portalNormal v1 v2 v3)) (portalNormal v1 v2 v3) = false := by simpa using hm
        have hm4 : M (sup (portalNormal v1 v2 v3)) := hS.mem _ hn
        have h4n : 0 < (sup (portalNormal v1 v2 v3)).dot (portalNormal v1 v2 v3) := by
          simp only [refinedToMiss, decide_eq_true_eq, normalized_dot, not_or] at hm
          have := hm.1
          by_contra hc
          have := div_nonpos_of_nonpos_of_nonneg (not_lt.mp hc) (portalNormal v1 v2 v3).norm_nonneg
          linarith
        generalize hN : portalNormal v1 v2 v3 = N at *
        generalize h4 : sup N = v4 at *
        by_cases hc : v4.cross v0 = 0
        · exact mem_zero_of_collinear hM h0 hm4 hc (by rw [hd0]; exact hP.some) h4n
        · have ht : ¬ TieAt v0 v1 v2 v3 v4 := fun ht => hT ⟨hneg, hm', Or.inl ht⟩
          have hP' := nextPortal_portal hP hc ht
          refine refine_hit hS hM h0 k _ _ _ ?_ ?_ ?_ hP' (fun ht => hT ⟨hneg, hm', Or.inr ht⟩) h
          · unfold nextPortal; split_ifs <;> assumption
          · unfold nextPortal; split_ifs <;> assumption
          · unfold nextPortal; split_ifs <;> assumption

theorem cross_ne_left {v0 v1 v2 : Vec3 ℝ} (h : (v1.cross v2).dot v0 ≠ 0) : v1.cross v0 ≠ 0 := by
  intro hc; apply h; rw [triple_swap, hc]; simp [Vec3.dot]

theorem cross_ne_right {v0 v1 v2 : Vec3 ℝ} (h : (v1.cross v2).dot v0 ≠ 0) : v2.cross v0 ≠ 0 := by
  intro hc; apply h; rw [cross_dot, hc]; simp [Vec3.dot]

theorem findPortal_hit {sup : Vec3 ℝ → Vec3 ℝ} {M : Vec3 ℝ → Prop} (hS : SupportOf sup M) (hM : ConvexBody M) {tol : ℝ} {v0 : Vec3 ℝ} (h0 : M v0) :
    ∀ (k : ℕ) (v1 v2 n : Vec3 ℝ), M v1 → M v2 → n = (v1 - v0).cross (v2 - v0) → (v1.cross v2).dot v0 < 0 →
      ¬ PortalTies sup tol v0 k v1 v2 n → findPortal sup tol v0 k v1 v2 n = .ok true → M 0
  | 0, _, _, _, _, _, _, _, _, h => by simp [findPortal] at h
  | k + 1, v1, v2, n, h1, h2, hn, hD, hT, h => by
    have hv0n : v0.dot n < 0 := by rw [hn, normal_dot]; exact hD
    have hne : n ≠ 0 := ne_of_dot_ne' hv0n.ne
    have h3 := hS.mem n hne
    unfold findPortal at h
    unfold PortalTies at hT
    split at h
    · simp at h
    · rename_i hp
      have hp := not_le.mp hp
      split at h
      · rename_i c1
        rw [if_pos c1] at hT
        exact findPortal_hit hS hM h0 k _ _ _ h1 h3 rfl c1 hT h
      · rename_i c1
        rw [if_neg c1] at hT
        split at h
        · rename_i c2
          rw [if_pos c2] at hT
          exact findPortal_hit hS hM h0 k _ _ _ h3 h2 rfl c2 hT h
        · rename_i c2
          rw [if_neg c2] at hT
          generalize sup n = v3 at *
          by_cases hc : v3.cross v0 = 0
          · exact mem_zero_of_collinear hM h0 h3 hc hv0n hp
          · have e13 : (v3.cross v1).dot v0 = -((v1.cross v3).dot v0) := by simp only [Vec3.dot, Vec3.cross]; ring
            have e23 : (v2.cross v3).dot v0 = -((v3.cross v2).dot v0) := by simp only [Vec3.dot, Vec3.cross]; ring
            refine refine_hit hS hM h0 k v1 v2 v3 h1 h2 h3 ⟨hD.le, ?_, ?_, ?_, cross_ne_left hD.ne, cross_ne_right hD.ne, hc⟩ hT h
            · rw [e23]; linarith [not_lt.mp c2]
            · rw [e13]; linarith [not_lt.mp c1]
            · rw [e13, e23]; linarith [not_lt.mp c1, not_lt.mp c2]

/-- A point of the body near the origin when the search ends because of vanishing vectors. -/
theorem near_of_cross {M : Vec3 ℝ → Prop} (hM : ConvexBody M) {v0 v1 : Vec3 ℝ} (h0 : M v0) (h1 : M v1) (hd : v1.dot v0 < 0)
    (hz : XC.isVectorZero (v1.cross v0) = true) : ∃ m, M m ∧ m.norm2 ≤ (1 / 10 ^ 6) ^ 2 := by
  simp only [XC.isVectorZero, decide_eq_true_eq, abs_lt] at hz
  obtain ⟨⟨x1, x2⟩, ⟨y1, y2⟩, z1, z2⟩ := hz
  have hL : 0 < (v1 - v0).norm2 := by
    have : (v1 - v0).norm2 = v1.norm2 + v0.norm2 - 2 * v1.dot v0 := by
      simp only [Vec3.norm2, Vec3.dot, Vec3.sub_x, Vec3.sub_y, Vec3.sub_z]; ring
    rw [this]; linarith [v1.norm2_nonneg, v0.norm2_nonneg]
  have eL : (v1 - v0).norm2 = v1.norm2 + v0.norm2 - 2 * v1.dot v0 := by
    simp only [Vec3.norm2, Vec3.dot, Vec3.sub_x, Vec3.sub_y, Vec3.sub_z]; ring
  -- the foot of the perpendicular from the origin
  have hc0 : 0 ≤ (v0.norm2 - v1.dot v0) / (v1 - v0).norm2 := div_nonneg (by linarith [v0.norm2_nonneg]) hL.le
  have hc1 : (v0.norm2 - v1.dot v0) / (v1 - v0).norm2 ≤ 1 := by
    rw [div_le_one hL, eL]; linarith [v1.norm2_nonneg]
  refine ⟨_, hM v1 v0 _ h1 h0 hc0 hc1, ?_⟩
  have hcr : (v1.cross v0).norm2 < 3 * XC.ZERO ^ 2 := by
    have b : ∀ t : ℝ, -XC.ZERO < t → t < XC.ZERO → t * t < XC.ZERO ^ 2 := fun t h h' => by nlinarith
    have := b _ x1 x2; have := b _ y1 y2; have := b _ z1 z2
    simp only [Vec3.norm2, Vec3.dot]; linarith
  have lag : (v1.cross v0).norm2 = v1.norm2 * v0.norm2 - v1.dot v0 ^ 2 := by
    simp only [Vec3.norm2, Vec3.dot, Vec3.cross]; ring
  have foot : (((v0.norm2 - v1.dot v0) / (v1 - v0).norm2) • v1 + (1 - (v0.norm2 - v1.dot v0) / (v1 - v0).norm2) • v0).norm2 * (v1 - v0).norm2
      = (v1.cross v0).norm2 := by
    have e : ∀ c : ℝ, (c • v1 + (1 - c) • v0).norm2 = c ^ 2 * v1.norm2 + (1 - c) ^ 2 * v0.norm2 + 2 * c * (1 - c) * v1.dot v0 := by
      intro c
      simp only [Vec3.norm2, Vec3.dot, Vec3.add_x, Vec3.add_y, Vec3.add_z, Vec3.smul_x, Vec3.smul_y, Vec3.smul_z]; ring
    have hcL : (v0.norm2 - v1.dot v0) / (v1 - v0).norm2 * (v1.norm2 + v0.norm2 - 2 * v1.dot v0) = v0.norm2 - v1.dot v0 := by
      rw [← eL]; exact div_mul_cancel₀ _ hL.ne'
    rw [e, lag]
    generalize (v0.norm2 - v1.dot v0) / (v1 - v0).norm2 = c at *
    rw [eL]
    linear_combination (c * (v1.norm2 + v0.norm2 - 2 * v1.dot v0) - (v0.norm2 - v1.dot v0)) * hcL
  have hL2 : 4 * (v1.cross v0).norm2 ≤ (v1 - v0).norm2 ^ 2 := by
    rw [lag, eL]
    have n1 := v1.norm2_nonneg
    have n0 := v0.norm2_nonneg
    nlinarith [sq_nonneg (v1.norm2 - v0.norm2), mul_nonneg n1 n0, mul_nonneg (add_nonneg n1 n0) (neg_nonneg.mpr hd.le), sq_nonneg (v1.dot v0)]
  have hz : 3 * XC.ZERO ^ 2 ≤ 4 * (1 / 10 ^ 12) ^ 2 := by unfold XC.ZERO; norm_num
  generalize (((v0.norm2 - v1.dot v0) / (v1 - v0).norm2) • v1 + (1 - (v0.norm2 - v1.dot v0) / (v1 - v0).norm2) • v0).norm2 = d at *
  generalize (v1 - v0).norm2 = L at *
  generalize (v1.cross v0).norm2 = C at *
  -- d * L = C, 4 C ≤ L ^ 2, C < 3 ZERO ^ 2
  by_contra hc
  have hc : (1 / 10 ^ 12 : ℝ) < d := by have := not_le.mp hc; norm_num at this ⊢; linarith
  have hC0 : 0 < C := by rw [← foot]; exact mul_pos (lt_trans (by norm_num) hc) hL
  have h4 : 4 * d ≤ L := by
    have : 4 * (d * L) ≤ L * L := by rw [foot]; linarith [hL2, sq L]
    have h5 : (4 * d) * L ≤ L * L := by linarith
    exact le_of_mul_le_mul_right h5 hL
  have : 4 * d * d ≤ C := by rw [← foot]; nlinarith
  nlinarith

theorem search_hit {sup : Vec3 ℝ → Vec3 ℝ} {M : Vec3 ℝ → Prop} (hS : SupportOf sup M) (hM : ConvexBody M) {tol : ℝ} {v0 : Vec3 ℝ} (h0 : M v0) {k : ℕ}
    (hT : ¬ PortalTies sup tol v0 k (sup (-v0)) (sup ((sup (-v0)).cross v0))
      ((sup (-v0) - v0).cross (sup ((sup (-v0)).cross v0) - v0)))
    (h : search sup tol k v0 = .ok true) : ∃ m, M m ∧ m.norm2 ≤ (1 / 10 ^ 6) ^ 2 := by
  unfold search at h
  split at h
  · rename_i hz
    refine ⟨v0, h0, ?_⟩
    simp only [XC.isVectorZero, decide_eq_true_eq, abs_lt] at hz
    obtain ⟨⟨x1, x2⟩, ⟨y1, y2⟩, z1, z2⟩ := hz
    have b : ∀ t : ℝ, -XC.ZERO < t → t < XC.ZERO → t * t < XC.ZERO ^ 2 := fun t h h' => by nlinarith
    have := b _ x1 x2; have := b _ y1 y2; have := b _ z1 z2
    have hz : 3 * XC.ZERO ^ 2 ≤ (1 / 10 ^ 6) ^ 2 := by unfold XC.ZERO; norm_num
    simp only [Vec3.norm2, Vec3.dot]; linarith
  · rename_i hz
    have hv0 := ne_of_notZero hz
    have hnv : -v0 ≠ 0 := by simpa using hv0
    have h1 := hS.mem _ hnv
    split at h
    · simp at h
    · rename_i hp
      have hp := not_le.mp hp
      have hd : (sup (-v0)).dot v0 < 0 := by
        have : (sup (-v0)).dot (-v0) = -((sup (-v0)).dot v0) := by simp only [Vec3.dot, Vec3.neg_x, Vec3.neg_y, Vec3.neg_z]; ring
        linarith
      generalize sup (-v0) = v1 at *
      unfold fromTwo at h
      split at h
      · rename_i hc; exact near_of_cross hM h0 h1 hd hc
      · rename_i hc
        have h2 := hS.mem _ (ne_of_notZero hc)
        split at h
        · simp at h
        · rename_i hm
          have hm := not_le.mp hm
          rw [fromThree_eq hm] at h
          generalize sup (v1.cross v0) = v2 at *
          have := findPortal_hit hS hM h0 k v1 v2 _ h1 h2 rfl (by rw [triple_swap]; linarith) hT h
          exact ⟨0, this, by simp [Vec3.norm2, Vec3.dot]⟩

end Xeno

end Rampack
