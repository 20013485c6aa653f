import Verif.Packing.LookLemmas
import Verif.Packing.WallSpec
import Mathlib.Tactic.LinearCombination
namespace Rampack

open Rampack.Spec Rampack.Packing

theorem wallSites_eq (I : Interaction) (s : Shape) : wallSites I s = bodySites I s := rfl

theorem normalized_norm2 {v : Vec3 ℝ} (h : 0 < v.norm) : (normalized v).norm2 = 1 := by
  have h2 := v.norm_sq
  have : (normalized v).norm2 = v.norm2 / v.norm ^ 2 := by
    simp only [normalized, Vec3.norm2, Vec3.dot]
    field_simp
  rw [this, h2, div_self]
  rw [← h2]; positivity

theorem normalized_dot (v w : Vec3 ℝ) : (normalized v).dot w = v.dot w / v.norm := by
  simp only [normalized, Vec3.dot]; ring

theorem cross_dot_left (u v : Vec3 ℝ) : (u.cross v).dot u = 0 := by simp only [Vec3.cross, Vec3.dot]; ring
theorem cross_dot_right (u v : Vec3 ℝ) : (u.cross v).dot v = 0 := by simp only [Vec3.cross, Vec3.dot]; ring

/-- The normal used by the code is the inward one in right-handed boxes. -/
theorem inward_cross {u v w : Vec3 ℝ} (h : 0 < (u.cross v).dot w) : Inward u v w (normalized (u.cross v)) := by
  have hn : 0 < (u.cross v).norm := by
    have := Vec3.abs_dot_le (u.cross v) w
    have h1 := (u.cross v).norm_nonneg
    rcases h1.lt_or_eq with h1 | h1
    · exact h1
    · rw [← h1, zero_mul] at this
      have := abs_pos.mpr h.ne'
      linarith
  refine ⟨normalized_norm2 hn, ?_, ?_, ?_⟩
  · rw [normalized_dot, cross_dot_left, zero_div]
  · rw [normalized_dot, cross_dot_right, zero_div]
  · rw [normalized_dot]; positivity

/-- There is only one inward normal. -/
theorem Inward.unique {u v w n n' : Vec3 ℝ} (hd : (u.cross v).dot w ≠ 0) (h : Inward u v w n) (h' : Inward u v w n') : n = n' := by
  -- a vector perpendicular to all three sides vanishes
  have key : ∀ d : Vec3 ℝ, d.dot u = 0 → d.dot v = 0 → d.dot w = 0 → d = 0 := by
    intro d h1 h2 h3
    have e : ∀ a : Vec3 ℝ, (u.cross v).dot w * d.dot a =
        ((v.cross w).dot a) * d.dot u + ((w.cross u).dot a) * d.dot v + ((u.cross v).dot a) * d.dot w := by
      intro a; simp only [Vec3.cross, Vec3.dot]; ring
    have z : ∀ a : Vec3 ℝ, d.dot a = 0 := by
      intro a
      have := e a
      rw [h1, h2, h3] at this
      simp only [mul_zero, add_zero] at this
      exact (mul_eq_zero.mp this).resolve_left hd
    ext
    · simpa [Vec3.dot] using z ⟨1, 0, 0⟩
    · simpa [Vec3.dot] using z ⟨0, 1, 0⟩
    · simpa [Vec3.dot] using z ⟨0, 0, 1⟩
  have lin : ∀ (a c : ℝ) (p q r : Vec3 ℝ), (a • p - c • q).dot r = a * p.dot r - c * q.dot r := by
    intro a c p q r
    simp only [Vec3.dot, Vec3.sub_x, Vec3.sub_y, Vec3.sub_z, Vec3.smul_x, Vec3.smul_y, Vec3.smul_z]; ring
  have h0 := key ((n'.dot w) • n - (n.dot w) • n') (by rw [lin, h.perp_u, h'.perp_u]; ring)
    (by rw [lin, h.perp_v, h'.perp_v]; ring) (by rw [lin]; ring)
  have hx : n'.dot w * n.x = n.dot w * n'.x := by have := congrArg Vec3.x h0; simp at this; linarith
  have hy : n'.dot w * n.y = n.dot w * n'.y := by have := congrArg Vec3.y h0; simp at this; linarith
  have hz : n'.dot w * n.z = n.dot w * n'.z := by have := congrArg Vec3.z h0; simp at this; linarith
  have e1 := h.unit
  have e2 := h'.unit
  simp only [Vec3.norm2] at e1 e2
  have hsq : (n'.dot w) ^ 2 = (n.dot w) ^ 2 := by
    have a1 : (n'.dot w) ^ 2 * n.dot n = (n.dot w) ^ 2 * n'.dot n' := by
      have a2 : (n'.dot w) ^ 2 * n.dot n = (n'.dot w * n.x) ^ 2 + (n'.dot w * n.y) ^ 2 + (n'.dot w * n.z) ^ 2 := by
        simp only [Vec3.dot]; ring
      have a3 : (n.dot w) ^ 2 * n'.dot n' = (n.dot w * n'.x) ^ 2 + (n.dot w * n'.y) ^ 2 + (n.dot w * n'.z) ^ 2 := by
        simp only [Vec3.dot]; ring
      rw [a2, a3, hx, hy, hz]
    rw [e1, e2, mul_one, mul_one] at a1
    exact a1
  have heq : n'.dot w = n.dot w := (sq_eq_sq₀ h'.inner.le h.inner.le).mp hsq
  rw [heq] at hx hy hz
  have hne := h.inner.ne'
  ext
  · exact mul_left_cancel₀ hne hx
  · exact mul_left_cancel₀ hne hy
  · exact mul_left_cancel₀ hne hz

theorem count_map_true {α : Type} (f : α → Bool) (l : List α) : (l.map f).count true = l.countP f := by
  induction l with
  | nil => rfl
  | cons a l ih => cases h : f a <;> simp [List.countP_cons, h, ih]

theorem countP_zero {α : Type} {f : α → Bool} {l : List α} (h : ∀ x ∈ l, f x ≠ true) : l.countP f = 0 :=
  List.countP_eq_zero.mpr h

/-- One axis. -/
theorem wallAxis_count {b : Box} {I : Interaction} {s : Shape} (hr : WallRange I s) {u v w : Vec3 ℝ} (hd : 0 < (u.cross v).dot w)
    (hc : corner b = w + u + v) (hh : I.totalRange ≤ (u.cross v).dot w / (u.cross v).norm) :
    (wallAxis b I s true u v).count true = axisOverlaps b I s (normalized (u.cross v)) := by
  have hin := inward_cross hd
  set n := normalized (u.cross v) with hn
  have hcn : (corner b - s.pos).dot n + s.pos.dot n = (u.cross v).dot w / (u.cross v).norm := by
    have h1 : n.dot w = (u.cross v).dot w / (u.cross v).norm := normalized_dot _ _
    rw [← h1, hc]
    have h2 := hin.perp_u
    have h3 := hin.perp_v
    simp only [Vec3.dot, Vec3.sub_x, Vec3.sub_y, Vec3.sub_z, Vec3.add_x, Vec3.add_y, Vec3.add_z] at h2 h3 ⊢
    linear_combination h2 + h3
  have near : ¬ s.pos.dot n < I.totalRange / 2 → (bodySites I s).countP (fun x => I.wall x 0 n) = 0 := by
    intro h
    refine countP_zero fun x hx hw => h ?_
    have := hr 0 n hin.unit x hx hw
    simpa [Vec3.dot] using this
  have hneg : (-n).norm2 = 1 := by
    rw [← hin.unit]; simp only [Vec3.norm2, Vec3.dot, Vec3.neg_x, Vec3.neg_y, Vec3.neg_z]; ring
  have far : ¬ (corner b - s.pos).dot n < I.totalRange / 2 → (bodySites I s).countP (fun x => I.wall x (corner b) (-n)) = 0 := by
    intro h
    refine countP_zero fun x hx hw => h ?_
    have := hr (corner b) (-n) hneg x hx hw
    have e : (corner b - s.pos).dot n = (s.pos - corner b).dot (-n) := by
      simp only [Vec3.dot, Vec3.sub_x, Vec3.sub_y, Vec3.sub_z, Vec3.neg_x, Vec3.neg_y, Vec3.neg_z]; ring
    rw [e]; exact this
  have e : wallAxis b I s true u v =
      if s.pos.dot n < I.totalRange / 2 then (bodySites I s).map fun x => I.wall x 0 n
      else if (corner b - s.pos).dot n < I.totalRange / 2 then (bodySites I s).map fun x => I.wall x (corner b) (-n)
      else [] := by
    unfold wallAxis
    rw [if_neg (by simp)]
    rfl
  rw [e, axisOverlaps]
  by_cases h1 : s.pos.dot n < I.totalRange / 2
  · rw [if_pos h1, count_map_true, far (by linarith), Nat.add_zero]
  · rw [if_neg h1, near h1, Nat.zero_add]
    by_cases h2 : (corner b - s.pos).dot n < I.totalRange / 2
    · rw [if_pos h2, count_map_true]
    · rw [if_neg h2, far h2]; rfl

theorem wallAxis_false (b : Box) (I : Interaction) (s : Shape) (u v : Vec3 ℝ) : wallAxis b I s false u v = [] := by
  simp [wallAxis]

/-- The normals used by the code. -/
noncomputable def codeNormals (b : Box) : Vec3 (Vec3 ℝ) :=
  ⟨normalized (b.sides.y.cross b.sides.z), normalized (b.sides.z.cross b.sides.x), normalized (b.sides.x.cross b.sides.y)⟩

theorem wallNum_eq {b : Box} (hd : 0 < b.dims.det) {I : Interaction} {s : Shape} (hr : WallRange I s) {hw : Vec3 Bool} (ht : ThickEnough b hw I) : wallNum b hw I s = wallOverlaps b hw I (codeNormals b) s := by
  have hv : b.volume = b.dims.det := by rw [Box.volume_eq, abs_of_pos hd]
  unfold wallNum wallOverlaps
  rw [List.count_append, List.count_append]
  congr 1
  · congr 1
    · cases hx : hw.x with
      | false => rw [wallAxis_false]; simp
      | true =>
        rw [if_pos rfl]
        refine wallAxis_count hr (w := b.sides.x) (by rw [Box.triple_yzx]; exact hd) (by unfold corner; abel) ?_
        have := ht.1 hx
        rwa [Box.heights, hv, ← Box.triple_yzx] at this
    · cases hx : hw.y with
      | false => rw [wallAxis_false]; simp
      | true =>
        rw [if_pos rfl]
        refine wallAxis_count hr (w := b.sides.y) (by rw [Box.triple_zxy]; exact hd) (by unfold corner; abel) ?_
        have := ht.2.1 hx
        rwa [Box.heights, hv, ← Box.triple_zxy] at this
  · cases hx : hw.z with
      | false => rw [wallAxis_false]; simp
      | true =>
        rw [if_pos rfl]
        refine wallAxis_count hr (w := b.sides.z) (by rw [Box.triple_eq_det]; exact hd) (by unfold corner; abel) ?_
        have := ht.2.2 hx
        rwa [Box.heights, hv, ← Box.triple_eq_det] at this

theorem norm_mulVec {R : Mat3} (h : R.transpose * R = 1) (v : Vec3 ℝ) : (R.mulVec v).norm = v.norm := by
  have h2 : (R.mulVec v).norm2 = v.norm2 := by
    have e : (R.mulVec v).norm2 = v.dot ((R.transpose * R).mulVec v) := by
      show _ = v.dot ((Mat3.mul R.transpose R).mulVec v)
      simp only [Mat3.mul, Mat3.transpose, Mat3.mulVec, Mat3.c0, Mat3.c1, Mat3.c2, Vec3.norm2, Vec3.dot]; ring
    rw [e, h]
    show v.dot (Mat3.one.mulVec v) = _
    simp [Mat3.one, Mat3.mulVec, Vec3.norm2, Vec3.dot]
  simp only [Vec3.norm, h2]

/-- Interactions with the right ranges of sites have the right range of molecules which are properly oriented. -/
theorem WallRange.of_sites {I : Interaction} (hs : SiteWallRange I) (ht : TotalRange I) {s : Shape} (hr : s.rot.transpose * s.rot = 1) :
    WallRange I s := by
  intro o n hn x hx hw
  have h1 := hs x o n hn hw
  unfold bodySites at hx
  split_ifs at hx with h0
  · rw [List.mem_singleton] at hx
    subst hx
    exact lt_of_lt_of_le h1 (by linarith [ht.1])
  · simp only [List.mem_map, List.mem_range] at hx
    obtain ⟨k, hk, rfl⟩ := hx
    have hc : I.centres.getD k 0 ∈ I.centres := by
      rw [List.getD_eq_getElem?_getD, List.getElem?_eq_getElem hk]; exact List.getElem_mem hk
    have h2 := ht.2 _ hc
    set c := I.centres.getD k 0
    have h3 := Vec3.abs_dot_le (s.rot.mulVec c) n
    have hn1 : n.norm = 1 := by rw [Vec3.norm, hn, Real.sqrt_one]
    rw [norm_mulVec hr, hn1, mul_one] at h3
    have h4 := (abs_le.mp h3).1
    have e : (s.pos + s.rot.mulVec c - o).dot n = (s.pos - o).dot n + (s.rot.mulVec c).dot n := by
      simp only [Vec3.dot, Vec3.sub_x, Vec3.sub_y, Vec3.sub_z, Vec3.add_x, Vec3.add_y, Vec3.add_z]; ring
    have h1 : (s.pos + s.rot.mulVec c - o).dot n < I.range / 2 := h1
    rw [e] at h1
    linarith

end Rampack
