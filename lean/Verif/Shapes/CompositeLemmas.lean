import Verif.Shapes.VolumeRow
import Verif.Shapes.HardRangeProps
import Verif.Shapes.AxesProps
import Std.Data.String.ToNat
/-
Lemmas on families of molecules made of spheres in a row.
-/
namespace Rampack.Composite

open Rampack Spec Shapes Volume

theorem make_ok {p : Vec3 ℝ} {r : ℝ} (h : 0 < r) : SphereData.make p r = .ok ⟨p, r⟩ := by
  rw [SphereData.make, decide_eq_true h]
  rfl

theorem kmerSpheres_eq {r : ℝ} (hr : 0 < r) (d : ℝ) : ∀ (n : Nat) (z : ℝ), kmerSpheres r d n z = .ok (row n (fun k => z + k * d) fun _ => r)
  | 0, z => rfl
  | n + 1, z => by
    rw [kmerSpheres, make_ok hr, kmerSpheres_eq hr d n, row_cons]
    simp only [Outcome.ok_bind]
    congr 2
    · simp
    · apply row_congr
      · intro k _; push_cast; ring
      · intro k _; rfl

theorem wedgeSpheres_eq (δ p : ℝ) : ∀ (n : Nat) (z r : ℝ), (∀ k < n, 0 < r + (k : ℝ) * δ) →
    wedgeSpheres δ p n z r = .ok (row n (fun k => z + k * (2 * r - p) + (k : ℝ) ^ 2 * δ) fun k => r + k * δ)
  | 0, z, r, _ => rfl
  | n + 1, z, r, h => by
    have h0 := h 0 (by omega)
    simp only [Nat.cast_zero, zero_mul, add_zero] at h0
    rw [wedgeSpheres, make_ok h0, wedgeSpheres_eq δ p n, row_cons]
    · simp only [Outcome.ok_bind]
      congr 2
      · simp
      · apply row_congr
        · intro k _; push_cast; ring
        · intro k _; push_cast; ring
    · intro k hk
      have := h (k + 1) (by omega)
      push_cast at this
      linarith

theorem stickSpheres_eq {r : ℝ} (hr : 0 < r) (s : ℝ) : ∀ (n : Nat) (z : ℝ), stickSpheres r s (n + 1) z = .ok (row (n + 1) (fun k => z + k * s) (fun _ => r), z + n * s)
  | 0, z => by
    rw [stickSpheres, make_ok hr]
    simp [stickSpheres, row]
  | n + 1, z => by
    rw [stickSpheres, make_ok hr, if_neg (by omega), stickSpheres_eq hr s n, row_cons (n + 1)]
    simp only [Outcome.ok_bind]
    congr 2
    · congr 1
      · simp
      · apply row_congr
        · intro k _; push_cast; ring
        · intro k _; rfl
    · push_cast; ring

theorem intersection_eq {r1 r2 d : ℝ} (h1 : 0 < r1) (h2 : 0 < r2) (hd : 0 < d) (h : d ≤ r1 + r2) : sphereIntersection r1 r2 d = .ok (common r1 r2 d) := by
  rw [sphereIntersection, decide_eq_true h1, decide_eq_true h2, decide_eq_true hd, decide_eq_true h, common]
  simp only [Outcome.require_true, Outcome.ok_bind]
  rcases eq_or_lt_of_le h with e | e
  · rw [if_neg (by linarith), e]; simp
  · rw [if_pos e]

theorem common_comm (r1 r2 d : ℝ) : common r1 r2 d = common r2 r1 d := by
  unfold common
  rw [add_comm r2 r1]
  split
  · ring
  · rfl

theorem common_far {r1 r2 d : ℝ} (h : r1 + r2 ≤ d) : common r1 r2 d = 0 := by rw [common, if_neg (not_lt.mpr h)]

theorem subtract_eq : ∀ (n : Nat) (c r : Nat → ℝ) (v : ℝ), (∀ k < n + 1, 0 < r k) → (∀ k < n, 0 < c (k + 1) - c k ∧ c (k + 1) - c k ≤ r k + r (k + 1)) →
    subtractOverlaps (row (n + 1) c r) v = .ok (v - ∑ k ∈ Finset.range n, common (r k) (r (k + 1)) (c (k + 1) - c k))
  | 0, c, r, v, _, _ => by
    rw [row_cons]
    simp [row, subtractOverlaps]
  | n + 1, c, r, v, hr, hc => by
    have ih := subtract_eq n (fun k => c (k + 1)) (fun k => r (k + 1)) (v - common (r 0) (r 1) (c 1 - c 0)) (fun k hk => hr (k + 1) (by omega)) (fun k hk => hc (k + 1) (by omega))
    have h0 := hc 0 (by omega)
    rw [row_cons, row_cons, subtractOverlaps, intersection_eq (hr 0 (by omega)) (hr 1 (by omega)) h0.1 h0.2]
    rw [row_cons] at ih
    rw [Outcome.ok_bind, ih, Finset.sum_range_succ']
    congr 1
    simp only [zero_add]
    ring

theorem foldl_base (data : List SphereData) : ∀ v : ℝ, data.foldl (fun v d => v + 4 / 3 * Real.pi * d.radius ^ 3) v = v + (data.map fun d => 4 / 3 * Real.pi * d.radius ^ 3).sum := by
  induction data with
  | nil => simp
  | cons d rest ih =>
    intro v
    rw [List.foldl_cons, ih, List.map_cons, List.sum_cons]
    ring

theorem baseVolume_row (n : Nat) (c r : Nat → ℝ) : baseVolume (row n c r) = ∑ k ∈ Finset.range n, 4 / 3 * Real.pi * r k ^ 3 := by
  unfold baseVolume
  rw [foldl_base, zero_add]
  induction n with
  | zero => simp [row]
  | succ n ih => rw [row_succ, List.map_append, List.sum_append, ih, Finset.sum_range_succ]; simp

theorem vget_row {n k : Nat} (h : k < n) (c r : Nat → ℝ) : vget (row n c r) k = .ok ⟨⟨0, 0, c k⟩, r k⟩ := by
  rw [vget, row_get h]

theorem front_row (n : Nat) (c r : Nat → ℝ) : front (row (n + 1) c r) = .ok ⟨⟨0, 0, c 0⟩, r 0⟩ := vget_row (by omega) c r

theorem back_row (n : Nat) (c r : Nat → ℝ) : back (row (n + 1) c r) = .ok ⟨⟨0, 0, c n⟩, r n⟩ := by
  rw [back, row_length]
  exact vget_row (by omega) c r

theorem moved_row {n : Nat} {c r : Nat → ℝ} (hr : ∀ k < n, 0 < r k) (t : ℝ) :
    ((row n c r).mapM fun d => SphereData.make (d.position + ⟨0, 0, t⟩) d.radius) = .ok (row n (fun k => c k + t) r) := by
  induction n generalizing c r with
  | zero => rfl
  | succ n ih =>
    rw [row_cons, row_cons, List.mapM_cons, make_ok (hr 0 (by omega)), ih fun k hk => hr (k + 1) (by omega)]
    simp only [Outcome.ok_bind, Outcome.pure_eq]
    congr 3
    ext <;> simp

theorem centred_row {n : Nat} {c r : Nat → ℝ} (hr : ∀ k < n + 1, 0 < r k) :
    centred (row (n + 1) c r) = .ok (row (n + 1) (fun k => c k + -((c 0 - r 0 + (c n + r n)) / 2)) r) := by
  rw [centred, front_row, back_row]
  exact moved_row hr _

/-- Names of points of spheres are different. -/
theorem sphere_names (data : List SphereData) : ((spherePoints data).map Prod.fst).Nodup := by
  unfold spherePoints
  rw [List.map_map]
  have : (Prod.fst ∘ fun d : SphereData × Nat => ("s" ++ toString d.2, d.1.position)) = (fun k => "s" ++ toString k) ∘ Prod.snd := rfl
  rw [this, ← List.map_map, List.zipIdx_map_snd]
  refine List.Nodup.map ?_ (List.nodup_range' ..)
  intro a b hab
  have h : ("s" ++ toString a).toList = ("s" ++ toString b).toList := by rw [show "s" ++ toString a = "s" ++ toString b from hab]
  rw [String.toList_append, String.toList_append] at h
  exact Nat.repr_injective (String.toList_injective (List.append_cancel_left h))

/-- Other names do not begin with the letter `s` followed by a number. -/
theorem other_names {name : String} (h : ∀ k : Nat, "s" ++ toString k ≠ name) (data : List SphereData) : ∀ q ∈ spherePoints data, q.1 ≠ name := by
  intro q hq
  obtain ⟨d, _, rfl⟩ := List.mem_map.mp hq
  exact h d.2

theorem name_append (k : Nat) (t : String) (h : "s" ++ toString k = "s" ++ t) : toString k = t := by
  have h : ("s" ++ toString k).toList = ("s" ++ t).toList := by rw [h]
  rw [String.toList_append, String.toList_append] at h
  exact String.toList_injective (List.append_cancel_left h)

theorem name_first {k : Nat} {t : String} (h : "s" ++ toString k = t) : t.toList.head? = some 's' := by
  rw [← h, String.toList_append]
  rfl

theorem repr_digits {k : Nat} {t : String} (h : toString k = t) : ∀ c ∈ t.toList, c.isDigit := by
  intro c hc
  rw [← h] at hc
  have : (toString k).toList = Nat.toDigits 10 k := by
    rw [show toString k = Nat.repr k from rfl, Nat.toList_repr]
  rw [this] at hc
  exact Nat.isDigit_of_mem_toDigits (by omega) (by omega) hc

theorem not_cm (k : Nat) : "s" ++ toString k ≠ "cm" := fun h => by have := name_first h; revert this; decide
theorem not_beg (k : Nat) : "s" ++ toString k ≠ "beg" := fun h => by have := name_first h; revert this; decide
theorem not_end (k : Nat) : "s" ++ toString k ≠ "end" := fun h => by have := name_first h; revert this; decide
theorem not_ss (k : Nat) : "s" ++ toString k ≠ "ss" := fun h => by
  have := repr_digits (name_append k "s" h) 's' (by decide)
  revert this; decide
theorem not_st (k : Nat) : "s" ++ toString k ≠ "st" := fun h => by
  have := repr_digits (name_append k "t" h) 't' (by decide)
  revert this; decide

/-- Points can be registered under new different names. -/
theorem register_new (G : Geometry) (l : List (String × Vec3 ℝ)) (hG : (G.points.map Prod.fst).Nodup) (hn : (l.map Prod.fst).Nodup) (hd : ∀ p ∈ l, ∀ q ∈ G.points, q.1 ≠ p.1) :
    G.registerPoints l = .ok { G with points := G.points ++ l } ∧ ((G.points ++ l).map Prod.fst).Nodup := by
  obtain ⟨G', h⟩ := registerPoints_some hn hd
  obtain ⟨e1, e2⟩ := registerPoints_spec h hG
  rw [h, e1]
  rw [e1] at e2
  exact ⟨rfl, e2⟩

/-- The geometry of a molecule with the axis z and points at its spheres. -/
def axisGeometry (data : List SphereData) (secondary : Option (Vec3 ℝ)) : Geometry := ⟨some ⟨0, 0, 1⟩, secondary, 0, spherePoints data, false⟩

theorem mk_ok (data : List SphereData) {secondary : Option (Vec3 ℝ)} (hs : secondary = none ∨ secondary = some ⟨1, 0, 0⟩) :
    Geometry.mkPoly false (some ⟨0, 0, 1⟩) secondary 0 (spherePoints data) [] = .ok (axisGeometry data secondary) := by
  have h1 : Geometry.normalizeAxis (some ⟨0, 0, 1⟩) = .ok (some ⟨0, 0, 1⟩) := normalizeAxis_some (normalize_unit (by simp [Vec3.norm2, Vec3.dot]))
  have h2 : Geometry.normalizeAxis secondary = .ok secondary := by
    rcases hs with rfl | rfl
    · rfl
    · exact normalizeAxis_some (normalize_unit (by simp [Vec3.norm2, Vec3.dot]))
  have h3 := (register_new ⟨some ⟨0, 0, 1⟩, secondary, 0, [], false⟩ (spherePoints data) (by simp) (sphere_names data) (by simp)).1
  unfold Geometry.mkPoly
  rw [h1, h2]
  simp only [Option.isSome_some, Bool.true_or, Outcome.require_true, Outcome.ok_bind]
  rw [h3]
  rfl

theorem build_ok {data : List SphereData} (hne : data ≠ []) {secondary : Option (Vec3 ℝ)} (hs : secondary = none ∨ secondary = some ⟨1, 0, 0⟩) (v : ℝ) :
    build data secondary v = .ok ⟨data, v, axisGeometry data secondary⟩ := by
  unfold build
  rw [mk_ok data hs]
  cases data with
  | nil => exact absurd rfl hne
  | cons => rfl

/-- Balls which are apart. -/
theorem apart {c1 c3 r1 r3 : ℝ} (h1 : 0 < r1) (h3 : 0 < r3) (h : r1 + r3 ≤ c3 - c1) : points (Ball ⟨0, 0, c1⟩ r1) ∩ points (Ball ⟨0, 0, c3⟩ r3) = ∅ := by
  rw [points_ball, points_ball]
  ext p
  simp only [Set.mem_inter_iff, Set.mem_setOf_eq, Set.mem_empty_iff_false, iff_false, not_and, not_lt]
  intro h1'
  have h2 : (p.2 - c1) ^ 2 < r1 ^ 2 := by nlinarith [sq_nonneg p.1.1, sq_nonneg p.1.2]
  have h3' : p.2 - c1 < r1 := lt_of_pow_lt_pow_left₀ 2 h1.le h2
  nlinarith [sq_nonneg p.1.1, sq_nonneg p.1.2]

/-- Rows with radii which change by the same number, and with the same penetration of neighbours. -/
theorem wedge_ordered {n : Nat} {z r δ p : ℝ} (hr : ∀ k < n, 0 < r + (k : ℝ) * δ) (hp : ∀ k < n, p < 2 * (r + (k : ℝ) * δ)) :
    Ordered n (fun k => z + k * (2 * r - p) + (k : ℝ) ^ 2 * δ) fun k => r + k * δ := by
  have up : ∀ k, k + 1 < n → 0 < 2 * r + 2 * (k : ℝ) * δ + δ - p := by
    intro k hk
    have h1 := hp k (by omega)
    have h2 := hp (k + 1) hk
    push_cast at h2
    linarith
  refine ⟨hr, ?_, ?_, ?_, ?_⟩
  · intro k hk
    have := up k hk
    push_cast
    nlinarith
  · intro k hk
    have := hp (k + 1) hk
    push_cast at this ⊢
    nlinarith
  · intro k hk
    have := hp k (by omega)
    push_cast
    nlinarith
  · intro i j hij hj
    have hi := hr i (by omega)
    have hj' := hr (j + 1) hj
    have hpi := hp i (by omega)
    have hpj := hp j (by omega)
    have hpm := hp (j + 1) hj
    have hij' : (i : ℝ) + 1 ≤ j := by exact_mod_cast hij
    push_cast at hpm hj' ⊢
    have e13 : z + ((j : ℝ) + 1) * (2 * r - p) + ((j : ℝ) + 1) ^ 2 * δ - (z + i * (2 * r - p) + (i : ℝ) ^ 2 * δ) = ((j : ℝ) + 1 - i) * (r + i * δ + (r + ((j : ℝ) + 1) * δ) - p) := by ring
    have e12 : z + (j : ℝ) * (2 * r - p) + (j : ℝ) ^ 2 * δ - (z + i * (2 * r - p) + (i : ℝ) ^ 2 * δ) = ((j : ℝ) - i) * (r + i * δ + (r + (j : ℝ) * δ) - p) := by ring
    have e23 : z + ((j : ℝ) + 1) * (2 * r - p) + ((j : ℝ) + 1) ^ 2 * δ - (z + (j : ℝ) * (2 * r - p) + (j : ℝ) ^ 2 * δ) = r + j * δ + (r + ((j : ℝ) + 1) * δ) - p := by ring
    rcases le_total 0 p with h0 | h0
    · apply between
      · rw [← sub_nonneg, e12]
        exact mul_nonneg (by linarith) (by linarith)
      · rw [← sub_nonneg, e23]; linarith
      · rw [← sub_pos, e13]
        exact mul_pos (by linarith) (by linarith)
      · rw [show ∀ a b c : ℝ, a - b - c + _ = (a - b - c) + _ from fun _ _ _ => rfl]
        refine add_nonneg ?_ ?_
        · rw [e13, e12, e23]
          have : ((j : ℝ) + 1 - i) * (r + i * δ + (r + ((j : ℝ) + 1) * δ) - p) * (r + j * δ) ^ 2 - (r + j * δ + (r + ((j : ℝ) + 1) * δ) - p) * (r + i * δ) ^ 2 -
              ((j : ℝ) - i) * (r + i * δ + (r + (j : ℝ) * δ) - p) * (r + ((j : ℝ) + 1) * δ) ^ 2 = ((j : ℝ) + 1 - i) * ((j : ℝ) - i) * δ ^ 2 * p := by ring
          rw [this]
          have h1 : 0 ≤ (j : ℝ) + 1 - i := by linarith
          have h2 : 0 ≤ (j : ℝ) - i := by linarith
          positivity
        · rw [e13, e12, e23]
          exact mul_nonneg (mul_nonneg (mul_nonneg (by linarith) (by linarith)) (by linarith)) (mul_nonneg (by linarith) (by linarith))
    · rw [apart hi hj']
      · exact Set.empty_subset _
      · rw [e13]
        nlinarith

end Rampack.Composite
