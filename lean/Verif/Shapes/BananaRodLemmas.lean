import Verif.Shapes.BananaProps
/-
Rods on the chords of an arc.
-/
namespace Rampack.Banana

open Rampack Spec Shapes Composite Volume

/-- The data of a rod. -/
noncomputable def rodOf (p h : Vec3 ℝ) (r : ℝ) : RodData := ⟨p, h, h.norm, r, r + h.norm⟩

theorem rod_make {r : ℝ} (hr : 0 < r) (p h : Vec3 ℝ) : RodData.make p h r = .ok (rodOf p h r) := by
  unfold RodData.make
  rw [decide_eq_true (show r > 0 from hr)]
  rfl

/-- The part `j` of a divided rod. -/
noncomputable def partOf (p axis : Vec3 ℝ) (m : ℕ) (r : ℝ) (j : ℕ) : RodData := rodOf (p + (((j : ℝ) + 1 / 2) / (m : ℝ)) • axis) ((1 / (2 * (m : ℝ))) • axis) r

theorem segmentParts_eq {r : ℝ} (hr : 0 < r) (p axis : Vec3 ℝ) (m : ℕ) : ∀ n j, segmentParts p axis m r n j = .ok ((List.range n).map fun k => partOf p axis m r (j + k))
  | 0, _ => rfl
  | n + 1, j => by
    rw [segmentParts, rod_make hr, Outcome.ok_bind, segmentParts_eq hr p axis m n (j + 1), Outcome.ok_bind, List.range_succ_eq_map, List.map_cons, List.map_map]
    congr 2
    apply List.map_congr_left
    intro k _
    simp only [Function.comp_apply]
    congr 1
    omega

/-- The parts of one chord. -/
noncomputable def chordParts (p q : Vec3 ℝ) (m : ℕ) (r : ℝ) : List RodData := (List.range m).map fun k => partOf p (q - p) m r k

theorem arcSegments_eq {r : ℝ} (hr : 0 < r) (R s : ℝ) (m : ℕ) : ∀ (n : ℕ) (a : ℝ),
    arcSegments R s m r n a = .ok ((List.range n).flatMap fun k : ℕ => chordParts (arcPoint 0 R (a - s / 2 + k * s)) (arcPoint 0 R (a - s / 2 + ((k : ℝ) + 1) * s)) m r)
  | 0, _ => rfl
  | n + 1, a => by
    rw [arcSegments]
    simp only [rotated]
    rw [segmentParts_eq hr, Outcome.ok_bind, arcSegments_eq hr R s m n, Outcome.ok_bind, List.range_succ_eq_map, List.flatMap_cons, List.flatMap_map]
    congr 2
    · unfold chordParts
      simp only [Nat.zero_add]
      rw [show a - s / 2 + ((0 : ℕ) : ℝ) * s = a - s / 2 by simp, show a - s / 2 + (((0 : ℕ) : ℝ) + 1) * s = a + s / 2 by push_cast; ring]
    · apply List.flatMap_congr
      intro k _
      congr 2 <;> push_cast <;> ring

theorem movedRods_eq {t : Vec3 ℝ} : ∀ {l : List RodData}, (∀ d ∈ l, 0 < d.radius) → movedRods t l = .ok (l.map fun d => rodOf (d.position + t) d.halfAxis d.radius)
  | [], _ => rfl
  | d :: rest, h => by
    rw [movedRods, rod_make (h d (by simp)), Outcome.ok_bind, movedRods_eq fun d hd => h d (List.mem_cons_of_mem _ hd)]
    rfl

theorem chordParts_moved (p q t : Vec3 ℝ) (m : ℕ) (r : ℝ) : (chordParts p q m r).map (fun d => rodOf (d.position + t) d.halfAxis d.radius) = chordParts (p + t) (q + t) m r := by
  unfold chordParts
  rw [List.map_map]
  apply List.map_congr_left
  intro k _
  simp only [Function.comp_apply, partOf, rodOf]
  have e : q + t - (p + t) = q - p := by ext <;> simp
  rw [e]
  congr 1
  ext <;> simp <;> ring

/-- The vertex `k` of the chain of `n` chords. -/
noncomputable def vertex (R A : ℝ) (n k : ℕ) : Vec3 ℝ := arcPoint (arcCentre R A) R (ang A n k)

/-- All rods. -/
noncomputable def arcRods (R A : ℝ) (n : ℕ) (r : ℝ) (m : ℕ) : List RodData := (List.range n).flatMap fun k => chordParts (vertex R A n k) (vertex R A n (k + 1)) m r

theorem chordParts_radius {p q : Vec3 ℝ} {m : ℕ} {r : ℝ} {d : RodData} (h : d ∈ chordParts p q m r) : d.radius = r := by
  obtain ⟨k, -, rfl⟩ := List.mem_map.mp h
  rfl

theorem arcPoint_moved (x0 R a t : ℝ) : arcPoint x0 R a + ⟨t, 0, 0⟩ = arcPoint (x0 + t) R a := by
  unfold arcPoint
  ext <;> simp
  ring

theorem chordParts_cons (p q : Vec3 ℝ) (m : ℕ) (r : ℝ) : chordParts p q (m + 1) r = partOf p (q - p) (m + 1) r 0 :: ((List.range m).map Nat.succ).map fun k => partOf p (q - p) (m + 1) r k := by
  unfold chordParts
  rw [List.range_succ_eq_map, List.map_cons]

theorem part_beg (p q : Vec3 ℝ) (m : ℕ) (r : ℝ) : (partOf p (q - p) (m + 1) r 0).position - (partOf p (q - p) (m + 1) r 0).halfAxis = p := by
  have hm : ((m + 1 : ℕ) : ℝ) ≠ 0 := by exact_mod_cast Nat.succ_ne_zero m
  simp only [partOf, rodOf]
  ext <;> simp only [Vec3.sub_x, Vec3.sub_y, Vec3.sub_z, Vec3.add_x, Vec3.add_y, Vec3.add_z, Vec3.smul_x, Vec3.smul_y, Vec3.smul_z, Nat.cast_zero] <;> field_simp <;> ring

theorem part_end (p q : Vec3 ℝ) (m : ℕ) (r : ℝ) : (partOf p (q - p) (m + 1) r m).position + (partOf p (q - p) (m + 1) r m).halfAxis = q := by
  have hm : ((m : ℝ) + 1) ≠ 0 := by exact_mod_cast Nat.succ_ne_zero m
  simp only [partOf, rodOf]
  push_cast
  ext <;> simp only [Vec3.sub_x, Vec3.sub_y, Vec3.sub_z, Vec3.add_x, Vec3.add_y, Vec3.add_z, Vec3.smul_x, Vec3.smul_y, Vec3.smul_z] <;> field_simp <;> ring

theorem translatedRods_eq {R A r : ℝ} (hr : 0 < r) (n m : ℕ) :
    translatedRods A ((List.range (n + 1)).flatMap fun k : ℕ => chordParts (arcPoint 0 R (ang A (n + 1) k)) (arcPoint 0 R (ang A (n + 1) (k + 1))) (m + 1) r) = .ok (arcRods R A (n + 1) r (m + 1)) := by
  unfold translatedRods arcRods vertex arcCentre
  split
  next h =>
    have hf : vget ((List.range (n + 1)).flatMap fun k : ℕ => chordParts (arcPoint 0 R (ang A (n + 1) k)) (arcPoint 0 R (ang A (n + 1) (k + 1))) (m + 1) r) 0 =
        .ok (partOf (arcPoint 0 R (ang A (n + 1) 0)) (arcPoint 0 R (ang A (n + 1) (0 + 1)) - arcPoint 0 R (ang A (n + 1) 0)) (m + 1) r 0) := by
      rw [List.range_succ_eq_map, List.flatMap_cons, chordParts_cons]
      rfl
    rw [hf, Outcome.ok_bind, part_beg, movedRods_eq]
    · congr 1
      rw [List.map_flatMap]
      apply List.flatMap_congr
      intro k _
      rw [chordParts_moved, arcPoint_moved, arcPoint_moved]
      have : 0 + -(arcPoint 0 R (ang A (n + 1) 0)).x = R * Real.cos (A / 2) := by
        rw [ang_zero]
        simp only [arcPoint]
        rw [neg_div, Real.cos_neg]; ring
      rw [this]
    · intro d hd
      obtain ⟨k, -, hd⟩ := List.mem_flatMap.mp hd
      rw [chordParts_radius hd]; exact hr
  next h => rfl

/-- A divided rod is the same body. -/
theorem divided (p q : Vec3 ℝ) {m : ℕ} (hm : 0 < m) (r : ℝ) (x : Vec3 ℝ) : (∃ d ∈ chordParts p q m r, RodData.Inside d x) ↔ Capsule p q r x := by
  have hm0 : (0 : ℝ) < m := by exact_mod_cast hm
  have hpart : ∀ k : ℕ, ∀ w : ℝ, (partOf p (q - p) m r k).position - (partOf p (q - p) m r k).halfAxis + w • ((partOf p (q - p) m r k).position + (partOf p (q - p) m r k).halfAxis -
      ((partOf p (q - p) m r k).position - (partOf p (q - p) m r k).halfAxis)) = p + (((k : ℝ) + w) / m) • (q - p) := by
    intro k w
    simp only [partOf, rodOf]
    ext <;> simp only [Vec3.sub_x, Vec3.sub_y, Vec3.sub_z, Vec3.add_x, Vec3.add_y, Vec3.add_z, Vec3.smul_x, Vec3.smul_y, Vec3.smul_z] <;> field_simp <;> ring
  constructor
  · rintro ⟨d, hd, y, ⟨w, h0, h1, rfl⟩, hb⟩
    obtain ⟨k, hk, rfl⟩ := List.mem_map.mp hd
    rw [List.mem_range] at hk
    have hk' : (k : ℝ) + 1 ≤ m := by exact_mod_cast hk
    rw [hpart] at hb
    refine ⟨_, ⟨((k : ℝ) + w) / m, by positivity, ?_, rfl⟩, hb⟩
    rw [div_le_one hm0]; linarith
  · rintro ⟨y, ⟨t, h0, h1, rfl⟩, hb⟩
    obtain ⟨k, hk, h2, h3⟩ : ∃ k : ℕ, k < m ∧ (k : ℝ) ≤ t * m ∧ t * m ≤ k + 1 := by
      by_cases hf : ⌊t * m⌋₊ < m
      · exact ⟨_, hf, Nat.floor_le (by positivity), (Nat.lt_floor_add_one _).le⟩
      · refine ⟨m - 1, by omega, ?_, ?_⟩
        · have h4 : (m : ℝ) ≤ t * m := (Nat.le_floor_iff (by positivity)).mp (not_lt.mp hf)
          have h5 : ((m - 1 : ℕ) : ℝ) ≤ m := by exact_mod_cast Nat.sub_le m 1
          linarith
        · have h5 : ((m - 1 : ℕ) : ℝ) + 1 = m := by exact_mod_cast Nat.sub_add_cancel hm
          rw [h5]
          exact mul_le_of_le_one_left hm0.le h1
    refine ⟨_, List.mem_map.mpr ⟨k, List.mem_range.mpr hk, rfl⟩, _, ⟨t * m - k, by linarith, by linarith, rfl⟩, ?_⟩
    rw [hpart, show ((k : ℝ) + (t * m - k)) / m = t by field_simp; ring]
    exact hb

end Rampack.Banana
