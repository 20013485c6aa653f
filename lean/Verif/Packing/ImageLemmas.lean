import Verif.Packing.HistoryLemmas
import Verif.Box.Props
/-
Helper lemmas: sums over the 27 translations used by the grid are sums over all periodic images; sums in terms of the
list of molecules.
-/
namespace Rampack.Packing

open Rampack.Spec Rampack.Grid

/-- Images within the range are reached by the translations the grid uses. -/
theorem image_shift {b : Box} (hb : b.WF) {r : ℝ} (hr : 0 < r) (hx : r < b.heights.x) (hy : r < b.heights.y)
    (hz : r < b.heights.z) {p q : Vec3 ℝ} (hp : Inside b p) (hq : Inside b q) {t : Vec3 ℤ}
    (h : dist2 p (q + lattice b t) ≤ r ^ 2) : t ∈ shifts := by
  have e : dist2 p (q + lattice b t) = (q + lattice b t - p).norm2 := by
    simp only [dist2, Vec3.norm2, Vec3.dot, Vec3.sub_x, Vec3.sub_y, Vec3.sub_z]; ring
  rw [e] at h
  have hn := norm_le_of_norm2_le hr.le h
  obtain ⟨h1, h2, h3⟩ := Box.height_mul_rel_le hb (q + lattice b t - p)
  obtain ⟨px, py, pz⟩ := (Box.inside_iff hb _).mp hp
  obtain ⟨qx, qy, qz⟩ := (Box.inside_iff hb _).mp hq
  have er : b.absToRel (q + lattice b t - p) = b.absToRel q + t.map (fun k : ℤ => (k : ℝ)) - b.absToRel p := by
    rw [← Box.absToRel_lattice hb]
    ext <;> simp [Box.absToRel, Mat3.mulVec, Vec3.dot] <;> ring
  rw [er] at h1 h2 h3
  simp only [Vec3.sub_x, Vec3.sub_y, Vec3.sub_z, Vec3.add_x, Vec3.add_y, Vec3.add_z, Vec3.map_x, Vec3.map_y, Vec3.map_z] at h1 h2 h3
  have key : ∀ (k : ℤ) (hh u v : ℝ), r < hh → 0 ≤ u → u < 1 → 0 ≤ v → v < 1 →
      |v + (k : ℝ) - u| * hh ≤ (q + lattice b t - p).norm → -1 ≤ k ∧ k ≤ 1 := by
    intro k hh u v h0 u0 u1 v0 v1 h4
    have hlt : |v + (k : ℝ) - u| < 1 := by
      by_contra hc
      push Not at hc
      nlinarith
    rw [abs_lt] at hlt
    have a1 : ((-2 : ℤ) : ℝ) < k := by push_cast; linarith
    have a2 : (k : ℝ) < ((2 : ℤ) : ℝ) := by push_cast; linarith
    have a1' : -2 < k := by exact_mod_cast a1
    have a2' : k < 2 := by exact_mod_cast a2
    omega
  rw [mem_shifts]
  exact ⟨key _ _ _ _ hx px.1 px.2 qx.1 qx.2 h1, key _ _ _ _ hy py.1 py.2 qy.1 qy.2 h2, key _ _ _ _ hz pz.1 pz.2 qz.1 qz.2 h3⟩

theorem pairW_images {b : Box} (hb : b.WF) {I : Interaction} (hI : Contract I) (hx : I.range < b.heights.x)
    (hy : I.range < b.heights.y) (hz : I.range < b.heights.z) {s1 s2 : Site} (h1 : Inside b s1.pos) (h2 : Inside b s2.pos) :
    pairW b true (ind I) s1 s2 = (overlappingImages b I s1 s2 : ℕ) := by
  classical
  have hset : {t : Vec3 ℤ | I.overlap s1 s2 (BC.hard (lattice b t)) = true} =
      ((shifts.filter fun t => I.overlap s1 s2 (BC.hard (lattice b t)) = true : Finset (Vec3 ℤ)) : Set (Vec3 ℤ)) := by
    ext t
    simp only [Set.mem_ofPred_eq, Finset.coe_filter]
    constructor
    · intro h; exact ⟨image_shift hb hI.range_pos hx hy hz h1 h2 (hI.overlap_range _ _ _ h), h⟩
    · intro h; exact h.2
  unfold overlappingImages
  rw [hset, Set.ncard_coe_finset, Finset.card_filter]
  simp only [pairW, if_true, ind]
  push_cast
  rfl

theorem pairW_energy {b : Box} (hb : b.WF) {I : Interaction} (hI : Contract I) (hx : I.range < b.heights.x)
    (hy : I.range < b.heights.y) (hz : I.range < b.heights.z) {s1 s2 : Site} (h1 : Inside b s1.pos) (h2 : Inside b s2.pos) :
    pairW b true I.energy s1 s2 = energyImages b I s1 s2 := by
  unfold energyImages
  simp only [pairW, if_true]
  rw [finsum_eq_sum_of_support_subset]
  intro t ht
  rw [Function.mem_support] at ht
  exact image_shift hb hI.range_pos hx hy hz h1 h2 (hI.energy_range _ _ _ ht)

theorem pairW_nearest (b : Box) (I : Interaction) (s1 s2 : Site) : pairW b false (ind I) s1 s2 = (overlappingNearest b I s1 s2 : ℕ) := by
  simp only [pairW, ind, overlappingNearest]
  split_ifs <;> simp_all

/-! ### Sums over molecules -/

theorem sitePairs_congr {α : Type} [AddCommMonoid α] {b : Box} (hb : b.WF) {I : Interaction} {f g : Site → Site → α} {s1 s2 : Shape}
    (h1 : Inside b s1.pos) (h2 : Inside b s2.pos)
    (h : ∀ x y, Inside b x.pos → Inside b y.pos → f x y = g x y) : sitePairs b I f s1 s2 = sitePairs b I g s1 s2 := by
  unfold sitePairs
  congr 1
  apply List.map_congr_left
  intro x hx
  congr 1
  apply List.map_congr_left
  intro y hy
  exact h x y (molSites_inside hb h1 x hx) (molSites_inside hb h2 y hy)

theorem sitePairs_cast (b : Box) (I : Interaction) (f : Site → Site → ℕ) (s1 s2 : Shape) :
    ((sitePairs b I f s1 s2 : ℕ) : ℝ) = sitePairs b I (fun x y => (f x y : ℝ)) s1 s2 := by
  unfold sitePairs
  rw [nat_sum_cast, List.map_map]
  congr 1
  apply List.map_congr_left
  intro x _
  simp only [Function.comp]
  rw [nat_sum_cast, List.map_map]
  rfl

theorem mols_eq_map {P : Packing} : mols P = (List.range P.size).map P.shapeFn := by
  apply List.ext_getElem?
  intro i
  by_cases hi : i < P.size
  · rw [mols_getElem? hi, shape_some hi, List.getElem?_map, List.getElem?_range hi]; rfl
  · rw [List.getElem?_eq_none (by rw [mols_length]; omega), List.getElem?_eq_none (by simp; omega)]

theorem eraseIdx_range (n i : Nat) (hi : i < n) : (List.range n).eraseIdx i = (List.range n).filter (· ≠ i) := by
  rw [← List.erase_eq_eraseIdx_of_idxOf (a := i), List.nodup_range.erase_eq_filter]
  · congr 1
    funext x
    by_cases h : x = i <;> simp [h]
  · have := List.Nodup.idxOf_getElem (xs := List.range n) List.nodup_range i (by simpa using hi)
    rwa [List.getElem_range] at this

theorem others_sum {α : Type} [AddCommMonoid α] {P : Packing} {i : Nat} (hi : i < P.size) (f : Shape → α) :
    (((mols P).eraseIdx i).map f).sum = (((List.range P.size).filter (· ≠ i)).map fun j => f (P.shapeFn j)).sum := by
  rw [mols_eq_map, List.eraseIdx_map, eraseIdx_range _ _ hi, List.map_map]; rfl

theorem mols_sum {α : Type} [AddCommMonoid α] {P : Packing} (f : Shape → α) :
    ((mols P).map f).sum = ((List.range P.size).map fun j => f (P.shapeFn j)).sum := by
  rw [mols_eq_map, List.map_map]; rfl

theorem inside_mols {P : Packing} {I : Interaction} (hP : PInv P I) : ∀ s ∈ mols P, Inside P.box s.pos := by
  intro s hs
  rw [mols_eq_map] at hs
  obtain ⟨j, hj, rfl⟩ := List.mem_map.mp hs
  exact (hP.q.core.shapeFn (List.mem_range.mp hj)).2

theorem heights_of_grid {P : Packing} {I : Interaction} (hP : PInv P I) {g : NG} (hg : P.ng = some g) :
    I.range < P.box.heights.x ∧ I.range < P.box.heights.y ∧ I.range < P.box.heights.z := by
  obtain ⟨cells, cs, -, h0, h1, h2, h3, -⟩ := hP.q.grid g hg
  rw [hP.q.core.range_eq] at h0
  exact ⟨lt_of_le_of_lt h0 h1, lt_of_le_of_lt h0 h2, lt_of_le_of_lt h0 h3⟩

end Rampack.Packing
