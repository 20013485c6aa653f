import Verif.Packing.UpscaleSpec
import Verif.Packing.Props
/-
Helper lemmas: expanding the box.
-/
namespace Rampack.Packing

open Rampack.Spec Rampack.Grid

theorem molSites_single {I : Interaction} (h : I.centres = []) (b : Box) (s : Shape) : molSites b I s = [⟨s.pos, s.rot, 0⟩] := by
  simp [molSites, h]

theorem pairOverlaps_single {P : Packing} {I : Interaction} (h : I.centres = []) (s t : Shape) :
    pairOverlaps P I s t = if P.ng.isSome then overlappingImages P.box I ⟨s.pos, s.rot, 0⟩ ⟨t.pos, t.rot, 0⟩
      else overlappingNearest P.box I ⟨s.pos, s.rot, 0⟩ ⟨t.pos, t.rot, 0⟩ := by
  unfold pairOverlaps sitePairs
  simp [molSites_single h]

theorem overlapsOf_zero {P : Packing} {I : Interaction} (hP : PInv P I) (hc : I.centres = []) (ht : UsesTranslation I)
    (h : NoOverlaps P.box I (mols P)) {i : Nat} (hi : i < P.size) : overlapsOf P I i (P.shapeFn i) = 0 := by
  unfold overlapsOf
  rw [others_sum hi, List.sum_eq_zero_iff]
  intro k hk
  rw [List.mem_map] at hk
  obtain ⟨j, hj, rfl⟩ := hk
  rw [List.mem_filter, List.mem_range] at hj
  have key := h i j _ _ (by rw [mols_getElem? hi, shape_some hi]) (by rw [mols_getElem? hj.1, shape_some hj.1])
    (by have := hj.2; simp at this; exact fun h => this h.symm)
  rw [pairOverlaps_single hc]
  split_ifs
  · unfold overlappingImages
    rw [show {t : Vec3 ℤ | I.overlap ⟨(P.shapeFn i).pos, (P.shapeFn i).rot, 0⟩ ⟨(P.shapeFn j).pos, (P.shapeFn j).rot, 0⟩ (BC.hard (lattice P.box t)) = true} = ∅ by
      ext t; simp [key t]]
    simp
  · unfold overlappingNearest
    obtain ⟨⟨n, hn⟩, -⟩ := C06_translation hP.q.core.box.make (P.shapeFn i).pos (P.shapeFn j).pos
    rw [ht.overlap]
    show (if I.overlap _ _ (BC.hard (PBC.getTranslation P.box (P.shapeFn i).pos (P.shapeFn j).pos)) = true then 1 else 0) = 0
    rw [hn, key n]
    simp

theorem numTotal_zero {P : Packing} {I : Interaction} (hP : PInv P I) (hI : Contract I) (hc : I.centres = []) (ht : UsesTranslation I)
    (hw : P.hasWall = ⟨false, false, false⟩) (h : NoOverlaps P.box I (mols P)) : numTotal P I = 0 := by
  unfold numTotal
  rw [double_overlaps hP hI]
  have e1 : ((List.range P.size).map fun i => overlapsOf P I i (P.shapeFn i)).sum = 0 := by
    rw [List.sum_eq_zero_iff]
    intro k hk
    rw [List.mem_map] at hk
    obtain ⟨i, hi, rfl⟩ := hk
    exact overlapsOf_zero hP hc ht h (List.mem_range.mp hi)
  have e2 : ((List.range P.size).map fun i => wallNum P.box P.hasWall I (P.shapeFn i)).sum = 0 := by
    rw [List.sum_eq_zero_iff]
    intro k hk
    rw [List.mem_map] at hk
    obtain ⟨i, hi, rfl⟩ := hk
    exact wallNum_of_none I (by simp [hasAnyWalls, hw]) _
  rw [e1, e2]; simp

/-- If two molecules overlap, the count is positive. -/
theorem numTotal_pos {P : Packing} {I : Interaction} (hP : PInv P I) (hI : Contract I) (hc : I.centres = []) (ht : UsesTranslation I)
    {i j : Nat} {s t : Shape} (hs : (mols P)[i]? = some s) (ht' : (mols P)[j]? = some t) (hij : i ≠ j)
    (h : I.overlap ⟨s.pos, s.rot, 0⟩ ⟨t.pos, t.rot, 0⟩ (BC.pbc P.box) = true) : 0 < numTotal P I := by
  obtain ⟨hi, rfl⟩ := mem_mols hs
  obtain ⟨hj, rfl⟩ := mem_mols ht'
  refine lt_of_lt_of_le ?_ (single_le_total hP hI hi)
  have hin := (hP.q.core.shapeFn hi).2
  rw [single_overlaps hP hI hi hin]
  have : 0 < overlapsOf P I i (P.shapeFn i) := by
    unfold overlapsOf
    rw [others_sum hi]
    refine lt_of_lt_of_le ?_ (List.single_le_sum (fun _ _ => Nat.zero_le _) (pairOverlaps P I (P.shapeFn i) (P.shapeFn j))
      (List.mem_map.mpr ⟨j, List.mem_filter.mpr ⟨List.mem_range.mpr hj, by simpa using hij.symm⟩, rfl⟩))
    rw [pairOverlaps_single hc]
    split_ifs with hg
    · obtain ⟨g, hg⟩ := Option.isSome_iff_exists.mp hg
      obtain ⟨hx, hy, hz⟩ := heights_of_grid hP hg
      obtain ⟨⟨n, hn⟩, -⟩ := C06_translation hP.q.core.box.make (P.shapeFn i).pos (P.shapeFn j).pos
      rw [ht.overlap] at h
      have h : I.overlap _ _ (BC.hard (PBC.getTranslation P.box (P.shapeFn i).pos (P.shapeFn j).pos)) = true := h
      rw [hn] at h
      unfold overlappingImages
      refine (Set.ncard_pos ?_).mpr ⟨n, h⟩
      · refine (shifts.finite_toSet).subset ?_
        intro t ht
        exact image_shift hP.q.core.box hI.range_pos hx hy hz hin (hP.q.core.shapeFn hj).2 (hI.overlap_range _ _ _ ht)
    · unfold overlappingNearest; rw [if_pos h]; exact Nat.one_pos
  have h1 : (0 : ℝ) < (overlapsOf P I i (P.shapeFn i) : ℕ) := by exact_mod_cast this
  have h2 : (0 : ℝ) ≤ (wallNum P.box P.hasWall I (P.shapeFn i) : ℕ) := Nat.cast_nonneg _
  linarith

/-- Without overlaps counted through the grid there are none. -/
theorem noOverlaps_of_count {P : Packing} {I : Interaction} (hP : PInv P I) (hI : Contract I) (hc : I.centres = [])
    (hg : P.ng.isSome = true) (h : numTotal P I = 0) : NoOverlaps P.box I (mols P) := by
  intro i j s t hs ht hij n
  by_contra hn
  simp only [Bool.not_eq_false] at hn
  obtain ⟨hi, rfl⟩ := mem_mols hs
  obtain ⟨hj, rfl⟩ := mem_mols ht
  have hin := (hP.q.core.shapeFn hi).2
  have h1 := single_le_total hP hI hi
  rw [single_overlaps hP hI hi hin, h] at h1
  have : 0 < overlapsOf P I i (P.shapeFn i) := by
    unfold overlapsOf
    rw [others_sum hi]
    refine lt_of_lt_of_le ?_ (List.single_le_sum (fun _ _ => Nat.zero_le _) (pairOverlaps P I (P.shapeFn i) (P.shapeFn j))
      (List.mem_map.mpr ⟨j, List.mem_filter.mpr ⟨List.mem_range.mpr hj, by simpa using hij.symm⟩, rfl⟩))
    rw [pairOverlaps_single hc, if_pos hg]
    obtain ⟨g, hg⟩ := Option.isSome_iff_exists.mp hg
    obtain ⟨hx, hy, hz⟩ := heights_of_grid hP hg
    unfold overlappingImages
    refine (Set.ncard_pos ?_).mpr ⟨n, hn⟩
    · refine (shifts.finite_toSet).subset ?_
      intro t ht
      exact image_shift hP.q.core.box hI.range_pos hx hy hz hin (hP.q.core.shapeFn hj).2 (hI.overlap_range _ _ _ ht)
  have h3 : (0 : ℝ) < (overlapsOf P I i (P.shapeFn i) : ℕ) := by exact_mod_cast this
  have h2 : (0 : ℝ) ≤ (wallNum P.box P.hasWall I (P.shapeFn i) : ℕ) := Nat.cast_nonneg _
  linarith

theorem scaledState_mols (P : Packing) (b : Box) (as : List (Vec3 ℝ)) (og : Option NG) (n : Int) :
    mols (P.scaledState b as og n) = (mols P).map (Shape.rescale P.box b) := by
  apply List.ext_getElem?
  intro i
  rw [List.getElem?_map]
  by_cases hi : i < P.size
  · rw [mols_getElem? (by rw [scaledState_size]; exact hi), mols_getElem? hi]
    exact scaledShapes_get P b hi
  · rw [List.getElem?_eq_none (by rw [mols_length, scaledState_size]; omega), List.getElem?_eq_none (by rw [mols_length]; omega)]; rfl

/-- The separation in a rescaled box. -/
theorem rescale_sep {b b' : Box} (hb : b.WF) (s t : Shape) (n : Vec3 ℤ) : ∃ r : Vec3 ℝ,
    t.pos + lattice b n - s.pos = b.dims.mulVec r ∧
    (t.rescale b b').pos + lattice b' n - (s.rescale b b').pos = b'.dims.mulVec r := by
  have hl : ∀ c : Box, lattice c n = c.dims.mulVec (n.map fun k : ℤ => (k : ℝ)) := by
    intro c
    ext <;> simp [lattice, combo, Mat3.mulVec, Vec3.dot, Mat3.c0, Mat3.c1, Mat3.c2] <;> ring
  have ha : ∀ p : Vec3 ℝ, b.dims.mulVec (b.absToRel p) = p := fun p => Box.relToAbs_absToRel hb p
  refine ⟨b.absToRel t.pos + n.map (fun k : ℤ => (k : ℝ)) - b.absToRel s.pos, ?_, ?_⟩
  · rw [Mat3.mulVec_sub, Mat3.mulVec_add, ha, ha, hl]
  · rw [Mat3.mulVec_sub, Mat3.mulVec_add, hl]; rfl

end Rampack.Packing
