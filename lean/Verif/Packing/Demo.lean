import Verif.Packing.HistoryLemmas
import Verif.Packing.PropSpec
import Verif.Grid.Props
/-
Concrete packings used in the examples beside the theorems: square-well hard balls (optionally several per molecule).
-/
namespace Rampack.Packing

open Rampack.Spec Rampack.Grid

/-- Molecules made of hard balls of radius `r` at the given centres (one ball in the middle, if there are none), with an
attraction up to the distance `3 r`. -/
noncomputable def ballsI (cs : List (Vec3 ℝ)) (r total : ℝ) : Interaction where
  hasHard := true
  hasSoft := true
  isConvex := cs.isEmpty
  centres := cs
  range := 3 * r
  totalRange := total
  overlap := fun s1 s2 bc => decide (dist2 s1.pos (s2.pos + bc.translation s1.pos s2.pos) < (2 * r) ^ 2)
  energy := fun s1 s2 bc => if dist2 s1.pos (s2.pos + bc.translation s1.pos s2.pos) ≤ (3 * r) ^ 2 then -1 else 0
  wall := fun s o v => decide ((s.pos - o).dot v < r)

theorem dist2_flip (p q t : Vec3 ℝ) : dist2 p (q + t) = dist2 q (p + -t) := by
  simp only [dist2, Vec3.add_x, Vec3.add_y, Vec3.add_z, Vec3.neg_x, Vec3.neg_y, Vec3.neg_z]; ring

theorem ballsI_contract (cs : List (Vec3 ℝ)) {r : ℝ} (hr : 0 < r) (total : ℝ) : Contract (ballsI cs r total) where
  range_pos := by simp only [ballsI]; linarith
  overlap_symm := by intro s1 s2 t; simp only [ballsI, BC.hard]; rw [dist2_flip]
  overlap_symm_pbc := by
    intro m b s1 s2 hb
    show decide (dist2 s1.pos (s2.pos + PBC.getTranslation b s1.pos s2.pos) < _) =
      decide (dist2 s2.pos (s1.pos + PBC.getTranslation b s2.pos s1.pos) < _)
    rw [dist2_flip, (C06_translation hb s1.pos s2.pos).2.2.2.2]
  overlap_range := by
    intro s1 s2 t h
    simp only [ballsI, BC.hard, decide_eq_true_eq] at h ⊢
    nlinarith
  energy_symm := by intro s1 s2 t; simp only [ballsI, BC.hard]; rw [dist2_flip]
  energy_symm_pbc := by
    intro m b s1 s2 hb
    show (if dist2 s1.pos (s2.pos + PBC.getTranslation b s1.pos s2.pos) ≤ _ then (-1 : ℝ) else 0) =
      if dist2 s2.pos (s1.pos + PBC.getTranslation b s2.pos s1.pos) ≤ _ then -1 else 0
    rw [dist2_flip, (C06_translation hb s1.pos s2.pos).2.2.2.2]
  energy_range := by
    intro s1 s2 t h
    simp only [ballsI, BC.hard, ne_eq, ite_eq_right_iff, not_forall] at h ⊢
    exact h.1
  noHard_overlap := by intro h; simp [ballsI] at h
  noHard_wall := by intro h; simp [ballsI] at h

theorem ballsI_translation (cs : List (Vec3 ℝ)) (r total : ℝ) : UsesTranslation (ballsI cs r total) :=
  ⟨fun _ _ _ => rfl, fun _ _ _ => rfl⟩

/-- Two molecules whose centres are 1/20 apart through the face of the unit cube. -/
noncomputable def twoShapes : List Shape := [⟨⟨1 / 40, 1 / 2, 1 / 2⟩, 1⟩, ⟨⟨39 / 40, 1 / 2, 1 / 2⟩, 1⟩]

theorem twoShapes_inside : ∀ s ∈ twoShapes, Inside unitBox s.pos := by
  intro s hs
  simp only [twoShapes, List.mem_cons, List.not_mem_nil, or_false] at hs
  rcases hs with rfl | rfl <;> exact unitBox_inside (by norm_num) (by norm_num) (by norm_num)

theorem unitBox_wf : unitBox.WF := (Box.make_wf unitBox_ok).1

theorem unitBox_volume : unitBox.volume = 1 := by
  have hs : unitBox.sides = ⟨⟨1, 0, 0⟩, ⟨0, 1, 0⟩, ⟨0, 0, 1⟩⟩ := by
    simp [Box.sides, Box.relToAbs, unitBox, Mat3.diag, Mat3.mulVec, Vec3.dot]
  simp [Box.volume, hs, Vec3.cross, Vec3.dot]

theorem unitBox_cellSize {P : Packing} (h0 : 0 < P.size) (hb : P.box = unitBox) (hr : P.range ≤ 1 / 5) : P.cellSize ≤ 1 / 5 := by
  have hs : (1 : ℝ) ≤ P.size := by exact_mod_cast h0
  have h1 : (P.box.volume / P.size) ^ (1 / 3 : ℝ) ≤ 1 := by
    rw [hb, unitBox_volume]
    exact Real.rpow_le_one (by positivity) (by rw [div_le_one (by linarith)]; exact hs) (by norm_num)
  unfold cellSize
  simp only
  split_ifs
  · linarith
  · exact hr

/-- In the unit cube the grid is used if the range is at most 1/5. -/
theorem unitBox_usesGrid' {P : Packing} (h0 : 0 < P.size) (hb : P.box = unitBox) (hr : P.range ≤ 1 / 5) :
    P.UsesGrid := by
  have hc := unitBox_cellSize h0 hb hr
  unfold UsesGrid
  rw [hb, unitBox_heights]
  simp only [max_self, min_self]
  constructor <;> nlinarith

theorem unitBox_usesGrid {P : Packing} {I : Interaction} (hP : PInv P I) (hb : P.box = unitBox) (hr : I.range ≤ 1 / 5) :
    P.UsesGrid := unitBox_usesGrid' hP.size_pos hb (by rw [hP.q.core.range_eq]; exact hr)

/-- Packings of two (overlapping) molecules in the unit cube, using the grid, can be created. -/
theorem two_reachable (cs : List (Vec3 ℝ)) (hcs : cs.length < 2 ^ 40) {r : ℝ} (hr : 0 < r) (hr' : 3 * r ≤ 1 / 5) (total : ℝ)
    (threads : Nat) : ∃ P, Reachable P (ballsI cs r total) ∧ mols P = twoShapes ∧ P.box = unitBox ∧ P.ng.isSome = true ∧
      P.hasWall = ⟨false, false, false⟩ ∧ P.overlapCounting = false ∧ P.moveThreads = threads ∧ P.size = 2 := by
  have hI := ballsI_contract cs hr total
  have hcap : twoShapes.length * max 1 (ballsI cs r total).centres.length < 2 ^ 50 := by
    simp only [twoShapes, ballsI, List.length_cons, List.length_nil]
    omega
  obtain ⟨P, e, h, h1, h2, h3, h4, h5⟩ := create_ok hI unitBox_wf (shapes := twoShapes) (by simp [twoShapes]) twoShapes_inside
    hcap threads
  refine ⟨P, .create hI unitBox_ok (by simp [twoShapes]) twoShapes_inside hcap e, h1, h2, ?_, h3, h4, h5, ?_⟩
  · rw [h.used]
    exact unitBox_usesGrid h h2 hr'
  · rw [← mols_length, h1]; rfl

/-- Without the grid: the range is large. -/
theorem two_reachable_noGrid (cs : List (Vec3 ℝ)) (hcs : cs.length < 2 ^ 40) {r : ℝ} (hr' : 1 / 4 < 3 * r) (total : ℝ)
    (threads : Nat) : ∃ P, Reachable P (ballsI cs r total) ∧ mols P = twoShapes ∧ P.box = unitBox ∧ P.ng = none ∧
      P.hasWall = ⟨false, false, false⟩ ∧ P.overlapCounting = false ∧ P.moveThreads = threads ∧ P.size = 2 := by
  have hI := ballsI_contract cs (r := r) (by linarith) total
  have hcap : twoShapes.length * max 1 (ballsI cs r total).centres.length < 2 ^ 50 := by
    simp only [twoShapes, ballsI, List.length_cons, List.length_nil]
    omega
  obtain ⟨P, e, h, h1, h2, h3, h4, h5⟩ := create_ok hI unitBox_wf (shapes := twoShapes) (by simp [twoShapes]) twoShapes_inside
    hcap threads
  refine ⟨P, .create hI unitBox_ok (by simp [twoShapes]) twoShapes_inside hcap e, h1, h2, ?_, h3, h4, h5, ?_⟩
  · have : ¬ P.ng.isSome = true := by
      rw [h.used]
      intro hu
      apply hu.1
      rw [h2, unitBox_heights]
      simp only [max_self]
      have : P.range ≤ P.cellSize := by unfold cellSize; simp only; split_ifs with hc <;> linarith
      rw [h.q.core.range_eq] at this
      have e3 : (ballsI cs r total).range = 3 * r := rfl
      rw [e3] at this
      linarith
    simpa using this
  · rw [← mols_length, h1]; rfl

/-- Operations preserve reachability and always succeed. -/
theorem Reachable.next {P : Packing} {I : Interaction} (h : Reachable P I) {op : Op} (ha : op.Allowed P I) :
    ∃ P' I', op.run P I = .ok (P', I') ∧ Reachable P' I' := by
  obtain ⟨P', I', e, -, -⟩ := run_ok h.inv.1 h.inv.2 ha
  exact ⟨P', I', e, .step op h ha e⟩

end Rampack.Packing
