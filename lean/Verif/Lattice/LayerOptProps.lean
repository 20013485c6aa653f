import Verif.Lattice.LayerOptLemmas
import Verif.Lattice.LayerProps
import Verif.Packing.UpscaleLemmas
/-
Theorems about the layer-wise optimisation of cells: C102.
-/
namespace Rampack

open Spec Packing Lattice DistanceOptimizer CellOptimizationTransformer LayerWise

namespace LayerOpt

theorem put_mul (axis : Fin 3) (M : Mat3) (k f : ℝ) :
    stretch (stretch M ((⟨1, 1, 1⟩ : Vec3 ℝ).put axis k)) ((⟨1, 1, 1⟩ : Vec3 ℝ).put axis f) = stretch M ((⟨1, 1, 1⟩ : Vec3 ℝ).put axis (k * f)) := by
  rw [stretch_stretch]
  congr 1
  match axis with
  | 0 => simp [Vec3.put, Vec3.ofFn, Vec3.get]
  | 1 => simp [Vec3.put, Vec3.ofFn, Vec3.get]
  | 2 => simp [Vec3.put, Vec3.ofFn, Vec3.get]

theorem regular_eq {L : Lattice} (hv : L.Inv) {cell : List Shape} (hr : L.regular = true) (hc : L.getUnit = .ok cell) :
    L = ⟨[cell], L.box, L.dims, countCells L.dims, true⟩ := by
  have h1 := unit_cells hv hr hc
  have h2 : L.numCells = countCells L.dims := by rw [hv.num, countCells_eq hv.x hv.y hv.z hv.small]
  cases L
  simp only at *
  rw [h1, h2, hr]

theorem put_get_pos {axis : Fin 3} {k : ℝ} (hk : 0 < k) : ∀ a, 0 < ((⟨1, 1, 1⟩ : Vec3 ℝ).put axis k).get a := by
  obtain ⟨h1, h2, h3⟩ := put_pos (axis := axis) hk
  intro a
  match a with
  | 0 => exact h1
  | 1 => exact h2
  | 2 => exact h3

theorem height_pos (axis : Fin 3) {b : Box} (hb : b.WF) : 0 < b.heights.get axis := by
  obtain ⟨p1, p2, p3⟩ := Box.heights_pos hb
  match axis with
  | 0 => exact p1
  | 1 => exact p2
  | 2 => exact p3

/-- What is done after the optimisation. -/
theorem finish {L : Lattice} {axis : Fin 3} {spacing : ℝ} (h : LatticeReached L) {cell : List Shape} (hr : L.regular = true) (hw : ∀ s ∈ cell, Within s.pos) (hcne : cell ≠ [])
    (hcell : L.getUnit = .ok cell) {k : ℝ} (hk : 0 < k) {b1 : Box} (r2 : scaleSide L.box axis k = .ok b1) (c : Nat → ℝ) :
    (∃ m, (introduceSpacing axis spacing (layerAssociation axis cell) b1 (atCoords axis cell fun i => c i / k) >>= fun s => centerShapes axis s.2 >>= fun c =>
      (L.setBox s.1).modifyUnit (fun _ => c) >>= fun L' => L'.normalize) = .throw m ∧ k * L.box.heights.get axis + (layerAssociation axis cell).length * spacing ≤ 0) ∨
    ∃ L', (introduceSpacing axis spacing (layerAssociation axis cell) b1 (atCoords axis cell fun i => c i / k) >>= fun s => centerShapes axis s.2 >>= fun c =>
      (L.setBox s.1).modifyUnit (fun _ => c) >>= fun L' => L'.normalize) = .ok L' ∧ LatticeReached L' ∧ L'.regular = true ∧ L'.isNormalized = true ∧ L'.dims = L.dims ∧
      0 < L'.box.heights.get axis ∧ L'.box.heights.get axis = k * L.box.heights.get axis + (layerAssociation axis cell).length * spacing ∧
      Box.make (stretch L.box.dims ((⟨1, 1, 1⟩ : Vec3 ℝ).put axis (L'.box.heights.get axis / L.box.heights.get axis))) = .ok L'.box ∧
      L'.getUnit = .ok (atCoords axis cell (centredAt cell.length (spacedAt (binOf (layerAssociation axis cell)) c (L.box.heights.get axis) spacing (L'.box.heights.get axis)))) := by
  have hv := h.inv
  have hd : 0 < L.dims.x ∧ 0 < L.dims.y ∧ 0 < L.dims.z := ⟨hv.x, hv.y, hv.z⟩
  have hL := regular_eq hv hr hcell
  obtain ⟨b1', t1, t2, t3, t4⟩ := scaleSide_ok hv.wf axis hk
  rw [r2] at t1
  cases t1
  have hH := height_pos axis hv.wf
  have hH1 : b1.heights.get axis = k * L.box.heights.get axis := by
    rw [heights_stretch (put_get_pos hk) t4, get_put_self]
  unfold introduceSpacing
  simp only
  have hf0 : cellFactor spacing (b1.heights.get axis) (layerAssociation axis cell).length * (k * L.box.heights.get axis) =
      k * L.box.heights.get axis + (layerAssociation axis cell).length * spacing := by
    unfold cellFactor
    rw [hH1, div_mul_cancel₀ _ (mul_pos hk hH).ne']
  by_cases hf : cellFactor spacing (b1.heights.get axis) (layerAssociation axis cell).length > 0
  swap
  · rw [decide_eq_false hf]
    refine Or.inl ⟨_, rfl, ?_⟩
    rw [← hf0]
    exact mul_nonpos_of_nonpos_of_nonneg (not_lt.mp hf) (mul_pos hk hH).le
  rw [decide_eq_true hf, Outcome.require_true, Outcome.ok_bind]
  generalize cellFactor spacing (b1.heights.get axis) (layerAssociation axis cell).length = f at *
  obtain ⟨b2, u1, u2, u3, u4⟩ := scaleSide_ok t2 axis hf
  have hH2 : b2.heights.get axis = f * (k * L.box.heights.get axis) := by
    rw [heights_stretch (put_get_pos hf) u4, get_put_self, hH1]
  rw [u1, Outcome.ok_bind, Outcome.pure_eq, Outcome.ok_bind]
  simp only
  rw [spaceLayers_coords, center_coords hcne, Outcome.ok_bind]
  have hL2 : (L.setBox b2).modifyUnit (fun _ => atCoords axis cell fun i =>
      (c i / k + (binOf (layerAssociation axis cell) i : ℝ) * spacing / b1.heights.get axis) / f +
        (1 / 2 - ((c 0 / k + (binOf (layerAssociation axis cell) 0 : ℝ) * spacing / b1.heights.get axis) / f +
          (c (cell.length - 1) / k + (binOf (layerAssociation axis cell) (cell.length - 1) : ℝ) * spacing / b1.heights.get axis) / f) / 2)) =
      .ok ⟨[atCoords axis cell fun i => spacedAt (binOf (layerAssociation axis cell)) c (L.box.heights.get axis) spacing (b2.heights.get axis) i +
        (1 / 2 - (spacedAt (binOf (layerAssociation axis cell)) c (L.box.heights.get axis) spacing (b2.heights.get axis) 0 +
          spacedAt (binOf (layerAssociation axis cell)) c (L.box.heights.get axis) spacing (b2.heights.get axis) (cell.length - 1)) / 2)],
        b2, L.dims, countCells L.dims, true⟩ := by
    have e : ∀ i, (c i / k + (binOf (layerAssociation axis cell) i : ℝ) * spacing / b1.heights.get axis) / f =
        spacedAt (binOf (layerAssociation axis cell)) c (L.box.heights.get axis) spacing (b2.heights.get axis) i := by
      intro i
      unfold spacedAt
      rw [hH1, hH2]
      have := hk.ne'
      have := hH.ne'
      have : f ≠ 0 := (show 0 < f from hf).ne'
      field_simp
    simp only [e]
    unfold modifyUnit setBox
    rw [hL]
    rfl
  rw [hL2, Outcome.ok_bind, normalize_regular u2 hd hv.small]
  have hwr : (atCoords axis cell fun i => spacedAt (binOf (layerAssociation axis cell)) c (L.box.heights.get axis) spacing (b2.heights.get axis) i +
        (1 / 2 - (spacedAt (binOf (layerAssociation axis cell)) c (L.box.heights.get axis) spacing (b2.heights.get axis) 0 +
          spacedAt (binOf (layerAssociation axis cell)) c (L.box.heights.get axis) spacing (b2.heights.get axis) (cell.length - 1)) / 2)).map wrapShape =
      atCoords axis cell (centredAt cell.length (spacedAt (binOf (layerAssociation axis cell)) c (L.box.heights.get axis) spacing (b2.heights.get axis))) := wrap_coords hw _
  have hnr := normalized_regular u2 hd hv.small (atCoords axis cell fun i => spacedAt (binOf (layerAssociation axis cell)) c (L.box.heights.get axis) spacing (b2.heights.get axis) i +
        (1 / 2 - (spacedAt (binOf (layerAssociation axis cell)) c (L.box.heights.get axis) spacing (b2.heights.get axis) 0 +
          spacedAt (binOf (layerAssociation axis cell)) c (L.box.heights.get axis) spacing (b2.heights.get axis) (cell.length - 1)) / 2))
  have hre : LatticeReached ⟨[(atCoords axis cell fun i => spacedAt (binOf (layerAssociation axis cell)) c (L.box.heights.get axis) spacing (b2.heights.get axis) i +
        (1 / 2 - (spacedAt (binOf (layerAssociation axis cell)) c (L.box.heights.get axis) spacing (b2.heights.get axis) 0 +
          spacedAt (binOf (layerAssociation axis cell)) c (L.box.heights.get axis) spacing (b2.heights.get axis) (cell.length - 1)) / 2)).map wrapShape],
        b2, L.dims, countCells L.dims, true⟩ := .normalize (.unit (.box h u2) hL2) (normalize_regular u2 hd hv.small _)
  rw [hwr] at hnr hre ⊢
  refine Or.inr ⟨_, rfl, hre, rfl, hnr.2.1, rfl, ?_, ?_, ?_, rfl⟩
  · exact height_pos axis u2
  · simp only
    rw [hH2, hf0]
  · simp only
    have : b2.heights.get axis / L.box.heights.get axis = k * f := by
      rw [hH2]
      have := hH.ne'
      field_simp
    rw [this, ← put_mul, ← t4, u3]

end LayerOpt

open LayerOpt

/-- C102: the layer-wise optimisation of a cell is refused, or it preserves orientations of molecules, their order in the cell, and their coordinates along the two
other axes. Along the axis, all layers but the first one are moved in turn towards the previous ones, as specified by `LayerMoved`. Then the side of the cell is
multiplied by a factor `k`, with unchanged distances between layers, so that with a factor smaller by at most 10^-12 there are overlaps. Finally, the spacing is added
between layers, and the molecules are put in the middle of the cell. -/
theorem C102_layers {L : Lattice} {I : Interaction} {axis : Fin 3} {spacing : ℝ} (h : LatticeReached L) (hI : Contract I) (hR : 0 < I.totalRange)
    (hcap : sites L.size I.centres.length < 2 ^ 50) (hc : ∀ cell, L.getUnit = .ok cell → ClearLayers axis cell) :
    (∃ m, LayerOpt.transform axis spacing I L = .throw m ∧ LayersRefused I L axis spacing) ∨
    ∃ L' cell m layer c k x, LayerOpt.transform axis spacing I L = .ok L' ∧ LatticeReached L' ∧ L'.regular = true ∧ L'.isNormalized = true ∧ L'.dims = L.dims ∧
      -- the beginning
      L.getUnit = .ok cell ∧ Layering axis cell m layer ∧ ¬ CellOverlaps I L.dims L.box cell ∧
      -- layers
      LayersMoved I L.dims L.box axis cell m layer c ∧
      -- the cell
      0 < x ∧ x < k ∧ k ≤ 1 ∧ k - x ≤ precision ∧ OverlapsCompressed I L.dims L.box axis cell c x ∧ (k = 1 ∨ ¬ OverlapsCompressed I L.dims L.box axis cell c k) ∧
      -- the result
      0 < L'.box.heights.get axis ∧ L'.box.heights.get axis = k * L.box.heights.get axis + m * spacing ∧
      Box.make (stretch L.box.dims ((⟨1, 1, 1⟩ : Vec3 ℝ).put axis (L'.box.heights.get axis / L.box.heights.get axis))) = .ok L'.box ∧
      L'.getUnit = .ok (atCoords axis cell (centredAt cell.length (spacedAt layer c (L.box.heights.get axis) spacing (L'.box.heights.get axis)))) := by
  have hv := h.inv
  have hd : 0 < L.dims.x ∧ 0 < L.dims.y ∧ 0 < L.dims.z := ⟨hv.x, hv.y, hv.z⟩
  unfold LayerOpt.transform
  cases hh : I.hasHard with
  | false => exact Or.inl ⟨_, rfl, Or.inl hh⟩
  | true =>
  rw [Outcome.require_true, Outcome.ok_bind]
  cases hr : L.regular with
  | false => exact Or.inl ⟨_, rfl, Or.inr (Or.inl hr)⟩
  | true =>
  rw [Outcome.require_true, Outcome.ok_bind]
  cases hn : L.isNormalized with
  | false => exact Or.inl ⟨_, rfl, Or.inr (Or.inr (Or.inl hn))⟩
  | true =>
  rw [Outcome.require_true, Outcome.ok_bind]
  obtain ⟨cell, hcell⟩ : ∃ cell, L.getUnit = .ok cell := by
    have := hv.cells
    rw [if_pos hr] at this
    unfold getUnit
    rw [hr, Outcome.require_true, Outcome.ok_bind, vget_ok (by omega)]
    exact ⟨_, rfl⟩
  have hL := regular_eq hv hr hcell
  rw [hcell, Outcome.ok_bind]
  by_cases hA : layerAssociation axis cell ≠ []
  swap
  · rw [decide_eq_false hA]
    refine Or.inl ⟨_, rfl, Or.inr (Or.inr (Or.inr ⟨cell, hcell, Or.inl ?_⟩))⟩
    rw [not_not] at hA
    have hp := (layers_ok axis cell).all
    rw [hA] at hp
    exact List.length_eq_zero_iff.mp (by simpa [layerKeys] using hp.length_eq.symm)
  rw [decide_eq_true hA, Outcome.require_true, Outcome.ok_bind]
  have hcne : cell ≠ [] := by
    rintro rfl
    exact hA (by simp [layerAssociation, bins])
  obtain ⟨B, hB, -⟩ := latticeBox_ok hv
  have hBw := (Box.make_wf (latticeBox_stretch ▸ hB)).1
  have hw : ∀ s ∈ cell, Within s.pos := by
    intro s hs
    have := (normalized_iff hv).mp hn ⟨0, 0, 0⟩ hd s
    rw [molsAt, if_pos hr, unit_cells hv hr hcell] at this
    exact this (by simpa using hs)
  have hself : cell.map wrapShape = cell := by
    conv_lhs => rw [← atCoords_self axis cell]
    rw [wrap_coords hw]
    conv_rhs => rw [← atCoords_self axis cell]
    refine atCoords_congr fun i hi => ?_
    unfold coordOf
    rw [List.getElem?_eq_getElem hi]
    simp only [Option.map_some, Option.getD_some]
    obtain ⟨w1, w2, w3⟩ := hw cell[i] (List.getElem_mem hi)
    match axis with
    | 0 => exact Int.fract_eq_self.mpr w1
    | 1 => exact Int.fract_eq_self.mpr w2
    | 2 => exact Int.fract_eq_self.mpr w3
  have hglen : (gen L).length = L.dims.x * L.dims.y * L.dims.z * cell.length := by
    have := (normalized_regular hv.wf hd hv.small cell).2.2
    rw [hself, ← hL] at this
    exact this
  have hin := gen_inside hv hn hB
  have hgne : gen L ≠ [] := by
    rw [← List.length_pos_iff, hglen]
    have := List.length_pos_iff.mpr hcne
    exact Nat.mul_pos (Nat.mul_pos (Nat.mul_pos hd.1 hd.2.1) hd.2.2) this
  rw [size_eq hv] at hcap
  obtain ⟨P, eP, hP, hPm, hPb, hPw, -⟩ := Packing.create_ok hI hBw hgne hin hcap 1
  rw [hB, Outcome.ok_bind, generate_ok hv, Outcome.ok_bind, eP, Outcome.ok_bind]
  obtain ⟨K, -, hK⟩ := count_numTotal hP.q hI
  obtain ⟨n, en, hn1, -⟩ := hK true
  obtain ⟨n', en', -, hn'⟩ := hK false
  rw [en, Outcome.ok_bind]
  have ec : Lattice.create ⟨L.box, cell⟩ L.dims = .ok L := by
    unfold Lattice.create
    rw [decide_eq_true hd.1, decide_eq_true hd.2.1, decide_eq_true hd.2.2]
    conv_rhs => rw [hL]
    rfl
  by_cases h0 : n = 0
  swap
  · rw [decide_eq_false h0]
    refine Or.inl ⟨_, rfl, Or.inr (Or.inr (Or.inr ⟨cell, hcell, Or.inr (Or.inl ?_)⟩))⟩
    refine ⟨L, L, B, gen L, P, n', ?_, ?_, hB, generate_ok hv, eP, en', ?_⟩
    · exact ec
    · have en2 := normalize_regular hv.wf hd hv.small cell
      rwa [hself, ← hL] at en2
    · rw [hn' rfl]
      exact hn1.mp (Nat.pos_of_ne_zero h0)
  rw [decide_eq_true h0, Outcome.require_true, Outcome.ok_bind]
  have hno : ¬ CellOverlaps I L.dims L.box cell := by
    rintro ⟨L1, L2, B', g, Q, q, e1, e2, e3, e4, e5, e6, e7⟩
    rw [ec] at e1
    cases e1
    have en2 := normalize_regular hv.wf hd hv.small cell
    rw [hself, ← hL, e2] at en2
    cases en2
    rw [hB] at e3
    cases e3
    rw [generate_ok hv] at e4
    cases e4
    rw [eP] at e5
    cases e5
    rw [en', hn' rfl] at e6
    cases e6
    have := hn1.mpr e7
    omega
  have hgood : Good I (L.dims.x * L.dims.y * L.dims.z * cell.length) P :=
    ⟨hP, by rw [← mols_length, hPm, hglen], hPw⟩
  obtain ⟨P1, c, q1, q2, q3⟩ := optimizeLayers_ok hI hd hv.small hv.wf hA hgood
  rw [q1, Outcome.ok_bind, Outcome.ok_bind]
  simp only
  rcases optimizeCell_ok hI hR hd hv.small hv.wf (B := B) (axis := axis) (c := c) q2 with ⟨m, hm, hy⟩ | ⟨b1, x, k, r1, r2, r3, r4, r5, r6, r7, r8⟩
  · rw [hm]
    refine Or.inl ⟨m, rfl, Or.inr (Or.inr (Or.inr ⟨cell, hcell, Or.inr (Or.inr ⟨B, _, _, c, hB, layering (hc cell hcell), q3, ?_⟩)⟩))⟩
    exact hy.elim Or.inl fun q => Or.inr (Or.inl q)
  rw [r1, Outcome.ok_bind]
  have hk : 0 < k := lt_trans r3 r4
  rcases finish h hr hw hcne hcell hk r2 (spacing := spacing) c with ⟨m, hm, hy⟩ | ⟨L', u1, u2, u3, u4, u5, u6, u7, u8, u9⟩
  · simp only
    rw [hm]
    exact Or.inl ⟨m, rfl, Or.inr (Or.inr (Or.inr ⟨cell, hcell, Or.inr (Or.inr ⟨B, _, _, c, hB, layering (hc cell hcell), q3, Or.inr (Or.inr ⟨k, hk, r5, hy⟩)⟩)⟩))⟩
  · exact Or.inr ⟨L', cell, _, _, c, k, x, u1, u2, u3, u4, u5, rfl, layering (hc cell hcell), hno, q3, r3, r4, r5, r6, r7, r8, u6, u7, u8, u9⟩

end Rampack
