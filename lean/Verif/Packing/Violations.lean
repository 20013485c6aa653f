import Verif.Packing.Props
/-
What the packing gets wrong: C59 (re-setup with more molecules), C60 (switching walls), C61 (re-setup to an interaction
without a hard part). Each theorem gives a history of public calls after which the property fails.
-/
namespace Rampack

open Rampack.Spec Rampack.Grid Rampack.Packing

namespace Packing

/-! ### Capacity of the grid -/

theorem addAt_cases {g : NG} {k c : Nat} (hc : c < g.heads.length) :
    (k < g.succ.length → ∃ g', g.addAt k c = .ok g' ∧ g'.succ.length = g.succ.length ∧ g'.heads.length = g.heads.length) ∧
    (g.succ.length ≤ k → g.addAt k c = .ub) := by
  have e : vget g.heads c = .ok g.heads[c] := vget_ok hc
  constructor
  · intro hk
    refine ⟨_, by rw [NG.addAt, e, Outcome.ok_bind, vset_ok hk, Outcome.ok_bind, vset_ok hc, Outcome.ok_bind]; rfl, by simp, by simp⟩
  · intro hk
    rw [NG.addAt, e, Outcome.ok_bind]
    have : vset g.succ k g.heads[c] = .ub := by unfold vset; rw [if_neg (by omega)]
    rw [this]; rfl

theorem addFold_ub : ∀ (l : List (Nat × Nat)) {g : NG}, (∀ x ∈ l, x.2 < g.heads.length) → (∃ x ∈ l, g.succ.length ≤ x.1) →
    l.foldlM (fun (g : NG) kc => g.addAt kc.1 kc.2) g = .ub
  | [], _, _, h => by simp at h
  | x :: l, g, hc, h => by
    rw [List.foldlM_cons]
    obtain ⟨h1, h2⟩ := addAt_cases (k := x.1) (hc x (by simp))
    by_cases hk : x.1 < g.succ.length
    · obtain ⟨g', e, l1, l2⟩ := h1 hk
      rw [e, Outcome.ok_bind]
      apply addFold_ub l
      · intro y hy; rw [l2]; exact hc y (by simp [hy])
      · obtain ⟨y, hy, hle⟩ := h
        rcases List.mem_cons.mp hy with rfl | hy
        · omega
        · exact ⟨y, hy, by rw [l1]; exact hle⟩
    · rw [h2 (by omega)]; rfl

theorem addAt_len {g g' : NG} {k c : Nat} (h : g.addAt k c = .ok g') : g'.succ.length = g.succ.length := by
  unfold NG.addAt vget vset at h
  split at h
  · simp only [Outcome.ok_bind] at h
    split_ifs at h with h1 h2
    · simp only [Outcome.ok_bind] at h
      cases h; simp
    all_goals cases h
  · cases h

theorem addFold_len : ∀ (l : List (Nat × Nat)) {g g' : NG}, l.foldlM (fun (g : NG) kc => g.addAt kc.1 kc.2) g = .ok g' →
    g'.succ.length = g.succ.length
  | [], g, g', h => by cases h; rfl
  | x :: l, g, g', h => by
    rw [List.foldlM_cons] at h
    cases e : g.addAt x.1 x.2 with
    | ok g1 => rw [e, Outcome.ok_bind] at h; rw [addFold_len l h, addAt_len e]
    | throw m => rw [e] at h; cases h
    | ub => rw [e] at h; cases h
    | diverge => rw [e] at h; cases h

theorem usesGrid_gridSize {P : Packing} {I : Interaction} (hP : Core P I) (hr : 0 < I.range) (h0 : 0 < P.size) (hc : P.cap < 2 ^ 50)
    (hu : P.UsesGrid) : GridSize P.box P.cellSize := by
  have hb := hP.box
  have hn' : (0 : ℝ) < P.size := by exact_mod_cast h0
  have hmin : 0 < (P.box.volume / P.size) ^ (1 / 3 : ℝ) / 5 := by
    have := Real.rpow_pos_of_pos (div_pos (Box.volume_pos hb) hn') (1 / 3 : ℝ)
    positivity
  have hcs : (P.box.volume / P.size) ^ (1 / 3 : ℝ) / 5 ≤ P.cellSize ∧ 0 < P.cellSize := by
    unfold cellSize
    simp only []
    by_cases h : P.range < (P.box.volume / P.size) ^ (1 / 3 : ℝ) / 5
    · rw [if_pos h]; exact ⟨le_rfl, hmin⟩
    · rw [if_neg h]; exact ⟨not_lt.mp h, by rw [hP.range_eq]; exact hr⟩
  have hlt : P.cellSize < min P.box.heights.x (min P.box.heights.y P.box.heights.z) := by
    have := not_lt.mp hu.2
    have : P.cellSize < P.cellSize * (1 + 1 / 10 ^ 12) := by nlinarith [hcs.2]
    linarith
  obtain ⟨hx, hlt⟩ := lt_min_iff.mp hlt
  obtain ⟨hy, hz⟩ := lt_min_iff.mp hlt
  have hsz : P.size < 2 ^ 50 := lt_of_le_of_lt (Nat.le_mul_of_pos_right _ (by omega)) hc
  exact gridSize_of hb h0 hsz hcs.1 hcs.2 hx.le hy.le hz.le

theorem total_eq_cap (P : Packing) : (if P.m = 0 then P.size else P.m * P.size) = P.cap := by
  unfold cap
  by_cases hm : P.m = 0
  · simp [hm]
  · rw [if_neg hm, max_eq_right (by omega), Nat.mul_comm]

theorem zip_map_self {α β : Type} (f : α → β) : ∀ l : List α, l.zip (l.map f) = l.map fun k => (k, f k)
  | [] => rfl
  | a :: l => by simp [zip_map_self f l]

theorem owner_of_lt_cap {P : Packing} {k : Nat} (h : k < P.cap) : P.owner k < P.size := by
  unfold cap at h
  unfold owner
  by_cases h0 : P.m = 0
  · rw [h0] at h; rw [if_pos h0]; simpa using h
  · rw [if_neg h0]
    rw [max_eq_right (by omega)] at h
    exact Nat.div_lt_of_lt_mul (by rw [Nat.mul_comm]; exact h)

/-- Rebuilding a grid which is too small for the interaction centres writes outside of it. -/
theorem rebuild_ub {P : Packing} {I : Interaction} (hP : Core P I) (hr : 0 < I.range) (h0 : 0 < P.size) (hc : P.cap < 2 ^ 50)
    {g : NG} (hg : P.ng = some g) {s : GState} {cells : Nat → List Nat} (hi : GInv g.succ.length g s cells)
    (hlt : g.succ.length < P.cap) (hu : P.UsesGrid) : P.rebuild = .ub := by
  have hgs := usesGrid_gridSize hP hr h0 hc hu
  obtain ⟨g1, c1, e1, h1⟩ := call_inv hi (op := .resize P.box P.cellSize) ⟨⟨_, hP.box.make⟩, hgs⟩
  have e2 : P.gridFor P.cellSize P.cap = .ok g1 := by
    unfold gridFor
    rw [hg]
    simp only [GOp.call] at e1
    simp only
    cases er : g.resize P.box P.cellSize with
    | ok r => rw [er] at e1; exact e1
    | throw m => rw [er] at e1; cases e1
    | ub => rw [er] at e1; cases e1
    | diverge => rw [er] at e1; cases e1
  have h1 : GInv g.succ.length g1 ⟨P.box, P.cellSize, fun _ => none⟩ c1 := h1
  have e3 : P.addAll g1 = .ub := by
    rw [addAll, mapM_ok (g := fun k => realCoordinatesToCellNo g1.divs (cellCoord (nreal g1.divs) (P.box.absToRel (P.siteFn k).pos)))
      (fun k hk => by
        have hk := mem_allPoints.mp hk
        have hs := hP.siteOk hk
        rw [position_ok hs.1, Outcome.ok_bind, posCell_ok h1.wf (by rw [h1.box]; exact hs.2), NG.cellOf, h1.box]), Outcome.ok_bind]
    apply addFold_ub
    · intro x hx
      rw [zip_map_self, List.mem_map] at hx
      obtain ⟨k, hk, rfl⟩ := hx
      have hs := hP.siteOk (mem_allPoints.mp hk)
      have := lt_of_lt_of_le (realCn_lt (cellOf_inRange h1.wf (by rw [h1.box]; exact hs.2))) h1.wf.heads
      rw [NG.cellOf, h1.box] at this
      exact this
    · refine ⟨(g.succ.length, realCoordinatesToCellNo g1.divs (cellCoord (nreal g1.divs) (P.box.absToRel (P.siteFn g.succ.length).pos))), ?_, ?_⟩
      · rw [zip_map_self, List.mem_map]
        exact ⟨_, mem_allPoints.mpr (owner_of_lt_cap hlt), rfl⟩
      · show g1.succ.length ≤ g.succ.length
        rw [h1.len]
  rw [rebuild]
  simp only []
  rw [if_neg hu.1, if_neg hu.2, total_eq_cap, e2, Outcome.ok_bind, e3]
  rfl

/-- `reset` when the grid is too small for what is coming. -/
theorem reset_ub {P : Packing} {I : Interaction} (hI : Contract I) {shapes : List Shape} {b : Box} (hb : b.WF) (hne : shapes ≠ [])
    (hin : ∀ s ∈ shapes, Inside b s.pos) (hcap : shapes.length * max 1 I.centres.length < 2 ^ 50) {g : NG} (hg : P.ng = some g)
    {s : GState} {cells : Nat → List Nat} (hi : GInv g.succ.length g s cells)
    (hlt : g.succ.length < shapes.length * max 1 I.centres.length)
    (hu : ∀ cs as og, (P.resetState shapes b I I.centres.length cs as og).UsesGrid) : P.reset shapes b I = .ub := by
  obtain ⟨cs, as, e1, h1⟩ := setupCentres_ok (I := I) (P := P.resetState shapes b I P.m P.centres P.absCentres P.ng) hb
    (by unfold resetState; simp) (by
      intro i s hi hs
      rw [resetState_size] at hi
      have hs : (shapes ++ List.replicate P.moveThreads defaultShape)[i]? = some s := hs
      rw [List.getElem?_append_left hi] at hs
      exact hin s (List.mem_of_getElem? hs)) (vresize_length _ _ _) (vresize_length _ _ _)
  have h1 : Core (P.resetState shapes b I I.centres.length cs as P.ng) I := h1
  have e1 : (P.resetState shapes b I P.m P.centres P.absCentres P.ng).setupCentres I =
    .ok (P.resetState shapes b I I.centres.length cs as P.ng) := e1
  have hpos : 0 < shapes.length := List.length_pos_iff.mpr hne
  have e2 := rebuild_ub h1 hI.range_pos (by rw [resetState_size]; exact hpos) (by rw [resetState_cap]; exact hcap) (g := g) hg hi
    (by rw [resetState_cap]; exact hlt) (hu _ _ _)
  rw [reset, require_true'' (Box.volume_pos hb).ne', Outcome.ok_bind, require_true'' hI.range_pos, Outcome.ok_bind, require_true'' hne,
      Outcome.ok_bind, (within_iff hb shapes).mpr hin, Outcome.require_true, Outcome.ok_bind]
  rw [setupForInteraction]
  refine (bind_of e1 _).trans ?_
  rw [e2]; rfl

theorem rebuild_len {P P' : Packing} {g : NG} (h : P.rebuild = .ok P') (hn : P.ng = none) (hg : P'.ng = some g) :
    g.succ.length = P.cap := by
  rw [rebuild] at h
  simp only [] at h
  rw [total_eq_cap] at h
  split_ifs at h with h1 h2
  · cases h; cases hg
  · cases h; cases hg
  · rw [gridFor, hn] at h
    simp only at h
    cases e : NG.create P.box P.cellSize P.cap with
    | ok g0 =>
      rw [e, Outcome.ok_bind] at h
      cases e' : P.addAll g0 with
      | ok g1 =>
        rw [e', Outcome.ok_bind] at h
        cases h
        cases hg
        rw [addAll] at e'
        have l0 : g0.succ.length = P.cap := by
          rw [NG.create] at e
          cases e1 : setupSizes P.box P.cellSize with
          | ok d =>
            rw [e1, Outcome.ok_bind] at e
            simp only [] at e
            cases e2 : fillNeighbouringCellsOffsets d with
            | ok o => rw [e2, Outcome.ok_bind] at e; cases e; simp
            | throw m => rw [e2] at e; cases e
            | ub => rw [e2] at e; cases e
            | diverge => rw [e2] at e; cases e
          | throw m => rw [e1] at e; cases e
          | ub => rw [e1] at e; cases e
          | diverge => rw [e1] at e; cases e
        rw [← l0]
        revert e'
        generalize (List.mapM (m := Outcome) _ _ : Outcome (List Nat)) = q
        intro e'
        cases q with
        | ok l => exact addFold_len _ e'
        | throw m => cases e'
        | ub => cases e'
        | diverge => cases e'
      | throw m => rw [e'] at h; cases h
      | ub => rw [e'] at h; cases h
      | diverge => rw [e'] at h; cases h
    | throw m => rw [e] at h; cases h
    | ub => rw [e] at h; cases h
    | diverge => rw [e] at h; cases h

theorem recount_ng {P P' : Packing} {I : Interaction} (h : P.recount I = .ok P') : P'.ng = P.ng := by
  unfold recount at h
  split_ifs at h
  · cases e : P.countTotalOverlaps I false with
    | ok n => rw [e] at h; cases h; rfl
    | throw m => rw [e] at h; cases h
    | ub => rw [e] at h; cases h
    | diverge => rw [e] at h; cases h
  · cases h; rfl

/-- A fresh packing has a grid which fits exactly. -/
theorem create_len {I : Interaction} (hI : Contract I) {shapes : List Shape} {b : Box} (hb : b.WF) (hne : shapes ≠ [])
    (hin : ∀ s ∈ shapes, Inside b s.pos) {threads : Nat} {P : Packing} (h : create b shapes I threads = .ok P) {g : NG}
    (hg : P.ng = some g) : g.succ.length = shapes.length * max 1 I.centres.length := by
  set P0 : Packing := { empty threads with shapes := [], lastAltered := [], lastDeltas := [] } with hP0
  have h : P0.reset shapes b I = .ok P := h
  obtain ⟨cs, as, e1, -⟩ := setupCentres_ok (I := I) (P := P0.resetState shapes b I P0.m P0.centres P0.absCentres P0.ng) hb
    (by unfold resetState; simp) (by
      intro i s hi hs
      rw [resetState_size] at hi
      have hs : (shapes ++ List.replicate P0.moveThreads defaultShape)[i]? = some s := hs
      rw [List.getElem?_append_left hi] at hs
      exact hin s (List.mem_of_getElem? hs)) (vresize_length _ _ _) (vresize_length _ _ _)
  have e1 : (P0.resetState shapes b I P0.m P0.centres P0.absCentres P0.ng).setupCentres I =
    .ok (P0.resetState shapes b I I.centres.length cs as P0.ng) := e1
  rw [reset, require_true'' (Box.volume_pos hb).ne', Outcome.ok_bind, require_true'' hI.range_pos, Outcome.ok_bind, require_true'' hne,
      Outcome.ok_bind, (within_iff hb shapes).mpr hin, Outcome.require_true, Outcome.ok_bind, setupForInteraction] at h
  have h : (do
    let P ← (P0.resetState shapes b I P0.m P0.centres P0.absCentres P0.ng).setupCentres I
    let P ← P.rebuild
    P.recount I) = .ok P := h
  rw [e1, Outcome.ok_bind] at h
  cases e2 : (P0.resetState shapes b I I.centres.length cs as P0.ng).rebuild with
  | ok P2 =>
    rw [e2, Outcome.ok_bind] at h
    have h3 := recount_ng h
    have := rebuild_len e2 rfl (by rw [← h3]; exact hg)
    rw [this, resetState_cap]
  | throw m => rw [e2] at h; cases h
  | ub => rw [e2] at h; cases h
  | diverge => rw [e2] at h; cases h

/-- `reset` is fine when the grids have room. -/
theorem reset_safe {P : Packing} {I : Interaction} (hI : Contract I) {shapes : List Shape} {b : Box} (hb : b.WF) (hne : shapes ≠ [])
    (hin : ∀ s ∈ shapes, Inside b s.pos) (hg : ∀ g, P.ng = some g → (∃ s cells, GInv g.succ.length g s cells) ∧
      shapes.length * max 1 I.centres.length ≤ g.succ.length)
    (hcap : shapes.length * max 1 I.centres.length < 2 ^ 50) : ∃ P',
      P.reset shapes b I = .ok P' ∧ QInv P' I ∧ mols P' = shapes ∧ P'.box = b ∧ P'.hasWall = P.hasWall ∧
        P'.overlapCounting = P.overlapCounting ∧ P'.moveThreads = P.moveThreads ∧ P'.lastDeltas = vresize P.lastDeltas P.moveThreads 0 ∧
        (P.overlapCounting = true → (P'.numOverlaps : ℝ) = numTotal P' I) := by
  obtain ⟨cs, as, e1, h1⟩ := setupCentres_ok (I := I) (P := P.resetState shapes b I P.m P.centres P.absCentres P.ng) hb
    (by unfold resetState; simp) (by
      intro i s hi hs
      rw [resetState_size] at hi
      have hs : (shapes ++ List.replicate P.moveThreads defaultShape)[i]? = some s := hs
      rw [List.getElem?_append_left hi] at hs
      exact hin s (List.mem_of_getElem? hs)) (vresize_length _ _ _) (vresize_length _ _ _)
  have h1 : Core (P.resetState shapes b I I.centres.length cs as P.ng) I := h1
  have e1 : (P.resetState shapes b I P.m P.centres P.absCentres P.ng).setupCentres I =
    .ok (P.resetState shapes b I I.centres.length cs as P.ng) := e1
  have hpos : 0 < shapes.length := List.length_pos_iff.mpr hne
  obtain ⟨og, e2, h2, h3, h5⟩ := rebuild_ok h1 hI.range_pos (by rw [resetState_size]; exact hpos) (by rw [resetState_cap]; exact hcap) (by
    intro g hg'
    refine ⟨(hg g hg').1, ?_⟩
    rw [resetState_cap]; exact (hg g hg').2)
  have h2 : QInv (P.resetState shapes b I I.centres.length cs as og) I := h2
  have e2 : (P.resetState shapes b I I.centres.length cs as P.ng).rebuild = .ok (P.resetState shapes b I I.centres.length cs as og) := e2
  obtain ⟨K, hK0, hK⟩ := count_numTotal h2 hI
  obtain ⟨k, ek, -, hk⟩ := hK false
  have hm : mols (P.resetState shapes b I I.centres.length cs as og) = shapes := by
    show (shapes ++ List.replicate P.moveThreads defaultShape).take (P.resetState shapes b I I.centres.length cs as og).size = shapes
    rw [resetState_size]
    simp
  rw [reset, require_true'' (Box.volume_pos hb).ne', Outcome.ok_bind, require_true'' hI.range_pos, Outcome.ok_bind, require_true'' hne,
      Outcome.ok_bind, (within_iff hb shapes).mpr hin, Outcome.require_true, Outcome.ok_bind]
  rw [setupForInteraction]
  by_cases hc : P.overlapCounting = true
  · refine ⟨{ P.resetState shapes b I I.centres.length cs as og with numOverlaps := k }, ?_, qinv_num h2 _, hm, rfl, rfl, rfl, rfl, rfl, ?_⟩
    · refine (bind_of e1 _).trans ((bind_of e2 _).trans ?_)
      rw [recount, if_pos (show (P.resetState shapes b I I.centres.length cs as og).overlapCounting = true from hc), ek]; rfl
    · intro _
      show (((k : ℤ)) : ℝ) = numTotal (P.resetState shapes b I I.centres.length cs as og) I
      rw [← hK0, hk rfl]; simp
  · refine ⟨P.resetState shapes b I I.centres.length cs as og, ?_, h2, hm, rfl, rfl, rfl, rfl, rfl, fun h => absurd h hc⟩
    refine (bind_of e1 _).trans ((bind_of e2 _).trans ?_)
    rw [recount, if_neg (show ¬ (P.resetState shapes b I I.centres.length cs as og).overlapCounting = true from hc)]

/-! ### Examples -/

/-- A single molecule near the face `x = 0` of the unit cube. -/
noncomputable def oneShape : List Shape := [⟨⟨1 / 40, 1 / 2, 1 / 2⟩, 1⟩]

theorem oneShape_inside : ∀ s ∈ oneShape, Inside unitBox s.pos := by
  intro s hs
  simp only [oneShape, List.mem_cons, List.not_mem_nil, or_false] at hs
  subst hs
  exact unitBox_inside (by norm_num) (by norm_num) (by norm_num)

/-- An interaction without a hard part (an ideal gas). -/
noncomputable def gasI : Interaction where
  hasHard := false
  hasSoft := false
  isConvex := false
  centres := []
  range := 1 / 10
  totalRange := 1 / 10
  overlap := fun _ _ _ => false
  energy := fun _ _ _ => 0
  wall := fun _ _ _ => false

theorem gasI_contract : Contract gasI where
  range_pos := by norm_num [gasI]
  overlap_symm := by intros; rfl
  overlap_symm_pbc := by intros; rfl
  overlap_range := by intro _ _ _ h; simp [gasI] at h
  energy_symm := by intros; rfl
  energy_symm_pbc := by intros; rfl
  energy_range := by intro _ _ _ h; simp [gasI] at h
  noHard_overlap := by intros; rfl
  noHard_wall := by intros; rfl

theorem one_reachable : ∃ P, Reachable P (ballsI [] (1 / 20) (1 / 10)) ∧ create unitBox oneShape (ballsI [] (1 / 20) (1 / 10)) 1 = .ok P ∧
    mols P = oneShape ∧ P.box = unitBox ∧ P.ng.isSome = true ∧ P.hasWall = ⟨false, false, false⟩ ∧ P.overlapCounting = false ∧
    P.moveThreads = 1 ∧ P.size = 1 := by
  have hI := ballsI_contract [] (r := 1 / 20) (by norm_num) (1 / 10)
  have hcap : oneShape.length * max 1 (ballsI [] (1 / 20) (1 / 10)).centres.length < 2 ^ 50 := by simp [oneShape, ballsI]
  obtain ⟨P, e, h, h1, h2, h3, h4, h5⟩ := create_ok hI unitBox_wf (shapes := oneShape) (by simp [oneShape]) oneShape_inside hcap 1
  refine ⟨P, .create hI unitBox_ok (by simp [oneShape]) oneShape_inside hcap e, e, h1, h2, ?_, h3, h4, h5, ?_⟩
  · rw [h.used]; exact unitBox_usesGrid h h2 (by norm_num [ballsI])
  · rw [← mols_length, h1]; rfl

theorem single_of_one {P : Packing} (h : P.size = 1) (I : Interaction) (φ : Site → Site → BC → ℝ) (s : Shape) : single P I φ 0 s = 0 := by
  simp [single, h]

theorem double_of_one {P : Packing} (h : P.size = 1) (I : Interaction) (φ : Site → Site → BC → ℝ) : double P I φ = 0 := by
  simp [double, h, single_of_one h]

theorem numTotal_of_one {P : Packing} (h : P.size = 1) (I : Interaction) : numTotal P I = wallNum P.box P.hasWall I (P.shapeFn 0) := by
  simp [numTotal, double_of_one h, h]

theorem shapeFn_of_mols {P : Packing} (h0 : 0 < P.size) {s : Shape} {l : List Shape} (h : mols P = s :: l) : P.shapeFn 0 = s := by
  have h1 : (mols P)[0]? = some s := by rw [h]; rfl
  rw [mols_getElem? h0, shape_some h0] at h1
  exact Option.some.inj h1

theorem unitBox_sides : unitBox.sides = ⟨⟨1, 0, 0⟩, ⟨0, 1, 0⟩, ⟨0, 0, 1⟩⟩ := by
  simp [Box.sides, Box.relToAbs, unitBox, Mat3.diag, Mat3.mulVec, Vec3.dot]

theorem wallNum_near : wallNum unitBox ⟨true, false, false⟩ (ballsI [] (1 / 20) (1 / 10)) ⟨⟨1 / 40, 1 / 2, 1 / 2⟩, 1⟩ = 1 := by
  norm_num [wallNum, wallAxis, unitBox_sides, wallSites, ballsI, normalized, Vec3.cross, Vec3.dot, Vec3.norm, Vec3.norm2]

theorem wallNum_mid : wallNum unitBox ⟨true, false, false⟩ (ballsI [] (1 / 20) (1 / 10)) ⟨⟨1 / 2, 1 / 2, 1 / 2⟩, 1⟩ = 0 := by
  norm_num [wallNum, wallAxis, unitBox_sides, wallSites, ballsI, normalized, Vec3.cross, Vec3.dot, Vec3.norm, Vec3.norm2]

end Packing

/-! ### C59 -/

/-- C59: setting a packing up again with valid molecules, box and interaction is safe, and gives what was asked for, if the
interaction centres are at most as many as before (or no grid is in use).
Missing: the case of more interaction centres, which is wrong in the code, see `C59_growing_reset_violated`. -/
theorem C59_reset_partial {P : Packing} {I I' : Interaction} (h : Reachable P I) (hI : Contract I') {M : Mat3} {b : Box}
    (hb : Box.make M = .ok b) {shapes : List Shape} (hne : shapes ≠ []) (hin : ∀ s ∈ shapes, Inside b s.pos)
    (hcap : sites shapes.length I'.centres.length < 2 ^ 50)
    (hroom : sites shapes.length I'.centres.length ≤ sites P.size I.centres.length ∨ P.ng = none) :
    ∃ P', P.reset shapes b I' = .ok P' ∧ mols P' = shapes ∧ P'.box = b ∧
      ∃ K : ℕ, P'.countTotalOverlaps I' false = .ok K ∧
        (P.overlapCounting = true → P'.getCachedNumberOfOverlaps = .ok K) := by
  obtain ⟨hP, hPI⟩ := h.inv
  obtain ⟨P', e, q, h1, h2, -, h4, -, -, h5⟩ := reset_safe (P := P) hI (Box.make_wf hb).1 hne hin (by
    intro g hg
    rcases hroom with hr | hr
    · refine ⟨(hP.gridsHave.ng g hg).1, le_trans hr ?_⟩
      have := (hP.gridsHave.ng g hg).2
      rwa [cap, hP.q.core.m_eq] at this
    · rw [hr] at hg; cases hg) hcap
  obtain ⟨K, hK0, hK⟩ := count_numTotal q hI
  obtain ⟨k, ek, -, hk⟩ := hK false
  refine ⟨P', e, h1, h2, k, ek, fun hc => ?_⟩
  rw [getCachedNumberOfOverlaps, if_pos (by rw [h4]; exact hc)]
  have := h5 hc
  rw [← hK0, ← hk rfl] at this
  congr 1
  exact_mod_cast this

/-- A packing of two molecules set up again with one molecule. -/
example : ∃ P I, Reachable P I ∧ P.ng.isSome = true ∧ sites oneShape.length I.centres.length ≤ sites P.size I.centres.length := by
  obtain ⟨P, h, -, -, hg, -, -, -, hs⟩ := two_reachable [] (by simp) (r := 1 / 20) (by norm_num) (by norm_num) (1 / 10) 1
  exact ⟨P, _, h, hg, by rw [hs]; simp [oneShape, sites]⟩

/-- C59 does not hold: setting a packing of one molecule, just created, up again with two molecules inside the same box writes
outside of an array. -/
theorem C59_growing_reset_violated : ∃ P I, Reachable P I ∧ Contract I ∧ (∃ M, Box.make M = .ok unitBox) ∧
    (∀ s ∈ twoShapes, Inside unitBox s.pos) ∧ sites twoShapes.length I.centres.length < 2 ^ 50 ∧
    P.reset twoShapes unitBox I = .ub := by
  obtain ⟨P, h, e, -, -, hg, -⟩ := one_reachable
  have hI := ballsI_contract [] (r := 1 / 20) (by norm_num) (1 / 10)
  obtain ⟨g, hg⟩ := Option.isSome_iff_exists.mp hg
  have hl := create_len hI unitBox_wf (by simp [oneShape]) oneShape_inside e hg
  obtain ⟨⟨s, cells, hi⟩, -⟩ := h.inv.1.gridsHave.ng g hg
  refine ⟨P, _, h, hI, ⟨_, unitBox_ok⟩, twoShapes_inside, by simp [sites, twoShapes, ballsI], ?_⟩
  refine reset_ub hI unitBox_wf (by simp [twoShapes]) twoShapes_inside (by simp [twoShapes, ballsI]) hg hi (by
    rw [hl]; simp [oneShape, twoShapes, ballsI]) ?_
  intro cs as og
  refine unitBox_usesGrid' ?_ rfl ?_
  · rw [resetState_size]; simp [twoShapes]
  · show (ballsI [] (1 / 20) (1 / 10)).range ≤ 1 / 5
    norm_num [ballsI]

/-! ### C60 -/

/-- C60: switching walls with counting switched off around it leaves the reported number of overlaps right.
Missing: switching walls while counting is on, which is wrong in the code, see `C60_walls_violated`. -/
theorem C60_walls_partial {P : Packing} {I : Interaction} (h : Reachable P I) (w : Vec3 Bool) :
    ∃ P1 P2, P.toggleOverlapCounting false I = .ok P1 ∧ (P1.toggleWalls w).toggleOverlapCounting true I = .ok P2 ∧
      P2.hasWall = w ∧ mols P2 = mols P ∧
      ∃ K : ℕ, P2.countTotalOverlaps I false = .ok K ∧ P2.getCachedNumberOfOverlaps = .ok K := by
  obtain ⟨hP, hI⟩ := h.inv
  obtain ⟨n1, e1, h1⟩ := toggle_ok hP hI false
  have h2 := walls_ok h1 w rfl
  obtain ⟨n2, e2, h3⟩ := toggle_ok h2 hI true
  obtain ⟨K, eK, hK⟩ := cached_exact h3 hI rfl
  exact ⟨_, _, e1, e2, rfl, rfl, K, eK, by rw [getCachedNumberOfOverlaps, if_pos rfl, hK]⟩

example : ∃ P I, Reachable P I ∧ P.ng.isSome = true := by
  obtain ⟨P, h, -, -, -, hg, -⟩ := one_reachable
  exact ⟨P, _, h, hg⟩

/-- C60 does not hold: a ball near the face `x = 0`, counting is on, the wall is switched on: the reported number of
overlaps is still 0, but there is one. -/
theorem C60_walls_violated : ∃ P I, Reachable P I ∧ P.overlapCounting = true ∧
    (P.toggleWalls ⟨true, false, false⟩).getCachedNumberOfOverlaps = .ok 0 ∧
    (P.toggleWalls ⟨true, false, false⟩).countTotalOverlaps I false = .ok 1 := by
  obtain ⟨P, h, -, hm, hb, -, hw, -, -, hs⟩ := one_reachable
  have hI := ballsI_contract [] (r := 1 / 20) (by norm_num) (1 / 10)
  obtain ⟨n, e1, h1⟩ := toggle_ok h.inv.1 hI true
  have hr := Reachable.step (.counting true) h trivial (P' := { P with overlapCounting := true, numOverlaps := n })
    (I' := ballsI [] (1 / 20) (1 / 10)) (by simp only [Op.run]; rw [e1]; rfl)
  have hs0 : P.shapeFn 0 = ⟨⟨1 / 40, 1 / 2, 1 / 2⟩, 1⟩ := shapeFn_of_mols (by omega) hm
  refine ⟨_, _, hr, rfl, ?_, ?_⟩
  · show Packing.getCachedNumberOfOverlaps { P with overlapCounting := true, numOverlaps := n, hasWall := _ } = _
    rw [getCachedNumberOfOverlaps, if_pos rfl]
    have := h1.cached rfl
    have e0 : numTotal { P with overlapCounting := true, numOverlaps := n } (ballsI [] (1 / 20) (1 / 10)) = 0 := by
      rw [numTotal_of_one (show ({ P with overlapCounting := true, numOverlaps := n } : Packing).size = 1 from hs)]
      have : wallNum P.box P.hasWall (ballsI [] (1 / 20) (1 / 10)) (P.shapeFn 0) = 0 := wallNum_of_none _ (by simp [hasAnyWalls, hw]) _
      exact_mod_cast this
    rw [e0] at this
    congr 1
    exact_mod_cast this
  · have q := h1.q
    have q' : QInv (Packing.toggleWalls { P with overlapCounting := true, numOverlaps := n } ⟨true, false, false⟩) (ballsI [] (1 / 20) (1 / 10)) :=
      ⟨⟨q.core.m_eq, q.core.range_eq, q.core.threads, q.core.box, q.core.inside, fun i s hi hs =>
        ⟨(q.core.slots i s hi hs).shape, (q.core.slots i s hi hs).centre, (q.core.slots i s hi hs).abs⟩, q.core.clen, q.core.alen, q.core.la, q.core.ld⟩,
        q.grid⟩
    obtain ⟨K, hK0, hK⟩ := count_numTotal q' hI
    obtain ⟨k, ek, -, hk⟩ := hK false
    rw [ek, hk rfl]
    congr 1
    have e0 : numTotal (Packing.toggleWalls { P with overlapCounting := true, numOverlaps := n } ⟨true, false, false⟩) (ballsI [] (1 / 20) (1 / 10)) = 1 := by
      rw [numTotal_of_one (show (Packing.toggleWalls { P with overlapCounting := true, numOverlaps := n } ⟨true, false, false⟩).size = 1 from hs)]
      show ((wallNum P.box ⟨true, false, false⟩ (ballsI [] (1 / 20) (1 / 10)) (P.shapeFn 0) : ℕ) : ℝ) = 1
      rw [hb, hs0, wallNum_near]; norm_num
    rw [e0] at hK0
    exact_mod_cast hK0

/-! ### C61 -/

/-- C61: after a re-setup with at most as many interaction centres, which does not go from an interaction with a hard part
to one without, the reported number of overlaps is right after each further accepted move.
Missing: dropping the hard part, which is wrong in the code, see `C61_stale_difference_violated`, and more interaction
centres, see C59. -/
theorem C61_reset_partial {P P1 : Packing} {I I' : Interaction} (h : Reachable P I) (hc : P.overlapCounting = true) {shapes : List Shape}
    {b : Box} (ha : (Op.reset shapes b I').Allowed P I) (hr : P.reset shapes b I' = .ok P1) {tid i : Nat} {k : Kind}
    {domain : Option (Vec3 ℝ → Bool)} (hk : (Op.move tid i k domain .move).Allowed P1 I') :
    ∃ P2 e P3, P1.tryKind I' tid i k domain = .ok (P2, e) ∧ P2.acceptHow tid .move = .ok P3 ∧
      ∃ K : ℕ, P3.countTotalOverlaps I' false = .ok K ∧ P3.getCachedNumberOfOverlaps = .ok K := by
  have h1 : Reachable P1 I' := .step (.reset shapes b I') h ha (by simp only [Op.run]; rw [hr]; rfl)
  obtain ⟨hI', ⟨M, hM⟩, hne, hin, hcap, hroom, hhard⟩ := ha
  have hc1 : P1.overlapCounting = true := by
    obtain ⟨P', e, -, -, -, -, h4, -⟩ := reset_ok (P := P) hI' (Box.make_wf hM).1 hne hin (by
      rcases hroom with hr | hr
      · refine ⟨fun g hg => ⟨(h.inv.1.gridsHave.ng g hg).1, le_trans hr ?_⟩, fun g hg => ⟨(h.inv.1.gridsHave.tmp g hg).1, le_trans hr ?_⟩⟩
        · have := (h.inv.1.gridsHave.ng g hg).2
          rwa [cap, h.inv.1.q.core.m_eq] at this
        · have := (h.inv.1.gridsHave.tmp g hg).2
          rwa [cap, h.inv.1.q.core.m_eq] at this
      · exact ⟨fun g hg => (by rw [hr.1] at hg; cases hg), fun g hg => (by rw [hr.2] at hg; cases hg)⟩) hcap
      (fun hh => h.inv.1.noHard (hhard hh))
    rw [hr] at e
    cases e
    rw [h4]; exact hc
  obtain ⟨ht, hf, s, hs, hd⟩ := hk
  have hi : i < P1.size := by
    by_contra hi
    rw [List.getElem?_eq_none (by rw [mols_length]; omega)] at hs; cases hs
  have hs' : P1.shapeFn i = s := by
    rw [mols_getElem? hi, shape_some hi] at hs
    exact Option.some.inj hs
  obtain ⟨P2, P3, K0, K1, e2, e3, -, h3, sm, rp, -⟩ := move_pinv h1.inv.1 h1.inv.2 (tid := tid) (i := i) (k := k) (how := .move)
    (domain := domain) ht hi (by rw [hs']; exact hd) trivial
  obtain ⟨K, eK, hK⟩ := cached_exact h3 h1.inv.2 (by rw [rp.overlapCounting, sm.overlapCounting, hc1])
  exact ⟨P2, _, P3, e2, e3, K, eK, by rw [getCachedNumberOfOverlaps, if_pos (by rw [rp.overlapCounting, sm.overlapCounting, hc1]), hK]⟩

/-- The hypotheses are met: two molecules, counting on, set up again with one of them, which is then moved. -/
example : ∃ P I P1, Reachable P I ∧ P.overlapCounting = true ∧ (Op.reset oneShape unitBox I).Allowed P I ∧
    P.reset oneShape unitBox I = .ok P1 ∧ (Op.move 0 0 (.translation ⟨1 / 3, 0, 0⟩) none .move).Allowed P1 I := by
  obtain ⟨P, h, hc, hb, hs, ht, hw⟩ := two_history [] (by simp) (r := 1 / 20) (by norm_num) (by norm_num) (1 / 10) true 0 1 unitBox_ok
  have ha : (Op.reset oneShape unitBox (ballsI [] (1 / 20) (1 / 10))).Allowed P (ballsI [] (1 / 20) (1 / 10)) :=
    ⟨h.inv.2, ⟨_, unitBox_ok⟩, by simp [oneShape], oneShape_inside, by simp [sites, oneShape, ballsI],
      .inl (by rw [hs]; simp [sites, oneShape]), id⟩
  obtain ⟨P1, e, q, hm, -, -, -, hmt, -⟩ := reset_safe (P := P) h.inv.2 unitBox_wf (shapes := oneShape) (by simp [oneShape]) oneShape_inside (by
    intro g hg
    refine ⟨(h.inv.1.gridsHave.ng g hg).1, le_trans ?_ (h.inv.1.gridsHave.ng g hg).2⟩
    rw [cap, h.inv.1.q.core.m_eq, hs]; simp [oneShape]) (by simp [oneShape, ballsI])
  exact ⟨P, _, P1, h, hc, ha, e, by rw [hmt, ht]; omega, trivial, _, by rw [hm]; rfl, by simp [InDomain]⟩

/-- C61 does not hold: a ball overlaps a wall, a trial move away from it is made and abandoned, the packing is set up again
with an interaction without a hard part, and a move is accepted: the reported number of overlaps is -1 (2^64 - 1 as an
unsigned number), the right one is 0. -/
theorem C61_stale_difference_violated : ∃ P I I' P1 P2 e P3, Reachable P I ∧ P.overlapCounting = true ∧ Contract I' ∧
    (∀ s ∈ oneShape, Inside unitBox s.pos) ∧ P.reset oneShape unitBox I' = .ok P1 ∧
    P1.tryKind I' 0 0 (.translation 0) none = .ok (P2, e) ∧ P2.acceptHow 0 .move = .ok P3 ∧
    P3.getCachedNumberOfOverlaps = .ok (-1) ∧ P3.countTotalOverlaps I' false = .ok 0 := by
  obtain ⟨P, h, -, hm, hb, -, -, hc, ht, hs⟩ := one_reachable
  have hI := ballsI_contract [] (r := 1 / 20) (by norm_num) (1 / 10)
  have hs0 : P.shapeFn 0 = ⟨⟨1 / 40, 1 / 2, 1 / 2⟩, 1⟩ := shapeFn_of_mols (by omega) hm
  -- walls, counting
  have hr1 : Reachable (P.toggleWalls ⟨true, false, false⟩) (ballsI [] (1 / 20) (1 / 10)) := .step (.walls ⟨true, false, false⟩) h hc rfl
  obtain ⟨n, e1, h1⟩ := toggle_ok hr1.inv.1 hI true
  have hr2 := Reachable.step (.counting true) hr1 trivial
    (P' := { P.toggleWalls ⟨true, false, false⟩ with overlapCounting := true, numOverlaps := n })
    (I' := ballsI [] (1 / 20) (1 / 10)) (by simp only [Op.run]; rw [e1]; rfl)
  generalize hQ : ({ P.toggleWalls ⟨true, false, false⟩ with overlapCounting := true, numOverlaps := n } : Packing) = Q at hr2
  have sQ : Q.size = 1 := by rw [← hQ]; exact hs
  have tQ : Q.moveThreads = 1 := by rw [← hQ]; exact ht
  have cQ : Q.overlapCounting = true := by rw [← hQ]
  have bQ : Q.box = unitBox := by rw [← hQ]; exact hb
  have wQ : Q.hasWall = ⟨true, false, false⟩ := by rw [← hQ]; rfl
  have fQ : Q.shapeFn 0 = ⟨⟨1 / 40, 1 / 2, 1 / 2⟩, 1⟩ := by rw [← hQ]; exact hs0
  -- the abandoned trial
  obtain ⟨Q1, K0, K1, e2, sm, -, -, -, hd, hK0, hK1⟩ := trial_in hr2.inv.1 hI (tid := 0) (i := 0) (k := .translation ⟨19 / 40, 0, 0⟩)
    (domain := none) (by omega) (by omega) (by simp [InDomain])
  have hr3 := Reachable.step (.trial 0 0 (.translation ⟨19 / 40, 0, 0⟩) none) hr2 (P' := Q1) (I' := ballsI [] (1 / 20) (1 / 10))
    ⟨by omega, by omega⟩ (by simp only [Op.run]; rw [e2]; rfl)
  have hmid : (Kind.translation ⟨19 / 40, 0, 0⟩).apply Q.box (Q.shapeFn 0) = ⟨⟨1 / 2, 1 / 2, 1 / 2⟩, 1⟩ := by
    rw [fQ, bQ]
    have e : (⟨1 / 40, 1 / 2, 1 / 2⟩ : Vec3 ℝ) + ⟨19 / 40, 0, 0⟩ = ⟨1 / 2, 1 / 2, 1 / 2⟩ := by ext <;> norm_num
    have h0 := (C05_correction unitBox_ok ⟨1 / 2, 1 / 2, 1 / 2⟩).2.2.1 (unitBox_inside (by norm_num) (by norm_num) (by norm_num))
    have h0 : PBC.getCorrection unitBox ⟨1 / 2, 1 / 2, 1 / 2⟩ = 0 := h0
    simp only [Kind.apply, Shape.translate, wrap, e, h0]
    congr 1
    ext <;> norm_num
  rw [single_of_one sQ, fQ, bQ, wQ, wallNum_near] at hK0
  rw [single_of_one sQ, hmid, bQ, wQ, wallNum_mid] at hK1
  have k0 : K0 = 1 := by exact_mod_cast (by simpa using hK0 : (K0 : ℝ) = 1)
  have k1 : K1 = 0 := by exact_mod_cast (by simpa using hK1 : (K1 : ℝ) = 0)
  have hlen : Q.lastDeltas.length = 1 := by rw [hr2.inv.1.q.core.ld, tQ]
  have hd1 : Q1.lastDeltas = [-1] := by
    rw [hd, newDeltas, if_pos (by rw [cQ]; rfl), k0, k1]
    obtain ⟨x, hx⟩ := List.length_eq_one_iff.mp hlen
    rw [hx]; rfl
  -- the new setup
  obtain ⟨P1, e3, q1, hm1, hb1, -, hc1, ht1, hd2, hn1⟩ := reset_safe (P := Q1) gasI_contract unitBox_wf (shapes := oneShape) (by simp [oneShape])
    oneShape_inside (by
      intro g hg
      refine ⟨(hr3.inv.1.gridsHave.ng g hg).1, le_trans ?_ (hr3.inv.1.gridsHave.ng g hg).2⟩
      rw [cap, hr3.inv.1.q.core.m_eq, sm.size, sQ]; simp [oneShape, ballsI, gasI]) (by simp [oneShape, gasI])
  have s1 : P1.size = 1 := by rw [← mols_length, hm1]; rfl
  have c1 : P1.overlapCounting = true := by rw [hc1, sm.overlapCounting, cQ]
  have hn1 := hn1 (by rw [sm.overlapCounting, cQ])
  rw [numTotal_of_one s1, wallNum_noHard gasI_contract rfl] at hn1
  have n1 : P1.numOverlaps = 0 := by exact_mod_cast hn1
  have d1 : P1.lastDeltas = [-1] := by rw [hd2, hd1, sm.moveThreads, tQ]; rfl
  -- the accepted move
  obtain ⟨P2, L0, L1, hp, -, -, e4⟩ := try_ok q1 gasI_contract (tid := 0) (i := 0) (k := .translation 0) (domain := none)
    (by rw [ht1, sm.moveThreads, tQ]; omega) (by omega) (shape_some (by omega)) (by simp [InDomain])
  have hnd : P1.newDeltas gasI 0 L0 L1 = P1.lastDeltas := by rw [newDeltas, if_neg (by simp [gasI])]
  rw [hnd] at e4
  have hl : P1.lastDeltas.length = P2.lastDeltas.length := by rw [hp.deltas]
  have same : SameMols P1 { P2 with lastDeltas := P1.lastDeltas } := hp.same.trans (deltas_qinv hl)
  have q2 := same.qinv q1
  generalize hR : ({ P2 with lastDeltas := P1.lastDeltas } : Packing) = R at e4 same q2
  have hla : R.lastAltered[0]? = some 0 := by rw [← hR]; exact hp.altered
  have hslot : SlotOk R gasI (R.size + 0) ((Kind.translation 0).apply P1.box (P1.shapeFn 0)) := by
    rw [same.size, ← hR]; exact ⟨hp.slot.shape, hp.slot.centre, hp.slot.abs⟩
  obtain ⟨P3, e5, rep, q3, hn3, -⟩ := accept_ok q2 (tid := 0) (i := 0) (how := .move) (by rw [same.moveThreads, ht1, sm.moveThreads, tQ]; omega)
    (by rw [same.size, s1]; omega) hla (shape_some (by rw [same.size, s1]; omega)) hslot
    (by rw [same.box]; exact Kind.apply_inside q1.core.box (q1.core.shapeFn (by omega)).2 _) trivial
  refine ⟨Q1, _, gasI, P1, R, _, P3, hr3, by rw [sm.overlapCounting, cQ], gasI_contract, oneShape_inside, e3, e4, e5, ?_, ?_⟩
  · rw [getCachedNumberOfOverlaps, if_pos (by rw [rep.overlapCounting, same.overlapCounting, c1]), hn3, withDelta,
      if_pos (by rw [same.overlapCounting, c1])]
    have : R.numOverlaps = 0 := by rw [same.numOverlaps, n1]
    rw [this, ← hR, d1]; rfl
  · obtain ⟨K, hK0, hK⟩ := count_numTotal q3 gasI_contract
    obtain ⟨k, ek, -, hk⟩ := hK false
    rw [numTotal_of_one (by rw [rep.size, same.size, s1]), wallNum_noHard gasI_contract rfl] at hK0
    rw [ek, hk rfl]
    congr 1
    exact_mod_cast hK0

end Rampack
