import Verif.Packing.CountLemmas
/-
Helper lemmas: the pairs visited by the total count.
-/
namespace Rampack.Packing

open Rampack.Spec Rampack.Grid

/-- The shape in a slot. -/
def shapeFn (P : Packing) (i : Nat) : Shape := P.shapes.getD i defaultShape

/-- The sum of a pair function over the sites of two molecules. -/
noncomputable def molW (P : Packing) (I : Interaction) (φ : Site → Site → BC → ℝ) (s1 s2 : Shape) : ℝ :=
  sitePairs P.box I (pairW P.box P.ng.isSome φ) s1 s2

theorem sum_points {P : Packing} {I : Interaction} (hP : Core P I) {a b : Nat} {s1 s2 : Shape} (h1 : SlotOk P I a s1)
    (h2 : SlotOk P I b s2) (f : Site → Site → ℝ) :
    ((P.points a).map fun k1 => ((P.points b).map fun k2 => f (P.siteFn k1) (P.siteFn k2)).sum).sum =
      sitePairs P.box I f s1 s2 := by
  rw [sitePairs, ← (site_of_slot hP.m_eq h1).2, ← (site_of_slot hP.m_eq h2).2]
  simp only [List.map_map]
  rfl

theorem Core.shapeFn {P : Packing} {I : Interaction} (h : Core P I) {i : Nat} (hi : i < P.size) :
    SlotOk P I i (P.shapeFn i) ∧ Inside P.box (P.shapeFn i).pos := by
  obtain ⟨s, e, hs, hin⟩ := h.slot hi
  have : P.shapeFn i = s := by unfold Packing.shapeFn; simp [e]
  rw [this]; exact ⟨hs, hin⟩

theorem sum_others {P : Packing} {I : Interaction} (hP : Core P I) {a : Nat} {s : Shape} (h : SlotOk P I a s) (orig : Nat)
    (f : Site → Site → ℝ) :
    ((P.points a).map fun k1 => ((P.others orig).map fun k2 => f (P.siteFn k1) (P.siteFn k2)).sum).sum =
      (((List.range P.size).filter (· ≠ orig)).map fun j => sitePairs P.box I f s (P.shapeFn j)).sum := by
  simp only [others, sum_flatMap]
  rw [sum_swap]
  apply sum_congr'
  intro j hj
  rw [List.mem_filter, List.mem_range] at hj
  exact sum_points hP h (hP.shapeFn hj.1).1 f

/-- The pairs visited for one particle. -/
theorem particleChecks_ok {P : Packing} {I : Interaction} (hP : Core P I) (hI : 0 < I.range)
    (hg : ∀ g, P.ng = some g → GridOk P g) {temp : Nat} {s : Shape} (ht : SlotOk P I temp s) (hs : Inside P.box s.pos)
    (orig : Nat) : ∃ l, P.particleChecks orig temp = .ok l ∧ (∀ c ∈ l, CheckOk P c) ∧
      ∀ φ, InRangeFn I.range φ → (l.map (P.val φ)).sum =
        (((List.range P.size).filter (· ≠ orig)).map fun j => molW P I φ s (P.shapeFn j)).sum := by
  cases e : P.ng with
  | some g =>
    obtain ⟨l, el, h1, h2⟩ := particleChecksNG_ok hP hI (hg g e) ht hs orig
    refine ⟨l, by rw [particleChecks, e]; exact el, h1, ?_⟩
    intro φ hφ
    rw [h2 φ hφ, sum_others hP ht orig (pairW P.box true φ)]
    simp only [molW, e]
    rfl
  | none =>
    refine ⟨_, by rw [particleChecks, e], ?_, ?_⟩
    · intro c hc
      simp only [particleChecksNoNG, betweenChecks, List.mem_flatMap, List.mem_map, List.mem_filter, List.mem_range] at hc
      obtain ⟨j, ⟨hj, _⟩, k1, hk1, k2, hk2, rfl⟩ := hc
      exact ⟨(slot_sites hP ht hs k1 hk1).1, (slot_sites hP (hP.shapeFn hj).1 (hP.shapeFn hj).2 k2 hk2).1⟩
    · intro φ hφ
      rw [particleChecksNoNG, sum_flatMap]
      apply sum_congr'
      intro j hj
      rw [List.mem_filter, List.mem_range] at hj
      rw [betweenChecks, sum_flatMap, molW, e, ← sum_points hP ht (hP.shapeFn hj.1).1]
      apply sum_congr'
      intro k1 _
      rw [List.map_map]
      rfl

theorem sum_cellPairs {P : Packing} (skip : Nat → Nat → Bool) (nbs : List (Vec3 ℝ × List Nat)) (φ : Site → Site → BC → ℝ) :
    ∀ ids : List Nat, ((cellPairs skip nbs ids).map (P.val φ)).sum =
      ((pairs ids).map fun p => if skip p.1 p.2 then 0 else P.val φ (p.1, p.2, BC.hard 0)).sum +
      (ids.map fun k1 => (nbs.map fun e => (e.2.map fun k2 => if skip k1 k2 then 0 else P.val φ (k1, k2, BC.hard e.1)).sum).sum).sum
  | [] => by simp [cellPairs, pairs]
  | k1 :: rest => by
    rw [cellPairs, List.map_append, List.sum_append, List.map_append, List.sum_append, sum_cellPairs skip nbs φ rest, pairs,
      List.map_append, List.sum_append, List.map_cons, List.sum_cons, sum_flatMap]
    have e1 : (((rest.filter fun k2 => !skip k1 k2).map fun k2 => ((k1, k2, BC.hard 0) : Check)).map (P.val φ)).sum =
        ((rest.map fun b => (k1, b)).map fun p : Nat × Nat => if skip p.1 p.2 then 0 else P.val φ (p.1, p.2, BC.hard 0)).sum := by
      rw [List.map_map, List.map_map, sum_filter]
      apply sum_congr'
      intro k2 _
      by_cases h : skip k1 k2 <;> simp [h]
    have e2 : (nbs.map fun e => (((e.2.filter fun k2 => !skip k1 k2).map fun k2 => ((k1, k2, BC.hard e.1) : Check)).map (P.val φ)).sum).sum =
        (nbs.map fun e => (e.2.map fun k2 => if skip k1 k2 then 0 else P.val φ (k1, k2, BC.hard e.1)).sum).sum := by
      apply sum_congr'
      intro e _
      rw [List.map_map, sum_filter]
      apply sum_congr'
      intro k2 _
      by_cases h : skip k1 k2 <;> simp [h]
    rw [e1, e2]
    ring

theorem mem_cellPairs {skip : Nat → Nat → Bool} {nbs : List (Vec3 ℝ × List Nat)} :
    ∀ {ids : List Nat} {c : Check}, c ∈ cellPairs skip nbs ids → c.1 ∈ ids ∧ (c.2.1 ∈ ids ∨ ∃ e ∈ nbs, c.2.1 ∈ e.2)
  | [], c, h => by simp [cellPairs] at h
  | k1 :: rest, c, h => by
    rw [cellPairs, List.mem_append, List.mem_append] at h
    rcases h with (h | h) | h
    · obtain ⟨k2, hk, rfl⟩ := List.mem_map.mp h
      exact ⟨by simp, Or.inl (by simp [(List.mem_filter.mp hk).1])⟩
    · simp only [List.mem_flatMap, List.mem_map, List.mem_filter] at h
      obtain ⟨e, he, k2, ⟨hk, _⟩, rfl⟩ := h
      exact ⟨by simp, Or.inr ⟨e, he, hk⟩⟩
    · obtain ⟨h1, h2⟩ := mem_cellPairs h
      refine ⟨by simp [h1], ?_⟩
      rcases h2 with h2 | h2
      · exact Or.inl (by simp [h2])
      · exact Or.inr h2

/-- The check `particleIdx1 == particleIdx2`. -/
def skipFn (P : Packing) (k1 k2 : Nat) : Bool := decide (P.m ≠ 0) && decide (P.owner k1 = P.owner k2)

/-- The value of a triple, zero when it is skipped. -/
noncomputable def tripleVal (P : Packing) (φ : Site → Site → BC → ℝ) (p : Triple) : ℝ :=
  if P.skipFn p.1 p.2.1 then 0 else φ (P.siteFn p.1) (P.siteFn p.2.1) (BC.hard (lattice P.box p.2.2))

/-- One cell in the half enumeration. -/
def halfCell (N : Vec3 Nat) (cells : Vec3 Nat → List Nat) (c : Vec3 Nat) : List Triple :=
  (pairs (cells c)).map (fun p => (p.1, p.2, (0 : Vec3 Int))) ++ fromCell N cells (dirs.filter isPos) c

theorem cellChecks_ok {P : Packing} {I : Interaction} (hP : Core P I) {g : NG} {cells : Nat → List Nat} {cs : ℝ}
    (hg : GInv g.succ.length g ⟨P.box, cs, P.posAt⟩ cells) {c : Vec3 Nat} (hc : InRange (nreal g.divs) c) :
    ∃ l, P.cellChecks g c = .ok l ∧ (∀ x ∈ l, CheckOk P x) ∧ ∀ φ, (l.map (P.val φ)).sum =
      ((halfCell (nreal g.divs) (fun c => cells (realCoordinatesToCellNo g.divs c)) c).map (P.tripleVal φ)).sum := by
  have hbox : g.box = P.box := hg.box
  obtain ⟨L, e, hp⟩ := getNeighbouringCells_ok hg.wf hg.rep hc true
  refine ⟨_, by rw [cellChecks, getCell_ok hg.wf hg.rep hc, Outcome.ok_bind, e, Outcome.ok_bind]; rfl, ?_, ?_⟩
  · intro x hx
    obtain ⟨h1, h2⟩ := mem_cellPairs hx
    refine ⟨(hP.siteOk ((GInv.mem_cells hg).mp h1).1).1, ?_⟩
    rcases h2 with h2 | ⟨e, he, h2⟩
    · exact (hP.siteOk ((GInv.mem_cells hg).mp h2).1).1
    · obtain ⟨n, _, rfl⟩ := List.mem_map.mp (hp.mem_iff.mp he)
      exact (hP.siteOk ((GInv.mem_cells hg).mp h2).1).1
  · intro φ
    rw [sum_cellPairs, halfCell, List.map_append, List.sum_append, List.map_map, fromCell, sum_flatMap]
    congr 1
    · apply sum_congr'
      intro p _
      simp only [tripleVal, Function.comp, lattice_zero, skipFn, val]
    · apply sum_congr'
      intro k1 _
      rw [sum_perm hp, List.map_map, sum_flatMap, dirsOf, if_pos rfl]
      apply sum_congr'
      intro n _
      rw [List.map_map]
      simp only [Function.comp, hbox]
      rfl

theorem norm2_le_imp {b : Box} (hb : b.WF) {r : ℝ} (hr : 0 < r) (hx : r < b.heights.x) (hy : r < b.heights.y)
    (hz : r < b.heights.z) {p : Vec3 ℝ} {t : Vec3 ℤ} (h : dist2 p (p + lattice b t) ≤ r ^ 2) : t = 0 := by
  have e : dist2 p (p + lattice b t) = (lattice b t).norm2 := by
    simp only [dist2, Vec3.norm2, Vec3.dot, Vec3.add_x, Vec3.add_y, Vec3.add_z]; ring
  rw [e] at h
  have hn := norm_le_of_norm2_le hr.le h
  obtain ⟨h1, h2, h3⟩ := Box.height_mul_rel_le hb (lattice b t)
  rw [Box.absToRel_lattice hb] at h1 h2 h3
  simp only [Vec3.map_x, Vec3.map_y, Vec3.map_z] at h1 h2 h3
  have key : ∀ (k : ℤ) (hh : ℝ), r < hh → |(k : ℝ)| * hh ≤ (lattice b t).norm → k = 0 := by
    intro k hh h0 h1
    by_contra hk
    have : (1 : ℝ) ≤ |(k : ℝ)| := by
      rw [← Int.cast_abs]; exact_mod_cast Int.one_le_abs hk
    nlinarith
  ext
  · exact key _ _ hx h1
  · exact key _ _ hy h2
  · exact key _ _ hz h3

theorem skipFn_symm (P : Packing) (a b : Nat) : P.skipFn a b = P.skipFn b a := by
  simp only [skipFn, eq_comm]

theorem tripleVal_flip (P : Packing) {φ : Site → Site → BC → ℝ} (hs : SymmFn φ) (p : Triple) :
    P.tripleVal φ (flip3 p) = P.tripleVal φ p := by
  simp only [tripleVal, flip3, skipFn_symm P p.2.1 p.1]
  rw [hs.hard, lattice_neg, neg_neg]

theorem tripleVal_self {P : Packing} {I : Interaction} (hP : Core P I) (hI : 0 < I.range)
    {cs : ℝ} (hcs : P.range ≤ cs) (hx : cs < P.box.heights.x) (hy : cs < P.box.heights.y) (hz : cs < P.box.heights.z)
    {φ : Site → Site → BC → ℝ} (hφ : InRangeFn I.range φ) (p : Triple) :
    (if notSelf p then P.tripleVal φ p else 0) =
      if P.owner p.2.1 ≠ P.owner p.1 then φ (P.siteFn p.1) (P.siteFn p.2.1) (BC.hard (lattice P.box p.2.2)) else 0 := by
  obtain ⟨i, j, t⟩ := p
  simp only [tripleVal, notSelf, skipFn]
  by_cases ho : P.owner j = P.owner i
  · simp only [ho, ne_eq, not_true_eq_false, if_false, decide_true, Bool.and_true, decide_not]
    by_cases h0 : P.m = 0
    · simp only [owner, h0, if_true] at ho
      subst ho
      simp only [h0, decide_true, Bool.not_true, Bool.false_eq_true, if_false, Bool.true_and]
      by_cases ht : t = 0
      · simp [ht]
      · simp only [ht, decide_false, Bool.not_false, if_true]
        by_contra hne
        have := hφ _ _ _ hne
        rw [hP.range_eq] at hcs
        exact ht (norm2_le_imp hP.box hI (by linarith) (by linarith) (by linarith) this)
    · simp [h0]
  · have hij : i ≠ j := by rintro rfl; exact ho rfl
    have ho' : ¬ P.owner i = P.owner j := fun h => ho h.symm
    simp [ho, ho', hij]

theorem fromCell_sum {N : Vec3 Nat} {cells : Vec3 Nat → List Nat} {c : Vec3 Nat} (f : Triple → ℝ) :
    ((fromCell N cells dirs c).map f).sum =
      ((cells c).map fun i => ((seen N cells c).map fun p => f (i, p.1, p.2)).sum).sum := by
  rw [fromCell, sum_flatMap]
  apply sum_congr'
  intro i _
  rw [seen, sum_flatMap, sum_flatMap]
  apply sum_congr'
  intro n _
  rw [List.map_map, List.map_map]
  rfl

/-- Twice the sum over the half enumeration is the sum over all ordered pairs of different molecules. -/
theorem half_sum {P : Packing} {I : Interaction} (hP : Core P I) (hI : 0 < I.range) {g : NG} {cells : Nat → List Nat}
    {cs : ℝ} (hg : GInv g.succ.length g ⟨P.box, cs, P.posAt⟩ cells) (hcs : P.range ≤ cs) (hx : cs < P.box.heights.x)
    (hy : cs < P.box.heights.y) (hz : cs < P.box.heights.z)
    {φ : Site → Site → BC → ℝ} (hφ : InRangeFn I.range φ) (hs : SymmFn φ) :
    2 * ((allCells (nreal g.divs)).map fun c => ((halfCell (nreal g.divs)
        (fun c => cells (realCoordinatesToCellNo g.divs c)) c).map (P.tripleVal φ)).sum).sum =
      ((List.range P.size).map fun i => (((List.range P.size).filter (· ≠ i)).map fun j =>
        sitePairs P.box I (pairW P.box true φ) (P.shapeFn i) (P.shapeFn j)).sum).sum := by
  set N := nreal g.divs
  set cl := fun c => cells (realCoordinatesToCellNo g.divs c)
  have hbox : g.box = P.box := hg.box
  have h1 : ((allCells N).map fun c => ((halfCell N cl c).map (P.tripleVal φ)).sum).sum =
      ((halfT N cl (allCells N)).map (P.tripleVal φ)).sum := by
    rw [halfT, sum_flatMap]; rfl
  rw [h1, two_mul]
  have h2 : ((halfT N cl (allCells N)).map (P.tripleVal φ)).sum =
      (((halfT N cl (allCells N)).map flip3).map (P.tripleVal φ)).sum := by
    rw [List.map_map]
    apply sum_congr'
    intro p _
    exact (tripleVal_flip P hs p).symm
  conv_lhs => arg 2; rw [h2]
  rw [← List.sum_append, ← List.map_append,
    ← sum_perm (full_perm_half hg.rep.cellsOk (allCells_nodup N) (fun c => mem_allCells)), sum_filter,
    sum_congr' (fun p _ => tripleVal_self hP hI hcs hx hy hz hφ p), fullT, sum_flatMap]
  -- sum over cells, then over indices in the cell
  have h3 : ∀ c ∈ allCells N, ((fromCell N cl dirs c).map fun p : Triple =>
      if P.owner p.2.1 ≠ P.owner p.1 then φ (P.siteFn p.1) (P.siteFn p.2.1) (BC.hard (lattice P.box p.2.2)) else 0).sum =
      ((cl c).map fun k1 => ((P.others (P.owner k1)).map fun k2 =>
        pairW P.box true φ (P.siteFn k1) (P.siteFn k2)).sum).sum := by
    intro c hc
    rw [fromCell_sum]
    apply sum_congr'
    intro k1 hk1
    obtain ⟨ho, hcell⟩ := (GInv.mem_cells hg).mp hk1
    have hin := (hP.siteOk ho).2
    have : c = g.cellOf (P.siteFn k1).pos :=
      realCn_inj (mem_allCells.mp hc) (cellOf_inRange hg.wf (by rw [hbox]; exact hin)) hcell
    rw [← seen_sum hP hI hg hcs hφ hin (P.owner k1), ← this, sum_filter]
    apply sum_congr'
    intro p _
    simp
  rw [sum_congr' h3, ← sum_flatMap]
  have h4 : ((allCells N).flatMap cl).Perm ((List.range P.size).flatMap P.points) := by
    rw [List.perm_ext_iff_of_nodup]
    · intro k
      simp only [List.mem_flatMap, mem_points, List.mem_range]
      constructor
      · rintro ⟨c, _, hk⟩; exact ⟨_, ((GInv.mem_cells hg).mp hk).1, rfl⟩
      · rintro ⟨i, hi, rfl⟩
        exact ⟨g.cellOf (P.siteFn k).pos, mem_allCells.mpr (cellOf_inRange hg.wf (by rw [hbox]; exact (hP.siteOk hi).2)),
          (GInv.mem_cells hg).mpr ⟨hi, rfl⟩⟩
    · apply nodup_flatMap_of (allCells_nodup N)
      · intro c hc; exact hg.rep.cellsOk.nodup c (mem_allCells.mp hc)
      · intro c hc c' hc' a ha hb
        exact hg.rep.cellsOk.disj c c' a (mem_allCells.mp hc) (mem_allCells.mp hc') ha hb
    · apply nodup_flatMap_of List.nodup_range
      · intro x _; exact points_nodup P x
      · intro x _ y _ a ha hb
        rw [mem_points] at ha hb
        omega
  rw [sum_perm h4, sum_flatMap]
  apply sum_congr'
  intro i hi
  rw [← sum_others hP (hP.shapeFn (List.mem_range.mp hi)).1]
  apply sum_congr'
  intro k hk
  rw [mem_points.mp hk]

end Rampack.Packing
