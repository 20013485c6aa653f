import Verif.Packing.TotalLemmas
/-
Helper lemmas: overlap counts and energies returned by the packing, expressed by the shapes only.
-/
namespace Rampack.Packing

open Rampack.Spec Rampack.Grid

/-- The invariant needed for the queries. -/
structure QInv (P : Packing) (I : Interaction) : Prop where
  core : Core P I
  grid : ∀ g, P.ng = some g → GridOk P g

/-! ### Loops -/

theorem countLoop_false (l : List Bool) : ∀ acc, countLoop false l acc = acc + l.count true := by
  induction l with
  | nil => simp [countLoop]
  | cons b l ih =>
    intro acc
    cases b
    · simp [countLoop, ih]
    · simp only [countLoop, if_true, Bool.false_eq_true, if_false, ih, List.count_cons_self]; omega

theorem countLoop_true (l : List Bool) : countLoop true l 0 = if true ∈ l then 1 else 0 := by
  induction l with
  | nil => simp [countLoop]
  | cons b l ih =>
    cases b
    · simp [countLoop, ih]
    · simp [countLoop]

theorem countLoop_pos (e : Bool) (l : List Bool) : 0 < countLoop e l 0 ↔ 0 < l.count true := by
  cases e
  · rw [countLoop_false]; simp
  · rw [countLoop_true, List.count_pos_iff]
    split <;> simp_all

theorem count_eq_sum (l : List Bool) : ((l.count true : ℕ) : ℝ) = (l.map fun b => if b then (1 : ℝ) else 0).sum := by
  induction l with
  | nil => simp
  | cons b l ih => cases b <;> simp [ih, add_comm]

/-- Indicator of overlap. -/
noncomputable def ind (I : Interaction) (s1 s2 : Site) (bc : BC) : ℝ := if I.overlap s1 s2 bc then 1 else 0

theorem ind_inRange {I : Interaction} (h : Contract I) : InRangeFn I.range (ind I) := by
  intro s1 s2 t hne
  apply h.overlap_range
  by_contra hc
  simp only [Bool.not_eq_true] at hc
  simp [ind, hc] at hne

theorem _root_.Rampack.Box.WF.make {b : Box} (hb : b.WF) : Box.make b.dims = .ok b := by
  unfold Box.make
  rw [if_neg hb.det_ne, ← hb.inv_eq]

theorem ind_symm {I : Interaction} (h : Contract I) : SymmFn (ind I) :=
  ⟨fun s1 s2 t => by simp only [ind]; rw [h.overlap_symm], fun b hb s1 s2 => by
    simp only [ind]; rw [h.overlap_symm_pbc _ _ _ _ hb.make]⟩

theorem energy_inRange {I : Interaction} (h : Contract I) : InRangeFn I.range I.energy := h.energy_range

theorem energy_symm {I : Interaction} (h : Contract I) : SymmFn I.energy :=
  ⟨h.energy_symm, fun _ hb s1 s2 => h.energy_symm_pbc _ _ s1 s2 hb.make⟩

theorem checkOverlap_ok {P : Packing} {I : Interaction} {c : Check} (h : CheckOk P c) :
    P.checkOverlap I c = .ok (I.overlap (P.siteFn c.1) (P.siteFn c.2.1) c.2.2) := by
  rw [checkOverlap, show P.site c.1 = _ from h.1, Outcome.ok_bind, show P.site c.2.1 = _ from h.2]; rfl

theorem checkEnergy_ok {P : Packing} {I : Interaction} {c : Check} (h : CheckOk P c) :
    P.checkEnergy I c = .ok (P.val I.energy c) := by
  rw [checkEnergy, show P.site c.1 = _ from h.1, Outcome.ok_bind, show P.site c.2.1 = _ from h.2]; rfl

/-- The number of overlapping pairs in a list. -/
noncomputable def numOf (P : Packing) (I : Interaction) (l : List Check) : Nat :=
  (l.map fun c => I.overlap (siteFn P c.1) (siteFn P c.2.1) c.2.2).count true

theorem countChecks_ok {P : Packing} {I : Interaction} {l : List Check} (h : ∀ c ∈ l, CheckOk P c) (e : Bool) :
    ∃ k, P.countChecks I e l = .ok k ∧ (0 < k ↔ 0 < numOf P I l) ∧ (e = false → k = numOf P I l) := by
  refine ⟨_, by rw [countChecks, mapM_ok (fun c hc => checkOverlap_ok (h c hc))]; rfl, countLoop_pos _ _, ?_⟩
  rintro rfl
  rw [countLoop_false, numOf, Nat.zero_add]

theorem numOf_eq (P : Packing) (I : Interaction) (l : List Check) : (numOf P I l : ℝ) = (l.map (P.val (ind I))).sum := by
  rw [numOf, count_eq_sum, List.map_map]
  rfl

theorem foldl_add (l : List ℝ) : ∀ a, l.foldl (· + ·) a = a + l.sum := by
  induction l with
  | nil => simp
  | cons b l ih => intro a; simp only [List.foldl_cons, ih, List.sum_cons]; ring

theorem sumChecks_ok {P : Packing} {I : Interaction} {l : List Check} (h : ∀ c ∈ l, CheckOk P c) :
    P.sumChecks I l = .ok (l.map (P.val I.energy)).sum := by
  rw [sumChecks, mapM_ok (fun c hc => checkEnergy_ok (h c hc))]
  simp [foldl_add]

/-- The reduction loop with early exit. -/
theorem earlyFold_ok {α : Type} {f : α → Outcome Nat} {F : α → Nat} (e : Bool) : ∀ (l : List α) (acc : Nat),
    (∀ a ∈ l, ∃ k, f a = .ok k ∧ (0 < k ↔ 0 < F a) ∧ (e = false → k = F a)) →
    ∃ k, l.foldlM (fun acc a => if e && decide (acc > 0) then Outcome.ok acc else do
        let n ← f a
        return acc + n) acc = .ok k ∧ (0 < k ↔ 0 < acc + (l.map F).sum) ∧ (e = false → k = acc + (l.map F).sum)
  | [], acc, _ => ⟨acc, rfl, by simp, by simp⟩
  | a :: l, acc, h => by
    rw [List.foldlM_cons]
    by_cases hc : (e && decide (acc > 0)) = true
    · rw [if_pos hc, Outcome.ok_bind]
      obtain ⟨k, e1, h1, h2⟩ := earlyFold_ok e l acc (fun x hx => h x (by simp [hx]))
      simp only [Bool.and_eq_true, decide_eq_true_eq] at hc
      refine ⟨k, e1, ?_, fun h0 => by rw [h0] at hc; cases hc.1⟩
      rw [h1]; simp only [List.map_cons, List.sum_cons]; omega
    · rw [if_neg hc]
      obtain ⟨n, en, hn, hn'⟩ := h a (by simp)
      rw [en, Outcome.ok_bind, Outcome.pure_eq, Outcome.ok_bind]
      obtain ⟨k, e1, h1, h2⟩ := earlyFold_ok e l (acc + n) (fun x hx => h x (by simp [hx]))
      refine ⟨k, e1, ?_, ?_⟩
      · rw [h1]; simp only [List.map_cons, List.sum_cons]; omega
      · intro h0; rw [h2 h0, hn' h0]; simp only [List.map_cons, List.sum_cons]; omega

/-! ### Walls -/

/-- The sites checked against walls. -/
noncomputable def wallSites (I : Interaction) (s : Shape) : List Site :=
  if I.centres.length = 0 then [⟨s.pos, s.rot, 0⟩]
  else (List.range I.centres.length).map fun k => ⟨s.pos + s.rot.mulVec (I.centres.getD k 0), s.rot, k⟩

/-- Results of wall checks for one axis. -/
noncomputable def wallAxis (b : Box) (I : Interaction) (s : Shape) (has : Bool) (u v : Vec3 ℝ) : List Bool :=
  if ¬ has then []
  else
    let wallVector := normalized (u.cross v)
    let further := b.sides.x + b.sides.y + b.sides.z
    if s.pos.dot wallVector < I.totalRange / 2 then (wallSites I s).map fun x => I.wall x 0 wallVector
    else if (further - s.pos).dot wallVector < I.totalRange / 2 then (wallSites I s).map fun x => I.wall x further (-wallVector)
    else []

/-- Number of wall overlaps of a molecule, as counted by the code. -/
noncomputable def wallNum (b : Box) (hw : Vec3 Bool) (I : Interaction) (s : Shape) : Nat :=
  (wallAxis b I s hw.x b.sides.y b.sides.z ++ wallAxis b I s hw.y b.sides.z b.sides.x ++
    wallAxis b I s hw.z b.sides.x b.sides.y).count true

theorem wallSiteChecks_ok {P : Packing} {I : Interaction} (hm : P.m = I.centres.length) {a : Nat} {s : Shape}
    (h : SlotOk P I a s) (o v : Vec3 ℝ) :
    P.wallSiteChecks I a s o v = .ok ((wallSites I s).map fun x => I.wall x o v) := by
  unfold wallSiteChecks wallSites
  rw [← hm]
  by_cases h0 : P.m = 0
  · rw [if_pos h0, if_pos h0]; rfl
  · rw [if_neg h0, if_neg h0, List.map_map]
    apply mapM_ok
    intro c hc
    have := h.centre c (by rw [← hm]; exact List.mem_range.mp hc)
    rw [← hm] at this
    rw [vget_eq_of_getElem? this]
    rfl

theorem wallAxisChecks_ok {P : Packing} {I : Interaction} (hm : P.m = I.centres.length) {a : Nat} {s : Shape}
    (h : SlotOk P I a s) (has : Bool) (u v : Vec3 ℝ) :
    P.wallAxisChecks I a s has u v = .ok (wallAxis P.box I s has u v) := by
  unfold wallAxisChecks wallAxis
  simp only [wallSiteChecks_ok hm h]
  split_ifs <;> rfl

theorem wallCount_ok {P : Packing} {I : Interaction} (hm : P.m = I.centres.length) {a : Nat} {s : Shape}
    (h : SlotOk P I a s) (e : Bool) : ∃ k, P.countParticleWallOverlaps I a e = .ok k ∧
      (0 < k ↔ 0 < wallNum P.box P.hasWall I s) ∧ (e = false → k = wallNum P.box P.hasWall I s) := by
  refine ⟨_, by rw [countParticleWallOverlaps, vget_eq_of_getElem? h.shape, Outcome.ok_bind, wallAxisChecks_ok hm h,
    Outcome.ok_bind, wallAxisChecks_ok hm h, Outcome.ok_bind, wallAxisChecks_ok hm h, Outcome.ok_bind]; rfl, ?_, ?_⟩
  · exact countLoop_pos _ _
  · rintro rfl; rw [countLoop_false, Nat.zero_add]; rfl

theorem wallNum_of_none {P : Packing} (I : Interaction) (h : P.hasAnyWalls = false) (s : Shape) :
    wallNum P.box P.hasWall I s = 0 := by
  simp only [hasAnyWalls, Bool.or_eq_false_iff] at h
  simp [wallNum, wallAxis, h.1.1, h.1.2, h.2]

/-! ### Queries -/

/-- Overlaps of a molecule of shape `s`, put in the place of molecule `orig`. -/
noncomputable def single (P : Packing) (I : Interaction) (φ : Site → Site → BC → ℝ) (orig : Nat) (s : Shape) : ℝ :=
  (((List.range P.size).filter (· ≠ orig)).map fun j => molW P I φ s (P.shapeFn j)).sum

/-- Sum over ordered pairs of different molecules. -/
noncomputable def double (P : Packing) (I : Interaction) (φ : Site → Site → BC → ℝ) : ℝ :=
  ((List.range P.size).map fun i => single P I φ i (P.shapeFn i)).sum

theorem countParticle_ok {P : Packing} {I : Interaction} (hP : QInv P I) (hI : Contract I) {temp : Nat} {s : Shape}
    (ht : SlotOk P I temp s) (hs : Inside P.box s.pos) (orig : Nat) :
    ∃ K : Nat, (K : ℝ) = single P I (ind I) orig s + wallNum P.box P.hasWall I s ∧
      ∀ e, ∃ k, P.countParticleOverlaps I orig temp e = .ok k ∧ (0 < k ↔ 0 < K) ∧ (e = false → k = K) := by
  obtain ⟨l, el, hok, hsum⟩ := particleChecks_ok hP.core hI.range_pos hP.grid ht hs orig
  refine ⟨numOf P I l + wallNum P.box P.hasWall I s, ?_, ?_⟩
  · push_cast; rw [numOf_eq, hsum _ (ind_inRange hI)]; rfl
  · intro e
    obtain ⟨k, ek, hk, hk'⟩ := countChecks_ok (I := I) hok e
    rw [countParticleOverlaps, el, Outcome.ok_bind, ek, Outcome.ok_bind]
    by_cases hc : (e && decide (k > 0)) = true
    · rw [if_pos hc]
      simp only [Bool.and_eq_true, decide_eq_true_eq] at hc
      exact ⟨k, rfl, by omega, fun h => by rw [h] at hc; cases hc.1⟩
    · rw [if_neg hc]
      by_cases hw : P.hasAnyWalls = true
      · rw [if_pos hw]
        obtain ⟨w, ew, h1, h2⟩ := wallCount_ok hP.core.m_eq ht e
        rw [ew, Outcome.ok_bind]
        exact ⟨_, rfl, by omega, fun h => by rw [h2 h, hk' h]⟩
      · rw [if_neg hw, wallNum_of_none I (by simpa using hw)]
        exact ⟨_, rfl, by simp; omega, fun h => by simpa using hk' h⟩

theorem countWall_ok {P : Packing} {I : Interaction} (hP : Core P I) (e : Bool) :
    ∃ k, P.countWallOverlaps I e = .ok k ∧
      (0 < k ↔ 0 < ((List.range P.size).map fun i => wallNum P.box P.hasWall I (P.shapeFn i)).sum) ∧
      (e = false → k = ((List.range P.size).map fun i => wallNum P.box P.hasWall I (P.shapeFn i)).sum) := by
  rw [countWallOverlaps]
  by_cases hw : P.hasAnyWalls = true
  · rw [if_neg (by simpa using hw)]
    obtain ⟨k, ek, h1, h2⟩ := earlyFold_ok (F := fun i => wallNum P.box P.hasWall I (P.shapeFn i)) e (List.range P.size) 0
      (f := fun i => P.countParticleWallOverlaps I i e)
      (fun i hi => wallCount_ok hP.m_eq (hP.shapeFn (List.mem_range.mp hi)).1 e)
    refine ⟨k, ek, by rw [h1, Nat.zero_add], fun h => by rw [h2 h, Nat.zero_add]⟩
  · rw [if_pos (by simpa using hw)]
    have : ((List.range P.size).map fun i => wallNum P.box P.hasWall I (P.shapeFn i)).sum = 0 := by
      rw [List.map_congr_left (g := fun _ => 0) (fun i _ => wallNum_of_none I (by simpa using hw) _)]
      simp
    rw [this]
    exact ⟨0, rfl, Iff.rfl, fun _ => rfl⟩

theorem totalNoNG_sum {P : Packing} {I : Interaction} (hP : Core P I) (e : P.ng = none) {φ : Site → Site → BC → ℝ}
    (hs : SymmFn φ) : (∀ c ∈ P.totalChecksNoNG, CheckOk P c) ∧
      2 * (P.totalChecksNoNG.map (P.val φ)).sum = double P I φ := by
  constructor
  · intro c hc
    simp only [totalChecksNoNG, betweenChecks, List.mem_flatMap, List.mem_map, List.mem_range, List.mem_range'_1] at hc
    obtain ⟨i, hi, j, hj, k1, hk1, k2, hk2, rfl⟩ := hc
    have hi' := hP.shapeFn hi
    have hj' := hP.shapeFn (show j < P.size by omega)
    exact ⟨(slot_sites hP hi'.1 hi'.2 k1 hk1).1, (slot_sites hP hj'.1 hj'.2 k2 hk2).1⟩
  · have key : ∀ i < P.size, ∀ j < P.size, ((P.betweenChecks i j).map (P.val φ)).sum = molW P I φ (P.shapeFn i) (P.shapeFn j) := by
      intro i hi j hj
      rw [betweenChecks, sum_flatMap, molW, e, ← sum_points hP (hP.shapeFn hi).1 (hP.shapeFn hj).1]
      apply sum_congr'
      intro k1 _
      rw [List.map_map]
      rfl
    rw [totalChecksNoNG, sum_flatMap]
    have : ∀ i ∈ List.range P.size, (((List.range' (i + 1) (P.size - (i + 1))).flatMap fun j => P.betweenChecks i j).map (P.val φ)).sum =
        ((List.range' (i + 1) (P.size - (i + 1))).map fun j => molW P I φ (P.shapeFn i) (P.shapeFn j)).sum := by
      intro i hi
      rw [sum_flatMap]
      apply sum_congr'
      intro j hj
      rw [List.mem_range'_1] at hj
      exact key i (List.mem_range.mp hi) j (by omega)
    rw [sum_congr' this, sum_range_pairs P.size (fun i j => molW P I φ (P.shapeFn i) (P.shapeFn j))]
    · rfl
    · intro i _ j _
      simp only [molW, sitePairs]
      rw [sum_swap]
      simp only [pairW_symm hP.box _ hs]

theorem totalNG_sum {P : Packing} {I : Interaction} (hP : Core P I) (hI : 0 < I.range) {g : NG} (hg : GridOk P g)
    (e : P.ng = some g) : ∃ L : Vec3 Nat → List Check, (∀ c ∈ loopCells g.getCellDivisions, P.cellChecks g c = .ok (L c) ∧
      (∀ x ∈ L c, CheckOk P x)) ∧ ∀ φ, InRangeFn I.range φ → SymmFn φ →
        2 * ((loopCells g.getCellDivisions).map fun c => ((L c).map (P.val φ)).sum).sum = double P I φ := by
  obtain ⟨cells, cs, hg, hcs, hx, hy, hz, -⟩ := hg
  have hl : loopCells g.getCellDivisions = allCells (nreal g.divs) := rfl
  have hall : ∀ c, ∃ l, InRange (nreal g.divs) c → P.cellChecks g c = .ok l ∧ (∀ x ∈ l, CheckOk P x) ∧
      ∀ φ, (l.map (P.val φ)).sum = ((halfCell (nreal g.divs) (fun c => cells (realCoordinatesToCellNo g.divs c)) c).map
        (P.tripleVal φ)).sum := by
    intro c
    by_cases hc : InRange (nreal g.divs) c
    · obtain ⟨l, h⟩ := cellChecks_ok hP hg hc
      exact ⟨l, fun _ => h⟩
    · exact ⟨[], fun h => absurd h hc⟩
  choose L hL using hall
  refine ⟨L, ?_, ?_⟩
  · intro c hc
    have := hL c (mem_allCells.mp (hl ▸ hc))
    exact ⟨this.1, this.2.1⟩
  · intro φ hφ hs
    have h1 := half_sum hP hI hg hcs hx hy hz hφ hs
    rw [hl, sum_congr' (fun c hc => (hL c (mem_allCells.mp hc)).2.2 φ), h1]
    simp only [double, single, molW, e]
    rfl

theorem nat_sum_cast (l : List Nat) : ((l.sum : ℕ) : ℝ) = (l.map fun n : ℕ => (n : ℝ)).sum := by
  induction l with
  | nil => simp
  | cons a l ih => simp [ih]

theorem countTotal_ok {P : Packing} {I : Interaction} (hP : QInv P I) (hI : Contract I) :
    ∃ K : Nat, 2 * (K : ℝ) = double P I (ind I) +
        2 * (((List.range P.size).map fun i => wallNum P.box P.hasWall I (P.shapeFn i)).sum : ℕ) ∧
      ∀ e, ∃ k, P.countTotalOverlaps I e = .ok k ∧ (0 < k ↔ 0 < K) ∧ (e = false → k = K) := by
  have main : ∃ K0 : Nat, 2 * (K0 : ℝ) = double P I (ind I) ∧ ∀ e : Bool, ∃ k, P.countPairOverlaps I e = .ok k ∧ (0 < k ↔ 0 < K0) ∧ (e = false → k = K0) := by
    unfold countPairOverlaps
    cases e : P.ng with
    | none =>
      obtain ⟨h1, h2⟩ := totalNoNG_sum hP.core e (ind_symm hI)
      exact ⟨numOf P I P.totalChecksNoNG, by rw [numOf_eq, h2], fun e => countChecks_ok h1 e⟩
    | some g =>
      obtain ⟨L, h1, h2⟩ := totalNG_sum hP.core hI.range_pos (hP.grid g e) e
      refine ⟨((loopCells g.getCellDivisions).map fun c => numOf P I (L c)).sum, ?_, ?_⟩
      · rw [← h2 _ (ind_inRange hI) (ind_symm hI), nat_sum_cast, List.map_map]
        congr 1
        apply sum_congr'
        intro c _
        exact numOf_eq P I (L c)
      · intro e
        obtain ⟨k, ek, hk, hk'⟩ := earlyFold_ok (F := fun c => numOf P I (L c)) e (loopCells g.getCellDivisions) 0
          (f := P.countCell I g e) (by
            intro c hc
            obtain ⟨k, ek, hk⟩ := countChecks_ok (I := I) (h1 c hc).2 e
            exact ⟨k, by rw [countCell, (h1 c hc).1, Outcome.ok_bind, ek], hk⟩)
        exact ⟨k, ek, by rw [hk, Nat.zero_add], fun h => by rw [hk' h, Nat.zero_add]⟩
  obtain ⟨K0, hK0, hk0⟩ := main
  refine ⟨K0 + ((List.range P.size).map fun i => wallNum P.box P.hasWall I (P.shapeFn i)).sum, ?_, ?_⟩
  · push_cast; rw [← hK0]; ring
  · intro e
    obtain ⟨k, ek, hk, hk'⟩ := hk0 e
    obtain ⟨w, ew, hw, hw'⟩ := countWall_ok hP.core e
    rw [countTotalOverlaps]
    rw [ek, Outcome.ok_bind]
    by_cases hc : (e && decide (k > 0)) = true
    · rw [if_pos hc]
      simp only [Bool.and_eq_true, decide_eq_true_eq] at hc
      exact ⟨1, rfl, by omega, fun h => by rw [h] at hc; cases hc.1⟩
    · rw [if_neg hc, ew, Outcome.ok_bind]
      exact ⟨_, rfl, by omega, fun h => by rw [hk' h, hw' h]⟩

theorem require_true'' {b : Prop} [Decidable b] (h : b) (m : String) : Outcome.require (decide b) m = .ok () := by
  simp [h]

theorem particleEnergy_ok {P : Packing} {I : Interaction} (hP : QInv P I) (hI : Contract I) {temp : Nat} {s : Shape}
    (ht : SlotOk P I temp s) (hs : Inside P.box s.pos) {orig : Nat} (ho : orig < P.size) :
    P.particleEnergy I orig temp = .ok (if I.hasSoft then single P I I.energy orig s else 0) := by
  rw [particleEnergy, require_true'' ho, Outcome.ok_bind]
  by_cases h : I.hasSoft = true
  · rw [if_neg (by simpa using h), if_pos h]
    obtain ⟨l, el, hok, hsum⟩ := particleChecks_ok hP.core hI.range_pos hP.grid ht hs orig
    rw [el, Outcome.ok_bind, sumChecks_ok hok, hsum _ (energy_inRange hI)]
    rfl
  · rw [if_pos (by simpa using h), if_neg h]; rfl

theorem totalEnergy_ok {P : Packing} {I : Interaction} (hP : QInv P I) (hI : Contract I) :
    P.totalEnergy I = .ok (if I.hasSoft then double P I I.energy / 2 else 0) := by
  rw [totalEnergy]
  by_cases h : I.hasSoft = true
  · rw [if_neg (by simpa using h), if_pos h]
    cases e : P.ng with
    | none =>
      obtain ⟨h1, h2⟩ := totalNoNG_sum hP.core e (energy_symm hI)
      simp only
      rw [sumChecks_ok h1, ← h2]
      congr 1; ring
    | some g =>
      obtain ⟨L, h1, h2⟩ := totalNG_sum hP.core hI.range_pos (hP.grid g e) e
      simp only
      rw [mapM_ok (g := fun c => ((L c).map (P.val I.energy)).sum) (fun c hc => by
        rw [(h1 c hc).1, Outcome.ok_bind, sumChecks_ok (h1 c hc).2]), Outcome.ok_bind, foldl_add, zero_add,
        ← h2 _ (energy_inRange hI) (energy_symm hI)]
      congr 1; ring
  · rw [if_pos (by simpa using h), if_neg h]

end Rampack.Packing
