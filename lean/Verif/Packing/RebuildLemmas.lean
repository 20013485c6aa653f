import Verif.Packing.DeltaLemmas
/-
Helper lemmas: recalculating interaction centres and rebuilding the neighbour grid.
-/
namespace Rampack.Packing

open Rampack.Spec Rampack.Grid

/-! ### Number of cells -/

theorem cross_norm2_le (u v : Vec3 ℝ) : (u.cross v).norm2 ≤ u.norm2 * v.norm2 := by
  simp only [Vec3.cross, Vec3.norm2, Vec3.dot]
  nlinarith [sq_nonneg (u.x * v.x + u.y * v.y + u.z * v.z)]

theorem cross_norm_le (u v : Vec3 ℝ) : (u.cross v).norm ≤ u.norm * v.norm := by
  unfold Vec3.norm
  rw [← Real.sqrt_mul (by simp only [Vec3.norm2, Vec3.dot]; nlinarith [sq_nonneg u.x, sq_nonneg u.y, sq_nonneg u.z])]
  exact Real.sqrt_le_sqrt (cross_norm2_le u v)

theorem triple_le (u v w : Vec3 ℝ) : |u.dot (v.cross w)| ≤ u.norm * v.norm * w.norm := by
  calc |u.dot (v.cross w)| ≤ u.norm * (v.cross w).norm := Vec3.abs_dot_le u _
    _ ≤ u.norm * (v.norm * w.norm) := mul_le_mul_of_nonneg_left (cross_norm_le v w) (Real.sqrt_nonneg _)
    _ = _ := by ring

theorem cofactor_det (a b c : Vec3 ℝ) :
    (b.cross c).dot ((c.cross a).cross (a.cross b)) = ((a.cross b).dot c) ^ 2 := by
  simp only [Vec3.cross, Vec3.dot]; ring

theorem heights_prod_le {b : Box} (h : b.WF) : b.heights.x * b.heights.y * b.heights.z ≤ b.volume := by
  have hv := Box.volume_pos h
  have hx := Box.cross_norm_pos_of h Box.triple_yzx
  have hy := Box.cross_norm_pos_of h Box.triple_zxy
  have hz := Box.cross_norm_pos_of h Box.triple_eq_det
  have key : b.volume ^ 2 ≤ (b.sides.y.cross b.sides.z).norm * (b.sides.z.cross b.sides.x).norm * (b.sides.x.cross b.sides.y).norm := by
    have := triple_le (b.sides.y.cross b.sides.z) (b.sides.z.cross b.sides.x) (b.sides.x.cross b.sides.y)
    rw [cofactor_det, abs_of_nonneg (sq_nonneg _)] at this
    rw [Box.volume, sq_abs]; exact this
  simp only [Box.heights]
  rw [div_mul_div_comm, div_mul_div_comm, div_le_iff₀ (by positivity)]
  nlinarith

theorem floor_toNat_mul_le {h cs : ℝ} (hh : 0 < h) (hcs : 0 < cs) : (⌊h / cs⌋.toNat : ℝ) * cs ≤ h := by
  have h0 : 0 ≤ ⌊h / cs⌋ := Int.floor_nonneg.mpr (by positivity)
  have : ((⌊h / cs⌋.toNat : ℕ) : ℝ) = (⌊h / cs⌋ : ℝ) := by
    have := Int.toNat_of_nonneg h0
    exact_mod_cast this
  rw [this, ← le_div_iff₀ hcs]
  exact Int.floor_le _

theorem cells_bound {b : Box} (h : b.WF) {cs : ℝ} {n : Nat} (hn : 0 < n) (hcs : (b.volume / n) ^ (1 / 3 : ℝ) / 5 ≤ cs) :
    (cellsAlong b cs).x * (cellsAlong b cs).y * (cellsAlong b cs).z ≤ 125 * n := by
  have hv := Box.volume_pos h
  obtain ⟨hx, hy, hz⟩ := Box.heights_pos h
  have hn' : (0 : ℝ) < n := by exact_mod_cast hn
  have hq : 0 < b.volume / n := by positivity
  have hr : 0 < (b.volume / n) ^ (1 / 3 : ℝ) := Real.rpow_pos_of_pos hq _
  have hcs0 : 0 < cs := lt_of_lt_of_le (by positivity) hcs
  have hcube : ((b.volume / n) ^ (1 / 3 : ℝ)) ^ 3 = b.volume / n := by
    rw [← Real.rpow_natCast, ← Real.rpow_mul hq.le]; norm_num
  have h3 : b.volume / n / 125 ≤ cs ^ 3 := by
    have := pow_le_pow_left₀ (by positivity) hcs 3
    rw [div_pow, hcube] at this
    norm_num at this
    exact this
  have hvol : b.volume ≤ 125 * n * cs ^ 3 := by
    rw [div_div, div_le_iff₀ (by positivity)] at h3
    linarith
  have e1 := floor_toNat_mul_le hx hcs0
  have e2 := floor_toNat_mul_le hy hcs0
  have e3 := floor_toNat_mul_le hz hcs0
  have prod : ((cellsAlong b cs).x : ℝ) * cs * (((cellsAlong b cs).y : ℝ) * cs) * (((cellsAlong b cs).z : ℝ) * cs) ≤
      b.heights.x * b.heights.y * b.heights.z := by
    apply mul_le_mul (mul_le_mul e1 e2 (by positivity) hx.le) e3 (by positivity) (by positivity)
  have hle := prod.trans ((heights_prod_le h).trans hvol)
  have : ((cellsAlong b cs).x : ℝ) * (cellsAlong b cs).y * (cellsAlong b cs).z * cs ^ 3 ≤ 125 * n * cs ^ 3 := by
    calc _ = ((cellsAlong b cs).x : ℝ) * cs * (((cellsAlong b cs).y : ℝ) * cs) * (((cellsAlong b cs).z : ℝ) * cs) := by ring
      _ ≤ _ := hle
  have := le_of_mul_le_mul_right this (by positivity)
  exact_mod_cast this

theorem gridSize_of {b : Box} (h : b.WF) {cs : ℝ} {n : Nat} (hn : 0 < n) (hb : n < 2 ^ 50)
    (hcs : (b.volume / n) ^ (1 / 3 : ℝ) / 5 ≤ cs) (h0 : 0 < cs) (hx : cs ≤ b.heights.x) (hy : cs ≤ b.heights.y)
    (hz : cs ≤ b.heights.z) : GridSize b cs := by
  refine ⟨h0, hx, hy, hz, ?_⟩
  have hc := cells_bound h hn hcs
  have one : ∀ q : ℝ, cs ≤ q → 1 ≤ ⌊q / cs⌋.toNat := by
    intro q hq
    have : (1 : ℤ) ≤ ⌊q / cs⌋ := by rw [Int.le_floor]; push_cast; rwa [le_div_iff₀ h0, one_mul]
    omega
  have h1 : 1 ≤ (cellsAlong b cs).x := one _ hx
  have h2 : 1 ≤ (cellsAlong b cs).y := one _ hy
  have h3 : 1 ≤ (cellsAlong b cs).z := one _ hz
  generalize (cellsAlong b cs).x = X at *
  generalize (cellsAlong b cs).y = Y at *
  generalize (cellsAlong b cs).z = Z at *
  calc (X + 2) * (Y + 2) * (Z + 2) ≤ (3 * X) * (3 * Y) * (3 * Z) := by gcongr <;> omega
    _ = 27 * (X * Y * Z) := by ring
    _ ≤ 27 * (125 * n) := by gcongr
    _ < 2 ^ 64 := by omega

/-! ### Interaction centres -/

/-- Everything except the absolute positions of interaction centres is in order. -/
structure PreCore (P : Packing) (I : Interaction) : Prop where
  m_eq : P.m = I.centres.length
  range_eq : P.range = I.range
  threads : P.moveThreads ≤ P.shapes.length
  box : P.box.WF
  inside : ∀ i s, i < P.size → P.shapes[i]? = some s → Inside P.box s.pos
  centre : ∀ i s, i < P.size → P.shapes[i]? = some s → ∀ c < P.m, P.centres[i * P.m + c]? = some (s.rot.mulVec (I.centres.getD c 0))
  clen : P.centres.length = P.shapes.length * P.m
  alen : P.absCentres.length = P.shapes.length * P.m
  la : P.lastAltered.length = P.moveThreads
  ld : P.lastDeltas.length = P.moveThreads

theorem recalcMany_ok {P : Packing} {I : Interaction} (hP : PreCore P I) : ∀ n ≤ P.size, ∃ as,
    (List.range n).foldlM recalcAbs P = .ok { P with absCentres := as } ∧ as.length = P.absCentres.length ∧
      ∀ i s, i < n → P.shapes[i]? = some s → SlotOk { P with absCentres := as } I i s
  | 0, _ => ⟨P.absCentres, rfl, rfl, by simp⟩
  | n + 1, hn => by
    obtain ⟨as, e, l, h⟩ := recalcMany_ok hP n (by omega)
    have hsz : n < P.shapes.length := by unfold size at hn; omega
    obtain ⟨as', e', l', h', o'⟩ := recalcAbs_ok (P := { P with absCentres := as }) (I := I) (a := n) (t := P.shapes[n]) hP.m_eq
      (by
        have := Nat.mul_le_mul_right P.m (show n + 1 ≤ P.shapes.length from hsz)
        rw [Nat.add_mul, Nat.one_mul, ← hP.alen, ← l] at this; exact this)
      (List.getElem?_eq_getElem hsz) (hP.centre n _ (by omega) (List.getElem?_eq_getElem hsz))
    refine ⟨as', by rw [List.range_succ, List.foldlM_append, e, Outcome.ok_bind, List.foldlM_cons, e']; rfl, by rw [l', l], ?_⟩
    intro i s hi hs
    by_cases hin : i = n
    · subst hin
      rw [List.getElem?_eq_getElem hsz] at hs; cases hs
      exact h'
    · have := h i s (by omega) hs
      refine ⟨hs, this.centre, ?_⟩
      intro c hc
      have q := this.abs c hc
      simp only at q ⊢
      rw [← hP.m_eq] at hc q ⊢
      rw [o' _ (slot_disj hin hc)]
      exact q

theorem recalcAll_ok {P : Packing} {I : Interaction} (hP : PreCore P I) : ∃ as,
    P.recalcAbsAll = .ok { P with absCentres := as } ∧ Core { P with absCentres := as } I := by
  obtain ⟨as, e, l, h⟩ := recalcMany_ok hP P.size le_rfl
  exact ⟨as, e, hP.m_eq, hP.range_eq, hP.threads, hP.box, hP.inside, fun i s hi hs => h i s hi hs, hP.clen, by rw [← hP.alen, ← l], hP.la, hP.ld⟩

theorem refreshCentres_ok {P : Packing} {I : Interaction} (hP : PreCore P I) : ∃ as,
    P.refreshCentres = .ok { P with absCentres := as } ∧ Core { P with absCentres := as } I := by
  unfold refreshCentres
  by_cases h0 : P.m = 0
  · rw [if_neg (not_not.mpr h0)]
    refine ⟨P.absCentres, rfl, hP.m_eq, hP.range_eq, hP.threads, hP.box, hP.inside, ?_, hP.clen, hP.alen, hP.la, hP.ld⟩
    intro i s hi hs
    have : I.centres.length = 0 := by rw [← hP.m_eq]; exact h0
    exact ⟨hs, fun c hc => by omega, fun c hc => by omega⟩
  · rw [if_pos h0]; exact recalcAll_ok hP

theorem Core.pre {P : Packing} {I : Interaction} (hP : Core P I) : PreCore P I :=
  ⟨hP.m_eq, hP.range_eq, hP.threads, hP.box, hP.inside, fun i s hi hs c hc => by
    have := (hP.slots i s hi hs).centre c (by rw [← hP.m_eq]; exact hc)
    rw [hP.m_eq]; exact this, hP.clen, hP.alen, hP.la, hP.ld⟩

/-! ### The grid -/

/-- Number of grid indices. -/
def cap (P : Packing) : Nat := P.size * max 1 P.m

theorem lt_cap {P : Packing} {k : Nat} (h : P.owner k < P.size) : k < P.cap := by
  unfold cap
  by_cases h0 : P.m = 0
  · rw [h0]; unfold owner at h; rw [if_pos h0] at h; simpa using h
  · rw [max_eq_right (by omega)]; exact lt_mul_of_owner h0 h

theorem GInv.divs_eq {n n' : Nat} {g g' : NG} {s s' : GState} {cells cells' : Nat → List Nat} (h : GInv n g s cells)
    (h' : GInv n' g' s' cells') (hb : s'.box = s.box) (hc : s'.cellSize = s.cellSize) : g'.divs = g.divs := by
  have := h'.size
  rw [hb, hc, h.size] at this
  injection this with this
  exact this.symm

theorem addZip_ok {n : Nat} {b : Box} {cs : ℝ} {d : Vec3 Nat} {pos : Nat → Vec3 ℝ} :
    ∀ (ks : List Nat) {g : NG} {f : Nat → Option (Vec3 ℝ)} {cells : Nat → List Nat}, GInv n g ⟨b, cs, f⟩ cells → g.divs = d → ks.Nodup →
      (∀ k ∈ ks, k < n ∧ Inside b (pos k) ∧ f k = none) →
      ∃ g' cells', (ks.zip (ks.map fun k => realCoordinatesToCellNo d (cellCoord (nreal d) (b.absToRel (pos k))))).foldlM
          (fun (g : NG) kc => g.addAt kc.1 kc.2) g = .ok g' ∧
        GInv n g' ⟨b, cs, fun j => if j ∈ ks then some (pos j) else f j⟩ cells'
  | [], g, f, cells, h, _, _, _ => ⟨g, cells, rfl, by simpa using h⟩
  | k :: ks, g, f, cells, h, hd, hnd, hk => by
    obtain ⟨hn, hin, hf⟩ := hk k (by simp)
    rw [List.nodup_cons] at hnd
    obtain ⟨g1, c1, e1, h1⟩ := call_inv h (op := .add k (pos k)) ⟨hn, hf, hin⟩
    have hd1 : g1.divs = d := by rw [GInv.divs_eq h h1 rfl rfl, hd]
    obtain ⟨g2, c2, e2, h2⟩ := addZip_ok ks (pos := pos) h1 hd1 hnd.2 (by
      intro j hj
      obtain ⟨q2, q3, q4⟩ := hk j (by simp [hj])
      refine ⟨q2, q3, ?_⟩
      simp only
      rw [if_neg (by rintro rfl; exact hnd.1 hj)]
      exact q4)
    have e1' : g.addAt k (realCoordinatesToCellNo d (cellCoord (nreal d) (b.absToRel (pos k)))) = .ok g1 := by
      have e1' : g.add k (pos k) = .ok g1 := e1
      rw [NG.add, posCell_ok h.wf (by rw [h.box]; exact hin), Outcome.ok_bind, NG.cellOf, hd, h.box] at e1'
      exact e1'
    refine ⟨g2, c2, by rw [List.map_cons, List.zip_cons_cons, List.foldlM_cons, e1', Outcome.ok_bind, e2], ?_⟩
    convert h2 using 2
    funext j
    simp only [List.mem_cons]
    by_cases h1 : j = k <;> by_cases h2 : j ∈ ks <;> simp [h1, h2]

theorem mem_allPoints {P : Packing} {k : Nat} : k ∈ (List.range P.size).flatMap P.points ↔ P.owner k < P.size := by
  simp [mem_points]

theorem allPoints_nodup (P : Packing) : ((List.range P.size).flatMap P.points).Nodup := by
  rw [List.nodup_flatMap]
  refine ⟨fun i _ => points_nodup P i, List.nodup_range.imp ?_⟩
  intro i j hij k hi hj
  rw [mem_points] at hi hj
  exact hij (hi.symm.trans hj)

theorem addAll_ok {P : Packing} {I : Interaction} (hP : Core P I) {n : Nat} (hn : P.cap ≤ n) {g : NG} {cs : ℝ} {cells : Nat → List Nat}
    (hg : GInv n g ⟨P.box, cs, fun _ => none⟩ cells) :
    ∃ g' cells', P.addAll g = .ok g' ∧ GInv n g' ⟨P.box, cs, P.posAt⟩ cells' := by
  obtain ⟨g', c', e', h'⟩ := addZip_ok ((List.range P.size).flatMap P.points) (pos := fun k => (P.siteFn k).pos) hg rfl
    (allPoints_nodup P) (by
      intro k hk
      have hk := mem_allPoints.mp hk
      exact ⟨lt_of_lt_of_le (lt_cap hk) hn, (hP.siteOk hk).2, rfl⟩)
  refine ⟨g', c', ?_, ?_⟩
  · rw [addAll]
    rw [mapM_ok (g := fun k => realCoordinatesToCellNo g.divs (cellCoord (nreal g.divs) (P.box.absToRel (P.siteFn k).pos)))
      (fun k hk => by
        have hk := mem_allPoints.mp hk
        have hs := hP.siteOk hk
        rw [position_ok hs.1, Outcome.ok_bind, posCell_ok hg.wf (by rw [hg.box]; exact hs.2), NG.cellOf, hg.box]), Outcome.ok_bind, e']
  · convert h' using 2
    funext j
    simp only [mem_allPoints, posAt]

/-- A grid object which is in order, no matter what is in it, with room for all interaction centres. -/
def GridHas (P : Packing) (g : NG) : Prop := (∃ s cells, GInv g.succ.length g s cells) ∧ P.cap ≤ g.succ.length

theorem gridFor_ok {P : Packing} (hb : P.box.WF) {cs : ℝ} (hs : GridSize P.box cs) {total : Nat} (ht : P.cap ≤ total)
    (htt : total < 2 ^ 64) (hg : ∀ g, P.ng = some g → GridHas P g) : ∃ g n cells, P.gridFor cs total = .ok g ∧ P.cap ≤ n ∧
      GInv n g ⟨P.box, cs, fun _ => none⟩ cells := by
  unfold gridFor
  cases e : P.ng with
  | none =>
    obtain ⟨g, eg, hg⟩ := create_inv hb.make hs htt
    exact ⟨g, total, _, eg, ht, hg⟩
  | some g =>
    obtain ⟨⟨s, cells, h⟩, hc⟩ := hg g e
    obtain ⟨g', c', e', h'⟩ := call_inv h (op := .resize P.box cs) ⟨⟨_, hb.make⟩, hs⟩
    refine ⟨g', _, c', ?_, hc, h'⟩
    simp only [GOp.call] at e'
    simp only
    cases er : g.resize P.box cs with
    | ok r => rw [er] at e'; exact e'
    | throw m => rw [er] at e'; cases e'
    | ub => rw [er] at e'; cases e'
    | diverge => rw [er] at e'; cases e'

/-- The decision whether a neighbour grid is used. -/
def UsesGrid (P : Packing) : Prop :=
  ¬ P.cellSize * 4 > max P.box.heights.x (max P.box.heights.y P.box.heights.z) ∧
    ¬ P.cellSize * (1 + 1 / 10 ^ 12) > min P.box.heights.x (min P.box.heights.y P.box.heights.z)

theorem usesGrid_congr {P P' : Packing} (hb : P'.box = P.box) (hs : P'.size = P.size) (hr : P'.range = P.range) :
    P'.UsesGrid ↔ P.UsesGrid := by
  unfold UsesGrid cellSize; rw [hb, hs, hr]

theorem rebuild_ok {P : Packing} {I : Interaction} (hP : Core P I) (hr : 0 < I.range) (h0 : 0 < P.size) (hc : P.cap < 2 ^ 50)
    (hg : ∀ g, P.ng = some g → GridHas P g) : ∃ og, P.rebuild = .ok { P with ng := og } ∧ QInv { P with ng := og } I ∧
      (∀ g, og = some g → P.cap ≤ g.succ.length) ∧ (og.isSome = true ↔ P.UsesGrid) := by
  have hnone : QInv { P with ng := none } I := ⟨core_ng hP _, by simp⟩
  rw [rebuild]
  simp only []
  have hb := hP.box
  obtain ⟨hx0, hy0, hz0⟩ := Box.heights_pos hb
  have hn' : (0 : ℝ) < P.size := by exact_mod_cast h0
  have hmin : 0 < (P.box.volume / P.size) ^ (1 / 3 : ℝ) / 5 := by
    have := Real.rpow_pos_of_pos (div_pos (Box.volume_pos hb) hn') (1 / 3 : ℝ)
    positivity
  have hcs : (P.box.volume / P.size) ^ (1 / 3 : ℝ) / 5 ≤ P.cellSize ∧ P.range ≤ P.cellSize ∧ 0 < P.cellSize := by
    unfold cellSize
    simp only []
    by_cases h : P.range < (P.box.volume / P.size) ^ (1 / 3 : ℝ) / 5
    · rw [if_pos h]; exact ⟨le_rfl, h.le, hmin⟩
    · rw [if_neg h]; exact ⟨not_lt.mp h, le_rfl, by rw [hP.range_eq]; exact hr⟩
  by_cases h1 : P.cellSize * 4 > max P.box.heights.x (max P.box.heights.y P.box.heights.z)
  · rw [if_pos h1]; exact ⟨none, rfl, hnone, by simp, by simp [UsesGrid, h1]⟩
  rw [if_neg h1]
  by_cases h2 : P.cellSize * (1 + 1 / 10 ^ 12) > min P.box.heights.x (min P.box.heights.y P.box.heights.z)
  · rw [if_pos h2]; exact ⟨none, rfl, hnone, by simp, by simp only [UsesGrid, h2]; simp⟩
  rw [if_neg h2]
  have hlt : P.cellSize < min P.box.heights.x (min P.box.heights.y P.box.heights.z) := by
    have := not_lt.mp h2
    have : P.cellSize < P.cellSize * (1 + 1 / 10 ^ 12) := by nlinarith [hcs.2.2]
    linarith
  obtain ⟨hx, hlt⟩ := lt_min_iff.mp hlt
  obtain ⟨hy, hz⟩ := lt_min_iff.mp hlt
  have hsz : P.size < 2 ^ 50 := lt_of_le_of_lt (Nat.le_mul_of_pos_right _ (by omega)) hc
  have hgs := gridSize_of hb h0 hsz hcs.1 hcs.2.2 hx.le hy.le hz.le
  have htot : (if P.m = 0 then P.size else P.m * P.size) = P.cap := by
    unfold cap
    by_cases hm : P.m = 0
    · simp [hm]
    · rw [if_neg hm, max_eq_right (by omega), Nat.mul_comm]
  rw [htot]
  obtain ⟨g, n, cells, eg, hn, hgi⟩ := gridFor_ok hb hgs le_rfl (by omega) hg
  obtain ⟨g', c', e', h'⟩ := addAll_ok hP hn hgi
  rw [eg, Outcome.ok_bind, e', Outcome.ok_bind]
  refine ⟨some g', rfl, ⟨core_ng hP _, ?_⟩, ?_, by simp only [UsesGrid, h1, h2]; simp⟩
  · intro g0 hg0
    cases hg0
    refine ⟨c', P.cellSize, ?_, hcs.2.1, hx, hy, hz, rfl⟩
    rw [h'.len]
    exact h'
  · intro g0 hg0; cases hg0; rw [h'.len]; exact hn

end Rampack.Packing
