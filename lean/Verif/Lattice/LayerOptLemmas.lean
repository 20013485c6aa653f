import Verif.Lattice.LayerOpt
import Verif.Lattice.LayerOptSpec
import Verif.Lattice.CellOptProps
import Verif.Lattice.ColumnProps
/-
Lemmas on the layer-wise optimisation of cells.
-/
namespace Rampack.LayerOpt

open Spec Packing Lattice DistanceOptimizer CellOptimizationTransformer LayerWise

theorem atCoords_length (axis : Fin 3) (cell : List Shape) (c : Nat → ℝ) : (atCoords axis cell c).length = cell.length := by simp [atCoords]

theorem atCoords_get (axis : Fin 3) (cell : List Shape) (c : Nat → ℝ) (i : Nat) :
    (atCoords axis cell c)[i]? = cell[i]?.map fun s => ⟨s.pos.put axis (c i), s.rot⟩ := by
  unfold atCoords
  rw [List.getElem?_map, List.getElem?_zipIdx]
  cases cell[i]? <;> simp

theorem atCoords_congr {axis : Fin 3} {cell : List Shape} {c c' : Nat → ℝ} (h : ∀ i < cell.length, c i = c' i) : atCoords axis cell c = atCoords axis cell c' := by
  refine List.ext_getElem? fun i => ?_
  rw [atCoords_get, atCoords_get]
  by_cases hi : i < cell.length
  · rw [h i hi]
  · rw [List.getElem?_eq_none (by omega)]; rfl

theorem atCoords_self (axis : Fin 3) (cell : List Shape) : atCoords axis cell (coordOf axis cell) = cell := by
  refine List.ext_getElem? fun i => ?_
  rw [atCoords_get]
  unfold coordOf
  cases h : cell[i]? with
  | none => rfl
  | some s =>
    simp only [Option.map_some, Option.getD_some]
    rw [Vec3.put_get_self]

theorem withCoord_put (axis : Fin 3) (f : ℝ → ℝ) (p : Vec3 ℝ) (R : Mat3) (x : ℝ) : withCoord axis f ⟨p.put axis x, R⟩ = ⟨p.put axis (f x), R⟩ := by
  unfold withCoord
  simp only [get_put_self, put_put]

/-- Changing coordinates of some molecules. -/
theorem changeAt_coords {axis : Fin 3} {f : ℝ → ℝ} {ks : List Nat} (hd : ks.Nodup) (cell : List Shape) (c : Nat → ℝ) :
    changeAt axis f ks (atCoords axis cell c) = atCoords axis cell fun i => if i ∈ ks then f (c i) else c i := by
  have e : changeAt axis f ks (atCoords axis cell c) = (ks.map fun k => (k, 0)).foldl (fun c o => c.modify o.1 ((fun _ => withCoord axis f) o.2)) (atCoords axis cell c) := by
    unfold changeAt
    rw [List.foldl_map]
  have hf : (ks.map fun k => (k, 0)).map Prod.fst = ks := by
    rw [List.map_map]
    exact List.map_id _
  obtain ⟨h1, h2, h3⟩ := modifyAll (G := fun _ => withCoord axis f) (ops := ks.map fun k => (k, 0)) (cell := atCoords axis cell c) (by rw [hf]; exact hd)
  rw [e]
  refine List.ext_getElem? fun i => ?_
  rw [atCoords_get]
  by_cases hi : i ∈ ks
  · rw [h3 i 0 (List.mem_map.mpr ⟨i, hi, rfl⟩), atCoords_get, if_pos hi]
    cases cell[i]? with
    | none => rfl
    | some s => simp only [Option.map_some, withCoord_put]
  · rw [h2 i (by rw [hf]; exact hi), atCoords_get, if_neg hi]

theorem rescale_coords (axis : Fin 3) (k : ℝ) (cell : List Shape) (c : Nat → ℝ) :
    rescaleShapes axis k (atCoords axis cell c) = atCoords axis cell fun i => c i / k := by
  unfold rescaleShapes
  refine List.ext_getElem? fun i => ?_
  rw [List.getElem?_map, atCoords_get, atCoords_get]
  cases cell[i]? with
  | none => rfl
  | some s => simp only [Option.map_some, withCoord_put]

/-- What normalisation gives for a regular lattice. -/
theorem normalize_regular {b : Box} (hb : b.WF) {d : Vec3 Nat} (hd : 0 < d.x ∧ 0 < d.y ∧ 0 < d.z) (hs : d.x * d.y * d.z < 2 ^ 31) (cell : List Shape) :
    Lattice.normalize ⟨[cell], b, d, countCells d, true⟩ = .ok ⟨[cell.map wrapShape], b, d, countCells d, true⟩ := by
  have hI : Lattice.Inv ⟨[cell], b, d, countCells d, true⟩ := ⟨hb, hd.1, hd.2.1, hd.2.2, hs, countCells_eq hd.1 hd.2.1 hd.2.2 hs, rfl⟩
  unfold Lattice.normalize
  by_cases hn : Lattice.isNormalized ⟨[cell], b, d, countCells d, true⟩ = true
  · rw [if_pos hn]
    have hw := (normalized_iff hI).mp hn ⟨0, 0, 0⟩ hd
    have : cell.map wrapShape = cell := by
      conv_rhs => rw [← List.map_id cell]
      refine List.map_congr_left fun s hsm => ?_
      obtain ⟨⟨w1, w2⟩, ⟨w3, w4⟩, w5, w6⟩ := hw s (by simpa [molsAt] using hsm)
      unfold wrapShape
      simp only [wrap_eq]
      rw [Int.fract_eq_self.mpr ⟨w1, w2⟩, Int.fract_eq_self.mpr ⟨w3, w4⟩, Int.fract_eq_self.mpr ⟨w5, w6⟩]
      rfl
    rw [this]
  · rw [if_neg hn, if_pos rfl]
    rfl

theorem normalized_regular {b : Box} (hb : b.WF) {d : Vec3 Nat} (hd : 0 < d.x ∧ 0 < d.y ∧ 0 < d.z) (hs : d.x * d.y * d.z < 2 ^ 31) (cell : List Shape) :
    Lattice.Inv ⟨[cell.map wrapShape], b, d, countCells d, true⟩ ∧ Lattice.isNormalized ⟨[cell.map wrapShape], b, d, countCells d, true⟩ = true ∧
      (gen ⟨[cell.map wrapShape], b, d, countCells d, true⟩).length = d.x * d.y * d.z * cell.length := by
  have hI : Lattice.Inv ⟨[cell.map wrapShape], b, d, countCells d, true⟩ := ⟨hb, hd.1, hd.2.1, hd.2.2, hs, countCells_eq hd.1 hd.2.1 hd.2.2 hs, rfl⟩
  refine ⟨hI, (normalized_iff hI).mpr ?_, ?_⟩
  · intro i _ s hsm
    have : s ∈ cell.map wrapShape := by simpa [molsAt] using hsm
    obtain ⟨t, -, rfl⟩ := List.mem_map.mp this
    unfold wrapShape
    simp only [wrap_eq]
    exact within_fract t.pos
  · rw [← size_eq hI]
    unfold Lattice.size
    rw [if_pos rfl, countCells_eq hd.1 hd.2.1 hd.2.2 hs]
    simp

/-- Test packings: proper ones, of the given number of molecules, without walls. -/
structure Good (I : Interaction) (n : Nat) (P : Packing) : Prop where
  inv : PInv P I
  size : P.size = n
  wall : P.hasWall = ⟨false, false, false⟩

/-- Checking overlaps is never refused, and its result does not depend on the packing which is used for it. -/
theorem check_cell {I : Interaction} (hI : Contract I) {d : Vec3 Nat} (hd : 0 < d.x ∧ 0 < d.y ∧ 0 < d.z) (hs : d.x * d.y * d.z < 2 ^ 31) {b : Box} (hb : b.WF)
    {cell : List Shape} {P : Packing} (hP : Good I (d.x * d.y * d.z * cell.length) P) :
    ∃ P' c, areShapesOverlapping I d b cell P = .ok (P', c) ∧ Good I (d.x * d.y * d.z * cell.length) P' ∧ (c = true ↔ CellOverlaps I d b cell) := by
  obtain ⟨hN, hn, hlen⟩ := normalized_regular hb hd hs cell
  have ec : Lattice.create ⟨b, cell⟩ d = .ok ⟨[cell], b, d, countCells d, true⟩ := by
    unfold Lattice.create
    rw [decide_eq_true hd.1, decide_eq_true hd.2.1, decide_eq_true hd.2.2]
    rfl
  obtain ⟨B, hB, -⟩ := latticeBox_ok hN
  have hBw := (Box.make_wf (latticeBox_stretch ▸ hB)).1
  have hin := gen_inside hN hn hB
  set g := gen ⟨[cell.map wrapShape], b, d, countCells d, true⟩ with hg
  obtain ⟨P', e1, r1, m1, b1⟩ := reset_ready hI (⟨hP.inv, hP.size, rfl⟩ : Ready P I (d.x * d.y * d.z * cell.length) P) hBw hlen hin
  have hcap : g.length * max 1 I.centres.length < 2 ^ 50 := by
    have := hP.inv.bound
    unfold Packing.cap at this
    rw [hP.inv.q.core.m_eq, hP.size] at this
    rw [hlen]
    exact this
  have hne : g ≠ [] := by
    intro h0
    have := hP.inv.size_pos
    rw [hP.size, ← hlen, h0] at this
    simp at this
  obtain ⟨Q, eQ, hQ, hQm, hQb, hQw, -⟩ := Packing.create_ok hI hBw hne hin hcap 1
  obtain ⟨K, hK, hk⟩ := count_numTotal r1.inv.q hI
  obtain ⟨K', hK', hk'⟩ := count_numTotal hQ.q hI
  have eK : K = K' := by
    have := numTotal_congr r1.inv hQ (by rw [m1, hQm]) (by rw [b1, hQb]) (by rw [r1.wall, hP.wall, hQw])
    rw [← hK, ← hK'] at this
    exact_mod_cast this
  obtain ⟨k1, c1, p1, -⟩ := hk true
  obtain ⟨k2, c2, -, p2⟩ := hk' false
  refine ⟨P', decide (k1 ≠ 0), ?_, ⟨r1.inv, r1.size, by rw [r1.wall, hP.wall]⟩, ?_⟩
  · unfold areShapesOverlapping
    rw [ec, Outcome.ok_bind, normalize_regular hb hd hs, Outcome.ok_bind, generate_ok hN, Outcome.ok_bind, hB, Outcome.ok_bind, ← hg, e1, Outcome.ok_bind, c1, Outcome.ok_bind]
    rfl
  · rw [decide_eq_true_iff]
    constructor
    · intro h
      refine ⟨_, _, B, g, Q, k2, ec, normalize_regular hb hd hs cell, hB, generate_ok hN, eQ, c2, ?_⟩
      rw [p2 rfl, ← eK]
      exact p1.mp (Nat.pos_of_ne_zero h)
    · rintro ⟨L, L', B', g', Q', n, q1, q2, q3, q4, q5, q6, q7⟩
      rw [ec] at q1
      cases q1
      rw [normalize_regular hb hd hs] at q2
      cases q2
      rw [hB] at q3
      cases q3
      rw [generate_ok hN] at q4
      cases q4
      rw [eQ] at q5
      cases q5
      rw [c2] at q6
      cases q6
      rw [p2 rfl, ← eK] at q7
      have := p1.mpr q7
      omega

/-- Coordinates of the molecules `ks` replaced by `x`. -/
noncomputable def setAt (ks : List Nat) (x : ℝ) (c : Nat → ℝ) (i : Nat) : ℝ := if i ∈ ks then x else c i

theorem setAt_setAt (ks : List Nat) (x y : ℝ) (c : Nat → ℝ) : setAt ks x (setAt ks y c) = setAt ks x c := by
  funext i
  unfold setAt
  split_ifs <;> rfl

theorem layerLoop_ok {I : Interaction} (hI : Contract I) {d : Vec3 Nat} (hd : 0 < d.x ∧ 0 < d.y ∧ 0 < d.z) (hs : d.x * d.y * d.z < 2 ^ 31) {b : Box} (hb : b.WF)
    {axis : Fin 3} {cell : List Shape} {ks : List Nat} (hks : ks.Nodup) (n : Nat) : ∀ {P : Packing} {beg fin : ℝ} {c : Nat → ℝ}, ⌊|fin - beg| / LayerOpt.epsilon⌋.toNat < n →
      Good I (d.x * d.y * d.z * cell.length) P → beg < fin →
    ∃ P' x y c', layerLoop I d b axis ks P beg fin (atCoords axis cell c) = .ok (P', atCoords axis cell c') ∧ Good I (d.x * d.y * d.z * cell.length) P' ∧
      beg ≤ x ∧ x < y ∧ y ≤ fin ∧ y - x ≤ precision ∧ (x = beg ∨ CellOverlaps I d b (atCoords axis cell (setAt ks x c))) ∧
      ((¬ CellOverlaps I d b (atCoords axis cell (setAt ks y c)) ∧ c' = setAt ks y c) ∨ y = fin ∧ c' = c) := by
  induction n with
  | zero => intro _ _ _ _ h; omega
  | succ n ih =>
    intro P beg fin c hn hP hlt
    have he : LayerOpt.epsilon = precision := rfl
    have hch : changeAt axis (fun _ => (beg + fin) / 2) ks (atCoords axis cell c) = atCoords axis cell (setAt ks ((beg + fin) / 2) c) := changeAt_coords hks cell c
    obtain ⟨P1, o, e1, g1, ho⟩ := check_cell hI hd hs hb (cell := atCoords axis cell (setAt ks ((beg + fin) / 2) c)) (P := P) (by rw [atCoords_length]; exact hP)
    rw [atCoords_length] at g1
    rw [layerLoop, hch, e1]
    have hm1 : fin - (beg + fin) / 2 = (fin - beg) / 2 := by ring
    have hm2 : (beg + fin) / 2 - beg = (fin - beg) / 2 := by ring
    have habs : |fin - (beg + fin) / 2| = (fin - beg) / 2 := by rw [hm1]; exact abs_of_pos (by linarith)
    have habs' : |(beg + fin) / 2 - beg| = (fin - beg) / 2 := by rw [hm2]; exact abs_of_pos (by linarith)
    cases o with
    | true =>
      have hov := ho.mp rfl
      simp only
      split_ifs with h
      · have hlt' := LayerOpt.halves (w := |fin - beg|) (by rw [hm1, abs_div, abs_two]) h
        obtain ⟨P', x, y, c', q1, q2, q3, q4, q5, q6, q7, q8⟩ := ih (P := P1) (beg := (beg + fin) / 2) (fin := fin) (c := c) (by omega) g1 (by linarith)
        refine ⟨P', x, y, c', q1, q2, by linarith, q4, q5, q6, ?_, q8⟩
        right
        rcases q7 with q7 | q7
        · rw [q7]; exact hov
        · exact q7
      · rw [habs, not_lt, he] at h
        exact ⟨P1, (beg + fin) / 2, fin, c, rfl, g1, by linarith, by linarith, le_refl _, by linarith, Or.inr hov, Or.inr ⟨rfl, rfl⟩⟩
    | false =>
      have hov : ¬ CellOverlaps I d b (atCoords axis cell (setAt ks ((beg + fin) / 2) c)) := fun q => by simpa using ho.mpr q
      simp only
      split_ifs with h
      · have hlt' := LayerOpt.halves (w := |fin - beg|) (by rw [hm2, abs_div, abs_two]) h
        obtain ⟨P', x, y, c', q1, q2, q3, q4, q5, q6, q7, q8⟩ := ih (P := P1) (beg := beg) (fin := (beg + fin) / 2) (c := setAt ks ((beg + fin) / 2) c) (by omega) g1 (by linarith)
        rw [setAt_setAt] at q7 q8
        refine ⟨P', x, y, c', q1, q2, q3, q4, by linarith, q6, q7, ?_⟩
        left
        rcases q8 with q8 | ⟨q8, q9⟩
        · exact q8
        · rw [q8]; exact ⟨hov, q9⟩
      · rw [habs', not_lt, he] at h
        exact ⟨P1, beg, (beg + fin) / 2, _, rfl, g1, le_refl _, by linarith, by linarith, by linarith, Or.inl rfl, Or.inl ⟨hov, rfl⟩⟩

/-- One step: the layer `lay`, for which `prev` is the coordinate of the previous one. `cAfter` are coordinates after the step. -/
theorem optimizeLayer_ok {I : Interaction} (hI : Contract I) {d : Vec3 Nat} (hd : 0 < d.x ∧ 0 < d.y ∧ 0 < d.z) (hs : d.x * d.y * d.z < 2 ^ 31) {b : Box} (hb : b.WF)
    {axis : Fin 3} {cell : List Shape} {prev : ℝ} {lay : ℝ × List Nat} (hks : lay.2.Nodup) (hlt : prev < lay.1) {P : Packing} (c : Nat → ℝ)
    (hP : Good I (d.x * d.y * d.z * cell.length) P) :
    ∃ P' x y c', optimizeLayer I d b axis prev lay P (atCoords axis cell c) = .ok (P', atCoords axis cell c') ∧ Good I (d.x * d.y * d.z * cell.length) P' ∧
      prev ≤ x ∧ x < y ∧ y ≤ lay.1 ∧ y - x ≤ precision ∧ (x = prev ∨ CellOverlaps I d b (atCoords axis cell (setAt lay.2 x c))) ∧
      ((¬ CellOverlaps I d b (atCoords axis cell (setAt lay.2 y c)) ∧ ∀ i ∈ lay.2, c' i = y + precision) ∨ y = lay.1 ∧ ∀ i ∈ lay.2, c' i = c i + precision) ∧
      ∀ i, i ∉ lay.2 → c' i = c i := by
  obtain ⟨P', x, y, c1, q1, q2, q3, q4, q5, q6, q7, q8⟩ := layerLoop_ok hI hd hs hb (axis := axis) (cell := cell) hks _ (P := P) (beg := prev) (fin := lay.1) (c := c) (Nat.lt_succ_self _) hP hlt
  refine ⟨P', x, y, fun i => if i ∈ lay.2 then c1 i + LayerOpt.epsilon else c1 i, ?_, q2, q3, q4, q5, q6, q7, ?_, ?_⟩
  · unfold optimizeLayer
    rw [q1, Outcome.ok_bind]
    simp only
    rw [changeAt_coords hks]
    rfl
  · rcases q8 with ⟨q8, q9⟩ | ⟨q8, q9⟩
    · left
      refine ⟨q8, fun i hi => ?_⟩
      simp only
      rw [if_pos hi, q9, setAt, if_pos hi]
      rfl
    · right
      refine ⟨q8, fun i hi => ?_⟩
      simp only
      rw [if_pos hi, q9]
      rfl
  · intro i hi
    simp only
    rw [if_neg hi]
    rcases q8 with ⟨_, q9⟩ | ⟨_, q9⟩
    · rw [q9, setAt, if_neg hi]
    · rw [q9]

/-- Coordinates when the layer `ks` is at `x`, later layers are at `c`, and the others at `c'`. -/
noncomputable def stageAt (ks : List Nat) (later : List (ℝ × List Nat)) (c c' : Nat → ℝ) (x : ℝ) (i : Nat) : ℝ :=
  if i ∈ ks then x else if i ∈ later.flatMap Prod.snd then c i else c' i

theorem optimizeFrom_ok {I : Interaction} (hI : Contract I) {d : Vec3 Nat} (hd : 0 < d.x ∧ 0 < d.y ∧ 0 < d.z) (hs : d.x * d.y * d.z < 2 ^ 31) {b : Box} (hb : b.WF)
    {axis : Fin 3} {cell : List Shape} : ∀ {layers : List (ℝ × List Nat)} {prev : ℝ} {P : Packing} (c : Nat → ℝ), (layers.flatMap Prod.snd).Nodup →
      (prev :: layers.map Prod.fst).Pairwise (· < ·) → Good I (d.x * d.y * d.z * cell.length) P →
    ∃ P' c', optimizeFrom I d b axis prev layers P (atCoords axis cell c) = .ok (P', atCoords axis cell c') ∧ Good I (d.x * d.y * d.z * cell.length) P' ∧
      (∀ i, i ∉ layers.flatMap Prod.snd → c' i = c i) ∧
      ∀ j lay p, layers[j]? = some lay → (prev :: layers.map Prod.fst)[j]? = some p → ∃ x y, p ≤ x ∧ x < y ∧ y ≤ lay.1 ∧ y - x ≤ precision ∧
        (x = p ∨ CellOverlaps I d b (atCoords axis cell (stageAt lay.2 (layers.drop (j + 1)) c c' x))) ∧
        ((¬ CellOverlaps I d b (atCoords axis cell (stageAt lay.2 (layers.drop (j + 1)) c c' y)) ∧ ∀ i ∈ lay.2, c' i = y + precision) ∨
          y = lay.1 ∧ ∀ i ∈ lay.2, c' i = c i + precision)
  | [], prev, P, c, _, _, hP => ⟨P, c, rfl, hP, fun _ _ => rfl, by simp⟩
  | lay :: layers, prev, P, c, hnd, hpw, hP => by
    rw [List.flatMap_cons, List.nodup_append] at hnd
    obtain ⟨n1, n2, n3⟩ := hnd
    rw [List.map_cons, List.pairwise_cons] at hpw
    obtain ⟨P1, x, y, c1, q1, q2, q3, q4, q5, q6, q7, q8, q9⟩ := optimizeLayer_ok hI hd hs hb (axis := axis) (cell := cell) n1 (hpw.1 lay.1 (by simp)) c hP
    obtain ⟨P', c', r1, r2, r3, r4⟩ := optimizeFrom_ok hI hd hs hb (layers := layers) (prev := lay.1) (P := P1) c1 n2 hpw.2 q2
    refine ⟨P', c', ?_, r2, ?_, ?_⟩
    · rw [optimizeFrom, q1, Outcome.ok_bind]
      exact r1
    · intro i hi
      rw [List.flatMap_cons, List.mem_append, not_or] at hi
      rw [r3 i hi.2, q9 i hi.1]
    · intro j lay' p hj hp
      cases j with
      | zero =>
        rw [List.getElem?_cons_zero] at hj hp
        cases hj
        cases hp
        have hst : ∀ z, stageAt lay.2 ((lay :: layers).drop (0 + 1)) c c' z = setAt lay.2 z c := by
          intro z
          funext i
          unfold stageAt setAt
          by_cases h1 : i ∈ lay.2
          · rw [if_pos h1, if_pos h1]
          · rw [if_neg h1, if_neg h1]
            by_cases h2 : i ∈ ((lay :: layers).drop (0 + 1)).flatMap Prod.snd
            · rw [if_pos h2]
            · rw [if_neg h2, r3 i h2, q9 i h1]
        have hc' : ∀ i ∈ lay.2, c' i = c1 i := fun i hi => r3 i fun h2 => n3 i hi i h2 rfl
        refine ⟨x, y, q3, q4, q5, q6, by rw [hst]; exact q7, ?_⟩
        rw [hst]
        rcases q8 with ⟨q8, q10⟩ | ⟨q8, q10⟩
        · exact Or.inl ⟨q8, fun i hi => by rw [hc' i hi, q10 i hi]⟩
        · exact Or.inr ⟨q8, fun i hi => by rw [hc' i hi, q10 i hi]⟩
      | succ j =>
        rw [List.getElem?_cons_succ] at hj hp
        obtain ⟨x', y', s1, s2, s3, s4, s5, s6⟩ := r4 j lay' p hj hp
        have sub : ∀ i, i ∈ (layers.drop (j + 1)).flatMap Prod.snd → i ∉ lay.2 := by
          intro i hi h1
          obtain ⟨l, hl, hi⟩ := List.mem_flatMap.mp hi
          exact n3 i h1 i (List.mem_flatMap.mpr ⟨l, List.mem_of_mem_drop hl, hi⟩) rfl
        have hst : ∀ z, stageAt lay'.2 ((lay :: layers).drop (j + 1 + 1)) c c' z = stageAt lay'.2 (layers.drop (j + 1)) c1 c' z := by
          intro z
          funext i
          unfold stageAt
          rw [List.drop_succ_cons]
          split_ifs with h1 h2
          · rfl
          · exact (q9 i (sub i h2)).symm
          · rfl
        have hmem : ∀ i ∈ lay'.2, i ∉ lay.2 := fun i hi h1 =>
          n3 i h1 i (List.mem_flatMap.mpr ⟨lay', List.mem_of_getElem? hj, hi⟩) rfl
        refine ⟨x', y', s1, s2, s3, s4, by rw [hst]; exact s5, ?_⟩
        rw [hst]
        rcases s6 with s6 | ⟨s6, s7⟩
        · exact Or.inl s6
        · exact Or.inr ⟨s6, fun i hi => by rw [s7 i hi, q9 i (hmem i hi)]⟩

theorem scaleSide_stretch (b : Box) (axis : Fin 3) (k : ℝ) : scaleSide b axis k = Box.make (stretch b.dims ((⟨1, 1, 1⟩ : Vec3 ℝ).put axis k)) := by
  unfold scaleSide
  rw [← ofSides_stretch]
  have h1 : ∀ v : Vec3 ℝ, (1 : ℝ) • v = v := fun v => by ext <;> simp
  match axis with
  | 0 => simp [Vec3.put, Vec3.ofFn, Vec3.get, h1]
  | 1 => simp [Vec3.put, Vec3.ofFn, Vec3.get, h1]
  | 2 => simp [Vec3.put, Vec3.ofFn, Vec3.get, h1]

theorem put_pos {axis : Fin 3} {k : ℝ} (hk : 0 < k) : Pos ((⟨1, 1, 1⟩ : Vec3 ℝ).put axis k) :=
  Pos.put ⟨one_pos, one_pos, one_pos⟩ hk

theorem scaleSide_ok {b : Box} (hb : b.WF) (axis : Fin 3) {k : ℝ} (hk : 0 < k) :
    ∃ b', scaleSide b axis k = .ok b' ∧ b'.WF ∧ Box.make (stretch b.dims ((⟨1, 1, 1⟩ : Vec3 ℝ).put axis k)) = .ok b' ∧
      b'.dims = stretch b.dims ((⟨1, 1, 1⟩ : Vec3 ℝ).put axis k) := by
  have hdet : (stretch b.dims ((⟨1, 1, 1⟩ : Vec3 ℝ).put axis k)).det ≠ 0 := by
    rw [stretch_det]
    obtain ⟨h1, h2, h3⟩ := put_pos (axis := axis) hk
    exact mul_ne_zero hb.det_ne (mul_ne_zero (mul_ne_zero h1.ne' h2.ne') h3.ne')
  have e : Box.make (stretch b.dims ((⟨1, 1, 1⟩ : Vec3 ℝ).put axis k)) =
      .ok ⟨stretch b.dims ((⟨1, 1, 1⟩ : Vec3 ℝ).put axis k), (stretch b.dims ((⟨1, 1, 1⟩ : Vec3 ℝ).put axis k)).inverse⟩ := if_neg hdet
  exact ⟨_, (scaleSide_stretch b axis k).trans e, (Box.make_wf e).1, e, rfl⟩

theorem checkRescaled_ok {I : Interaction} (hI : Contract I) {d : Vec3 Nat} (hd : 0 < d.x ∧ 0 < d.y ∧ 0 < d.z) (hs : d.x * d.y * d.z < 2 ^ 31) {b : Box} (hb : b.WF)
    {axis : Fin 3} {cell : List Shape} {c : Nat → ℝ} {k : ℝ} (hk : 0 < k) {P : Packing} (hP : Good I (d.x * d.y * d.z * cell.length) P) :
    ∃ b' P' o, checkRescaled I d axis b (atCoords axis cell c) k P = .ok (b', P', o) ∧ scaleSide b axis k = .ok b' ∧ Good I (d.x * d.y * d.z * cell.length) P' ∧
      (o = true ↔ OverlapsCompressed I d b axis cell c k) := by
  obtain ⟨b', e1, w, e2, -⟩ := scaleSide_ok hb axis hk
  obtain ⟨P', o, e3, g, ho⟩ := check_cell hI hd hs w (cell := atCoords axis cell fun i => c i / k) (P := P) (by rw [atCoords_length]; exact hP)
  rw [atCoords_length] at g
  refine ⟨b', P', o, ?_, e1, g, ho.trans ?_⟩
  · unfold checkRescaled
    rw [e1, Outcome.ok_bind, rescale_coords, e3, Outcome.ok_bind]
    rfl
  · constructor
    · exact fun h => ⟨b', e2, h⟩
    · rintro ⟨b'', q1, q2⟩
      rw [e2] at q1
      cases q1
      exact q2

theorem cellLoop_ok {I : Interaction} (hI : Contract I) {d : Vec3 Nat} (hd : 0 < d.x ∧ 0 < d.y ∧ 0 < d.z) (hs : d.x * d.y * d.z < 2 ^ 31) {b : Box} (hb : b.WF)
    {axis : Fin 3} {cell : List Shape} {c : Nat → ℝ} (n : Nat) : ∀ {P : Packing} {beg fin : ℝ} {b1 : Box}, ⌊|fin - beg| / LayerOpt.epsilon⌋.toNat < n →
      Good I (d.x * d.y * d.z * cell.length) P → 0 < beg → beg < fin → OverlapsCompressed I d b axis cell c beg → scaleSide b axis fin = .ok b1 →
    ∃ b' x y, cellLoop I d axis b (atCoords axis cell c) P beg fin b1 (atCoords axis cell fun i => c i / fin) = .ok (b', atCoords axis cell fun i => c i / y) ∧
      scaleSide b axis y = .ok b' ∧ beg ≤ x ∧ x < y ∧ y ≤ fin ∧ y - x ≤ precision ∧ OverlapsCompressed I d b axis cell c x ∧
      (y = fin ∨ ¬ OverlapsCompressed I d b axis cell c y) := by
  induction n with
  | zero => intro _ _ _ _ h; omega
  | succ n ih =>
    intro P beg fin b1 hn hP hpos hlt hbeg hb1
    have he : LayerOpt.epsilon = precision := rfl
    obtain ⟨b2, P1, o, e1, e2, g1, ho⟩ := checkRescaled_ok hI hd hs hb (axis := axis) (cell := cell) (c := c) (k := (beg + fin) / 2) (by linarith) hP
    rw [cellLoop, e1]
    have hm1 : fin - (beg + fin) / 2 = (fin - beg) / 2 := by ring
    have hm2 : (beg + fin) / 2 - beg = (fin - beg) / 2 := by ring
    have habs : |fin - (beg + fin) / 2| = (fin - beg) / 2 := by rw [hm1]; exact abs_of_pos (by linarith)
    have habs' : |(beg + fin) / 2 - beg| = (fin - beg) / 2 := by rw [hm2]; exact abs_of_pos (by linarith)
    cases o with
    | true =>
      have hov := ho.mp rfl
      simp only
      split_ifs with h
      · have hlt' := LayerOpt.halves (w := |fin - beg|) (by rw [hm1, abs_div, abs_two]) h
        obtain ⟨b', x, y, q1, q2, q3, q4, q5, q6, q7, q8⟩ := ih (P := P1) (beg := (beg + fin) / 2) (fin := fin) (by omega) g1 (by linarith) (by linarith) hov hb1
        exact ⟨b', x, y, q1, q2, by linarith, q4, q5, q6, q7, q8⟩
      · rw [habs, not_lt, he] at h
        exact ⟨b1, (beg + fin) / 2, fin, rfl, hb1, by linarith, by linarith, le_refl _, by linarith, hov, Or.inl rfl⟩
    | false =>
      have hov : ¬ OverlapsCompressed I d b axis cell c ((beg + fin) / 2) := fun q => by simpa using ho.mpr q
      simp only
      rw [rescale_coords]
      split_ifs with h
      · have hlt' := LayerOpt.halves (w := |fin - beg|) (by rw [hm2, abs_div, abs_two]) h
        obtain ⟨b', x, y, q1, q2, q3, q4, q5, q6, q7, q8⟩ := ih (P := P1) (beg := beg) (fin := (beg + fin) / 2) (by omega) g1 hpos (by linarith) hbeg e2
        refine ⟨b', x, y, q1, q2, q3, q4, by linarith, q6, q7, Or.inr ?_⟩
        rcases q8 with q8 | q8
        · rw [q8]; exact hov
        · exact q8
      · rw [habs', not_lt, he] at h
        exact ⟨b2, beg, (beg + fin) / 2, rfl, e2, le_refl _, by linarith, by linarith, by linarith, hbeg, Or.inr hov⟩

theorem optimizeCell_ok {I : Interaction} (hI : Contract I) (hR : 0 < I.totalRange) {d : Vec3 Nat} (hd : 0 < d.x ∧ 0 < d.y ∧ 0 < d.z) (hs : d.x * d.y * d.z < 2 ^ 31)
    {B b : Box} (hb : b.WF) {axis : Fin 3} {cell : List Shape} {c : Nat → ℝ} {P : Packing} (hP : Good I (d.x * d.y * d.z * cell.length) P) :
    (∃ m, optimizeCell I d axis B b (atCoords axis cell c) P = .throw m ∧ ((∃ a, B.heights.get a ≤ (1 + precision) * I.totalRange) ∨
      ¬ OverlapsCompressed I d b axis cell c (I.totalRange * (1 + precision) / B.heights.get axis))) ∨
    ∃ b' x k, optimizeCell I d axis B b (atCoords axis cell c) P = .ok (b', atCoords axis cell fun i => c i / k) ∧
      scaleSide b axis k = .ok b' ∧ 0 < x ∧ x < k ∧ k ≤ 1 ∧ k - x ≤ precision ∧ OverlapsCompressed I d b axis cell c x ∧
      (k = 1 ∨ ¬ OverlapsCompressed I d b axis cell c k) := by
  unfold optimizeCell
  by_cases hH : ∀ a, B.heights.get a > LayerOpt.factorEpsilon * I.totalRange
  swap
  · rw [decide_eq_false hH]
    push Not at hH
    exact Or.inl ⟨_, rfl, Or.inl hH⟩
  rw [decide_eq_true hH, Outcome.require_true, Outcome.ok_bind]
  have hFp : 0 < LayerOpt.factorEpsilon := by unfold LayerOpt.factorEpsilon; positivity
  have hhp : 0 < B.heights.get axis := lt_trans (mul_pos hFp hR) (hH axis)
  simp only
  set k0 := I.totalRange * LayerOpt.factorEpsilon / B.heights.get axis with hk0
  have p0 : 0 < k0 := div_pos (mul_pos hR hFp) hhp
  have p1 : k0 < 1 := by rw [hk0, div_lt_one hhp, mul_comm]; exact hH axis
  obtain ⟨b2, P1, o, e1, -, g1, ho⟩ := checkRescaled_ok hI hd hs hb (axis := axis) (cell := cell) (c := c) p0 hP
  rw [e1, Outcome.ok_bind]
  cases o with
  | false =>
    refine Or.inl ⟨_, rfl, Or.inr fun q => ?_⟩
    have := ho.mpr q
    cases this
  | true =>
    simp only
    rw [Outcome.require_true, Outcome.ok_bind]
    have hone : scaleSide b axis 1 = .ok b := by
      rw [scaleSide_stretch]
      have : (⟨1, 1, 1⟩ : Vec3 ℝ).put axis 1 = ⟨1, 1, 1⟩ := by
        match axis with
        | 0 => rfl
        | 1 => rfl
        | 2 => rfl
      rw [this, stretch_one]
      unfold Box.make
      rw [if_neg hb.det_ne, ← hb.inv_eq]
    have hc1 : atCoords axis cell c = atCoords axis cell fun i => c i / 1 := atCoords_congr fun i _ => by rw [div_one]
    obtain ⟨b', x, y, q1, q2, q3, q4, q5, q6, q7, q8⟩ := cellLoop_ok hI hd hs hb (axis := axis) (cell := cell) (c := c) _ (P := P1) (beg := k0) (fin := 1) (b1 := b)
      (Nat.lt_succ_self _) g1 p0 p1 (ho.mp rfl) hone
    rw [← hc1] at q1
    exact Or.inr ⟨b', x, y, q1, q2, by linarith, q4, q5, q6, q7, q8⟩

/-- Adding the spacing to molecules. -/
theorem spaceLayers_coords {axis : Fin 3} {cell : List Shape} (c : Nat → ℝ) (spacing h f : ℝ) :
    spaceLayers axis spacing h f (layerAssociation axis cell) (atCoords axis cell c) =
      atCoords axis cell fun i => (c i + (binOf (layerAssociation axis cell) i : ℝ) * spacing / h) / f := by
  have hok := layers_ok axis cell
  have hlen : (layerKeys axis cell).length = cell.length := by simp [layerKeys]
  have e1 : spaceLayers axis spacing h f (layerAssociation axis cell) (atCoords axis cell c) =
      (layerOf ((layerAssociation axis cell).map Prod.snd)).foldl (fun c o => c.modify o.1 (withCoord axis fun x => (x + (o.2 : ℝ) * spacing / h) / f)) (atCoords axis cell c) := by
    unfold layerOf spaceLayers
    rw [List.foldl_flatMap, List.zipIdx_map, List.foldl_map]
    congr 1
    funext c o
    unfold changeAt
    rw [List.foldl_map]
    rfl
  have hall : ((layerAssociation axis cell).flatMap Prod.snd).Perm (List.range cell.length) := by
    have := hok.all
    rwa [hlen] at this
  have hnd : ((layerOf ((layerAssociation axis cell).map Prod.snd)).map Prod.fst).Nodup := by
    rw [layerOf_fst]
    exact hall.nodup_iff.mpr List.nodup_range
  obtain ⟨h1, -, h3⟩ := modifyAll (G := fun l => withCoord axis fun x => (x + (l : ℝ) * spacing / h) / f) (ops := layerOf ((layerAssociation axis cell).map Prod.snd))
    (cell := atCoords axis cell c) hnd
  rw [e1]
  refine List.ext_getElem? fun k => ?_
  by_cases hk : k < cell.length
  · obtain ⟨b, b1, b2⟩ := binOf_spec hok (n := k) (by rw [hlen]; exact hk)
    rw [h3 k (binOf (layerAssociation axis cell) k) (mem_layerOf.mpr ⟨b.2, by rw [List.getElem?_map, b1]; rfl, b2⟩), atCoords_get, atCoords_get]
    cases cell[k]? with
    | none => rfl
    | some s => simp only [Option.map_some, withCoord_put]
  · rw [List.getElem?_eq_none (by rw [h1, atCoords_length]; omega), List.getElem?_eq_none (by rw [atCoords_length]; omega)]

theorem center_coords {axis : Fin 3} {cell : List Shape} (hne : cell ≠ []) (c : Nat → ℝ) :
    centerShapes axis (atCoords axis cell c) = .ok (atCoords axis cell fun i => c i + (1 / 2 - (c 0 + c (cell.length - 1)) / 2)) := by
  have hl : 0 < cell.length := List.length_pos_iff.mpr hne
  have hl' : 0 < (atCoords axis cell c).length := by rw [atCoords_length]; exact hl
  have key : ∀ i (hi : i < (atCoords axis cell c).length), (atCoords axis cell c)[i].pos.get axis = c i := by
    intro i hi
    have e := atCoords_get axis cell c i
    rw [List.getElem?_eq_getElem hi, List.getElem?_eq_getElem (by rw [atCoords_length] at hi; exact hi)] at e
    simp only [Option.map_some, Option.some.injEq] at e
    rw [e]
    exact get_put_self _ _ _
  unfold centerShapes
  rw [vget_ok hl', Outcome.ok_bind, vget_ok (by omega), Outcome.ok_bind]
  simp only [Outcome.pure_eq, Outcome.ok_inj, key]
  refine List.ext_getElem? fun i => ?_
  rw [List.getElem?_map, atCoords_get, atCoords_get, atCoords_length]
  cases cell[i]? with
  | none => rfl
  | some s => simp only [Option.map_some, withCoord_put]

theorem wrap_coords {axis : Fin 3} {cell : List Shape} (hw : ∀ s ∈ cell, Within s.pos) (c : Nat → ℝ) :
    (atCoords axis cell c).map wrapShape = atCoords axis cell fun i => Int.fract (c i) := by
  refine List.ext_getElem? fun i => ?_
  rw [List.getElem?_map, atCoords_get, atCoords_get]
  cases hs : cell[i]? with
  | none => rfl
  | some s =>
    obtain ⟨w1, w2, w3⟩ := hw s (List.mem_of_getElem? hs)
    simp only [Option.map_some]
    congr 1
    unfold wrapShape
    simp only [wrap_eq]
    congr 1
    match axis with
    | 0 => exact Vec3.ext rfl (Int.fract_eq_self.mpr w2) (Int.fract_eq_self.mpr w3)
    | 1 => exact Vec3.ext (Int.fract_eq_self.mpr w1) rfl (Int.fract_eq_self.mpr w3)
    | 2 => exact Vec3.ext (Int.fract_eq_self.mpr w1) (Int.fract_eq_self.mpr w2) rfl

/-- The layers of the association, by their numbers. -/
theorem layer_facts {axis : Fin 3} {cell : List Shape} {l : Nat} {lay : ℝ × List Nat} (h : (layerAssociation axis cell)[l]? = some lay) :
    (∀ i < cell.length, i ∈ lay.2 ↔ binOf (layerAssociation axis cell) i = l) ∧
    ∃ i < cell.length, i ∈ lay.2 ∧ lay.1 = coordOf axis cell i := by
  have hok := layers_ok axis cell
  have hlen : (layerKeys axis cell).length = cell.length := by simp [layerKeys]
  refine ⟨fun i hi => ⟨fun hm => binOf_eq hok h hm, fun e => ?_⟩, ?_⟩
  · obtain ⟨b, b1, b2⟩ := binOf_spec hok (n := i) (by rw [hlen]; exact hi)
    rw [e, h] at b1
    cases b1
    exact b2
  · obtain ⟨i, hi, hk⟩ := hok.key lay (List.mem_of_getElem? h)
    have hil : i < cell.length := by rw [← hlen]; exact (List.getElem?_eq_some_iff.mp hk).1
    refine ⟨i, hil, hi, ?_⟩
    unfold layerKeys at hk
    rw [List.getElem?_map] at hk
    unfold coordOf
    rw [hk]
    rfl

theorem later_iff {axis : Fin 3} {cell : List Shape} {l i : Nat} (hi : i < cell.length) :
    i ∈ ((layerAssociation axis cell).drop l).flatMap Prod.snd ↔ l ≤ binOf (layerAssociation axis cell) i := by
  have hok := layers_ok axis cell
  have hlen : (layerKeys axis cell).length = cell.length := by simp [layerKeys]
  rw [List.mem_flatMap]
  constructor
  · rintro ⟨b, hb, hm⟩
    obtain ⟨j, hj⟩ := List.getElem?_of_mem hb
    rw [List.getElem?_drop] at hj
    rw [binOf_eq hok hj hm]
    omega
  · intro h
    obtain ⟨b, b1, b2⟩ := binOf_spec hok (n := i) (by rw [hlen]; exact hi)
    refine ⟨b, List.mem_of_getElem? (i := binOf (layerAssociation axis cell) i - l) ?_, b2⟩
    rw [List.getElem?_drop, Nat.add_sub_cancel' h]
    exact b1

theorem stage_coords {axis : Fin 3} {cell : List Shape} {l : Nat} {lay : ℝ × List Nat} (h : (layerAssociation axis cell)[l]? = some lay) (c0 c : Nat → ℝ) (x : ℝ) :
    atCoords axis cell (stageAt lay.2 ((layerAssociation axis cell).drop (l + 1)) c0 c x) =
      atCoords axis cell (layerAt (binOf (layerAssociation axis cell)) c0 c l x) := by
  refine atCoords_congr fun i hi => ?_
  have h1 := (layer_facts h).1 i hi
  have h2 := later_iff (axis := axis) (l := l + 1) hi
  unfold stageAt layerAt
  by_cases e1 : i ∈ lay.2
  · rw [if_pos e1, if_neg (by rw [h1.mp e1]; omega), if_pos (h1.mp e1)]
  · have e2 : ¬ binOf (layerAssociation axis cell) i = l := fun q => e1 (h1.mpr q)
    rw [if_neg e1, if_neg e2]
    by_cases e3 : i ∈ ((layerAssociation axis cell).drop (l + 1)).flatMap Prod.snd
    · rw [if_pos e3, if_neg (by have := h2.mp e3; omega)]
    · have e4 : ¬ l + 1 ≤ binOf (layerAssociation axis cell) i := fun q => e3 (h2.mpr q)
      rw [if_neg e3, if_pos (by omega)]

/-- All layers. -/
theorem optimizeLayers_ok {I : Interaction} (hI : Contract I) {d : Vec3 Nat} (hd : 0 < d.x ∧ 0 < d.y ∧ 0 < d.z) (hs : d.x * d.y * d.z < 2 ^ 31) {b : Box} (hb : b.WF)
    {axis : Fin 3} {cell : List Shape} (hne : layerAssociation axis cell ≠ []) {P : Packing} (hP : Good I (d.x * d.y * d.z * cell.length) P) :
    ∃ P' c, optimizeLayers I d b axis (layerAssociation axis cell) P cell = .ok (P', atCoords axis cell c) ∧ Good I (d.x * d.y * d.z * cell.length) P' ∧
      LayersMoved I d b axis cell (layerAssociation axis cell).length (binOf (layerAssociation axis cell)) c := by
  have hok := layers_ok axis cell
  have hnd : ((layerAssociation axis cell).flatMap Prod.snd).Nodup := hok.all.nodup_iff.mpr List.nodup_range
  have hsort : ((layerAssociation axis cell).map Prod.fst).Pairwise (· < ·) := by
    rw [List.pairwise_map]
    exact layers_sorted axis cell
  have hst := @stage_coords axis cell
  have hlf := @layer_facts axis cell
  have hlt := @later_iff axis cell
  generalize hA : layerAssociation axis cell = A at *
  cases A with
  | nil => exact absurd rfl hne
  | cons first rest =>
    rw [List.flatMap_cons, List.nodup_append] at hnd
    obtain ⟨P', c, q1, q2, q3, q4⟩ := optimizeFrom_ok hI hd hs hb (axis := axis) (cell := cell) (layers := rest) (prev := first.1) (P := P) (coordOf axis cell) hnd.2.1 hsort hP
    rw [atCoords_self] at q1
    refine ⟨P', c, q1, q2, ?_, ?_⟩
    · intro i hi h0
      refine q3 i fun hm => ?_
      have := (hlt (l := 1) hi).mp hm
      omega
    · intro l h0 hl
      obtain ⟨j, rfl⟩ : ∃ j, l = j + 1 := ⟨l - 1, by omega⟩
      have e1 : (first :: rest)[j + 1]? = some (first :: rest)[j + 1] := List.getElem?_eq_getElem hl
      have e0 : (first :: rest)[j]? = some (first :: rest)[j] := List.getElem?_eq_getElem (by omega)
      obtain ⟨f1, i1, hi1, m1, k1⟩ := hlf e1
      obtain ⟨f0, i0, hi0, m0, k0⟩ := hlf e0
      obtain ⟨x, y, s1, s2, s3, s4, s5, s6⟩ := q4 j _ ((first :: rest)[j]).1 e1 (by
        rw [← List.map_cons, List.getElem?_map, e0]; rfl)
      have hc : ∀ z, atCoords axis cell (stageAt (first :: rest)[j + 1].2 (rest.drop (j + 1)) (coordOf axis cell) c z) =
        atCoords axis cell (layerAt (binOf (first :: rest)) (coordOf axis cell) c (j + 1) z) := fun z => hst e1 (coordOf axis cell) c z
      rw [hc] at s5 s6
      refine ⟨i0, i1, (first :: rest)[j].1, (first :: rest)[j + 1].1, x, y, hi0, by rw [(f0 i0 hi0).mp m0], k0, hi1, (f1 i1 hi1).mp m1, k1, s1, s2, s3, s4, s5, ?_⟩
      rcases s6 with ⟨s6, s7⟩ | ⟨s6, s7⟩
      · exact Or.inl ⟨s6, fun k hk he => s7 k ((f1 k hk).mpr he)⟩
      · exact Or.inr ⟨s6, fun k hk he => s7 k ((f1 k hk).mpr he)⟩

end Rampack.LayerOpt
