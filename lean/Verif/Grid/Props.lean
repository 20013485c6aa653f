import Verif.Grid.SpecLemmas
/-
Properties C01-C04 of the neighbour grid.
-/
namespace Rampack

open Rampack.Spec Rampack.Grid

/-! ### A concrete grid used in the examples: the unit cube with cells of size 1/3 -/

theorem unitBox_ok : Box.make (Mat3.diag 1 1 1) = .ok ⟨Mat3.diag 1 1 1, (Mat3.diag 1 1 1).inverse⟩ := by
  have : (Mat3.diag 1 1 1).det ≠ 0 := by norm_num [Mat3.diag, Mat3.det]
  rw [Box.make, if_neg this]

noncomputable def unitBox : Box := ⟨Mat3.diag 1 1 1, (Mat3.diag 1 1 1).inverse⟩

theorem unitBox_heights : unitBox.heights = ⟨1, 1, 1⟩ := by
  have hs : unitBox.sides = ⟨⟨1, 0, 0⟩, ⟨0, 1, 0⟩, ⟨0, 0, 1⟩⟩ := by
    simp [Box.sides, Box.relToAbs, unitBox, Mat3.diag, Mat3.mulVec, Vec3.dot]
  ext <;> simp [Box.heights, Box.volume, hs, Vec3.cross, Vec3.norm, Vec3.norm2, Vec3.dot]

theorem unitBox_cells : cellsAlong unitBox (1 / 3) = ⟨3, 3, 3⟩ := by
  simp [cellsAlong, unitBox_heights]

theorem unitBox_gridSize : GridSize unitBox (1 / 3) := by
  rw [GridSize, unitBox_cells, unitBox_heights]
  norm_num

theorem unitBox_inside {x y z : ℝ} (hx : 0 ≤ x ∧ x < 1) (hy : 0 ≤ y ∧ y < 1) (hz : 0 ≤ z ∧ z < 1) :
    Inside unitBox ⟨x, y, z⟩ :=
  ⟨⟨x, y, z⟩, hx, hy, hz, by ext <;> simp [combo, unitBox, Mat3.diag, Mat3.c0, Mat3.c1, Mat3.c2]⟩

/-- Two objects are added, one is removed, another one is added. -/
noncomputable def sampleOps : List GOp :=
  [.add 0 ⟨0, 1 / 2, 1 / 2⟩, .add 1 ⟨1 / 10, 1 / 2, 1 / 2⟩, .remove 0 ⟨0, 1 / 2, 1 / 2⟩, .add 2 ⟨9 / 10, 1 / 2, 1 / 2⟩]

theorem sampleOps_allowed : AllowedAll 3 ⟨unitBox, 1 / 3, fun _ => none⟩ sampleOps := by
  refine ⟨⟨by omega, rfl, unitBox_inside ?_ ?_ ?_⟩, ⟨by omega, rfl, unitBox_inside ?_ ?_ ?_⟩,
    ⟨by omega, unitBox_inside ?_ ?_ ?_, Or.inr rfl⟩, ⟨by omega, rfl, unitBox_inside ?_ ?_ ?_⟩, trivial⟩ <;> norm_num

/-! ### C01 -/

/-- C01, safety: every allowed history of calls on a new grid completes normally (no exception, no access outside of the
arrays, no endless loop). -/
theorem C01_history_safe {m : Mat3} {b : Box} {cs : ℝ} {n : Nat} (hb : Box.make m = .ok b) (hs : GridSize b cs)
    (hn : n < 2 ^ 64) (ops : List GOp) (ha : AllowedAll n ⟨b, cs, fun _ => none⟩ ops) :
    ∃ g, (NG.create b cs n >>= fun g0 => callAll g0 ops) = .ok g := by
  obtain ⟨g0, e0, h0⟩ := create_inv hb hs hn
  obtain ⟨g1, c1, e1, h1⟩ := callAll_inv h0 ha
  exact ⟨g1, by rw [e0, Outcome.ok_bind, e1]⟩

/-- C01: in every reachable grid, listing a cell terminates and gives each identifier stored in that cell exactly once
and nothing else. -/
theorem C01_cell_lists_stored {n : Nat} {g : NG} {s : GState} (h : Reached n g s) {c : Vec3 Nat} (hc : IsCell s c) :
    ∃ l, g.getCell c = .ok l ∧ l.Nodup ∧ ∀ i, i ∈ l ↔ ∃ p, s.at_ i = some p ∧ InCell s c p := by
  obtain ⟨cells, hi⟩ := reached_inv h
  have hin : InRange (nreal g.divs) c := by rw [hi.nreal_eq]; exact hc
  refine ⟨_, getCell_ok hi.wf hi.rep hin, hi.rep.nodup _, fun i => ?_⟩
  rw [hi.mem]
  constructor
  · rintro ⟨p, hp, e⟩
    refine ⟨p, hp, (hi.inCell_iff (hi.inside i p hp)).mpr ?_⟩
    exact realCn_inj hin (cellOf_inRange hi.wf (by rw [hi.box]; exact hi.inside i p hp)) e
  · rintro ⟨p, hp, hcell⟩
    exact ⟨p, hp, by rw [(hi.inCell_iff (hi.inside i p hp)).mp hcell]⟩

/-- C01 for listing by position: the cell of any in-box point is listed. -/
theorem C01_cell_at_position {n : Nat} {g : NG} {s : GState} (h : Reached n g s) {q : Vec3 ℝ} (hq : Inside s.box q) :
    ∃ c l, IsCell s c ∧ InCell s c q ∧ g.getCellPos q = .ok l ∧ g.getCell c = .ok l := by
  obtain ⟨cells, hi⟩ := reached_inv h
  have hq' : Inside g.box q := by rw [hi.box]; exact hq
  have hin := cellOf_inRange hi.wf hq'
  refine ⟨g.cellOf q, _, ?_, (hi.inCell_iff hq).mpr rfl, getCellPos_ok hi.wf hi.rep hq', getCell_ok hi.wf hi.rep hin⟩
  have := hin
  rw [hi.nreal_eq] at this
  exact this

/-- The hypotheses are met by a concrete history. -/
theorem sample_reached : ∃ g, Reached 3 g (effectAll ⟨unitBox, 1 / 3, fun _ => none⟩ sampleOps) := by
  obtain ⟨g, e⟩ := C01_history_safe unitBox_ok unitBox_gridSize (n := 3) (by norm_num) sampleOps sampleOps_allowed
  exact ⟨g, _, _, _, _, unitBox_ok, unitBox_gridSize, by norm_num, sampleOps_allowed, e, rfl⟩

example : (effectAll ⟨unitBox, 1 / 3, fun _ => none⟩ sampleOps).at_ 1 = some ⟨1 / 10, 1 / 2, 1 / 2⟩ ∧
    (effectAll ⟨unitBox, 1 / 3, fun _ => none⟩ sampleOps).at_ 0 = none ∧
    IsCell (effectAll ⟨unitBox, 1 / 3, fun _ => none⟩ sampleOps) ⟨0, 1, 1⟩ := by
  refine ⟨rfl, rfl, ?_⟩
  simp only [IsCell, effectAll, sampleOps, List.foldl, GOp.effect, unitBox_cells]
  norm_num

/-! ### C02 -/

/-- C02: the neighbouring-cell enumeration of a point reports every image of every stored object within the cell size,
with the translation which carries the object there; it reports only stored objects with lattice translations; and it
reports nothing twice. -/
theorem C02_enumeration_complete {n : Nat} {g : NG} {s : GState} (h : Reached n g s) {p : Vec3 ℝ} (hp : Inside s.box p) :
    ∃ L, g.getNeighbouringCellsPos p false = .ok L ∧
      (∀ i q (t : Vec3 ℤ), s.at_ i = some q → dist2 p (q + lattice s.box t) ≤ s.cellSize ^ 2 →
        ∃ e ∈ L, e.1 = lattice s.box t ∧ i ∈ e.2) ∧
      (∀ e ∈ L, IsLattice s.box e.1 ∧ ∀ i ∈ e.2, ∃ q, s.at_ i = some q) ∧
      (L.flatMap fun e => e.2.map fun i => (i, e.1)).Nodup := by
  obtain ⟨cells, hi⟩ := reached_inv h
  have hp' : Inside g.box p := by rw [hi.box]; exact hp
  have hin := cellOf_inRange hi.wf hp'
  obtain ⟨L, e, hL⟩ := getNeighbouringCellsPos_ok hi.wf hi.rep hp' false
  refine ⟨L, e, ?_, ?_, ?_⟩
  · intro i q t hq hd
    have hq' : Inside g.box q := by rw [hi.box]; exact hi.inside i q hq
    obtain ⟨d, hdir, hcell, htau⟩ := direction_exists hi.wf (setupSizes_ok hi.size).1 hi.wide hp' hq'
      (by rw [hi.box]; exact hd)
    refine ⟨_, hL.mem_iff.mpr (List.mem_map.mpr ⟨d, mem_dirsOf.mpr ⟨hdir, by simp⟩, rfl⟩), ?_, ?_⟩
    · simp only [htau, hi.box]
    · simp only [hcell]
      exact (hi.mem i _).mpr ⟨q, hq, rfl⟩
  · intro e he
    obtain ⟨d, hd, rfl⟩ := List.mem_map.mp (hL.mem_iff.mp he)
    refine ⟨⟨_, by rw [hi.box]⟩, fun i hi' => ?_⟩
    obtain ⟨q, hq, _⟩ := (hi.mem i _).mp hi'
    exact ⟨q, hq⟩
  · have hperm : (L.flatMap fun e => e.2.map fun i => (i, e.1)).Perm
        (((dirsOf false).flatMap fun n => (cells (realCoordinatesToCellNo g.divs (wrapCell (nreal g.divs) (g.cellOf p) n))).map
          fun i => (i, lattice g.box (tau (nreal g.divs) (g.cellOf p) n)))) := by
      refine (hL.flatMap_right _).trans (List.Perm.of_eq ?_)
      rw [List.flatMap_map]
    rw [hperm.nodup_iff]
    apply nodup_flatMap_of
    · exact dirs_nodup
    · intro d hd
      exact (hi.rep.nodup _).map (fun a b h => by simpa using h)
    · intro d hd d' hd' a ha hb
      obtain ⟨i, hii, rfl⟩ := List.mem_map.mp ha
      obtain ⟨j, hj, ej⟩ := List.mem_map.mp hb
      simp only [Prod.mk.injEq] at ej
      obtain ⟨rfl, et⟩ := ej
      have h1 := (mem_dirsOf.mp hd).1
      have h2 := (mem_dirsOf.mp hd').1
      apply dir_unique hin h1 h2
      · exact realCn_inj (wrapCell_inRange hin h1) (wrapCell_inRange hin h2) (hi.rep.disj _ _ _ hii hj)
      · exact (lattice_inj hi.wf.box et).symm

/-- The hypotheses are met non-trivially: in the sample grid the object stored at x = 0.9 is within 1/3 of the point
x = 0.1 through the face of the box. -/
example : Inside unitBox ⟨1 / 10, 1 / 2, 1 / 2⟩ ∧
    dist2 ⟨1 / 10, 1 / 2, 1 / 2⟩ (⟨9 / 10, 1 / 2, 1 / 2⟩ + lattice unitBox ⟨-1, 0, 0⟩) ≤ (1 / 3) ^ 2 := by
  refine ⟨unitBox_inside (by norm_num) (by norm_num) (by norm_num), ?_⟩
  simp [dist2, lattice, combo, unitBox, Mat3.diag, Mat3.c0, Mat3.c1, Mat3.c2]
  norm_num

/-! ### C03 -/

open Classical in
/-- C03: every pair (object, other object or image) shown by the full enumeration, except an object with itself in the
same image, appears exactly once in exactly one of: the half enumeration, the half enumeration with the roles of the two
objects swapped. -/
theorem C03_half_enumeration {n : Nat} {g : NG} {s : GState} (h : Reached n g s) :
    ∃ F H, fullPairs g = .ok F ∧ halfPairs g = .ok H ∧ F.Nodup ∧
      (F.filter fun p => ¬ (p.1 = p.2.1 ∧ p.2.2 = 0)).Perm (H ++ H.map swapPair) := by
  obtain ⟨cells, hi⟩ := reached_inv h
  obtain ⟨F, eF, pF⟩ := fullPairs_ok hi.wf hi.rep
  obtain ⟨H, eH, pH⟩ := halfPairs_ok hi.wf hi.rep
  have hc := hi.rep.cellsOk
  have hall : ∀ c, c ∈ allCells (nreal g.divs) ↔ InRange (nreal g.divs) c := fun c => mem_allCells
  have hperm := full_perm_half hc (allCells_nodup _) hall
  refine ⟨F, H, eF, eH, ?_, ?_⟩
  · rw [pF.nodup_iff]
    exact (fullT_nodup hc (allCells_nodup _) (fun c h => (hall c).mp h)).map (toReal_inj hi.wf.box)
  · have e1 : (F.filter fun p => ¬ (p.1 = p.2.1 ∧ p.2.2 = 0)).Perm
        (((fullT (nreal g.divs) (fun c => cells (realCoordinatesToCellNo g.divs c)) (allCells (nreal g.divs))).filter
          notSelf).map (toReal g.box)) := by
      refine (pF.filter _).trans (List.Perm.of_eq ?_)
      rw [List.filter_map]
      congr 1
      apply List.filter_congr
      intro p _
      have hz : lattice g.box p.2.2 = 0 ↔ p.2.2 = 0 := by
        constructor
        · intro hz; exact lattice_inj hi.wf.box (by rw [hz, lattice_zero])
        · intro hz; rw [hz, lattice_zero]
      simp only [Function.comp, toReal, notSelf, hz]
      by_cases a : p.1 = p.2.1 <;> by_cases b : p.2.2 = 0 <;> simp [a, b]
    refine e1.trans ((hperm.map _).trans ?_)
    rw [List.map_append, List.map_map]
    apply List.Perm.append pH.symm
    refine List.Perm.trans ?_ (pH.symm.map swapPair)
    rw [List.map_map]
    apply List.Perm.of_eq
    apply List.map_congr_left
    intro p _
    simp [toReal, flip3, swapPair, lattice_neg]

/-! ### C04 -/

/-- C04, numbering: cell numbers below the number of cells and coordinates below the divisions are in one-to-one
correspondence. -/
theorem C04_numbering (d : Vec3 Nat) :
    (∀ c : Vec3 Nat, c.x < d.x → c.y < d.y → c.z < d.z → coordinatesToCellNo d c < d.x * d.y * d.z ∧
      cellNoToCoordinates d (coordinatesToCellNo d c) = c) ∧
    (∀ k, k < d.x * d.y * d.z → coordinatesToCellNo d (cellNoToCoordinates d k) = k ∧
      (cellNoToCoordinates d k).x < d.x ∧ (cellNoToCoordinates d k).y < d.y ∧ (cellNoToCoordinates d k).z < d.z) := by
  refine ⟨fun c hx hy hz => ⟨cn_lt ⟨hx, hy, hz⟩, coords_cn ⟨hx, hy, hz⟩⟩, fun k hk => ⟨cn_coords hk, ?_⟩⟩
  have := coords_inRange (d := d) hk
  exact this

example : coordinatesToCellNo ⟨5, 4, 3⟩ ⟨3, 2, 1⟩ = 33 ∧ cellNoToCoordinates ⟨5, 4, 3⟩ 33 = ⟨3, 2, 1⟩ := by decide

/-- The tolerance accepted outside of the box, in relative coordinates (ten units of double precision). -/
noncomputable def relTolerance : ℝ := 10 * 2 ^ (-52 : ℤ)

theorem EPSILON_eq : EPSILON = relTolerance := by
  unfold EPSILON relTolerance; norm_num

private theorem positionCoord_tol {r : ℝ} {d : Nat} (hd : 3 ≤ d) (h : -relTolerance < r ∧ r < 1 + relTolerance) :
    ∃ k, positionCoord r d = .ok k ∧ 1 ≤ k ∧ k + 2 ≤ d := by
  have hN : 0 < d - 2 := by omega
  have fin : ∀ r' : ℝ, 0 ≤ r' → r' < 1 → 1 ≤ ⌊r' / (1 / ((d - 2 : Nat) : ℝ))⌋.toNat + 1 ∧
      ⌊r' / (1 / ((d - 2 : Nat) : ℝ))⌋.toNat + 1 + 2 ≤ d := by
    intro r' h0 h1
    have := floor_lt h0 h1 hN
    rw [div_div_eq_mul_div, div_one]
    omega
  have he : EPSILON = relTolerance := EPSILON_eq
  have hpos : 0 < EPSILON ∧ EPSILON < 1 := by unfold EPSILON; norm_num
  unfold positionCoord
  split
  · rw [if_pos (by rw [he]; exact h.1)]
    exact ⟨_, rfl, fin 0 le_rfl one_pos⟩
  · split
    · rw [if_pos (by rw [he]; exact h.2)]
      exact ⟨_, rfl, fin _ (by linarith) (by linarith)⟩
    · exact ⟨_, rfl, fin r (by linarith) (by linarith)⟩

private theorem positionCoord_throw {r : ℝ} {d : Nat} (h : ¬ (-relTolerance < r ∧ r < 1 + relTolerance)) :
    ∃ e, positionCoord r d = .throw e := by
  have he : EPSILON = relTolerance := EPSILON_eq
  have hpos : 0 < relTolerance := by rw [← he]; unfold EPSILON; norm_num
  unfold positionCoord
  rcases not_and_or.mp h with h | h
  · rw [if_pos (by linarith), if_neg (by rw [he]; exact h)]; exact ⟨_, rfl⟩
  · rw [if_neg (by linarith), if_pos (by linarith), if_neg (by rw [he]; exact h)]; exact ⟨_, rfl⟩

/-- C04, positions: a point whose relative coordinates are within the tolerance of the box gets the number of a real cell
(neither coordinate first nor last), any other point is rejected by an exception. -/
theorem C04_positions (b : Box) (d : Vec3 Nat) (hd : 3 ≤ d.x ∧ 3 ≤ d.y ∧ 3 ≤ d.z) (p : Vec3 ℝ) :
    ((∀ r ∈ [(b.absToRel p).x, (b.absToRel p).y, (b.absToRel p).z], -relTolerance < r ∧ r < 1 + relTolerance) →
      ∃ c : Vec3 Nat, positionToCellNo b d p = .ok (coordinatesToCellNo d c) ∧ (0 < c.x ∧ c.x < d.x - 1) ∧
        (0 < c.y ∧ c.y < d.y - 1) ∧ (0 < c.z ∧ c.z < d.z - 1)) ∧
    (¬ (∀ r ∈ [(b.absToRel p).x, (b.absToRel p).y, (b.absToRel p).z], -relTolerance < r ∧ r < 1 + relTolerance) →
      ∃ e, positionToCellNo b d p = .throw e) := by
  simp only [List.forall_mem_cons, List.not_mem_nil, false_imp_iff, implies_true, and_true]
  constructor
  · rintro ⟨hx, hy, hz⟩
    obtain ⟨kx, ex, x1, x2⟩ := positionCoord_tol hd.1 hx
    obtain ⟨ky, ey, y1, y2⟩ := positionCoord_tol hd.2.1 hy
    obtain ⟨kz, ez, z1, z2⟩ := positionCoord_tol hd.2.2 hz
    refine ⟨⟨kx, ky, kz⟩, ?_, ?_⟩
    · simp only [positionToCellNo, ex, ey, ez, Outcome.ok_bind, coordinatesToCellNo]; rfl
    · simp only; omega
  · intro h
    unfold positionToCellNo
    by_cases hz : -relTolerance < (b.absToRel p).z ∧ (b.absToRel p).z < 1 + relTolerance
    · obtain ⟨kz, ez, _⟩ := positionCoord_tol hd.2.2 hz
      by_cases hy : -relTolerance < (b.absToRel p).y ∧ (b.absToRel p).y < 1 + relTolerance
      · obtain ⟨ky, ey, _⟩ := positionCoord_tol hd.2.1 hy
        have hx : ¬ (-relTolerance < (b.absToRel p).x ∧ (b.absToRel p).x < 1 + relTolerance) := fun hx => h ⟨hx, hy, hz⟩
        obtain ⟨e, he⟩ := positionCoord_throw (d := d.x) hx
        exact ⟨e, by simp only [ez, ey, he, Outcome.ok_bind, Outcome.throw_bind]⟩
      · obtain ⟨e, he⟩ := positionCoord_throw (d := d.y) hy
        exact ⟨e, by simp only [ez, he, Outcome.ok_bind, Outcome.throw_bind]⟩
    · obtain ⟨e, he⟩ := positionCoord_throw (d := d.z) hz
      exact ⟨e, by simp only [he, Outcome.throw_bind]⟩

example : Inside unitBox ⟨1 / 2, 0, 3 / 4⟩ := unitBox_inside (by norm_num) (by norm_num) (by norm_num)

/-- C04, neighbours: in a reachable grid the stored wrapped offsets lead from any real cell exactly to the 27 cells
around it (all of which exist), in spite of the unsigned wrap-around. -/
theorem C04_neighbours {n : Nat} {g : NG} {s : GState} (h : Reached n g s) {c : Vec3 Nat}
    (hx : 0 < c.x ∧ c.x < g.divs.x - 1) (hy : 0 < c.y ∧ c.y < g.divs.y - 1) (hz : 0 < c.z ∧ c.z < g.divs.z - 1) :
    (g.offs.map fun o => (coordinatesToCellNo g.divs c + o) % 2 ^ 64).Perm
      (([0, 1, 2].flatMap fun k => [0, 1, 2].flatMap fun j => [0, 1, 2].map fun i =>
        coordinatesToCellNo g.divs ⟨c.x + i - 1, c.y + j - 1, c.z + k - 1⟩)) ∧
    ∀ o ∈ g.offs, (coordinatesToCellNo g.divs c + o) % 2 ^ 64 < g.numCells := by
  obtain ⟨cells, hi⟩ := reached_inv h
  have hreal : IsReal g.divs c := by unfold IsReal; omega
  have key : ∀ o ∈ g.offs, ∃ nb, IsDir nb ∧ (coordinatesToCellNo g.divs c + o) % 2 ^ 64 =
      coordinatesToCellNo g.divs (sh c nb) := by
    intro o ho
    obtain ⟨nb, hn, rfl⟩ := List.mem_map.mp (hi.wf.offs.mem_iff.mp ho)
    exact ⟨nb, mem_dirs.mp hn, add_offset hi.wf.d3 hi.wf.small hreal (mem_dirs.mp hn)⟩
  refine ⟨?_, ?_⟩
  · refine (hi.wf.offs.map _).trans (List.Perm.of_eq ?_)
    rw [List.map_map]
    have e : ([0, 1, 2].flatMap fun k => [0, 1, 2].flatMap fun j => [0, 1, 2].map fun i =>
        coordinatesToCellNo g.divs ⟨c.x + i - 1, c.y + j - 1, c.z + k - 1⟩) =
        dirs.map fun nb => coordinatesToCellNo g.divs (sh c nb) := rfl
    rw [e]
    apply List.map_congr_left
    intro nb hn
    exact add_offset hi.wf.d3 hi.wf.small hreal (mem_dirs.mp hn)
  · intro o ho
    obtain ⟨nb, hd, e⟩ := key o ho
    rw [e, hi.wf.num]
    exact cn_lt (sh_inRange hreal hd)

end Rampack
