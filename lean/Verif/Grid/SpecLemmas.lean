import Verif.Grid.Spec
import Verif.Grid.PairLemmas
/-
Helper lemmas connecting the grid model with its specification.
-/
namespace Rampack.Grid

open Rampack.Spec

/-- The relation between a grid and what the user knows about it. -/
structure GInv (n : Nat) (g : NG) (s : GState) (cells : Nat → List Nat) : Prop where
  wf : GWF g
  rep : Rep g cells
  box : g.box = s.box
  size : setupSizes s.box s.cellSize = .ok g.divs
  len : g.succ.length = n
  inside : ∀ i p, s.at_ i = some p → Inside s.box p
  mem : ∀ i c, i ∈ cells c ↔ ∃ p, s.at_ i = some p ∧ c = realCoordinatesToCellNo g.divs (g.cellOf p)

theorem gridSize_setup {b : Box} {cs : ℝ} (hb : b.WF) (h : GridSize b cs) :
    setupSizes b cs = .ok ⟨(cellsAlong b cs).x + 2, (cellsAlong b cs).y + 2, (cellsAlong b cs).z + 2⟩ :=
  setupSizes_of hb h.1 h.2.1 h.2.2.1 h.2.2.2.1

theorem gridSize_small {b : Box} {cs : ℝ} (h : GridSize b cs) :
    Small ⟨(cellsAlong b cs).x + 2, (cellsAlong b cs).y + 2, (cellsAlong b cs).z + 2⟩ := h.2.2.2.2

theorem create_inv {m : Mat3} {b : Box} {cs : ℝ} {n : Nat} (hb : Box.make m = .ok b) (hs : GridSize b cs)
    (hn : n < 2 ^ 64) : ∃ g, NG.create b cs n = .ok g ∧ GInv n g ⟨b, cs, fun _ => none⟩ (fun _ => []) := by
  have hw := (Box.make_wf hb).1
  obtain ⟨g, e, w, eb, ed, el, r⟩ := create_ok hw (gridSize_setup hw hs) (gridSize_small hs) (n := n) (by unfold LIST_END SIZE; omega)
  refine ⟨g, e, w, r, eb, ?_, el, by simp, by simp⟩
  rw [ed]; exact gridSize_setup hw hs

theorem cellOf_congr {g g' : NG} (hb : g'.box = g.box) (hd : g'.divs = g.divs) (p : Vec3 ℝ) : g'.cellOf p = g.cellOf p := by
  simp only [NG.cellOf, hb, hd]

theorem call_inv {n : Nat} {g : NG} {s : GState} {cells : Nat → List Nat} (h : GInv n g s cells) {op : GOp}
    (ha : op.Allowed n s) : ∃ g' cells', op.call g = .ok g' ∧ GInv n g' (op.effect s) cells' := by
  cases op with
  | add i p =>
    obtain ⟨hi, hnone, hp⟩ := ha
    have hfree : ∀ c, i ∉ cells c := by
      intro c hc
      obtain ⟨q, hq, _⟩ := (h.mem i c).mp hc
      rw [hnone] at hq; cases hq
    obtain ⟨g', e, w, eb, ed, el, r⟩ := add_ok h.wf h.rep (by rw [h.box]; exact hp) (by rw [h.len]; exact hi) hfree
    refine ⟨g', _, e, w, r, by rw [eb, h.box]; rfl, by rw [ed]; exact h.size, by rw [el, h.len], ?_, ?_⟩
    · intro j q hq
      simp only [GOp.effect] at hq
      split at hq
      · cases hq; exact hp
      · exact h.inside j q hq
    · intro j c
      simp only [ed, cellOf_congr eb ed, GOp.effect]
      by_cases hc : c = realCoordinatesToCellNo g.divs (g.cellOf p)
      · subst hc
        rw [Function.update_self, List.mem_cons]
        by_cases hj : j = i
        · subst hj; simp
        · simp [hj, h.mem]
      · rw [Function.update_of_ne hc]
        by_cases hj : j = i
        · subst hj; simp [hfree, hc]
        · simp [hj, h.mem]
  | remove i p =>
    obtain ⟨hi, hp, hwh⟩ := ha
    obtain ⟨g', e, w, eb, ed, el, r⟩ := remove_ok h.wf h.rep (i := i) (by rw [h.box]; exact hp) (by rw [h.len]; exact hi)
    refine ⟨g', _, e, w, r, by rw [eb, h.box]; rfl, by rw [ed]; exact h.size, by rw [el, h.len], ?_, ?_⟩
    · intro j q hq
      simp only [GOp.effect] at hq
      split at hq
      · cases hq
      · exact h.inside j q hq
    · intro j c
      simp only [ed, cellOf_congr eb ed, GOp.effect]
      by_cases hc : c = realCoordinatesToCellNo g.divs (g.cellOf p)
      · subst hc
        rw [Function.update_self, (h.rep.nodup _).mem_erase_iff]
        by_cases hj : j = i
        · subst hj; simp
        · simp [hj, h.mem]
      · rw [Function.update_of_ne hc, h.mem]
        by_cases hj : j = i
        · subst hj
          simp only [if_true]
          constructor
          · rintro ⟨q, hq, e⟩
            rcases hwh with h0 | h0
            · rw [h0] at hq; cases hq
            · rw [h0] at hq; cases hq; exact absurd e hc
          · rintro ⟨q, hq, _⟩; cases hq
        · simp [hj]
  | clear =>
    refine ⟨g.clear, fun _ => [], rfl, h.wf.clear, rep_clear g h.rep.succ_le, h.box, h.size, ?_, ?_, ?_⟩
    · simpa [NG.clear] using h.len
    · intro i p hp; simp [GOp.effect] at hp
    · intro i c; simp [GOp.effect]
  | resize b cs =>
    obtain ⟨⟨m, hb⟩, hs⟩ := ha
    have hw := (Box.make_wf hb).1
    obtain ⟨g', e, w, eb, ed, el, r⟩ := resize_ok h.wf h.rep hw (gridSize_setup hw hs) (gridSize_small hs)
    refine ⟨g', fun _ => [], ?_, w, r, eb, ?_, by rw [el, h.len], ?_, ?_⟩
    · simp only [GOp.call, e]; rfl
    · rw [ed]; exact gridSize_setup hw hs
    · intro i p hp; simp [GOp.effect] at hp
    · intro i c; simp [GOp.effect]

theorem callAll_inv {n : Nat} : ∀ {ops : List GOp} {g : NG} {s : GState} {cells : Nat → List Nat}, GInv n g s cells →
    AllowedAll n s ops → ∃ g' cells', callAll g ops = .ok g' ∧ GInv n g' (effectAll s ops) cells'
  | [], g, _, cells, h, _ => ⟨g, cells, rfl, h⟩
  | op :: ops, g, s, cells, h, ⟨ha, hall⟩ => by
    obtain ⟨g1, c1, e1, h1⟩ := call_inv h ha
    obtain ⟨g2, c2, e2, h2⟩ := callAll_inv h1 hall
    refine ⟨g2, c2, ?_, h2⟩
    rw [callAll, List.foldlM_cons, e1, Outcome.ok_bind]
    exact e2

theorem reached_inv {n : Nat} {g : NG} {s : GState} (h : Reached n g s) : ∃ cells, GInv n g s cells := by
  obtain ⟨m, b, cs, ops, hb, hs, hn, ha, he, rfl⟩ := h
  obtain ⟨g0, e0, h0⟩ := create_inv hb hs hn
  obtain ⟨g1, c1, e1, h1⟩ := callAll_inv h0 ha
  rw [e0, Outcome.ok_bind, e1] at he
  cases he
  exact ⟨c1, h1⟩

theorem GInv.nreal_eq {n : Nat} {g : NG} {s : GState} {cells : Nat → List Nat} (h : GInv n g s cells) :
    nreal g.divs = cellsAlong s.box s.cellSize := by
  obtain ⟨-, -, e, -⟩ := setupSizes_ok h.size
  rw [e]; rfl

theorem floor_eq_iff_cell {r : ℝ} {N c : Nat} (hN : 0 < N) (h0 : 0 ≤ r) :
    c = ⌊r * N⌋.toNat ↔ (c : ℝ) / N ≤ r ∧ r < ((c : ℝ) + 1) / N := by
  have hN' : (0 : ℝ) < N := by exact_mod_cast hN
  have hnn : 0 ≤ ⌊r * N⌋ := Int.floor_nonneg.mpr (by positivity)
  have : c = ⌊r * N⌋.toNat ↔ ⌊r * N⌋ = (c : ℤ) := by omega
  rw [this, Int.floor_eq_iff, div_le_iff₀ hN', lt_div_iff₀ hN']
  push_cast
  rfl

theorem GInv.inCell_iff {n : Nat} {g : NG} {s : GState} {cells : Nat → List Nat} (h : GInv n g s cells) {p : Vec3 ℝ}
    (hp : Inside s.box p) {c : Vec3 Nat} : InCell s c p ↔ c = g.cellOf p := by
  have hw : s.box.WF := h.box ▸ h.wf.box
  have hu := (inside_unit hw).mp hp
  have hN := h.wf.d3.nreal_pos
  have key : c = g.cellOf p ↔
    (c.x / (nreal g.divs).x ≤ (s.box.absToRel p).x ∧ (s.box.absToRel p).x < (c.x + 1) / (nreal g.divs).x) ∧
    (c.y / (nreal g.divs).y ≤ (s.box.absToRel p).y ∧ (s.box.absToRel p).y < (c.y + 1) / (nreal g.divs).y) ∧
    (c.z / (nreal g.divs).z ≤ (s.box.absToRel p).z ∧ (s.box.absToRel p).z < (c.z + 1) / (nreal g.divs).z) := by
    rw [← floor_eq_iff_cell hN.1 hu.1.1, ← floor_eq_iff_cell hN.2.1 hu.2.1.1, ← floor_eq_iff_cell hN.2.2 hu.2.2.1]
    rw [Vec3.ext_iff]
    simp only [NG.cellOf, cellCoord, h.box]
  rw [key, InCell, h.nreal_eq]
  constructor
  · rintro ⟨r, e, hr⟩
    have : s.box.absToRel p = r := by rw [e, ← Box.relToAbs_eq_combo, Box.absToRel_relToAbs hw]
    rw [this]; exact hr
  · intro hr
    exact ⟨s.box.absToRel p, by rw [← Box.relToAbs_eq_combo, Box.relToAbs_absToRel hw], hr⟩

theorem lattice_inj {b : Box} (hw : b.WF) {t t' : Vec3 ℤ} (h : lattice b t = lattice b t') : t = t' := by
  have := congrArg b.absToRel h
  rw [Box.absToRel_lattice hw, Box.absToRel_lattice hw] at this
  simp only [Vec3.map, Vec3.mk.injEq, Int.cast_inj] at this
  ext
  · exact this.1
  · exact this.2.1
  · exact this.2.2

theorem floor_diff {a b : ℝ} (h : |a - b| ≤ 1) : -1 ≤ ⌊a⌋ - ⌊b⌋ ∧ ⌊a⌋ - ⌊b⌋ ≤ 1 := by
  rw [abs_le] at h
  have h1 : ⌊a⌋ ≤ ⌊b + 1⌋ := Int.floor_le_floor (by linarith)
  have h2 : ⌊b⌋ ≤ ⌊a + 1⌋ := Int.floor_le_floor (by linarith)
  rw [Int.floor_add_one] at h1 h2
  omega

/-- One axis: a point at distance at most one cell from an image is reached in one step. -/
theorem dir1 {N : Nat} {r s : ℝ} {t : ℤ} (hN : 0 < N) (hr : 0 ≤ r ∧ r < 1) (hs : 0 ≤ s ∧ s < 1)
    (hd : |s + t - r| * N ≤ 1) :
    ∃ n, n ≤ 2 ∧ wrap1 N ⌊r * N⌋.toNat n = ⌊s * N⌋.toNat ∧ tau1 N ⌊r * N⌋.toNat n = t := by
  have hN' : (0 : ℝ) < N := by exact_mod_cast hN
  have e : (s + t) * N - r * N = (s + t - r) * N := by ring
  have h1 := floor_diff (a := (s + t) * N) (b := r * N) (by rw [e, abs_mul, abs_of_pos hN']; exact hd)
  have e2 : (s + t) * N = s * N + ((t * N : ℤ) : ℝ) := by push_cast; ring
  rw [e2, Int.floor_add_intCast] at h1
  have hr1 := floor_lt hr.1 hr.2 hN
  have hs1 := floor_lt hs.1 hs.2 hN
  have hr0 : 0 ≤ ⌊r * N⌋ := Int.floor_nonneg.mpr (mul_nonneg hr.1 hN'.le)
  have hs0 : 0 ≤ ⌊s * N⌋ := Int.floor_nonneg.mpr (mul_nonneg hs.1 hN'.le)
  obtain ⟨a, ha⟩ := Int.eq_ofNat_of_zero_le hr0
  obtain ⟨b, hb⟩ := Int.eq_ofNat_of_zero_le hs0
  rw [ha] at h1 hr1 ⊢
  rw [hb] at h1 hs1 ⊢
  simp only [Int.toNat_natCast] at *
  -- now integers
  have hn0 : 0 ≤ (b : ℤ) + t * N - a + 1 := by omega
  obtain ⟨n, hn⟩ := Int.eq_ofNat_of_zero_le hn0
  have hn2 : n ≤ 2 := by omega
  refine ⟨n, hn2, ?_⟩
  obtain ⟨q1, q2, q3, q4⟩ := wrap_tau_eq hr1 hn2
  generalize wrap1 N a n = w at *
  generalize tau1 N a n = u at *
  have key : (w : ℤ) + N * u = b + N * t := by rw [q1]; linarith
  have hut : u = t := by
    by_contra hne
    rcases lt_or_gt_of_ne hne with hlt | hgt
    · have : (N : ℤ) * (t - u) ≥ N := by
        have : 1 ≤ t - u := by omega
        nlinarith
      have : (N : ℤ) * (t - u) = w - b := by linarith
      omega
    · have : (N : ℤ) * (u - t) ≥ N := by
        have : 1 ≤ u - t := by omega
        nlinarith
      have : (N : ℤ) * (u - t) = b - w := by linarith
      omega
  subst hut
  exact ⟨by omega, rfl⟩

theorem rel_bound {h r cs dist : ℝ} {N : Nat} (hcs : 0 < cs) (h1 : |r| * h ≤ dist) (h2 : dist ≤ cs) (h3 : N * cs ≤ h) :
    |r| * N ≤ 1 := by
  have : |r| * (N * cs) ≤ |r| * h := mul_le_mul_of_nonneg_left h3 (abs_nonneg r)
  have h4 : |r| * N * cs ≤ cs := by nlinarith
  by_contra hc
  push Not at hc
  nlinarith

theorem norm_le_of_norm2_le {v : Vec3 ℝ} {c : ℝ} (hc : 0 ≤ c) (h : v.norm2 ≤ c ^ 2) : v.norm ≤ c := by
  unfold Vec3.norm
  exact Real.sqrt_le_iff.mpr ⟨hc, h⟩

/-- Every image within the cell size is in a neighbouring cell, with the right translation. -/
theorem direction_exists {g : NG} (hw : GWF g) {cs : ℝ} (hcs : 0 < cs) (hwide : Wide g cs) {p q : Vec3 ℝ} {t : Vec3 ℤ}
    (hp : Inside g.box p) (hq : Inside g.box q) (hd : dist2 p (q + lattice g.box t) ≤ cs ^ 2) :
    ∃ n, IsDir n ∧ wrapCell (nreal g.divs) (g.cellOf p) n = g.cellOf q ∧ tau (nreal g.divs) (g.cellOf p) n = t := by
  have hpu := (inside_unit hw.box).mp hp
  have hqu := (inside_unit hw.box).mp hq
  have hN := hw.d3.nreal_pos
  have e : dist2 p (q + lattice g.box t) = (q + lattice g.box t - p).norm2 := by
    simp only [dist2, Vec3.norm2, Vec3.dot, Vec3.sub_x, Vec3.sub_y, Vec3.sub_z]; ring
  rw [e] at hd
  have hn := norm_le_of_norm2_le hcs.le hd
  obtain ⟨bx, bY, bz⟩ := Box.height_mul_rel_le hw.box (q + lattice g.box t - p)
  rw [Box.absToRel_sub, Box.absToRel_add, Box.absToRel_lattice hw.box] at bx bY bz
  simp only [Vec3.sub_x, Vec3.add_x, Vec3.map_x, Vec3.sub_y, Vec3.add_y, Vec3.map_y, Vec3.sub_z, Vec3.add_z,
    Vec3.map_z] at bx bY bz
  obtain ⟨nx, hx, hx1, hx2⟩ := dir1 hN.1 hpu.1 hqu.1 (rel_bound hcs bx hn hwide.1)
  obtain ⟨ny, hy, hy1, hy2⟩ := dir1 hN.2.1 hpu.2.1 hqu.2.1 (rel_bound hcs bY hn hwide.2.1)
  obtain ⟨nz, hz, hz1, hz2⟩ := dir1 hN.2.2 hpu.2.2 hqu.2.2 (rel_bound hcs bz hn hwide.2.2)
  refine ⟨⟨nx, ny, nz⟩, ⟨hx, hy, hz⟩, ?_, ?_⟩
  · simp only [wrapCell, NG.cellOf, cellCoord, hx1, hy1, hz1]
  · simp only [tau, NG.cellOf, cellCoord, hx2, hy2, hz2]

theorem GInv.wide {n : Nat} {g : NG} {s : GState} {cells : Nat → List Nat} (h : GInv n g s cells) :
    Wide g s.cellSize := by
  have := wide_of_setup h.size
  unfold Wide; rw [h.box]; exact this

theorem mem_allCells {N c : Vec3 Nat} : c ∈ allCells N ↔ InRange N c := by
  simp only [allCells, List.mem_flatMap, List.mem_range, List.mem_map, InRange]
  constructor
  · rintro ⟨i, hi, j, hj, k, hk, rfl⟩; exact ⟨hi, hj, hk⟩
  · rintro ⟨hi, hj, hk⟩; exact ⟨c.x, hi, c.y, hj, c.z, hk, rfl⟩

theorem allCells_nodup (N : Vec3 Nat) : (allCells N).Nodup := by
  apply nodup_flatMap_of List.nodup_range
  · intro i _
    apply nodup_flatMap_of List.nodup_range
    · intro j _; exact List.nodup_range.map (fun a b h => by simpa using h)
    · intro j _ j' _ a ha hb
      obtain ⟨k, _, rfl⟩ := List.mem_map.mp ha
      obtain ⟨k', _, e⟩ := List.mem_map.mp hb
      simp only [Vec3.mk.injEq] at e; exact e.2.1.symm
  · intro i _ i' _ a ha hb
    simp only [List.mem_flatMap, List.mem_map] at ha hb
    obtain ⟨j, _, k, _, rfl⟩ := ha
    obtain ⟨j', _, k', _, e⟩ := hb
    simp only [Vec3.mk.injEq] at e; exact e.1.symm

theorem listPairs_eq : ∀ l : List Nat, listPairs l = pairs l
  | [] => rfl
  | a :: l => by rw [listPairs, pairs, listPairs_eq l]

/-- The real translation of an integer one. -/
noncomputable def toReal (b : Box) (p : Triple) : Nat × Nat × Vec3 ℝ := (p.1, p.2.1, lattice b p.2.2)

theorem toReal_inj {b : Box} (hw : b.WF) : Function.Injective (toReal b) := by
  intro p q h
  obtain ⟨i, j, t⟩ := p
  obtain ⟨i', j', t'⟩ := q
  simp only [toReal, Prod.mk.injEq] at h
  rw [h.1, h.2.1, lattice_inj hw h.2.2]

theorem lattice_neg (b : Box) (t : Vec3 ℤ) : lattice b (-t) = -lattice b t := by
  rw [lattice, lattice, ← Box.relToAbs_eq_combo, ← Box.relToAbs_eq_combo, ← Box.relToAbs_neg]
  congr 1
  ext <;> simp [Vec3.map]

theorem lattice_zero (b : Box) : lattice b 0 = 0 := by
  rw [lattice, ← Box.relToAbs_eq_combo]
  have : (Vec3.map (fun k : ℤ => (k : ℝ)) 0) = 0 := by ext <;> simp [Vec3.map]
  rw [this]; exact Mat3.mulVec_zero _

theorem flatMap_perm_flatMap {α β : Type} {l l' : List α} (f : α → List β) (h : l.Perm l') :
    (l.flatMap f).Perm (l'.flatMap f) := h.flatMap_right f

theorem mapM_ok' {α β : Type} {f : α → Outcome β} {P : α → β → Prop} :
    ∀ {l : List α}, (∀ a ∈ l, ∃ b, f a = .ok b ∧ P a b) → ∃ bs, l.mapM f = .ok bs ∧ List.Forall₂ P l bs
  | [], _ => ⟨[], rfl, .nil⟩
  | a :: l, h => by
    obtain ⟨b, e, hp⟩ := h a (by simp)
    obtain ⟨bs, e2, h2⟩ := mapM_ok' (l := l) (fun x hx => h x (by simp [hx]))
    exact ⟨b :: bs, by rw [List.mapM_cons, e, Outcome.ok_bind, e2]; rfl, .cons hp h2⟩

theorem flatten_perm {α β : Type} {f : α → List β} : ∀ {l : List α} {bs : List (List β)},
    List.Forall₂ (fun a b => b.Perm (f a)) l bs → bs.flatten.Perm (l.flatMap f)
  | _, _, .nil => by simp
  | _, _, .cons h hs => by
    rw [List.flatten_cons, List.flatMap_cons]
    exact h.append (flatten_perm hs)

theorem enum_perm (b : Box) (N : Vec3 Nat) (cells : Vec3 Nat → List Nat) (c : Vec3 Nat) (ds : List (Vec3 Nat))
    {nbs : List (Vec3 ℝ × List Nat)}
    (h : nbs.Perm (ds.map fun n => (lattice b (tau N c n), cells (wrapCell N c n)))) :
    ((cells c).flatMap fun i => nbs.flatMap fun e => e.2.map fun j => (i, j, e.1)).Perm
      ((fromCell N cells ds c).map (toReal b)) := by
  rw [fromCell, List.map_flatMap]
  apply List.Perm.flatMap_left
  intro i _
  refine (h.flatMap_right _).trans (List.Perm.of_eq ?_)
  rw [List.flatMap_map, List.map_flatMap]
  congr 1
  funext n
  rw [List.map_map]
  rfl

theorem fullPairs_ok {g : NG} {cells : Nat → List Nat} (hw : GWF g) (hr : Rep g cells) : ∃ F, fullPairs g = .ok F ∧
    F.Perm ((fullT (nreal g.divs) (fun c => cells (realCoordinatesToCellNo g.divs c)) (allCells (nreal g.divs))).map
      (toReal g.box)) := by
  obtain ⟨bs, e, hf⟩ := mapM_ok' (l := allCells g.getCellDivisions) (f := fun c => do
    let ids ← g.getCell c
    let nbs ← g.getNeighbouringCells c false
    return ids.flatMap fun i => nbs.flatMap fun e => e.2.map fun j => (i, j, e.1))
    (P := fun c b => b.Perm ((fromCell (nreal g.divs) (fun c => cells (realCoordinatesToCellNo g.divs c)) dirs c).map
      (toReal g.box))) (by
      intro c hc
      have hin : InRange (nreal g.divs) c := mem_allCells.mp hc
      obtain ⟨L, e, hp⟩ := getNeighbouringCells_ok hw hr hin false
      refine ⟨_, by rw [getCell_ok hw hr hin, Outcome.ok_bind, e, Outcome.ok_bind]; rfl, ?_⟩
      exact enum_perm g.box (nreal g.divs) (fun c => cells (realCoordinatesToCellNo g.divs c)) c dirs hp)
  refine ⟨bs.flatten, by rw [fullPairs, e]; rfl, ?_⟩
  rw [fullT, List.map_flatMap]
  exact flatten_perm hf

theorem halfPairs_ok {g : NG} {cells : Nat → List Nat} (hw : GWF g) (hr : Rep g cells) : ∃ H, halfPairs g = .ok H ∧
    H.Perm ((halfT (nreal g.divs) (fun c => cells (realCoordinatesToCellNo g.divs c)) (allCells (nreal g.divs))).map
      (toReal g.box)) := by
  obtain ⟨bs, e, hf⟩ := mapM_ok' (l := allCells g.getCellDivisions) (f := fun c => do
    let ids ← g.getCell c
    let nbs ← g.getNeighbouringCells c true
    return (listPairs ids).map (fun p => (p.1, p.2, (0 : Vec3 ℝ))) ++
      ids.flatMap fun i => nbs.flatMap fun e => e.2.map fun j => (i, j, e.1))
    (P := fun c b => b.Perm (((pairs (cells (realCoordinatesToCellNo g.divs c))).map
      (fun p => (p.1, p.2, (0 : Vec3 Int))) ++
      fromCell (nreal g.divs) (fun c => cells (realCoordinatesToCellNo g.divs c)) (dirs.filter isPos) c).map
      (toReal g.box))) (by
      intro c hc
      have hin : InRange (nreal g.divs) c := mem_allCells.mp hc
      obtain ⟨L, e, hp⟩ := getNeighbouringCells_ok hw hr hin true
      refine ⟨_, by rw [getCell_ok hw hr hin, Outcome.ok_bind, e, Outcome.ok_bind]; rfl, ?_⟩
      rw [List.map_append, List.map_map, listPairs_eq]
      apply List.Perm.append
      · apply List.Perm.of_eq
        apply List.map_congr_left
        intro p _
        simp [toReal, lattice_zero]
      · exact enum_perm g.box (nreal g.divs) (fun c => cells (realCoordinatesToCellNo g.divs c)) c
          (dirs.filter isPos) hp)
  refine ⟨bs.flatten, by rw [halfPairs, e]; rfl, ?_⟩
  rw [halfT, List.map_flatMap]
  exact flatten_perm hf

end Rampack.Grid
