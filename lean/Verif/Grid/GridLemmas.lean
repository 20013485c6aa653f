import Verif.Grid.IndexLemmas
import Verif.Box.Props
/-
Helper lemmas: the invariant of the neighbour grid, its preservation, and what enumeration returns.
-/
namespace Rampack.Grid

open Rampack.Spec

/-- Invariant of the index tables of a grid. -/
structure GWF (g : NG) : Prop where
  box : g.box.WF
  d3 : Divs3 g.divs
  small : Small g.divs
  num : g.numCells = total g.divs
  heads : total g.divs ≤ g.heads.length
  rlen : total g.divs ≤ g.reflected.length
  tlen : total g.divs ≤ g.transIdx.length
  refl : ∀ n, n < total g.divs → g.reflected[n]? = some (getReflectedCellData g.divs n).1
  tr : ∀ n, n < total g.divs → g.transIdx[n]? = some (getReflectedCellData g.divs n).2
  offs : g.offs.Perm (dirs.map (offset g.divs))
  pos : g.posOffs.Perm ((dirs.filter isPos).map (offset g.divs))

theorem GWF.congr {g g' : NG} (h : GWF g) (hh : g'.heads.length = g.heads.length)
    (e : g' = { g with heads := g'.heads, succ := g'.succ }) : GWF g' := by
  rw [e]
  exact ⟨h.box, h.d3, h.small, h.num, by simpa [hh] using h.heads, h.rlen, h.tlen, h.refl, h.tr, h.offs, h.pos⟩

theorem GWF.clear {g : NG} (h : GWF g) : GWF g.clear :=
  h.congr (by simp [NG.clear]) (by simp [NG.clear])

/-- The coordinates (zero-based) of the real cell of a point with the given relative coordinates. -/
noncomputable def cellCoord (N : Vec3 Nat) (rel : Vec3 ℝ) : Vec3 Nat :=
  ⟨⌊rel.x * N.x⌋.toNat, ⌊rel.y * N.y⌋.toNat, ⌊rel.z * N.z⌋.toNat⟩

theorem floor_lt {r : ℝ} {N : Nat} (h0 : 0 ≤ r) (h1 : r < 1) (hN : 0 < N) : ⌊r * N⌋.toNat < N := by
  have hN' : (0 : ℝ) < N := by exact_mod_cast hN
  have : ⌊r * N⌋ < (N : ℤ) := by
    rw [Int.floor_lt]; push_cast; nlinarith
  have : 0 ≤ ⌊r * N⌋ := Int.floor_nonneg.mpr (by positivity)
  omega

theorem positionCoord_ok {r : ℝ} {d : Nat} (h0 : 0 ≤ r) (h1 : r < 1) :
    positionCoord r d = .ok (⌊r * ((d - 2 : Nat) : ℝ)⌋.toNat + 1) := by
  rw [positionCoord, if_neg (by linarith), if_neg (by linarith)]
  simp [div_eq_mul_inv]

/-- Relative coordinates in `[0, 1)`. -/
def Unit3 (r : Vec3 ℝ) : Prop := (0 ≤ r.x ∧ r.x < 1) ∧ (0 ≤ r.y ∧ r.y < 1) ∧ (0 ≤ r.z ∧ r.z < 1)

theorem inside_unit {b : Box} (h : b.WF) {p : Vec3 ℝ} : Inside b p ↔ Unit3 (b.absToRel p) := Box.inside_iff h p

theorem cellCoord_lt {N : Vec3 Nat} {r : Vec3 ℝ} (h : Unit3 r) (hN : 0 < N.x ∧ 0 < N.y ∧ 0 < N.z) :
    InRange N (cellCoord N r) :=
  ⟨floor_lt h.1.1 h.1.2 hN.1, floor_lt h.2.1.1 h.2.1.2 hN.2.1, floor_lt h.2.2.1 h.2.2.2 hN.2.2⟩

theorem positionToCellNo_ok {b : Box} {d : Vec3 Nat} {p : Vec3 ℝ} (h : Unit3 (b.absToRel p)) :
    positionToCellNo b d p = .ok (realCoordinatesToCellNo d (cellCoord (nreal d) (b.absToRel p))) := by
  simp only [positionToCellNo, positionCoord_ok h.1.1 h.1.2, positionCoord_ok h.2.1.1 h.2.1.2,
    positionCoord_ok h.2.2.1 h.2.2.2, Outcome.ok_bind, Outcome.pure_eq, realCoordinatesToCellNo, cellCoord, nreal]
  rfl

theorem Divs3.nreal_pos {d : Vec3 Nat} (h : Divs3 d) : 0 < (nreal d).x ∧ 0 < (nreal d).y ∧ 0 < (nreal d).z := by
  unfold Divs3 at h; simp only [nreal]; omega

theorem real_isReal {d c : Vec3 Nat} (hc : InRange (nreal d) c) : IsReal d ⟨c.x + 1, c.y + 1, c.z + 1⟩ := by
  unfold InRange nreal IsReal at *; simp only at *; omega

theorem realCn_lt {d c : Vec3 Nat} (hc : InRange (nreal d) c) : realCoordinatesToCellNo d c < total d := by
  rw [realCn_eq]; exact cn_lt (real_isReal hc).inRange

theorem realCn_inj {d c c' : Vec3 Nat} (hc : InRange (nreal d) c) (hc' : InRange (nreal d) c')
    (e : realCoordinatesToCellNo d c = realCoordinatesToCellNo d c') : c = c' := by
  rw [realCn_eq, realCn_eq] at e
  have := cn_inj (real_isReal hc).inRange (real_isReal hc').inRange e
  simp only [Vec3.mk.injEq] at this
  ext <;> omega

theorem wrapCell_inRange {N c n : Vec3 Nat} (hc : InRange N c) (hn : IsDir n) : InRange N (wrapCell N c n) :=
  ⟨(wrap_tau_eq hc.1 hn.1).2.1, (wrap_tau_eq hc.2.1 hn.2.1).2.1, (wrap_tau_eq hc.2.2 hn.2.2).2.1⟩

theorem translations_get_tau (b : Box) {i j k : Nat} {t : Vec3 ℤ} (hi : i ≤ 2) (hj : j ≤ 2) (hk : k ≤ 2)
    (ei : (i : ℤ) = t.x + 1) (ej : (j : ℤ) = t.y + 1) (ek : (k : ℤ) = t.z + 1) :
    vget (translations b) (flattenTranslationIndex i j k) = .ok (lattice b t) := by
  rw [translations_get b hi hj hk, Box.relToAbs_eq_combo]
  unfold lattice
  have e1 : (i : ℝ) - 1 = (t.x : ℝ) := by
    have : ((i : ℤ) : ℝ) = ((t.x + 1 : ℤ) : ℝ) := by rw [ei]
    push_cast at this; linarith
  have e2 : (j : ℝ) - 1 = (t.y : ℝ) := by
    have : ((j : ℤ) : ℝ) = ((t.y + 1 : ℤ) : ℝ) := by rw [ej]
    push_cast at this; linarith
  have e3 : (k : ℝ) - 1 = (t.z : ℝ) := by
    have : ((k : ℤ) : ℝ) = ((t.z + 1 : ℤ) : ℝ) := by rw [ek]
    push_cast at this; linarith
  rw [e1, e2, e3]; rfl

/-- Dereferencing a stored offset at a real cell. -/
theorem deref_ok {g : NG} {cells : Nat → List Nat} (hw : GWF g) (hr : Rep g cells) {c n : Vec3 Nat}
    (hc : InRange (nreal g.divs) c) (hn : IsDir n) :
    g.derefOffset (realCoordinatesToCellNo g.divs c) (offset g.divs n) =
      .ok (lattice g.box (tau (nreal g.divs) c n),
        cells (realCoordinatesToCellNo g.divs (wrapCell (nreal g.divs) c n))) := by
  have hreal := real_isReal hc
  rw [realCn_eq, NG.derefOffset]
  rw [add_offset hw.d3 hw.small hreal hn]
  have hin := sh_inRange hreal hn
  have hlt := cn_lt hin
  rw [vget_eq_of_getElem? (hw.tr _ hlt), Outcome.ok_bind, vget_eq_of_getElem? (hw.refl _ hlt), Outcome.ok_bind,
    reflected_eq hin]
  have dx : g.divs.x = (nreal g.divs).x + 2 := by have := hw.d3; unfold Divs3 at this; simp only [nreal]; omega
  have dy : g.divs.y = (nreal g.divs).y + 2 := by have := hw.d3; unfold Divs3 at this; simp only [nreal]; omega
  have dz : g.divs.z = (nreal g.divs).z + 2 := by have := hw.d3; unfold Divs3 at this; simp only [nreal]; omega
  obtain ⟨ex, tx, lx⟩ := reflect_wrap hc.1 hn.1
  obtain ⟨ey, ty, ly⟩ := reflect_wrap hc.2.1 hn.2.1
  obtain ⟨ez, tz, lz⟩ := reflect_wrap hc.2.2 hn.2.2
  rw [← dx] at ex tx lx
  rw [← dy] at ey ty ly
  rw [← dz] at ez tz lz
  simp only [sh]
  rw [ex, ey, ez, translations_get_tau g.box (t := tau (nreal g.divs) c n) lx ly lz tx ty tz]
  have hcell : coordinatesToCellNo g.divs ⟨wrap1 (nreal g.divs).x c.x n.x + 1, wrap1 (nreal g.divs).y c.y n.y + 1,
      wrap1 (nreal g.divs).z c.z n.z + 1⟩ = realCoordinatesToCellNo g.divs (wrapCell (nreal g.divs) c n) := by
    rw [realCn_eq]; rfl
  rw [hcell]
  have hl := hr.listFrom (c := realCoordinatesToCellNo g.divs (wrapCell (nreal g.divs) c n))
    (lt_of_lt_of_le (realCn_lt (wrapCell_inRange hc hn)) hw.heads)
  have hv := vget_ok (lt_of_lt_of_le (realCn_lt (wrapCell_inRange hc hn)) hw.heads)
  rw [hv, Outcome.ok_bind] at hl
  rw [hv, Outcome.ok_bind, Outcome.ok_bind, hl]
  rfl

theorem perm_map_of {α β : Type} {l l' : List α} {f : α → β} (h : l.Perm l') : (l.map f).Perm (l'.map f) := h.map f

/-- The set of directions used for the given flag. -/
def dirsOf (onlyPositive : Bool) : List (Vec3 Nat) := if onlyPositive then dirs.filter isPos else dirs

theorem mem_dirsOf {p : Bool} {n : Vec3 Nat} : n ∈ dirsOf p ↔ IsDir n ∧ (p = true → isPos n = true) := by
  unfold dirsOf
  cases p <;> simp [mem_dirs]

/-- What a pass over the neighbours of a real cell returns, up to order. -/
theorem neighboursOf_ok {g : NG} {cells : Nat → List Nat} (hw : GWF g) (hr : Rep g cells) {c : Vec3 Nat}
    (hc : InRange (nreal g.divs) c) (p : Bool) : ∃ L,
    g.neighboursOf (realCoordinatesToCellNo g.divs c) p = .ok L ∧
      L.Perm ((dirsOf p).map fun n => (lattice g.box (tau (nreal g.divs) c n),
        cells (realCoordinatesToCellNo g.divs (wrapCell (nreal g.divs) c n)))) := by
  have hp : (if p then g.posOffs else g.offs).Perm ((dirsOf p).map (offset g.divs)) := by
    cases p
    · exact hw.offs
    · exact hw.pos
  -- choose the value of each offset
  let val : Nat → Vec3 ℝ × List Nat := fun o =>
    match g.derefOffset (realCoordinatesToCellNo g.divs c) o with
    | .ok v => v
    | _ => (0, [])
  have hval : ∀ n, IsDir n → val (offset g.divs n) = (lattice g.box (tau (nreal g.divs) c n),
        cells (realCoordinatesToCellNo g.divs (wrapCell (nreal g.divs) c n))) := by
    intro n hn
    simp only [val, deref_ok hw hr hc hn]
  refine ⟨(if p then g.posOffs else g.offs).map val, ?_, ?_⟩
  · rw [NG.neighboursOf]
    apply mapM_ok
    intro o ho
    obtain ⟨n, hn, rfl⟩ := List.mem_map.mp (hp.mem_iff.mp ho)
    have hd := (mem_dirsOf.mp hn).1
    rw [hval n hd, deref_ok hw hr hc hd]
  · refine (hp.map val).trans (List.Perm.of_eq ?_)
    rw [List.map_map]
    apply List.map_congr_left
    intro n hn
    exact hval n (mem_dirsOf.mp hn).1

theorem require_true' {b : Prop} [Decidable b] (h : b) (m : String) : Outcome.require (decide b) m = .ok () := by
  simp [h]

theorem getCell_ok {g : NG} {cells : Nat → List Nat} (hw : GWF g) (hr : Rep g cells) {c : Vec3 Nat}
    (hc : InRange (nreal g.divs) c) : g.getCell c = .ok (cells (realCoordinatesToCellNo g.divs c)) := by
  have hc0 : c.x < g.divs.x - 2 ∧ c.y < g.divs.y - 2 ∧ c.z < g.divs.z - 2 := hc
  rw [NG.getCell, require_true' hc0.1, Outcome.ok_bind, require_true' hc0.2.1, Outcome.ok_bind, require_true' hc0.2.2,
    Outcome.ok_bind]
  exact hr.listFrom (lt_of_lt_of_le (realCn_lt hc) hw.heads)

theorem getNeighbouringCells_ok {g : NG} {cells : Nat → List Nat} (hw : GWF g) (hr : Rep g cells) {c : Vec3 Nat}
    (hc : InRange (nreal g.divs) c) (p : Bool) : ∃ L, g.getNeighbouringCells c p = .ok L ∧
      L.Perm ((dirsOf p).map fun n => (lattice g.box (tau (nreal g.divs) c n),
        cells (realCoordinatesToCellNo g.divs (wrapCell (nreal g.divs) c n)))) := by
  have hc0 : c.x < g.divs.x - 2 ∧ c.y < g.divs.y - 2 ∧ c.z < g.divs.z - 2 := hc
  rw [NG.getNeighbouringCells, require_true' hc0.1, Outcome.ok_bind, require_true' hc0.2.1, Outcome.ok_bind,
    require_true' hc0.2.2, Outcome.ok_bind]
  exact neighboursOf_ok hw hr hc p

/-- The real cell of an in-box point. -/
noncomputable def NG.cellOf (g : NG) (p : Vec3 ℝ) : Vec3 Nat := cellCoord (nreal g.divs) (g.box.absToRel p)

theorem cellOf_inRange {g : NG} (hw : GWF g) {p : Vec3 ℝ} (hp : Inside g.box p) : InRange (nreal g.divs) (g.cellOf p) :=
  cellCoord_lt ((inside_unit hw.box).mp hp) hw.d3.nreal_pos

theorem posCell_ok {g : NG} (hw : GWF g) {p : Vec3 ℝ} (hp : Inside g.box p) :
    positionToCellNo g.box g.divs p = .ok (realCoordinatesToCellNo g.divs (g.cellOf p)) :=
  positionToCellNo_ok ((inside_unit hw.box).mp hp)

theorem getCellPos_ok {g : NG} {cells : Nat → List Nat} (hw : GWF g) (hr : Rep g cells) {p : Vec3 ℝ}
    (hp : Inside g.box p) : g.getCellPos p = .ok (cells (realCoordinatesToCellNo g.divs (g.cellOf p))) := by
  rw [NG.getCellPos, posCell_ok hw hp, Outcome.ok_bind]
  exact hr.listFrom (lt_of_lt_of_le (realCn_lt (cellOf_inRange hw hp)) hw.heads)

theorem getNeighbouringCellsPos_ok {g : NG} {cells : Nat → List Nat} (hw : GWF g) (hr : Rep g cells) {p : Vec3 ℝ}
    (hp : Inside g.box p) (pos : Bool) : ∃ L, g.getNeighbouringCellsPos p pos = .ok L ∧
      L.Perm ((dirsOf pos).map fun n => (lattice g.box (tau (nreal g.divs) (g.cellOf p) n),
        cells (realCoordinatesToCellNo g.divs (wrapCell (nreal g.divs) (g.cellOf p) n)))) := by
  rw [NG.getNeighbouringCellsPos, posCell_ok hw hp, Outcome.ok_bind]
  exact neighboursOf_ok hw hr (cellOf_inRange hw hp) pos

theorem add_ok {g : NG} {cells : Nat → List Nat} (hw : GWF g) (hr : Rep g cells) {i : Nat} {p : Vec3 ℝ}
    (hp : Inside g.box p) (hi : i < g.succ.length) (hfree : ∀ c, i ∉ cells c) :
    ∃ g', g.add i p = .ok g' ∧ GWF g' ∧ g'.box = g.box ∧ g'.divs = g.divs ∧ g'.succ.length = g.succ.length ∧
      Rep g' (Function.update cells (realCoordinatesToCellNo g.divs (g.cellOf p))
        (i :: cells (realCoordinatesToCellNo g.divs (g.cellOf p)))) := by
  obtain ⟨g', e, r, lh, ls, eg⟩ := hr.addAt hi (lt_of_lt_of_le (realCn_lt (cellOf_inRange hw hp)) hw.heads) hfree
  refine ⟨g', ?_, hw.congr lh eg, by rw [eg], by rw [eg], ls, r⟩
  rw [NG.add, posCell_ok hw hp, Outcome.ok_bind]; exact e

theorem remove_ok {g : NG} {cells : Nat → List Nat} (hw : GWF g) (hr : Rep g cells) {i : Nat} {p : Vec3 ℝ}
    (hp : Inside g.box p) (hi : i < g.succ.length) :
    ∃ g', g.remove i p = .ok g' ∧ GWF g' ∧ g'.box = g.box ∧ g'.divs = g.divs ∧ g'.succ.length = g.succ.length ∧
      Rep g' (Function.update cells (realCoordinatesToCellNo g.divs (g.cellOf p))
        ((cells (realCoordinatesToCellNo g.divs (g.cellOf p))).erase i)) := by
  obtain ⟨g', e, r, lh, ls, eg⟩ := hr.removeAt hi (lt_of_lt_of_le (realCn_lt (cellOf_inRange hw hp)) hw.heads)
  refine ⟨g', ?_, hw.congr lh eg, by rw [eg], by rw [eg], ls, r⟩
  rw [NG.remove, posCell_ok hw hp, Outcome.ok_bind]; exact e

/-- Outcome of `setupSizes` for a valid box. -/
theorem setupSizes_ok {b : Box} {cs : ℝ} {d : Vec3 Nat} (h : setupSizes b cs = .ok d) :
    0 < cs ∧ 0 < b.volume ∧ d = ⟨⌊b.heights.x / cs⌋.toNat + 2, ⌊b.heights.y / cs⌋.toNat + 2, ⌊b.heights.z / cs⌋.toNat + 2⟩ ∧
      Divs3 d := by
  unfold setupSizes at h
  split at h
  · cases h
  · rename_i hv
    split at h
    · cases h
    · rename_i hc
      simp only at h
      split at h
      · rename_i h3
        cases h
        exact ⟨by simpa using hc, by simpa using hv, rfl, h3⟩
      · cases h

theorem setupSizes_of {b : Box} {cs : ℝ} (hb : b.WF) (hc : 0 < cs) (hx : cs ≤ b.heights.x) (hy : cs ≤ b.heights.y)
    (hz : cs ≤ b.heights.z) : setupSizes b cs =
      .ok ⟨⌊b.heights.x / cs⌋.toNat + 2, ⌊b.heights.y / cs⌋.toNat + 2, ⌊b.heights.z / cs⌋.toNat + 2⟩ := by
  have key : ∀ h : ℝ, cs ≤ h → 3 ≤ ⌊h / cs⌋.toNat + 2 := by
    intro h hh
    have : (1 : ℤ) ≤ ⌊h / cs⌋ := by rw [Int.le_floor]; push_cast; rwa [le_div_iff₀ hc, one_mul]
    omega
  unfold setupSizes
  rw [if_neg (by have := Box.volume_pos hb; simpa using this), if_neg (by simpa using hc)]
  simp only
  rw [if_pos ⟨key _ hx, key _ hy, key _ hz⟩]

theorem range_map_get {f : Nat → Nat} {n i : Nat} (h : i < n) (rest : List Nat) :
    (((List.range n).map f) ++ rest)[i]? = some (f i) := by
  rw [List.getElem?_append_left (by simpa using h)]
  simp [h]

theorem create_ok {b : Box} {cs : ℝ} {n : Nat} {d : Vec3 Nat} (hb : b.WF) (hd : setupSizes b cs = .ok d)
    (hs : Small d) (hn : n ≤ LIST_END) : ∃ g, NG.create b cs n = .ok g ∧ GWF g ∧ g.box = b ∧ g.divs = d ∧
      g.succ.length = n ∧ Rep g (fun _ => []) := by
  have h3 := (setupSizes_ok hd).2.2.2
  obtain ⟨offs, pos, e, po, pp⟩ := fillOffsets_eq h3 hs
  rw [NG.create, hd, Outcome.ok_bind]
  simp only [e, Outcome.ok_bind]
  refine ⟨_, rfl, ?_, rfl, rfl, by simp, ?_⟩
  · refine ⟨hb, h3, hs, rfl, by simp [total], by simp [total], by simp [total], ?_, ?_, po, pp⟩
    · intro i hi; have := range_map_get (f := fun i => (getReflectedCellData d i).1) hi []; rwa [List.append_nil] at this
    · intro i hi; have := range_map_get (f := fun i => (getReflectedCellData d i).2) hi []; rwa [List.append_nil] at this
  · constructor
    · simpa using hn
    · intro c hc; simp [Chain]
    · intros; rfl
    · intro; exact List.nodup_nil
    · intro c c' i h; simp at h

theorem vresize_length {α : Type} (xs : List α) (n : Nat) (v : α) : (vresize xs n v).length = n := by
  simp [vresize]; omega

theorem resize_ok {g : NG} {cells : Nat → List Nat} (hw : GWF g) (hr : Rep g cells) {b : Box} {cs : ℝ} {d : Vec3 Nat}
    (hb : b.WF) (hd : setupSizes b cs = .ok d) (hs : Small d) :
    ∃ g', g.resize b cs = .ok (g', decide (d ≠ g.divs)) ∧ GWF g' ∧ g'.box = b ∧ g'.divs = d ∧
      g'.succ.length = g.succ.length ∧ Rep g' (fun _ => []) := by
  have h3 := (setupSizes_ok hd).2.2.2
  rw [NG.resize, hd, Outcome.ok_bind]
  simp only
  by_cases he : d = g.divs
  · rw [if_pos he]
    subst he
    refine ⟨NG.clear { g with box := b, divs := g.divs, numCells := total g.divs }, by simp [total], ?_, rfl, rfl,
      by simp [NG.clear], rep_clear _ (by simpa using hr.succ_le)⟩
    apply GWF.clear
    exact ⟨hb, hw.d3, hw.small, rfl, hw.heads, hw.rlen, hw.tlen, hw.refl, hw.tr, hw.offs, hw.pos⟩
  · rw [if_neg he]
    obtain ⟨offs, pos, e, po, pp⟩ := fillOffsets_eq h3 hs
    have tot : d.x * d.y * d.z = total d := rfl
    rw [tot]
    have l1 : total d ≤ (if decide (g.numCells < total d) = true then vresize g.reflected (total d) 0 else g.reflected).length := by
      split
      · rw [vresize_length]
      · rename_i hg; have := hw.rlen; rw [hw.num] at hg; simp at hg; omega
    have l2 : total d ≤ (if decide (g.numCells < total d) = true then vresize g.transIdx (total d) 0 else g.transIdx).length := by
      split
      · rw [vresize_length]
      · rename_i hg; have := hw.tlen; rw [hw.num] at hg; simp at hg; omega
    have l3 : total d ≤ (if decide (g.numCells < total d) = true then vresize g.heads (total d) 0 else g.heads).length := by
      split
      · rw [vresize_length]
      · rename_i hg; have := hw.heads; rw [hw.num] at hg; simp at hg; omega
    rw [if_neg (by omega), e]
    simp only [Outcome.ok_bind]
    refine ⟨_, by simp [he]; rfl, ?_, rfl, rfl, by simp [NG.clear], rep_clear _ (by simpa using hr.succ_le)⟩
    apply GWF.clear
    refine ⟨hb, h3, hs, rfl, by simpa using l3, by simp, by simp, ?_, ?_, po, pp⟩
    · intro i hi; exact range_map_get (f := fun i => (getReflectedCellData d i).1) hi _
    · intro i hi; exact range_map_get (f := fun i => (getReflectedCellData d i).2) hi _

/-- Cells are at least as wide as the requested size. -/
def Wide (g : NG) (cs : ℝ) : Prop :=
  (nreal g.divs).x * cs ≤ g.box.heights.x ∧ (nreal g.divs).y * cs ≤ g.box.heights.y ∧
    (nreal g.divs).z * cs ≤ g.box.heights.z

theorem wide_of_setup {b : Box} {cs : ℝ} {d : Vec3 Nat} (h : setupSizes b cs = .ok d) :
    (nreal d).x * cs ≤ b.heights.x ∧ (nreal d).y * cs ≤ b.heights.y ∧ (nreal d).z * cs ≤ b.heights.z := by
  obtain ⟨hc, -, rfl, h3⟩ := setupSizes_ok h
  have key : ∀ h : ℝ, 3 ≤ ⌊h / cs⌋.toNat + 2 → (((⌊h / cs⌋.toNat + 2 - 2 : Nat)) : ℝ) * cs ≤ h := by
    intro h h3
    have e : (⌊h / cs⌋.toNat : ℤ) = ⌊h / cs⌋ := Int.toNat_of_nonneg (by omega)
    have e2 : ((⌊h / cs⌋.toNat + 2 - 2 : Nat) : ℝ) = ((⌊h / cs⌋ : ℤ) : ℝ) := by
      rw [Nat.add_sub_cancel, ← e]; push_cast; rfl
    rw [e2]
    have := Int.floor_le (h / cs)
    calc ((⌊h / cs⌋ : ℤ) : ℝ) * cs ≤ h / cs * cs := by gcongr
      _ = h := by field_simp
  exact ⟨key _ h3.1, key _ h3.2.1, key _ h3.2.2⟩

end Rampack.Grid
