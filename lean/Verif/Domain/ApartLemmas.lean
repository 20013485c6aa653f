import Verif.Domain.RegionLemmas
import Verif.Domain.Spec
import Verif.Packing.WallLemmas
/-
Helper lemmas: molecules of different active domains.
-/
namespace Rampack.Domain

open Rampack.Spec Rampack.Packing Rampack.Grid

namespace Made

variable {P : Packing} {I : Interaction} {divs grid : Vec3 Nat} {origin : Vec3 ℝ} {D : Decomposition}

/-- Different domains differ along a divided axis. -/
theorem differ {c c' : Vec3 Nat} (hc : ∀ a, c.get a < divs.get a) (hc' : ∀ a, c'.get a < divs.get a) (hne : c ≠ c') :
    ∃ a, c.get a ≠ c'.get a ∧ 2 ≤ divs.get a := by
  by_contra h
  push Not at h
  apply hne
  refine Vec3.ext_get fun a => ?_
  by_contra hne
  have := h a hne
  have h1 := hc a
  have h2 := hc' a
  omega

/-- Numbers of domains in the periodic system. -/
theorem shift_ne {d k k' : Nat} (hk : k < d) (hk' : k' < d) (h : k ≠ k') (q : ℤ) : (k : ℤ) ≠ k' + d * q := by
  intro e
  have h1 := congrArg (· % (d : ℤ)) e
  simp only [Int.add_mul_emod_self_left] at h1
  rw [Int.emod_eq_of_lt (by omega) (by omega), Int.emod_eq_of_lt (by omega) (by omega)] at h1
  omega

theorem axis_apart {o : ℝ} {d n : Nat} {w : ℝ} (hA : AxisOk o d n w) {k k' : Nat} (hk : k < d) (hk' : k' < d) (hne : k ≠ k') {r s : ℝ}
    (hr : ∃ t : ℤ, InGap o d n w k (r + t)) (hs : ∃ t : ℤ, InGap o d n w k' (s + t)) (q : ℤ) : w < |s + q - r| := by
  obtain ⟨t, ht⟩ := hr
  obtain ⟨u, hu⟩ := hs
  have hu' := hA.gap_shift hu (q + t - u)
  rcases lt_or_gt_of_ne (shift_ne hk hk' hne (q + t - u)) with h | h
  · have := hA.gap_apart ht hu' h
    push_cast at this
    rw [abs_of_pos (by linarith [hA.wpos])]
    linarith
  · have := hA.gap_apart hu' ht h
    push_cast at this
    rw [abs_of_neg (by linarith [hA.wpos])]
    linarith

theorem separated (h : Made P I divs grid origin D) (hb : P.box.WF) (hI : I.range ≤ I.totalRange) {c c' : Vec3 Nat}
    (hc : ∀ a, c.get a < divs.get a) (hc' : ∀ a, c'.get a < divs.get a) {a : Fin 3} (hne : c.get a ≠ c'.get a) (h2 : 2 ≤ divs.get a)
    {p q : Vec3 ℝ} (hp : InAxis P I divs grid origin c (P.box.absToRel p) a) (hq : InAxis P I divs grid origin c' (P.box.absToRel q) a) :
    Separated P.box a (I.totalRange - I.range + P.box.heights.get a / grid.get a) p q := by
  intro r s n er es
  obtain ⟨_, _, h3⟩ := h.fact hb hI a
  obtain ⟨_, h4, _⟩ := h3 h2
  have e1 : P.box.absToRel p = r := by rw [er, ← Box.relToAbs_eq_combo, Box.absToRel_relToAbs hb]
  have e2 : P.box.absToRel q = s := by rw [es, ← Box.relToAbs_eq_combo, Box.absToRel_relToAbs hb]
  have := axis_apart h4 (hc a) (hc' a) hne (hp h2) (hq h2) n
  rw [e1, e2] at this
  have hh := heights hb a
  unfold ghost at this
  rwa [div_lt_iff₀ hh] at this

end Made

theorem norm_get_le {b : Box} (hb : b.WF) (v : Vec3 ℝ) (a : Fin 3) : |(b.absToRel v).get a| * b.heights.get a ≤ v.norm := by
  obtain ⟨h0, h1, h2⟩ := Box.height_mul_rel_le hb v
  match a with | 0 => exact h0 | 1 => exact h1 | 2 => exact h2

/-- Points separated along an axis are far from each other. -/
theorem Separated.far {b : Box} (hb : b.WF) {a : Fin 3} {w : ℝ} {p q : Vec3 ℝ} (h : Separated b a w p q) (n : Vec3 ℤ) :
    w < (q + lattice b n - p).norm := by
  have h1 := norm_get_le hb (q + lattice b n - p) a
  have h2 := h (b.absToRel p) (b.absToRel q) (n.get a) (by rw [← Box.relToAbs_eq_combo, Box.relToAbs_absToRel hb])
    (by rw [← Box.relToAbs_eq_combo, Box.relToAbs_absToRel hb])
  rw [Box.absToRel_sub, Box.absToRel_add, Box.absToRel_lattice hb] at h1
  have e : (b.absToRel q + n.map (fun k : ℤ => (k : ℝ)) - b.absToRel p).get a = (b.absToRel q).get a + (n.get a : ℝ) - (b.absToRel p).get a := by
    match a with | 0 => rfl | 1 => rfl | 2 => rfl
  rw [e] at h1
  linarith

theorem dist2_norm (p q : Vec3 ℝ) : dist2 p q = (q - p).norm ^ 2 := by
  rw [Vec3.norm_sq]
  simp only [dist2, Vec3.norm2, Vec3.dot, Vec3.sub_x, Vec3.sub_y, Vec3.sub_z]; ring

/-- Where the sites of a molecule are, up to periodicity. -/
theorem site_near {b : Box} (hb : b.WF) {I : Interaction} (hT : TotalRange I) {s : Shape} (hs : Inside b s.pos) (ho : Orthogonal s.rot) {x : Site}
    (hx : x ∈ molSites b I s) : Inside b x.pos ∧ ∃ (v : Vec3 ℝ) (n : Vec3 ℤ), x.pos = s.pos + v + lattice b n ∧ 2 * v.norm ≤ I.totalRange - I.range := by
  unfold molSites at hx
  split at hx
  · rw [List.mem_singleton] at hx
    subst hx
    refine ⟨hs, 0, 0, ?_, ?_⟩
    · rw [lattice_zero]; simp
    · have : (0 : Vec3 ℝ).norm = 0 := by simp [Vec3.norm, Vec3.norm2, Vec3.dot]
      rw [this]; linarith [hT.1]
  · obtain ⟨k, hk, rfl⟩ := List.mem_map.mp hx
    obtain ⟨n, hn⟩ := (C05_correction hb.make (s.pos + s.rot.mulVec (I.centres.getD k 0))).2.1
    refine ⟨wrap_inside hb _, s.rot.mulVec (I.centres.getD k 0), n, ?_, ?_⟩
    · show _ + PBC.getCorrection b _ = _
      rw [hn]
    · rw [norm_mulVec ho]
      have hk' : k < I.centres.length := List.mem_range.mp hk
      have := hT.2 (I.centres.getD k 0) (by simp [List.getD, hk'])
      linarith

theorem norm_add_le' (u v : Vec3 ℝ) : (u + v).norm ≤ u.norm + v.norm := by
  have h1 := Vec3.abs_dot_le u v
  have h2 := abs_le.mp h1
  refine abs_le_of_sq_le_sq' ?_ (by linarith [u.norm_nonneg, v.norm_nonneg]) |>.2
  rw [Vec3.norm_sq, add_sq, Vec3.norm_sq, Vec3.norm_sq]
  have : (u + v).norm2 = u.norm2 + 2 * u.dot v + v.norm2 := by
    simp only [Vec3.norm2, Vec3.dot, Vec3.add_x, Vec3.add_y, Vec3.add_z]; ring
  rw [this]
  linarith [h2.2]

theorem norm_neg' (u : Vec3 ℝ) : (-u).norm = u.norm := by
  simp only [Vec3.norm, Vec3.norm2, Vec3.dot, Vec3.neg_x, Vec3.neg_y, Vec3.neg_z, neg_mul_neg]

theorem lattice_add' (b : Box) (m n : Vec3 ℤ) : lattice b (m + n) = lattice b m + lattice b n := by
  unfold lattice combo
  ext <;> simp [Vec3.map] <;> ring

/-- Sites of molecules which are far from each other do not interact. -/
theorem sites_far {b : Box} (hb : b.WF) {I : Interaction} (hT : TotalRange I) (hr : 0 < I.range) {s t : Shape} (hs : Inside b s.pos) (ht : Inside b t.pos)
    (hos : Orthogonal s.rot) (hot : Orthogonal t.rot) (hf : ∀ n, I.totalRange < (t.pos + lattice b n - s.pos).norm) {x y : Site}
    (hx : x ∈ molSites b I s) (hy : y ∈ molSites b I t) (n : Vec3 ℤ) : I.range ^ 2 < dist2 x.pos (y.pos + lattice b n) := by
  obtain ⟨_, v, m, ex, hv⟩ := site_near hb hT hs hos hx
  obtain ⟨_, u, k, ey, hu⟩ := site_near hb hT ht hot hy
  have h1 := hf (k + n - m)
  have e : t.pos + lattice b (k + n - m) - s.pos = (y.pos + lattice b n - x.pos) + (v + -u) := by
    rw [ex, ey, sub_eq_add_neg (k + n) m, lattice_add', lattice_add', lattice_neg]
    abel
  rw [e] at h1
  have h2 := norm_add_le' (y.pos + lattice b n - x.pos) (v + -u)
  have h3 := norm_add_le' v (-u)
  rw [norm_neg'] at h3
  rw [dist2_norm]
  have : I.range < (y.pos + lattice b n - x.pos).norm := by linarith
  nlinarith

/-- Cells of points near different domains along one axis. -/
theorem axis_cells {o : ℝ} {d n : Nat} {w e : ℝ} (hA : AxisOk o d n w) {k k' : Nat} (hk : k < d) (hk' : k' < d) (hne : k ≠ k') {r s x y : ℝ}
    (hr : ∃ t : ℤ, InGap o d n w k (r + t)) (hs : ∃ t : ℤ, InGap o d n w k' (s + t)) (he : 1 / (n : ℝ) + 2 * e ≤ w)
    {m m' : ℤ} (hx : |x + m - r| ≤ e) (hy : |y + m' - s| ≤ e) (q : ℤ) : ⌊x * n⌋ + 2 ≤ ⌊y * n⌋ + q * n ∨ ⌊y * n⌋ + q * n + 2 ≤ ⌊x * n⌋ := by
  obtain ⟨t, ht⟩ := hr
  obtain ⟨u, hu⟩ := hs
  have hu' := hA.gap_shift hu (q + t + m - m' - u)
  have hx' : |x + m + t - (r + t)| ≤ e := by rw [show x + m + t - (r + t) = x + m - r by ring]; exact hx
  have hy' : |y + q + m + t - (s + u + ((q + t + m - m' - u : ℤ) : ℝ))| ≤ e := by
    push_cast
    rw [show y + q + m + t - (s + u + (q + t + m - m' - u)) = y + m' - s by ring]; exact hy
  have fx : ⌊(x + m + t) * n⌋ = ⌊x * n⌋ + (m + t) * n := by
    rw [show (x + m + t) * (n : ℝ) = x * n + (((m + t) * n : ℤ) : ℝ) by push_cast; ring, Int.floor_add_intCast]
  have fy : ⌊(y + q + m + t) * n⌋ = ⌊y * n⌋ + (q + m + t) * n := by
    rw [show (y + q + m + t) * (n : ℝ) = y * n + (((q + m + t) * n : ℤ) : ℝ) by push_cast; ring, Int.floor_add_intCast]
  rcases lt_or_gt_of_ne (Made.shift_ne hk hk' hne (q + t + m - m' - u)) with h | h
  · have := hA.gap_cells ht hu' h he hx' hy'
    rw [fx, fy] at this
    left; linarith
  · have := hA.gap_cells hu' ht h he hy' hx'
    rw [fx, fy] at this
    right; linarith

theorem get_cellOf (g : NG) (p : Vec3 ℝ) (a : Fin 3) : (g.cellOf p).get a = ⌊(g.box.absToRel p).get a * ((g.getCellDivisions.get a : ℕ) : ℝ)⌋.toNat := by
  match a with | 0 => rfl | 1 => rfl | 2 => rfl

theorem get_wrapCell (N c n : Vec3 Nat) (a : Fin 3) : (wrapCell N c n).get a = wrap1 (N.get a) (c.get a) (n.get a) := by
  match a with | 0 => rfl | 1 => rfl | 2 => rfl

theorem inRange_get {N c : Vec3 Nat} (h : InRange N c) (a : Fin 3) : c.get a < N.get a := by
  match a with | 0 => exact h.1 | 1 => exact h.2.1 | 2 => exact h.2.2

theorem isDir_get {n : Vec3 Nat} (h : IsDir n) (a : Fin 3) : n.get a ≤ 2 := by
  match a with | 0 => exact h.1 | 1 => exact h.2.1 | 2 => exact h.2.2

/-- Which cells are read. -/
theorem cellsRead_ok {g : NG} (hw : GWF g) {p : Vec3 ℝ} (hp : Inside g.box p) : ∃ L, cellsRead g p = .ok L ∧
    (∀ k ∈ L, ∃ n, IsDir n ∧ k = realCoordinatesToCellNo g.divs (wrapCell (nreal g.divs) (g.cellOf p) n)) ∧
    realCoordinatesToCellNo g.divs (g.cellOf p) ∈ L := by
  have hc := cellOf_inRange hw hp
  have key : ∀ n, IsDir n → vget g.reflected (addWrap (realCoordinatesToCellNo g.divs (g.cellOf p)) (offset g.divs n)) =
      .ok (realCoordinatesToCellNo g.divs (wrapCell (nreal g.divs) (g.cellOf p) n)) := by
    intro n hn
    have hreal := real_isReal hc
    rw [realCn_eq, add_offset hw.d3 hw.small hreal hn]
    have hin := sh_inRange hreal hn
    rw [vget_eq_of_getElem? (hw.refl _ (cn_lt hin)), reflected_eq hin]
    have dx : g.divs.x = (nreal g.divs).x + 2 := by have := hw.d3; unfold Divs3 at this; simp only [nreal]; omega
    have dy : g.divs.y = (nreal g.divs).y + 2 := by have := hw.d3; unfold Divs3 at this; simp only [nreal]; omega
    have dz : g.divs.z = (nreal g.divs).z + 2 := by have := hw.d3; unfold Divs3 at this; simp only [nreal]; omega
    obtain ⟨ex, -, -⟩ := reflect_wrap hc.1 hn.1
    obtain ⟨ey, -, -⟩ := reflect_wrap hc.2.1 hn.2.1
    obtain ⟨ez, -, -⟩ := reflect_wrap hc.2.2 hn.2.2
    rw [← dx] at ex
    rw [← dy] at ey
    rw [← dz] at ez
    simp only [sh]
    rw [ex, ey, ez, realCn_eq]
    rfl
  let val : Nat → Nat := fun o =>
    match vget g.reflected (addWrap (realCoordinatesToCellNo g.divs (g.cellOf p)) o) with
    | .ok v => v
    | _ => 0
  have hval : ∀ n, IsDir n → val (offset g.divs n) = realCoordinatesToCellNo g.divs (wrapCell (nreal g.divs) (g.cellOf p) n) := by
    intro n hn; simp only [val, key n hn]
  refine ⟨g.offs.map val, ?_, ?_, ?_⟩
  · unfold cellsRead
    rw [posCell_ok hw hp, Outcome.ok_bind]
    apply mapM_ok
    intro o ho
    obtain ⟨n, hn, rfl⟩ := List.mem_map.mp (hw.offs.mem_iff.mp ho)
    have hd := mem_dirs.mp hn
    rw [hval n hd, key n hd]
  · intro k hk
    obtain ⟨o, ho, rfl⟩ := List.mem_map.mp hk
    obtain ⟨n, hn, rfl⟩ := List.mem_map.mp (hw.offs.mem_iff.mp ho)
    have hd := mem_dirs.mp hn
    exact ⟨n, hd, hval n hd⟩
  · have hd : IsDir ⟨1, 1, 1⟩ := ⟨by decide, by decide, by decide⟩
    have hsame : wrapCell (nreal g.divs) (g.cellOf p) ⟨1, 1, 1⟩ = g.cellOf p := by
      have h1 : ∀ {N c : Nat}, c < N → wrap1 N c 1 = c := by
        intro N c hc
        rcases wrap_tau_cases hc (n := 1) (by omega) with ⟨h, e, -⟩ | ⟨h, e, -⟩ | ⟨h, h', e, -⟩ <;> omega
      unfold wrapCell
      rw [h1 hc.1, h1 hc.2.1, h1 hc.2.2]
    rw [← hsame, ← hval _ hd]
    exact List.mem_map_of_mem (hw.offs.mem_iff.mpr (List.mem_map_of_mem (mem_dirs.mpr hd)))

theorem Made.cells {P : Packing} {I : Interaction} {divs : Vec3 Nat} {origin : Vec3 ℝ} {D : Decomposition} {g : NG} (hw : GWF g) (hgb : g.box = P.box)
    (h : Made P I divs g.getCellDivisions origin D) (hT : TotalRange I) {c c' : Vec3 Nat}
    (hc : ∀ a, c.get a < divs.get a) (hc' : ∀ a, c'.get a < divs.get a) (hne : c ≠ c') {s t : Shape} (hs : Inside P.box s.pos) (ht : Inside P.box t.pos)
    (hos : Orthogonal s.rot) (hot : Orthogonal t.rot)
    (hsin : ∀ a, InAxis P I divs g.getCellDivisions origin c (P.box.absToRel s.pos) a)
    (htin : ∀ a, InAxis P I divs g.getCellDivisions origin c' (P.box.absToRel t.pos) a) {x y : Site}
    (hx : x ∈ molSites P.box I s) (hy : y ∈ molSites P.box I t) {n : Vec3 Nat} (hn : IsDir n) :
    g.cellOf y.pos ≠ wrapCell (nreal g.divs) (g.cellOf x.pos) n := by
  have hb : P.box.WF := hgb ▸ hw.box
  obtain ⟨a, hna, h2⟩ := differ hc hc' hne
  obtain ⟨_, hn0, h3⟩ := h.fact hb hT.1 a
  obtain ⟨_, h4, _⟩ := h3 h2
  obtain ⟨hxi, v, m, ex, hv⟩ := site_near hb hT hs hos hx
  obtain ⟨hyi, u, k, ey, hu⟩ := site_near hb hT ht hot hy
  have hh := heights hb a
  set e : ℝ := (I.totalRange - I.range) / 2 / P.box.heights.get a with he
  have relx : ∀ (p v : Vec3 ℝ) (m : Vec3 ℤ), 2 * v.norm ≤ I.totalRange - I.range →
      |(P.box.absToRel (p + v + lattice P.box m)).get a + ((-(m.get a) : ℤ) : ℝ) - (P.box.absToRel p).get a| ≤ e := by
    intro p v m hv
    rw [Box.absToRel_add, Box.absToRel_add, Box.absToRel_lattice hb]
    have e1 : (P.box.absToRel p + P.box.absToRel v + m.map (fun k : ℤ => (k : ℝ))).get a + ((-(m.get a) : ℤ) : ℝ) - (P.box.absToRel p).get a =
        (P.box.absToRel v).get a := by
      match a with
      | 0 => simp
      | 1 => simp
      | 2 => simp
    rw [e1, he, le_div_iff₀ hh]
    have := norm_get_le hb v a
    linarith
  have hx' := relx s.pos v m hv
  have hy' := relx t.pos u k hu
  rw [← ex] at hx'
  rw [← ey] at hy'
  have hwid : 1 / ((g.getCellDivisions.get a : ℕ) : ℝ) + 2 * e ≤ ghost P.box I g.getCellDivisions a := by
    rw [he]; unfold ghost
    have hn' : (0 : ℝ) < (g.getCellDivisions.get a : ℕ) := by exact_mod_cast hn0
    apply le_of_eq
    field_simp
    ring
  have key := axis_cells h4 (hc a) (hc' a) hna (hsin a h2) (htin a h2) hwid hx' hy'
  intro heq
  have heq' := congrArg (fun v : Vec3 Nat => v.get a) heq
  simp only [get_wrapCell, get_cellOf, hgb] at heq'
  have hcx := inRange_get (cellOf_inRange hw (p := x.pos) (hgb ▸ hxi)) a
  rw [get_cellOf, hgb] at hcx
  have hN : (nreal g.divs).get a = g.getCellDivisions.get a := by
    match a with | 0 => rfl | 1 => rfl | 2 => rfl
  rw [hN] at heq' hcx
  have hwt := (wrap_tau_eq hcx (isDir_get hn a)).1
  rw [← heq'] at hwt
  have hnx : 0 ≤ ⌊(P.box.absToRel x.pos).get a * ((g.getCellDivisions.get a : ℕ) : ℝ)⌋ := by
    apply Int.floor_nonneg.mpr
    have := (unit_get ((Box.inside_iff hb _).mp hxi) a).1
    positivity
  have hny : 0 ≤ ⌊(P.box.absToRel y.pos).get a * ((g.getCellDivisions.get a : ℕ) : ℝ)⌋ := by
    apply Int.floor_nonneg.mpr
    have := (unit_get ((Box.inside_iff hb _).mp hyi) a).1
    positivity
  rw [Int.toNat_of_nonneg hnx, Int.toNat_of_nonneg hny] at hwt
  have hd := isDir_get hn a
  rcases key (tau1 (g.getCellDivisions.get a) ⌊(P.box.absToRel x.pos).get a * ((g.getCellDivisions.get a : ℕ) : ℝ)⌋.toNat (n.get a)) with hk | hk
  · rw [mul_comm (tau1 _ _ _) _] at hk
    omega
  · rw [mul_comm (tau1 _ _ _) _] at hk
    omega

end Rampack.Domain
