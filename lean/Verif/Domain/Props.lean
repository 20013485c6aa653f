import Verif.Domain.TotalLemmas
import Verif.Packing.Demo
import Verif.Packing.WallProps
/-
C21, C22: active domains of different threads.
-/
namespace Rampack

open Rampack.Spec Rampack.Grid Rampack.Packing Rampack.Domain

/-- Decompositions of the unit cube with two overlapping balls into two domains along the first axis. -/
theorem Domain.split_example : ∃ (P : Packing) (I : Interaction) (g : NG) (D : Decomposition) (A A' : Active) (p q : Vec3 ℝ), Reachable P I ∧
    TotalRange I ∧ P.ng = some g ∧ decompose P I ⟨2, 1, 1⟩ g.getCellDivisions ⟨1 / 3, 1 / 5, 1 / 7⟩ = .ok (.ok D) ∧
    D.getActiveDomainBounds ⟨0, 0, 0⟩ = .ok A ∧ D.getActiveDomainBounds ⟨1, 0, 0⟩ = .ok A' ∧ Inside P.box p ∧ Inside P.box q ∧
    A.isInside p = true ∧ A'.isInside q = true := by
  obtain ⟨P, h, hm, hbx, hng, -⟩ := two_reachable [] (by simp) (r := 1 / 40) (by norm_num) (by norm_num) (3 / 40) 2
  have hT : TotalRange (ballsI [] (1 / 40) (3 / 40)) := ⟨by simp only [ballsI]; norm_num, by simp [ballsI]⟩
  obtain ⟨g, hg⟩ := Option.isSome_iff_exists.mp hng
  obtain ⟨hb, hin, hsz⟩ := reachable_box h
  obtain ⟨h1, h2, h3⟩ := own_grid h hg
  have hP := h.inv.1
  have h5 : 5 ≤ g.getCellDivisions.x := by
    rw [h3, hbx]
    have hc := unitBox_cellSize hP.size_pos hbx (by rw [hP.q.core.range_eq]; simp only [ballsI]; norm_num)
    unfold cellsAlong
    simp only [unitBox_heights]
    have hc0 : 0 < P.cellSize := by
      obtain ⟨cells, cs, _, hcs, _, _, _, he⟩ := hP.q.grid g hg
      rw [← he]
      rw [hP.q.core.range_eq] at hcs
      linarith [h.inv.2.range_pos]
    have : (5 : ℤ) ≤ ⌊1 / P.cellSize⌋ := by
      rw [Int.le_floor, le_div_iff₀ hc0]; push_cast; linarith
    omega
  have h5' : (5 : ℝ) ≤ (g.getCellDivisions.x : ℕ) := by exact_mod_cast h5
  have ho : Inside P.box ⟨1 / 3, 1 / 5, 1 / 7⟩ := by rw [hbx]; exact unitBox_inside (by norm_num) (by norm_num) (by norm_num)
  rcases decompose_total (divs := ⟨2, 1, 1⟩) (grid := g.getCellDivisions) hb hT.1 ho (forall_axis.mpr ⟨by simp, by simp, by simp⟩) h1 h2
    (forall_axis.mpr ⟨by simp, by simp, by simp⟩) hin hsz with ⟨a, -, hna, -⟩ | ⟨D, hD, -⟩
  · exfalso
    obtain ⟨n1, n2⟩ := hna
    match a, n1, n2 with
    | 0, _, n2 =>
      rw [hbx, unitBox_heights] at n2
      simp only [Vec3.get_zero, ballsI] at n2
      have : (1 : ℝ) / (g.getCellDivisions.x : ℕ) ≤ 1 / 5 := one_div_le_one_div_of_le (by norm_num) h5'
      norm_num at n2 this
      linarith
    | 1, n1, _ => simp at n1
    | 2, n1, _ => simp at n1
  · obtain ⟨hM, -⟩ := decompose_made hD
    obtain ⟨A, hA, -⟩ := hM.active_ok hb hT.1 (c := ⟨0, 0, 0⟩) (forall_axis.mpr ⟨by simp, by simp, by simp⟩)
    obtain ⟨A', hA', -⟩ := hM.active_ok hb hT.1 (c := ⟨1, 0, 0⟩) (forall_axis.mpr ⟨by simp, by simp, by simp⟩)
    obtain ⟨p, hp, hpa⟩ := hM.nonempty hb hT.1 ⟨0, 0, 0⟩
    obtain ⟨q, hq, hqa⟩ := hM.nonempty hb hT.1 ⟨1, 0, 0⟩
    exact ⟨P, _, g, D, A, A', p, q, h, hT, hg, hD, hA, hA', hp, hq, (hM.isInside_iff hb hT.1 hA hp).mpr hpa,
      (hM.isInside_iff hb hT.1 hA' hq).mpr hqa⟩

/-- C21, positions: whatever the configuration, the divisions, the grid and the origin, take any two different domains of a
decomposition and any two points of the box in their active regions. There is one divided axis along which these points and
all their periodic images are separated by more than the width of the ghost layer; so they are also further from
each other than the total range of the interaction. -/
theorem C21_domains_apart {P : Packing} {I : Interaction} (h : Reachable P I) (hT : TotalRange I) {divs grid : Vec3 Nat} {origin : Vec3 ℝ}
    {D : Decomposition} (hD : decompose P I divs grid origin = .ok (.ok D)) {c c' : Vec3 Nat} (hne : c ≠ c') {A A' : Active}
    (hA : D.getActiveDomainBounds c = .ok A) (hA' : D.getActiveDomainBounds c' = .ok A') :
    ∃ a : Fin 3, 2 ≤ divs.get a ∧ ∀ p q, Inside P.box p → Inside P.box q → A.isInside p = true → A'.isInside q = true →
      Separated P.box a (I.totalRange - I.range + P.box.heights.get a / grid.get a) p q ∧
      ∀ n : Vec3 ℤ, I.totalRange ^ 2 < dist2 p (q + lattice P.box n) := by
  obtain ⟨hb, -, -⟩ := reachable_box h
  obtain ⟨hM, -⟩ := decompose_made hD
  have hc : ∀ a, c.get a < divs.get a := fun a => by have := Made.coords_lt hA a; rwa [hM.divs_eq] at this
  have hc' : ∀ a, c'.get a < divs.get a := fun a => by have := Made.coords_lt hA' a; rwa [hM.divs_eq] at this
  obtain ⟨a, hna, h2⟩ := Made.differ hc hc' hne
  refine ⟨a, h2, fun p q hp hq hpA hqA => ?_⟩
  have hpa := (hM.isInside_iff hb hT.1 hA hp).mp hpA a
  have hqa := (hM.isInside_iff hb hT.1 hA' hq).mp hqA a
  have hsep := hM.separated hb hT.1 hc hc' hna h2 hpa hqa
  refine ⟨hsep, fun n => ?_⟩
  have hfar := Separated.far hb hsep n
  obtain ⟨_, _, h3⟩ := hM.fact hb hT.1 a
  obtain ⟨hrange, _, _⟩ := h3 h2
  rw [dist2_norm]
  have hpos := h.inv.2.range_pos
  have : I.totalRange < (q + lattice P.box n - p).norm := by linarith
  nlinarith [hT.1]

/-- Beside `C21_domains_apart`: a decomposition with two domains and points in both of them. -/
example : ∃ (P : Packing) (I : Interaction) (g : NG) (D : Decomposition) (A A' : Active) (p q : Vec3 ℝ), Reachable P I ∧ TotalRange I ∧
    decompose P I ⟨2, 1, 1⟩ g.getCellDivisions ⟨1 / 3, 1 / 5, 1 / 7⟩ = .ok (.ok D) ∧
    D.getActiveDomainBounds ⟨0, 0, 0⟩ = .ok A ∧ D.getActiveDomainBounds ⟨1, 0, 0⟩ = .ok A' ∧ Inside P.box p ∧ Inside P.box q ∧
    A.isInside p = true ∧ A'.isInside q = true ∧ I.totalRange ^ 2 < dist2 p q := by
  obtain ⟨P, I, g, D, A, A', p, q, h, hT, -, hD, hA, hA', hp, hq, hpA, hqA⟩ := Domain.split_example
  obtain ⟨a, -, hall⟩ := C21_domains_apart h hT hD (c := ⟨0, 0, 0⟩) (c' := ⟨1, 0, 0⟩) (by simp) hA hA'
  have := (hall p q hp hq hpA hqA).2 0
  rw [lattice_zero, add_zero] at this
  exact ⟨P, I, g, D, A, A', p, q, h, hT, hD, hA, hA', hp, hq, hpA, hqA, this⟩

/-- C21, usefulness: no domain is empty. -/
theorem C21_domains_nonempty {P : Packing} {I : Interaction} (h : Reachable P I) (hT : TotalRange I) {divs grid : Vec3 Nat} {origin : Vec3 ℝ}
    {D : Decomposition} (hD : decompose P I divs grid origin = .ok (.ok D)) {c : Vec3 Nat} (hx : c.x < divs.x) (hy : c.y < divs.y)
    (hz : c.z < divs.z) : ∃ A p, D.getActiveDomainBounds c = .ok A ∧ Inside P.box p ∧ A.isInside p = true := by
  obtain ⟨hb, -, -⟩ := reachable_box h
  obtain ⟨hM, -⟩ := decompose_made hD
  obtain ⟨A, hA, -⟩ := hM.active_ok hb hT.1 (c := c) (forall_axis.mpr ⟨hx, hy, hz⟩)
  obtain ⟨p, hp, hpa⟩ := hM.nonempty hb hT.1 c
  exact ⟨A, p, hA, hp, (hM.isInside_iff hb hT.1 hA hp).mpr hpa⟩

/-- C21, molecules: the list of molecules of a domain contains exactly the molecules whose positions are in its active region,
each once; so no molecule is in two domains. -/
theorem C21_molecules {P : Packing} {I : Interaction} (h : Reachable P I) (hT : TotalRange I) {divs grid : Vec3 Nat} {origin : Vec3 ℝ}
    (hs : divs.x < 2 ^ 63 ∧ divs.y < 2 ^ 63 ∧ divs.z < 2 ^ 63) {D : Decomposition} (hD : decompose P I divs grid origin = .ok (.ok D)) :
    (∀ c, c.x < divs.x → c.y < divs.y → c.z < divs.z → ∃ L A, D.getParticlesInRegion c = .ok L ∧ D.getActiveDomainBounds c = .ok A ∧
      L.Nodup ∧ ∀ i, i ∈ L ↔ ∃ s, (mols P)[i]? = some s ∧ A.isInside s.pos = true) ∧
    ∀ c c' L L', c ≠ c' → D.getParticlesInRegion c = .ok L → D.getParticlesInRegion c' = .ok L' → ∀ i, i ∈ L → i ∉ L' := by
  obtain ⟨hb, hin, hsz⟩ := reachable_box h
  obtain ⟨hM, hpop⟩ := decompose_made hD
  have hs' : ∀ a, divs.get a < 2 ^ 63 := forall_axis.mpr ⟨hs.1, hs.2.1, hs.2.2⟩
  have hlist : ∀ c, (∀ a, c.get a < divs.get a) → ∃ L, D.getParticlesInRegion c = .ok L := by
    intro c hc
    have hc2 : ∀ a, c.get a < D.divs.get a := by rw [hM.divs_eq]; exact hc
    unfold Decomposition.getParticlesInRegion
    rw [coordToIdx_ok hc2, Outcome.ok_bind, hM.divs_eq]
    have hlen : D.regions.length = divs.x * divs.y * divs.z := populate_length hpop
    have := flat_lt hc
    exact ⟨_, vget_ok (by rw [hlen]; exact this)⟩
  refine ⟨fun c hx hy hz => ?_, fun c c' L L' hne hL hL' i hi hi' => ?_⟩
  · have hc : ∀ a, c.get a < divs.get a := forall_axis.mpr ⟨hx, hy, hz⟩
    obtain ⟨L, hL⟩ := hlist c hc
    obtain ⟨A, hA, -, -⟩ := hM.active_ok hb hT.1 hc
    obtain ⟨-, hnd, hmem⟩ := hM.region_ok hb hT.1 hs' hpop hin hsz hL
    refine ⟨L, A, hL, hA, hnd, fun i => ?_⟩
    rw [hmem i]
    refine exists_congr fun s => and_congr_right fun hsi => ?_
    rw [hM.isInside_iff hb hT.1 hA (hin s (List.mem_of_getElem? hsi))]
  · obtain ⟨hc, -, hmem⟩ := hM.region_ok hb hT.1 hs' hpop hin hsz hL
    obtain ⟨hc', -, hmem'⟩ := hM.region_ok hb hT.1 hs' hpop hin hsz hL'
    obtain ⟨s, hsi, h1⟩ := (hmem i).mp hi
    obtain ⟨s', hsi', h2⟩ := (hmem' i).mp hi'
    rw [hsi] at hsi'
    injection hsi' with e
    subst e
    have hr := Made.unit_get ((Box.inside_iff hb _).mp (hin s (List.mem_of_getElem? hsi)))
    exact hne ((hM.coord_of_inAxis hb hT.1 hr hc hs' h1).symm.trans (hM.coord_of_inAxis hb hT.1 hr hc' hs' h2))

/-- Beside `C21_molecules`. -/
example : ∃ (P : Packing) (I : Interaction) (g : NG) (D : Decomposition) (L L' : List Nat), Reachable P I ∧ TotalRange I ∧
    decompose P I ⟨2, 1, 1⟩ g.getCellDivisions ⟨1 / 3, 1 / 5, 1 / 7⟩ = .ok (.ok D) ∧
    D.getParticlesInRegion ⟨0, 0, 0⟩ = .ok L ∧ D.getParticlesInRegion ⟨1, 0, 0⟩ = .ok L' ∧ ∀ i, i ∈ L → i ∉ L' := by
  obtain ⟨P, I, g, D, A, A', p, q, h, hT, -, hD, -⟩ := Domain.split_example
  obtain ⟨h1, h2⟩ := C21_molecules h hT (by norm_num) hD
  obtain ⟨L, -, hL, -⟩ := h1 ⟨0, 0, 0⟩ (by simp) (by simp) (by simp)
  obtain ⟨L', -, hL', -⟩ := h1 ⟨1, 0, 0⟩ (by simp) (by simp) (by simp)
  exact ⟨P, I, g, D, L, L', h, hT, hD, hL, hL', h2 _ _ L L' (by simp) hL hL'⟩

/-- C21, interactions: molecules (with orientations given by orthogonal matrices) placed anywhere in two different active domains
neither overlap nor have any interaction energy, whatever periodic images are taken. -/
theorem C21_no_interaction {P : Packing} {I : Interaction} (h : Reachable P I) (hT : TotalRange I) {divs grid : Vec3 Nat} {origin : Vec3 ℝ}
    {D : Decomposition} (hD : decompose P I divs grid origin = .ok (.ok D)) {c c' : Vec3 Nat} (hne : c ≠ c') {A A' : Active}
    (hA : D.getActiveDomainBounds c = .ok A) (hA' : D.getActiveDomainBounds c' = .ok A') {s t : Shape}
    (hs : Inside P.box s.pos) (ht : Inside P.box t.pos) (hos : Orthogonal s.rot) (hot : Orthogonal t.rot)
    (hsA : A.isInside s.pos = true) (htA : A'.isInside t.pos = true) :
    ∀ x ∈ molSites P.box I s, ∀ y ∈ molSites P.box I t, ∀ n : Vec3 ℤ,
      I.overlap x y (BC.hard (lattice P.box n)) = false ∧ I.energy x y (BC.hard (lattice P.box n)) = 0 := by
  obtain ⟨a, h2, hall⟩ := C21_domains_apart h hT hD hne hA hA'
  obtain ⟨hb, -, -⟩ := reachable_box h
  have hI := h.inv.2
  intro x hx y hy n
  have hf : ∀ n, I.totalRange < (t.pos + lattice P.box n - s.pos).norm := by
    intro n
    have := (hall s.pos t.pos hs ht hsA htA).2 n
    rw [dist2_norm] at this
    have h0 : 0 ≤ I.totalRange := by linarith [hI.range_pos, hT.1]
    exact lt_of_pow_lt_pow_left₀ 2 (Vec3.norm_nonneg _) this
  have hd := sites_far hb hT hI.range_pos hs ht hos hot hf hx hy n
  constructor
  · by_contra hne
    have := hI.overlap_range x y _ (by simpa using hne)
    linarith
  · by_contra hne
    have := hI.energy_range x y _ hne
    linarith

/-- Beside `C21_no_interaction`: two molecules put in two active domains. -/
example : ∃ (P : Packing) (I : Interaction) (s t : Shape), Reachable P I ∧ Inside P.box s.pos ∧ Inside P.box t.pos ∧
    ∀ x ∈ molSites P.box I s, ∀ y ∈ molSites P.box I t, ∀ n : Vec3 ℤ,
      I.overlap x y (BC.hard (lattice P.box n)) = false ∧ I.energy x y (BC.hard (lattice P.box n)) = 0 := by
  obtain ⟨P, I, g, D, A, A', p, q, h, hT, -, hD, hA, hA', hp, hq, hpA, hqA⟩ := Domain.split_example
  exact ⟨P, I, ⟨p, 1⟩, ⟨q, 1⟩, h, hp, hq, C21_no_interaction h hT hD (c := ⟨0, 0, 0⟩) (c' := ⟨1, 0, 0⟩) (by simp) hA hA' hp hq
    one_orthogonal one_orthogonal hpA hqA⟩

/-- C22: with the packing's own neighbour grid, when a molecule is put, taken or looked at in one active domain, and another one
in a different active domain: the grid cells which are changed because of one of them (cells containing its sites) are neither
changed nor read because of the other one. The molecules are arbitrary (any trial position and orientation). -/
theorem C22_cells_disjoint {P : Packing} {I : Interaction} (h : Reachable P I) (hT : TotalRange I) {g : NG} (hg : P.ng = some g) {divs : Vec3 Nat}
    {origin : Vec3 ℝ} {D : Decomposition} (hD : decompose P I divs g.getCellDivisions origin = .ok (.ok D)) {c c' : Vec3 Nat} (hne : c ≠ c')
    {A A' : Active} (hA : D.getActiveDomainBounds c = .ok A) (hA' : D.getActiveDomainBounds c' = .ok A') {s t : Shape}
    (hs : Inside P.box s.pos) (ht : Inside P.box t.pos) (hos : Orthogonal s.rot) (hot : Orthogonal t.rot)
    (hsA : A.isInside s.pos = true) (htA : A'.isInside t.pos = true) :
    ∀ x ∈ molSites P.box I s, ∀ y ∈ molSites P.box I t, ∃ wx wy Rx, cellWritten g x.pos = .ok wx ∧ cellWritten g y.pos = .ok wy ∧
      cellsRead g x.pos = .ok Rx ∧ wx ∈ Rx ∧ wy ≠ wx ∧ wy ∉ Rx := by
  intro x hx y hy
  obtain ⟨hP, hI⟩ := h.inv
  obtain ⟨cells, cs, hgi, hcs⟩ := hP.q.grid g hg
  have hw := hgi.wf
  have hgb : g.box = P.box := hgi.box
  have hb := hP.q.core.box
  obtain ⟨hM, -⟩ := decompose_made hD
  have hc : ∀ a, c.get a < divs.get a := fun a => by have := Made.coords_lt hA a; rwa [hM.divs_eq] at this
  have hc' : ∀ a, c'.get a < divs.get a := fun a => by have := Made.coords_lt hA' a; rwa [hM.divs_eq] at this
  have hsin := (hM.isInside_iff hb hT.1 hA hs).mp hsA
  have htin := (hM.isInside_iff hb hT.1 hA' ht).mp htA
  have hxi : Inside g.box x.pos := by rw [hgb]; exact (site_near hb hT hs hos hx).1
  have hyi : Inside g.box y.pos := by rw [hgb]; exact (site_near hb hT ht hot hy).1
  obtain ⟨Rx, hR, hRmem, hself⟩ := cellsRead_ok hw hxi
  have hcx := cellOf_inRange hw hxi
  have hcy := cellOf_inRange hw hyi
  have key : realCoordinatesToCellNo g.divs (g.cellOf y.pos) ∉ Rx := by
    intro hmem
    obtain ⟨n, hn, e⟩ := hRmem _ hmem
    exact Made.cells hw hgb hM hT hc hc' hne hs ht hos hot hsin htin hx hy hn (realCn_inj hcy (wrapCell_inRange hcx hn) e)
  refine ⟨_, _, Rx, posCell_ok hw hxi, posCell_ok hw hyi, hR, hself, fun e => key (e ▸ hself), key⟩

/-- Beside `C22_cells_disjoint`. -/
example : ∃ (P : Packing) (I : Interaction) (g : NG) (s t : Shape), Reachable P I ∧ P.ng = some g ∧ Inside P.box s.pos ∧ Inside P.box t.pos ∧
    ∀ x ∈ molSites P.box I s, ∀ y ∈ molSites P.box I t, ∃ wx wy Rx, cellWritten g x.pos = .ok wx ∧ cellWritten g y.pos = .ok wy ∧
      cellsRead g x.pos = .ok Rx ∧ wx ∈ Rx ∧ wy ≠ wx ∧ wy ∉ Rx := by
  obtain ⟨P, I, g, D, A, A', p, q, h, hT, hg, hD, hA, hA', hp, hq, hpA, hqA⟩ := Domain.split_example
  exact ⟨P, I, g, ⟨p, 1⟩, ⟨q, 1⟩, h, hg, hp, hq, C22_cells_disjoint h hT hg hD (c := ⟨0, 0, 0⟩) (c' := ⟨1, 0, 0⟩) (by simp) hA hA' hp hq
    one_orthogonal one_orthogonal hpA hqA⟩

end Rampack
