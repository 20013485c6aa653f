import Verif.Packing.SumLemmas
/-
Helper lemmas: the pairs visited by the counting functions, expressed by the shapes only.
-/
namespace Rampack.Packing

open Rampack.Spec Rampack.Grid

/-- Everything stored for the slot `a` corresponds to the shape `s`. -/
structure SlotOk (P : Packing) (I : Interaction) (a : Nat) (s : Shape) : Prop where
  shape : P.shapes[a]? = some s
  centre : ∀ c < I.centres.length, P.centres[a * I.centres.length + c]? = some (s.rot.mulVec (I.centres.getD c 0))
  abs : ∀ c < I.centres.length, P.absCentres[a * I.centres.length + c]? =
    some (wrap P.box (s.pos + s.rot.mulVec (I.centres.getD c 0)))

/-- The value of `site` (some default value when it fails). -/
noncomputable def siteFn (P : Packing) (k : Nat) : Site :=
  match P.site k with
  | .ok s => s
  | _ => ⟨0, 1, 0⟩

/-- The index denotes an existing site. -/
def SiteOk (P : Packing) (k : Nat) : Prop := P.site k = .ok (P.siteFn k)

/-- The position under which a grid index should be stored. -/
noncomputable def posAt (P : Packing) (k : Nat) : Option (Vec3 ℝ) :=
  if P.owner k < P.size then some (P.siteFn k).pos else none

/-- Part of the invariant which concerns the molecules. -/
structure Core (P : Packing) (I : Interaction) : Prop where
  m_eq : P.m = I.centres.length
  range_eq : P.range = I.range
  threads : P.moveThreads ≤ P.shapes.length
  box : P.box.WF
  inside : ∀ i s, i < P.size → P.shapes[i]? = some s → Inside P.box s.pos
  slots : ∀ i s, i < P.size → P.shapes[i]? = some s → SlotOk P I i s
  clen : P.centres.length = P.shapes.length * P.m
  alen : P.absCentres.length = P.shapes.length * P.m
  la : P.lastAltered.length = P.moveThreads
  ld : P.lastDeltas.length = P.moveThreads

theorem cellSize_congr {P P' : Packing} (hb : P'.box = P.box) (hs : P'.size = P.size) (hr : P'.range = P.range) :
    P'.cellSize = P.cellSize := by
  unfold cellSize; rw [hb, hs, hr]

/-- Part of the invariant which concerns the grid. -/
def GridOk (P : Packing) (g : NG) : Prop :=
  ∃ cells cs, GInv g.succ.length g ⟨P.box, cs, P.posAt⟩ cells ∧ P.range ≤ cs ∧
    cs < P.box.heights.x ∧ cs < P.box.heights.y ∧ cs < P.box.heights.z ∧ cs = P.cellSize

theorem site_of_slot {P : Packing} {I : Interaction} {a : Nat} {s : Shape} (hm : P.m = I.centres.length)
    (h : SlotOk P I a s) :
    (∀ k ∈ P.points a, SiteOk P k) ∧ (P.points a).map P.siteFn = molSites P.box I s := by
  by_cases h0 : P.m = 0
  · have e : P.site a = .ok ⟨s.pos, s.rot, 0⟩ := by
      rw [site, if_pos h0, vget_eq_of_getElem? h.shape]; rfl
    have e' : P.siteFn a = ⟨s.pos, s.rot, 0⟩ := by rw [siteFn, e]
    constructor
    · intro k hk
      rw [points, if_pos h0, List.mem_singleton] at hk
      subst hk
      rw [SiteOk, e, e']
    · rw [points, if_pos h0, molSites, if_pos (by omega)]; simp [e']
  · have hpos : 0 < P.m := Nat.pos_of_ne_zero h0
    have e : ∀ c < P.m, P.site (a * P.m + c) =
        .ok ⟨wrap P.box (s.pos + s.rot.mulVec (I.centres.getD c 0)), s.rot, c⟩ := by
      intro c hc
      have h1 := h.abs c (by omega)
      rw [← hm] at h1
      have d1 : (a * P.m + c) / P.m = a := by
        rw [Nat.mul_comm, Nat.mul_add_div hpos, Nat.div_eq_of_lt hc, Nat.add_zero]
      have d2 : (a * P.m + c) % P.m = c := by
        rw [Nat.mul_comm, Nat.mul_add_mod, Nat.mod_eq_of_lt hc]
      rw [site, if_neg h0, vget_eq_of_getElem? h1, Outcome.ok_bind, d1, vget_eq_of_getElem? h.shape, d2]
      rfl
    have e' : ∀ c < P.m, P.siteFn (a * P.m + c) =
        ⟨wrap P.box (s.pos + s.rot.mulVec (I.centres.getD c 0)), s.rot, c⟩ := by
      intro c hc; rw [siteFn, e c hc]
    constructor
    · intro k hk
      rw [points, if_neg h0, List.mem_map] at hk
      obtain ⟨c, hc, rfl⟩ := hk
      rw [List.mem_range] at hc
      rw [SiteOk, e c hc, e' c hc]
    · rw [points, if_neg h0, molSites, if_neg (by omega), List.map_map, ← hm]
      apply List.map_congr_left
      intro c hc
      exact e' c (List.mem_range.mp hc)

theorem mem_points {P : Packing} {a k : Nat} : k ∈ P.points a ↔ P.owner k = a := by
  by_cases h0 : P.m = 0
  · simp [points, owner, h0]
  · have hpos : 0 < P.m := Nat.pos_of_ne_zero h0
    simp only [points, owner, if_neg h0, List.mem_map, List.mem_range]
    constructor
    · rintro ⟨c, hc, rfl⟩
      rw [Nat.mul_comm, Nat.mul_add_div hpos, Nat.div_eq_of_lt hc, Nat.add_zero]
    · rintro rfl
      exact ⟨k % P.m, Nat.mod_lt _ hpos, Nat.div_add_mod' k P.m⟩

theorem points_nodup (P : Packing) (a : Nat) : (P.points a).Nodup := by
  by_cases h0 : P.m = 0
  · simp [points, h0]
  · rw [points, if_neg h0]
    exact List.nodup_range.map (fun x y h => by simpa using h)

theorem wrap_inside {b : Box} (hb : b.WF) (p : Vec3 ℝ) : Inside b (wrap b p) := by
  have : Box.make b.dims = .ok b := by
    unfold Box.make
    rw [if_neg hb.det_ne, ← hb.inv_eq]
  exact (C05_correction this p).1

/-- Sites of a molecule inside the box are inside the box. -/
theorem molSites_inside {b : Box} {I : Interaction} {s : Shape} (hb : b.WF) (hs : Inside b s.pos) :
    ∀ x ∈ molSites b I s, Inside b x.pos := by
  intro x hx
  unfold molSites at hx
  split at hx
  · rw [List.mem_singleton] at hx; subst hx; exact hs
  · obtain ⟨k, _, rfl⟩ := List.mem_map.mp hx
    exact wrap_inside hb _

/-- Pair function with the translation given, summed over neighbouring images or for the nearest image. -/
noncomputable def pairW (b : Box) (grid : Bool) (φ : Site → Site → BC → ℝ) (s1 s2 : Site) : ℝ :=
  if grid then ∑ t ∈ shifts, φ s1 s2 (BC.hard (lattice b t)) else φ s1 s2 (BC.pbc b)

/-- Pair functions which vanish beyond the range. -/
def InRangeFn (r : ℝ) (φ : Site → Site → BC → ℝ) : Prop :=
  ∀ s1 s2 t, φ s1 s2 (BC.hard t) ≠ 0 → dist2 s1.pos (s2.pos + t) ≤ r ^ 2

/-- Symmetric pair functions. -/
structure SymmFn (φ : Site → Site → BC → ℝ) : Prop where
  hard : ∀ s1 s2 t, φ s1 s2 (BC.hard t) = φ s2 s1 (BC.hard (-t))
  pbc : ∀ b : Box, b.WF → ∀ s1 s2, φ s1 s2 (BC.pbc b) = φ s2 s1 (BC.pbc b)

theorem pairW_symm {b : Box} (hb : b.WF) (grid : Bool) {φ : Site → Site → BC → ℝ} (h : SymmFn φ) (s1 s2 : Site) :
    pairW b grid φ s1 s2 = pairW b grid φ s2 s1 := by
  cases grid
  · exact h.pbc b hb s1 s2
  · simp only [pairW, if_true]
    apply Finset.sum_nbij' (fun t => -t) (fun t => -t)
    · intro t ht; exact neg_mem_shifts ht
    · intro t ht; exact neg_mem_shifts ht
    · intro t _; exact neg_neg t
    · intro t _; exact neg_neg t
    · intro t _; rw [h.hard, lattice_neg]

/-- Value of a visited pair. -/
noncomputable def val (P : Packing) (φ : Site → Site → BC → ℝ) (c : Check) : ℝ :=
  φ (P.siteFn c.1) (P.siteFn c.2.1) c.2.2

/-- Both indices of the pair denote existing sites. -/
def CheckOk (P : Packing) (c : Check) : Prop := SiteOk P c.1 ∧ SiteOk P c.2.1

theorem Core.slot {P : Packing} {I : Interaction} (h : Core P I) {i : Nat} (hi : i < P.size) :
    ∃ s, P.shapes[i]? = some s ∧ SlotOk P I i s ∧ Inside P.box s.pos := by
  have hl : i < P.shapes.length := by unfold size at hi; omega
  exact ⟨P.shapes[i], by simp [hl], h.slots i _ hi (by simp [hl]), h.inside i _ hi (by simp [hl])⟩

theorem Core.siteOk {P : Packing} {I : Interaction} (h : Core P I) {k : Nat} (hk : P.owner k < P.size) :
    SiteOk P k ∧ Inside P.box (P.siteFn k).pos := by
  obtain ⟨s, _, hs, hin⟩ := h.slot hk
  have := site_of_slot h.m_eq hs
  have hmem : k ∈ P.points (P.owner k) := mem_points.mpr rfl
  exact ⟨this.1 k hmem, molSites_inside (I := I) h.box hin _ (by rw [← this.2]; exact List.mem_map_of_mem hmem)⟩

/-- The indices of all other molecules. -/
def others (P : Packing) (orig : Nat) : List Nat := ((List.range P.size).filter (· ≠ orig)).flatMap P.points

theorem mem_others {P : Packing} {orig k : Nat} : k ∈ P.others orig ↔ P.owner k < P.size ∧ P.owner k ≠ orig := by
  simp only [others, List.mem_flatMap, List.mem_filter, List.mem_range, mem_points, decide_eq_true_eq]
  constructor
  · rintro ⟨a, ⟨h1, h2⟩, rfl⟩; exact ⟨h1, h2⟩
  · rintro ⟨h1, h2⟩; exact ⟨_, ⟨h1, h2⟩, rfl⟩

theorem others_nodup (P : Packing) (orig : Nat) : (P.others orig).Nodup := by
  apply nodup_flatMap_of (List.nodup_range.filter _)
  · intro x _; exact points_nodup P x
  · intro x _ y _ a ha hb
    rw [mem_points] at ha hb
    omega

theorem GInv.mem_cells {n : Nat} {g : NG} {P : Packing} {cs : ℝ} {cells : Nat → List Nat}
    (h : GInv n g ⟨P.box, cs, P.posAt⟩ cells) {k c : Nat} : k ∈ cells c ↔
      P.owner k < P.size ∧ c = realCoordinatesToCellNo g.divs (g.cellOf (P.siteFn k).pos) := by
  rw [h.mem]
  simp only [posAt]
  constructor
  · rintro ⟨p, hp, rfl⟩
    split at hp
    · rename_i ho; cases hp; exact ⟨ho, rfl⟩
    · cases hp
  · rintro ⟨ho, rfl⟩
    exact ⟨_, by rw [if_pos ho], rfl⟩

/-- What is seen from a cell around a point, restricted to the other molecules. -/
theorem seen_sum {P : Packing} {I : Interaction} (hP : Core P I) (hI : 0 < I.range) {g : NG} {cells : Nat → List Nat} {cs : ℝ}
    (hg : GInv g.succ.length g ⟨P.box, cs, P.posAt⟩ cells) (hcs : P.range ≤ cs) {φ : Site → Site → BC → ℝ}
    (hφ : InRangeFn I.range φ) {s1 : Site} (hs : Inside P.box s1.pos) (orig : Nat) :
    (((seen (nreal g.divs) (fun c => cells (realCoordinatesToCellNo g.divs c)) (g.cellOf s1.pos)).filter
        fun p => P.owner p.1 ≠ orig).map fun p => φ s1 (P.siteFn p.1) (BC.hard (lattice P.box p.2))).sum =
      ((P.others orig).map fun k => pairW P.box true φ s1 (P.siteFn k)).sum := by
  classical
  have hbox : g.box = P.box := hg.box
  have hin : InRange (nreal g.divs) (g.cellOf s1.pos) := cellOf_inRange hg.wf (by rw [hbox]; exact hs)
  rw [sum_list_eq_finset (S := (P.others orig).toFinset ×ˢ shifts) ((seen_nodup hg.rep.cellsOk hin).filter _)]
  · rw [Finset.sum_product]
    rw [List.sum_toFinset _ (others_nodup P orig)]
    rfl
  · rintro ⟨k, t⟩ hk _
    rw [List.mem_filter, mem_seen] at hk
    obtain ⟨⟨n, hn, hk, ht⟩, ho⟩ := hk
    rw [Finset.mem_product, List.mem_toFinset, mem_others]
    simp only [decide_eq_true_eq] at ho
    refine ⟨⟨((GInv.mem_cells hg).mp hk).1, ho⟩, ?_⟩
    simp only at ht
    rw [ht]
    exact tau_mem_shifts hin hn
  · rintro ⟨k, t⟩ hk hne
    rw [Finset.mem_product, List.mem_toFinset, mem_others] at hk
    obtain ⟨⟨h1, h2⟩, -⟩ := hk
    simp only at h1 h2 hne
    have hsk := hP.siteOk h1
    have hd := hφ _ _ _ hne
    have hcs0 : 0 < cs := by rw [hP.range_eq] at hcs; linarith
    have hle : I.range ^ 2 ≤ cs ^ 2 := by
      rw [hP.range_eq] at hcs
      exact pow_le_pow_left₀ hI.le hcs 2
    obtain ⟨n, hn, hw, ht⟩ := direction_exists hg.wf hcs0 hg.wide (p := s1.pos) (q := (P.siteFn k).pos) (t := t)
      (by rw [hbox]; exact hs) (by rw [hbox]; exact hsk.2) (by rw [hbox]; linarith)
    rw [List.mem_filter, mem_seen]
    refine ⟨⟨n, hn, ?_, ht.symm⟩, by simpa using h2⟩
    simp only [hw]
    exact (GInv.mem_cells hg).mpr ⟨h1, rfl⟩

theorem sum_perm {α : Type} {l l' : List α} (h : l.Perm l') (f : α → ℝ) : (l.map f).sum = (l'.map f).sum :=
  (h.map f).sum_eq

/-- Everything stored for the slot is inside the box. -/
theorem slot_sites {P : Packing} {I : Interaction} (hP : Core P I) {a : Nat} {s : Shape} (ha : SlotOk P I a s)
    (hs : Inside P.box s.pos) : ∀ k ∈ P.points a, SiteOk P k ∧ Inside P.box (P.siteFn k).pos := by
  intro k hk
  have := site_of_slot hP.m_eq ha
  exact ⟨this.1 k hk, molSites_inside hP.box hs _ (by rw [← this.2]; exact List.mem_map_of_mem hk)⟩

theorem flatten_ok {α γ : Type} {Q : Check → Prop} {S : γ → Prop} {v : γ → Check → ℝ} {F : γ → α → ℝ} :
    ∀ {as : List α} {ls : List (List Check)},
      List.Forall₂ (fun a l => (∀ c ∈ l, Q c) ∧ ∀ φ, S φ → (l.map (v φ)).sum = F φ a) as ls →
      (∀ c ∈ ls.flatten, Q c) ∧ ∀ φ, S φ → (ls.flatten.map (v φ)).sum = (as.map (F φ)).sum
  | _, _, .nil => by simp
  | _, _, .cons h hs => by
    have ih := flatten_ok hs
    constructor
    · intro c hc
      rw [List.flatten_cons, List.mem_append] at hc
      rcases hc with hc | hc
      · exact h.1 c hc
      · exact ih.1 c hc
    · intro φ hφ
      rw [List.flatten_cons, List.map_append, List.sum_append, h.2 φ hφ, ih.2 φ hφ, List.map_cons, List.sum_cons]

theorem particleChecksNG_ok {P : Packing} {I : Interaction} (hP : Core P I) (hI : 0 < I.range) {g : NG} (hg : GridOk P g)
    {temp : Nat} {s : Shape} (ht : SlotOk P I temp s) (hs : Inside P.box s.pos) (orig : Nat) :
    ∃ l, P.particleChecksNG g orig temp = .ok l ∧ (∀ c ∈ l, CheckOk P c) ∧
      ∀ φ, InRangeFn I.range φ → (l.map (P.val φ)).sum =
        ((P.points temp).map fun k1 => ((P.others orig).map fun k2 =>
          pairW P.box true φ (P.siteFn k1) (P.siteFn k2)).sum).sum := by
  obtain ⟨cells, cs, hg, hcs, -⟩ := hg
  have hbox : g.box = P.box := hg.box
  obtain ⟨ls, e, hf⟩ := mapM_ok' (l := P.points temp) (f := fun k1 => do
    let s ← P.site k1
    let nbs ← g.getNeighbouringCellsPos s.pos false
    return nbs.flatMap fun e => (e.2.filter fun k2 => P.owner k2 ≠ orig).map fun k2 => (k1, k2, BC.hard e.1))
    (P := fun k1 l => (∀ c ∈ l, CheckOk P c) ∧ ∀ φ, InRangeFn I.range φ → (l.map (P.val φ)).sum =
      ((P.others orig).map fun k2 => pairW P.box true φ (P.siteFn k1) (P.siteFn k2)).sum) (by
    intro k1 hk1
    obtain ⟨h1, h2⟩ := slot_sites hP ht hs k1 hk1
    obtain ⟨L, e, hp⟩ := getNeighbouringCellsPos_ok hg.wf hg.rep (p := (P.siteFn k1).pos) (by rw [hbox]; exact h2) false
    refine ⟨_, by rw [show P.site k1 = .ok (P.siteFn k1) from h1, Outcome.ok_bind, e, Outcome.ok_bind]; rfl, ?_, ?_⟩
    · intro c hc
      simp only [List.mem_flatMap, List.mem_map, List.mem_filter] at hc
      obtain ⟨x, hx, k2, ⟨hk2, _⟩, rfl⟩ := hc
      have := hp.mem_iff.mp hx
      obtain ⟨n, hn, rfl⟩ := List.mem_map.mp this
      exact ⟨h1, (hP.siteOk ((GInv.mem_cells hg).mp hk2).1).1⟩
    · intro φ hφ
      rw [← seen_sum hP hI hg hcs hφ h2 orig, sum_perm (hp.flatMap_right _) (P.val φ), List.flatMap_map, seen, sum_flatMap,
        List.filter_flatMap, sum_flatMap]
      apply sum_congr'
      intro n _
      rw [List.map_map, List.filter_map, List.map_map]
      apply congrArg
      simp only [hbox]
      rfl)
  exact ⟨ls.flatten, by rw [particleChecksNG, e]; rfl, flatten_ok hf⟩

end Rampack.Packing
