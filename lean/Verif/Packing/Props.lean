import Verif.Packing.LookLemmas
import Verif.Packing.SchedLemmas
import Verif.Packing.Demo
/-
Properties C08-C14, C16, C17 and C58 of packings, over all reachable packings (`Packing.Reachable`: any history of public
operations).
-/
namespace Rampack

open Rampack.Spec Rampack.Grid Rampack.Packing

/-! ### Allowed operations complete -/

/-- On a reachable packing every allowed operation completes normally: no exception, no access outside of the arrays. -/
theorem C10_operations_safe {P : Packing} {I : Interaction} (h : Reachable P I) {op : Op} (ha : op.Allowed P I) :
    ∃ P' I', op.run P I = .ok (P', I') := by
  obtain ⟨P', I', e, -⟩ := h.next ha
  exact ⟨P', I', e⟩

/-! ### C08 -/

/-- C08, counting: the number of overlaps of a molecule is the number of overlapping combinations (own site, site of
another molecule, periodic image), as specified by `overlapsOf` (images when the grid is used, nearest image without),
plus its overlaps with the walls. -/
theorem C08_particle_count {P : Packing} {I : Interaction} (h : Reachable P I) {i : Nat} {s : Shape}
    (hs : (mols P)[i]? = some s) : ∃ w, P.countParticleWallOverlaps I i false = .ok w ∧
      P.countParticleOverlaps I i i false = .ok (overlapsOf P I i s + w) := by
  obtain ⟨hP, hI⟩ := h.inv
  obtain ⟨hi, rfl⟩ := mem_mols hs
  have hslot := (hP.q.core.shapeFn hi)
  obtain ⟨K, hK, hk⟩ := countParticle_ok hP.q hI hslot.1 hslot.2 i
  obtain ⟨w, ew, -, hw⟩ := wallCount_ok hP.q.core.m_eq hslot.1 false
  obtain ⟨k, ek, -, hkK⟩ := hk false
  refine ⟨w, ew, ?_⟩
  rw [ek, hkK rfl, hw rfl]
  rw [single_overlaps hP hI hi hslot.2] at hK
  congr 1
  exact_mod_cast hK

/-- C08, trial moves: with overlap counting off, a trial move of a molecule with a hard part reports an infinite energy
exactly if it leaves the given domain, or the proposed shape overlaps another molecule or a wall. -/
theorem C08_trial_detects {P : Packing} {I : Interaction} (h : Reachable P I) (hhard : I.hasHard = true)
    (hoff : P.overlapCounting = false) (hwall : P.hasWall = ⟨false, false, false⟩) {i tid : Nat} {s : Shape}
    (hs : (mols P)[i]? = some s) (ht : tid < P.moveThreads) (k : Kind) (domain : Option (Vec3 ℝ → Bool)) :
    ∃ P1 e, P.tryKind I tid i k domain = .ok (P1, e) ∧
      (e = .posInf ↔ ¬ InDomain k domain (k.apply P.box s).pos ∨ 0 < overlapsOf P I i (k.apply P.box s)) := by
  obtain ⟨hP, hI⟩ := h.inv
  obtain ⟨hi, rfl⟩ := mem_mols hs
  by_cases hd : InDomain k domain (k.apply P.box (P.shapeFn i)).pos
  · obtain ⟨P1, K0, K1, e1, -, -, -, -, -, -, q1⟩ := trial_in hP hI ht hi hd
    refine ⟨P1, _, e1, ?_⟩
    rw [single_overlaps hP hI hi (Kind.apply_inside hP.q.core.box (hP.q.core.shapeFn hi).2 k), wallNum_of_none I (by simp [hasAnyWalls, hwall])] at q1
    have : K1 = overlapsOf P I i (k.apply P.box (P.shapeFn i)) := by exact_mod_cast (by simpa using q1)
    rw [← this]
    unfold moveChange
    rw [if_pos hhard, hoff]
    simp only [Bool.false_eq_true, if_false, hd, not_true_eq_false, false_or]
    split_ifs with h0 <;> simp [h0]
  · obtain ⟨P1, e1, -⟩ := trial_out hP ht hi hd
    exact ⟨P1, _, e1, by simp [hd]⟩

private theorem images_eq_nearest {M : Mat3} {b : Box} (hb : Box.make M = .ok b) {I : Interaction} (hT : UsesTranslation I) {ρ : ℝ}
    (hρ : 0 ≤ ρ) (hov : ∀ s1 s2 t, I.overlap s1 s2 (BC.hard t) = true → dist2 s1.pos (s2.pos + t) < ρ ^ 2)
    (hh : 2 * ρ ≤ b.heights.x ∧ 2 * ρ ≤ b.heights.y ∧ 2 * ρ ≤ b.heights.z) (x y : Site) :
    overlappingImages b I x y = overlappingNearest b I x y := by
  obtain ⟨⟨n, hn⟩, -, -, huniq, -⟩ := C06_translation hb x.pos y.pos
  have hwf := (Box.make_wf hb).1
  have key : ∀ t, I.overlap x y (BC.hard (lattice b t)) = true → t = n := by
    intro t ht
    have hd := hov _ _ _ ht
    have := huniq t (by
      intro h hmem
      simp only [List.mem_cons, List.not_mem_nil, or_false] at hmem
      have : 2 * ρ ≤ h := by rcases hmem with rfl | rfl | rfl <;> [exact hh.1; exact hh.2.1; exact hh.2.2]
      nlinarith)
    rw [hn] at this
    exact lattice_inj hwf this
  unfold overlappingImages overlappingNearest
  rw [hT.overlap x y (BC.pbc b)]
  have e : (BC.pbc b).translation x.pos y.pos = lattice b n := hn
  rw [e]
  split_ifs with h1
  · have : {t : Vec3 ℤ | I.overlap x y (BC.hard (lattice b t)) = true} = {n} := by
      ext t
      simp only [Set.mem_ofPred_eq, Set.mem_singleton_iff]
      exact ⟨key t, fun ht => by rw [ht]; exact h1⟩
    rw [this, Set.ncard_singleton]
  · have : {t : Vec3 ℤ | I.overlap x y (BC.hard (lattice b t)) = true} = ∅ := by
      ext t
      simp only [Set.mem_ofPred_eq, Set.mem_empty_iff_false, iff_false]
      intro ht
      rw [key t ht] at ht
      exact h1 ht
    rw [this, Set.ncard_empty]

/-- C08, agreement: if every height of the box is at least `2 ρ`, where only objects nearer than `ρ` overlap, and the
interaction is calculated from the reported translation, then counting over all images and counting with nearest images
give the same. -/
theorem C08_images_eq_nearest {M : Mat3} {b : Box} (hb : Box.make M = .ok b) {I : Interaction} (hT : UsesTranslation I) {ρ : ℝ}
    (hρ : 0 ≤ ρ) (hov : ∀ s1 s2 t, I.overlap s1 s2 (BC.hard t) = true → dist2 s1.pos (s2.pos + t) < ρ ^ 2)
    (hh : 2 * ρ ≤ b.heights.x ∧ 2 * ρ ≤ b.heights.y ∧ 2 * ρ ≤ b.heights.z) (s t : Shape) :
    sitePairs b I (overlappingImages b I) s t = sitePairs b I (overlappingNearest b I) s t := by
  have : overlappingImages b I = overlappingNearest b I := by
    funext x y; exact images_eq_nearest hb hT hρ hov hh x y
  rw [this]

/-- The hypotheses of the C08 theorems are met: two dumbbells in a cube, with and without the grid. -/
example : ∃ P, Reachable P (ballsI [⟨1 / 50, 0, 0⟩, ⟨-1 / 50, 0, 0⟩] (1 / 20) 1) ∧ (mols P).length = 2 ∧ P.ng.isSome = true ∧
    (∀ s1 s2 t, (ballsI [⟨1 / 50, 0, 0⟩, ⟨-1 / 50, 0, 0⟩] (1 / 20) 1).overlap s1 s2 (BC.hard t) = true →
      dist2 s1.pos (s2.pos + t) < (1 / 10) ^ 2) ∧ 2 * (1 / 10) ≤ P.box.heights.x := by
  obtain ⟨P, h, h1, h2, h3, -⟩ := two_reachable [⟨1 / 50, 0, 0⟩, ⟨-1 / 50, 0, 0⟩] (by simp) (r := 1 / 20) (by norm_num) (by norm_num) 1 2
  refine ⟨P, h, by rw [h1]; rfl, h3, ?_, by rw [h2, unitBox_heights]; norm_num⟩
  intro s1 s2 t ht
  simp only [ballsI, BC.hard, decide_eq_true_eq] at ht
  norm_num at ht ⊢
  exact ht

example : ∃ P, Reachable P (ballsI [] (1 / 10) 1) ∧ (mols P).length = 2 ∧ P.ng = none := by
  obtain ⟨P, h, h1, -, h3, -⟩ := two_reachable_noGrid [] (by simp) (r := 1 / 10) (by norm_num) 1 2
  exact ⟨P, h, by rw [h1]; rfl, h3⟩

/-! ### C09 -/

/-- C09: the sum of single-molecule counts plus the sum of single-molecule wall counts is twice the total count. -/
theorem C09_counts_add_up {P : Packing} {I : Interaction} (h : Reachable P I) :
    ∃ (c w : Nat → ℕ) (T : ℕ), (∀ i < P.size, P.countParticleOverlaps I i i false = .ok (c i) ∧
        P.countParticleWallOverlaps I i false = .ok (w i)) ∧ P.countTotalOverlaps I false = .ok T ∧
      ∑ i ∈ Finset.range P.size, c i + ∑ i ∈ Finset.range P.size, w i = 2 * T := by
  obtain ⟨hP, hI⟩ := h.inv
  obtain ⟨T, hT, hk⟩ := countTotal_ok hP.q hI
  obtain ⟨t, et, -, htT⟩ := hk false
  refine ⟨fun i => overlapsOf P I i (P.shapeFn i) + wallNum P.box P.hasWall I (P.shapeFn i),
    fun i => wallNum P.box P.hasWall I (P.shapeFn i), T, ?_, by rw [et, htT rfl], ?_⟩
  · intro i hi
    obtain ⟨w, ew, ec⟩ := C08_particle_count h (i := i) (s := P.shapeFn i) (by rw [mols_getElem? hi, shape_some hi])
    obtain ⟨w', ew', -, hw⟩ := wallCount_ok hP.q.core.m_eq (hP.q.core.shapeFn hi).1 false
    rw [ew] at ew'; cases ew'
    simp only
    rw [← hw rfl]
    exact ⟨ec, ew⟩
  · rw [double_overlaps hP hI] at hT
    have hT' : 2 * T = ((List.range P.size).map fun i => overlapsOf P I i (P.shapeFn i)).sum +
      2 * ((List.range P.size).map fun i => wallNum P.box P.hasWall I (P.shapeFn i)).sum := by exact_mod_cast hT
    have e : ∀ f : Nat → ℕ, ((List.range P.size).map f).sum = ∑ i ∈ Finset.range P.size, f i := by
      intro f; rw [Finset.sum_range, ← List.sum_ofFn]; congr 1; rw [List.ofFn_eq_map]; rw [← List.map_coe_finRange_eq_range, List.map_map]; rfl
    rw [e, e] at hT'
    rw [Finset.sum_add_distrib, hT']; ring

example : ∃ P, Reachable P (ballsI [] (1 / 20) 1) ∧ P.size = 2 := by
  obtain ⟨P, h, -, -, -, -, -, -, h8⟩ := two_reachable [] (by simp) (r := 1 / 20) (by norm_num) (by norm_num) 1 2
  exact ⟨P, h, h8⟩

/-! ### C10 -/

/-- C10: while overlap counting is on, the cached number is what a full recount gives, after every history of allowed
operations. -/
theorem C10_cached_eq_recount {P : Packing} {I : Interaction} (h : Reachable P I) (hc : P.overlapCounting = true) :
    ∃ K : ℕ, P.countTotalOverlaps I false = .ok K ∧ P.getCachedNumberOfOverlaps = .ok K := by
  obtain ⟨hP, hI⟩ := h.inv
  obtain ⟨K, e, hK⟩ := cached_exact hP hI hc
  exact ⟨K, e, by rw [getCachedNumberOfOverlaps, if_pos hc, hK]⟩

/-- The hypotheses are met by a history with counting switched on, an accepted move, an abandoned trial, and a reverted
and a kept volume move. -/
theorem two_history (cs : List (Vec3 ℝ)) (hcs : cs.length < 2 ^ 40) {r : ℝ} (hr : 0 < r) (hr' : 3 * r ≤ 1 / 5) (total : ℝ)
    (on : Bool) (v : Vec3 ℝ) (R : Mat3) {M : Mat3} {b : Box} (hb : Box.make M = .ok b) :
    ∃ P, Reachable P (ballsI cs r total) ∧ P.overlapCounting = on ∧ P.box = b ∧ P.size = 2 ∧ P.moveThreads = 2 ∧
      P.hasWall = ⟨false, false, false⟩ := by
  have hI := ballsI_contract cs hr total
  obtain ⟨P0, h0, -, -, -, hw, hc0, ht0, hs0⟩ := two_reachable cs hcs hr hr' total 2
  obtain ⟨n, e1, -⟩ := toggle_ok h0.inv.1 hI on
  have h1 := Reachable.step (.counting on) h0 trivial (P' := { P0 with overlapCounting := on, numOverlaps := n })
    (I' := ballsI cs r total) (by simp only [Op.run]; rw [e1]; rfl)
  generalize hP1 : ({ P0 with overlapCounting := on, numOverlaps := n } : Packing) = P1 at h1
  have s1 : P1.size = 2 := by rw [← hP1]; exact hs0
  have t1 : P1.moveThreads = 2 := by rw [← hP1]; exact ht0
  have c1 : P1.overlapCounting = on := by rw [← hP1]
  have w1 : P1.hasWall = ⟨false, false, false⟩ := by rw [← hP1]; exact hw
  obtain ⟨P2, P3, K0, K1, e2, e3, -, -, sm, rp, -⟩ := move_pinv h1.inv.1 hI (tid := 1) (i := 0) (k := .move v R) (how := .move)
    (domain := none) (by omega) (by omega) (by simp [InDomain]) trivial
  have h3 := Reachable.step (.move 1 0 (.move v R) none .move) h1 (P' := P3) (I' := ballsI cs r total)
    ⟨by omega, trivial, P1.shapeFn 0, by rw [mols_getElem? (by omega), shape_some (by omega)], by simp [InDomain]⟩
    (by simp only [Op.run]; rw [e2, Outcome.ok_bind, e3]; rfl)
  have s3 : P3.size = 2 := by rw [rp.frame.size, sm.size, s1]
  have t3 : P3.moveThreads = 2 := by rw [rp.moveThreads, sm.moveThreads, t1]
  have c3 : P3.overlapCounting = on := by rw [rp.overlapCounting, sm.overlapCounting, c1]
  have w3 : P3.hasWall = ⟨false, false, false⟩ := by rw [rp.hasWall, sm.hasWall, w1]
  obtain ⟨P4, E, e4, sm4, -⟩ := trial_any h3.inv.1 hI (tid := 0) (i := 1) (k := .translation v) (domain := none) (by omega) (by omega)
  have h4 := Reachable.step (.trial 0 1 (.translation v) none) h3 (P' := P4) (I' := ballsI cs r total)
    ⟨by omega, by omega⟩ (by simp only [Op.run]; rw [e4]; rfl)
  obtain ⟨as, og, n', K, e5, h5, -⟩ := tryScaling_ok h4.inv.1 hI (Box.make_wf hb).1
  obtain ⟨as', e6, sm6, -⟩ := revert_ok h4.inv.1 h5
  have h6 := Reachable.step (.scale b false) h4 (I' := ballsI cs r total) ⟨M, hb⟩
    (by simp only [Op.run]; rw [e5, Outcome.ok_bind, e6]; rfl)
  obtain ⟨as2, og2, n2, K2, e7, h7, -⟩ := tryScaling_ok h6.inv.1 hI (Box.make_wf hb).1
  have h8 := Reachable.step (.scale b true) h6 (I' := ballsI cs r total) ⟨M, hb⟩
    (by simp only [Op.run]; rw [e7]; rfl)
  refine ⟨_, h8, sm4.overlapCounting.trans c3, rfl, ?_, sm4.moveThreads.trans t3, sm4.hasWall.trans w3⟩
  rw [scaledState_size]
  exact sm6.size.trans (sm4.size.trans s3)

example : ∃ P, Reachable P (ballsI [⟨1 / 50, 0, 0⟩, ⟨-1 / 50, 0, 0⟩] (1 / 20) 1) ∧ P.overlapCounting = true ∧ P.size = 2 := by
  obtain ⟨P, h, hc, -, hs, -⟩ := two_history [⟨1 / 50, 0, 0⟩, ⟨-1 / 50, 0, 0⟩] (by simp) (r := 1 / 20) (by norm_num) (by norm_num) 1 true
    ⟨1 / 3, 1 / 7, 0⟩ (Mat3.diag 1 (-1) (-1)) shearedDims_ok
  exact ⟨P, h, hc, hs⟩

/-! ### C11 -/

/-- A list of trial moves none of which is accepted. -/
noncomputable def tryAll (I : Interaction) (P : Packing) (l : List (Nat × Nat × Kind × Option (Vec3 ℝ → Bool))) : Outcome Packing :=
  l.foldlM (fun P a => Prod.fst <$> P.tryKind I a.1 a.2.1 a.2.2.1 a.2.2.2) P

private theorem tryAll_same {I : Interaction} (hI : Contract I) : ∀ (l : List (Nat × Nat × Kind × Option (Vec3 ℝ → Bool))) {P : Packing},
    PInv P I → (∀ a ∈ l, a.1 < P.moveThreads ∧ a.2.1 < P.size) → ∃ P', tryAll I P l = .ok P' ∧ SameMols P P' ∧ PInv P' I
  | [], P, hP, _ => ⟨P, rfl, SameMols.refl P, hP⟩
  | a :: l, P, hP, h => by
    obtain ⟨P1, e, e1, s1, h1⟩ := trial_any hP hI (k := a.2.2.1) (domain := a.2.2.2) (h a (by simp)).1 (h a (by simp)).2
    obtain ⟨P2, e2, s2, h2⟩ := tryAll_same hI l h1 (by
      intro x hx
      rw [s1.moveThreads, s1.size]
      exact h x (by simp [hx]))
    refine ⟨P2, ?_, s1.trans s2, h2⟩
    unfold tryAll at e2 ⊢
    rw [List.foldlM_cons, e1]
    exact e2

/-- C11: any number of trial moves (of any kind, by any thread, also out of the domain) which are not accepted leaves
everything that can be observed unchanged. -/
theorem C11_trials_invisible {P : Packing} {I : Interaction} (h : Reachable P I)
    (l : List (Nat × Nat × Kind × Option (Vec3 ℝ → Bool))) (hl : ∀ a ∈ l, a.1 < P.moveThreads ∧ a.2.1 < P.size) :
    ∃ P', tryAll I P l = .ok P' ∧ SameLook I P P' := by
  obtain ⟨hP, hI⟩ := h.inv
  obtain ⟨P', e, s, h'⟩ := tryAll_same hI l hP hl
  exact ⟨P', e, same_look s.conf hP h' hI s.overlapCounting s.moveThreads⟩

example : ∃ P, Reachable P (ballsI [] (1 / 20) 1) ∧ ∀ a ∈ [(0, 1, Kind.translation ⟨1 / 3, 0, 0⟩, none),
    (1, 0, Kind.rotation (Mat3.diag 1 (-1) (-1)), (none : Option (Vec3 ℝ → Bool)))], a.1 < P.moveThreads ∧ a.2.1 < P.size := by
  obtain ⟨P, h, -, -, hs, ht, -⟩ := two_history [] (by simp) (r := 1 / 20) (by norm_num) (by norm_num) 1 true
    ⟨1 / 3, 1 / 7, 0⟩ (Mat3.diag 1 (-1) (-1)) shearedDims_ok
  exact ⟨P, h, by simp [hs, ht]⟩

/-! ### C12 -/

/-- C12: a volume move followed by a revert restores the packing: what can be observed, the grid, the stored interaction
centres and the cached number. -/
theorem C12_revert_restores {P : Packing} {I : Interaction} (h : Reachable P I) {M : Mat3} {b : Box} (hb : Box.make M = .ok b) :
    ∃ P1 e P2, P.tryScaling I b = .ok (P1, e) ∧ P1.revertScaling = .ok P2 ∧ SameLook I P P2 ∧ P2.ng = P.ng ∧
      P2.centres = P.centres ∧ (∀ k < P.size * I.centres.length, P2.absCentres[k]? = P.absCentres[k]?) ∧
      P2.numOverlaps = P.numOverlaps := by
  obtain ⟨hP, hI⟩ := h.inv
  obtain ⟨as, og, n, K, e, h1, -⟩ := tryScaling_ok hP hI (Box.make_wf hb).1
  obtain ⟨as', e2, s2, h2⟩ := revert_ok hP h1
  refine ⟨_, _, _, e, e2, same_look ⟨s2.mols, s2.box, s2.hasWall⟩ hP h2 hI rfl rfl, rfl, rfl, ?_, rfl⟩
  intro k hk
  exact s2.abs k (by show k < P.size * P.m; rw [hP.q.core.m_eq]; exact hk)

example : ∃ P, Reachable P (ballsI [] (1 / 20) 1) ∧ P.ng.isSome = true ∧
    Box.make shearedDims = .ok ⟨shearedDims, shearedDims.inverse⟩ := by
  obtain ⟨P, h, -, -, h3, -⟩ := two_reachable [] (by simp) (r := 1 / 20) (by norm_num) (by norm_num) 1 2
  exact ⟨P, h, h3, shearedDims_ok⟩

/-! ### C13 -/

private theorem wall_sched {P : Packing} {I : Interaction} (hP : PInv P I) {e : Bool} {k : Nat} (h : WallCount P I e k) :
    (0 < k ↔ 0 < ((List.range P.size).map fun i => wallNum P.box P.hasWall I (P.shapeFn i)).sum) ∧
      (e = false → k = ((List.range P.size).map fun i => wallNum P.box P.hasWall I (P.shapeFn i)).sum) := by
  unfold WallCount at h
  by_cases hw : P.hasAnyWalls = true
  · rw [if_pos hw] at h
    exact loop_result (fun i hi => wallCount_ok hP.q.core.m_eq (hP.q.core.shapeFn (List.mem_range.mp hi)).1 e) h
  · rw [if_neg hw] at h
    have : ((List.range P.size).map fun i => wallNum P.box P.hasWall I (P.shapeFn i)).sum = 0 := by
      rw [List.map_congr_left (g := fun _ => 0) (fun i _ => wallNum_of_none I (by simpa using hw) _)]
      simp
    rw [this, h]; simp

private theorem pair_sched {P : Packing} {I : Interaction} (hP : PInv P I) (hI : Contract I) : ∃ K : Nat, 2 * (K : ℝ) = double P I (ind I) ∧
    ∀ (e : Bool) k, PairCount P I e k → (0 < k ↔ 0 < K) ∧ (e = false → k = K) := by
  cases eg : P.ng with
  | none =>
    obtain ⟨h1, h2⟩ := totalNoNG_sum hP.q.core eg (ind_symm hI)
    refine ⟨numOf P I P.totalChecksNoNG, by rw [numOf_eq, h2], ?_⟩
    intro e k h
    unfold PairCount at h
    rw [eg] at h
    obtain ⟨k', ek, h'⟩ := countChecks_ok (I := I) h1 e
    simp only at h
    rw [h] at ek; cases ek
    exact h'
  | some g =>
    obtain ⟨L, h1, h2⟩ := totalNG_sum hP.q.core hI.range_pos (hP.q.grid g eg) eg
    refine ⟨((loopCells g.getCellDivisions).map fun c => numOf P I (L c)).sum, ?_, ?_⟩
    · rw [← h2 _ (ind_inRange hI) (ind_symm hI), nat_sum_cast, List.map_map]
      congr 1
      apply sum_congr'
      intro c _
      exact numOf_eq P I (L c)
    · intro e k h
      unfold PairCount at h
      rw [eg] at h
      simp only at h
      exact loop_result (F := fun c => numOf P I (L c)) (fun c hc => by
        obtain ⟨k, ek, hk⟩ := countChecks_ok (I := I) (h1 c hc).2 e
        exact ⟨k, by rw [countCell, (h1 c hc).1, Outcome.ok_bind, ek], hk⟩) h

private theorem total_sched {P : Packing} {I : Interaction} (hP : PInv P I) (hI : Contract I) {K : Nat}
    (hK : P.countTotalOverlaps I false = .ok K) (e : Bool) (k : Nat) (h : TotalCount P I e k) :
    (0 < k ↔ 0 < K) ∧ (e = false → k = K) := by
  obtain ⟨K', hK', hk'⟩ := countTotal_ok hP.q hI
  obtain ⟨k', ek', -, hkk⟩ := hk' false
  rw [hK] at ek'; cases ek'
  rw [hkk rfl]
  obtain ⟨K0, h0, hp⟩ := pair_sched hP hI
  obtain ⟨c, hc, hrest⟩ := h
  obtain ⟨hc1, hc2⟩ := hp e c hc
  have hsum : K' = K0 + ((List.range P.size).map fun i => wallNum P.box P.hasWall I (P.shapeFn i)).sum := by
    rw [← h0] at hK'
    have : (2 * K' : ℕ) = 2 * K0 + 2 * ((List.range P.size).map fun i => wallNum P.box P.hasWall I (P.shapeFn i)).sum := by
      exact_mod_cast hK'
    omega
  split_ifs at hrest with hcond
  · subst hrest
    refine ⟨by omega, fun h => by rw [h] at hcond; exact absurd hcond.1 (by simp)⟩
  · obtain ⟨w, hw, rfl⟩ := hrest
    obtain ⟨hw1, hw2⟩ := wall_sched hP hw
    refine ⟨by omega, fun h => by rw [hc2 h, hw2 h, hsum]⟩

/-- C13: whatever the distribution of iterations among threads, the interleaving of their steps and the values of the
shared flag they see, the early-exit test is positive exactly if the full count is. -/
theorem C13_early_exit {P : Packing} {I : Interaction} (h : Reachable P I) {k K : Nat} (hk : TotalCount P I true k)
    (hK : TotalCount P I false K) : 0 < k ↔ 0 < K := by
  obtain ⟨hP, hI⟩ := h.inv
  obtain ⟨T, eT, -⟩ := count_exact hP hI
  rw [(total_sched hP hI eT _ _ hk).1, (total_sched hP hI eT _ _ hK).1]

/-- C13: the full count does not depend on the schedule. -/
theorem C13_full_count {P : Packing} {I : Interaction} (h : Reachable P I) {K : Nat} (hK : TotalCount P I false K) :
    P.countTotalOverlaps I false = .ok K := by
  obtain ⟨hP, hI⟩ := h.inv
  obtain ⟨T, eT, -⟩ := count_exact hP hI
  rw [(total_sched hP hI eT _ _ hK).2 rfl]
  exact eT

private theorem seq_steps {α : Type} {e : Bool} {f : α → Outcome Nat} : ∀ (l : List α) (flag : Bool) (acc : Nat),
    (∀ c ∈ l, ∃ k, f c = .ok k) → ∃ flag' acc', SchedSteps e f ⟨flag, [⟨l, none, acc⟩]⟩ ⟨flag', [⟨[], none, acc'⟩]⟩
  | [], flag, acc, _ => ⟨flag, acc, .refl _⟩
  | c :: l, flag, acc, h => by
    obtain ⟨k, hk⟩ := h c (by simp)
    obtain ⟨flag', acc', hs⟩ := seq_steps l (flag || (e && decide (k > 0))) (acc + k) (fun x hx => h x (by simp [hx]))
    refine ⟨flag', acc', ?_⟩
    have s1 : SchedStep e f ⟨flag, [⟨c :: l, none, acc⟩]⟩ ⟨flag, [⟨l, some c, acc⟩]⟩ := SchedStep.enter flag [] [] c l acc
    have s2 : SchedStep e f ⟨flag, [⟨l, some c, acc⟩]⟩ ⟨flag || (e && decide (k > 0)), [⟨l, none, acc + k⟩]⟩ :=
      SchedStep.finish flag [] [] c l acc k hk
    have pre : ∀ {a b c : LoopState α}, SchedStep e f a b → SchedSteps e f b c → SchedSteps e f a c := by
      intro a b c h1 h2
      clear s1 s2 hs
      induction h2 with
      | refl => exact .tail (.refl _) h1
      | tail _ h3 ih => exact .tail ih h3
    exact pre s1 (pre s2 hs)

private theorem loop_exists {α : Type} {e : Bool} {f : α → Outcome Nat} {l : List α} (h : ∀ c ∈ l, ∃ k, f c = .ok k) :
    ∃ k, LoopResult e f l k := by
  obtain ⟨flag', acc', hs⟩ := seq_steps (e := e) l false 0 h
  refine ⟨_, [l], _, by simp, hs, ?_, rfl⟩
  intro t ht
  simp only [List.mem_singleton] at ht
  rw [ht]; exact ⟨rfl, rfl⟩

/-- C13: both counts exist for some schedule (one thread doing everything is one). -/
theorem C13_schedules_exist {P : Packing} {I : Interaction} (h : Reachable P I) (e : Bool) : ∃ k, TotalCount P I e k := by
  obtain ⟨hP, hI⟩ := h.inv
  have hp : ∃ c, PairCount P I e c := by
    unfold PairCount
    cases eg : P.ng with
    | none =>
      obtain ⟨h1, -⟩ := totalNoNG_sum hP.q.core eg (ind_symm hI)
      obtain ⟨k', ek, -⟩ := countChecks_ok (I := I) h1 e
      exact ⟨k', ek⟩
    | some g =>
      obtain ⟨L, h1, -⟩ := totalNG_sum hP.q.core hI.range_pos (hP.q.grid g eg) eg
      exact loop_exists fun c hc => by
        obtain ⟨k, ek, hk⟩ := countChecks_ok (I := I) (h1 c hc).2 e
        exact ⟨k, by rw [countCell, (h1 c hc).1, Outcome.ok_bind, ek]⟩
  have hw : ∃ w, WallCount P I e w := by
    unfold WallCount
    by_cases hw : P.hasAnyWalls = true
    · simp only [if_pos hw]
      exact loop_exists fun i hi => by
        obtain ⟨k, ek, -⟩ := wallCount_ok hP.q.core.m_eq (hP.q.core.shapeFn (List.mem_range.mp hi)).1 e
        exact ⟨k, ek⟩
    · simp only [if_neg hw]; exact ⟨0, rfl⟩
  obtain ⟨c, hc⟩ := hp
  obtain ⟨w, hw⟩ := hw
  by_cases hcond : e = true ∧ c > 0
  · exact ⟨1, c, hc, by rw [if_pos hcond]⟩
  · exact ⟨c + w, c, hc, by rw [if_neg hcond]; exact ⟨w, hw, rfl⟩⟩

/-! ### C14 -/

/-- C14, moves: a trial move followed by its acceptance changes the total energy by what the trial reported; and the
infinite values tell how the number of overlaps changes when it is being counted. -/
theorem C14_move_energy {P : Packing} {I : Interaction} (h : Reachable P I) {tid i : Nat} {s : Shape} {k : Kind} {how : How}
    {domain : Option (Vec3 ℝ → Bool)} (ht : tid < P.moveThreads) (hs : (mols P)[i]? = some s)
    (hd : InDomain k domain (k.apply P.box s).pos) (hfor : how.For k) :
    ∃ P1 P2 e E0 E1 N0 N1, P.tryKind I tid i k domain = .ok (P1, e) ∧ P1.acceptHow tid how = .ok P2 ∧
      mols P2 = (mols P).set i (k.apply P.box s) ∧
      P.totalEnergy I = .ok E0 ∧ P2.totalEnergy I = .ok E1 ∧
      P.countTotalOverlaps I false = .ok N0 ∧ P2.countTotalOverlaps I false = .ok N1 ∧
      (∀ dE, e = .fin dE → E1 - E0 = dE) ∧
      (I.hasHard = true → P.overlapCounting = true → (e = .negInf ↔ N1 < N0) ∧ (e = .posInf ↔ N0 < N1)) ∧
      (I.hasHard = true → P.overlapCounting = false → (e ≠ .posInf → N1 ≤ N0) ∧ (e = .posInf → 0 < N1)) := by
  obtain ⟨hP, hI⟩ := h.inv
  obtain ⟨hi, rfl⟩ := mem_mols hs
  obtain ⟨P1, P2, K0, K1, e1, e2, h1, h2, sm, rp, -, hn, hsoft, q0, q1⟩ := move_pinv hP hI ht hi hd (hfor.fits _ _)
  obtain ⟨N0, en0, hN0⟩ := count_exact hP hI
  obtain ⟨N1, en1, hN1⟩ := count_exact h2 hI
  have hK : (N1 : ℝ) + K0 = N0 + K1 := by rw [hN0, hN1, hn]; ring
  have hK' : N1 + K0 = N0 + K1 := by exact_mod_cast hK
  have hE : ∀ dE, moveChange I.hasHard P.overlapCounting K0 K1 (P.soft I i (P.shapeFn i)) (P.soft I i (k.apply P.box (P.shapeFn i))) = .fin dE →
      softTotal P2 I - softTotal P I = dE := by
    intro dE hdE
    rw [hsoft]
    unfold moveChange at hdE
    split_ifs at hdE <;> (injection hdE with hdE; rw [← hdE]; ring)
  refine ⟨P1, P2, _, _, _, N0, N1, e1, e2, by rw [rp.mols, sm.mols], totalEnergy_ok hP.q hI, totalEnergy_ok h2.q hI, en0, en1, hE, ?_, ?_⟩
  · intro hh hc
    rw [hh, hc]
    unfold moveChange
    simp only [if_true]
    split_ifs with c1 c2
    · simp; omega
    · simp; omega
    · simp; omega
  · intro hh hc
    rw [hh, hc]
    unfold moveChange
    simp only [if_true, Bool.false_eq_true, if_false]
    split_ifs with c1
    · simp only [ne_eq, not_true_eq_false, false_imp_iff, forall_const, true_and]
      -- the overlaps of the moved molecule are among the overlaps of the packing
      have : 0 < numTotal P2 I := by
        rw [hn]
        have hle : (K0 : ℝ) ≤ numTotal P I := by rw [q0]; exact single_le_total hP hI hi
        have : (0 : ℝ) < K1 := by exact_mod_cast c1
        linarith
      rw [← hN1] at this
      exact_mod_cast this
    · simp; omega

/-- C14, volume moves: a volume move changes the total energy by what it reports. -/
theorem C14_scaling_energy {P : Packing} {I : Interaction} (h : Reachable P I) {M : Mat3} {b : Box} (hb : Box.make M = .ok b) :
    ∃ P1 e E0 E1 N0 N1, P.tryScaling I b = .ok (P1, e) ∧ mols P1 = (mols P).map (Shape.rescale P.box b) ∧
      P.totalEnergy I = .ok E0 ∧ P1.totalEnergy I = .ok E1 ∧
      P.countTotalOverlaps I false = .ok N0 ∧ P1.countTotalOverlaps I false = .ok N1 ∧
      (∀ dE, e = .fin dE → E1 - E0 = dE) ∧
      (I.hasHard = true → P.overlapCounting = true → (e = .negInf ↔ N1 < N0) ∧ (e = .posInf ↔ N0 < N1)) ∧
      (I.hasHard = true → P.overlapCounting = false → isBoxUpscaled P.box b = false ∨ I.isConvex = false →
        (e = .posInf ↔ 0 < N1)) := by
  obtain ⟨hP, hI⟩ := h.inv
  obtain ⟨as, og, n, K, e, h1, hK⟩ := tryScaling_ok hP hI (Box.make_wf hb).1
  obtain ⟨N0, en0, hN0⟩ := count_exact hP hI
  obtain ⟨N1, en1, hN1⟩ := count_exact h1 hI
  have hKN : K = N1 := by exact_mod_cast hK.trans hN1.symm
  subst hKN
  refine ⟨_, _, _, _, N0, K, e, mols_scaledState P b as og n, totalEnergy_ok hP.q hI, totalEnergy_ok h1.q hI, en0, en1, ?_, ?_, ?_⟩
  · intro dE hdE
    unfold scaleChange at hdE
    split_ifs at hdE <;> (injection hdE with hdE)
  · intro hh hc
    have hcache : P.numOverlaps = (N0 : Int) := by
      have := hP.cached hc
      rw [← hN0] at this
      exact_mod_cast this
    rw [hh, hc, hcache]
    unfold scaleChange
    simp only [if_true, Nat.cast_lt]
    split_ifs with c1 c2
    · simp; omega
    · simp; omega
    · simp; omega
  · intro hh hc hsk
    have : (I.isConvex && isBoxUpscaled P.box b) = false := by rcases hsk with hsk | hsk <;> simp [hsk]
    rw [hh, hc, this]
    unfold scaleChange
    simp only [if_true, Bool.false_eq_true, if_false]
    split_ifs with c1 <;> simp [c1]

/-- The hypotheses are met after a history with counting off and on. -/
example (on : Bool) : ∃ P s, Reachable P (ballsI [⟨1 / 50, 0, 0⟩, ⟨-1 / 50, 0, 0⟩] (1 / 20) 1) ∧ P.overlapCounting = on ∧
    1 < P.moveThreads ∧ (mols P)[1]? = some s ∧ How.For (.rotation (Mat3.diag 1 (-1) (-1))) .rotation ∧
    InDomain (.rotation (Mat3.diag 1 (-1) (-1))) none s.pos := by
  obtain ⟨P, h, hc, -, hs, ht, -⟩ := two_history [⟨1 / 50, 0, 0⟩, ⟨-1 / 50, 0, 0⟩] (by simp) (r := 1 / 20) (by norm_num) (by norm_num) 1 on
    ⟨1 / 3, 1 / 7, 0⟩ (Mat3.diag 1 (-1) (-1)) shearedDims_ok
  exact ⟨P, P.shapeFn 1, h, hc, by omega, by rw [mols_getElem? (by omega), shape_some (by omega)], trivial, trivial⟩

/-! ### C16 -/

/-- C16: all molecules are in the box. -/
theorem C16_inside {P : Packing} {I : Interaction} (h : Reachable P I) : ∀ s ∈ mols P, Inside P.box s.pos := inside_mols h.inv.1

/-- Met after a history which includes moves and a change to a sheared box. -/
example : ∃ P, Reachable P (ballsI [] (1 / 20) 1) ∧ (mols P).length = 2 ∧ P.box = ⟨shearedDims, shearedDims.inverse⟩ := by
  obtain ⟨P, h, -, hb, hs, -⟩ := two_history [] (by simp) (r := 1 / 20) (by norm_num) (by norm_num) 1 true
    ⟨1 / 3, 1 / 7, 0⟩ (Mat3.diag 1 (-1) (-1)) shearedDims_ok
  exact ⟨P, h, by rw [mols_length, hs], hb⟩

/-! ### C17 -/

/-- C17: each stored interaction centre is the rotated centre of the model; each stored absolute one is in the box and
differs by a lattice vector from the rotated centre placed at the molecule. -/
theorem C17_centres {P : Packing} {I : Interaction} (h : Reachable P I) {i : Nat} {s : Shape} (hs : (mols P)[i]? = some s)
    {c : Nat} {v : Vec3 ℝ} (hv : I.centres[c]? = some v) :
    P.centres[i * I.centres.length + c]? = some (s.rot.mulVec v) ∧
    ∃ p, P.absCentres[i * I.centres.length + c]? = some p ∧ Inside P.box p ∧ IsLattice P.box (p - (s.pos + s.rot.mulVec v)) := by
  obtain ⟨hP, hI⟩ := h.inv
  obtain ⟨hi, rfl⟩ := mem_mols hs
  have hslot := (hP.q.core.shapeFn hi).1
  have hc : c < I.centres.length := by
    by_contra hc
    rw [List.getElem?_eq_none (by omega)] at hv; cases hv
  have e : I.centres.getD c 0 = v := by rw [List.getD_eq_getElem?_getD, hv]; rfl
  have h1 := hslot.centre c hc
  have h2 := hslot.abs c hc
  rw [e] at h1 h2
  refine ⟨h1, _, h2, wrap_inside hP.q.core.box _, ?_⟩
  have := (C05_correction hP.q.core.box.make ((P.shapeFn i).pos + (P.shapeFn i).rot.mulVec v)).2.1
  unfold wrap
  rw [add_sub_cancel_left]
  exact this

/-- C17, grid: when the grid is used, each of its cells (of size at least the range) lists exactly the sites whose
positions are in that cell, each once. -/
theorem C17_grid {P : Packing} {I : Interaction} (h : Reachable P I) {g : NG} (hg : P.ng = some g) :
    ∃ cs, I.range ≤ cs ∧ ∀ c : Vec3 Nat, IsCell ⟨P.box, cs, fun _ => none⟩ c → ∃ l, g.getCell c = .ok l ∧ l.Nodup ∧
      ∀ k, k ∈ l ↔ ∃ x, (allSites P I)[k]? = some x ∧ InCell ⟨P.box, cs, fun _ => none⟩ c x.pos := by
  obtain ⟨hP, hI⟩ := h.inv
  obtain ⟨cells, cs, hi, hcs, -⟩ := hP.q.grid g hg
  refine ⟨cs, by rw [← hP.q.core.range_eq]; exact hcs, ?_⟩
  intro c hc
  have hin : InRange (nreal g.divs) c := by rw [hi.nreal_eq]; exact hc
  refine ⟨_, getCell_ok hi.wf hi.rep hin, hi.rep.nodup _, fun k => ?_⟩
  rw [hi.mem]
  have hpos : ∀ p, P.posAt k = some p ↔ ∃ x, (allSites P I)[k]? = some x ∧ x.pos = p := by
    intro p
    rw [allSites_pos hP.q.core, Option.map_eq_some_iff]
  constructor
  · rintro ⟨p, hp, e⟩
    obtain ⟨x, hx, rfl⟩ := (hpos p).mp hp
    have hins := hi.inside k x.pos hp
    refine ⟨x, hx, (hi.inCell_iff hins).mpr ?_⟩
    exact realCn_inj hin (cellOf_inRange hi.wf (by rw [hi.box]; exact hins)) e
  · rintro ⟨x, hx, hcell⟩
    have hp := (hpos x.pos).mpr ⟨x, hx, rfl⟩
    have hins := hi.inside k x.pos hp
    exact ⟨x.pos, hp, by rw [(hi.inCell_iff hins).mp hcell]⟩

example : ∃ P g s, Reachable P (ballsI [⟨1 / 50, 0, 0⟩, ⟨-1 / 50, 0, 0⟩] (1 / 20) 1) ∧ P.ng = some g ∧ (mols P)[1]? = some s ∧
    (ballsI [⟨1 / 50, 0, 0⟩, ⟨-1 / 50, 0, 0⟩] (1 / 20) 1).centres[1]? = some ⟨-1 / 50, 0, 0⟩ := by
  obtain ⟨P, h, -, -, h3, -, -, -, h8⟩ := two_reachable [⟨1 / 50, 0, 0⟩, ⟨-1 / 50, 0, 0⟩] (by simp) (r := 1 / 20) (by norm_num) (by norm_num) 1 2
  obtain ⟨g, hg⟩ := Option.isSome_iff_exists.mp h3
  exact ⟨P, g, P.shapeFn 1, h, hg, by rw [mols_getElem? (by omega), shape_some (by omega)], rfl⟩

/-! ### C58 -/

/-- C58: what a packing shows depends only on the molecules, the box, the walls and the counting mode, not on how it got
there. -/
theorem C58_history_independence {P P' : Packing} {I : Interaction} (h : Reachable P I) (h' : Reachable P' I)
    (hm : mols P' = mols P) (hb : P'.box = P.box) (hw : P'.hasWall = P.hasWall) (hc : P'.overlapCounting = P.overlapCounting)
    (ht : P'.moveThreads = P.moveThreads) : SameLook I P P' :=
  same_look ⟨hm, hb, hw⟩ h.inv.1 h'.inv.1 h.inv.2 hc ht

/-- The hypotheses are met by different histories: a packing, and the same packing after an abandoned trial move and a
reverted volume move. -/
example : ∃ P P', Reachable P (ballsI [] (1 / 20) 1) ∧ Reachable P' (ballsI [] (1 / 20) 1) ∧ mols P' = mols P ∧ P'.box = P.box ∧
    P'.lastBox ≠ P.lastBox := by
  have hI := ballsI_contract [] (r := 1 / 20) (by norm_num) 1
  obtain ⟨P, h, -, hb, -⟩ := two_history [] (by simp) (r := 1 / 20) (by norm_num) (by norm_num) 1 true
    ⟨1 / 3, 1 / 7, 0⟩ (Mat3.diag 1 (-1) (-1)) unitBox_ok
  obtain ⟨as2, og2, n2, K2, e7, h7, -⟩ := tryScaling_ok h.inv.1 hI (Box.make_wf shearedDims_ok).1
  have h8 := Reachable.step (.scale _ true) h (I' := ballsI [] (1 / 20) 1) ⟨_, shearedDims_ok⟩
    (by simp only [Op.run]; rw [e7]; rfl)
  generalize hQ : P.scaledState ⟨shearedDims, shearedDims.inverse⟩ as2 og2 n2 = Q at h8
  have hl : Q.lastBox = P.box := by rw [← hQ]; rfl
  have hqb : Q.box = ⟨shearedDims, shearedDims.inverse⟩ := by rw [← hQ]; rfl
  obtain ⟨as, og, n', K, e5, h5, -⟩ := tryScaling_ok h8.inv.1 hI (Box.make_wf unitBox_ok).1
  obtain ⟨as', e6, sm6, -⟩ := revert_ok h8.inv.1 h5
  have h6 := Reachable.step (.scale _ false) h8 (I' := ballsI [] (1 / 20) 1) ⟨_, unitBox_ok⟩
    (by simp only [Op.run]; rw [e5, Outcome.ok_bind, e6]; rfl)
  refine ⟨Q, _, h8, h6, sm6.mols, sm6.box, ?_⟩
  show Q.box ≠ Q.lastBox
  rw [hl, hqb, hb]
  intro hc
  have := congrArg (fun b : Box => b.dims.r0.y) hc
  simp [shearedDims, Mat3.diag] at this

end Rampack
