import Verif.Packing.ImageLemmas
import Verif.Packing.PropSpec
/-
Helper lemmas for the theorems about packings.
-/
namespace Rampack.Packing

open Rampack.Spec Rampack.Grid

theorem molW_overlaps {P : Packing} {I : Interaction} (hP : PInv P I) (hI : Contract I) {s t : Shape} (hs : Inside P.box s.pos)
    (ht : Inside P.box t.pos) : molW P I (ind I) s t = (pairOverlaps P I s t : ℕ) := by
  unfold molW pairOverlaps
  cases hg : P.ng with
  | none =>
    simp only [Option.isSome_none, Bool.false_eq_true, if_false]
    rw [sitePairs_cast]
    exact sitePairs_congr hP.q.core.box hs ht fun x y _ _ => pairW_nearest _ _ _ _
  | some g =>
    simp only [Option.isSome_some, if_true]
    obtain ⟨hx, hy, hz⟩ := heights_of_grid hP hg
    rw [sitePairs_cast]
    exact sitePairs_congr hP.q.core.box hs ht fun x y h1 h2 => pairW_images hP.q.core.box hI hx hy hz h1 h2

theorem molW_energy {P : Packing} {I : Interaction} (hP : PInv P I) (hI : Contract I) {s t : Shape} (hs : Inside P.box s.pos)
    (ht : Inside P.box t.pos) : molW P I I.energy s t = pairEnergy P I s t := by
  unfold molW pairEnergy
  cases hg : P.ng with
  | none =>
    simp only [Option.isSome_none, Bool.false_eq_true, if_false]
    exact sitePairs_congr hP.q.core.box hs ht fun x y _ _ => by simp [pairW]
  | some g =>
    simp only [Option.isSome_some, if_true]
    obtain ⟨hx, hy, hz⟩ := heights_of_grid hP hg
    exact sitePairs_congr hP.q.core.box hs ht fun x y h1 h2 => pairW_energy hP.q.core.box hI hx hy hz h1 h2

theorem single_overlaps {P : Packing} {I : Interaction} (hP : PInv P I) (hI : Contract I) {i : Nat} (hi : i < P.size) {s : Shape}
    (hs : Inside P.box s.pos) : single P I (ind I) i s = (overlapsOf P I i s : ℕ) := by
  unfold overlapsOf single
  rw [others_sum hi, nat_sum_cast, List.map_map]
  congr 1
  apply List.map_congr_left
  intro j hj
  rw [List.mem_filter, List.mem_range] at hj
  exact molW_overlaps hP hI hs (hP.q.core.shapeFn hj.1).2

theorem single_energy {P : Packing} {I : Interaction} (hP : PInv P I) (hI : Contract I) {i : Nat} (hi : i < P.size) {s : Shape}
    (hs : Inside P.box s.pos) : single P I I.energy i s = energyOf P I i s := by
  unfold energyOf single
  rw [others_sum hi]
  congr 1
  apply List.map_congr_left
  intro j hj
  rw [List.mem_filter, List.mem_range] at hj
  exact molW_energy hP hI hs (hP.q.core.shapeFn hj.1).2

theorem enum_mols {P : Packing} : (mols P).zipIdx.map (fun x => (x.2, x.1)) = (List.range P.size).map fun i => (i, P.shapeFn i) := by
  apply List.ext_getElem?
  intro i
  by_cases hi : i < P.size
  · rw [List.getElem?_map, List.getElem?_zipIdx, mols_getElem? hi, shape_some hi, List.getElem?_map, List.getElem?_range hi]; simp
  · rw [List.getElem?_eq_none (by simp [mols_length]; omega), List.getElem?_eq_none (by simp; omega)]

theorem double_overlaps {P : Packing} {I : Interaction} (hP : PInv P I) (hI : Contract I) :
    double P I (ind I) = (((List.range P.size).map fun i => overlapsOf P I i (P.shapeFn i)).sum : ℕ) := by
  unfold double
  rw [nat_sum_cast, List.map_map]
  congr 1
  apply List.map_congr_left
  intro i hi
  rw [List.mem_range] at hi
  exact single_overlaps hP hI hi (hP.q.core.shapeFn hi).2

theorem double_energy {P : Packing} {I : Interaction} (hP : PInv P I) (hI : Contract I) :
    double P I I.energy = ((List.range P.size).map fun i => energyOf P I i (P.shapeFn i)).sum := by
  unfold double
  congr 1
  apply List.map_congr_left
  intro i hi
  rw [List.mem_range] at hi
  exact single_energy hP hI hi (hP.q.core.shapeFn hi).2

/-- A full count is exact. -/
theorem count_exact {P : Packing} {I : Interaction} (hP : PInv P I) (hI : Contract I) :
    ∃ K : Nat, P.countTotalOverlaps I false = .ok K ∧ (K : ℝ) = numTotal P I := by
  obtain ⟨K, hK, h⟩ := count_numTotal hP.q hI
  obtain ⟨k, e, -, h2⟩ := h false
  exact ⟨k, e, by rw [h2 rfl, hK]⟩

theorem cached_exact {P : Packing} {I : Interaction} (hP : PInv P I) (hI : Contract I) (hc : P.overlapCounting = true) :
    ∃ K : Nat, P.countTotalOverlaps I false = .ok K ∧ P.numOverlaps = K := by
  obtain ⟨K, e, hK⟩ := count_exact hP hI
  refine ⟨K, e, ?_⟩
  have := hP.cached hc
  rw [← hK] at this
  exact_mod_cast this

/-- The overlaps of one molecule are among all overlaps. -/
theorem single_le_total {P : Packing} {I : Interaction} (hP : PInv P I) (hI : Contract I) {i : Nat} (hi : i < P.size) :
    single P I (ind I) i (P.shapeFn i) + wallNum P.box P.hasWall I (P.shapeFn i) ≤ numTotal P I := by
  have hnn : ∀ a ∈ Finset.range P.size, ∀ b ∈ Finset.range P.size, 0 ≤ molW P I (ind I) (P.shapeFn a) (P.shapeFn b) := by
    intro a ha b hb
    rw [molW_overlaps hP hI (hP.q.core.shapeFn (Finset.mem_range.mp ha)).2 (hP.q.core.shapeFn (Finset.mem_range.mp hb)).2]
    exact Nat.cast_nonneg _
  have him : i ∈ Finset.range P.size := Finset.mem_range.mpr hi
  have h2 : 2 * single P I (ind I) i (P.shapeFn i) ≤ double P I (ind I) := by
    rw [double_eq, ← Finset.add_sum_erase _ _ him, single_eq]
    have : ∑ j ∈ (Finset.range P.size).erase i, molW P I (ind I) (P.shapeFn i) (P.shapeFn j) ≤
        ∑ a ∈ (Finset.range P.size).erase i, ∑ b ∈ (Finset.range P.size).erase a, molW P I (ind I) (P.shapeFn a) (P.shapeFn b) := by
      apply Finset.sum_le_sum
      intro a ha
      rw [molW_symm hP.q.core.box (ind_symm hI)]
      have hia : i ∈ (Finset.range P.size).erase a := Finset.mem_erase.mpr ⟨(Finset.ne_of_mem_erase ha).symm, him⟩
      exact Finset.single_le_sum (f := fun b => molW P I (ind I) (P.shapeFn a) (P.shapeFn b))
        (fun b hb => hnn a (Finset.mem_of_mem_erase ha) b (Finset.mem_of_mem_erase hb)) hia
    linarith
  have h3 : wallNum P.box P.hasWall I (P.shapeFn i) ≤ ((List.range P.size).map fun i => wallNum P.box P.hasWall I (P.shapeFn i)).sum :=
    List.single_le_sum (fun x _ => Nat.zero_le x) _ (List.mem_map.mpr ⟨i, List.mem_range.mpr hi, rfl⟩)
  have h4 : (wallNum P.box P.hasWall I (P.shapeFn i) : ℝ) ≤
      ((((List.range P.size).map fun i => wallNum P.box P.hasWall I (P.shapeFn i)).sum : ℕ) : ℝ) := by exact_mod_cast h3
  unfold numTotal
  linarith

/-! ### Observables depend only on the configuration -/

/-- The same configuration: molecules, box and walls. -/
structure SameConf (P P' : Packing) : Prop where
  mols : mols P' = mols P
  box : P'.box = P.box
  walls : P'.hasWall = P.hasWall

theorem SameConf.size {P P' : Packing} (h : SameConf P P') : P'.size = P.size := by rw [← mols_length, h.mols, mols_length]

theorem SameConf.shapeFn {P P' : Packing} (h : SameConf P P') {i : Nat} (hi : i < P.size) : P'.shapeFn i = P.shapeFn i := by
  have h1 := shape_some hi
  have h2 := shape_some (P := P') (by rw [h.size]; exact hi)
  rw [← mols_getElem? hi, ← h.mols, mols_getElem? (by rw [h.size]; exact hi), h2] at h1
  exact Option.some.inj h1

theorem SameConf.grid {P P' : Packing} {I : Interaction} (h : SameConf P P') (hP : PInv P I) (hP' : PInv P' I) :
    P'.ng.isSome = P.ng.isSome := by
  have : P'.ng.isSome = true ↔ P.ng.isSome = true := by
    rw [hP.used, hP'.used]
    exact usesGrid_congr h.box h.size (by rw [hP.q.core.range_eq, hP'.q.core.range_eq])
  cases e : P.ng.isSome <;> cases e' : P'.ng.isSome <;> simp_all

theorem SameConf.single {P P' : Packing} {I : Interaction} (h : SameConf P P') (hP : PInv P I) (hP' : PInv P' I)
    (φ : Site → Site → BC → ℝ) (orig : Nat) (s : Shape) : Packing.single P' I φ orig s = Packing.single P I φ orig s := by
  unfold Packing.single molW
  rw [h.size, h.box, h.grid hP hP']
  apply sum_congr'
  intro j hj
  rw [List.mem_filter, List.mem_range] at hj
  rw [h.shapeFn hj.1]

theorem SameConf.double {P P' : Packing} {I : Interaction} (h : SameConf P P') (hP : PInv P I) (hP' : PInv P' I)
    (φ : Site → Site → BC → ℝ) : Packing.double P' I φ = Packing.double P I φ := by
  unfold Packing.double
  rw [h.size]
  apply sum_congr'
  intro i hi
  rw [h.single hP hP', h.shapeFn (List.mem_range.mp hi)]

theorem SameConf.numTotal {P P' : Packing} {I : Interaction} (h : SameConf P P') (hP : PInv P I) (hP' : PInv P' I) :
    Packing.numTotal P' I = Packing.numTotal P I := by
  unfold Packing.numTotal
  rw [h.double hP hP', h.size, h.box, h.walls]
  congr 3
  apply List.map_congr_left
  intro i hi
  rw [h.shapeFn (List.mem_range.mp hi)]

theorem SameConf.softTotal {P P' : Packing} {I : Interaction} (h : SameConf P P') (hP : PInv P I) (hP' : PInv P' I) :
    Packing.softTotal P' I = Packing.softTotal P I := by
  unfold Packing.softTotal; rw [h.double hP hP']

theorem SameConf.soft {P P' : Packing} {I : Interaction} (h : SameConf P P') (hP : PInv P I) (hP' : PInv P' I)
    (i : Nat) (s : Shape) : Packing.soft P' I i s = Packing.soft P I i s := by
  unfold Packing.soft; rw [h.single hP hP']

theorem mols_scaledState (P : Packing) (b : Box) (as : List (Vec3 ℝ)) (og : Option NG) (n : Int) :
    mols (P.scaledState b as og n) = (mols P).map (Shape.rescale P.box b) := by
  unfold mols
  rw [scaledState_size]
  show (P.scaledShapes b).take P.size = _
  unfold scaledShapes
  rw [List.take_append_of_le_length (by rw [List.length_map]; exact mols_length.ge)]
  rw [← List.map_take, List.take_take, min_self]

theorem SameConf.scaled {P P' : Packing} (h : SameConf P P') (b : Box) (as as' : List (Vec3 ℝ)) (og og' : Option NG) (n n' : Int) :
    SameConf (P.scaledState b as og n) (P'.scaledState b as' og' n') :=
  ⟨by rw [mols_scaledState, mols_scaledState, h.mols, h.box], rfl, h.walls⟩

/-- Observables of a packing are determined by the configuration. -/
theorem same_look {P P' : Packing} {I : Interaction} (h : SameConf P P') (hP : PInv P I) (hP' : PInv P' I) (hI : Contract I)
    (hc : P'.overlapCounting = P.overlapCounting) (ht : P'.moveThreads = P.moveThreads) : SameLook I P P' where
  mols := h.mols
  box := h.box
  walls := h.walls
  counting := hc
  overlaps := by
    obtain ⟨K, e, hK⟩ := count_exact hP hI
    obtain ⟨K', e', hK'⟩ := count_exact hP' hI
    rw [h.numTotal hP hP', ← hK] at hK'
    rw [e, e']
    have : K' = K := by exact_mod_cast hK'
    rw [this]
  cached := by
    unfold getCachedNumberOfOverlaps
    rw [hc]
    split_ifs with hon
    · have h1 := hP.cached hon
      have h2 := hP'.cached (by rw [hc]; exact hon)
      rw [h.numTotal hP hP', ← h1] at h2
      have : P'.numOverlaps = P.numOverlaps := by exact_mod_cast h2
      rw [this]
    · rfl
  energy := by rw [totalEnergy_ok hP.q hI, totalEnergy_ok hP'.q hI, h.double hP hP']
  grid := h.grid hP hP'
  trials := by
    intro tid i k domain htid hi
    have ht' : tid < P'.moveThreads := by rw [ht]; exact htid
    have hi' : i < P'.size := by rw [h.size]; exact hi
    have hs := h.shapeFn hi
    by_cases hd : InDomain k domain (k.apply P.box (P.shapeFn i)).pos
    · have hd' : InDomain k domain (k.apply P'.box (P'.shapeFn i)).pos := by rw [h.box, hs]; exact hd
      obtain ⟨P1, K0, K1, e1, -, -, -, -, -, q0, q1⟩ := trial_in hP hI htid hi hd
      obtain ⟨P1', K0', K1', e1', -, -, -, -, -, q0', q1'⟩ := trial_in hP' hI ht' hi' hd'
      rw [h.single hP hP', h.box, h.walls, hs] at q0' q1'
      have a0 : K0' = K0 := by
        have : (K0' : ℝ) = K0 := by rw [q0, q0']
        exact_mod_cast this
      have a1 : K1' = K1 := by
        have : (K1' : ℝ) = K1 := by rw [q1, q1']
        exact_mod_cast this
      refine ⟨P1, P1', _, e1, ?_⟩
      rw [e1', a0, a1, hc, hs, h.box, h.soft hP hP', h.soft hP hP']
    · have hd' : ¬ InDomain k domain (k.apply P'.box (P'.shapeFn i)).pos := by rw [h.box, hs]; exact hd
      obtain ⟨P1, e1, -⟩ := trial_out hP htid hi hd
      obtain ⟨P1', e1', -⟩ := trial_out hP' ht' hi' hd'
      exact ⟨P1, P1', _, e1, e1'⟩
  scalings := by
    intro M b hM
    have hb := (Box.make_wf hM).1
    obtain ⟨as, og, n, K, e, hS, hK⟩ := tryScaling_ok hP hI hb
    obtain ⟨as', og', n', K', e', hS', hK'⟩ := tryScaling_ok hP' hI hb
    have hsc := h.scaled b as as' og og' n n'
    rw [hsc.numTotal hS hS', ← hK] at hK'
    have hKK : K' = K := by exact_mod_cast hK'
    refine ⟨_, P'.scaledState b as' og' n', _, e, ?_⟩
    rw [e', hKK, hsc.softTotal hS hS', h.softTotal hP hP', hc, h.box]
    by_cases hon : P.overlapCounting = true
    · have h1 := hP.cached hon
      have h2 := hP'.cached (by rw [hc]; exact hon)
      rw [h.numTotal hP hP', ← h1] at h2
      have : P'.numOverlaps = P.numOverlaps := by exact_mod_cast h2
      rw [this]
    · simp only [Bool.not_eq_true] at hon
      rw [hon]; rfl

theorem SameMols.conf {P P' : Packing} (h : SameMols P P') : SameConf P P' := ⟨h.mols, h.box, h.hasWall⟩

/-! ### Sites -/

theorem molSites_length (b : Box) (I : Interaction) (s : Shape) : (molSites b I s).length = max 1 I.centres.length := by
  unfold molSites
  split_ifs with h
  · simp [h]
  · simp; omega

theorem flatMap_getElem? {α β : Type} {f : α → List β} {n : Nat} (hn : 0 < n) (hf : ∀ a, (f a).length = n) :
    ∀ (l : List α) (k : Nat), (l.flatMap f)[k]? = (l[k / n]?).bind fun a => (f a)[k % n]?
  | [], k => by simp
  | a :: l, k => by
    rw [List.flatMap_cons]
    by_cases hk : k < n
    · rw [List.getElem?_append_left (by rw [hf]; exact hk), Nat.div_eq_of_lt hk, Nat.mod_eq_of_lt hk]; rfl
    · push Not at hk
      rw [List.getElem?_append_right (by rw [hf]; exact hk), hf, flatMap_getElem? hn hf l (k - n)]
      have e1 : k / n = (k - n) / n + 1 := by
        conv_lhs => rw [show k = (k - n) + n by omega]
        exact Nat.add_div_right _ hn
      have e2 : (k - n) % n = k % n := by
        conv_rhs => rw [show k = (k - n) + n by omega]
        rw [Nat.add_mod_right]
      rw [e1, e2, List.getElem?_cons_succ]

theorem allSites_get {P : Packing} {I : Interaction} (hP : Core P I) (k : Nat) :
    (allSites P I)[k]? = if P.owner k < P.size then some (P.siteFn k) else none := by
  unfold allSites
  rw [flatMap_getElem? (n := max 1 I.centres.length) (by omega) (fun s => molSites_length _ _ s)]
  have ho : P.owner k = k / max 1 I.centres.length := by
    unfold owner
    rw [hP.m_eq]
    split_ifs with h
    · rw [h]; simp
    · rw [show max 1 I.centres.length = I.centres.length by omega]
  rw [← ho]
  split_ifs with h
  · rw [mols_getElem? h, shape_some h, Option.bind_some]
    rw [← (site_of_slot hP.m_eq (hP.shapeFn h).1).2, List.getElem?_map]
    have : (P.points (P.owner k))[k % max 1 I.centres.length]? = some k := by
      rw [ho]
      unfold points
      rw [hP.m_eq]
      split_ifs with h0
      · rw [h0]; simp [Nat.mod_one]
      · rw [show max 1 I.centres.length = I.centres.length by omega, List.getElem?_map,
          List.getElem?_range (Nat.mod_lt _ (by omega))]
        simp only [Option.map_some, Option.some.injEq]
        rw [Nat.mul_comm]; exact Nat.div_add_mod _ _
    rw [this]; rfl
  · rw [List.getElem?_eq_none (by rw [mols_length]; omega)]; rfl

theorem allSites_pos {P : Packing} {I : Interaction} (hP : Core P I) (k : Nat) :
    P.posAt k = ((allSites P I)[k]?).map Site.pos := by
  rw [allSites_get hP]
  unfold posAt
  split_ifs <;> rfl

end Rampack.Packing
