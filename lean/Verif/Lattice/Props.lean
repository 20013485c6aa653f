import Verif.Lattice.NormLemmas
/-
Theorems about lattices: C40, C41, C42.
-/
namespace Rampack

open Spec Lattice

theorem putMolecule_inv {b : Box} {d : Vec3 Nat} {N N' : Lattice} {s : Shape} (h : N.Inv) (hN : putMolecule b d N s = .ok N') : N'.Inv := by
  unfold putMolecule at hN
  obtain ⟨x, -, hN⟩ := Outcome.bind_eq_ok.mp hN
  obtain ⟨y, -, hN⟩ := Outcome.bind_eq_ok.mp hN
  obtain ⟨z, -, hN⟩ := Outcome.bind_eq_ok.mp hN
  by_cases hi : InRange N.dims ⟨x, y, z⟩
  · obtain ⟨L', h1, h2, -⟩ := modifySpecific_ok h hi fun c => c ++ [⟨remainder (b.absToRel s.pos), s.rot⟩]
    rw [h1] at hN
    injection hN with hN
    rw [← hN]
    exact h2
  · obtain ⟨m, hm⟩ := modifySpecific_throw h hi fun c => c ++ [⟨remainder (b.absToRel s.pos), s.rot⟩]
    rw [hm] at hN
    cases hN

theorem create_inv {c : UnitCell} {d : Vec3 Nat} {L : Lattice} (hc : c.box.WF) (hd : d.x * d.y * d.z < 2 ^ 31) (h : Lattice.create c d = .ok L) :
    L = ⟨[c.molecules], c.box, d, countCells d, true⟩ ∧ L.Inv ∧ 0 < d.x ∧ 0 < d.y ∧ 0 < d.z := by
  unfold Lattice.create at h
  obtain ⟨_, h1, h⟩ := Outcome.bind_eq_ok.mp h
  have h := Outcome.ok_inj.mp h
  have hpos : 0 < d.x ∧ 0 < d.y ∧ 0 < d.z := by
    cases hq : decide (0 < d.x) && decide (0 < d.y) && decide (0 < d.z) with
    | false => rw [hq] at h1; cases h1
    | true => simpa [and_assoc] using hq
  rw [← h]
  exact ⟨rfl, ⟨hc, hpos.1, hpos.2.1, hpos.2.2, hd, countCells_eq hpos.1 hpos.2.1 hpos.2.2 hd, rfl⟩, hpos⟩

theorem Spec.LatticeReached.inv {L : Lattice} (h : LatticeReached L) : L.Inv := by
  induction h with
  | create hc hd h => exact (create_inv hc hd h).2.1
  | @specific L L' i f _ h ih =>
    by_cases hi : InRange L.dims i
    · obtain ⟨L', h1, h2, -⟩ := modifySpecific_ok ih hi f
      rw [h1] at h
      injection h with h
      rw [← h]
      exact h2
    · obtain ⟨m, hm⟩ := modifySpecific_throw ih hi f
      rw [hm] at h
      cases h
  | refused _ _ ih => exact (unfolded_inv ih).1
  | @unit L L' f _ h ih =>
    by_cases hr : L.regular = true
    · obtain ⟨L', h1, h2, -⟩ := modifyUnit_ok ih hr f
      rw [h1] at h
      injection h with h
      rw [← h]
      exact h2
    · rw [Bool.not_eq_true] at hr
      rw [Lattice.modifyUnit, hr] at h
      cases h
  | box _ hb ih => exact ⟨hb, ih.x, ih.y, ih.z, ih.small, ih.num, ih.cells⟩
  | @normalize L L' _ h ih =>
    unfold Lattice.normalize at h
    by_cases hn : L.isNormalized = true
    · rw [if_pos hn] at h
      injection h with h
      rw [← h]
      exact ih
    · rw [if_neg hn] at h
      by_cases hr : L.regular = true
      · rw [if_pos hr] at h
        obtain ⟨L', h1, h2, -⟩ := modifyUnit_ok ih hr fun c => c.map wrapShape
        rw [normalizeRegular, h1] at h
        injection h with h
        rw [← h]
        exact h2
      · rw [if_neg hr] at h
        unfold normalizeIrregular at h
        obtain ⟨N, hN, h'⟩ := Outcome.bind_eq_ok.mp h
        obtain ⟨g, -, h''⟩ := Outcome.bind_eq_ok.mp h'
        have hi := (create_inv (c := ⟨L.box, []⟩) ih.wf ih.small hN).2.1
        clear hN h h'
        induction g generalizing N with
        | nil =>
          rw [List.foldlM_nil] at h''
          rw [← Outcome.ok_inj.mp h'']
          exact hi
        | cons s g ihg =>
          rw [List.foldlM_cons] at h''
          obtain ⟨N₁, h1, h2⟩ := Outcome.bind_eq_ok.mp h''
          exact ihg N₁ h2 (putMolecule_inv hi h1)

/-- C40: cells have different numbers, from 0 to one less than the number of cells, all of which are used, and anything out of range is refused. -/
theorem C40_index (L : Lattice) :
    (∀ i, InRange L.dims i ↔ ∃ n, L.cellIndex i = .ok n) ∧ (∀ i, ¬ InRange L.dims i → ∃ m, L.cellIndex i = .throw m) ∧
    (∀ i n, L.cellIndex i = .ok n → n < L.dims.x * L.dims.y * L.dims.z) ∧ (∀ i j n, L.cellIndex i = .ok n → L.cellIndex j = .ok n → i = j) ∧
    ∀ n < L.dims.x * L.dims.y * L.dims.z, ∃ i, L.cellIndex i = .ok n := by
  have key : ∀ {i n}, L.cellIndex i = .ok n → InRange L.dims i ∧ n = idx L.dims i := by
    intro i n hn
    by_cases hi : InRange L.dims i
    · rw [cellIndex_ok hi] at hn
      injection hn with hn
      exact ⟨hi, hn.symm⟩
    · obtain ⟨m, hm⟩ := cellIndex_throw hi
      rw [hm] at hn
      cases hn
  refine ⟨fun i => ⟨fun hi => ⟨_, cellIndex_ok hi⟩, fun ⟨n, hn⟩ => (key hn).1⟩, fun i hi => cellIndex_throw hi, ?_, ?_, ?_⟩
  · intro i n hn
    rw [(key hn).2]
    exact idx_lt (key hn).1
  · intro i j n hi hj
    exact idx_inj (key hi).1 (key hj).1 ((key hi).2.symm.trans (key hj).2)
  · intro n hn
    obtain ⟨i, hi, rfl⟩ := idx_surj hn
    exact ⟨i, cellIndex_ok hi⟩

/-- C40: in any lattice which can be made, molecules of all cells are generated, each exactly once, at the position relative to its cell; and the size is
the number of molecules generated. -/
theorem C40_generate {L : Lattice} (h : LatticeReached L) :
    ∃ (g : List Shape) (cells : List (Vec3 Nat)) (mols : Vec3 Nat → List Shape), L.generate = .ok g ∧ cells.Nodup ∧ (∀ i, i ∈ cells ↔ InRange L.dims i) ∧
      (∀ i, InRange L.dims i → L.getSpecific i = .ok (mols i)) ∧
      g = (cells.flatMap fun i => (mols i).map fun s => ⟨L.box.relToAbs (⟨i.x, i.y, i.z⟩ + s.pos), s.rot⟩) ∧ L.size = g.length :=
  ⟨gen L, allCells L.dims, molsAt L, generate_ok h.inv, allCells_nodup _, fun _ => mem_allCells, fun _ hi => getSpecific_ok h.inv hi, rfl, size_eq h.inv⟩

/-- C40: a lattice is made if and only if there are cells in all directions, and then the molecules of the unit cell are in all cells. -/
theorem C40_create {c : UnitCell} {d : Vec3 Nat} (hd : d.x * d.y * d.z < 2 ^ 31) :
    (0 < d.x ∧ 0 < d.y ∧ 0 < d.z → ∃ L, Lattice.create c d = .ok L ∧ L.dims = d ∧ L.box = c.box ∧ L.regular = true ∧ L.size = d.x * d.y * d.z * c.molecules.length ∧
      ∀ i, InRange d i → L.getSpecific i = .ok c.molecules) ∧
    (¬ (0 < d.x ∧ 0 < d.y ∧ 0 < d.z) → ∃ m, Lattice.create c d = .throw m) := by
  constructor
  · rintro ⟨h1, h2, h3⟩
    refine ⟨⟨[c.molecules], c.box, d, countCells d, true⟩, ?_, rfl, rfl, rfl, ?_, fun i _ => rfl⟩
    · unfold Lattice.create
      rw [decide_eq_true h1, decide_eq_true h2, decide_eq_true h3]
      rfl
    · unfold Lattice.size
      rw [if_pos rfl, countCells_eq h1 h2 h3 hd]
      rfl
  · intro h
    unfold Lattice.create
    have : (decide (0 < d.x) && decide (0 < d.y) && decide (0 < d.z)) = false := by
      rw [Bool.eq_false_iff]
      intro hq
      exact h (by simpa [and_assoc] using hq)
    rw [this]
    exact ⟨_, rfl⟩

/-- C40: changing molecules of a cell changes this cell and no other one. If there is no such cell, it is refused, and no molecule is changed. -/
theorem C40_modify {L : Lattice} (h : LatticeReached L) (i : Vec3 Nat) (f : List Shape → List Shape) :
    (InRange L.dims i → ∃ L' c, L.modifySpecific i f = .ok L' ∧ L.getSpecific i = .ok c ∧ L'.getSpecific i = .ok (f c) ∧ L'.dims = L.dims ∧ L'.box = L.box ∧
      L'.regular = false ∧ ∀ j, InRange L.dims j → j ≠ i → L'.getSpecific j = L.getSpecific j) ∧
    (¬ InRange L.dims i → (∃ m, L.modifySpecific i f = .throw m) ∧ L.unfolded.dims = L.dims ∧ L.unfolded.box = L.box ∧ L.unfolded.generate = L.generate ∧
      ∀ j, InRange L.dims j → L.unfolded.getSpecific j = L.getSpecific j) := by
  constructor
  · intro hi
    obtain ⟨L', h1, h2, h3, h4, h5, h6⟩ := modifySpecific_ok h.inv hi f
    refine ⟨L', molsAt L i, h1, getSpecific_ok h.inv hi, ?_, h3, h4, h5, ?_⟩
    · rw [getSpecific_ok h2 (by rw [h3]; exact hi), h6 i hi, if_pos rfl]
    · intro j hj hji
      rw [getSpecific_ok h2 (by rw [h3]; exact hj), getSpecific_ok h.inv hj, h6 j hj, if_neg hji]
  · intro hi
    obtain ⟨h1, h2, h3, h4, h5, h6⟩ := unfolded_inv h.inv
    refine ⟨modifySpecific_throw h.inv hi f, h2, h3, ?_, ?_⟩
    · rw [generate_ok h1, generate_ok h.inv]
      unfold gen
      rw [h2, h3]
      congr 1
      exact List.flatMap_congr fun j hj => by rw [h6 j (mem_allCells.mp hj)]
    · intro j hj
      rw [getSpecific_ok h1 (by rw [h2]; exact hj), getSpecific_ok h.inv hj, h6 j hj]

/-- C40: the unit cell is there in regular lattices only; changing it changes all cells in the same way. -/
theorem C40_unit {L : Lattice} (h : LatticeReached L) (f : List Shape → List Shape) :
    (L.regular = true → ∃ L' c, L.modifyUnit f = .ok L' ∧ L.getUnit = .ok c ∧ L'.getUnit = .ok (f c) ∧ L'.dims = L.dims ∧ L'.box = L.box ∧ L'.regular = true ∧
      ∀ i, InRange L.dims i → L.getSpecific i = .ok c ∧ L'.getSpecific i = .ok (f c)) ∧
    (L.regular = false → (∃ m, L.modifyUnit f = .throw m) ∧ ∃ m, L.getUnit = .throw m) := by
  constructor
  · intro hr
    obtain ⟨L', h1, h2, h3, h4, h5, h6, h7⟩ := modifyUnit_ok h.inv hr f
    have hc := h.inv.cells
    rw [if_pos hr] at hc
    obtain ⟨c, hl⟩ := List.length_eq_one_iff.mp hc
    refine ⟨L', c, h1, ?_, ?_, h3, h4, h5, ?_⟩
    · rw [Lattice.getUnit, hr, hl]
      rfl
    · rw [Lattice.getUnit, h5, h6, hl]
      rfl
    · intro i hi
      rw [getSpecific_ok h.inv hi, getSpecific_ok h2 (by rw [h3]; exact hi), h7]
      have : molsAt L i = c := by simp [molsAt, hr, hl]
      rw [this]
      exact ⟨rfl, rfl⟩
  · intro hr
    unfold Lattice.modifyUnit Lattice.getUnit
    rw [hr]
    exact ⟨⟨_, rfl⟩, _, rfl⟩

/-- C40: the box of the whole lattice: its sides are those of a cell times the numbers of cells. -/
theorem C40_box {L : Lattice} (h : LatticeReached L) :
    ∃ B, L.latticeBox = .ok B ∧ B.sides = ⟨(L.dims.x : ℝ) • L.box.sides.x, (L.dims.y : ℝ) • L.box.sides.y, (L.dims.z : ℝ) • L.box.sides.z⟩ ∧
      B.volume = L.dims.x * L.dims.y * L.dims.z * L.box.volume := by
  obtain ⟨B, hB, hr⟩ := latticeBox_ok h.inv
  have hs : B.sides = ⟨(L.dims.x : ℝ) • L.box.sides.x, (L.dims.y : ℝ) • L.box.sides.y, (L.dims.z : ℝ) • L.box.sides.z⟩ := by
    unfold Box.sides
    rw [hr, hr, hr]
    unfold Box.relToAbs Mat3.mulVec Vec3.dot
    ext <;> simp <;> ring
  refine ⟨B, hB, hs, ?_⟩
  have hpos : (0 : ℝ) ≤ L.dims.x * L.dims.y * L.dims.z := by positivity
  unfold Box.volume
  rw [hs, ← abs_of_nonneg hpos, ← abs_mul]
  congr 1
  unfold Vec3.cross Vec3.dot
  simp
  ring

theorem regular_generate (u : List Shape) (b : Box) (d : Vec3 Nat) (n : Nat) :
    ∃ g, Lattice.generate ⟨[u], b, d, n, true⟩ = .ok g ∧ g.length = d.x * d.y * d.z * u.length := by
  refine ⟨(allCells d).flatMap fun i => u.map (place b i), ?_, ?_⟩
  · unfold Lattice.generate
    exact (fold_flatMap (acc := []) (g := fun _ => u) (p := fun i c => c.map (place b i)) fun i _ => rfl)
  · rw [List.length_flatMap]
    simp only [List.length_map]
    rw [List.map_const', List.sum_replicate, allCells_length, smul_eq_mul]

/-- C40: the number of cells is multiplied in `int`, so the size of a lattice of 2^32 cells is 0, although 2^32 molecules are generated. -/
theorem C40_many_violated {c : UnitCell} (hc : c.molecules.length = 1) :
    ∃ L g, Lattice.create c ⟨65536, 65536, 1⟩ = .ok L ∧ L.generate = .ok g ∧ g.length = 2 ^ 32 ∧ L.size = 0 := by
  obtain ⟨g, h1, h2⟩ := regular_generate c.molecules c.box ⟨65536, 65536, 1⟩ (countCells ⟨65536, 65536, 1⟩)
  refine ⟨_, g, rfl, h1, by rw [h2, hc]; norm_num, ?_⟩
  have e : countCells ⟨65536, 65536, 1⟩ = 0 := by decide
  simp [Lattice.size, e]

/-- C41: normalisation keeps molecules, up to side vectors of the whole box, and moves them to the cells which contain them: all relative positions are then
from [0, 1). It assumes that there are at most 2^30 cells in a direction and that relative positions are within 2^30. -/
theorem C41_normalize {L : Lattice} (h : LatticeReached L) (hd : L.dims.x ≤ 2 ^ 30 ∧ L.dims.y ≤ 2 ^ 30 ∧ L.dims.z ≤ 2 ^ 30)
    (hm : ∀ i c, InRange L.dims i → L.getSpecific i = .ok c → ∀ s ∈ c, Moderate s.pos) :
    ∃ L' g g' B, L.normalize = .ok L' ∧ L.generate = .ok g ∧ L'.generate = .ok g' ∧ L.latticeBox = .ok B ∧ SameMolecules B g g' ∧ L'.size = L.size ∧
      L'.box = L.box ∧ L'.dims = L.dims ∧ L'.regular = L.regular ∧ L'.isNormalized = true ∧
      ∀ i c, InRange L'.dims i → L'.getSpecific i = .ok c → ∀ s ∈ c, Within s.pos := by
  have hI := h.inv
  obtain ⟨B, hB, -⟩ := latticeBox_ok hI
  suffices hs : ∃ L', L.normalize = .ok L' ∧ L'.Inv ∧ SameMolecules B (gen L) (gen L') ∧ L'.box = L.box ∧ L'.dims = L.dims ∧ L'.regular = L.regular ∧
      ∀ i, InRange L'.dims i → ∀ s ∈ molsAt L' i, Within s.pos by
    obtain ⟨L', h1, h2, h3, h4, h5, h6, h7⟩ := hs
    refine ⟨L', _, _, B, h1, generate_ok hI, generate_ok h2, hB, h3, ?_, h4, h5, h6, (normalized_iff h2).mpr h7, ?_⟩
    · obtain ⟨l, hl, hl'⟩ := h3
      rw [size_eq h2, size_eq hI, hl'.length_eq, hl.length_eq]
    · intro i c hi hc
      rw [getSpecific_ok h2 hi] at hc
      injection hc with hc
      rw [← hc]
      exact h7 i hi
  unfold Lattice.normalize
  by_cases hn : L.isNormalized = true
  · rw [if_pos hn]
    refine ⟨L, rfl, hI, ⟨gen L, List.Perm.refl _, ?_⟩, rfl, rfl, rfl, (normalized_iff hI).mp hn⟩
    refine List.forall₂_same.mpr fun s _ => ⟨rfl, ⟨0, 0, 0⟩, ?_⟩
    ext <;> simp [ofInts, Box.relToAbs, Mat3.mulVec, Vec3.dot]
  · rw [if_neg hn]
    by_cases hr : L.regular = true
    · rw [if_pos hr]
      obtain ⟨L', h1, h2, h3, h4, h5, h6, h7⟩ := modifyUnit_ok hI hr fun c => c.map wrapShape
      refine ⟨L', h1, h2, ?_, h4, h3, h5.trans hr.symm, ?_⟩
      · obtain ⟨l, hl, hl'⟩ := rel_list (rel_regular hI hB (L.cells.headD []))
        refine ⟨l, ?_, ?_⟩
        · have := Multiset.coe_eq_coe.mp hl
          unfold gen
          rw [h3, h4]
          simp only [molsAt, h5, if_true, h6, List.headD_cons]
          exact this
        · unfold gen
          simp only [molsAt, hr, if_true]
          exact hl'
      · intro i _ s hs
        rw [h7 i] at hs
        obtain ⟨t, -, rfl⟩ := List.mem_map.mp hs
        unfold wrapShape
        simp only [wrap_eq]
        exact within_fract t.pos
    · rw [if_neg hr]
      have hcr : Lattice.create ⟨L.box, []⟩ L.dims = .ok ⟨[[]], L.box, L.dims, countCells L.dims, true⟩ := by
        unfold Lattice.create
        rw [decide_eq_true hI.x, decide_eq_true hI.y, decide_eq_true hI.z]
        rfl
      have hNI := (create_inv (c := ⟨L.box, []⟩) hI.wf hI.small hcr).2.1
      have hrel : ∀ {i s}, InRange L.dims i → s ∈ molsAt L i → L.box.absToRel (place L.box i s).pos = ofCell i + s.pos := fun _ _ => Box.absToRel_relToAbs hI.wf _
      obtain ⟨L', h1, h2, h3, h4, h5, h6⟩ := putAll_ok (b := L.box) hd (g := gen L) hNI rfl rfl (by
        intro s hs
        obtain ⟨i, hi, hs⟩ := List.mem_flatMap.mp hs
        obtain ⟨t, ht, rfl⟩ := List.mem_map.mp hs
        have hi := mem_allCells.mp hi
        rw [hrel hi ht]
        obtain ⟨m1, m2, m3⟩ := hm i _ hi (getSpecific_ok hI hi) t ht
        have key : ∀ {a d : Nat} {x : ℝ}, a < d → d ≤ 2 ^ 30 → |x| < 2 ^ 30 → |(a : ℝ) + x| < 2 ^ 31 := by
          intro a d x h1 h2 h3
          have h4 : (a : ℝ) ≤ ((2 ^ 30 : ℕ) : ℝ) := Nat.cast_le.mpr (by omega)
          have h5 : (0 : ℝ) ≤ a := Nat.cast_nonneg a
          have h6 := abs_lt.mp h3
          push_cast at h4
          rw [abs_lt]
          constructor <;> linarith
        exact ⟨key hi.1 hd.1 m1, key hi.2.1 hd.2.1 m2, key hi.2.2 hd.2.2 m3⟩) (by
        intro i _ s hs
        simp [molsAt] at hs)
      have hgen0 : gen ⟨[[]], L.box, L.dims, countCells L.dims, true⟩ = [] := by simp [gen, molsAt]
      rw [hgen0, List.nil_append] at h5
      have hreg : L'.regular = false := by
        by_contra hq
        rw [Bool.not_eq_false] at hq
        -- there is a molecule to move
        have hne : gen L ≠ [] := by
          intro he
          apply hn
          refine (normalized_iff hI).mpr fun i hi s hs => ?_
          have : place L.box i s ∈ gen L := List.mem_flatMap.mpr ⟨i, mem_allCells.mpr hi, List.mem_map.mpr ⟨s, hs, rfl⟩⟩
          rw [he] at this
          simp at this
        have key : ∀ {g : List Shape} {N N' : Lattice}, g.foldlM (putMolecule L.box L.dims) N = .ok N' → g ≠ [] ∨ N.regular = false → N'.regular = false := by
          intro g
          induction g with
          | nil =>
            intro N N' hN hq
            rw [List.foldlM_nil] at hN
            rw [← Outcome.ok_inj.mp hN]
            exact hq.resolve_left (by simp)
          | cons s g ihg =>
            intro N N' hN _
            rw [List.foldlM_cons] at hN
            obtain ⟨N₁, g1, g2⟩ := Outcome.bind_eq_ok.mp hN
            refine ihg g2 (.inr ?_)
            unfold putMolecule at g1
            obtain ⟨x, -, g1⟩ := Outcome.bind_eq_ok.mp g1
            obtain ⟨y, -, g1⟩ := Outcome.bind_eq_ok.mp g1
            obtain ⟨z, -, g1⟩ := Outcome.bind_eq_ok.mp g1
            unfold modifySpecific at g1
            obtain ⟨n, -, g1⟩ := Outcome.bind_eq_ok.mp g1
            obtain ⟨c, -, g1⟩ := Outcome.bind_eq_ok.mp g1
            rw [← Outcome.ok_inj.mp g1]
        rw [key h1 (.inl hne)] at hq
        cases hq
      refine ⟨L', ?_, h2, ⟨_, h5.symm, ?_⟩, h4, h3, ?_, h6⟩
      · unfold normalizeIrregular
        rw [hcr, generate_ok hI]
        exact h1
      · rw [List.forall₂_map_right_iff]
        refine List.forall₂_same.mpr fun s _ => ⟨rfl, ?_⟩
        obtain ⟨n, hn'⟩ := same_cell hI hB (L.box.absToRel s.pos)
        refine ⟨n, ?_⟩
        rw [Box.relToAbs_absToRel hI.wf] at hn'
        exact hn'
      · rw [hreg]
        simpa using (Bool.not_eq_true _ ▸ hr : L.regular = false).symm

/-- A cell with two molecules, one of which is outside of it. -/
noncomputable def demoCell : UnitCell := ⟨⟨.one, .one⟩, [⟨⟨1 / 2, 0, 3⟩, .one⟩, ⟨⟨-1 / 4, 0, 0⟩, .one⟩]⟩

theorem demoCell_wf : demoCell.box.WF := ⟨by simp [demoCell, Mat3.det, Mat3.one, Vec3.dot], by
  simp only [demoCell, Mat3.inverse, Mat3.det, Mat3.one]
  ext <;> simp⟩

/-- A lattice of 2×3×4 cells, in which one cell has been emptied; there are molecules in it which are to be moved to other cells. -/
example : ∃ L L', Lattice.create demoCell ⟨2, 3, 4⟩ = .ok L ∧ L.modifySpecific ⟨1, 2, 3⟩ (fun _ => []) = .ok L' ∧ LatticeReached L' ∧ L'.regular = false ∧
    (∀ i c, InRange L'.dims i → L'.getSpecific i = .ok c → ∀ s ∈ c, Moderate s.pos) ∧ L'.isNormalized = false := by
  obtain ⟨L, h1, h2, h3, h4, -, h5⟩ := (C40_create (c := demoCell) (d := ⟨2, 3, 4⟩) (by norm_num)).1 (by norm_num)
  have hR : LatticeReached L := .create demoCell_wf (by norm_num) h1
  obtain ⟨L', c, g1, -, g3, g4, -, g6, g7⟩ := (C40_modify hR ⟨1, 2, 3⟩ fun _ => []).1 (by rw [h2]; exact ⟨by norm_num, by norm_num, by norm_num⟩)
  refine ⟨L, L', h1, g1, hR.specific g1, g6, ?_, ?_⟩
  · intro i c hi hc s hs
    rw [g4, h2] at hi
    by_cases e : i = ⟨1, 2, 3⟩
    · rw [e, g3] at hc
      injection hc with hc
      rw [← hc] at hs
      simp at hs
    · rw [g7 i (by rw [h2]; exact hi) e, h5 i hi] at hc
      injection hc with hc
      rw [← hc] at hs
      simp only [demoCell, List.mem_cons, List.not_mem_nil, or_false] at hs
      rcases hs with rfl | rfl <;> unfold Moderate <;> norm_num [abs_of_nonneg, abs_of_neg]
  · have hI := (hR.specific g1).inv
    rw [Bool.eq_false_iff]
    intro hq
    have hr : InRange L'.dims ⟨0, 0, 0⟩ := ⟨hI.x, hI.y, hI.z⟩
    have := (normalized_iff hI).mp hq ⟨0, 0, 0⟩ hr
    have e := getSpecific_ok hI hr
    rw [g4, h2] at hr
    rw [g7 _ (by rw [h2]; exact hr) (by simp), h5 _ hr] at e
    injection e with e
    rw [← e] at this
    have := this ⟨⟨-1 / 4, 0, 0⟩, .one⟩ (by simp [demoCell])
    unfold Within at this
    norm_num at this

end Rampack
