import Verif.Lattice.ArrangeProps
/-
Theorems on lattice arrangements (C107), continued.
-/
namespace Rampack

open Spec LatticeDimensions Arrange Lattice CellOptimizationTransformer DistanceOptimizer

theorem withBox_eq (c : CellType) (b : Box) : c.withBox b = ⟨b, documentedSites c⟩ := by
  cases c with
  | sc => rfl
  | bcc => rfl
  | fcc => rfl
  | hcp axis =>
    have h := hcp_sites b axis
    have hb : (Factory.hcp b axis).box = b := rfl
    show Factory.hcp b axis = _
    rw [show Factory.hcp b axis = ⟨(Factory.hcp b axis).box, (Factory.hcp b axis).molecules⟩ from rfl, h, hb]
    fin_cases axis <;> rfl
  | hexagonal axis => fin_cases axis <;> rfl
  | custom shapes => rfl

theorem box_pos {l : Vec3 ℝ} (h : 0 < l.x ∧ 0 < l.y ∧ 0 < l.z) : ∃ b, Box.ofLengths l = .ok b ∧ b.WF ∧ b.dims = Mat3.diag l.x l.y l.z := by
  obtain ⟨hx, hy, hz⟩ := h
  have hd : (Mat3.diag l.x l.y l.z).det ≠ 0 := by
    have : (Mat3.diag l.x l.y l.z).det = l.x * l.y * l.z := by simp [Mat3.diag, Mat3.det]
    rw [this]
    positivity
  refine ⟨⟨Mat3.diag l.x l.y l.z, (Mat3.diag l.x l.y l.z).inverse⟩, ?_, ⟨hd, rfl⟩, rfl⟩
  unfold Box.ofLengths Box.make
  rw [if_neg hd]

theorem dim_box {dim : DimArg} (h : ProperDim dim) : ∃ b, dim.box = .ok b ∧ b.WF ∧ b.sides = documentedSides dim := by
  cases dim with
  | number a =>
    have ha : 0 < a := h
    obtain ⟨b, h1, h2, h3⟩ := box_pos (l := ⟨a, a, a⟩) ⟨ha, ha, ha⟩
    refine ⟨b, h1, h2, ?_⟩
    unfold Box.sides Box.relToAbs
    rw [h3]
    simp [documentedSides, Mat3.diag, Mat3.mulVec, Vec3.dot]
  | lengths l =>
    obtain ⟨b, h1, h2, h3⟩ := box_pos h
    refine ⟨b, h1, h2, ?_⟩
    unfold Box.sides Box.relToAbs
    rw [h3]
    simp [documentedSides, Mat3.diag, Mat3.mulVec, Vec3.dot]
  | vectors m =>
    have h' : 1 / 10 ^ 8 < |m.det| := h
    have hd : m.transpose.det ≠ 0 := by
      have e : m.transpose.det = m.det := by simp [Mat3.transpose, Mat3.det, Mat3.c0, Mat3.c1, Mat3.c2]; ring
      rw [e]
      intro h0
      rw [h0, abs_zero] at h'
      norm_num at h'
    refine ⟨⟨m.transpose, m.transpose.inverse⟩, ?_, ⟨hd, rfl⟩, ?_⟩
    · show Box.make m.transpose = _
      rw [Box.make, if_neg hd]
    · unfold Box.sides Box.relToAbs
      ext <;> simp [documentedSides, Mat3.transpose, Mat3.mulVec, Vec3.dot, Mat3.c0, Mat3.c1, Mat3.c2]

theorem withNumber_ok {c : CellType} {a : ℝ} (ha : 0 < a) : ∃ b : Box, b.WF ∧ c.withNumber a = .ok ⟨b, documentedSites c⟩ := by
  have key : ∀ l : Vec3 ℝ, 0 < l.x ∧ 0 < l.y ∧ 0 < l.z → ∃ b : Box, b.WF ∧ Box.ofLengths l = .ok b := by
    intro l hl
    obtain ⟨b, h1, h2, -⟩ := box_pos hl
    exact ⟨b, h2, h1⟩
  cases c with
  | sc =>
    obtain ⟨b, h1, h2⟩ := key ⟨a, a, a⟩ ⟨ha, ha, ha⟩
    exact ⟨b, h1, by simp only [CellType.withNumber, Factory.scBalls, h2]; rfl⟩
  | bcc =>
    have h : 0 < 2 * a / √3 := by positivity
    obtain ⟨b, h1, h2⟩ := key ⟨2 * a / √3, 2 * a / √3, 2 * a / √3⟩ ⟨h, h, h⟩
    exact ⟨b, h1, by simp only [CellType.withNumber, Factory.bccBalls, h2]; rfl⟩
  | fcc =>
    have h : 0 < √2 * a := by positivity
    obtain ⟨b, h1, h2⟩ := key ⟨√2 * a, √2 * a, √2 * a⟩ ⟨h, h, h⟩
    exact ⟨b, h1, by simp only [CellType.withNumber, Factory.fccBalls, h2]; rfl⟩
  | hcp axis =>
    have h1 : 0 < √3 * a := by positivity
    have h2 : 0 < 2 * √6 * a / 3 := by positivity
    obtain ⟨b, h3, h4⟩ := key (Factory.sidesFor axis a (√3 * a) (2 * √6 * a / 3)) (by fin_cases axis <;> exact ⟨by assumption, by assumption, by assumption⟩)
    refine ⟨b, h3, ?_⟩
    simp only [CellType.withNumber, Factory.hcpBalls, h4]
    exact congrArg Outcome.ok (withBox_eq (.hcp axis) b)
  | hexagonal axis =>
    have h1 : 0 < √3 * a := by positivity
    obtain ⟨b, h3, h4⟩ := key (Factory.sidesFor axis a (√3 * a) a) (by fin_cases axis <;> exact ⟨by assumption, by assumption, by assumption⟩)
    refine ⟨b, h3, ?_⟩
    simp only [CellType.withNumber, Factory.hexagonalBalls, h4]
    exact congrArg Outcome.ok (withBox_eq (.hexagonal axis) b)
  | custom shapes =>
    obtain ⟨b, h1, h2⟩ := key ⟨a, a, a⟩ ⟨ha, ha, ha⟩
    exact ⟨b, h1, by simp only [CellType.withNumber, h2]; rfl⟩

theorem cell_make {c : CellType} {dim : DimArg} (h : ProperDim dim) : ∃ b : Box, b.WF ∧ c.make dim = .ok ⟨b, documentedSites c⟩ ∧ ((∀ a, dim ≠ .number a) → b.sides = documentedSides dim) := by
  cases dim with
  | number a =>
    obtain ⟨b, h1, h2⟩ := withNumber_ok (c := c) (a := a) h
    exact ⟨b, h1, h2, fun hh => absurd rfl (hh a)⟩
  | lengths l =>
    obtain ⟨b, h1, h2, h3⟩ := dim_box h
    refine ⟨b, h2, ?_, fun _ => h3⟩
    rw [← withBox_eq]
    have h1' : Box.ofLengths l = .ok b := h1
    simp only [CellType.make, h1']
    rfl
  | vectors m =>
    obtain ⟨b, h1, h2, h3⟩ := dim_box h
    refine ⟨b, h2, ?_, fun _ => h3⟩
    rw [← withBox_eq]
    have h1' : Box.make m.transpose = .ok b := h1
    simp only [CellType.make, h1']
    rfl

theorem accepted_cell {c : CellType} : c.accepted = true ↔ ProperCell c := by
  unfold ProperCell
  cases c <;> simp [CellType.accepted, documentedSites]

theorem accepted_dim {dim : DimArg} : dim.accepted = true ↔ ProperDim dim := by
  cases dim <;> simp [DimArg.accepted, ProperDim, and_assoc]

theorem accepted_count {n : Vec3 Nat} : positiveCells n = true ↔ ProperCount n := by
  simp [positiveCells, ProperCount, and_assoc]

theorem accepted_fill {f : Fill} (h : ProperFill f) : f.accepted = true := by
  cases f with
  | full => rfl
  | auto m => simpa [Fill.accepted, ProperFill] using h
  | random m shuffle => simpa [Fill.accepted] using h.1
  | serial m axes =>
    obtain ⟨h1, a, ⟨h2, h3, h4⟩, rfl⟩ := h
    obtain ⟨x, y, z⟩ := a
    simp only at h2 h3 h4
    simp only [Fill.accepted, h1, decide_true, Bool.true_and]
    fin_cases x <;> fin_cases y <;> fin_cases z <;> first | (exfalso; simp at h2 h3 h4; done) | rfl

theorem axisOrder_sorted (d : Vec3 Nat) {a : Vec3 (Fin 3)} (h2 : [(d.x, 'x'), (d.y, 'y'), (d.z, 'z')].Perm [(d.get a.z, axisLetter a.z), (d.get a.y, axisLetter a.y), (d.get a.x, axisLetter a.x)])
    (h1 : [(d.get a.z, axisLetter a.z), (d.get a.y, axisLetter a.y), (d.get a.x, axisLetter a.x)].Pairwise (fun a b => pairLe a b = true)) :
    axisOrder d = [axisLetter a.x, axisLetter a.y, axisLetter a.z] := by
  have tr : ∀ a b c : Nat × Char, pairLe a b = true → pairLe b c = true → pairLe a c = true := by
    intro a b c
    simp only [pairLe, Bool.or_eq_true, Bool.and_eq_true, decide_eq_true_eq]
    omega
  have tot : ∀ a b : Nat × Char, (pairLe a b || pairLe b a) = true := by
    intro a b
    simp only [pairLe, Bool.or_eq_true, Bool.and_eq_true, decide_eq_true_eq]
    omega
  have h3 := List.pairwise_mergeSort tr tot [(d.x, 'x'), (d.y, 'y'), (d.z, 'z')]
  have e : [(d.x, 'x'), (d.y, 'y'), (d.z, 'z')].mergeSort pairLe = [(d.get a.z, axisLetter a.z), (d.get a.y, axisLetter a.y), (d.get a.x, axisLetter a.x)] := by
    refine List.Perm.eq_of_pairwise ?_ h3 h1 ((List.mergeSort_perm _ _).trans h2)
    intro a b _ _ h4 h5
    simp only [pairLe, Bool.or_eq_true, Bool.and_eq_true, decide_eq_true_eq] at h4 h5
    have e1 : a.1 = b.1 := by omega
    have e2 : a.2.toNat = b.2.toNat := by omega
    exact Prod.ext e1 (Char.toNat_inj.mp e2)
  unfold axisOrder
  rw [e]
  rfl

/-- C107: with the automatic order of axes, the outermost loop is over the axis with the most cells, and the innermost one over the axis with the fewest cells; axes with equally many cells are in the order z, y, x. -/
theorem C107_axes (d : Vec3 Nat) : ∃ a : Vec3 (Fin 3), (a.x ≠ a.y ∧ a.x ≠ a.z ∧ a.y ≠ a.z) ∧ axisOrder d = [axisLetter a.x, axisLetter a.y, axisLetter a.z] ∧
    (d.get a.y < d.get a.x ∨ d.get a.y = d.get a.x ∧ a.y < a.x) ∧ (d.get a.z < d.get a.y ∨ d.get a.z = d.get a.y ∧ a.z < a.y) := by
  have P : ∀ {p q r : Nat × Char}, [p, q, r].Perm [p, q, r] ∧ [p, q, r].Perm [p, r, q] ∧ [p, q, r].Perm [q, p, r] ∧ [p, q, r].Perm [q, r, p] ∧ [p, q, r].Perm [r, p, q] ∧ [p, q, r].Perm [r, q, p] := by
    intro p q r
    refine ⟨.refl _, .cons _ (.swap ..), .swap .., (List.Perm.swap ..).trans (.cons _ (.swap ..)), (List.Perm.cons _ (.swap ..)).trans (.swap ..),
      ((List.Perm.cons _ (.swap ..)).trans (.swap ..)).trans (.cons _ (.swap ..))⟩
  have c1 : 'x'.toNat ≤ 'y'.toNat := by decide
  have c2 : 'y'.toNat ≤ 'z'.toNat := by decide
  have c3 : 'x'.toNat ≤ 'z'.toNat := by decide
  have mk : ∀ a : Vec3 (Fin 3), [(d.x, 'x'), (d.y, 'y'), (d.z, 'z')].Perm [(d.get a.z, axisLetter a.z), (d.get a.y, axisLetter a.y), (d.get a.x, axisLetter a.x)] →
      (a.x ≠ a.y ∧ a.x ≠ a.z ∧ a.y ≠ a.z) → (d.get a.y < d.get a.x ∨ d.get a.y = d.get a.x ∧ a.y < a.x) → (d.get a.z < d.get a.y ∨ d.get a.z = d.get a.y ∧ a.z < a.y) →
      ∃ a : Vec3 (Fin 3), (a.x ≠ a.y ∧ a.x ≠ a.z ∧ a.y ≠ a.z) ∧ axisOrder d = [axisLetter a.x, axisLetter a.y, axisLetter a.z] ∧
        (d.get a.y < d.get a.x ∨ d.get a.y = d.get a.x ∧ a.y < a.x) ∧ (d.get a.z < d.get a.y ∨ d.get a.z = d.get a.y ∧ a.z < a.y) := by
    intro a h1 h2 h3 h4
    refine ⟨a, h2, axisOrder_sorted d h1 ?_, h3, h4⟩
    have lt : ∀ p q : Fin 3, p < q → (axisLetter p).toNat ≤ (axisLetter q).toNat := by decide
    have le : ∀ p q : Fin 3, d.get p < d.get q ∨ d.get p = d.get q ∧ p < q → pairLe (d.get p, axisLetter p) (d.get q, axisLetter q) = true := by
      intro p q h
      simp only [pairLe, Bool.or_eq_true, Bool.and_eq_true, decide_eq_true_eq]
      rcases h with h | ⟨h, h'⟩
      · exact .inl h
      · exact .inr ⟨h, lt _ _ h'⟩
    have h5 : d.get a.z < d.get a.x ∨ d.get a.z = d.get a.x ∧ a.z < a.x := by
      rcases h3 with h3 | ⟨h3, h3'⟩ <;> rcases h4 with h4 | ⟨h4, h4'⟩
      · exact .inl (by omega)
      · exact .inl (by omega)
      · exact .inl (by omega)
      · exact .inr ⟨by omega, h4'.trans h3'⟩
    simp [le _ _ h3, le _ _ h4, le _ _ h5]
  obtain ⟨x, y, z⟩ := d
  obtain ⟨p1, p2, p3, p4, p5, p6⟩ := P (p := (x, 'x')) (q := (y, 'y')) (r := (z, 'z'))
  by_cases hxy : x ≤ y <;> by_cases hyz : y ≤ z <;> by_cases hxz : x ≤ z
  · exact mk ⟨2, 1, 0⟩ p1 (by decide) (by simp [Vec3.get]; omega) (by simp [Vec3.get]; omega)
  · exfalso; omega
  · exact mk ⟨1, 2, 0⟩ p2 (by decide) (by simp [Vec3.get]; omega) (by simp [Vec3.get]; omega)
  · exact mk ⟨1, 0, 2⟩ p5 (by decide) (by simp [Vec3.get]; omega) (by simp [Vec3.get]; omega)
  · exact mk ⟨2, 0, 1⟩ p3 (by decide) (by simp [Vec3.get]; omega) (by simp [Vec3.get]; omega)
  · exact mk ⟨0, 2, 1⟩ p4 (by decide) (by simp [Vec3.get]; omega) (by simp [Vec3.get]; omega)
  · exfalso; omega
  · exact mk ⟨0, 1, 2⟩ p6 (by decide) (by simp [Vec3.get]; omega) (by simp [Vec3.get]; omega)

/-- C107: after transformations, whatever they are, the box is the one of the lattice and molecules are those of the lattice: all of them, or as many as requested, none of them twice. If more are requested than there are, it is
refused. -/
theorem C107_fill {L L' : Lattice} {ts : List (Lattice → Outcome Lattice)} (h : ts.foldlM (fun L t => t L) L = .ok L') (hL : LatticeReached L') {f : Fill} (hf : ProperFill f) :
    ∃ (B : Box) (g : List Shape), L'.latticeBox = .ok B ∧ L'.generate = .ok g ∧ g.length = L'.size ∧
      (requested f = none → createPacking L ts f = .ok (B, g)) ∧
      ∀ m, requested f = some m → (m ≤ L'.size → ∃ r, createPacking L ts f = .ok (B, r) ∧ r.length = m ∧ r.Subperm g) ∧ (L'.size < m → ∃ e, createPacking L ts f = .throw e) := by
  obtain ⟨B, hB, -, -⟩ := C40_box hL
  have hI := hL.inv
  refine ⟨B, gen L', hB, generate_ok hI, (size_eq hI).symm, ?_, ?_⟩
  · intro hr
    cases f with
    | full =>
      unfold createPacking
      rw [h, Outcome.ok_bind]
      show ((L'.generate) >>= _) = _
      rw [generate_ok hI, Outcome.ok_bind, hB]
      rfl
    | auto m => cases hr
    | serial m axes => cases hr
    | random m shuffle => cases hr
  · have ok : ∀ {f : Fill} {r : List Shape}, f.populate L' = .ok r → createPacking L ts f = .ok (B, r) := by
      intro f r hr
      unfold createPacking
      rw [h, Outcome.ok_bind, hr, Outcome.ok_bind, hB]
      rfl
    have no : ∀ {f : Fill} {e : String}, f.populate L' = .throw e → createPacking L ts f = .throw e := by
      intro f r hr
      unfold createPacking
      rw [h, Outcome.ok_bind, hr]
      rfl
    have ser : ∀ {f : Fill} {m : Nat} {a : Vec3 (Fin 3)}, (a.x ≠ a.y ∧ a.x ≠ a.z ∧ a.y ≠ a.z) → f.populate L' = SerialPopulator.populate [axisLetter a.x, axisLetter a.y, axisLetter a.z] L' m →
        (m ≤ L'.size → ∃ r, createPacking L ts f = .ok (B, r) ∧ r.length = m ∧ r.Subperm (gen L')) ∧ (L'.size < m → ∃ e, createPacking L ts f = .throw e) := by
      intro f m a ha e
      obtain ⟨s1, s2⟩ := C42_serial hL ha m
      constructor
      · intro hm
        obtain ⟨r, g, cells, mols, q1, q2, -, -, -, -, q3, q4⟩ := s1 hm
        rw [generate_ok hI] at q2
        injection q2 with q2
        rw [← q2] at q4
        exact ⟨r, ok (e.trans q1), q3, q4⟩
      · intro hm
        obtain ⟨x, hx⟩ := s2 hm
        exact ⟨x, no (e.trans hx)⟩
    intro m hr
    cases f with
    | full => cases hr
    | auto k =>
      injection hr with hr
      subst hr
      obtain ⟨a, ha, ho, -⟩ := C107_axes L'.dims
      exact ser ha (by rw [← ho]; rfl)
    | serial k axes =>
      injection hr with hr
      subst hr
      obtain ⟨-, a, ha, rfl⟩ := hf
      exact ser ha rfl
    | random k shuffle =>
      injection hr with hr
      subst hr
      obtain ⟨s1, s2⟩ := C42_random hL hf.2 k
      constructor
      · intro hm
        obtain ⟨r, g, q1, q2, q3, q4⟩ := s1 hm
        rw [generate_ok hI] at q2
        injection q2 with q2
        rw [← q2] at q3
        exact ⟨r, ok q1, q4, q3.subperm⟩
      · intro hm
        obtain ⟨x, hx⟩ := s2 hm
        exact ⟨x, no hx⟩

theorem lattice_made {b : Box} {u : List Shape} (hb : b.WF) {d : Vec3 Nat} (hd : ProperCount d) (hs : cellCount d < 2 ^ 31) :
    ∃ (L : Lattice) (B : Box) (g : List Shape) (cells : List (Vec3 Nat)), Lattice.create ⟨b, u⟩ d = .ok L ∧ LatticeReached L ∧ L.dims = d ∧ L.regular = true ∧ L.box = b ∧
      L.latticeBox = .ok B ∧ B.WF ∧ B.dims = stretch b.dims ⟨d.x, d.y, d.z⟩ ∧ L.generate = .ok g ∧ FilledBox B d u cells g ∧ g.length = cellCount d * u.length := by
  obtain ⟨L, h1, h2, h3, h4, h5, h6⟩ := (C40_create (c := ⟨b, u⟩) hs).1 hd
  have hL : LatticeReached L := .create (c := ⟨b, u⟩) hb hs h1
  obtain ⟨B, hB, -⟩ := latticeBox_ok hL.inv
  have hB' := hB
  rw [latticeBox_stretch, h2, h3] at hB'
  obtain ⟨hw, hdim⟩ := Box.make_wf hB'
  refine ⟨L, B, gen L, Lattice.allCells d, h1, hL, h2, h4, h3, hB, hw, hdim, generate_ok hL.inv, ⟨allCells_nodup _, fun i => mem_allCells, ?_⟩, ?_⟩
  · unfold gen
    rw [h2]
    refine List.flatMap_congr ?_
    intro i hi
    have hm : molsAt L i = u := by
      have e1 := getSpecific_ok hL.inv (i := i) (by rw [h2]; exact mem_allCells.mp hi)
      rw [h6 i (mem_allCells.mp hi)] at e1
      injection e1 with e1
      exact e1.symm
    rw [hm]
    refine List.map_congr_left ?_
    intro s _
    unfold place
    congr 1
    show L.box.dims.mulVec _ = B.dims.mulVec _
    rw [hdim, stretch_mulVec, h3]
    congr 1
    have hx : (d.x : ℝ) ≠ 0 := Nat.cast_ne_zero.mpr hd.1.ne'
    have hy : (d.y : ℝ) ≠ 0 := Nat.cast_ne_zero.mpr hd.2.1.ne'
    have hz : (d.z : ℝ) ≠ 0 := Nat.cast_ne_zero.mpr hd.2.2.ne'
    ext
    · show (i.x : ℝ) + s.pos.x = _
      field_simp
    · show (i.y : ℝ) + s.pos.y = _
      field_simp
    · show (i.z : ℝ) + s.pos.z = _
      field_simp
  · rw [← size_eq hL.inv, h5]
    rfl

/-- C107: the lattice with given sides of a cell and numbers of cells: the box has the sides of a cell times the numbers, each cell has molecules as documented, and transformations and partial filling are applied to this lattice. -/
theorem C107_manual {c : CellType} {dim : DimArg} {n : Vec3 Nat} (hc : ProperCell c) (hdim : ProperDim dim) (hn : ProperCount n) (hs : cellCount n < 2 ^ 31) :
    ∃ (b B : Box) (L : Lattice) (g : List Shape) (cells : List (Vec3 Nat)), c.make dim = .ok ⟨b, documentedSites c⟩ ∧ ((∀ a, dim ≠ .number a) → b.sides = documentedSides dim) ∧
      B.sides = ⟨(n.x : ℝ) • b.sides.x, (n.y : ℝ) • b.sides.y, (n.z : ℝ) • b.sides.z⟩ ∧ LatticeReached L ∧ L.dims = n ∧ L.box = b ∧ L.regular = true ∧
      (∀ ts f, ProperFill f → manual c dim n ts f = createPacking L ts f) ∧
      manual c dim n [] .full = .ok (B, g) ∧ FilledBox B n (documentedSites c) cells g ∧ g.length = cellCount n * (documentedSites c).length := by
  obtain ⟨b, hb, h1, h2⟩ := cell_make (c := c) hdim
  obtain ⟨L, B, g, cells, q1, q2, q3, q4, q5, q6, q7, q8, q9, q10, q11⟩ := lattice_made (u := documentedSites c) hb hn hs
  have he : ∀ ts f, ProperFill f → manual c dim n ts f = createPacking L ts f := by
    intro ts f hf
    unfold manual
    rw [accepted_cell.mpr hc, accepted_dim.mpr hdim, accepted_count.mpr hn, accepted_fill hf, h1]
    show (Lattice.create _ _ >>= _) = _
    rw [q1]
    rfl
  refine ⟨b, B, L, g, cells, h1, h2, ?_, q2, q3, q5, q4, he, ?_, q10, q11⟩
  · obtain ⟨s1, s2, s3⟩ := stretch_sides (b := b) rfl q8
    exact Vec3.ext s1 s2 s3
  · rw [he [] .full trivial]
    unfold createPacking
    show (L.generate >>= _) = _
    rw [q9, Outcome.ok_bind, q6]
    rfl

theorem divide_ok {c : CellType} {B : Box} (hB : B.WF) {n : Vec3 Nat} (hn : ProperCount n) :
    ∃ b : Box, b.WF ∧ divide c B n = .ok ⟨b, documentedSites c⟩ ∧ stretch b.dims ⟨n.x, n.y, n.z⟩ = B.dims := by
  have hx : (n.x : ℝ) ≠ 0 := Nat.cast_ne_zero.mpr hn.1.ne'
  have hy : (n.y : ℝ) ≠ 0 := Nat.cast_ne_zero.mpr hn.2.1.ne'
  have hz : (n.z : ℝ) ≠ 0 := Nat.cast_ne_zero.mpr hn.2.2.ne'
  have hd : (stretch B.dims ⟨1 / (n.x : ℝ), 1 / (n.y : ℝ), 1 / (n.z : ℝ)⟩).det ≠ 0 := by
    rw [stretch_det]
    have := hB.det_ne
    simp only
    positivity
  obtain ⟨b₀, hm⟩ : ∃ b₀, Box.make (stretch B.dims ⟨1 / (n.x : ℝ), 1 / (n.y : ℝ), 1 / (n.z : ℝ)⟩) = .ok b₀ := ⟨_, by rw [Box.make, if_neg hd]⟩
  obtain ⟨hw, hdm⟩ := Box.make_wf hm
  refine ⟨b₀, hw, ?_, ?_⟩
  · unfold divide
    rw [show Box.ofSides _ _ _ = _ from ofSides_stretch ⟨1 / (n.x : ℝ), 1 / (n.y : ℝ), 1 / (n.z : ℝ)⟩, hm]
    exact congrArg Outcome.ok (withBox_eq c _)
  · rw [hdm, stretch_stretch]
    have e : (⟨1 / (n.x : ℝ) * n.x, 1 / (n.y : ℝ) * n.y, 1 / (n.z : ℝ) * n.z⟩ : Vec3 ℝ) = ⟨1, 1, 1⟩ := by
      ext <;> simp [hx, hy, hz]
    simp only [e]
    ext <;> simp [stretch, Mat3.diag, Mat3.mul_def, Mat3.mul, Vec3.dot, Mat3.c0, Mat3.c1, Mat3.c2]

theorem box_ext_dims {b c : Box} (hb : b.WF) (hc : c.WF) (h : b.dims = c.dims) : b = c :=
  Box.ext h (by rw [hb.inv_eq, hc.inv_eq, h])

/-- C107: the lattice with given numbers of cells in a given box: the box is exactly the given one and each of its cells has molecules as documented. -/
theorem C107_in_box {c : CellType} {dim : DimArg} {n : Vec3 Nat} (hc : ProperCell c) (hdim : ProperDim dim) (hn : ProperCount n) (hs : cellCount n < 2 ^ 31) :
    ∃ (B : Box) (L : Lattice) (g : List Shape) (cells : List (Vec3 Nat)), B.sides = documentedSides dim ∧ B.WF ∧ LatticeReached L ∧ L.dims = n ∧ L.regular = true ∧
      (∀ ts f, ProperFill f → inBox c dim n ts f = createPacking L ts f) ∧
      inBox c dim n [] .full = .ok (B, g) ∧ FilledBox B n (documentedSites c) cells g ∧ g.length = cellCount n * (documentedSites c).length := by
  obtain ⟨B, h1, hw, h2⟩ := dim_box hdim
  obtain ⟨b, hb, h3, h4⟩ := divide_ok (c := c) hw hn
  obtain ⟨L, B', g, cells, q1, q2, q3, q4, q5, q6, q7, q8, q9, q10, q11⟩ := lattice_made (u := documentedSites c) hb hn hs
  obtain rfl : B' = B := box_ext_dims q7 hw (q8.trans h4)
  have he : ∀ ts f, ProperFill f → inBox c dim n ts f = createPacking L ts f := by
    intro ts f hf
    unfold inBox
    rw [accepted_cell.mpr hc, accepted_dim.mpr hdim, accepted_count.mpr hn, accepted_fill hf, h1]
    show (divide _ _ _ >>= _) = _
    rw [h3]
    show (Lattice.create _ _ >>= _) = _
    rw [q1]
    rfl
  refine ⟨B', L, g, cells, h2, hw, q2, q3, q4, he, ?_, q10, q11⟩
  rw [he [] .full trivial]
  unfold createPacking
  show (L.generate >>= _) = _
  rw [q9, Outcome.ok_bind, q6]
  rfl

/-- C107: the lattice with a given number of molecules in a given box, if no height of the box is less than half of the side of the cube, `⌈m / s⌉` of which have the volume equal to the product of heights, where `s` is the number
of molecules in a cell: the box is exactly the given one, each of its cells has molecules as documented, and there are at least as many of them as requested. -/
theorem C107_automatic_partial {c : CellType} {dim : DimArg} {m : Nat} (hc : ProperCell c) (hdim : ProperDim dim) (hm : 0 < m) (hm' : m < 2 ^ 28) {B : Box} (hB : dim.box = .ok B) {t : ℝ} (ht : 0 < t)
    (hV : t ^ 3 * ⌈(m : ℝ) / (documentedSites c).length⌉₊ = B.heights.x * B.heights.y * B.heights.z) (hh : ∀ a, t / 2 ≤ B.heights.get a) :
    ∃ (n : Vec3 Nat) (L : Lattice) (g : List Shape) (cells : List (Vec3 Nat)), B.sides = documentedSides dim ∧ LatticeReached L ∧ L.dims = n ∧ L.regular = true ∧
      (∀ fuel, m ≤ fuel → optimize fuel m (documentedSites c).length B = .ok n) ∧
      (∀ fuel ts, m ≤ fuel → automatic fuel c dim m ts = createPacking L ts .full) ∧
      (∀ fuel, m ≤ fuel → automatic fuel c dim m [] = .ok (B, g)) ∧ FilledBox B n (documentedSites c) cells g ∧ g.length = cellCount n * (documentedSites c).length ∧ m ≤ g.length := by
  obtain ⟨B', h1, hw, h2⟩ := dim_box hdim
  rw [hB] at h1
  injection h1 with h1
  subst h1
  have hs : 0 < (documentedSites c).length := List.length_pos_iff.mpr hc
  have hp : ∀ a, 0 < B.heights.get a := fun a => lt_of_lt_of_le (by positivity) (hh a)
  have hfl : ∀ a, NearestInteger (B.heights.get a / t) ⌊B.heights.get a / t + 1 / 2⌋₊ := by
    intro a
    have h0 : 0 ≤ B.heights.get a / t + 1 / 2 := by have := hp a; positivity
    have h1 := Nat.floor_le h0
    have h2 := Nat.lt_floor_add_one (B.heights.get a / t + 1 / 2)
    constructor <;> linarith
  have hfp : ∀ a, 0 < ⌊B.heights.get a / t + 1 / 2⌋₊ := by
    intro a
    refine Nat.floor_pos.mpr ?_
    have : 1 / 2 ≤ B.heights.get a / t := by
      rw [le_div_iff₀ ht]
      linarith [hh a]
    linarith
  have hr : ∀ a, NearestInteger (B.heights.get a / t) ((Vec3.ofFn fun a => ⌊B.heights.get a / t + 1 / 2⌋₊).get a) := by
    intro a
    fin_cases a
    · exact hfl 0
    · exact hfl 1
    · exact hfl 2
  have hpos : ∀ a, 0 < (Vec3.ofFn fun a => ⌊B.heights.get a / t + 1 / 2⌋₊).get a := by
    intro a
    fin_cases a
    · exact hfp 0
    · exact hfp 1
    · exact hfp 2
  obtain ⟨a, k, d1, d2, d3, d4, d5, d6⟩ := C107_dimensions_partial hw hm (by omega) hs ht hV hr hpos
  generalize (Vec3.ofFn fun a => ⌊B.heights.get a / t + 1 / 2⌋₊) = r at *
  have hcount : ProperCount (r.put a k) := by
    have hk : 0 < k := lt_of_lt_of_le (hpos a) d3
    have h0 : 0 < r.x := hpos 0
    have h1 : 0 < r.y := hpos 1
    have h2 : 0 < r.z := hpos 2
    unfold ProperCount
    fin_cases a
    · exact ⟨hk, h1, h2⟩
    · exact ⟨h0, hk, h2⟩
    · exact ⟨h0, h1, hk⟩
  have hsmall : cellCount (r.put a k) < 2 ^ 31 := by
    have := ceil_div_le (n := m) hs
    omega
  obtain ⟨b, hb, h3, h4⟩ := divide_ok (c := c) hw hcount
  obtain ⟨L, B', g, cells, q1, q2, q3, q4, q5, q6, q7, q8, q9, q10, q11⟩ := lattice_made (u := documentedSites c) hb hcount hsmall
  obtain rfl : B' = B := box_ext_dims q7 hw (q8.trans h4)
  obtain ⟨b1, -, hone⟩ := withNumber_ok (c := c) (a := 1) (by norm_num)
  have he : ∀ fuel ts, m ≤ fuel → automatic fuel c dim m ts = createPacking L ts .full := by
    intro fuel ts hf
    unfold automatic
    rw [accepted_cell.mpr hc, accepted_dim.mpr hdim, decide_eq_true hm, hB, hone]
    show (optimize _ _ _ _ >>= _) = _
    rw [d1 fuel hf]
    show (divide _ _ _ >>= _) = _
    rw [h3]
    show (Lattice.create _ _ >>= _) = _
    rw [q1]
    rfl
  refine ⟨r.put a k, L, g, cells, h2, q2, q3, q4, d1, he, ?_, q10, q11, by rw [q11]; exact d4⟩
  intro fuel hf
  rw [he fuel [] hf]
  unfold createPacking
  show (L.generate >>= _) = _
  rw [q9, Outcome.ok_bind, q6]
  rfl

theorem cuboid_heights {l : Vec3 ℝ} (h : 0 < l.x ∧ 0 < l.y ∧ 0 < l.z) {b : Box} (hb : Box.ofLengths l = .ok b) : b.heights = l := by
  obtain ⟨b', h1, -, h3⟩ := box_pos h
  rw [hb] at h1
  injection h1 with h1
  subst h1
  have e : b.dims = stretch unitBox.dims l := by
    rw [h3]
    ext <;> simp [unitBox, stretch, Mat3.diag, Mat3.mul_def, Mat3.mul, Vec3.dot, Mat3.c0, Mat3.c1, Mat3.c2]
  have hs := heights_stretch (b := unitBox) (f := l) (by intro a; fin_cases a; exacts [h.1, h.2.1, h.2.2]) e
  rw [unitBox_heights] at hs
  have h0 := hs 0
  have h1 := hs 1
  have h2 := hs 2
  simp only [Vec3.get, mul_one] at h0 h1 h2
  exact Vec3.ext h0 h1 h2

/-- C107: in a cubic box, if the number of molecules is that of `k³` cells, there are exactly as many molecules as requested, in `k × k × k` cells. -/
theorem C107_cube {c : CellType} (hc : ProperCell c) {a : ℝ} (ha : 0 < a) {k : Nat} (hk : 0 < k) (hs : k ^ 3 * (documentedSites c).length < 2 ^ 28) {fuel : Nat}
    (hf : k ^ 3 * (documentedSites c).length ≤ fuel) :
    ∃ (B : Box) (g : List Shape) (cells : List (Vec3 Nat)), B.sides = documentedSides (.number a) ∧ automatic fuel c (.number a) (k ^ 3 * (documentedSites c).length) [] = .ok (B, g) ∧
      FilledBox B ⟨k, k, k⟩ (documentedSites c) cells g ∧ g.length = k ^ 3 * (documentedSites c).length := by
  have hl : 0 < (documentedSites c).length := List.length_pos_iff.mpr hc
  obtain ⟨B, hB, hw, -⟩ := dim_box (dim := .number a) ha
  have hh : B.heights = ⟨a, a, a⟩ := cuboid_heights (l := ⟨a, a, a⟩) ⟨ha, ha, ha⟩ hB
  have hkr : (0 : ℝ) < k := by exact_mod_cast hk
  have hk3 : 0 < k ^ 3 := by positivity
  have hN : ⌈((k ^ 3 * (documentedSites c).length : ℕ) : ℝ) / (documentedSites c).length⌉₊ = k ^ 3 := by
    have hl' : ((documentedSites c).length : ℝ) ≠ 0 := by exact_mod_cast hl.ne'
    have e : ((k ^ 3 * (documentedSites c).length : ℕ) : ℝ) / (documentedSites c).length = (k ^ 3 : ℕ) := by
      push_cast
      field_simp
    rw [e, Nat.ceil_natCast]
  have ht : 0 < a / k := by positivity
  have hV : (a / k) ^ 3 * ⌈((k ^ 3 * (documentedSites c).length : ℕ) : ℝ) / (documentedSites c).length⌉₊ = B.heights.x * B.heights.y * B.heights.z := by
    rw [hN, hh]
    push_cast
    field_simp
  have hq : ∀ i, B.heights.get i / (a / k) = k := by
    intro i
    rw [hh]
    fin_cases i <;> simp only [Vec3.get] <;> field_simp
  obtain ⟨n, L, g, cells, g1, g2, g3, g4, g5, g6, g7, g8, g9, g10⟩ := C107_automatic_partial (m := k ^ 3 * (documentedSites c).length) hc (dim := .number a) ha (by positivity) hs hB ht hV (by
    intro i
    have := hq i
    rw [div_eq_iff ht.ne'] at this
    rw [this]
    have : (1 : ℝ) ≤ k := by exact_mod_cast hk
    nlinarith)
  have hd := optimize_eq (n := k ^ 3 * (documentedSites c).length) hw hl ht (by rw [hN]; exact hk3) hV (r := ⟨k, k, k⟩) (by
    intro i
    rw [hq i]
    fin_cases i <;> exact ⟨by simp [Vec3.get], by simp [Vec3.get]⟩) (by
    intro i
    have hkk : k < 2 ^ 28 := by
      have h1 : k ≤ k ^ 3 := Nat.le_self_pow (by norm_num) k
      have h2 : k ^ 3 ≤ k ^ 3 * (documentedSites c).length := Nat.le_mul_of_pos_right _ hl
      omega
    fin_cases i <;> simp only [Vec3.get] <;> omega) fuel
  rw [g5 fuel hf, hN] at hd
  have hgrow : grow fuel (k ^ 3) ⟨k, k, k⟩ = .ok ⟨k, k, k⟩ := by
    have hp : product ⟨k, k, k⟩ = k ^ 3 := by
      have e : cellCount ⟨k, k, k⟩ = k ^ 3 := by unfold cellCount; ring
      rw [product_eq, e]
      rw [e]
      have h2 : k ^ 3 ≤ k ^ 3 * (documentedSites c).length := Nat.le_mul_of_pos_right _ hl
      omega
    cases fuel with
    | zero => rw [grow, hp, if_neg (lt_irrefl _)]
    | succ fuel => rw [grow, hp, if_neg (lt_irrefl _)]
  rw [hgrow] at hd
  injection hd with hd
  subst hd
  refine ⟨B, g, cells, g1, g7 fuel hf, g8, ?_⟩
  rw [g9]
  unfold cellCount
  ring

/-- C107 is violated: 100 molecules requested in a cubic box make a lattice of 5 × 5 × 5 simple cubic cells and all of them are filled, so that there are 125 molecules. -/
theorem C107_number_violated {fuel : Nat} (hf : 100 ≤ fuel) : ∃ (B : Box) (g : List Shape), automatic fuel .sc (.number 10) 100 [] = .ok (B, g) ∧ g.length = 125 := by
  obtain ⟨B, hB, hw, -⟩ := dim_box (dim := .number 10) (by norm_num [ProperDim])
  have hh : B.heights = ⟨10, 10, 10⟩ := cuboid_heights (l := ⟨10, 10, 10⟩) (by norm_num) hB
  obtain ⟨t, ht, ht3⟩ : ∃ t : ℝ, 0 < t ∧ t ^ 3 = 10 := by
    refine ⟨(10 : ℝ) ^ (1 / 3 : ℝ), by positivity, ?_⟩
    rw [← Real.rpow_natCast, ← Real.rpow_mul (by norm_num)]
    norm_num
  have t1 : 2 < t := by
    by_contra hc
    have := pow_le_pow_left₀ ht.le (not_lt.mp hc) 3
    norm_num at this
    linarith
  have t2 : t < 11 / 5 := by
    by_contra hc
    have := pow_le_pow_left₀ (by norm_num) (not_lt.mp hc) 3
    norm_num at this
    linarith
  have hN : ⌈((100 : ℕ) : ℝ) / (documentedSites .sc).length⌉₊ = 100 := by
    simp [documentedSites]
  have hV : t ^ 3 * ⌈((100 : ℕ) : ℝ) / (documentedSites .sc).length⌉₊ = B.heights.x * B.heights.y * B.heights.z := by
    rw [hN, hh, ht3]
    norm_num
  obtain ⟨n, L, g, cells, g1, g2, g3, g4, g5, g6, g7, g8, g9, g10⟩ := C107_automatic_partial (m := 100) (c := .sc) (by simp [ProperCell, documentedSites]) (dim := .number 10) (by norm_num [ProperDim])
    (by norm_num) (by norm_num) hB ht hV (by
      intro i
      rw [hh]
      fin_cases i <;> simp only [Vec3.get] <;> linarith)
  have hd := optimize_eq (n := 100) (s := (documentedSites .sc).length) hw (by simp [documentedSites]) ht (by rw [hN]; norm_num) hV (r := ⟨5, 5, 5⟩) (by
    intro i
    have : (5 : ℝ) - 1 / 2 ≤ 10 / t ∧ 10 / t < 5 + 1 / 2 := by
      rw [le_div_iff₀ ht, div_lt_iff₀ ht]
      constructor <;> linarith
    rw [hh]
    fin_cases i <;> exact_mod_cast this) (by
    intro i
    fin_cases i <;> norm_num [Vec3.get]) fuel
  rw [g5 fuel hf, hN] at hd
  have hgrow : grow fuel 100 ⟨5, 5, 5⟩ = .ok ⟨5, 5, 5⟩ := by
    cases fuel with
    | zero => rfl
    | succ fuel => rfl
  rw [hgrow] at hd
  injection hd with hd
  subst hd
  exact ⟨B, g, g7 fuel hf, by rw [g9]; rfl⟩

/-- C107 is violated: 10 molecules requested in the box 100 × 100 × 1: the program never ends. -/
theorem C107_hangs_violated (fuel : Nat) : automatic fuel .sc (.lengths ⟨100, 100, 1⟩) 10 [] = .diverge := by
  obtain ⟨B, hB, hw, -⟩ := dim_box (dim := .lengths ⟨100, 100, 1⟩) (by norm_num [ProperDim])
  have hh : B.heights = ⟨100, 100, 1⟩ := cuboid_heights (l := ⟨100, 100, 1⟩) (by norm_num) hB
  have hN : ⌈((10 : ℕ) : ℝ) / ((1 : ℕ) : ℝ)⌉₊ = 10 := by simp
  have hd := C107_flat_violated (n := 10) (s := 1) hw (by norm_num) (by norm_num) (t := 10) (by norm_num) (by rw [hN, hh]; norm_num)
    (by intro i; rw [hh]; fin_cases i <;> norm_num [Vec3.get]) (a := 2) (by rw [hh]; norm_num [Vec3.get]) fuel
  obtain ⟨b1, -, hone⟩ := withNumber_ok (c := .sc) (a := 1) (by norm_num)
  unfold automatic
  rw [show (CellType.accepted .sc && DimArg.accepted (.lengths ⟨100, 100, 1⟩) && decide (0 < 10)) = true by simp [CellType.accepted, DimArg.accepted], hB, hone]
  show (optimize fuel 10 1 B >>= _) = _
  rw [hd]
  rfl

theorem fill_refused {f : Fill} (h : f.accepted = true) : requested f ≠ some 0 ∧ ∀ m axes, f = .serial m axes →
    ∃ a : Vec3 (Fin 3), (a.x ≠ a.y ∧ a.x ≠ a.z ∧ a.y ≠ a.z) ∧ axes = [axisLetter a.x, axisLetter a.y, axisLetter a.z] := by
  cases f with
  | full => exact ⟨by simp [requested], by simp⟩
  | auto m =>
    have : 0 < m := by simpa [Fill.accepted] using h
    exact ⟨by simp only [requested, ne_eq, Option.some.injEq]; omega, by simp⟩
  | random m shuffle =>
    have : 0 < m := by simpa [Fill.accepted] using h
    exact ⟨by simp only [requested, ne_eq, Option.some.injEq]; omega, by simp⟩
  | serial m axes =>
    simp only [Fill.accepted, Bool.and_eq_true, decide_eq_true_eq, List.all_eq_true, Bool.or_eq_true] at h
    obtain ⟨⟨⟨h1, h2⟩, h3⟩, h4⟩ := h
    refine ⟨by simp only [requested, ne_eq, Option.some.injEq]; omega, ?_⟩
    intro m' axes' e
    cases e
    match axes, h4 with
    | [p, q, r], _ =>
      have key : ∀ c, ((c = 'x' ∨ c = 'y') ∨ c = 'z') → ∃ k : Fin 3, c = axisLetter k := by
        rintro c ((rfl | rfl) | rfl)
        · exact ⟨0, rfl⟩
        · exact ⟨1, rfl⟩
        · exact ⟨2, rfl⟩
      obtain ⟨i, rfl⟩ := key p (h2 p (by simp))
      obtain ⟨j, rfl⟩ := key q (h2 q (by simp))
      obtain ⟨k, rfl⟩ := key r (h2 r (by simp))
      simp only [List.nodup_cons, List.mem_cons, List.not_mem_nil, or_false, not_or] at h3
      refine ⟨⟨i, j, k⟩, ⟨?_, ?_, ?_⟩, rfl⟩
      · rintro e; exact h3.1.1 (congrArg axisLetter e)
      · rintro e; exact h3.1.2 (congrArg axisLetter e)
      · rintro e; exact h3.2.1 (congrArg axisLetter e)

/-- C107: whatever is not proper is refused: if there is a packing, then the cell has a molecule, the dimensions are positive, there is a cell in each direction,
the number of molecules, if there is one, is not 0, and the order of axes, if there is one, consists of the three letters. -/
theorem C107_refused {c : CellType} {dim : DimArg} {n : Vec3 Nat} {ts : List (Lattice → Outcome Lattice)} {f : Fill} {r : Box × List Shape}
    (h : manual c dim n ts f = .ok r ∨ inBox c dim n ts f = .ok r) :
    ProperCell c ∧ ProperDim dim ∧ ProperCount n ∧ requested f ≠ some 0 ∧ ∀ m axes, f = .serial m axes →
      ∃ a : Vec3 (Fin 3), (a.x ≠ a.y ∧ a.x ≠ a.z ∧ a.y ≠ a.z) ∧ axes = [axisLetter a.x, axisLetter a.y, axisLetter a.z] := by
  have key : (c.accepted && dim.accepted && positiveCells n && f.accepted) = true := by
    rcases h with h | h
    · unfold manual at h
      obtain ⟨_, h', -⟩ := Outcome.bind_eq_ok.mp h
      exact Outcome.require_eq_ok.mp h'
    · unfold inBox at h
      obtain ⟨_, h', -⟩ := Outcome.bind_eq_ok.mp h
      exact Outcome.require_eq_ok.mp h'
  simp only [Bool.and_eq_true] at key
  obtain ⟨⟨⟨h1, h2⟩, h3⟩, h4⟩ := key
  exact ⟨accepted_cell.mp h1, accepted_dim.mp h2, accepted_count.mp h3, fill_refused h4⟩

/-- C107: the same for a number of molecules in a box: 0 molecules are refused. -/
theorem C107_automatic_refused {fuel : Nat} {c : CellType} {dim : DimArg} {m : Nat} {ts : List (Lattice → Outcome Lattice)} {r : Box × List Shape}
    (h : automatic fuel c dim m ts = .ok r) : ProperCell c ∧ ProperDim dim ∧ 0 < m := by
  unfold automatic at h
  obtain ⟨_, h', -⟩ := Outcome.bind_eq_ok.mp h
  have key := Outcome.require_eq_ok.mp h'
  simp only [Bool.and_eq_true, decide_eq_true_eq] at key
  exact ⟨accepted_cell.mp key.1.1, accepted_dim.mp key.1.2, key.2⟩

/-- Conditions of the theorems can be met: 8 × 8 × 8 cells of the hexagonal close packing, 500 of 2048 molecules placed at random. -/
example : ProperCell (.hcp 2) ∧ ProperDim (.vectors ⟨⟨2, 0, 0⟩, ⟨0, 2, 0⟩, ⟨1, 0, 2⟩⟩) ∧ ProperCount ⟨8, 8, 8⟩ ∧ cellCount ⟨8, 8, 8⟩ < 2 ^ 31 ∧ ProperFill (.random 500 List.reverse) ∧
    ProperFill (.serial 3 ['z', 'x', 'y']) ∧ ProperFill (.auto 7) := by
  refine ⟨by simp [ProperCell, documentedSites], by norm_num [ProperDim, Mat3.det], by norm_num [ProperCount], by norm_num [cellCount], ⟨by norm_num, fun l => l.reverse_perm⟩,
    ⟨by norm_num, ⟨2, 0, 1⟩, by decide, rfl⟩, by norm_num [ProperFill]⟩

end Rampack
