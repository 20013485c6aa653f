import Verif.Lattice.DistanceSpec
import Verif.Packing.HistoryLemmas
import Verif.Packing.RenormLemmas
import Verif.Lattice.PopProps
/-
Lemmas about the optimisation of distances.
-/
namespace Rampack.DistanceOptimizer

open Spec Packing

theorem epsilon_pos : 0 < epsilon := by unfold epsilon; positivity
theorem factor_gt : 1 < factorEpsilon := by unfold factorEpsilon; norm_num

theorem findMax_ok {ov : ℝ → Bool} {k : Nat} : ∀ {d : ℝ}, findMax ov k = .ok d → ov d = false ∧ ∃ j, d = 2 ^ j := by
  induction k using findMax.induct ov with
  | case1 k h1 h2 ih =>
    intro d h
    rw [findMax, if_pos h1, dif_pos h2] at h
    exact ih h
  | case2 k h1 h2 =>
    intro d h
    rw [findMax, if_pos h1, dif_neg h2] at h
    cases h
  | case3 k h1 =>
    intro d h
    rw [findMax, if_neg h1] at h
    cases h
    exact ⟨by simpa using h1, k, rfl⟩

theorem two_pow_lt {k : Nat} : (2 : ℝ) ^ (k + 1) < 1000 ↔ k ≤ 8 := by
  constructor
  · intro h
    by_contra hk
    have : (2 : ℝ) ^ 10 ≤ 2 ^ (k + 1) := pow_le_pow_right₀ (by norm_num) (by omega)
    norm_num at this
    linarith
  · intro h
    have : (2 : ℝ) ^ (k + 1) ≤ 2 ^ 9 := pow_le_pow_right₀ (by norm_num) (by omega)
    norm_num at this
    linarith

theorem findMax_total {ov : ℝ → Bool} {k : Nat} (hk : k ≤ 9) :
    (∃ d, findMax ov k = .ok d ∧ ∃ j, k ≤ j ∧ j ≤ 9 ∧ d = 2 ^ j) ∨ (∃ m, findMax ov k = .throw m) ∧ ∀ j, k ≤ j → j ≤ 9 → ov (2 ^ j) = true := by
  induction k using findMax.induct ov with
  | case1 k h1 h2 ih =>
    rw [findMax, if_pos h1, dif_pos h2]
    have := two_pow_lt.mp h2
    rcases ih (by omega) with ⟨d, e, j, hj, hj', ed⟩ | ⟨e, h⟩
    · exact Or.inl ⟨d, e, j, by omega, hj', ed⟩
    · refine Or.inr ⟨e, fun j hj hj' => ?_⟩
      rcases Nat.eq_or_lt_of_le hj with rfl | hj
      · exact h1
      · exact h j hj hj'
  | case2 k h1 h2 =>
    rw [findMax, if_pos h1, dif_neg h2]
    rw [two_pow_lt] at h2
    refine Or.inr ⟨⟨_, rfl⟩, fun j hj hj' => ?_⟩
    obtain rfl : j = k := by omega
    exact h1
  | case3 k h1 =>
    rw [findMax, if_neg h1]
    exact Or.inl ⟨_, rfl, k, le_refl _, hk, rfl⟩

theorem bisect_ok {ov : ℝ → Bool} {a b : ℝ} (hab : a < b) (ha : ov a = true) (hb : ov b = false) :
    ov (bisect ov a b) = false ∧ bisect ov a b ≤ b ∧ ∃ d, a ≤ d ∧ d < bisect ov a b ∧ bisect ov a b - d ≤ epsilon ∧ ov d = true := by
  induction a, b using bisect.induct ov with
  | case1 a b h1 h2 ih =>
    rw [bisect, if_pos h1, dif_pos h2]
    obtain ⟨i1, i2, d, i3, i4, i5, i6⟩ := ih (by linarith) h1 hb
    exact ⟨i1, i2, d, by linarith, i4, i5, i6⟩
  | case2 a b h1 h2 =>
    rw [bisect, if_pos h1, dif_neg h2]
    exact ⟨hb, le_refl _, _, by linarith, by linarith, not_lt.mp h2, h1⟩
  | case3 a b h1 h2 ih =>
    rw [bisect, if_neg h1, dif_pos h2]
    obtain ⟨i1, i2, d, i3, i4, i5, i6⟩ := ih (by linarith) ha (by simpa using h1)
    exact ⟨i1, by linarith, d, i3, i4, i5, i6⟩
  | case4 a b h1 h2 =>
    rw [bisect, if_neg h1, dif_neg h2]
    exact ⟨by simpa using h1, by linarith, a, le_refl _, by linarith, not_lt.mp h2, ha⟩

theorem overlapAt_iff {I : Interaction} {R1 R2 : Mat3} {v : Vec3 ℝ} :
    I.overlapBetweenShapes ⟨0, R1⟩ ⟨v, R2⟩ BC.free = true ↔ OverlapAt I R1 R2 v := by
  unfold Interaction.overlapBetweenShapes Interaction.shapeSites OverlapAt
  by_cases h : I.centres = []
  · simp [h]
  · have h' : I.centres.isEmpty = false := by simpa using h
    simp only [List.any_eq_true, h, h', false_and, false_or, Interaction.centrePosition, zero_add, Bool.false_eq_true, if_false, List.mem_map]
    constructor
    · rintro ⟨_, ⟨⟨c, i⟩, hc, rfl⟩, _, ⟨⟨d, j⟩, hd, rfl⟩, ho⟩
      exact ⟨i, j, c, d, List.mem_zipIdx_iff_getElem?.mp hc, List.mem_zipIdx_iff_getElem?.mp hd, ho⟩
    · rintro ⟨i, j, c, d, hc, hd, ho⟩
      exact ⟨_, ⟨⟨c, i⟩, List.mem_zipIdx_iff_getElem?.mpr hc, rfl⟩, _, ⟨⟨d, j⟩, List.mem_zipIdx_iff_getElem?.mpr hd, rfl⟩, ho⟩

/-! ### Shrinking -/

/-- Factors: `f` for the axis `a` replaced. -/
theorem scaleColumn_stretch (M : Mat3) (f : Vec3 ℝ) (a : Fin 3) (k : ℝ) : scaleColumn (stretch M f) a k = stretch M (f.put a (f.get a * k)) := by
  match a with
  | 0 => ext <;> simp [scaleColumn, stretch, Vec3.put, Vec3.ofFn, Vec3.get, Mat3.mul_def, Mat3.mul, Mat3.diag, Vec3.dot, Mat3.c0, Mat3.c1, Mat3.c2] <;> ring
  | 1 => ext <;> simp [scaleColumn, stretch, Vec3.put, Vec3.ofFn, Vec3.get, Mat3.mul_def, Mat3.mul, Mat3.diag, Vec3.dot, Mat3.c0, Mat3.c1, Mat3.c2] <;> ring
  | 2 => ext <;> simp [scaleColumn, stretch, Vec3.put, Vec3.ofFn, Vec3.get, Mat3.mul_def, Mat3.mul, Mat3.diag, Vec3.dot, Mat3.c0, Mat3.c1, Mat3.c2] <;> ring

theorem midBox_stretch (M : Mat3) (f g : Vec3 ℝ) : midBox (stretch M f) (stretch M g) = stretch M ((1 / 2 : ℝ) • (f + g)) := by
  ext <;> simp [midBox, stretch, Mat3.mul_def, Mat3.mul, Mat3.diag, Vec3.dot, Mat3.c0, Mat3.c1, Mat3.c2] <;> ring

theorem mid_put (f : Vec3 ℝ) (a : Fin 3) (x y : ℝ) : (1 / 2 : ℝ) • (f.put a x + f.put a y) = f.put a ((x + y) / 2) := by
  match a with
  | 0 => ext <;> simp [Vec3.put, Vec3.ofFn, Vec3.get] <;> ring
  | 1 => ext <;> simp [Vec3.put, Vec3.ofFn, Vec3.get] <;> ring
  | 2 => ext <;> simp [Vec3.put, Vec3.ofFn, Vec3.get] <;> ring

theorem stretch_det (M : Mat3) (f : Vec3 ℝ) : (stretch M f).det = M.det * (f.x * f.y * f.z) := by
  simp [stretch, Mat3.det, Mat3.mul_def, Mat3.mul, Mat3.diag, Vec3.dot, Mat3.c0, Mat3.c1, Mat3.c2]
  ring

theorem stretch_mulVec (M : Mat3) (f r : Vec3 ℝ) : (stretch M f).mulVec r = M.mulVec ⟨f.x * r.x, f.y * r.y, f.z * r.z⟩ := by
  ext <;> simp [stretch, Mat3.mulVec, Mat3.mul_def, Mat3.mul, Mat3.diag, Vec3.dot, Mat3.c0, Mat3.c1, Mat3.c2] <;> ring

theorem stretch_one (M : Mat3) : stretch M ⟨1, 1, 1⟩ = M := by
  ext <;> simp [stretch, Mat3.mul_def, Mat3.mul, Mat3.diag, Vec3.dot, Mat3.c0, Mat3.c1, Mat3.c2]

/-- All factors are positive. -/
def Pos (f : Vec3 ℝ) : Prop := 0 < f.x ∧ 0 < f.y ∧ 0 < f.z

theorem pos_iff {f : Vec3 ℝ} : Pos f ↔ ∀ a, 0 < f.get a := by
  rw [Fin.forall_fin_succ, Fin.forall_fin_succ, Fin.forall_fin_succ]
  simp [Pos]

theorem Pos.put {f : Vec3 ℝ} (h : Pos f) {a : Fin 3} {k : ℝ} (hk : 0 < k) : Pos (f.put a k) := by
  rw [pos_iff] at h ⊢
  intro b
  rw [Vec3.get_put]
  split_ifs
  · exact hk
  · exact h b

theorem rel_of_stretch {M : Mat3} (hM : M.det ≠ 0) {f g : Vec3 ℝ} (hf : Pos f) {b : Box} (hb : Box.make (stretch M f) = .ok b) (r : Vec3 ℝ) :
    b.absToRel ((stretch M g).mulVec r) = ⟨g.x / f.x * r.x, g.y / f.y * r.y, g.z / f.z * r.z⟩ := by
  obtain ⟨wf, hd⟩ := Box.make_wf hb
  have e : (stretch M g).mulVec r = b.relToAbs ⟨g.x / f.x * r.x, g.y / f.y * r.y, g.z / f.z * r.z⟩ := by
    unfold Box.relToAbs
    rw [hd, stretch_mulVec, stretch_mulVec]
    obtain ⟨h1, h2, h3⟩ := hf
    congr 2 <;> field_simp
  rw [e, Box.absToRel_relToAbs wf]

/-- Molecules in relative coordinates. -/
def RelOk (rel : List Shape) : Prop := ∀ s ∈ rel, Within s.pos

theorem inside_stretch {M : Mat3} (hM : M.det ≠ 0) {f g : Vec3 ℝ} (hf : Pos f) (hg : Pos g) (hgf : ∀ a, g.get a ≤ f.get a) {b : Box}
    (hb : Box.make (stretch M f) = .ok b) {rel : List Shape} (hr : RelOk rel) : ∀ s ∈ generateAbsoluteShapes rel (stretch M g), Inside b s.pos := by
  intro s hs
  obtain ⟨t, ht, rfl⟩ := List.mem_map.mp hs
  rw [Box.inside_iff (Box.make_wf hb).1, rel_of_stretch hM hf hb]
  obtain ⟨⟨h1, h2⟩, ⟨h3, h4⟩, h5, h6⟩ := hr t ht
  obtain ⟨f1, f2, f3⟩ := hf
  obtain ⟨g1, g2, g3⟩ := hg
  have key : ∀ {x y r : ℝ}, 0 < x → 0 < y → y ≤ x → 0 ≤ r → r < 1 → 0 ≤ y / x * r ∧ y / x * r < 1 := by
    intro x y r hx hy hyx hr hr1
    have h0 : y / x ≤ 1 := (div_le_one hx).mpr hyx
    have h0' : 0 < y / x := div_pos hy hx
    refine ⟨by positivity, ?_⟩
    calc y / x * r ≤ 1 * r := by gcongr
      _ < 1 := by linarith
  exact ⟨key f1 g1 (hgf 0) h1 h2, key f2 g2 (hgf 1) h3 h4, key f3 g3 (hgf 2) h5 h6⟩

/-- The state of the packing between steps: as the initial one, besides molecules and the box. -/
structure Ready (P0 : Packing) (I : Interaction) (n : Nat) (P : Packing) : Prop where
  inv : PInv P I
  size : P.size = n
  wall : P.hasWall = P0.hasWall

theorem numTotal_congr {P Q : Packing} {I : Interaction} (hP : PInv P I) (hQ : PInv Q I) (h : mols P = mols Q) (hb : P.box = Q.box) (hw : P.hasWall = Q.hasWall) :
    numTotal P I = numTotal Q I := by
  have hs : P.size = Q.size := by rw [← mols_length, ← mols_length, h]
  have hg : P.ng.isSome = Q.ng.isSome := by
    rw [Bool.eq_iff_iff, hP.used, hQ.used]
    exact usesGrid_congr hb hs (by rw [hP.q.core.range_eq, hQ.q.core.range_eq])
  have hf : ∀ i, i < P.size → P.shapeFn i = Q.shapeFn i := by
    intro i hi
    unfold shapeFn
    rw [List.getD_eq_getElem?_getD, List.getD_eq_getElem?_getD, ← mols_getElem? hi, ← mols_getElem? (by omega), h]
  unfold numTotal double single molW
  rw [← hs, hb, hw, hg]
  congr 2
  · congr 1
    apply List.map_congr_left
    intro i hi
    rw [hf i (List.mem_range.mp hi)]
    congr 1
    apply List.map_congr_left
    intro j hj
    rw [hf j (List.mem_range.mp (List.mem_of_mem_filter hj))]
  · congr 1
    apply List.map_congr_left
    intro i hi
    rw [hf i (List.mem_range.mp hi)]

theorem reset_ready {P0 P : Packing} {I : Interaction} (hI : Contract I) {n : Nat} (h : Ready P0 I n P) {b : Box} (hb : b.WF) {shapes : List Shape} (hl : shapes.length = n)
    (hin : ∀ s ∈ shapes, Inside b s.pos) : ∃ P', P.reset shapes b I = .ok P' ∧ Ready P0 I n P' ∧ mols P' = shapes ∧ P'.box = b := by
  have hcap : shapes.length * max 1 I.centres.length = P.cap := by
    unfold cap
    rw [h.inv.q.core.m_eq, hl, h.size]
  have hne : shapes ≠ [] := by
    rintro rfl
    have := h.inv.size_pos
    rw [h.size, ← hl] at this
    simp at this
  obtain ⟨P', e, h1, h2, h3, h4, h5, h6, -⟩ := reset_ok (P := P) hI hb hne hin (by rw [hcap]; exact h.inv.gridsHave) (by rw [hcap]; exact h.inv.bound) h.inv.noHard
  exact ⟨P', e, ⟨h1, by rw [← mols_length, h2, hl], by rw [h4, h.wall]⟩, h2, h3⟩

theorem check_ok {P0 P : Packing} {I : Interaction} (hI : Contract I) (h0 : PInv P0 I) (h : Ready P0 I P0.size P) {m : Mat3} (hm : m.det ≠ 0) {shapes : List Shape} (hl : shapes.length = P0.size)
    (hin : ∀ b, Box.make m = .ok b → ∀ s ∈ shapes, Inside b s.pos) : ∃ b P' c, Box.make m = .ok b ∧ resetAndCheck P I shapes m = .ok (P', c) ∧ Ready P0 I P0.size P' ∧ mols P' = shapes ∧ P'.box = b ∧
      (c = true ↔ ∃ Q n, P0.reset shapes b I = .ok Q ∧ Q.countTotalOverlaps I false = .ok n ∧ 0 < n) ∧ (c = false → P'.countTotalOverlaps I false = .ok 0) := by
  have eb : Box.make m = .ok ⟨m, m.inverse⟩ := if_neg hm
  have wf := (Box.make_wf eb).1
  obtain ⟨P', e1, r1, m1, b1⟩ := reset_ready hI h wf hl (hin _ eb)
  obtain ⟨Q, e2, r2, m2, b2⟩ := reset_ready hI (⟨h0, rfl, rfl⟩ : Ready P0 I P0.size P0) wf hl (hin _ eb)
  obtain ⟨K, hK, hk⟩ := count_numTotal r1.inv.q hI
  obtain ⟨K', hK', hk'⟩ := count_numTotal r2.inv.q hI
  have eK : K = K' := by
    have := numTotal_congr r1.inv r2.inv (by rw [m1, m2]) (by rw [b1, b2]) (by rw [r1.wall, r2.wall])
    rw [← hK, ← hK'] at this
    exact_mod_cast this
  obtain ⟨k1, c1, p1, -⟩ := hk true
  obtain ⟨k0, c0, -, p0⟩ := hk false
  obtain ⟨k2, c2, -, p2⟩ := hk' false
  refine ⟨_, P', decide (k1 ≠ 0), eb, ?_, r1, m1, b1, ?_, ?_⟩
  · unfold resetAndCheck
    rw [eb, Outcome.ok_bind, e1, Outcome.ok_bind, c1, Outcome.ok_bind]
    rfl
  · rw [decide_eq_true_iff]
    constructor
    · intro hne
      refine ⟨Q, k2, e2, c2, ?_⟩
      rw [p2 rfl, ← eK]
      exact p1.mp (Nat.pos_of_ne_zero hne)
    · rintro ⟨Q', n, e, ec, hn⟩
      rw [e2] at e
      cases e
      rw [c2] at ec
      cases ec
      rw [p2 rfl, ← eK] at hn
      have := p1.mpr hn
      omega
  · intro hc
    have : k1 = 0 := by simpa using hc
    rw [c0, p0 rfl]
    congr 1
    by_contra hne
    have := p1.mpr (Nat.pos_of_ne_zero hne)
    omega

/-- The molecules of a packing in relative coordinates. -/
noncomputable def relOf (P : Packing) : List Shape := (P.shapes.take P.size).map fun s => (⟨P.box.absToRel s.pos, s.rot⟩ : Shape)

theorem generate_relOf (P : Packing) (f : Vec3 ℝ) : generateAbsoluteShapes (relOf P) (stretch P.box.dims f) = moved P.box (mols P) f := by
  unfold generateAbsoluteShapes relOf moved mols
  rw [List.map_map]
  rfl

theorem relOf_ok {P : Packing} {I : Interaction} (h : PInv P I) : RelOk (relOf P) := by
  intro s hs
  obtain ⟨t, ht, rfl⟩ := List.mem_map.mp hs
  obtain ⟨i, hi, e⟩ := List.mem_iff_getElem.mp ht
  have hi' : i < P.size := by
    have := hi
    rw [List.length_take] at this
    omega
  have e' : P.shapes[i]? = some t := by
    rw [← mols_getElem? hi', mols, List.getElem?_eq_getElem hi, e]
  exact (Box.inside_iff h.q.core.box _).mp (h.q.core.inside i t hi' e')

theorem relOf_length (P : Packing) : (relOf P).length = P.size := by
  unfold relOf
  rw [List.length_map]
  exact mols_length

theorem check_stretch {P0 P : Packing} {I : Interaction} (hI : Contract I) (h0 : PInv P0 I) (h : Ready P0 I P0.size P) {f g : Vec3 ℝ} (hf : Pos f) (hg : Pos g)
    (hgf : ∀ a, g.get a ≤ f.get a) : ∃ b P' c, Box.make (stretch P0.box.dims f) = .ok b ∧
      resetAndCheck P I (generateAbsoluteShapes (relOf P0) (stretch P0.box.dims g)) (stretch P0.box.dims f) = .ok (P', c) ∧ Ready P0 I P0.size P' ∧
      mols P' = moved P0.box (mols P0) g ∧ P'.box = b ∧ (f = g → (c = true ↔ OverlapsStretched P0 I f)) ∧ (c = false → P'.countTotalOverlaps I false = .ok 0) := by
  have hd := h0.q.core.box.det_ne
  obtain ⟨b, P', c, h1, h2, h3, h4, h5, h6, h7⟩ := check_ok (m := stretch P0.box.dims f) (shapes := generateAbsoluteShapes (relOf P0) (stretch P0.box.dims g)) hI h0 h (by
    rw [stretch_det]
    obtain ⟨f1, f2, f3⟩ := hf
    positivity) (by unfold generateAbsoluteShapes; rw [List.length_map, relOf_length]) fun b hb => inside_stretch hd hf hg hgf hb (relOf_ok h0)
  refine ⟨b, P', c, h1, h2, h3, by rw [h4, generate_relOf], h5, ?_, h7⟩
  rintro rfl
  rw [h6, generate_relOf]
  constructor
  · rintro ⟨Q, n, q1, q2, q3⟩
    exact ⟨b, Q, n, h1, q1, q2, q3⟩
  · rintro ⟨b', Q, n, q0, q1, q2, q3⟩
    rw [h1] at q0
    cases q0
    exact ⟨Q, n, q1, q2, q3⟩

theorem shrinkLoop_ok {P0 : Packing} {I : Interaction} (hI : Contract I) (h0 : PInv P0 I) {f : Vec3 ℝ} (hf : Pos f) {a : Fin 3} (k : Nat) : ∀ {P : Packing} {x y : ℝ},
    ⌊|y - x| / epsilon⌋.toNat < k → Ready P0 I P0.size P → 0 < x → x < y → OverlapsStretched P0 I (f.put a x) →
    ∃ P' x' y', shrinkLoop I (relOf P0) P x y (stretch P0.box.dims (f.put a x)) (stretch P0.box.dims (f.put a y))
        (generateAbsoluteShapes (relOf P0) (stretch P0.box.dims (f.put a y))) =
          .ok (P', generateAbsoluteShapes (relOf P0) (stretch P0.box.dims (f.put a y')), stretch P0.box.dims (f.put a y')) ∧
      Ready P0 I P0.size P' ∧ x ≤ x' ∧ x' < y' ∧ y' ≤ y ∧ y' - x' ≤ epsilon ∧ OverlapsStretched P0 I (f.put a x') := by
  induction k with
  | zero => intro P x y hk; omega
  | succ k ih =>
    intro P x y hk hP hx hxy ho
    have em : midBox (stretch P0.box.dims (f.put a x)) (stretch P0.box.dims (f.put a y)) = stretch P0.box.dims (f.put a ((x + y) / 2)) := by
      rw [midBox_stretch, mid_put]
    have hpos : Pos (f.put a ((x + y) / 2)) := hf.put (by linarith)
    obtain ⟨b, P', c, -, h2, h3, -, -, h6, -⟩ := check_stretch hI h0 hP hpos hpos fun _ => le_refl _
    rw [shrinkLoop, em, h2]
    cases c with
    | true =>
      simp only
      have ho' := (h6 rfl).mp rfl
      by_cases hh : |y - (x + y) / 2| > epsilon
      · rw [dif_pos hh]
        obtain ⟨P'', x', y', e, r, i1, i2, i3, i4, i5⟩ := ih (P := P') (x := (x + y) / 2) (y := y) (by
          have := halves (w := |y - x|) (by rw [show y - (x + y) / 2 = (y - x) / 2 by ring, abs_div, abs_two]) hh
          omega) h3 (by linarith) (by linarith) ho'
        exact ⟨P'', x', y', e, r, by linarith, i2, i3, i4, i5⟩
      · rw [dif_neg hh]
        rw [not_lt, abs_of_nonneg (by linarith)] at hh
        exact ⟨P', (x + y) / 2, y, rfl, h3, by linarith, by linarith, le_refl _, hh, ho'⟩
    | false =>
      simp only
      by_cases hh : |(x + y) / 2 - x| > epsilon
      · rw [dif_pos hh]
        obtain ⟨P'', x', y', e, r, i1, i2, i3, i4, i5⟩ := ih (P := P') (x := x) (y := (x + y) / 2) (by
          have := halves (w := |y - x|) (by rw [show (x + y) / 2 - x = (y - x) / 2 by ring, abs_div, abs_two]) hh
          omega) h3 (by linarith) (by linarith) ho
        exact ⟨P'', x', y', e, r, i1, i2, by linarith, i4, i5⟩
      · rw [dif_neg hh]
        rw [not_lt, abs_of_nonneg (by linarith)] at hh
        exact ⟨P', x, (x + y) / 2, rfl, h3, le_refl _, by linarith, by linarith, hh, ho⟩

theorem put_put (f : Vec3 ℝ) (a : Fin 3) (x y : ℝ) : (f.put a x).put a y = f.put a y := by
  refine Vec3.ext_get fun b => ?_
  rw [Vec3.get_put, Vec3.get_put, Vec3.get_put]
  split_ifs <;> rfl

theorem put_self {f : Vec3 ℝ} {a : Fin 3} : f.put a (f.get a) = f := by
  refine Vec3.ext_get fun b => ?_
  rw [Vec3.get_put]
  split_ifs with h
  · rw [h]
  · rfl

theorem get_put_self (f : Vec3 ℝ) (a : Fin 3) (x : ℝ) : (f.put a x).get a = x := by rw [Vec3.get_put, if_pos rfl]

theorem shrinkAxis_ok {P0 P : Packing} {I : Interaction} (hI : Contract I) (h0 : PInv P0 I) (hR : 0 < I.totalRange) {f : Vec3 ℝ} (hf : Pos f) {a : Fin 3}
    (hfa : f.get a = 1) (hh : P0.box.heights.get a > factorEpsilon * I.totalRange) (hP : Ready P0 I P0.size P) (hb : P.box.dims = stretch P0.box.dims f) :
    (∃ m, shrinkAxis I (relOf P0) P0.box.heights P a = .throw m) ∨
    ∃ P' x y, shrinkAxis I (relOf P0) P0.box.heights P a = .ok P' ∧ Ready P0 I P0.size P' ∧ P'.box.dims = stretch P0.box.dims (f.put a (y * factorEpsilon)) ∧
      mols P' = moved P0.box (mols P0) (f.put a y) ∧ P'.countTotalOverlaps I false = .ok 0 ∧ 0 < x ∧ x < y ∧ y ≤ 1 ∧ y - x ≤ epsilon ∧ OverlapsStretched P0 I (f.put a x) := by
  set x0 := I.totalRange * factorEpsilon / P0.box.heights.get a with hx0
  have hFp : 0 < factorEpsilon := lt_trans one_pos factor_gt
  have hhp : 0 < P0.box.heights.get a := lt_trans (mul_pos hFp hR) hh
  have p0 : 0 < x0 := div_pos (mul_pos hR hFp) hhp
  have p1 : x0 < 1 := by rw [hx0, div_lt_one hhp, mul_comm]; exact hh
  have e1 : scaleColumn P.box.dims a x0 = stretch P0.box.dims (f.put a x0) := by rw [hb, scaleColumn_stretch, hfa, one_mul]
  have e2 : P.box.dims = stretch P0.box.dims (f.put a 1) := by rw [hb, ← hfa, put_self]
  have hpos : Pos (f.put a x0) := hf.put p0
  obtain ⟨b, P1, c, -, h2, h3, -, -, h6, -⟩ := check_stretch hI h0 hP hpos hpos fun _ => le_refl _
  unfold shrinkAxis
  simp only [← hx0, e1]
  rw [h2, Outcome.ok_bind]
  cases c with
  | false => exact Or.inl ⟨_, rfl⟩
  | true =>
    simp only
    rw [Outcome.require_true, Outcome.ok_bind]
    obtain ⟨P2, x, y, e, r2, i1, i2, i3, i4, i5⟩ := shrinkLoop_ok hI h0 hf (a := a) _ (P := P1) (x := x0) (y := 1) (Nat.lt_succ_self _) h3 p0 p1 ((h6 rfl).mp rfl)
    rw [e2, e, Outcome.ok_bind]
    have hy : 0 < y := by linarith
    have ey : scaleColumn (stretch P0.box.dims (f.put a y)) a factorEpsilon = stretch P0.box.dims (f.put a (y * factorEpsilon)) := by
      rw [scaleColumn_stretch, get_put_self, put_put]
    simp only
    rw [ey]
    obtain ⟨b', P3, c, k1, k2, k3, k4, k5, -, k7⟩ := check_stretch hI h0 r2 (hf.put (a := a) (k := y * factorEpsilon) (by positivity)) (hf.put (a := a) hy) (fun c => by
      rw [Vec3.get_put, Vec3.get_put]
      split_ifs
      · nlinarith [factor_gt]
      · exact le_refl _)
    rw [k2, Outcome.ok_bind]
    cases c with
    | true => exact Or.inl ⟨_, rfl⟩
    | false =>
      refine Or.inr ⟨P3, x, y, rfl, k3, ?_, k4, k7 rfl, by linarith, i2, i3, i4, i5⟩
      rw [k5, (Box.make_wf k1).2]

end Rampack.DistanceOptimizer
