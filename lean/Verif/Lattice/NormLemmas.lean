import Verif.Lattice.Lemmas
/-
Lemmas on normalisation of lattices.
-/
namespace Rampack

open Spec

namespace Lattice

theorem wrapUp_spec (x : ℝ) : ∃ k : ℕ, wrapUp x = x + k ∧ 0 ≤ wrapUp x := by
  induction x using wrapUp.induct with
  | case1 x h ih =>
    obtain ⟨k, h1, h2⟩ := ih
    rw [wrapUp, if_pos h]
    exact ⟨k + 1, by rw [h1]; push_cast; ring, h2⟩
  | case2 x h =>
    rw [wrapUp, if_neg h]
    exact ⟨0, by simp, by linarith⟩

theorem wrapDown_spec (x : ℝ) (h0 : 0 ≤ x) : ∃ k : ℕ, wrapDown x = x - k ∧ 0 ≤ wrapDown x ∧ wrapDown x < 1 := by
  induction x using wrapDown.induct with
  | case1 x h ih =>
    obtain ⟨k, h1, h2⟩ := ih (by linarith)
    rw [wrapDown, if_pos h]
    exact ⟨k + 1, by rw [h1]; push_cast; ring, h2⟩
  | case2 x h =>
    rw [wrapDown, if_neg h]
    exact ⟨0, by simp, h0, by linarith⟩

theorem wrap_eq (x : ℝ) : wrapDown (wrapUp x) = Int.fract x := by
  obtain ⟨k, h1, h2⟩ := wrapUp_spec x
  obtain ⟨m, h3, h4, h5⟩ := wrapDown_spec _ h2
  refine (Int.fract_eq_iff.mpr ⟨h4, h5, (m : ℤ) - k, ?_⟩).symm
  rw [h3, h1]
  push_cast
  ring

theorem remainder_eq (p : Vec3 ℝ) : remainder p = ⟨Int.fract p.x, Int.fract p.y, Int.fract p.z⟩ := rfl

theorem within_fract (p : Vec3 ℝ) : Within ⟨Int.fract p.x, Int.fract p.y, Int.fract p.z⟩ :=
  ⟨⟨Int.fract_nonneg _, Int.fract_lt_one _⟩, ⟨Int.fract_nonneg _, Int.fract_lt_one _⟩, ⟨Int.fract_nonneg _, Int.fract_lt_one _⟩⟩

/-- The cell number `n` is `c` up to the size of the lattice. -/
def wrapCoord (c : ℤ) (d : Nat) : Nat := (c % d).toNat

theorem wrapCoord_lt {c : ℤ} {d : Nat} (hd : 0 < d) : wrapCoord c d < d := by
  have h1 := Int.emod_nonneg c (b := d) (by omega)
  have h2 := Int.emod_lt_of_pos c (b := d) (by omega)
  unfold wrapCoord
  omega

theorem wrapCoord_eq {c : ℤ} {d : Nat} (hd : 0 < d) : ((wrapCoord c d : Nat) : ℤ) = c + d * (-(c / d)) := by
  have h1 := Int.emod_nonneg c (b := d) (by omega)
  have h2 := Int.emod_add_mul_ediv c d
  unfold wrapCoord
  rw [Int.toNat_of_nonneg h1]
  linarith

theorem cellCoord_ok {x : ℝ} {d : Nat} (hx : |x| < 2 ^ 31) (hd : 0 < d) (hd' : d ≤ 2 ^ 30) : cellCoord x d = .ok (wrapCoord ⌊x⌋ d) := by
  have hx := abs_lt.mp hx
  have h1 : -2 ^ 31 ≤ ⌊x⌋ := Int.le_floor.mpr (by push_cast; linarith [hx.1])
  have h2 : ⌊x⌋ < 2 ^ 31 := Int.floor_lt.mpr (by push_cast; linarith [hx.2])
  have e1 : wrapInt (d : Int) = d := wrapInt_of (by omega) (by omega)
  have h3 : ⌊x⌋.tmod d < d := Int.tmod_lt_of_pos _ (by omega)
  have h4 : -(d : ℤ) < ⌊x⌋.tmod d := Int.lt_tmod_of_pos _ (by omega)
  unfold cellCoord
  simp only [e1]
  rw [if_neg (by omega)]
  have e2 : (⌊x⌋.tmod d + d).tmod d = ⌊x⌋ % d := by
    rw [Int.tmod_eq_emod_of_nonneg (by omega), Int.add_emod_right]
    have h7 := Int.mul_tdiv_add_tmod ⌊x⌋ d
    rw [show ⌊x⌋.tmod d = ⌊x⌋ + d * (-(⌊x⌋.tdiv d)) by linarith, Int.add_mul_emod_self_left]
  rw [e2]
  have h5 := Int.emod_nonneg ⌊x⌋ (b := d) (by omega)
  have h6 := Int.emod_lt_of_pos ⌊x⌋ (b := d) (by omega)
  unfold toSize wrapCoord
  rw [Int.emod_eq_of_lt h5 (by omega)]

/-- The cell which contains a relative position, wrapped periodically. -/
noncomputable def wrapCell (d : Vec3 Nat) (p : Vec3 ℝ) : Vec3 Nat := ⟨wrapCoord ⌊p.x⌋ d.x, wrapCoord ⌊p.y⌋ d.y, wrapCoord ⌊p.z⌋ d.z⟩

theorem wrapCell_inRange {L : Lattice} (h : L.Inv) (p : Vec3 ℝ) : InRange L.dims (wrapCell L.dims p) := ⟨wrapCoord_lt h.x, wrapCoord_lt h.y, wrapCoord_lt h.z⟩

theorem latticeBox_ok {L : Lattice} (h : L.Inv) : ∃ B, L.latticeBox = .ok B ∧ ∀ v : Vec3 ℝ, B.relToAbs v = L.box.relToAbs ⟨L.dims.x * v.x, L.dims.y * v.y, L.dims.z * v.z⟩ := by
  have hx : (L.dims.x : ℝ) ≠ 0 := Nat.cast_ne_zero.mpr h.x.ne'
  have hy : (L.dims.y : ℝ) ≠ 0 := Nat.cast_ne_zero.mpr h.y.ne'
  have hz : (L.dims.z : ℝ) ≠ 0 := Nat.cast_ne_zero.mpr h.z.ne'
  unfold latticeBox Box.ofSides Box.make
  rw [if_neg]
  · refine ⟨_, rfl, ?_⟩
    intro v
    rw [Box.sides_x, Box.sides_y, Box.sides_z]
    unfold Box.relToAbs Mat3.mulVec Vec3.dot Mat3.c0 Mat3.c1 Mat3.c2
    ext <;> simp <;> ring
  · have hd := h.wf.det_ne
    rw [Box.sides_x, Box.sides_y, Box.sides_z]
    have e : (Mat3.mk ⟨((L.dims.x : ℝ) • L.box.dims.c0).x, ((L.dims.y : ℝ) • L.box.dims.c1).x, ((L.dims.z : ℝ) • L.box.dims.c2).x⟩
        ⟨((L.dims.x : ℝ) • L.box.dims.c0).y, ((L.dims.y : ℝ) • L.box.dims.c1).y, ((L.dims.z : ℝ) • L.box.dims.c2).y⟩
        ⟨((L.dims.x : ℝ) • L.box.dims.c0).z, ((L.dims.y : ℝ) • L.box.dims.c1).z, ((L.dims.z : ℝ) • L.box.dims.c2).z⟩).det =
        L.dims.x * L.dims.y * L.dims.z * L.box.dims.det := by
      unfold Mat3.det Mat3.c0 Mat3.c1 Mat3.c2
      simp
      ring
    rw [e]
    exact mul_ne_zero (mul_ne_zero (mul_ne_zero hx hy) hz) hd

/-- A position up to side vectors of the whole box. -/
theorem same_cell {L : Lattice} (h : L.Inv) {B : Box} (hB : L.latticeBox = .ok B) (p : Vec3 ℝ) :
    ∃ n : Vec3 ℤ, L.box.relToAbs (ofCell (wrapCell L.dims p) + remainder p) = L.box.relToAbs p + B.relToAbs (ofInts n) := by
  obtain ⟨B', hB', hr⟩ := latticeBox_ok h
  rw [hB] at hB'
  injection hB' with hB'
  subst hB'
  refine ⟨⟨-(⌊p.x⌋ / L.dims.x), -(⌊p.y⌋ / L.dims.y), -(⌊p.z⌋ / L.dims.z)⟩, ?_⟩
  rw [hr, ← Box.relToAbs_add]
  congr 1
  have e : ∀ {c : ℤ} {d : Nat}, 0 < d → ((wrapCoord c d : Nat) : ℝ) = c + d * ((-(c / d) : ℤ) : ℝ) := by
    intro c d hd
    have := wrapCoord_eq (c := c) hd
    exact_mod_cast this
  rw [remainder_eq]
  ext
  · simp only [Vec3.add_x, ofCell, wrapCell, ofInts]
    rw [e h.x]
    have := Int.floor_add_fract p.x
    linarith
  · simp only [Vec3.add_y, ofCell, wrapCell, ofInts]
    rw [e h.y]
    have := Int.floor_add_fract p.y
    linarith
  · simp only [Vec3.add_z, ofCell, wrapCell, ofInts]
    rw [e h.z]
    have := Int.floor_add_fract p.z
    linarith

theorem normalized_iff {L : Lattice} (h : L.Inv) : L.isNormalized = true ↔ ∀ i, InRange L.dims i → ∀ s ∈ molsAt L i, Within s.pos := by
  have e : L.isNormalized = true ↔ ∀ c ∈ L.cells, ∀ s ∈ c, Within s.pos := by
    unfold isNormalized cellNormalized Within
    simp only [List.all_eq_true]
    refine forall₂_congr fun c _ => forall₂_congr fun s _ => ?_
    simp only [Bool.not_eq_true', Bool.or_eq_false_iff, decide_eq_false_iff_not, not_lt, ge_iff_le, not_le, and_assoc]
  rw [e]
  have hc := h.cells
  unfold molsAt
  by_cases hr : L.regular = true
  · rw [if_pos hr] at hc
    obtain ⟨c, hl⟩ := List.length_eq_one_iff.mp hc
    simp only [hr, if_true, hl, List.headD_cons, List.mem_singleton, forall_eq]
    exact ⟨fun h' _ _ => h', fun h' => h' ⟨0, 0, 0⟩ ⟨h.x, h.y, h.z⟩⟩
  · rw [if_neg hr, h.num] at hc
    simp only [hr, Bool.false_eq_true, if_false]
    constructor
    · intro h' i hi s hs
      have hlt : idx L.dims i < L.cells.length := by rw [hc]; exact idx_lt hi
      rw [List.getD_eq_getElem?_getD, List.getElem?_eq_getElem hlt, Option.getD_some] at hs
      exact h' _ (List.getElem_mem hlt) s hs
    · intro h' c hcm s hs
      obtain ⟨n, hn, rfl⟩ := List.mem_iff_getElem.mp hcm
      obtain ⟨i, hi, hin⟩ := idx_surj (d := L.dims) (n := n) (by omega)
      refine h' i hi s ?_
      rw [hin, List.getD_eq_getElem?_getD, List.getElem?_eq_getElem hn, Option.getD_some]
      exact hs

theorem flatMap_push {F G : Vec3 Nat → List Shape} {p : Vec3 Nat → Shape → Shape} {i : Vec3 Nat} {m : Shape} : ∀ {l : List (Vec3 Nat)}, l.Nodup → i ∈ l →
    (∀ j ∈ l, G j = if j = i then F i ++ [m] else F j) → (l.flatMap fun j => (G j).map (p j)).Perm ((l.flatMap fun j => (F j).map (p j)) ++ [p i m])
  | [], _, h, _ => absurd h (by simp)
  | a :: l, hn, hi, hG => by
    rw [List.nodup_cons] at hn
    by_cases ha : a = i
    · subst ha
      have e : (l.flatMap fun j => (G j).map (p j)) = l.flatMap fun j => (F j).map (p j) := by
        apply List.flatMap_congr
        intro j hj
        rw [hG j (by simp [hj]), if_neg (fun e : j = a => hn.1 (e ▸ hj))]
      rw [List.flatMap_cons, List.flatMap_cons, e, hG a (by simp), if_pos rfl, List.map_append, List.map_singleton, List.append_assoc, List.append_assoc]
      exact List.Perm.append_left _ List.perm_append_comm
    · have hi' : i ∈ l := by
        rcases List.mem_cons.mp hi with h | h
        · exact absurd h.symm ha
        · exact h
      have ih := flatMap_push (p := p) hn.2 hi' (fun j hj => hG j (by simp [hj]))
      rw [List.flatMap_cons, List.flatMap_cons, hG a (by simp), if_neg ha, List.append_assoc]
      exact List.Perm.append_left _ ih

theorem putMolecule_ok {N : Lattice} (h : N.Inv) (hd : N.dims.x ≤ 2 ^ 30 ∧ N.dims.y ≤ 2 ^ 30 ∧ N.dims.z ≤ 2 ^ 30) {s : Shape}
    (hs : |(N.box.absToRel s.pos).x| < 2 ^ 31 ∧ |(N.box.absToRel s.pos).y| < 2 ^ 31 ∧ |(N.box.absToRel s.pos).z| < 2 ^ 31)
    (hw : ∀ i, InRange N.dims i → ∀ s ∈ molsAt N i, Within s.pos) :
    ∃ N', putMolecule N.box N.dims N s = .ok N' ∧ N'.Inv ∧ N'.dims = N.dims ∧ N'.box = N.box ∧
      (gen N').Perm (gen N ++ [place N.box (wrapCell N.dims (N.box.absToRel s.pos)) ⟨remainder (N.box.absToRel s.pos), s.rot⟩]) ∧
      ∀ i, InRange N'.dims i → ∀ s ∈ molsAt N' i, Within s.pos := by
  generalize hp : N.box.absToRel s.pos = p at *
  obtain ⟨N', h1, h2, h3, h4, h5, h6⟩ := modifySpecific_ok h (wrapCell_inRange h p) fun c => c ++ [⟨remainder p, s.rot⟩]
  refine ⟨N', ?_, h2, h3, h4, ?_, ?_⟩
  · unfold putMolecule
    rw [hp, cellCoord_ok hs.1 h.x hd.1, cellCoord_ok hs.2.1 h.y hd.2.1, cellCoord_ok hs.2.2 h.z hd.2.2]
    exact h1
  · unfold gen
    rw [h3, h4]
    exact flatMap_push (allCells_nodup _) (mem_allCells.mpr (wrapCell_inRange h p)) fun j hj => h6 j (mem_allCells.mp hj)
  · intro i hi t ht
    rw [h3] at hi
    rw [h6 i hi] at ht
    by_cases e : i = wrapCell N.dims p
    · rw [if_pos e] at ht
      rcases List.mem_append.mp ht with ht | ht
      · exact hw _ (wrapCell_inRange h p) t ht
      · rw [List.mem_singleton.mp ht]
        exact within_fract p
    · rw [if_neg e] at ht
      exact hw i hi t ht

theorem putAll_ok {b : Box} {d : Vec3 Nat} (hd : d.x ≤ 2 ^ 30 ∧ d.y ≤ 2 ^ 30 ∧ d.z ≤ 2 ^ 30) : ∀ {g : List Shape} {N : Lattice}, N.Inv → N.box = b → N.dims = d →
    (∀ s ∈ g, |(b.absToRel s.pos).x| < 2 ^ 31 ∧ |(b.absToRel s.pos).y| < 2 ^ 31 ∧ |(b.absToRel s.pos).z| < 2 ^ 31) →
    (∀ i, InRange N.dims i → ∀ s ∈ molsAt N i, Within s.pos) →
    ∃ N', g.foldlM (putMolecule b d) N = .ok N' ∧ N'.Inv ∧ N'.dims = d ∧ N'.box = b ∧
      (gen N').Perm (gen N ++ g.map fun s => place b (wrapCell d (b.absToRel s.pos)) ⟨remainder (b.absToRel s.pos), s.rot⟩) ∧
      ∀ i, InRange N'.dims i → ∀ s ∈ molsAt N' i, Within s.pos
  | [], N, h, hb, hdim, _, hw => ⟨N, rfl, h, hdim, hb, by simp, hw⟩
  | s :: g, N, h, hb, hdim, hg, hw => by
    obtain ⟨N₁, h1, h2, h3, h4, h5, h6⟩ := putMolecule_ok h (by rw [hdim]; exact hd) (s := s) (by rw [hb]; exact hg s (by simp)) hw
    rw [hb, hdim] at h1 h5
    obtain ⟨N₂, g1, g2, g3, g4, g5, g6⟩ := putAll_ok (g := g) hd h2 (h4.trans hb) (h3.trans hdim) (fun t ht => hg t (by simp [ht])) h6
    refine ⟨N₂, ?_, g2, g3, g4, ?_, g6⟩
    · rw [List.foldlM_cons, h1]
      exact g1
    · refine g5.trans ?_
      rw [List.map_cons, ← List.singleton_append (l := g.map _), ← List.append_assoc]
      exact List.Perm.append_right _ h5

theorem rel_list {R : Shape → Shape → Prop} : ∀ {a : List Shape} {b : Multiset Shape}, Multiset.Rel R (a : Multiset Shape) b → ∃ l : List Shape, (l : Multiset Shape) = b ∧ List.Forall₂ R a l
  | [], b, h => by
    rw [Multiset.coe_nil, Multiset.rel_zero_left] at h
    exact ⟨[], by rw [h]; rfl, .nil⟩
  | s :: a, b, h => by
    rw [← Multiset.cons_coe, Multiset.rel_cons_left] at h
    obtain ⟨t, b', h1, h2, rfl⟩ := h
    obtain ⟨l, rfl, hl⟩ := rel_list h2
    exact ⟨t :: l, rfl, .cons h1 hl⟩

/-- The cell to which a molecule from the cell `i` goes, if it is at `p` relative to it. -/
noncomputable def moveCell (d : Vec3 Nat) (p : Vec3 ℝ) (i : Vec3 Nat) : Vec3 Nat := wrapCell d (ofCell i + p)

theorem moveCell_perm {L : Lattice} (h : L.Inv) (p : Vec3 ℝ) : ((allCells L.dims).map (moveCell L.dims p)).Perm (allCells L.dims) := by
  refine ((((allCells_nodup L.dims).map_on ?_).subperm ?_).perm_of_length_le (by simp))
  · intro i hi j hj e
    have hi := mem_allCells.mp hi
    have hj := mem_allCells.mp hj
    have key : ∀ {a b d : Nat} {x : ℝ}, a < d → b < d → wrapCoord ⌊(a : ℝ) + x⌋ d = wrapCoord ⌊(b : ℝ) + x⌋ d → a = b := by
      intro a b d x ha hb hw
      have e1 := wrapCoord_eq (c := ⌊(a : ℝ) + x⌋) (d := d) (by omega)
      have e2 := wrapCoord_eq (c := ⌊(b : ℝ) + x⌋) (d := d) (by omega)
      rw [hw, e2, Int.floor_natCast_add, Int.floor_natCast_add] at e1
      have e3 : (a : ℤ) ≡ b [ZMOD d] := by
        have : (a : ℤ) - b = d * (((a : ℤ) + ⌊x⌋) / d - ((b : ℤ) + ⌊x⌋) / d) := by linarith
        exact (Int.modEq_iff_dvd.mpr ⟨_, this⟩).symm
      have e4 := e3.eq
      rw [Int.emod_eq_of_lt (by omega) (by omega), Int.emod_eq_of_lt (by omega) (by omega)] at e4
      omega
    unfold moveCell wrapCell ofCell at e
    simp only [Vec3.mk.injEq, Vec3.add_x, Vec3.add_y, Vec3.add_z] at e
    exact Vec3.ext (key hi.1 hj.1 e.1) (key hi.2.1 hj.2.1 e.2.1) (key hi.2.2 hj.2.2 e.2.2)
  · intro i hi
    obtain ⟨j, -, rfl⟩ := List.mem_map.mp hi
    exact mem_allCells.mpr (wrapCell_inRange h _)

theorem fract_add (i : Vec3 Nat) (p : Vec3 ℝ) : remainder (ofCell i + p) = ⟨Int.fract p.x, Int.fract p.y, Int.fract p.z⟩ := by
  rw [remainder_eq]
  simp [ofCell, Int.fract_natCast_add]

/-- Moving one molecule in each cell to the cell which contains it. -/
theorem rel_molecule {L : Lattice} (h : L.Inv) {B : Box} (hB : L.latticeBox = .ok B) (s : Shape) :
    Multiset.Rel (SameCellPlace B) (((allCells L.dims : Multiset _)).map fun i => place L.box i s) (((allCells L.dims : Multiset _)).map fun i => place L.box i (wrapShape s)) := by
  have e : (allCells L.dims : Multiset (Vec3 Nat)) = ((allCells L.dims : Multiset _)).map (moveCell L.dims s.pos) := by
    rw [Multiset.map_coe]
    exact (Multiset.coe_eq_coe.mpr (moveCell_perm h s.pos)).symm
  conv => arg 3; rw [e]
  rw [Multiset.map_map, Multiset.rel_map]
  refine Multiset.rel_refl_of_refl_on fun i _ => ⟨rfl, ?_⟩
  obtain ⟨n, hn⟩ := same_cell h hB (ofCell i + s.pos)
  refine ⟨n, ?_⟩
  unfold place
  simp only [Function.comp]
  rw [← hn, fract_add]
  unfold moveCell wrapShape
  simp only [wrap_eq]

theorem rel_regular {L : Lattice} (h : L.Inv) {B : Box} (hB : L.latticeBox = .ok B) (u : List Shape) :
    Multiset.Rel (SameCellPlace B) (((allCells L.dims).flatMap fun i => u.map (place L.box i) : List Shape) : Multiset Shape)
      (((allCells L.dims).flatMap fun i => (u.map wrapShape).map (place L.box i) : List Shape) : Multiset Shape) := by
  have e : ∀ f : Vec3 Nat → Shape → Shape, (((allCells L.dims).flatMap fun i => u.map (f i) : List Shape) : Multiset Shape) =
      (u : Multiset Shape).bind fun m => ((allCells L.dims : Multiset _)).map fun i => f i m := by
    intro f
    rw [← Multiset.coe_bind, ← Multiset.bind_map_comm]
    rfl
  simp only [List.map_map]
  rw [e, e (fun i => place L.box i ∘ wrapShape)]
  refine Multiset.rel_bind (r := Eq) ?_ (Multiset.rel_eq.mpr rfl)
  rintro m _ rfl
  exact rel_molecule h hB m

end Lattice

end Rampack
