import Verif.Lattice.ColumnProps
import Verif.Shapes.AxesProps
import Verif.Domain.ApartLemmas
/-
Theorems on random flips and rotations of molecules of a lattice (C88).
-/
namespace Rampack

open Spec hiding allCells
open Lattice Randomizing

theorem mapM_zipIdx {f : Nat → Shape → Outcome Shape} {g : Nat → Shape → Shape} {l : List Shape} : ∀ {n : Nat}, (∀ k s, l[k]? = some s → f (n + k) s = .ok (g (n + k) s)) →
    (l.zipIdx n).mapM (fun s => f s.2 s.1) = .ok ((l.zipIdx n).map fun s => g s.2 s.1) := by
  induction l with
  | nil => intro n _; rfl
  | cons a l ih =>
    intro n h
    rw [List.zipIdx_cons, List.mapM_cons, List.map_cons]
    have h0 := h 0 a rfl
    rw [Nat.add_zero] at h0
    rw [h0, Outcome.ok_bind, ih (n := n + 1) (by
      intro k s hk
      have := h (k + 1) s hk
      rwa [show n + (k + 1) = n + 1 + k by omega] at this), Outcome.ok_bind]
    rfl

/-- Cells are changed one after another. -/
theorem changeCells {f : Vec3 Nat → Nat → Shape → Outcome Shape} {g : Vec3 Nat → Nat → Shape → Shape} :
    ∀ {cs : List (Vec3 Nat)} {L : Lattice}, LatticeReached L → cs.Nodup → (∀ i ∈ cs, InRange L.dims i) →
      (∀ i ∈ cs, ∀ k s, (molsAt L i)[k]? = some s → f i k s = .ok (g i k s)) →
    ∃ L', cs.foldlM (changeCell f) L = .ok L' ∧ LatticeReached L' ∧ L'.dims = L.dims ∧ L'.box = L.box ∧ (cs ≠ [] → L'.regular = false) ∧
      (∀ i ∈ cs, molsAt L' i = (molsAt L i).zipIdx.map fun s => g i s.2 s.1) ∧ ∀ j, InRange L.dims j → j ∉ cs → molsAt L' j = molsAt L j
  | [], L, h, _, _, _ => ⟨L, rfl, h, rfl, rfl, fun h => absurd rfl h, fun _ h => absurd h (by simp), fun _ _ _ => rfl⟩
  | i :: cs, L, h, hn, hr, hf => by
    rw [List.nodup_cons] at hn
    have hi := hr i (by simp)
    have e0 : (molsAt L i).zipIdx.mapM (fun s => f i s.2 s.1) = .ok ((molsAt L i).zipIdx.map fun s => g i s.2 s.1) :=
      mapM_zipIdx fun k s hk => by
        rw [Nat.zero_add]
        exact hf i (by simp) k s hk
    obtain ⟨L1, a1, a2, a3, a4, a5, a6⟩ := modifySpecific_ok h.inv hi fun _ => (molsAt L i).zipIdx.map fun s => g i s.2 s.1
    have e1 : changeCell f L i = .ok L1 := by
      rw [changeCell, getSpecific_ok h.inv hi, Outcome.ok_bind, e0, Outcome.ok_bind, a1]
    have hsame : ∀ j ∈ cs, molsAt L1 j = molsAt L j := by
      intro j hj
      rw [a6 j (hr j (by simp [hj])), if_neg]
      rintro rfl
      exact hn.1 hj
    obtain ⟨L', b1, b2, b3, b4, b5, b6, b7⟩ := changeCells (cs := cs) (L := L1) (f := f) (g := g) (h.specific a1) hn.2 (by
      intro j hj
      rw [a3]
      exact hr j (by simp [hj])) (by
      intro j hj k s hk
      rw [hsame j hj] at hk
      exact hf j (by simp [hj]) k s hk)
    refine ⟨L', by rw [List.foldlM_cons, e1, Outcome.ok_bind, b1], b2, b3.trans a3, b4.trans a4, ?_, ?_, ?_⟩
    · intro _
      by_cases he : cs = []
      · rw [he] at b1
        have b1 : Outcome.ok L1 = .ok L' := b1
        injection b1 with b1
        rw [← b1, a5]
      · exact b5 he
    · intro j hj
      rcases List.mem_cons.mp hj with rfl | hj
      · rw [b7 j (by rw [a3]; exact hi) hn.1, a6 j hi, if_pos rfl]
      · rw [b6 j hj, hsame j hj]
    · intro j hj hjc
      rw [List.mem_cons, not_or] at hjc
      rw [b7 j (by rw [a3]; exact hj) hjc.2, a6 j hj, if_neg hjc.1]

theorem allCells_ne {L : Lattice} (h : L.Inv) : allCells L.dims ≠ [] := by
  intro e
  have : (⟨0, 0, 0⟩ : Vec3 Nat) ∈ allCells L.dims := mem_allCells.mpr ⟨h.x, h.y, h.z⟩
  rw [e] at this
  simp at this

theorem changeAll_ok {f : Vec3 Nat → Nat → Shape → Outcome Shape} {g : Vec3 Nat → Nat → Shape → Shape} {L : Lattice} (h : LatticeReached L)
    (hf : ∀ i, InRange L.dims i → ∀ k s, (molsAt L i)[k]? = some s → f i k s = .ok (g i k s)) :
    ∃ L', changeAll f L = .ok L' ∧ LatticeReached L' ∧ L'.dims = L.dims ∧ L'.box = L.box ∧ L'.regular = false ∧
      ∀ i, InRange L.dims i → molsAt L' i = (molsAt L i).zipIdx.map fun s => g i s.2 s.1 := by
  obtain ⟨L', a1, a2, a3, a4, a5, a6, -⟩ := changeCells (f := f) (g := g) h (allCells_nodup L.dims) (fun i hi => mem_allCells.mp hi) fun i hi => hf i (mem_allCells.mp hi)
  exact ⟨L', a1, a2, a3, a4, a5 (allCells_ne h.inv), fun i hi => a6 i (mem_allCells.mpr hi)⟩

theorem molecules_ok {L : Lattice} (h : L.Inv) : Molecules L (allCells L.dims) (molsAt L) (gen L) :=
  ⟨allCells_nodup _, fun _ => mem_allCells, fun _ hi => getSpecific_ok h (mem_allCells.mp hi), generate_ok h, rfl⟩

/-- Molecules which are generated from changed ones. -/
theorem gen_changed {L L' : Lattice} {g : Vec3 Nat → Nat → Shape → Shape} (h3 : L'.dims = L.dims) (h4 : L'.box = L.box)
    (h : ∀ i, InRange L.dims i → molsAt L' i = (molsAt L i).zipIdx.map fun s => g i s.2 s.1) (d : Shape) :
    gen L' = forMolecules (allCells L.dims) (molsAt L) fun i k => standing L i (g i k ((molsAt L i).getD k d)) := by
  unfold gen forMolecules
  rw [h3, h4, List.flatMap_def, List.flatMap_def]
  congr 1
  refine List.map_congr_left fun i hi => ?_
  rw [h i (mem_allCells.mp hi), List.map_map]
  refine List.ext_getElem? fun k => ?_
  by_cases hk : k < (molsAt L i).length
  · simp [hk, Function.comp]
    rfl
  · rw [List.getElem?_eq_none (by simp; omega), List.getElem?_eq_none (by simp; omega)]

/-- Changes with a property. -/
theorem changeAll_rel {f : Vec3 Nat → Nat → Shape → Outcome Shape} {L : Lattice} (h : LatticeReached L) {P : Vec3 Nat → Nat → Shape → Shape → Prop}
    (hf : ∀ i, InRange L.dims i → ∀ k s, (molsAt L i)[k]? = some s → ∃ t, f i k s = .ok t ∧ P i k s t) :
    ∃ (L' : Lattice) (g : Vec3 Nat → Nat → Shape → Shape), changeAll f L = .ok L' ∧ LatticeReached L' ∧ L'.dims = L.dims ∧ L'.box = L.box ∧ L'.regular = false ∧
      (∀ i, InRange L.dims i → molsAt L' i = (molsAt L i).zipIdx.map fun s => g i s.2 s.1) ∧
      ∀ i, InRange L.dims i → ∀ k s, (molsAt L i)[k]? = some s → P i k s (g i k s) := by
  classical
  let g : Vec3 Nat → Nat → Shape → Shape := fun i k s => if h : ∃ t, f i k s = .ok t ∧ P i k s t then h.choose else s
  have hg : ∀ i, InRange L.dims i → ∀ k s, (molsAt L i)[k]? = some s → f i k s = .ok (g i k s) ∧ P i k s (g i k s) := by
    intro i hi k s hk
    have h1 := hf i hi k s hk
    simp only [g, dif_pos h1]
    exact h1.choose_spec
  obtain ⟨L', a1, a2, a3, a4, a5, a6⟩ := changeAll_ok (f := f) (g := g) h fun i hi k s hk => (hg i hi k s hk).1
  exact ⟨L', g, a1, a2, a3, a4, a5, a6, fun i hi k s hk => (hg i hi k s hk).2⟩

theorem rotation_isRotation (x y z : ℝ) : IsRotation (Mat3.rotation x y z) := by
  rw [rotation_eq]
  have l : ∀ a, IsRotation (aroundX a) ∧ IsRotation (aroundY a) ∧ IsRotation (aroundZ a) := by
    intro a
    have hs := Real.sin_sq_add_cos_sq a
    refine ⟨⟨?_, ?_⟩, ⟨?_, ?_⟩, ⟨?_, ?_⟩⟩
    all_goals first
      | (show Mat3.transpose _ * _ = 1
         ext <;> simp [aroundX, aroundY, aroundZ, Mat3.mul_def, Mat3.mul, Mat3.one_def, Mat3.one, Mat3.transpose, Vec3.dot, Mat3.c0, Mat3.c1, Mat3.c2] <;> nlinarith)
      | (simp [aroundX, aroundY, aroundZ, Mat3.det]
         nlinarith)
  exact isRotation_mul (l z).2.2 (isRotation_mul (l y).2.1 (l x).1)

/-- One rotation about a unit vector. -/
theorem rotate_about {s : Shape} (hs : IsRotation s.rot) {n : Vec3 ℝ} (hn : n.norm2 = 1) (u : ℝ) :
    (s.rotate (axisRotation n u)).pos = s.pos ∧ IsRotation (s.rotate (axisRotation n u)).rot ∧
      RotatesAbout (axisRotation n u) n u ∧ (s.rotate (axisRotation n u)).rot = axisRotation n u * s.rot :=
  ⟨rfl, isRotation_mul (axisRotation_isRotation hn u) hs, axisRotation_about hn u, rfl⟩

theorem secondary_given {G : Geometry} (hg : GoodAxes G) {b : Vec3 ℝ} (hb : G.secondary = some b) (s : Shape) : G.getSecondaryAxis s = .ok (s.rot.mulVec b) := by
  obtain ⟨-, a, ha, -⟩ := hg.2 b hb
  have hk : ∃ c, G.checkedAxis = some c := by
    unfold Geometry.checkedAxis
    split_ifs
    · exact ⟨a, ha⟩
    · exact ⟨b, hb⟩
  obtain ⟨c, hk⟩ := hk
  rw [Geometry.getSecondaryAxis, hk, hb]

theorem rotateRandomly_ok {G : Geometry} (hg : GoodAxes G) {a : Randomizing.Axis} (ha : HasAxis G a) :
    ∃ a', mkAxis a = .ok a' ∧ ∀ s, IsRotation s.rot → ∀ u, ∃ t, rotateRandomly G a' u s = .ok t ∧ Turned G a u s t := by
  cases a with
  | vector v =>
    have ha : v.norm2 > 1 / 10 ^ 20 := ha
    obtain ⟨n, hn⟩ := normalize_some (v := v) (lt_trans (by norm_num) ha)
    refine ⟨.vector n, ?_, ?_⟩
    · unfold mkAxis
      simp only [decide_eq_true ha, Outcome.require_true, Outcome.ok_bind, hn]
      rfl
    · intro s hs u
      obtain ⟨h1, h2, h3, h4⟩ := rotate_about hs (normalize_ok hn) u.1
      exact ⟨_, rfl, h1, h2, n, _, ⟨normalize_ok hn, normalize_eq hn⟩, normalize_ok hn, h3, h4⟩
  | primary =>
    obtain ⟨a, ha⟩ := Option.ne_none_iff_exists'.mp ha
    refine ⟨.primary, rfl, fun s hs u => ?_⟩
    have hn : (s.rot.mulVec a).norm2 = 1 := (dot_rot hs a a).trans (hg.1 a ha)
    obtain ⟨h1, h2, h3, h4⟩ := rotate_about hs hn u.1
    refine ⟨s.rotate (axisRotation (s.rot.mulVec a) u.1), ?_, h1, h2, _, _, ⟨a, ha, rfl⟩, hn, h3, h4⟩
    show (shapeAxis G s .primary >>= fun v => Outcome.ok (s.rotate (axisRotation v u.1))) = _
    rw [shapeAxis, Geometry.getPrimaryAxis, ha, Outcome.ok_bind, normalize_unit hn, Outcome.ok_bind]
  | secondary =>
    obtain ⟨b, hb⟩ := Option.ne_none_iff_exists'.mp ha
    refine ⟨.secondary, rfl, fun s hs u => ?_⟩
    have hn : (s.rot.mulVec b).norm2 = 1 := (dot_rot hs b b).trans (hg.2 b hb).1
    obtain ⟨h1, h2, h3, h4⟩ := rotate_about hs hn u.1
    refine ⟨s.rotate (axisRotation (s.rot.mulVec b) u.1), ?_, h1, h2, _, _, ⟨b, hb, rfl⟩, hn, h3, h4⟩
    show (shapeAxis G s .secondary >>= fun v => Outcome.ok (s.rotate (axisRotation v u.1))) = _
    rw [shapeAxis, secondary_given hg hb, Outcome.ok_bind, normalize_unit hn, Outcome.ok_bind]
  | auxiliary =>
    obtain ⟨b, hb⟩ := Option.ne_none_iff_exists'.mp ha
    obtain ⟨g1, a, ha, g2⟩ := hg.2 b hb
    refine ⟨.auxiliary, rfl, fun s hs u => ?_⟩
    have hn : ((s.rot.mulVec a).cross (s.rot.mulVec b)).norm2 = 1 := by
      have l : ∀ u v : Vec3 ℝ, (u.cross v).norm2 = u.norm2 * v.norm2 - u.dot v ^ 2 := by
        intro u v
        simp only [Vec3.norm2, Vec3.dot, Vec3.cross]; ring
      have e1 : (s.rot.mulVec a).norm2 = 1 := (dot_rot hs a a).trans (hg.1 a ha)
      have e2 : (s.rot.mulVec b).norm2 = 1 := (dot_rot hs b b).trans g1
      rw [l, e1, e2, dot_rot hs, g2]
      norm_num
    obtain ⟨h1, h2, h3, h4⟩ := rotate_about hs hn u.1
    refine ⟨s.rotate (axisRotation ((s.rot.mulVec a).cross (s.rot.mulVec b)) u.1), ?_, h1, h2, _, _, ⟨a, b, ha, hb, rfl⟩, hn, h3, h4⟩
    show (shapeAxis G s .auxiliary >>= fun v => Outcome.ok (s.rotate (axisRotation v u.1))) = _
    have e : G.getAuxiliaryAxis s = .ok ((s.rot.mulVec a).cross (s.rot.mulVec b)) := by
      rw [Geometry.getAuxiliaryAxis, Geometry.getPrimaryAxis, ha, Outcome.ok_bind, secondary_given hg hb, Outcome.ok_bind, normalize_unit hn]
    rw [shapeAxis, e, Outcome.ok_bind, normalize_unit hn, Outcome.ok_bind]
  | random =>
    exact ⟨.random, rfl, fun s hs u => ⟨_, rfl, rfl, isRotation_mul (rotation_isRotation _ _ _) hs, _, (C54_rotation ⟨u.1, Real.arcsin u.2.1, u.2.2⟩).1, rfl⟩⟩

theorem _root_.Rampack.Spec.Turned.standing {G : Geometry} {a : Randomizing.Axis} {u : ℝ × ℝ × ℝ} {s t : Shape} (h : Turned G a u s t) (L : Lattice) (i : Vec3 Nat) :
    Turned G a u (standing L i s) (standing L i t) := by
  obtain ⟨h1, h2, h3⟩ := h
  refine ⟨by simp only [Spec.standing, h1], h2, ?_⟩
  cases a <;> exact h3

/-- C88: rotations of molecules in place by random angles: every molecule is turned about the given axis, and its position is kept. -/
theorem C88_rotations {L : Lattice} (h : LatticeReached L) {G : Geometry} (hg : GoodAxes G) {a : Randomizing.Axis} (ha : HasAxis G a)
    (ho : ∀ i c, InRange L.dims i → L.getSpecific i = .ok c → ∀ s ∈ c, IsRotation s.rot) (u : Vec3 Nat → Nat → ℝ × ℝ × ℝ) :
    ∃ L' cells mol g t, rotations G a u L = .ok L' ∧ LatticeReached L' ∧ L'.dims = L.dims ∧ L'.box = L.box ∧ L'.regular = false ∧
      (L.isNormalized = true → L'.isNormalized = true) ∧ Molecules L cells mol g ∧ L'.generate = .ok (forMolecules cells mol t) ∧
      ∀ i ∈ cells, ∀ k s, (mol i)[k]? = some s → Turned G a (u i k) (standing L i s) (t i k) := by
  obtain ⟨a', h1, h2⟩ := rotateRandomly_ok hg ha
  obtain ⟨L', g, b1, b2, b3, b4, b5, b6, b7⟩ := changeAll_rel (f := fun i k s => rotateRandomly G a' (u i k) s) (P := fun i k => Turned G a (u i k)) h
    fun i hi k s hk => h2 s (ho i _ hi (getSpecific_ok h.inv hi) s (List.mem_of_getElem? hk)) (u i k)
  refine ⟨L', allCells L.dims, molsAt L, gen L, fun i k => standing L i (g i k ((molsAt L i).getD k Shape.default)), ?_, b2, b3, b4, b5, ?_, molecules_ok h.inv, ?_, ?_⟩
  · rw [rotations, h1, Outcome.ok_bind, b1]
  · intro hn
    refine (normalized_iff b2.inv).mpr fun i hi s hs => ?_
    rw [b3] at hi
    rw [b6 i hi] at hs
    obtain ⟨p, hp, rfl⟩ := List.mem_map.mp hs
    have hp := List.mem_zipIdx_iff_getElem?.mp hp
    have hq := b7 i hi p.2 p.1 hp
    rw [show (g i p.2 p.1).pos = p.1.pos from hq.1]
    exact (normalized_iff h.inv).mp hn i hi p.1 (List.mem_of_getElem? hp)
  · rw [generate_ok b2.inv, gen_changed b3 b4 b6 Shape.default]
  · intro i hi k s hk
    have hd : (molsAt L i).getD k Shape.default = s := by rw [List.getD_eq_getElem?_getD, hk]; rfl
    show Turned G a (u i k) (standing L i s) (standing L i (g i k ((molsAt L i).getD k Shape.default)))
    rw [hd]
    exact (b7 i (mem_allCells.mp hi) k s hk).standing L i

/-- C88: random rotations about a vector of the squared norm at most 1e-20 are refused. -/
theorem C88_rotations_refused {L : Lattice} (G : Geometry) {v : Vec3 ℝ} (hv : ¬ v.norm2 > 1 / 10 ^ 20) (u : Vec3 Nat → Nat → ℝ × ℝ × ℝ) :
    ∃ msg, rotations G (.vector v) u L = .throw msg := by
  refine ⟨"Expects(vectorAxis.norm2() > 1e-20)", ?_⟩
  have e : mkAxis (.vector v) = .throw "Expects(vectorAxis.norm2() > 1e-20)" := by
    unfold mkAxis
    simp only [decide_eq_false hv]
    rfl
  rw [rotations, e]
  rfl

/-- C88: if there is any molecule, random rotations about the primary axis are refused when shapes do not have it. -/
theorem C88_primary_refused {L : Lattice} (h : LatticeReached L) {G : Geometry} (hp : G.primary = none) {i : Vec3 Nat} {c : List Shape} (hi : InRange L.dims i)
    (hc : L.getSpecific i = .ok c) (hne : c ≠ []) (u : Vec3 Nat → Nat → ℝ × ℝ × ℝ) :
    ∃ msg, rotations G .primary u L = .throw msg := by
  refine ⟨"std::runtime_error", ?_⟩
  have e0 : ∀ u s, rotateRandomly G .primary u s = .throw "std::runtime_error" := by
    intro u s
    show (shapeAxis G s .primary >>= fun v => Outcome.ok (s.rotate (axisRotation v u.1))) = _
    rw [shapeAxis, Geometry.getPrimaryAxis, hp]
    rfl
  have key : ∀ (cs : List (Vec3 Nat)) (L : Lattice), LatticeReached L → (∀ j ∈ cs, InRange L.dims j) → (∃ j ∈ cs, molsAt L j ≠ []) →
      cs.foldlM (changeCell fun i k s => rotateRandomly G .primary (u i k) s) L = .throw "std::runtime_error" := by
    intro cs
    induction cs with
    | nil => rintro L _ _ ⟨j, hj, -⟩; simp at hj
    | cons j cs ih =>
      rintro L h hr ⟨k, hk, hne⟩
      rw [List.foldlM_cons]
      by_cases hj : molsAt L j = []
      · obtain ⟨L1, a1, a2, a3, a4, a5, a6⟩ := modifySpecific_ok h.inv (hr j (by simp)) fun _ => []
        have e1 : changeCell (fun i k s => rotateRandomly G .primary (u i k) s) L j = .ok L1 := by
          rw [changeCell, getSpecific_ok h.inv (hr j (by simp)), Outcome.ok_bind, hj]
          exact a1
        rw [e1, Outcome.ok_bind]
        have hkj : k ≠ j := by
          rintro rfl
          exact hne hj
        have hk' : k ∈ cs := by
          rcases List.mem_cons.mp hk with h | h
          · exact absurd h hkj
          · exact h
        refine ih L1 (h.specific a1) (by intro m hm; rw [a3]; exact hr m (by simp [hm])) ⟨k, hk', ?_⟩
        rw [a6 k (hr k hk), if_neg hkj]
        exact hne
      · obtain ⟨s, l, hs⟩ := List.exists_cons_of_ne_nil hj
        have e1 : changeCell (fun i k s => rotateRandomly G .primary (u i k) s) L j = .throw "std::runtime_error" := by
          rw [changeCell, getSpecific_ok h.inv (hr j (by simp)), Outcome.ok_bind, hs, List.zipIdx_cons, List.mapM_cons, e0]
          rfl
        rw [e1]
        rfl
  show changeAll _ L = _
  refine key _ L h (fun j hj => mem_allCells.mp hj) ⟨i, mem_allCells.mpr hi, ?_⟩
  rw [getSpecific_ok h.inv hi] at hc
  injection hc with hc
  rw [hc]
  exact hne

theorem default_rotation : IsRotation Shape.default.rot := by
  refine ⟨?_, ?_⟩
  · show Mat3.transpose 1 * 1 = 1
    ext <;> simp [Mat3.mul_def, Mat3.mul, Mat3.one_def, Mat3.one, Mat3.transpose, Vec3.dot, Mat3.c0, Mat3.c1, Mat3.c2]
  · simp [Shape.default, Mat3.one_def, Mat3.one, Mat3.det]

/-- One flip. -/
theorem flip_ok {G : Geometry} {a : Vec3 ℝ} (hg : GoodAxes G) (ha : G.primary = some a) (hc : G.checksPrimary = false ∨ G.secondary ≠ none) :
    ∃ n, G.findFlipAxis Shape.default = .ok n ∧ ∀ (L : Lattice) (i : Vec3 Nat) (s : Shape), L.box.WF → IsRotation s.rot →
      ∃ t, flipShape G L.box n s = .ok t ∧ Flipped G (standing L i s) (standing L i t) ∧
        ∃ v, t.pos = s.pos + L.box.absToRel v ∧ v.norm ≤ 2 * G.origin.norm := by
  obtain ⟨n, p, h1, h2, h3, h4, -, h6⟩ := C85_flip (s := Shape.default) hg ha hc default_rotation
  have hp : p = a := by
    rw [Geometry.getPrimaryAxis, ha] at h2
    have h2 : Outcome.ok ((1 : Mat3).mulVec a) = .ok p := h2
    injection h2 with h2
    rw [← h2, Mat3.one_mulVec]
  subst hp
  have h6 : ∀ b, G.secondary = some b → n = b := by
    intro b hb
    rw [h6 b hb]
    exact Mat3.one_mulVec b
  refine ⟨n, h1, fun L i s hL hs => ?_⟩
  have hn : (s.rot.mulVec n).norm2 = 1 := (dot_rot hs n n).trans h3
  have hR := axisRotation_isRotation hn Real.pi
  have hA := axisRotation_about hn Real.pi
  set R := axisRotation (s.rot.mulVec n) Real.pi with hRdef
  set v := -(R.mulVec (s.rot.mulVec G.origin)) + s.rot.mulVec G.origin with hv
  have e0 : flipShape G L.box n s = .ok ⟨s.pos + L.box.absToRel v, R * s.rot⟩ := by
    rw [flipShape, normalize_unit hn]
    rfl
  refine ⟨_, e0, ⟨?_, ?_, ?_, s.rot.mulVec n, R, hn, hA, rfl⟩, v, rfl, ?_⟩
  · have e1 : (standing L i ⟨s.pos + L.box.absToRel v, R * s.rot⟩).pos = (standing L i s).pos + v := by
      simp only [standing]
      rw [show ∀ x y z : Vec3 ℝ, x + (y + z) = x + y + z from fun x y z => by ext <;> simp <;> ring, Box.relToAbs_add (s := _ + s.pos), Box.relToAbs_absToRel hL]
    rw [e1]
    show (standing L i s).pos + v + (R * s.rot).mulVec G.origin = (standing L i s).pos + s.rot.mulVec G.origin
    rw [← Mat3.mulVec_mulVec, hv]
    generalize R.mulVec (s.rot.mulVec G.origin) = y
    generalize (standing L i s).pos = x
    ext <;> simp <;> ring
  · intro a' ha'
    rw [ha] at ha'
    injection ha' with ha'
    subst ha'
    show (R * s.rot).mulVec p = -(s.rot.mulVec p)
    rw [← Mat3.mulVec_mulVec]
    exact reverses_perpendicular (by rw [dot_rot hs]; exact h4) R hA
  · intro b hb
    have hb := h6 b hb
    subst hb
    show (R * s.rot).mulVec n = s.rot.mulVec n
    rw [← Mat3.mulVec_mulVec]
    have := hA.1 1
    have e : ∀ w : Vec3 ℝ, (1 : ℝ) • w = w := fun w => by ext <;> simp
    rwa [e] at this
  · rw [hv]
    refine (Domain.norm_add_le' _ _).trans ?_
    rw [Domain.norm_neg']
    have e : ∀ {Q : Mat3}, IsRotation Q → ∀ w, (Q.mulVec w).norm = w.norm := by
      intro Q hQ w
      unfold Vec3.norm
      rw [show (Q.mulVec w).norm2 = w.norm2 from dot_rot hQ w w]
    rw [e hR, e hs]
    linarith

/-- C88: random flips: every molecule is left as it is or turned upside down, as the coin says, up to side vectors of the whole box; a normalised lattice stays so. It
assumes that geometric origins are not far from positions, compared with sizes of the cell, and that there are at most 2^30 cells in a direction. -/
theorem C88_flips {L : Lattice} (h : LatticeReached L) {G : Geometry} {a : Vec3 ℝ} (hg : GoodAxes G) (ha : G.primary = some a)
    (hc : G.checksPrimary = false ∨ G.secondary ≠ none) (ho : ∀ i c, InRange L.dims i → L.getSpecific i = .ok c → ∀ s ∈ c, IsRotation s.rot)
    (hd : L.dims.x ≤ 2 ^ 30 ∧ L.dims.y ≤ 2 ^ 30 ∧ L.dims.z ≤ 2 ^ 30) (hs : ∀ b, 2 * G.origin.norm ≤ (2 ^ 30 - 1) * L.box.heights.get b) (coin : Vec3 Nat → Nat → Bool) :
    ∃ L' cells mol g g' t B, flips G coin L = .ok L' ∧ LatticeReached L' ∧ L'.dims = L.dims ∧ L'.box = L.box ∧ L'.regular = false ∧
      (L.isNormalized = true → L'.isNormalized = true) ∧ L.latticeBox = .ok B ∧ Molecules L cells mol g ∧ L'.generate = .ok g' ∧
      SameMolecules B (forMolecules cells mol t) g' ∧ (L.isNormalized = false → g' = forMolecules cells mol t) ∧
      ∀ i ∈ cells, ∀ k s, (mol i)[k]? = some s → if coin i k = true then Flipped G (standing L i s) (t i k) else t i k = standing L i s := by
  obtain ⟨n, h1, h2⟩ := flip_ok hg ha hc
  obtain ⟨L1, f, b1, b2, b3, b4, b5, b6, b7⟩ := changeAll_rel (f := fun i k s => if coin i k then flipShape G L.box n s else .ok s)
    (P := fun i k s t => (if coin i k = true then Flipped G (standing L i s) (standing L i t) else t = s) ∧ ∃ v, t.pos = s.pos + L.box.absToRel v ∧ v.norm ≤ 2 * G.origin.norm) h (by
      intro i hi k s hk
      have hr := ho i _ hi (getSpecific_ok h.inv hi) s (List.mem_of_getElem? hk)
      by_cases hq : coin i k = true
      · obtain ⟨t, t1, t2, t3⟩ := h2 L i s h.inv.wf hr
        simp only [hq, if_true]
        exact ⟨t, t1, t2, t3⟩
      · simp only [hq]
        refine ⟨s, rfl, rfl, 0, ?_, ?_⟩
        · unfold Box.absToRel
          ext <;> simp [Mat3.mulVec, Vec3.dot]
        · have : (0 : Vec3 ℝ).norm = 0 := by simp [Vec3.norm, Vec3.norm2, Vec3.dot]
          rw [this]
          have := G.origin.norm_nonneg
          linarith)
  have hgen := gen_changed b3 b4 b6 Shape.default
  have ht : ∀ i ∈ allCells L.dims, ∀ k s, (molsAt L i)[k]? = some s →
      if coin i k = true then Flipped G (standing L i s) (standing L i (f i k ((molsAt L i).getD k Shape.default)))
      else standing L i (f i k ((molsAt L i).getD k Shape.default)) = standing L i s := by
    intro i hi k s hk
    have hdd : (molsAt L i).getD k Shape.default = s := by rw [List.getD_eq_getElem?_getD, hk]; rfl
    rw [hdd]
    have := (b7 i (mem_allCells.mp hi) k s hk).1
    split
    · rename_i hq
      rwa [if_pos hq] at this
    · rename_i hq
      rw [if_neg hq] at this
      rw [this]
  obtain ⟨B, hB, -⟩ := latticeBox_ok h.inv
  have hB1 : L1.latticeBox = .ok B := by
    rw [← hB]
    unfold latticeBox
    rw [b3, b4]
  cases hn : L.isNormalized with
  | false =>
    refine ⟨L1, allCells L.dims, molsAt L, gen L, gen L1, _, B, ?_, b2, b3, b4, b5, by simp, hB, molecules_ok h.inv, generate_ok b2.inv, ?_, fun _ => hgen, ht⟩
    · rw [flips, h1, Outcome.ok_bind, b1, Outcome.ok_bind, hn]
      rfl
    · rw [← hgen]
      refine ⟨gen L1, List.Perm.refl _, List.forall₂_same.mpr fun s _ => ⟨rfl, ⟨0, 0, 0⟩, ?_⟩⟩
      ext <;> simp [Box.relToAbs, Mat3.mulVec, Vec3.dot, ofInts]
  | true =>
    obtain ⟨L', g, g', B', c1, c2, c3, c4, c5, -, c7, c8, c9, c10, -⟩ := C41_normalize b2 (by rw [b3]; exact hd) (by
      intro i c hi hc s hs'
      rw [getSpecific_ok b2.inv hi] at hc
      injection hc with hc
      rw [b3] at hi
      rw [← hc, b6 i hi] at hs'
      obtain ⟨p, hp, rfl⟩ := List.mem_map.mp hs'
      have hp := List.mem_zipIdx_iff_getElem?.mp hp
      obtain ⟨-, v, v1, v2⟩ := b7 i hi p.2 p.1 hp
      have hw := (normalized_iff h.inv).mp hn i hi p.1 (List.mem_of_getElem? hp)
      have hw' : ∀ b, 0 ≤ p.1.pos.get b ∧ p.1.pos.get b < 1 := by
        rw [Fin.forall_fin_succ, Fin.forall_fin_succ, Fin.forall_fin_succ]
        exact ⟨hw.1, hw.2.1, hw.2.2, fun x => x.elim0⟩
      have hm : ∀ b, |(f i p.2 p.1).pos.get b| < 2 ^ 30 := by
        intro b
        have e1 := Domain.norm_get_le h.inv.wf v b
        have e2 := hs b
        have e3 : 0 < L.box.heights.get b := by
          obtain ⟨q1, q2, q3⟩ := Box.heights_pos h.inv.wf
          fin_cases b
          · exact q1
          · exact q2
          · exact q3
        have e4 : |(L.box.absToRel v).get b| ≤ 2 ^ 30 - 1 := by
          refine le_of_mul_le_mul_right ?_ e3
          linarith
        have e5 : (f i p.2 p.1).pos.get b = p.1.pos.get b + (L.box.absToRel v).get b := by
          rw [v1]
          fin_cases b <;> rfl
        rw [e5, abs_lt]
        obtain ⟨w1, w2⟩ := hw' b
        rw [abs_le] at e4
        constructor <;> linarith
      exact ⟨hm 0, hm 1, hm 2⟩)
    rw [hB1] at c4
    injection c4 with c4
    subst c4
    rw [generate_ok b2.inv] at c2
    injection c2 with c2
    refine ⟨L', allCells L.dims, molsAt L, gen L, g', _, B, ?_, b2.normalize c1, c8.trans b3, c7.trans b4, c9.trans b5, fun _ => c10, hB, molecules_ok h.inv, c3, ?_, fun h => by simp at h, ht⟩
    · rw [flips, h1, Outcome.ok_bind, b1, Outcome.ok_bind, hn, if_pos rfl, c1]
    · rw [← hgen, c2]
      exact c5

/-- C88: flips are refused if shapes do not have the primary axis. -/
theorem C88_flips_refused {L : Lattice} {G : Geometry} (hp : G.primary = none) (coin : Vec3 Nat → Nat → Bool) : ∃ msg, flips G coin L = .throw msg := by
  have e : G.findFlipAxis Shape.default = .throw "Expects(this->hasPrimaryAxis())" := by
    rw [Geometry.findFlipAxis, Geometry.hasPrimaryAxis, Geometry.getPrimaryAxis, hp]
    rfl
  rw [flips, e]
  exact ⟨_, rfl⟩

/-- A lattice of 30 cells with three molecules of spherocylinders. -/
example : ∃ L, Lattice.create layeredCell ⟨2, 5, 3⟩ = .ok L ∧ LatticeReached L ∧ (∀ i c, InRange L.dims i → L.getSpecific i = .ok c → c ≠ [] ∧ ∀ s ∈ c, IsRotation s.rot) ∧
    L.dims.x ≤ 2 ^ 30 ∧ L.dims.y ≤ 2 ^ 30 ∧ L.dims.z ≤ 2 ^ 30 ∧ GoodAxes (Geometry.rod []) ∧ HasAxis (Geometry.rod []) .primary ∧
    ∀ b, 2 * (Geometry.rod []).origin.norm ≤ (2 ^ 30 - 1) * L.box.heights.get b := by
  have hw : demoCell.box.WF := demoCell_wf
  have hr : ∀ s ∈ layeredCell.molecules, IsRotation s.rot := by
    intro s hs
    have : s.rot = 1 := by
      simp only [layeredCell, List.mem_cons, List.not_mem_nil, or_false] at hs
      rcases hs with rfl | rfl | rfl <;> rfl
    rw [this]
    exact default_rotation
  refine ⟨⟨[layeredCell.molecules], demoCell.box, ⟨2, 5, 3⟩, countCells ⟨2, 5, 3⟩, true⟩, rfl, .create (c := layeredCell) (d := ⟨2, 5, 3⟩) demoCell_wf (by norm_num) rfl, ?_,
    by norm_num, by norm_num, by norm_num, ⟨?_, ?_⟩, ?_, ?_⟩
  · intro i c hi hc
    have hc' : c = layeredCell.molecules := by
      have hL : LatticeReached _ := .create (c := layeredCell) (d := ⟨2, 5, 3⟩) demoCell_wf (by norm_num) rfl
      have e := (getSpecific_ok hL.inv (i := i) hi).symm.trans hc
      injection e with e
      exact e.symm
    subst hc'
    exact ⟨by simp [layeredCell], hr⟩
  · intro a ha
    injection ha with ha
    subst ha
    norm_num [Vec3.norm2, Vec3.dot]
  · intro b hb
    cases hb
  · simp [HasAxis, Geometry.rod]
  · intro b
    have e : (Geometry.rod []).origin.norm = 0 := by simp [Geometry.rod, Vec3.norm, Vec3.norm2, Vec3.dot]
    rw [e]
    obtain ⟨q1, q2, q3⟩ := Box.heights_pos hw
    have : 0 ≤ demoCell.box.heights.get b := by
      fin_cases b
      · exact q1.le
      · exact q2.le
      · exact q3.le
    have h1 : (0 : ℝ) ≤ (2 ^ 30 - 1) * demoCell.box.heights.get b := mul_nonneg (by norm_num) this
    simpa using h1

end Rampack
