import Verif.Lattice.LayerLemmas
import Verif.Geometry.RotationProps
/-
Theorems on rotations of layers (C86).
-/
namespace Rampack

open Spec hiding allCells
open Lattice LayerWise

theorem box_sides (b : Box) : b.sides = ⟨b.dims.c0, b.dims.c1, b.dims.c2⟩ := by
  rw [← Box.sides_x, ← Box.sides_y, ← Box.sides_z]

theorem jointBox_ok {b : Box} (hb : b.WF) (axis : Fin 3) {f : Nat} (hf : 0 < f) :
    ∃ B, jointBox axis f b = .ok B ∧ B.WF ∧ (∀ v : Vec3 ℝ, B.relToAbs v = b.relToAbs (v.put axis (f * v.get axis))) ∧
      B.sides = b.sides.put axis ((f : ℝ) • b.sides.get axis) := by
  have hf' : (f : ℝ) ≠ 0 := Nat.cast_ne_zero.mpr hf.ne'
  have hd := hb.det_ne
  unfold jointBox Box.ofSides Box.make
  simp only
  rw [if_neg ?_]
  · refine ⟨_, rfl, ⟨?_, rfl⟩, ?_, ?_⟩
    · revert hd
      fin_cases axis <;> simp [box_sides, Vec3.put, Vec3.ofFn, Vec3.get, Mat3.c0, Mat3.c1, Mat3.c2, Mat3.det] <;> intro h h2 <;>
        exact h ((mul_left_cancel₀ hf' (by rw [mul_zero]; linear_combination h2)))
    · intro v
      fin_cases axis <;> ext <;> simp [Box.relToAbs, Mat3.mulVec, box_sides, Vec3.put, Vec3.ofFn, Vec3.get, Mat3.c0, Mat3.c1, Mat3.c2, Vec3.dot] <;> ring
    · rw [box_sides]
      fin_cases axis <;> ext <;> simp [box_sides, Vec3.put, Vec3.ofFn, Vec3.get, Mat3.c0, Mat3.c1, Mat3.c2]
  · revert hd
    fin_cases axis <;> simp [box_sides, Vec3.put, Vec3.ofFn, Vec3.get, Mat3.c0, Mat3.c1, Mat3.c2, Mat3.det] <;> intro h h2 <;>
      exact h ((mul_left_cancel₀ hf' (by rw [mul_zero]; linear_combination h2)))

/-- Molecules of the joint cell after the change. -/
noncomputable def turnedCell (axis : Fin 3) (f m n : Nat) (layer : Nat → Nat) (F : Nat → Shape → Shape) (cell : List Shape) : List Shape :=
  (List.range f).flatMap fun j => cell.zipIdx.map fun p => F ((j * m + layer p.2) % n) (replica axis f j p.1)

theorem mem_layerOf {ls : List (List Nat)} {q l : Nat} : (q, l) ∈ layerOf ls ↔ ∃ ks, ls[l]? = some ks ∧ q ∈ ks := by
  unfold layerOf
  rw [List.mem_flatMap]
  constructor
  · rintro ⟨⟨ks, l'⟩, h1, h2⟩
    obtain ⟨q', h3, h4⟩ := List.mem_map.mp h2
    injection h4 with h5 h6
    simp only at h5 h6
    subst h5 h6
    exact ⟨ks, List.mem_zipIdx_iff_getElem?.mp h1, h3⟩
  · rintro ⟨ks, h1, h2⟩
    exact ⟨(ks, l), List.mem_zipIdx_iff_getElem?.mpr h1, List.mem_map.mpr ⟨q, h2, rfl⟩⟩

theorem layerOf_fst (ls : List (List Nat)) : (layerOf ls).map Prod.fst = ls.flatten := by
  unfold layerOf
  rw [List.map_flatMap]
  have : (fun a : List Nat × Nat => (a.1.map fun k => (k, a.2)).map Prod.fst) = Prod.fst := by
    funext a
    rw [List.map_map]
    exact List.map_id' a.1
  rw [this]
  have e : ls.zipIdx.flatMap Prod.fst = (ls.zipIdx.map Prod.fst).flatten := rfl
  rw [e]
  simp

theorem joint_flatten (f size : Nat) (layers : List (ℝ × List Nat)) :
    (replicaLayers f size layers).flatten = (List.range f).flatMap fun j => (layers.flatMap Prod.snd).map (· + j * size) := by
  unfold replicaLayers
  induction List.range f with
  | nil => rfl
  | cons a l ih =>
    rw [List.flatMap_cons, List.flatten_append, ih, List.flatMap_cons, List.map_flatMap]
    simp [List.flatMap]

theorem joint_nodup {f size : Nat} {layers : List (ℝ × List Nat)} (h : (layers.flatMap Prod.snd).Perm (List.range size)) :
    (replicaLayers f size layers).flatten.Nodup := by
  rw [joint_flatten, List.nodup_flatMap]
  constructor
  · intro j _
    exact (h.nodup_iff.mpr List.nodup_range).map (add_left_injective _)
  · refine List.nodup_range.imp_of_mem ?_
    intro a b ha hb hab x hxa hxb
    obtain ⟨u, hu, rfl⟩ := List.mem_map.mp hxa
    obtain ⟨v, hv, e⟩ := List.mem_map.mp hxb
    have hu := List.mem_range.mp (h.mem_iff.mp hu)
    have hv := List.mem_range.mp (h.mem_iff.mp hv)
    rcases Nat.lt_or_gt_of_ne hab with hl | hl
    · nlinarith [Nat.mul_le_mul_right size (show a + 1 ≤ b by omega)]
    · nlinarith [Nat.mul_le_mul_right size (show b + 1 ≤ a by omega)]

theorem turned_ok {axis : Fin 3} {cell : List Shape} {n f : Nat} {g : Nat → Shape → Outcome Shape} {F : Nat → Shape → Shape} (hn : 0 < n)
    (hg : ∀ j < n, ∀ s, g j s = .ok (F j s)) :
    (layerOf (replicaLayers f cell.length (layerAssociation axis cell))).foldlM (transformAt n g) (replicas axis f cell) =
      .ok (turnedCell axis f (layerAssociation axis cell).length n (binOf (layerAssociation axis cell)) F cell) := by
  have hok := layers_ok axis cell
  have hall : ((layerAssociation axis cell).flatMap Prod.snd).Perm (List.range cell.length) := by
    have := hok.all
    rwa [layerKeys, List.length_map] at this
  have hrl : (replicas axis f cell).length = f * cell.length := by
    unfold replicas
    rw [List.length_flatMap]
    simp
  obtain ⟨r, h1, h2, h3, h4⟩ := transformAll hn hg (ops := layerOf (replicaLayers f cell.length (layerAssociation axis cell))) (cell := replicas axis f cell)
    (by rw [layerOf_fst]; exact joint_nodup hall) (by
      intro o ho
      have : o.1 ∈ (replicaLayers f cell.length (layerAssociation axis cell)).flatten := by
        rw [← layerOf_fst]
        exact List.mem_map_of_mem ho
      rw [joint_flatten] at this
      obtain ⟨j, hj, h5⟩ := List.mem_flatMap.mp this
      obtain ⟨k, hk, h6⟩ := List.mem_map.mp h5
      have hk := List.mem_range.mp (hall.mem_iff.mp hk)
      have hj := List.mem_range.mp hj
      rw [hrl, ← h6]
      nlinarith [Nat.mul_le_mul_right cell.length (show j + 1 ≤ f by omega)])
  rw [h1]
  congr 1
  have htl : (turnedCell axis f (layerAssociation axis cell).length n (binOf (layerAssociation axis cell)) F cell).length = f * cell.length := by
    unfold turnedCell
    rw [List.length_flatMap]
    simp
  refine List.ext_getElem? fun q => ?_
  by_cases hq : q < f * cell.length
  · have hc : 0 < cell.length := Nat.pos_of_ne_zero fun e => by simp [e] at hq
    obtain ⟨j, k, hj, hk, rfl⟩ : ∃ j k, j < f ∧ k < cell.length ∧ q = j * cell.length + k :=
      ⟨q / cell.length, q % cell.length, by rwa [Nat.div_lt_iff_lt_mul hc], Nat.mod_lt _ hc, by rw [mul_comm, Nat.div_add_mod]⟩
    have e1 : (replicas axis f cell)[j * cell.length + k]? = some (replica axis f j cell[k]) := by
      unfold replicas
      rw [flatMap_range_get (f := fun i => cell.map (replica axis f i)) (by simp) hk hj]
      simp [hk]
    have e2 : (turnedCell axis f (layerAssociation axis cell).length n (binOf (layerAssociation axis cell)) F cell)[j * cell.length + k]? =
        some (F ((j * (layerAssociation axis cell).length + binOf (layerAssociation axis cell) k) % n) (replica axis f j cell[k])) := by
      unfold turnedCell
      rw [flatMap_range_get (f := fun j => cell.zipIdx.map fun p =>
        F ((j * (layerAssociation axis cell).length + binOf (layerAssociation axis cell) p.2) % n) (replica axis f j p.1)) (by simp) hk hj]
      simp [hk]
    rw [e2]
    obtain ⟨b, b1, b2⟩ := binOf_spec hok (n := k) (by rw [layerKeys, List.length_map]; exact hk)
    refine h4 _ _ ?_ _ e1
    rw [mem_layerOf]
    have e3 : (replicaLayers f cell.length (layerAssociation axis cell))[j * (layerAssociation axis cell).length + binOf (layerAssociation axis cell) k]? =
        some (b.2.map (· + j * cell.length)) := by
      unfold replicaLayers
      rw [flatMap_range_get (f := fun i => (layerAssociation axis cell).map fun l => l.2.map (· + i * cell.length)) (by simp)
        (List.getElem?_eq_some_iff.mp b1).1 hj, List.getElem?_map, b1]
      rfl
    exact ⟨_, e3, List.mem_map.mpr ⟨k, b2, by omega⟩⟩
  · rw [List.getElem?_eq_none (by rw [h2, hrl]; omega), List.getElem?_eq_none (by rw [htl]; omega)]

theorem Vec3.put_put {α : Type} (v : Vec3 α) (a : Fin 3) (x y : α) : (v.put a x).put a y = v.put a y := by
  fin_cases a <;> simp [Vec3.put, Vec3.ofFn, Vec3.get]

theorem Vec3.get_put_self {α : Type} (v : Vec3 α) (a : Fin 3) (x : α) : (v.put a x).get a = x := by
  rw [Vec3.get_put, if_pos rfl]

theorem Vec3.put_get_self {α : Type} (v : Vec3 α) (a : Fin 3) : v.put a (v.get a) = v := by
  fin_cases a <;> simp [Vec3.put, Vec3.ofFn, Vec3.get]

theorem inRange_get {d i : Vec3 Nat} : InRange d i ↔ ∀ b, i.get b < d.get b := by
  rw [Fin.forall_fin_succ, Fin.forall_fin_succ, Fin.forall_fin_succ]
  simp [InRange]

/-- Cells of the lattice are parts of joint cells. -/
theorem joint_cells {axis : Fin 3} {d : Vec3 Nat} {f : Nat} (hf : 0 < f) (hd : f ∣ d.get axis) :
    ((allCells (d.put axis (d.get axis / f))).flatMap fun i => (List.range f).map fun j => i.put axis (i.get axis * f + j)).Perm (allCells d) := by
  obtain ⟨e, he⟩ := hd
  have hde : d.get axis / f = e := by rw [he, Nat.mul_div_cancel_left e hf]
  rw [hde]
  refine (List.perm_ext_iff_of_nodup ?_ (allCells_nodup d)).mpr ?_
  · rw [List.nodup_flatMap]
    constructor
    · intro i _
      refine List.nodup_range.map ?_
      intro j k h
      have := congrArg (fun v => Vec3.get v axis) h
      simp only [Vec3.get_put_self] at this
      omega
    · refine (allCells_nodup _).imp ?_
      intro a b hab x ha hb
      obtain ⟨j, hj, rfl⟩ := List.mem_map.mp ha
      obtain ⟨k, hk, h⟩ := List.mem_map.mp hb
      have hj := List.mem_range.mp hj
      have hk := List.mem_range.mp hk
      refine hab ?_
      have h1 := congrArg (fun v => Vec3.get v axis) h
      simp only [Vec3.get_put_self] at h1
      have h2 : a.get axis = b.get axis := by
        have g1 : (a.get axis * f + j) / f = a.get axis := by
          rw [mul_comm, Nat.mul_add_div hf, Nat.div_eq_of_lt hj, add_zero]
        have g2 : (b.get axis * f + k) / f = b.get axis := by
          rw [mul_comm, Nat.mul_add_div hf, Nat.div_eq_of_lt hk, add_zero]
        rw [← g1, ← g2, h1]
      have h3 := congrArg (fun v => Vec3.put v axis (a.get axis)) h
      simp only [Vec3.put_put] at h3
      rw [Vec3.put_get_self, h2, Vec3.put_get_self] at h3
      exact h3.symm
  · intro x
    rw [mem_allCells, List.mem_flatMap]
    constructor
    · rintro ⟨i, hi, hx⟩
      obtain ⟨j, hj, rfl⟩ := List.mem_map.mp hx
      have hj := List.mem_range.mp hj
      have hi := inRange_get.mp (mem_allCells.mp hi)
      refine inRange_get.mpr fun b => ?_
      rw [Vec3.get_put]
      have hib := hi b
      rw [Vec3.get_put] at hib
      split
      · next hb =>
        subst hb
        rw [if_pos rfl] at hib
        rw [he]
        nlinarith [Nat.mul_le_mul_right f (show i.get b + 1 ≤ e by omega)]
      · next hb => rwa [if_neg hb] at hib
    · intro hx
      have hx := inRange_get.mp hx
      refine ⟨x.put axis (x.get axis / f), mem_allCells.mpr (inRange_get.mpr fun b => ?_), List.mem_map.mpr ⟨x.get axis % f, List.mem_range.mpr (Nat.mod_lt _ hf), ?_⟩⟩
      · rw [Vec3.get_put, Vec3.get_put]
        split
        · rw [Nat.div_lt_iff_lt_mul hf, mul_comm e f, ← he]
          exact hx axis
        · exact hx b
      · rw [Vec3.get_put_self, Vec3.put_put, mul_comm, Nat.div_add_mod, Vec3.put_get_self]

theorem place_replica {axis : Fin 3} {b B : Box} {f : Nat} (hf : 0 < f) (hB : ∀ v : Vec3 ℝ, B.relToAbs v = b.relToAbs (v.put axis (f * v.get axis)))
    (i : Vec3 Nat) (j : Nat) (s : Shape) : B.relToAbs (ofCell i + (replica axis f j s).pos) = b.relToAbs (ofCell (i.put axis (i.get axis * f + j)) + s.pos) := by
  have hf' : (f : ℝ) ≠ 0 := Nat.cast_ne_zero.mpr hf.ne'
  rw [hB]
  congr 1
  fin_cases axis <;> ext <;> simp [replica, ofCell, Vec3.put, Vec3.ofFn, Vec3.get] <;> field_simp <;> ring

/-- The result of a transformation which turns molecules of layers. -/
theorem transform_ok {L : Lattice} (h : L.Inv) {axis : Fin 3} {cell : List Shape} (hr : L.regular = true) (hnorm : L.isNormalized = true) (hcell : L.cells = [cell])
    (hne : cell ≠ []) {n : Nat} (hn : 0 < n) (hdvd : n ∣ (layerAssociation axis cell).length * L.dims.get axis) {g : Nat → Shape → Outcome Shape} {R : Nat → Mat3}
    (hg : ∀ j < n, ∀ s, g j s = .ok ⟨s.pos, R j * s.rot⟩) :
    ∃ L' g', LayerWise.transform axis n g L = .ok L' ∧ LatticeReached L' ∧ L'.regular = true ∧ L'.isNormalized = true ∧ L'.latticeBox = L.latticeBox ∧
      L'.generate = .ok g' ∧
      g'.Perm (turnedLayers axis L cell (layerAssociation axis cell).length (binOf (layerAssociation axis cell)) (fun k => R (k % n)) (allCells L.dims)) := by
  have hm : 0 < (layerAssociation axis cell).length := by
    have hok := layers_ok axis cell
    cases hc : cell with
    | nil => exact absurd hc hne
    | cons s t =>
      obtain ⟨b, b1, -⟩ := binOf_spec hok (n := 0) (by rw [layerKeys, List.length_map, hc]; simp)
      have := (List.getElem?_eq_some_iff.mp b1).1
      rw [hc] at this
      omega
  set m := (layerAssociation axis cell).length with hmdef
  obtain ⟨f, f1, f2, f3, f4⟩ := factor_spec (d := L.dims.get axis) hm hn
  have hfd : f ∣ L.dims.get axis := f4.mpr hdvd
  obtain ⟨B, B1, B2, B3, B4⟩ := jointBox_ok h.wf axis f3
  have hjl : (replicaLayers f cell.length (layerAssociation axis cell)).length = f * m := by
    unfold replicaLayers
    rw [List.length_flatMap]
    simp [hmdef]
  have ht := turned_ok (axis := axis) (cell := cell) (f := f) (F := fun j s => ⟨s.pos, R j * s.rot⟩) hn hg
  obtain ⟨e, he⟩ := hfd
  have hde : L.dims.get axis / f = e := by rw [he, Nat.mul_div_cancel_left e f3]
  have hpos := inRange_get.mp (show InRange L.dims ⟨0, 0, 0⟩ from ⟨h.x, h.y, h.z⟩)
  have hepos : 0 < e := by
    refine Nat.pos_of_ne_zero fun h0 => ?_
    have := hpos axis
    rw [he, h0] at this
    simp at this
  have hdpos : ∀ b, 0 < (L.dims.put axis e).get b := by
    intro b
    rw [Vec3.get_put]
    split
    · exact hepos
    · have := hpos b
      omega
  have hcreate : ∃ L', Lattice.create ⟨B, turnedCell axis f m n (binOf (layerAssociation axis cell)) (fun j s => ⟨s.pos, R j * s.rot⟩) cell⟩
      (L.dims.put axis e) = .ok L' := by
    refine ⟨⟨[turnedCell axis f m n (binOf (layerAssociation axis cell)) (fun j s => ⟨s.pos, R j * s.rot⟩) cell], B, L.dims.put axis e, countCells (L.dims.put axis e), true⟩, ?_⟩
    unfold Lattice.create
    have a := hdpos 0
    have b := hdpos 1
    have c := hdpos 2
    rw [decide_eq_true (by simpa [Vec3.get] using a), decide_eq_true (by simpa [Vec3.get] using b), decide_eq_true (by simpa [Vec3.get] using c)]
    rfl
  obtain ⟨L', hL'⟩ := hcreate
  have hsmall : (L.dims.put axis e).x * (L.dims.put axis e).y * (L.dims.put axis e).z < 2 ^ 31 := by
    refine lt_of_le_of_lt ?_ h.small
    have hle : ∀ b, (L.dims.put axis e).get b ≤ L.dims.get b := by
      intro b
      rw [Vec3.get_put]
      split
      · next hb =>
        rw [hb, he]
        exact Nat.le_mul_of_pos_left e f3
      · exact le_refl _
    have a := hle 0
    have b := hle 1
    have c := hle 2
    exact Nat.mul_le_mul (Nat.mul_le_mul a b) c
  obtain ⟨g1, g2, -⟩ := create_inv B2 hsmall hL'
  have hmols : ∀ i, molsAt L' i = turnedCell axis f m n (binOf (layerAssociation axis cell)) (fun j s => ⟨s.pos, R j * s.rot⟩) cell := by
    intro i
    rw [g1]
    rfl
  refine ⟨L', gen L', ?_, .create B2 hsmall hL', by rw [g1], ?_, ?_, generate_ok g2, ?_⟩
  · unfold LayerWise.transform
    rw [hr, hnorm]
    have hgs : L.getSpecific ⟨0, 0, 0⟩ = .ok cell := by
      rw [getSpecific, if_pos hr, hcell]
      rfl
    simp only [Outcome.require_true, Outcome.ok_bind, hgs]
    rw [lcm_ok hm hn, Outcome.ok_bind, f1, he, Nat.mul_mod_right, Nat.mul_div_cancel_left e f3, decide_eq_true rfl, Outcome.require_true, Outcome.ok_bind, B1, Outcome.ok_bind,
      hjl, ← f2, Nat.mod_eq_zero_of_dvd (Nat.dvd_lcm_right m n), decide_eq_true rfl, Outcome.require_true, Outcome.ok_bind, ht, Outcome.ok_bind, hL']
  · refine (normalized_iff g2).mpr fun i _ s hs => ?_
    rw [hmols] at hs
    obtain ⟨j, hj, hs⟩ := List.mem_flatMap.mp hs
    have hj := List.mem_range.mp hj
    obtain ⟨p, hp, rfl⟩ := List.mem_map.mp hs
    have hpc : p.1 ∈ cell := List.mem_of_getElem? (List.mem_zipIdx_iff_getElem?.mp hp)
    have hw := (normalized_iff h).mp hnorm ⟨0, 0, 0⟩ ⟨h.x, h.y, h.z⟩ p.1 (by rw [molsAt, if_pos hr, hcell]; exact hpc)
    have hw' : ∀ b, 0 ≤ p.1.pos.get b ∧ p.1.pos.get b < 1 := by
      rw [Fin.forall_fin_succ, Fin.forall_fin_succ, Fin.forall_fin_succ]
      exact ⟨hw.1, hw.2.1, hw.2.2, fun x => x.elim0⟩
    have hall : ∀ b, 0 ≤ (replica axis f j p.1).pos.get b ∧ (replica axis f j p.1).pos.get b < 1 := by
      intro b
      unfold replica
      simp only [Vec3.get_put]
      split
      · have hf' : (0 : ℝ) < f := Nat.cast_pos.mpr f3
        have hj' : (j : ℝ) + 1 ≤ f := by exact_mod_cast hj
        have := hw' axis
        refine ⟨div_nonneg (by have := Nat.cast_nonneg (α := ℝ) j; linarith) hf'.le, ?_⟩
        rw [div_lt_one hf']
        linarith
      · exact hw' b
    exact ⟨hall 0, hall 1, hall 2⟩
  · have e1 : ∀ b, (L'.dims.get b : ℝ) • L'.box.sides.get b = (L.dims.get b : ℝ) • L.box.sides.get b := by
      intro b
      rw [g1]
      simp only [B4, Vec3.get_put]
      split
      · next hb =>
        rw [hb, he]
        push_cast
        ext <;> simp <;> ring
      · rfl
    have a := e1 0
    have b := e1 1
    have c := e1 2
    unfold latticeBox
    simp only [Vec3.get] at a b c
    rw [a, b, c]
  · unfold gen turnedLayers
    have hdims : L'.dims = L.dims.put axis (L.dims.get axis / f) := by rw [g1, hde]
    have hbox : L'.box = B := by rw [g1]
    refine List.Perm.trans ?_ ((joint_cells f3 ⟨e, he⟩).flatMap_right _)
    rw [hdims, hbox, List.flatMap_assoc]
    refine List.Perm.of_eq ?_
    congr 1
    funext i
    rw [hmols, turnedCell, List.map_flatMap, List.flatMap_map]
    congr 1
    funext j
    rw [List.map_map]
    refine List.map_congr_left fun p _ => ?_
    simp only [Function.comp, place]
    congr 1
    · exact place_replica f3 B3 i j p.1
    · rw [Vec3.get_put_self]
      have hnd : n ∣ f * m := by rw [← f2]; exact Nat.dvd_lcm_right m n
      obtain ⟨q, hq⟩ := hnd
      have : (i.get axis * f + j) * m + binOf (layerAssociation axis cell) p.2 = (j * m + binOf (layerAssociation axis cell) p.2) + n * (i.get axis * q) := by
        have h9 : (i.get axis * f + j) * m = i.get axis * (f * m) + j * m := by ring
        rw [h9, hq]
        ring
      rw [this, Nat.add_mul_mod_self_left]
      rfl

theorem rotation_along (axis : Fin 3) (angle : ℝ) :
    RotatesAbout (Mat3.rotation ((⟨0, 0, 0⟩ : Vec3 ℝ).put axis angle).x ((⟨0, 0, 0⟩ : Vec3 ℝ).put axis angle).y ((⟨0, 0, 0⟩ : Vec3 ℝ).put axis angle).z) (unitAlong axis) angle := by
  rw [rotation_eq]
  fin_cases axis
  all_goals
    refine ⟨fun k => ?_, fun v hv => ?_⟩
    · ext <;> simp [unitAlong, Vec3.put, Vec3.ofFn, Vec3.get, aroundX, aroundY, aroundZ, Mat3.mul_def, Mat3.mul, Mat3.mulVec, Vec3.dot, Mat3.c0, Mat3.c1, Mat3.c2]
    · simp [unitAlong, Vec3.ofFn, Vec3.dot] at hv
      ext <;> simp [unitAlong, Vec3.put, Vec3.ofFn, Vec3.get, aroundX, aroundY, aroundZ, Mat3.mul_def, Mat3.mul, Mat3.mulVec, Vec3.dot, Mat3.c0, Mat3.c1, Mat3.c2, Vec3.cross, hv] <;> ring

theorem unit_cells {L : Lattice} (h : L.Inv) {cell : List Shape} (hr : L.regular = true) (hc : L.getUnit = .ok cell) : L.cells = [cell] := by
  have hl := h.cells
  rw [if_pos hr] at hl
  obtain ⟨c, hc'⟩ := List.length_eq_one_iff.mp hl
  rw [getUnit, hr, hc', Outcome.require_true, Outcome.ok_bind] at hc
  have hc : Outcome.ok c = .ok cell := hc
  injection hc with hc
  rw [hc', hc]

/-- C86: rotation of layers of a regular lattice: molecules of the unit cell are divided into layers. Whole layers are rotated about the axis by the angle; with
alternation, every other layer, as counted throughout the lattice, by the opposite angle. Positions and the box are kept, and the lattice is regular and
normalised. It is done exactly if there are molecules and, with alternation, the number of layers in the periodic box is even. -/
theorem C86_rotate {L : Lattice} (h : LatticeReached L) {axis : Fin 3} {cell : List Shape} (hr : L.regular = true) (hn : L.isNormalized = true)
    (hc : L.getUnit = .ok cell) (hl : ClearLayers axis cell) (rotAxis : Fin 3) (angle : ℝ) (alternating : Bool) :
    ∃ m layer, Layering axis cell m layer ∧
    ((cell ≠ [] ∧ (alternating = true → 2 ∣ m * L.dims.get axis)) →
      ∃ L' g g' R cells, rotateLayers axis rotAxis angle alternating L = .ok L' ∧ L'.regular = true ∧ L'.isNormalized = true ∧ L'.latticeBox = L.latticeBox ∧
        LatticeReached L' ∧ L.generate = .ok g ∧ L'.generate = .ok g' ∧ cells.Nodup ∧ (∀ i, i ∈ cells ↔ InRange L.dims i) ∧
        g = turnedLayers axis L cell m layer (fun _ => 1) cells ∧ g'.Perm (turnedLayers axis L cell m layer R cells) ∧
        ∀ k, RotatesAbout (R k) (unitAlong rotAxis) (if alternating = true ∧ k % 2 = 1 then -angle else angle)) ∧
    (¬ (cell ≠ [] ∧ (alternating = true → 2 ∣ m * L.dims.get axis)) → ∃ msg, rotateLayers axis rotAxis angle alternating L = .throw msg) := by
  have hcells := unit_cells h.inv hr hc
  have hgs : L.getSpecific ⟨0, 0, 0⟩ = .ok cell := by
    rw [getSpecific, if_pos hr, hcells]
    rfl
  refine ⟨_, _, layering hl, ?_, ?_⟩
  · rintro ⟨hne, ha⟩
    let R : Nat → Mat3 := fun k =>
      Mat3.rotation ((⟨0, 0, 0⟩ : Vec3 ℝ).put rotAxis (if k = 0 then angle else -angle)).x ((⟨0, 0, 0⟩ : Vec3 ℝ).put rotAxis (if k = 0 then angle else -angle)).y
        ((⟨0, 0, 0⟩ : Vec3 ℝ).put rotAxis (if k = 0 then angle else -angle)).z
    have hR : ∀ k, RotatesAbout (R k) (unitAlong rotAxis) (if k = 0 then angle else -angle) := fun k => rotation_along rotAxis _
    have hg : ∀ j < (if alternating = true then 2 else 1), ∀ s, rotateShape rotAxis angle alternating j s = .ok ⟨s.pos, R j * s.rot⟩ := by
      intro j hj s
      unfold rotateShape
      have h1 : (alternating || decide (j = 0)) = true := by
        cases alternating
        · have : j = 0 := by simpa using hj
          simp [this]
        · rfl
      have h2 : j < 2 := by split at hj <;> omega
      rw [h1, decide_eq_true h2]
      rfl
    obtain ⟨L', g', e1, e2, e3, e4, e5, e6, e7⟩ := transform_ok (g := rotateShape rotAxis angle alternating) (R := R) h.inv hr hn hcells hne
      (n := if alternating = true then 2 else 1) (by split <;> omega) (axis := axis) (by
        split
        · next hal => exact ha hal
        · exact one_dvd _) hg
    refine ⟨L', gen L, g', _, allCells L.dims, e1, e3, e4, e5, e2, generate_ok h.inv, e6, allCells_nodup _, fun _ => mem_allCells, ?_, e7, ?_⟩
    · unfold gen turnedLayers
      congr 1
      funext i
      rw [molsAt, if_pos hr, hcells]
      show cell.map (place L.box i) = _
      have : cell.map (place L.box i) = (cell.zipIdx.map Prod.fst).map (place L.box i) := by simp
      rw [this, List.map_map]
      refine List.map_congr_left fun p _ => ?_
      show (⟨_, _⟩ : Shape) = ⟨_, _⟩
      rw [Mat3.one_mul]
      rfl
    · intro k
      have := hR (k % (if alternating = true then 2 else 1))
      by_cases hal : alternating = true
      · rw [if_pos hal] at this
        simp only [hal, if_true, true_and]
        rcases Nat.mod_two_eq_zero_or_one k with h0 | h1
        · rw [h0] at this ⊢
          simpa using this
        · rw [h1] at this ⊢
          simpa using this
      · rw [if_neg hal, Nat.mod_one] at this
        have e0 : k % (if alternating = true then 2 else 1) = 0 := by rw [if_neg hal, Nat.mod_one]
        simp only [e0]
        simpa [hal] using this
  · intro hno
    unfold rotateLayers LayerWise.transform
    rw [hr, hn]
    simp only [Outcome.require_true, Outcome.ok_bind, hgs]
    by_cases hne : cell = []
    · subst hne
      have e0 : (layerAssociation axis []).length = 0 := by simp [layerAssociation, bins]
      obtain ⟨msg, e1⟩ := lcm_throw (if alternating = true then 2 else 1)
      exact ⟨msg, by rw [e0, e1]; rfl⟩
    · have hal : alternating = true ∧ ¬ 2 ∣ (layerAssociation axis cell).length * L.dims.get axis := by
        by_contra h9
        exact hno ⟨hne, fun h10 => by_contra fun h11 => h9 ⟨h10, h11⟩⟩
      have hm : 0 < (layerAssociation axis cell).length := by
        refine Nat.pos_of_ne_zero fun h0 => hal.2 ?_
        rw [h0]
        simp
      obtain ⟨f, f1, f2, f3, f4⟩ := factor_spec (d := L.dims.get axis) (n := 2) hm (by omega)
      rw [if_pos hal.1, lcm_ok hm (by omega), Outcome.ok_bind, f1, decide_eq_false fun h0 => hal.2 (f4.mp (Nat.dvd_of_mod_eq_zero h0))]
      exact ⟨_, rfl⟩

/-- C86: lattices which are not regular or not normalised are refused. -/
theorem C86_refused {L : Lattice} (axis rotAxis : Fin 3) (angle : ℝ) (alternating : Bool) (h : L.regular = false ∨ L.isNormalized = false) :
    ∃ msg, rotateLayers axis rotAxis angle alternating L = .throw msg := by
  unfold rotateLayers LayerWise.transform
  rcases h with h | h
  · rw [h]
    exact ⟨_, rfl⟩
  · rw [h]
    cases L.regular <;> exact ⟨_, rfl⟩

/-- A unit cell with three molecules in two layers. -/
noncomputable def layeredCell : UnitCell := ⟨demoCell.box, [⟨⟨1 / 4, 1 / 4, 3 / 4⟩, 1⟩, ⟨⟨1 / 4, 3 / 4, 1 / 4⟩, 1⟩, ⟨⟨3 / 4, 1 / 4, 1 / 4⟩, 1⟩]⟩

/-- A lattice whose layers can be rotated: 3 cells of 2 layers along z, and then also along x with 2 cells of 2 layers. -/
example : ∃ L, Lattice.create layeredCell ⟨2, 5, 3⟩ = .ok L ∧ LatticeReached L ∧ L.regular = true ∧ L.isNormalized = true ∧ L.getUnit = .ok layeredCell.molecules ∧
    ClearLayers 2 layeredCell.molecules ∧ layeredCell.molecules ≠ [] ∧ 2 ∣ 2 * L.dims.get 2 := by
  refine ⟨⟨[layeredCell.molecules], demoCell.box, ⟨2, 5, 3⟩, countCells ⟨2, 5, 3⟩, true⟩, rfl, .create (c := layeredCell) (d := ⟨2, 5, 3⟩) demoCell_wf (by norm_num) rfl, rfl, ?_, rfl, ?_,
    by simp [layeredCell], Dvd.intro _ rfl⟩
  · simp [isNormalized, cellNormalized, layeredCell]
    norm_num
  · intro s hs t ht u hu
    simp only [layeredCell, List.mem_cons, List.not_mem_nil, or_false] at hs ht hu
    rcases hs with rfl | rfl | rfl <;> rcases ht with rfl | rfl | rfl <;> rcases hu with rfl | rfl | rfl <;> norm_num [SameCoord, Vec3.get]

end Rampack
