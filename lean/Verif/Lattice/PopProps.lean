import Verif.Lattice.Props
/-
Theorems about populators of lattices: C42.
-/
namespace Rampack

open Spec Lattice

theorem Vec3.get_put {α : Type} (v : Vec3 α) (a b : Fin 3) (n : α) : (v.put a n).get b = if b = a then n else v.get b := by
  unfold Vec3.put
  rw [Vec3.get_ofFn]

/-- The axes are three different ones. -/
def ThreeAxes (a : Vec3 (Fin 3)) : Prop := a.x ≠ a.y ∧ a.x ≠ a.z ∧ a.y ≠ a.z

theorem axes_cover {a : Vec3 (Fin 3)} (h : ThreeAxes a) (b : Fin 3) : b = a.x ∨ b = a.y ∨ b = a.z := by
  obtain ⟨h1, h2, h3⟩ := h
  omega

theorem inRange_axes {a : Vec3 (Fin 3)} (h : ThreeAxes a) {d i : Vec3 Nat} : InRange d i ↔ i.get a.x < d.get a.x ∧ i.get a.y < d.get a.y ∧ i.get a.z < d.get a.z := by
  have e : InRange d i ↔ ∀ b, i.get b < d.get b := by
    rw [Fin.forall_fin_succ, Fin.forall_fin_succ, Fin.forall_fin_succ]
    simp [InRange]
  rw [e]
  constructor
  · exact fun h' => ⟨h' _, h' _, h' _⟩
  · rintro ⟨h1, h2, h3⟩ b
    rcases axes_cover h b with rfl | rfl | rfl
    · exact h1
    · exact h2
    · exact h3

/-- Index with given coordinates along the three axes. -/
def atAxes (a : Vec3 (Fin 3)) (n m k : Nat) : Vec3 Nat := (((⟨0, 0, 0⟩ : Vec3 Nat).put a.x n).put a.y m).put a.z k

theorem atAxes_get {a : Vec3 (Fin 3)} (h : ThreeAxes a) (n m k : Nat) : (atAxes a n m k).get a.x = n ∧ (atAxes a n m k).get a.y = m ∧ (atAxes a n m k).get a.z = k := by
  obtain ⟨h1, h2, h3⟩ := h
  unfold atAxes
  refine ⟨?_, ?_, ?_⟩
  · rw [Vec3.get_put, if_neg h2, Vec3.get_put, if_neg h1, Vec3.get_put, if_pos rfl]
  · rw [Vec3.get_put, if_neg h3, Vec3.get_put, if_pos rfl]
  · rw [Vec3.get_put, if_pos rfl]

theorem mem_order {a : Vec3 (Fin 3)} (h : ThreeAxes a) {d i : Vec3 Nat} : i ∈ SerialPopulator.order a d ↔ InRange d i := by
  rw [inRange_axes h]
  unfold SerialPopulator.order
  simp only [List.mem_flatMap, List.mem_range, List.mem_map]
  constructor
  · rintro ⟨n, hn, m, hm, k, hk, rfl⟩
    obtain ⟨e1, e2, e3⟩ := atAxes_get h n m k
    unfold atAxes at e1 e2 e3
    rw [e1, e2, e3]
    exact ⟨hn, hm, hk⟩
  · rintro ⟨h1, h2, h3⟩
    refine ⟨_, h1, _, h2, _, h3, ?_⟩
    obtain ⟨e1, e2, e3⟩ := atAxes_get h (i.get a.x) (i.get a.y) (i.get a.z)
    refine Vec3.ext_get fun b => ?_
    rcases axes_cover h b with rfl | rfl | rfl
    · exact e1
    · exact e2
    · exact e3

theorem order_before {a : Vec3 (Fin 3)} (h : ThreeAxes a) (d : Vec3 Nat) : (SerialPopulator.order a d).Pairwise (Before a) := by
  unfold SerialPopulator.order
  rw [List.pairwise_flatMap]
  refine ⟨fun n _ => ?_, ?_⟩
  · rw [List.pairwise_flatMap]
    refine ⟨fun m _ => ?_, ?_⟩
    · rw [List.pairwise_map]
      refine List.pairwise_lt_range.imp ?_
      intro k k' hk
      obtain ⟨e1, e2, e3⟩ := atAxes_get h n m k
      obtain ⟨f1, f2, f3⟩ := atAxes_get h n m k'
      unfold atAxes at e1 e2 e3 f1 f2 f3
      unfold Before
      rw [e1, e2, e3, f1, f2, f3]
      exact .inr ⟨rfl, .inr ⟨rfl, hk⟩⟩
    · refine List.pairwise_lt_range.imp ?_
      intro m m' hm x hx y hy
      obtain ⟨k, -, rfl⟩ := List.mem_map.mp hx
      obtain ⟨k', -, rfl⟩ := List.mem_map.mp hy
      obtain ⟨e1, e2, e3⟩ := atAxes_get h n m k
      obtain ⟨f1, f2, f3⟩ := atAxes_get h n m' k'
      unfold atAxes at e1 e2 e3 f1 f2 f3
      unfold Before
      rw [e1, e2, e3, f1, f2, f3]
      exact .inr ⟨rfl, .inl hm⟩
  · refine List.pairwise_lt_range.imp ?_
    intro n n' hn x hx y hy
    obtain ⟨m, -, hx⟩ := List.mem_flatMap.mp hx
    obtain ⟨m', -, hy⟩ := List.mem_flatMap.mp hy
    obtain ⟨k, -, rfl⟩ := List.mem_map.mp hx
    obtain ⟨k', -, rfl⟩ := List.mem_map.mp hy
    obtain ⟨e1, e2, e3⟩ := atAxes_get h n m k
    obtain ⟨f1, f2, f3⟩ := atAxes_get h n' m' k'
    unfold atAxes at e1 e2 e3 f1 f2 f3
    unfold Before
    rw [e1, e2, e3, f1, f2, f3]
    exact .inl hn

theorem order_nodup {a : Vec3 (Fin 3)} (h : ThreeAxes a) (d : Vec3 Nat) : (SerialPopulator.order a d).Nodup := by
  refine (order_before h d).imp ?_
  rintro i j hij rfl
  unfold Before at hij
  omega

theorem fillCell_eq {b : Box} {i : Vec3 Nat} {num : Nat} : ∀ {c acc : List Shape}, acc.length ≤ num →
    (SerialPopulator.fillCell b i num acc c).1 = (acc ++ c.map (place b i)).take num ∧
    ((SerialPopulator.fillCell b i num acc c).2 = true → (SerialPopulator.fillCell b i num acc c).1.length = num)
  | [], acc, h => by
    unfold SerialPopulator.fillCell
    refine ⟨?_, by simp⟩
    rw [List.map_nil, List.append_nil, List.take_of_length_le h]
  | s :: c, acc, h => by
    unfold SerialPopulator.fillCell
    by_cases e : acc.length = num
    · rw [if_pos e]
      exact ⟨by rw [List.take_left' e], fun _ => e⟩
    · rw [if_neg e]
      have ih := fillCell_eq (b := b) (i := i) (num := num) (c := c) (acc := acc ++ [place b i s]) (by simp; omega)
      refine ⟨?_, ih.2⟩
      rw [ih.1]
      simp

theorem fill_eq {L : Lattice} {num : Nat} {mols : Vec3 Nat → List Shape} : ∀ {is : List (Vec3 Nat)} {acc : List Shape}, acc.length ≤ num →
    (∀ i ∈ is, L.getSpecific i = .ok (mols i)) → SerialPopulator.fill L num acc is = .ok ((acc ++ is.flatMap fun i => (mols i).map (place L.box i)).take num)
  | [], acc, h, _ => by
    unfold SerialPopulator.fill
    rw [List.flatMap_nil, List.append_nil, List.take_of_length_le h]
  | i :: is, acc, h, hm => by
    obtain ⟨h1, h2⟩ := fillCell_eq (b := L.box) (i := i) (c := mols i) h
    have h3 : (SerialPopulator.fillCell L.box i num acc (mols i)).1.length ≤ num := by rw [h1]; simp
    have e : (((acc ++ (mols i).map (place L.box i)).take num) ++ is.flatMap fun i => (mols i).map (place L.box i)).take num =
        (acc ++ ((mols i).map (place L.box i) ++ is.flatMap fun i => (mols i).map (place L.box i))).take num := by
      rw [← List.append_assoc, List.take_append, List.take_append (i := num) (l₁ := acc ++ (mols i).map (place L.box i)), List.take_take, Nat.min_self]
      congr 1
      rw [List.length_take]
      by_cases hq : num ≤ (acc ++ (mols i).map (place L.box i)).length
      · rw [Nat.min_eq_left hq, Nat.sub_self, Nat.sub_eq_zero_of_le hq]
      · rw [Nat.min_eq_right (by omega)]
    unfold SerialPopulator.fill
    rw [hm i (by simp), Outcome.ok_bind]
    by_cases hq : (SerialPopulator.fillCell L.box i num acc (mols i)).2 = true
    · rw [if_pos hq, List.flatMap_cons, ← e, ← h1, List.take_left' (h2 hq)]
    · rw [if_neg hq, fill_eq h3 (fun j hj => hm j (by simp [hj])), List.flatMap_cons, ← e, h1]

theorem parse_letters {a : Vec3 (Fin 3)} (h : ThreeAxes a) : parseAxisOrder [axisLetter a.x, axisLetter a.y, axisLetter a.z] = .ok a := by
  obtain ⟨x, y, z⟩ := a
  obtain ⟨h1, h2, h3⟩ := h
  simp only at h1 h2 h3
  fin_cases x <;> fin_cases y <;> fin_cases z <;> first | (exfalso; simp at h1 h2 h3; done) | rfl

/-- C42: the order of axes is one of the six permutations of letters x, y, z; anything else is refused. -/
theorem C42_axes (s : List Char) :
    (∀ a, parseAxisOrder s = .ok a ↔ (a.x ≠ a.y ∧ a.x ≠ a.z ∧ a.y ≠ a.z) ∧ s = [axisLetter a.x, axisLetter a.y, axisLetter a.z]) ∧
    ((∀ a : Vec3 (Fin 3), (a.x ≠ a.y ∧ a.x ≠ a.z ∧ a.y ≠ a.z) → s ≠ [axisLetter a.x, axisLetter a.y, axisLetter a.z]) → ∃ m, parseAxisOrder s = .throw m) := by
  have key : (∃ a, parseAxisOrder s = .ok a ∧ ThreeAxes a ∧ s = [axisLetter a.x, axisLetter a.y, axisLetter a.z]) ∨ ∃ m, parseAxisOrder s = .throw m := by
    unfold parseAxisOrder
    split
    · next h => exact .inl ⟨_, rfl, by unfold ThreeAxes; decide, h⟩
    · split
      · next h => exact .inl ⟨_, rfl, by unfold ThreeAxes; decide, h⟩
      · split
        · next h => exact .inl ⟨_, rfl, by unfold ThreeAxes; decide, h⟩
        · split
          · next h => exact .inl ⟨_, rfl, by unfold ThreeAxes; decide, h⟩
          · split
            · next h => exact .inl ⟨_, rfl, by unfold ThreeAxes; decide, h⟩
            · split
              · next h => exact .inl ⟨_, rfl, by unfold ThreeAxes; decide, h⟩
              · exact .inr ⟨_, rfl⟩
  constructor
  · intro a
    constructor
    · intro h
      rcases key with ⟨a', h1, h2, h3⟩ | ⟨m, hm⟩
      · rw [h1] at h
        injection h with h
        rw [← h]
        exact ⟨h2, h3⟩
      · rw [hm] at h
        cases h
    · rintro ⟨h1, rfl⟩
      exact parse_letters h1
  · intro h
    rcases key with ⟨a', h1, h2, h3⟩ | hm
    · exact absurd h3 (h a' h2)
    · exact hm

/-- C42: the serial populator takes as many molecules as requested, from cells one after another in the order of axes, and within a cell in the order of its
molecules. They are some of the molecules of the lattice, none of them taken twice. If there are not enough of them, it is refused. -/
theorem C42_serial {L : Lattice} (h : LatticeReached L) {a : Vec3 (Fin 3)} (ha : a.x ≠ a.y ∧ a.x ≠ a.z ∧ a.y ≠ a.z) (n : Nat) :
    (n ≤ L.size → ∃ (r g : List Shape) (cells : List (Vec3 Nat)) (mols : Vec3 Nat → List Shape),
      SerialPopulator.populate [axisLetter a.x, axisLetter a.y, axisLetter a.z] L n = .ok r ∧ L.generate = .ok g ∧ cells.Pairwise (Before a) ∧
      (∀ i, i ∈ cells ↔ InRange L.dims i) ∧ (∀ i, InRange L.dims i → L.getSpecific i = .ok (mols i)) ∧
      r = (cells.flatMap fun i => (mols i).map fun s => ⟨L.box.relToAbs (⟨i.x, i.y, i.z⟩ + s.pos), s.rot⟩).take n ∧ r.length = n ∧ r.Subperm g) ∧
    (L.size < n → ∃ m, SerialPopulator.populate [axisLetter a.x, axisLetter a.y, axisLetter a.z] L n = .throw m) := by
  have hI := h.inv
  constructor
  · intro hn
    have hp : (SerialPopulator.order a L.dims).Perm (allCells L.dims) :=
      (List.perm_ext_iff_of_nodup (order_nodup ha _) (allCells_nodup _)).mpr fun i => (mem_order ha).trans mem_allCells.symm
    have hg : ((SerialPopulator.order a L.dims).flatMap fun i => (molsAt L i).map (place L.box i)).Perm (gen L) := hp.flatMap_right _
    refine ⟨_, gen L, SerialPopulator.order a L.dims, molsAt L, ?_, generate_ok hI, order_before ha _, fun i => mem_order ha, fun i hi => getSpecific_ok hI hi, rfl, ?_, ?_⟩
    · unfold SerialPopulator.populate
      rw [parse_letters ha, decide_eq_true hn]
      exact (fill_eq (acc := []) (by simp) fun i hi => getSpecific_ok hI ((mem_order ha).mp hi)).trans rfl
    · rw [List.length_take]
      rw [size_eq hI, ← hg.length_eq] at hn
      exact Nat.min_eq_left hn
    · exact ((List.take_sublist _ _).subperm).trans hg.subperm
  · intro hn
    unfold SerialPopulator.populate
    rw [parse_letters ha, decide_eq_false (by omega)]
    exact ⟨_, rfl⟩

theorem mapM_vget {g : List Shape} : ∀ {is : List Nat}, (hi : ∀ i ∈ is, i < g.length) → is.mapM (vget g) = .ok (is.pmap (fun i h => g[i]'h) hi)
  | [], _ => rfl
  | i :: is, hi => by
    rw [List.mapM_cons, vget_ok (hi i (by simp)), Outcome.ok_bind, mapM_vget fun j hj => hi j (by simp [hj])]
    rfl

theorem shuffled_sorted {n k : Nat} {l : List Nat} (hl : l.Perm (List.range n)) :
    ((l.take k).mergeSort fun a b => decide (a ≤ b)).Pairwise (· < ·) ∧ ∀ i ∈ (l.take k).mergeSort fun a b => decide (a ≤ b), i < n := by
  have hs : ((l.take k).mergeSort fun a b => decide (a ≤ b)).Pairwise fun a b => decide (a ≤ b) = true :=
    List.pairwise_mergeSort (by simp; omega) (by simp; omega) _
  have hn : ((l.take k).mergeSort fun a b => decide (a ≤ b)).Nodup := (List.mergeSort_perm _ _).nodup_iff.mpr ((hl.nodup_iff.mpr List.nodup_range).sublist (List.take_sublist _ _))
  refine ⟨(hs.and hn).imp fun ⟨h1, h2⟩ => lt_of_le_of_ne (of_decide_eq_true h1) h2, ?_⟩
  intro i hi
  have := (List.mergeSort_perm _ _).mem_iff.mp hi
  exact List.mem_range.mp (hl.mem_iff.mp (List.mem_of_mem_take this))

theorem pmap_sublist {g : List Shape} {is : List Nat} (hs : is.Pairwise (· < ·)) (hi : ∀ i ∈ is, i < g.length) : (is.pmap (fun i h => g[i]'h) hi).Sublist g := by
  have e : is.pmap (fun i h => g[i]'h) hi = (is.pmap (fun i h => (⟨i, h⟩ : Fin g.length)) hi).map (g[·]) := by
    rw [List.map_pmap]
    rfl
  rw [e]
  refine List.map_getElem_sublist ?_
  rw [List.pairwise_pmap]
  exact hs.imp fun h _ _ => h

/-- C42: for whatever shuffle, the random populator takes as many molecules of the lattice as requested, none of them twice, and keeps their order. If there
are not enough of them, it is refused. -/
theorem C42_random {L : Lattice} (h : LatticeReached L) {shuffle : List Nat → List Nat} (hs : ∀ l, (shuffle l).Perm l) (n : Nat) :
    (n ≤ L.size → ∃ r g, RandomPopulator.populate shuffle L n = .ok r ∧ L.generate = .ok g ∧ r.Sublist g ∧ r.length = n) ∧
    (L.size < n → ∃ m, RandomPopulator.populate shuffle L n = .throw m) := by
  have hI := h.inv
  constructor
  · intro hn
    obtain ⟨h1, h2⟩ := shuffled_sorted (k := n) (hs (List.range L.size))
    have h3 : ∀ i ∈ ((shuffle (List.range L.size)).take n).mergeSort fun a b => decide (a ≤ b), i < (gen L).length := by rw [← size_eq hI]; exact h2
    refine ⟨_, gen L, ?_, generate_ok hI, pmap_sublist h1 h3, ?_⟩
    · unfold RandomPopulator.populate
      rw [decide_eq_true hn, generate_ok hI]
      exact mapM_vget h3
    · rw [List.length_pmap, (List.mergeSort_perm _ _).length_eq, List.length_take, (hs _).length_eq, List.length_range]
      exact Nat.min_eq_left hn
  · intro hn
    unfold RandomPopulator.populate
    rw [decide_eq_false (by omega)]
    exact ⟨_, rfl⟩

/-- C42: any choice of molecules is made by some shuffle. -/
theorem C42_random_all {L : Lattice} (h : LatticeReached L) {r g : List Shape} (hg : L.generate = .ok g) (hr : r.Sublist g) :
    ∃ shuffle : List Nat → List Nat, (∀ l, (shuffle l).Perm l) ∧ RandomPopulator.populate shuffle L r.length = .ok r := by
  have hI := h.inv
  rw [generate_ok hI] at hg
  injection hg with hg
  subst hg
  obtain ⟨is, rfl, his⟩ := List.sublist_eq_map_getElem hr
  have hnd : (is.map Fin.val).Nodup := (List.pairwise_map.mpr (his.imp fun h => Fin.val_ne_of_ne h.ne))
  have hsub : ∀ i ∈ is.map Fin.val, i < L.size := by
    intro i hi
    obtain ⟨j, -, rfl⟩ := List.mem_map.mp hi
    rw [size_eq hI]
    exact j.2
  have hperm : (is.map Fin.val ++ (List.range L.size).filter fun i => decide (i ∉ is.map Fin.val)).Perm (List.range L.size) := by
    refine (List.perm_ext_iff_of_nodup ?_ List.nodup_range).mpr ?_
    · refine List.nodup_append.mpr ⟨hnd, List.nodup_range.filter _, ?_⟩
      rintro a ha b hb rfl
      exact of_decide_eq_true (List.mem_filter.mp hb).2 ha
    · intro i
      rw [List.mem_append, List.mem_filter, List.mem_range, decide_eq_true_iff]
      constructor
      · rintro (h | h)
        · exact hsub i h
        · exact h.1
      · intro h
        by_cases hi : i ∈ is.map Fin.val
        · exact .inl hi
        · exact .inr ⟨h, hi⟩
  refine ⟨fun l => if l = List.range L.size then is.map Fin.val ++ (List.range L.size).filter fun i => decide (i ∉ is.map Fin.val) else l, ?_, ?_⟩
  · intro l
    simp only
    split
    · next e => rw [e]; exact hperm
    · exact List.Perm.refl _
  · have hle : (is.map (fun x => (gen L)[x])).length ≤ L.size := by
      rw [size_eq hI]
      exact hr.length_le
    unfold RandomPopulator.populate
    rw [decide_eq_true hle, generate_ok hI]
    simp only [Outcome.require_true, Outcome.ok_bind, if_true]
    rw [List.take_left' (by simp), List.mergeSort_of_pairwise]
    · rw [mapM_vget (g := gen L) (is := is.map Fin.val) (by
        intro i hi
        obtain ⟨j, -, rfl⟩ := List.mem_map.mp hi
        exact j.2)]
      congr 1
      refine List.ext_getElem (by simp) fun n h1 h2 => ?_
      simp
    · rw [List.pairwise_map]
      exact his.imp fun h => decide_eq_true (le_of_lt h)

/-- The order of axes "yzx". -/
example : (⟨1, 2, 0⟩ : Vec3 (Fin 3)).x ≠ (⟨1, 2, 0⟩ : Vec3 (Fin 3)).y ∧ [axisLetter 1, axisLetter 2, axisLetter 0] = "yzx".toList ∧ (∀ l : List Nat, l.reverse.Perm l) :=
  ⟨by decide, by decide, fun l => List.reverse_perm l⟩

end Rampack
