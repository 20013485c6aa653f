import Verif.Lattice.BinLemmas
import Verif.Lattice.Props
import Verif.Lattice.PopProps
import Mathlib.Tactic.FieldSimp
/-
Lemmas on layers of lattices.
-/
namespace Rampack

open Spec Lattice LayerWise

theorem nearLayer_iff (x y : ℝ) : nearLayer x y = true ↔ SameCoord x y := by
  simp [nearLayer, SameCoord]

theorem nearLayer_symm (x y : ℝ) : nearLayer x y = nearLayer y x := by
  unfold nearLayer
  rw [abs_sub_comm]

theorem nearLayer_refl (x : ℝ) : nearLayer x x = true := by
  simp [nearLayer]

/-- Coordinates of layers. -/
def layerKeys (axis : Fin 3) (cell : List Shape) : List ℝ := cell.map fun s => s.pos.get axis

theorem layers_ok (axis : Fin 3) (cell : List Shape) : BinsOk nearLayer (layerKeys axis cell) (layerAssociation axis cell) :=
  (bins_ok nearLayer nearLayer_refl _).perm nearLayer_symm (List.mergeSort_perm _ _)

theorem layers_sorted (axis : Fin 3) (cell : List Shape) : (layerAssociation axis cell).Pairwise fun a b => a.1 < b.1 := by
  have h1 : (layerAssociation axis cell).Pairwise fun a b => decide (a.1 ≤ b.1) = true := by
    refine List.pairwise_mergeSort ?_ ?_ _
    · intro a b c hab hbc
      have hab := of_decide_eq_true hab
      have hbc := of_decide_eq_true hbc
      exact decide_eq_true (hab.trans hbc)
    · intro a b
      simp only [Bool.or_eq_true, decide_eq_true_eq]
      exact le_total _ _
  refine (h1.and (layers_ok axis cell).apart).imp ?_
  rintro a b ⟨h1, h2⟩
  refine lt_of_le_of_ne (of_decide_eq_true h1) fun e => ?_
  rw [e, nearLayer_refl] at h2
  cases h2

theorem layering {axis : Fin 3} {cell : List Shape} (hc : ClearLayers axis cell) :
    Layering axis cell (layerAssociation axis cell).length (binOf (layerAssociation axis cell)) := by
  have hok := layers_ok axis cell
  have key : ∀ {i : Nat} {s : Shape}, cell[i]? = some s → (layerKeys axis cell)[i]? = some (s.pos.get axis) := by
    intro i s h
    simp [layerKeys, h]
  have hlen : (layerKeys axis cell).length = cell.length := by simp [layerKeys]
  have ht : ∀ x ∈ layerKeys axis cell, ∀ y ∈ layerKeys axis cell, ∀ z ∈ layerKeys axis cell, nearLayer x y = true → nearLayer y z = true → nearLayer x z = true := by
    intro x hx y hy z hz h1 h2
    obtain ⟨s, hs, rfl⟩ := List.mem_map.mp hx
    obtain ⟨t, ht, rfl⟩ := List.mem_map.mp hy
    obtain ⟨u, hu, rfl⟩ := List.mem_map.mp hz
    rw [nearLayer_iff] at *
    exact hc s hs t ht u hu h1 h2
  have same : ∀ {i j s t}, cell[i]? = some s → cell[j]? = some t →
      (binOf (layerAssociation axis cell) i = binOf (layerAssociation axis cell) j ↔ SameCoord (s.pos.get axis) (t.pos.get axis)) := by
    intro i j s t hi hj
    rw [binOf_near nearLayer_symm hok ht (key hi) (key hj), nearLayer_iff]
  have up : ∀ {i j s t}, cell[i]? = some s → cell[j]? = some t → binOf (layerAssociation axis cell) i < binOf (layerAssociation axis cell) j →
      s.pos.get axis < t.pos.get axis := by
    intro i j s t hi hj hl
    have hns : ¬ SameCoord (s.pos.get axis) (t.pos.get axis) := fun h => by
      have := (same hi hj).mpr h
      omega
    obtain ⟨b, b1, b2⟩ := binOf_spec hok (n := i) (by rw [hlen]; exact (List.getElem?_eq_some_iff.mp hi).1)
    obtain ⟨c, c1, c2⟩ := binOf_spec hok (n := j) (by rw [hlen]; exact (List.getElem?_eq_some_iff.mp hj).1)
    obtain ⟨x, e1, nb⟩ := hok.mem b (List.mem_of_getElem? b1) i b2
    rw [key hi] at e1
    injection e1 with e1
    subst e1
    obtain ⟨y, e1, nc⟩ := hok.mem c (List.mem_of_getElem? c1) j c2
    rw [key hj] at e1
    injection e1 with e1
    subst e1
    obtain ⟨b3, b4⟩ := List.getElem?_eq_some_iff.mp b1
    obtain ⟨c3, c4⟩ := List.getElem?_eq_some_iff.mp c1
    have l1 := List.pairwise_iff_getElem.mp (layers_sorted axis cell) _ _ b3 c3 hl
    have l2 := List.pairwise_iff_getElem.mp hok.apart _ _ b3 c3 hl
    rw [b4, c4] at l1 l2
    have l2 : ¬ SameCoord b.1 c.1 := fun h => by
      rw [(nearLayer_iff _ _).mpr h] at l2
      cases l2
    rw [nearLayer_iff] at nb nc
    unfold SameCoord at *
    rw [abs_lt] at *
    by_contra h9
    have a1 : c.1 - b.1 ≥ 1 / 10 ^ 10 := by
      by_contra h10
      exact l2 ⟨by linarith, by linarith⟩
    have a2 : s.pos.get axis - t.pos.get axis ≥ 1 / 10 ^ 10 := by
      by_contra h10
      exact hns ⟨by linarith, by linarith⟩
    linarith [nb.1, nb.2, nc.1, nc.2]
  refine ⟨same, ?_, ?_, ?_⟩
  · intro i j s t hi hj
    constructor
    · intro hl
      exact ⟨up hi hj hl, fun h => by have := (same hi hj).mpr h; omega⟩
    · rintro ⟨h1, h2⟩
      rcases lt_trichotomy (binOf (layerAssociation axis cell) i) (binOf (layerAssociation axis cell) j) with hl | hl | hl
      · exact hl
      · exact absurd ((same hi hj).mp hl) h2
      · exact absurd (up hj hi hl) (by linarith)
  · intro i hi
    obtain ⟨b, b1, -⟩ := binOf_spec hok (n := i) (by rw [hlen]; exact hi)
    exact (List.getElem?_eq_some_iff.mp b1).1
  · intro l hl
    obtain ⟨n, hn, hk⟩ := hok.key _ (List.getElem_mem hl)
    refine ⟨n, ?_, binOf_eq hok (List.getElem?_eq_getElem hl) hn⟩
    have := (List.getElem?_eq_some_iff.mp hk).1
    rwa [hlen] at this

theorem lcmLoop_ok {n0 n2 : Nat} (h2 : 0 < n2) (h0 : 0 < n0) : ∀ (fuel k : Nat), 0 < k → k * n0 ≤ n0.lcm n2 → n0.lcm n2 < (k + fuel) * n0 →
    lcmLoop n0 n2 fuel (k * n0) = .ok (n0.lcm n2)
  | 0, k, _, h, h' => by simp at h'; omega
  | fuel + 1, k, hk, h, h' => by
    rw [lcmLoop]
    by_cases hd : n2 ∣ k * n0
    · rw [if_neg (by simpa using Nat.mod_eq_zero_of_dvd hd)]
      have : n0.lcm n2 ∣ k * n0 := Nat.lcm_dvd (Dvd.intro_left k rfl) hd
      have := Nat.le_of_dvd (Nat.mul_pos hk h0) this
      rw [le_antisymm h this]
    · rw [if_pos (fun e => hd (Nat.dvd_of_mod_eq_zero e))]
      have e : k * n0 + n0 = (k + 1) * n0 := by ring
      rw [e]
      refine lcmLoop_ok h2 h0 fuel (k + 1) (by omega) ?_ (by rw [add_assoc, add_comm 1 fuel]; exact h')
      obtain ⟨q, hq⟩ := Nat.dvd_lcm_left n0 n2
      rw [hq, mul_comm n0 q] at h ⊢
      have hne : k ≠ q := by
        rintro rfl
        refine hd ?_
        rw [mul_comm, ← hq]
        exact Nat.dvd_lcm_right n0 n2
      have := Nat.le_of_mul_le_mul_right h h0
      exact Nat.mul_le_mul_right _ (by omega)

theorem lcm_ok {n1 n2 : Nat} (h1 : 0 < n1) (h2 : 0 < n2) : LayerWise.lcm n1 n2 = .ok (n1.lcm n2) := by
  have key : ∀ {a b : Nat}, 0 < a → 0 < b → lcmLoop a b b a = .ok (a.lcm b) := by
    intro a b ha hb
    have h3 := lcmLoop_ok (n0 := a) (n2 := b) hb ha b 1 (by omega) (by rw [one_mul]; exact Nat.le_of_dvd (Nat.lcm_pos ha hb) (Nat.dvd_lcm_left _ _)) (by
      have : a.lcm b ≤ a * b := Nat.le_of_dvd (Nat.mul_pos ha hb) (Nat.lcm_dvd_mul a b)
      nlinarith)
    rwa [one_mul] at h3
  unfold LayerWise.lcm
  rw [decide_eq_true h1, decide_eq_true h2]
  show (if n1 < n2 then lcmLoop n2 n1 n1 n2 else lcmLoop n1 n2 n2 n1) = _
  split
  · rw [key h2 h1, Nat.lcm_comm]
  · exact key h1 h2

theorem lcm_throw (n2 : Nat) : ∃ m, LayerWise.lcm 0 n2 = .throw m := ⟨_, rfl⟩

/-- The factor, and when the dimension is its multiple. -/
theorem factor_spec {m n d : Nat} (hm : 0 < m) (hn : 0 < n) : ∃ f, m.lcm n / m = f ∧ m.lcm n = f * m ∧ 0 < f ∧ (f ∣ d ↔ n ∣ m * d) := by
  obtain ⟨f, hf⟩ := Nat.dvd_lcm_left m n
  have hpos := Nat.lcm_pos hm hn
  have hf0 : 0 < f := Nat.pos_of_ne_zero (by rintro rfl; simp at hf; omega)
  refine ⟨f, by rw [hf, Nat.mul_div_cancel_left f hm], by rw [hf, mul_comm], hf0, ?_⟩
  rw [← Nat.mul_dvd_mul_iff_left hm, ← hf, Nat.lcm_dvd_iff]
  exact ⟨fun h => h.2, fun h => ⟨Dvd.intro d rfl, h⟩⟩

theorem flatMap_range_get {β : Type} {f : Nat → List β} {len : Nat} (hl : ∀ j, (f j).length = len) {k : Nat} (hk : k < len) : ∀ {n j : Nat}, j < n →
    ((List.range n).flatMap f)[j * len + k]? = (f j)[k]?
  | 0, j, h => absurd h (by omega)
  | n + 1, j, h => by
    have hlen : ((List.range n).flatMap f).length = n * len := by
      rw [List.length_flatMap]
      simp [hl]
    rw [List.range_succ, List.flatMap_append, List.flatMap_cons, List.flatMap_nil, List.append_nil]
    by_cases hj : j < n
    · have : j * len + k < n * len := by nlinarith [Nat.mul_le_mul_right len (show j + 1 ≤ n by omega)]
      rw [List.getElem?_append_left (by rw [hlen]; exact this), flatMap_range_get hl hk hj]
    · have : j = n := by omega
      subst this
      rw [List.getElem?_append_right (by rw [hlen]; omega), hlen]
      congr 1
      omega

/-- What the loop over molecules does. -/
theorem transformAll {n : Nat} {f : Nat → Shape → Outcome Shape} {F : Nat → Shape → Shape} (hn : 0 < n) (hf : ∀ j < n, ∀ s, f j s = .ok (F j s)) :
    ∀ {ops : List (Nat × Nat)} {cell : List Shape}, (ops.map Prod.fst).Nodup → (∀ o ∈ ops, o.1 < cell.length) →
    ∃ r, ops.foldlM (transformAt n f) cell = .ok r ∧ r.length = cell.length ∧ (∀ k, k ∉ ops.map Prod.fst → r[k]? = cell[k]?) ∧
      ∀ k l, (k, l) ∈ ops → ∀ s, cell[k]? = some s → r[k]? = some (F (l % n) s)
  | [], cell, _, _ => ⟨cell, rfl, rfl, fun _ _ => rfl, fun _ _ h => absurd h (by simp)⟩
  | (a, b) :: ops, cell, hd, hr => by
    rw [List.map_cons, List.nodup_cons] at hd
    have ha : a < cell.length := hr (a, b) (by simp)
    have h1 : transformAt n f cell (a, b) = .ok (cell.set a (F (b % n) cell[a])) := by
      unfold transformAt
      rw [vget_ok ha, Outcome.ok_bind, hf _ (Nat.mod_lt _ hn), Outcome.ok_bind, vset_ok ha]
    obtain ⟨r, e1, e2, e3, e4⟩ := transformAll hn hf (ops := ops) (cell := cell.set a (F (b % n) cell[a])) hd.2 (by
      intro o ho
      rw [List.length_set]
      exact hr o (by simp [ho]))
    refine ⟨r, by rw [List.foldlM_cons, h1, Outcome.ok_bind, e1], by rw [e2, List.length_set], ?_, ?_⟩
    · intro k hk
      rw [List.map_cons, List.mem_cons, not_or] at hk
      rw [e3 k hk.2, List.getElem?_set_ne (fun e => hk.1 e.symm)]
    · intro k l hkl s hs
      rcases List.mem_cons.mp hkl with h | h
      · injection h with h5 h6
        subst h5 h6
        rw [e3 k hd.1, List.getElem?_set_self ha]
        rw [List.getElem?_eq_getElem ha] at hs
        injection hs with hs
        rw [hs]
      · have hne : a ≠ k := by
          rintro rfl
          exact hd.1 (List.mem_map.mpr ⟨(a, l), h, rfl⟩)
        exact e4 k l h s (by rw [List.getElem?_set_ne hne, hs])

end Rampack
