import Verif.Lattice.Spec
import Verif.OutcomeLemmas
import Mathlib.Data.List.Nodup
import Mathlib.Data.Multiset.Bind
import Mathlib.Tactic.NormNum
/-
Lemmas on lattices: cells, their indices and molecules.
-/
namespace Rampack

open Spec

theorem wrapInt_of {n : Int} (h0 : 0 ≤ n) (h : n < 2 ^ 31) : wrapInt n = n := by
  unfold wrapInt
  rw [BitVec.toInt_ofInt]
  exact Int.bmod_eq_of_le (by omega) (by omega)

theorem toSize_of {n : Nat} (h : n < 2 ^ 64) : toSize n = n := by
  unfold toSize
  rw [Int.emod_eq_of_lt (by omega) (by omega)]
  rfl

theorem countCells_eq {d : Vec3 Nat} (hx : 0 < d.x) (hy : 0 < d.y) (hz : 0 < d.z) (h : d.x * d.y * d.z < 2 ^ 31) : countCells d = d.x * d.y * d.z := by
  have h2 : d.x * d.y ≤ d.x * d.y * d.z := Nat.le_mul_of_pos_right _ hz
  have h1 : d.x ≤ d.x * d.y := Nat.le_mul_of_pos_right _ hy
  unfold countCells
  have e1 : wrapInt (d.x : Int) = d.x := wrapInt_of (by omega) (by omega)
  have e2 : wrapInt ((d.x * d.y : Nat) : Int) = (d.x * d.y : Nat) := wrapInt_of (by omega) (by omega)
  have e3 : wrapInt ((d.x * d.y * d.z : Nat) : Int) = (d.x * d.y * d.z : Nat) := wrapInt_of (by omega) (by omega)
  rw [one_mul, e1, ← Nat.cast_mul, e2, ← Nat.cast_mul, e3, toSize_of (by omega)]

namespace Lattice

/-- What holds for all lattices. -/
structure Inv (L : Lattice) : Prop where
  wf : L.box.WF
  x : 0 < L.dims.x
  y : 0 < L.dims.y
  z : 0 < L.dims.z
  small : L.dims.x * L.dims.y * L.dims.z < 2 ^ 31
  num : L.numCells = L.dims.x * L.dims.y * L.dims.z
  cells : L.cells.length = if L.regular then 1 else L.numCells

/-- Index of a cell. -/
def idx (d i : Vec3 Nat) : Nat := i.x + i.y * d.x + i.z * d.x * d.y

theorem idx_lt {d i : Vec3 Nat} (h : InRange d i) : idx d i < d.x * d.y * d.z := by
  obtain ⟨h1, h2, h3⟩ := h
  have e1 : i.x + i.y * d.x < d.x * d.y := by nlinarith
  have e2 : i.z * (d.x * d.y) + d.x * d.y ≤ d.z * (d.x * d.y) := by nlinarith [Nat.zero_le (d.x * d.y)]
  unfold idx
  rw [mul_assoc i.z, mul_comm (d.x * d.y) d.z]
  omega

theorem idx_inj {d i j : Vec3 Nat} (hi : InRange d i) (hj : InRange d j) (h : idx d i = idx d j) : i = j := by
  obtain ⟨h1, h2, h3⟩ := hi
  obtain ⟨g1, g2, g3⟩ := hj
  unfold idx at h
  have e : ∀ a b c : Nat, a + b * d.x + c * d.x * d.y = a + d.x * (b + d.y * c) := by intros; ring
  rw [e, e] at h
  have hx : i.x = j.x := by
    have := congrArg (· % d.x) h
    simpa [Nat.add_mul_mod_self_left, Nat.mod_eq_of_lt h1, Nat.mod_eq_of_lt g1] using this
  rw [hx] at h
  have h' : i.y + d.y * i.z = j.y + d.y * j.z := Nat.eq_of_mul_eq_mul_left (by omega : 0 < d.x) (by omega)
  have hy : i.y = j.y := by
    have := congrArg (· % d.y) h'
    simpa [Nat.add_mul_mod_self_left, Nat.mod_eq_of_lt h2, Nat.mod_eq_of_lt g2] using this
  rw [hy] at h'
  have hz : i.z = j.z := Nat.eq_of_mul_eq_mul_left (by omega : 0 < d.y) (by omega)
  exact Vec3.ext hx hy hz

theorem idx_surj {d : Vec3 Nat} {n : Nat} (h : n < d.x * d.y * d.z) : ∃ i, InRange d i ∧ idx d i = n := by
  have hx : 0 < d.x := Nat.pos_of_ne_zero fun e => by simp [e] at h
  have hy : 0 < d.y := Nat.pos_of_ne_zero fun e => by simp [e] at h
  refine ⟨⟨n % d.x, n / d.x % d.y, n / d.x / d.y⟩, ⟨Nat.mod_lt _ hx, Nat.mod_lt _ hy, ?_⟩, ?_⟩
  · simp only
    rw [Nat.div_div_eq_div_mul, Nat.div_lt_iff_lt_mul (Nat.mul_pos hx hy), mul_comm d.z]
    exact h
  · have e1 := Nat.mod_add_div n d.x
    have e2 := Nat.mod_add_div (n / d.x) d.y
    unfold idx
    simp only
    calc n % d.x + n / d.x % d.y * d.x + n / d.x / d.y * d.x * d.y = n % d.x + d.x * (n / d.x % d.y + d.y * (n / d.x / d.y)) := by ring
      _ = n := by rw [e2, e1]

theorem cellIndex_ok {L : Lattice} {i : Vec3 Nat} (h : InRange L.dims i) : L.cellIndex i = .ok (idx L.dims i) := by
  obtain ⟨h1, h2, h3⟩ := h
  unfold cellIndex
  rw [decide_eq_true h1, decide_eq_true h2, decide_eq_true h3]
  rfl

theorem cellIndex_throw {L : Lattice} {i : Vec3 Nat} (h : ¬ InRange L.dims i) : ∃ m, L.cellIndex i = .throw m := by
  unfold cellIndex
  by_cases h1 : i.x < L.dims.x
  · by_cases h2 : i.y < L.dims.y
    · have h3 : ¬ i.z < L.dims.z := fun h3 => h ⟨h1, h2, h3⟩
      rw [decide_eq_true h1, decide_eq_true h2, decide_eq_false h3]
      exact ⟨_, rfl⟩
    · rw [decide_eq_true h1, decide_eq_false h2]
      exact ⟨_, rfl⟩
  · rw [decide_eq_false h1]
    exact ⟨_, rfl⟩

theorem mem_allCells {d i : Vec3 Nat} : i ∈ allCells d ↔ InRange d i := by
  unfold allCells InRange
  simp only [List.mem_flatMap, List.mem_range, List.mem_map]
  constructor
  · rintro ⟨a, ha, b, hb, c, hc, rfl⟩
    exact ⟨ha, hb, hc⟩
  · rintro ⟨h1, h2, h3⟩
    exact ⟨i.x, h1, i.y, h2, i.z, h3, rfl⟩

theorem allCells_nodup (d : Vec3 Nat) : (allCells d).Nodup := by
  unfold allCells
  rw [List.nodup_flatMap]
  constructor
  · intro i _
    rw [List.nodup_flatMap]
    constructor
    · intro j _
      exact (List.nodup_range).map fun a b h => by simpa using h
    · refine List.nodup_range.imp ?_
      intro a b hab
      simp only [Function.onFun, List.disjoint_left, List.mem_map, List.mem_range, not_exists, not_and]
      rintro x ⟨k, -, rfl⟩ k' - h
      simp only [Vec3.mk.injEq] at h
      exact hab h.2.1.symm
  · refine List.nodup_range.imp ?_
    intro a b hab
    simp only [Function.onFun, List.disjoint_left, List.mem_flatMap, List.mem_map, List.mem_range, not_exists, not_and]
    rintro x ⟨j, -, k, -, rfl⟩ j' - k' - h
    simp only [Vec3.mk.injEq] at h
    exact hab h.1.symm

theorem allCells_length (d : Vec3 Nat) : (allCells d).length = d.x * d.y * d.z := by
  simp [allCells, List.length_flatMap, mul_assoc]

theorem allCells_idx (d : Vec3 Nat) : ((allCells d).map (idx d)).Perm (List.range (d.x * d.y * d.z)) := by
  refine (List.perm_ext_iff_of_nodup ?_ List.nodup_range).mpr ?_
  · exact (allCells_nodup d).map_on fun i hi j hj h => idx_inj (mem_allCells.mp hi) (mem_allCells.mp hj) h
  · intro n
    rw [List.mem_map, List.mem_range]
    constructor
    · rintro ⟨i, hi, rfl⟩
      exact idx_lt (mem_allCells.mp hi)
    · intro h
      obtain ⟨i, hi, rfl⟩ := idx_surj h
      exact ⟨i, mem_allCells.mpr hi, rfl⟩

/-- Molecules of a cell. -/
def molsAt (L : Lattice) (i : Vec3 Nat) : List Shape := if L.regular then L.cells.headD [] else L.cells.getD (idx L.dims i) []

theorem getSpecific_ok {L : Lattice} (h : L.Inv) {i : Vec3 Nat} (hi : InRange L.dims i) : L.getSpecific i = .ok (molsAt L i) := by
  unfold getSpecific molsAt
  have hc := h.cells
  by_cases hr : L.regular = true
  · rw [if_pos hr] at hc
    obtain ⟨c, hl⟩ := List.length_eq_one_iff.mp hc
    rw [if_pos hr, if_pos hr, hl]
    rfl
  · rw [if_neg hr] at hc
    have hlt : idx L.dims i < L.cells.length := by rw [hc, h.num]; exact idx_lt hi
    rw [if_neg hr, if_neg hr, cellIndex_ok hi, Outcome.ok_bind, vget_ok hlt, List.getD_eq_getElem?_getD, List.getElem?_eq_getElem hlt, Option.getD_some]

theorem fold_flatMap {α β : Type} {f : α → Outcome β} {g : α → β} {p : α → β → List Shape} : ∀ {l : List α} {acc : List Shape},
    (∀ a ∈ l, f a = .ok (g a)) → l.foldlM (fun acc i => do let c ← f i; return acc ++ p i c) acc = .ok (acc ++ l.flatMap fun i => p i (g i))
  | [], acc, _ => by simp
  | a :: l, acc, h => by
    rw [List.foldlM_cons, h a (by simp), Outcome.ok_bind, Outcome.pure_eq, Outcome.ok_bind, fold_flatMap fun b hb => h b (by simp [hb])]
    simp

/-- All molecules. -/
noncomputable def gen (L : Lattice) : List Shape := (allCells L.dims).flatMap fun i => (molsAt L i).map (place L.box i)

theorem generate_ok {L : Lattice} (h : L.Inv) : L.generate = .ok (gen L) := by
  unfold generate
  rw [fold_flatMap (g := molsAt L) (p := fun i c => c.map (place L.box i)) fun i hi => getSpecific_ok h (mem_allCells.mp hi)]
  rfl

theorem foldl_length {α : Type} : ∀ (l : List (List α)) (n : Nat), l.foldl (fun n c => n + c.length) n = n + (l.map List.length).sum
  | [], n => by simp
  | c :: l, n => by rw [List.foldl_cons, foldl_length l]; simp [add_assoc]

theorem size_eq {L : Lattice} (h : L.Inv) : L.size = (gen L).length := by
  unfold size gen molsAt
  rw [List.length_flatMap]
  have hc := h.cells
  by_cases hr : L.regular = true
  · simp only [hr, if_true, List.length_map]
    rw [List.map_const', List.sum_replicate, allCells_length, smul_eq_mul, h.num]
  · rw [if_neg hr] at hc
    simp only [hr, Bool.false_eq_true, if_false, List.length_map]
    rw [foldl_length, zero_add]
    have e : L.cells = (List.range L.cells.length).map fun n => L.cells.getD n [] := by
      refine List.ext_getElem (by simp) ?_
      intro n h1 h2
      simp [List.getElem?_eq_getElem h1]
    rw [hc, h.num] at e
    conv_lhs => rw [e]
    have := ((allCells_idx L.dims).map fun n => (L.cells.getD n []).length).sum_eq
    rw [List.map_map] at this ⊢
    exact this.symm

theorem unfolded_inv {L : Lattice} (h : L.Inv) : L.unfolded.Inv ∧ L.unfolded.dims = L.dims ∧ L.unfolded.box = L.box ∧ L.unfolded.numCells = L.numCells ∧
    L.unfolded.regular = false ∧ ∀ i, InRange L.dims i → molsAt L.unfolded i = molsAt L i := by
  unfold unfolded
  by_cases hr : L.regular = true
  · rw [if_pos hr]
    have hc := h.cells
    rw [if_pos hr] at hc
    have hp : 1 ≤ L.numCells := by
      rw [h.num]
      exact Nat.mul_pos (Nat.mul_pos h.x h.y) h.z
    obtain ⟨c, hl⟩ := List.length_eq_one_iff.mp hc
    refine ⟨⟨h.wf, h.x, h.y, h.z, h.small, h.num, ?_⟩, rfl, rfl, rfl, rfl, ?_⟩
    · simp only [hl, Bool.false_eq_true, if_false, List.length_take, List.length_append, List.length_replicate, List.length_singleton]
      omega
    · intro i hi
      unfold molsAt
      simp only [hl, hr, Bool.false_eq_true, if_false, if_true, List.headD_cons, List.length_singleton]
      have e : ([c] ++ List.replicate (L.numCells - 1) c).take L.numCells = List.replicate L.numCells c := by
        rw [show [c] ++ List.replicate (L.numCells - 1) c = List.replicate L.numCells c by
          rw [List.singleton_append, ← List.replicate_succ, Nat.sub_add_cancel hp]]
        rw [List.take_of_length_le (by simp)]
      rw [e, List.getD_eq_getElem?_getD, List.getElem?_replicate, if_pos (by rw [h.num]; exact idx_lt hi), Option.getD_some]
  · rw [if_neg hr]
    exact ⟨h, rfl, rfl, rfl, by simpa using hr, fun _ _ => rfl⟩

theorem modifySpecific_ok {L : Lattice} (h : L.Inv) {i : Vec3 Nat} (hi : InRange L.dims i) (f : List Shape → List Shape) :
    ∃ L', L.modifySpecific i f = .ok L' ∧ L'.Inv ∧ L'.dims = L.dims ∧ L'.box = L.box ∧ L'.regular = false ∧
      ∀ j, InRange L.dims j → molsAt L' j = if j = i then f (molsAt L i) else molsAt L j := by
  obtain ⟨h1, h2, h3, h4, h5, h6⟩ := unfolded_inv h
  have hi' : InRange L.unfolded.dims i := by rw [h2]; exact hi
  have hc := h1.cells
  rw [h5, h4] at hc
  simp only [Bool.false_eq_true, if_false] at hc
  have hlt : ∀ j, InRange L.dims j → idx L.dims j < L.unfolded.cells.length := fun j hj => by rw [hc, h.num]; exact idx_lt hj
  unfold modifySpecific
  rw [cellIndex_ok hi', Outcome.ok_bind, h2, vget_ok (hlt i hi), Outcome.ok_bind]
  refine ⟨⟨L.unfolded.cells.set (idx L.dims i) (f (L.unfolded.cells[idx L.dims i]'(hlt i hi))), L.box, L.dims, L.numCells, false⟩, rfl,
    ⟨h.wf, h.x, h.y, h.z, h.small, h.num, by simp [hc]⟩, rfl, rfl, rfl, ?_⟩
  intro j hj
  have e : ∀ j, (hj : InRange L.dims j) → molsAt L j = L.unfolded.cells[idx L.dims j]'(hlt j hj) := by
    intro j hj
    rw [← h6 j hj]
    unfold molsAt
    rw [h5, h2, List.getD_eq_getElem?_getD, List.getElem?_eq_getElem (hlt j hj)]
    simp
  unfold molsAt
  simp only [Bool.false_eq_true, if_false]
  rw [List.getD_eq_getElem?_getD, List.getElem?_set]
  by_cases hij : j = i
  · subst hij
    rw [if_pos rfl, if_pos rfl, if_pos (hlt j hj), Option.getD_some]
    have := e j hj
    unfold molsAt at this
    rw [this]
  · rw [if_neg hij, if_neg (fun hq => hij (idx_inj hj hi hq.symm)), List.getElem?_eq_getElem (hlt j hj), Option.getD_some]
    have := e j hj
    unfold molsAt at this
    rw [this]

theorem modifySpecific_throw {L : Lattice} (h : L.Inv) {i : Vec3 Nat} (hi : ¬ InRange L.dims i) (f : List Shape → List Shape) :
    ∃ m, L.modifySpecific i f = .throw m := by
  obtain ⟨h1, h2, -⟩ := unfolded_inv h
  obtain ⟨m, hm⟩ := cellIndex_throw (L := L.unfolded) (i := i) (by rw [h2]; exact hi)
  exact ⟨m, by rw [modifySpecific, hm]; rfl⟩

theorem modifyUnit_ok {L : Lattice} (h : L.Inv) (hr : L.regular = true) (f : List Shape → List Shape) :
    ∃ L', L.modifyUnit f = .ok L' ∧ L'.Inv ∧ L'.dims = L.dims ∧ L'.box = L.box ∧ L'.regular = true ∧ L'.cells = [f (L.cells.headD [])] ∧
      ∀ j, molsAt L' j = f (molsAt L j) := by
  have hc := h.cells
  rw [if_pos hr] at hc
  obtain ⟨c, hl⟩ := List.length_eq_one_iff.mp hc
  unfold modifyUnit
  rw [hr, hl]
  refine ⟨⟨[f c], L.box, L.dims, L.numCells, true⟩, rfl, ⟨h.wf, h.x, h.y, h.z, h.small, h.num, rfl⟩, rfl, rfl, rfl, rfl, ?_⟩
  intro j
  simp [molsAt, hr, hl]

end Lattice

end Rampack
