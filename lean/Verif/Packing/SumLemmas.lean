import Verif.Packing.Spec
import Verif.Grid.SpecLemmas
import Mathlib.Algebra.BigOperators.Ring.Finset
import Mathlib.Data.Int.Interval
/-
Helper lemmas: sums over the pairs visited through the neighbour grid.
-/
namespace Rampack.Packing

open Rampack.Spec Rampack.Grid

theorem sum_flatMap {α β : Type} (l : List α) (g : α → List β) (f : β → ℝ) :
    ((l.flatMap g).map f).sum = (l.map fun a => ((g a).map f).sum).sum := by
  induction l with
  | nil => simp
  | cons a l ih => simp [List.flatMap_cons, ih]

theorem sum_filter {α : Type} (l : List α) (p : α → Bool) (f : α → ℝ) :
    ((l.filter p).map f).sum = (l.map fun a => if p a then f a else 0).sum := by
  induction l with
  | nil => simp
  | cons a l ih =>
    rw [List.filter_cons]
    by_cases h : p a <;> simp [h, ih]

theorem sum_eq_zero' {α : Type} {l : List α} {f : α → ℝ} (h : ∀ a ∈ l, f a = 0) : (l.map f).sum = 0 := by
  rw [List.map_congr_left h]; simp

theorem sum_congr' {α : Type} {l : List α} {f g : α → ℝ} (h : ∀ a ∈ l, f a = g a) : (l.map f).sum = (l.map g).sum := by
  rw [List.map_congr_left h]

theorem sum_add' {α : Type} (l : List α) (f g : α → ℝ) :
    (l.map fun a => f a + g a).sum = (l.map f).sum + (l.map g).sum := List.sum_map_add

theorem sum_mul' {α : Type} (l : List α) (c : ℝ) (f : α → ℝ) :
    (l.map fun a => c * f a).sum = c * (l.map f).sum := List.sum_map_mul_left _ _ _

theorem sum_swap {α β : Type} (l : List α) (k : List β) (f : α → β → ℝ) :
    (l.map fun a => (k.map fun b => f a b).sum).sum = (k.map fun b => (l.map fun a => f a b).sum).sum := by
  induction l with
  | nil => simp
  | cons a l ih => simp only [List.map_cons, List.sum_cons, ih]; rw [← sum_add']

/-- Sum over a list without repetitions, when the terms outside are zero. -/
theorem sum_list_eq_finset {α : Type} [DecidableEq α] {l : List α} (hl : l.Nodup) {S : Finset α} (f : α → ℝ)
    (hsub : ∀ a ∈ l, f a ≠ 0 → a ∈ S) (hz : ∀ a ∈ S, f a ≠ 0 → a ∈ l) : (l.map f).sum = ∑ a ∈ S, f a := by
  rw [← List.sum_toFinset f hl]
  rw [← Finset.sum_filter_ne_zero, ← Finset.sum_filter_ne_zero (s := S)]
  congr 1
  ext a
  simp only [Finset.mem_filter, List.mem_toFinset]
  exact ⟨fun h => ⟨hsub a h.1 h.2, h.2⟩, fun h => ⟨hz a h.1 h.2, h.2⟩⟩


/-- The 27 translations by at most one box in each direction. -/
noncomputable def shifts : Finset (Vec3 ℤ) :=
  ((Finset.Icc (-1 : ℤ) 1 ×ˢ Finset.Icc (-1 : ℤ) 1) ×ˢ Finset.Icc (-1 : ℤ) 1).image fun p => ⟨p.1.1, p.1.2, p.2⟩

theorem mem_shifts {t : Vec3 ℤ} : t ∈ shifts ↔ (-1 ≤ t.x ∧ t.x ≤ 1) ∧ (-1 ≤ t.y ∧ t.y ≤ 1) ∧ (-1 ≤ t.z ∧ t.z ≤ 1) := by
  simp only [shifts, Finset.mem_image, Finset.mem_product, Finset.mem_Icc, Prod.exists]
  constructor
  · rintro ⟨a, b, c, h, rfl⟩; exact ⟨h.1.1, h.1.2, h.2⟩
  · intro h; exact ⟨t.x, t.y, t.z, ⟨⟨h.1, h.2.1⟩, h.2.2⟩, rfl⟩

theorem neg_mem_shifts {t : Vec3 ℤ} (h : t ∈ shifts) : -t ∈ shifts := by
  rw [mem_shifts] at *; simp only [Vec3.neg_x, Vec3.neg_y, Vec3.neg_z]; omega

theorem tau_mem_shifts {N c n : Vec3 Nat} (hc : InRange N c) (hn : IsDir n) : tau N c n ∈ shifts := by
  rw [mem_shifts]
  have hx := wrap_tau_cases hc.1 hn.1
  have hy := wrap_tau_cases hc.2.1 hn.2.1
  have hz := wrap_tau_cases hc.2.2 hn.2.2
  simp only [tau]
  omega

/-- Everything seen from one cell: index and translation. -/
def seen (N : Vec3 Nat) (cells : Vec3 Nat → List Nat) (c : Vec3 Nat) : List (Nat × Vec3 ℤ) :=
  dirs.flatMap fun n => (cells (wrapCell N c n)).map fun j => (j, tau N c n)

theorem mem_seen {N : Vec3 Nat} {cells : Vec3 Nat → List Nat} {c : Vec3 Nat} {p : Nat × Vec3 ℤ} :
    p ∈ seen N cells c ↔ ∃ n, IsDir n ∧ p.1 ∈ cells (wrapCell N c n) ∧ p.2 = tau N c n := by
  obtain ⟨j, t⟩ := p
  simp only [seen, List.mem_flatMap, List.mem_map, Prod.mk.injEq, mem_dirs]
  constructor
  · rintro ⟨n, hn, j', hj, rfl, rfl⟩; exact ⟨n, hn, hj, rfl⟩
  · rintro ⟨n, hn, hj, rfl⟩; exact ⟨n, hn, j, hj, rfl, rfl⟩

theorem seen_nodup {N : Vec3 Nat} {cells : Vec3 Nat → List Nat} (hc : CellsOk N cells) {c : Vec3 Nat}
    (hin : InRange N c) : (seen N cells c).Nodup := by
  apply nodup_flatMap_of dirs_nodup
  · intro n hn
    exact (hc.nodup _ (wrapCell_inRange hin (mem_dirs.mp hn))).map (fun x y h => by simpa using h)
  · intro n hn m hm a ha hb
    obtain ⟨j, hj, rfl⟩ := List.mem_map.mp ha
    obtain ⟨k, hk, e⟩ := List.mem_map.mp hb
    simp only [Prod.mk.injEq] at e
    obtain ⟨rfl, e⟩ := e
    exact dir_unique hin (mem_dirs.mp hn) (mem_dirs.mp hm) (hc.disj _ _ _ (wrapCell_inRange hin (mem_dirs.mp hn))
      (wrapCell_inRange hin (mem_dirs.mp hm)) hj hk) e.symm

/-- Sum over the pairs of different places of `range n`, in the order of the double loop. -/
theorem sum_range_pairs (n : Nat) (f : Nat → Nat → ℝ) (hs : ∀ i < n, ∀ j < n, f i j = f j i) :
    2 * ((List.range n).map fun i => ((List.range' (i + 1) (n - (i + 1))).map fun j => f i j).sum).sum =
      ((List.range n).map fun i => (((List.range n).filter (· ≠ i)).map fun j => f i j).sum).sum := by
  have e1 : ∀ i < n, ((List.range' (i + 1) (n - (i + 1))).map fun j => f i j).sum = ∑ j ∈ (Finset.range n).filter (i < ·), f i j := by
    intro i hi
    apply sum_list_eq_finset (List.nodup_range')
    · intro a ha _; rw [List.mem_range'_1] at ha; rw [Finset.mem_filter, Finset.mem_range]; omega
    · intro a ha _; rw [Finset.mem_filter, Finset.mem_range] at ha; rw [List.mem_range'_1]; omega
  have e2 : ∀ i < n, (((List.range n).filter (· ≠ i)).map fun j => f i j).sum = ∑ j ∈ (Finset.range n).filter (· ≠ i), f i j := by
    intro i hi
    apply sum_list_eq_finset (List.nodup_range.filter _)
    · intro a ha _; rw [List.mem_filter, List.mem_range] at ha; rw [Finset.mem_filter, Finset.mem_range]; simpa using ha
    · intro a ha _; rw [Finset.mem_filter, Finset.mem_range] at ha; rw [List.mem_filter, List.mem_range]; simpa using ha
  have e3 : ∀ g : Nat → ℝ, ((List.range n).map g).sum = ∑ i ∈ Finset.range n, g i := by
    intro g
    apply sum_list_eq_finset List.nodup_range <;> intro a ha _ <;> simpa using ha
  rw [sum_congr' (fun i hi => e1 i (List.mem_range.mp hi)), sum_congr' (fun i hi => e2 i (List.mem_range.mp hi)), e3, e3]
  have e4 : ∀ i ∈ Finset.range n, ∑ j ∈ (Finset.range n).filter (· ≠ i), f i j =
      ∑ j ∈ (Finset.range n).filter (i < ·), f i j + ∑ j ∈ (Finset.range n).filter (· < i), f i j := by
    intro i _
    rw [← Finset.sum_union]
    · congr 1; ext j; simp only [Finset.mem_filter, Finset.mem_union, Finset.mem_range]; omega
    · rw [Finset.disjoint_filter]; intro j _; omega
  rw [Finset.sum_congr rfl e4, Finset.sum_add_distrib, two_mul]
  congr 1
  simp only [Finset.sum_filter]
  rw [Finset.sum_comm]
  apply Finset.sum_congr rfl
  intro i hi
  apply Finset.sum_congr rfl
  intro j hj
  rw [hs i (Finset.mem_range.mp hi) j (Finset.mem_range.mp hj)]

end Rampack.Packing
