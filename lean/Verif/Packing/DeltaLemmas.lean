import Verif.Packing.AcceptLemmas
/-
Helper lemmas: how totals change when one molecule is replaced.
-/
namespace Rampack.Packing

open Rampack.Spec Rampack.Grid

theorem range_sum (n : Nat) (f : Nat → ℝ) : ((List.range n).map f).sum = ∑ i ∈ Finset.range n, f i := by
  rw [← List.toFinset_range, List.sum_toFinset _ List.nodup_range]

theorem range_ne_sum (n i : Nat) (f : Nat → ℝ) :
    (((List.range n).filter (· ≠ i)).map f).sum = ∑ j ∈ (Finset.range n).erase i, f j := by
  have : (Finset.range n).erase i = ((List.range n).filter (· ≠ i)).toFinset := by
    ext j; simp [and_comm]
  rw [this, List.sum_toFinset _ (List.nodup_range.filter _)]

theorem doubleSum_update {α : Type} (n i : Nat) (hi : i < n) (W : α → α → ℝ) (hW : ∀ a b, W a b = W b a) (f f' : Nat → α)
    (t : α) (hf : ∀ j, f' j = if j = i then t else f j) :
    ∑ a ∈ Finset.range n, ∑ b ∈ (Finset.range n).erase a, W (f' a) (f' b) -
      ∑ a ∈ Finset.range n, ∑ b ∈ (Finset.range n).erase a, W (f a) (f b) =
    2 * (∑ b ∈ (Finset.range n).erase i, W t (f b) - ∑ b ∈ (Finset.range n).erase i, W (f i) (f b)) := by
  have him : i ∈ Finset.range n := Finset.mem_range.mpr hi
  rw [← Finset.add_sum_erase _ _ him, ← Finset.add_sum_erase (Finset.range n) (fun a => ∑ b ∈ (Finset.range n).erase a, W (f a) (f b)) him]
  have h1 : ∑ b ∈ (Finset.range n).erase i, W (f' i) (f' b) = ∑ b ∈ (Finset.range n).erase i, W t (f b) := by
    apply Finset.sum_congr rfl
    intro b hb
    rw [hf, hf, if_pos rfl, if_neg (Finset.ne_of_mem_erase hb)]
  have h2 : ∀ a ∈ (Finset.range n).erase i, ∑ b ∈ (Finset.range n).erase a, W (f' a) (f' b) =
      ∑ b ∈ (Finset.range n).erase a, W (f a) (f b) + (W t (f a) - W (f i) (f a)) := by
    intro a ha
    have hia : i ∈ (Finset.range n).erase a := Finset.mem_erase.mpr ⟨(Finset.ne_of_mem_erase ha).symm, him⟩
    rw [← Finset.add_sum_erase _ _ hia, ← Finset.add_sum_erase ((Finset.range n).erase a) (fun b => W (f a) (f b)) hia]
    have h3 : ∑ b ∈ ((Finset.range n).erase a).erase i, W (f' a) (f' b) = ∑ b ∈ ((Finset.range n).erase a).erase i, W (f a) (f b) := by
      apply Finset.sum_congr rfl
      intro b hb
      rw [hf, hf, if_neg (Finset.ne_of_mem_erase ha), if_neg (Finset.ne_of_mem_erase hb)]
    rw [h3, hf, hf, if_neg (Finset.ne_of_mem_erase ha), if_pos rfl, hW (f a) t, hW (f a) (f i)]
    ring
  rw [h1, Finset.sum_congr rfl h2, Finset.sum_add_distrib, Finset.sum_sub_distrib]
  ring

theorem molW_symm {P : Packing} {I : Interaction} (hb : P.box.WF) {φ : Site → Site → BC → ℝ} (hs : SymmFn φ) (s t : Shape) :
    molW P I φ s t = molW P I φ t s := by
  simp only [molW, sitePairs]
  rw [sum_swap]
  simp only [pairW_symm hb _ hs]

theorem single_eq (P : Packing) (I : Interaction) (φ : Site → Site → BC → ℝ) (i : Nat) (s : Shape) :
    single P I φ i s = ∑ j ∈ (Finset.range P.size).erase i, molW P I φ s (P.shapeFn j) := range_ne_sum _ _ _

theorem double_eq (P : Packing) (I : Interaction) (φ : Site → Site → BC → ℝ) :
    double P I φ = ∑ a ∈ Finset.range P.size, ∑ b ∈ (Finset.range P.size).erase a, molW P I φ (P.shapeFn a) (P.shapeFn b) := by
  rw [double, range_sum]
  exact Finset.sum_congr rfl fun a _ => single_eq _ _ _ _ _

theorem molW_congr {P P' : Packing} {I : Interaction} (hb : P'.box = P.box) (hn : P'.ng.isSome = P.ng.isSome)
    (φ : Site → Site → BC → ℝ) (s t : Shape) : molW P' I φ s t = molW P I φ s t := by
  simp only [molW, hb, hn]

theorem Replaced.double {P P' : Packing} {I : Interaction} {i : Nat} {s t : Shape} (h : Replaced P P' I i t) (hP : Core P I)
    (hi : i < P.size) (hs : P.shapes[i]? = some s) (hn : P'.ng.isSome = P.ng.isSome) {φ : Site → Site → BC → ℝ} (hφ : SymmFn φ) :
    double P' I φ - double P I φ = 2 * (single P I φ i t - single P I φ i s) := by
  have hil : i < P.shapes.length := by unfold Packing.size at hi; omega
  have hsf : P.shapeFn i = s := by
    unfold Packing.shapeFn; rw [List.getD_eq_getElem?_getD, hs]; rfl
  rw [double_eq, double_eq, single_eq, single_eq, h.size]
  simp only [molW_congr h.box hn]
  rw [doubleSum_update P.size i hi (molW P I φ) (fun a b => molW_symm hP.box hφ a b) P.shapeFn P'.shapeFn t (h.shapeFn hil), hsf]

/-- Sum of wall overlaps. -/
theorem Replaced.walls {P P' : Packing} {I : Interaction} {i : Nat} {s t : Shape} (h : Replaced P P' I i t)
    (hi : i < P.size) (hs : P.shapes[i]? = some s) (w : Shape → Nat) :
    (((List.range P'.size).map fun j => w (P'.shapeFn j)).sum : ℕ) + w s = ((List.range P.size).map fun j => w (P.shapeFn j)).sum + w t := by
  have hil : i < P.shapes.length := by unfold Packing.size at hi; omega
  have hsf : P.shapeFn i = s := by
    unfold Packing.shapeFn; rw [List.getD_eq_getElem?_getD, hs]; rfl
  have him : i ∈ Finset.range P.size := Finset.mem_range.mpr hi
  have key : ∀ f : Nat → Nat, ((List.range P.size).map f).sum = ∑ j ∈ Finset.range P.size, f j := by
    intro f; rw [← List.toFinset_range, List.sum_toFinset _ List.nodup_range]
  rw [h.size, key, key, ← Finset.add_sum_erase _ _ him, ← Finset.add_sum_erase (Finset.range P.size) (fun j => w (P.shapeFn j)) him,
    hsf, h.shapeFn hil, if_pos rfl]
  have : ∑ j ∈ (Finset.range P.size).erase i, w (P'.shapeFn j) = ∑ j ∈ (Finset.range P.size).erase i, w (P.shapeFn j) := by
    apply Finset.sum_congr rfl
    intro j hj
    rw [h.shapeFn hil, if_neg (Finset.ne_of_mem_erase hj)]
  rw [this]; omega

end Rampack.Packing
