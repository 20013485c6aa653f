import Verif.Lattice.TransformSpec
import Verif.OutcomeLemmas
import Mathlib.Data.List.Nodup
/-
Lemmas on bins of coordinates.
-/
namespace Rampack

open Spec

variable {α : Type}

theorem addToBin_cases (near : α → α → Bool) (x : α) (n : Nat) : ∀ l : List (α × List Nat),
    (∃ pre b post, l = pre ++ b :: post ∧ near b.1 x = true ∧ addToBin near x n l = pre ++ (b.1, b.2 ++ [n]) :: post) ∨
    ((∀ b ∈ l, near b.1 x = false) ∧ addToBin near x n l = l ++ [(x, [n])])
  | [] => .inr ⟨by simp, rfl⟩
  | b :: l => by
    rw [addToBin]
    by_cases h : near b.1 x = true
    · rw [if_pos h]
      exact .inl ⟨[], b, l, rfl, h, rfl⟩
    · rw [if_neg h]
      rcases addToBin_cases near x n l with ⟨pre, c, post, h1, h2, h3⟩ | ⟨h1, h2⟩
      · exact .inl ⟨b :: pre, c, post, by rw [h1]; rfl, h2, by rw [h3]; rfl⟩
      · refine .inr ⟨?_, by rw [h2]; rfl⟩
        intro c hc
        rcases List.mem_cons.mp hc with rfl | hc
        · simpa using h
        · exact h1 c hc

theorem bins_append (near : α → α → Bool) (keys : List α) (x : α) : bins near (keys ++ [x]) = addToBin near x keys.length (bins near keys) := by
  unfold bins
  rw [List.zipIdx_append, List.foldl_append]
  simp

/-- Every molecule is in one bin; the key of a bin is the key of a molecule in it; keys of molecules of a bin are near its key; keys of bins are not near. -/
structure BinsOk (near : α → α → Bool) (keys : List α) (B : List (α × List Nat)) : Prop where
  all : (B.flatMap Prod.snd).Perm (List.range keys.length)
  key : ∀ b ∈ B, ∃ n ∈ b.2, keys[n]? = some b.1
  mem : ∀ b ∈ B, ∀ n ∈ b.2, ∃ x, keys[n]? = some x ∧ near b.1 x = true
  apart : B.Pairwise fun a b => near a.1 b.1 = false

theorem bins_ok (near : α → α → Bool) (hr : ∀ x, near x x = true) (keys : List α) : BinsOk near keys (bins near keys) := by
  induction keys using List.reverseRecOn with
  | nil => exact ⟨by simp [bins], by simp [bins], by simp [bins], by simp [bins]⟩
  | append_singleton keys x ih =>
    rw [bins_append]
    obtain ⟨h1, h2, h3, h4⟩ := ih
    have up : ∀ {n : Nat} {y : α}, keys[n]? = some y → (keys ++ [x])[n]? = some y := by
      intro n y h
      rw [List.getElem?_append_left (List.getElem?_eq_some_iff.mp h).1, h]
    have last : (keys ++ [x])[keys.length]? = some x := by simp
    rcases addToBin_cases near x keys.length (bins near keys) with ⟨pre, b, post, e1, e2, e3⟩ | ⟨e1, e2⟩
    · rw [e3]
      rw [e1] at h1 h2 h3 h4
      refine ⟨?_, ?_, ?_, ?_⟩
      · rw [List.length_append, List.length_singleton, List.range_succ]
        refine List.Perm.trans ?_ (h1.append_right [keys.length])
        simp only [List.flatMap_append, List.flatMap_cons, List.append_assoc]
        refine List.Perm.append_left _ (List.Perm.append_left _ ?_)
        exact List.perm_append_comm
      · intro c hc
        rcases List.mem_append.mp hc with hc | hc
        · obtain ⟨n, hn, e⟩ := h2 c (by simp [hc])
          exact ⟨n, hn, up e⟩
        · rcases List.mem_cons.mp hc with rfl | hc
          · obtain ⟨n, hn, e⟩ := h2 b (by simp)
            exact ⟨n, by simp [hn], up e⟩
          · obtain ⟨n, hn, e⟩ := h2 c (by simp [hc])
            exact ⟨n, hn, up e⟩
      · intro c hc n hn
        rcases List.mem_append.mp hc with hc | hc
        · obtain ⟨y, e, e'⟩ := h3 c (by simp [hc]) n hn
          exact ⟨y, up e, e'⟩
        · rcases List.mem_cons.mp hc with rfl | hc
          · rcases List.mem_append.mp hn with hn | hn
            · obtain ⟨y, e, e'⟩ := h3 b (by simp) n hn
              exact ⟨y, up e, e'⟩
            · rw [List.mem_singleton.mp hn]
              exact ⟨x, last, e2⟩
          · obtain ⟨y, e, e'⟩ := h3 c (by simp [hc]) n hn
            exact ⟨y, up e, e'⟩
      · have : ((pre ++ b :: post).map Prod.fst).Pairwise fun a b => near a b = false := List.pairwise_map.mpr h4
        refine (List.pairwise_map (f := Prod.fst) (R := fun a b => near a b = false)).mp ?_
        simpa using this
    · rw [e2]
      refine ⟨?_, ?_, ?_, ?_⟩
      · rw [List.length_append, List.length_singleton, List.range_succ]
        simp only [List.flatMap_append, List.flatMap_cons, List.flatMap_nil, List.append_nil]
        exact h1.append_right _
      · intro c hc
        rcases List.mem_append.mp hc with hc | hc
        · obtain ⟨n, hn, e⟩ := h2 c hc
          exact ⟨n, hn, up e⟩
        · rw [List.mem_singleton.mp hc]
          exact ⟨keys.length, by simp, last⟩
      · intro c hc n hn
        rcases List.mem_append.mp hc with hc | hc
        · obtain ⟨y, e, e'⟩ := h3 c hc n hn
          exact ⟨y, up e, e'⟩
        · rw [List.mem_singleton.mp hc] at hn ⊢
          rw [List.mem_singleton.mp hn]
          exact ⟨x, last, hr x⟩
      · refine List.pairwise_append.mpr ⟨h4, by simp, ?_⟩
        intro c hc d hd
        rw [List.mem_singleton.mp hd]
        exact e1 c hc

/-- In sorted bins too. -/
theorem BinsOk.perm {near : α → α → Bool} (hs : ∀ x y, near x y = near y x) {keys : List α} {B C : List (α × List Nat)} (h : BinsOk near keys B) (hp : C.Perm B) :
    BinsOk near keys C :=
  ⟨(hp.flatMap_right _).trans h.all, fun b hb => h.key b (hp.mem_iff.mp hb), fun b hb => h.mem b (hp.mem_iff.mp hb),
    (hp.pairwise_iff fun {x y} e => by rw [hs]; exact e).mpr h.apart⟩

/-- The number of the bin of a molecule. -/
def binOf (B : List (α × List Nat)) (n : Nat) : Nat := B.findIdx fun b => decide (n ∈ b.2)

theorem binOf_spec {near : α → α → Bool} {keys : List α} {B : List (α × List Nat)} (h : BinsOk near keys B) {n : Nat} (hn : n < keys.length) :
    ∃ b, B[binOf B n]? = some b ∧ n ∈ b.2 := by
  have h1 : n ∈ B.flatMap Prod.snd := h.all.mem_iff.mpr (List.mem_range.mpr hn)
  obtain ⟨b, hb, hn'⟩ := List.mem_flatMap.mp h1
  have h2 : binOf B n < B.length := List.findIdx_lt_length_of_exists ⟨b, hb, by simpa using hn'⟩
  refine ⟨B[binOf B n], List.getElem?_eq_getElem h2, ?_⟩
  have := List.findIdx_getElem (w := h2)
  exact of_decide_eq_true this

theorem bin_unique {near : α → α → Bool} {keys : List α} {B : List (α × List Nat)} (h : BinsOk near keys B) {n i j : Nat} {b c : α × List Nat}
    (hi : B[i]? = some b) (hj : B[j]? = some c) (hb : n ∈ b.2) (hc : n ∈ c.2) : i = j := by
  have hd : (B.flatMap Prod.snd).Nodup := h.all.nodup_iff.mpr List.nodup_range
  rw [List.nodup_flatMap] at hd
  have hp := List.pairwise_iff_getElem.mp hd.2
  obtain ⟨hi1, hi2⟩ := List.getElem?_eq_some_iff.mp hi
  obtain ⟨hj1, hj2⟩ := List.getElem?_eq_some_iff.mp hj
  rcases lt_trichotomy i j with hl | hl | hl
  · have := hp i j hi1 hj1 hl
    rw [hi2, hj2] at this
    exact absurd hc (this hb)
  · exact hl
  · have := hp j i hj1 hi1 hl
    rw [hi2, hj2] at this
    exact absurd hb (this hc)

theorem binOf_eq {near : α → α → Bool} {keys : List α} {B : List (α × List Nat)} (h : BinsOk near keys B) {n i : Nat} {b : α × List Nat}
    (hi : B[i]? = some b) (hn : n ∈ b.2) : binOf B n = i := by
  have hk : n < keys.length := by
    have : n ∈ B.flatMap Prod.snd := List.mem_flatMap.mpr ⟨b, List.mem_of_getElem? hi, hn⟩
    exact List.mem_range.mp (h.all.mem_iff.mp this)
  obtain ⟨c, h1, h2⟩ := binOf_spec h hk
  exact bin_unique h h1 hi h2 hn

/-- Molecules are in the same bin exactly if their keys are near, if being near is an equivalence. -/
theorem binOf_near {near : α → α → Bool} (hs : ∀ x y, near x y = near y x) {keys : List α} {B : List (α × List Nat)} (h : BinsOk near keys B)
    (ht : ∀ x ∈ keys, ∀ y ∈ keys, ∀ z ∈ keys, near x y = true → near y z = true → near x z = true) {i j : Nat} {x y : α}
    (hi : keys[i]? = some x) (hj : keys[j]? = some y) : binOf B i = binOf B j ↔ near x y = true := by
  have hi1 := (List.getElem?_eq_some_iff.mp hi).1
  have hj1 := (List.getElem?_eq_some_iff.mp hj).1
  have hx := List.mem_of_getElem? hi
  have hy := List.mem_of_getElem? hj
  obtain ⟨b, b1, b2⟩ := binOf_spec h hi1
  obtain ⟨c, c1, c2⟩ := binOf_spec h hj1
  have hb := List.mem_of_getElem? b1
  have hc := List.mem_of_getElem? c1
  obtain ⟨x', e1, nb⟩ := h.mem b hb i b2
  rw [hi] at e1
  injection e1 with e1
  subst e1
  obtain ⟨y', e1, nc⟩ := h.mem c hc j c2
  rw [hj] at e1
  injection e1 with e1
  subst e1
  obtain ⟨k, -, kb⟩ := h.key b hb
  obtain ⟨l, -, lc⟩ := h.key c hc
  have kb := List.mem_of_getElem? kb
  have lc := List.mem_of_getElem? lc
  constructor
  · intro e
    rw [e, c1] at b1
    injection b1 with b1
    subst b1
    exact ht _ hx _ kb _ hy (by rw [hs]; exact nb) nc
  · intro hn
    have n1 : near b.1 c.1 = true := ht _ kb _ hy _ lc (ht _ kb _ hx _ hy nb hn) (by rw [hs]; exact nc)
    have hp := List.pairwise_iff_getElem.mp h.apart
    obtain ⟨b3, b4⟩ := List.getElem?_eq_some_iff.mp b1
    obtain ⟨c3, c4⟩ := List.getElem?_eq_some_iff.mp c1
    rcases lt_trichotomy (binOf B i) (binOf B j) with hl | hl | hl
    · have := hp _ _ b3 c3 hl
      rw [b4, c4, n1] at this
      cases this
    · exact hl
    · have := hp _ _ c3 b3 hl
      rw [b4, c4, hs, n1] at this
      cases this

end Rampack
