import Verif.Param.Spec
import Verif.Grid.ListLemmas
/-
Helper lemmas about dynamic parameters.
-/
namespace Rampack

open Rampack.Spec

/-- What a piece is wrapped into. -/
def Param.wrapped (s : Nat) (p : Param) : Param := if 0 < s then .shifted false s p else .shifted true 0 p

theorem Param.mkShifted_wrapped {s : Nat} (hs : s < 2 ^ 63) (p : Param) : Param.mkShifted (toLong s) (some p) = .ok (p.wrapped s) := by
  unfold Param.mkShifted toLong Param.wrapped
  rw [if_pos hs, if_neg (by omega)]
  simp only
  by_cases h : 0 < s
  · rw [if_pos h, if_pos (by exact_mod_cast h)]; simp
  · have : s = 0 := by omega
    subst this
    simp

theorem Param.wrapped_value {s c e : Nat} (hsc : s ≤ c) (hse : s ≤ e) (hc : c ≤ sizeMax) (he : e ≤ sizeMax) (p : Param) :
    (p.wrapped s).value c e = p.value (c - s) (e - s) := by
  unfold Param.wrapped
  split
  · simp only [Param.value]
    rw [show decide (c ≥ s) = true by simpa using hsc, show decide (e ≥ s) = true by simpa using hse]
    rfl
  · have : s = 0 := by omega
    subst this
    simp only [Param.value]
    rw [show decide (c ≤ sizeMax - 0) = true by simpa using hc, if_neg (show ¬ e > sizeMax - 0 by omega)]
    rfl

theorem piecesValue_eq : ∀ (l : List (Nat × Param)) {c t : Nat}, l ≠ [] → (∀ u, l.head? = some u → u.1 ≤ c) → (∀ u ∈ l, u.1 ≤ t) → c ≤ t →
    t ≤ sizeMax → (l.map Prod.fst).Pairwise (· ≤ ·) → ∃ i u, IsPiece l c i ∧ l[i]? = some u ∧
      piecesValue (l.map fun u => (u.1, u.2.wrapped u.1)) c t = u.2.value (c - u.1) (pieceEnd l i t - u.1)
  | [], _, _, h, _, _, _, _, _ => absurd rfl h
  | [(s, p)], c, t, _, h0, ht, hct, hm, _ => by
    have hs : s ≤ c := h0 (s, p) rfl
    refine ⟨0, (s, p), ⟨⟨(s, p), rfl, hs⟩, ?_⟩, rfl, ?_⟩
    · intro j u hj hu
      rw [List.getElem?_eq_none (by simp; omega)] at hu; cases hu
    · simp only [List.map_cons, List.map_nil, piecesValue]
      rw [if_neg (by omega), Param.wrapped_value hs (by omega) (by omega) hm]
      rfl
  | (s, p) :: (s', p') :: rest, c, t, _, h0, ht, hct, hm, hp => by
    have hs : s ≤ c := h0 (s, p) rfl
    have hst : s ≤ t := ht (s, p) (List.mem_cons_self ..)
    have hst' : s' ≤ t := ht (s', p') (by simp)
    simp only [List.map_cons, piecesValue]
    rw [if_neg (by omega)]
    simp only [List.map_cons, List.pairwise_cons] at hp
    by_cases hc : c < s'
    · rw [if_pos hc]
      refine ⟨0, (s, p), ⟨⟨(s, p), rfl, hs⟩, ?_⟩, rfl, ?_⟩
      · intro j u hj hu
        have hmem : u ∈ (s', p') :: rest := by
          obtain ⟨j', rfl⟩ : ∃ j', j = j' + 1 := ⟨j - 1, by omega⟩
          rw [List.getElem?_cons_succ] at hu
          exact List.mem_of_getElem? hu
        rcases List.mem_cons.mp hmem with rfl | hmem
        · exact hc
        · have := hp.2.1 u.1 (List.mem_map_of_mem hmem)
          omega
      · have hss : s ≤ s' := hp.1 s' (by simp)
        rw [Param.wrapped_value hs hss (by omega) (by omega)]
        rfl
    · rw [if_neg hc]
      obtain ⟨i, u, h1, h2, h3⟩ := piecesValue_eq ((s', p') :: rest) (c := c) (t := t) (by simp) (by
        intro u hu
        simp only [List.head?_cons, Option.some.injEq] at hu
        subst hu
        exact (by omega : s' ≤ c)) (fun u hu => ht u (List.mem_cons_of_mem _ hu)) hct hm (by
        simp only [List.map_cons, List.pairwise_cons]; exact hp.2)
      refine ⟨i + 1, u, ⟨?_, ?_⟩, ?_, ?_⟩
      · obtain ⟨v, hv, hv'⟩ := h1.1
        exact ⟨v, by rw [List.getElem?_cons_succ]; exact hv, hv'⟩
      · intro j v hj hv
        obtain ⟨j', rfl⟩ : ∃ j', j = j' + 1 := ⟨j - 1, by omega⟩
        rw [List.getElem?_cons_succ] at hv
        exact h1.2 j' v (by omega) hv
      · rw [List.getElem?_cons_succ]; exact h2
      · simp only [List.map_cons] at h3
        rw [h3]
        rfl

theorem startsSorted_iff : ∀ l : List (Nat × Option Param), startsSorted l = true ↔ (l.map Prod.fst).Pairwise (· ≤ ·)
  | [] => by simp [startsSorted]
  | [_] => by simp [startsSorted]
  | a :: b :: l => by
    have ih := startsSorted_iff (b :: l)
    simp only [startsSorted, Bool.and_eq_true, Bool.not_eq_true', decide_eq_false_iff_not, not_lt, ih]
    simp only [List.map_cons, List.pairwise_cons, List.mem_cons, forall_eq_or_imp]
    constructor
    · rintro ⟨h1, h2, h3⟩
      exact ⟨⟨h1, fun x hx => le_trans h1 (h2 x hx)⟩, h2, h3⟩
    · rintro ⟨⟨h1, -⟩, h2⟩
      exact ⟨h1, h2⟩

theorem wrapAll_ok : ∀ l : List (Nat × Param), (∀ u ∈ l, u.1 < 2 ^ 63) →
    ((l.map fun u => (u.1, some u.2)).mapM fun u => do
      let q ← Param.mkShifted (toLong u.1) u.2
      return (u.1, q) : Outcome _) = .ok (l.map fun u => (u.1, u.2.wrapped u.1))
  | [], _ => rfl
  | u :: l, h => by
    rw [List.map_cons, List.mapM_cons]
    simp only
    rw [Param.mkShifted_wrapped (h u (List.mem_cons_self ..)), Outcome.ok_bind, Outcome.pure_eq, Outcome.ok_bind,
      wrapAll_ok l fun v hv => h v (List.mem_cons_of_mem _ hv), Outcome.ok_bind]
    rfl

theorem wrapAll_null : ∀ l : List (Nat × Option Param), (∀ u ∈ l, u.1 < 2 ^ 63) → (¬ ∀ u ∈ l, u.2.isSome = true) →
    ∃ m, (l.mapM fun u => do
      let q ← Param.mkShifted (toLong u.1) u.2
      return (u.1, q) : Outcome _) = .throw m
  | [], _, h => absurd (by simp) h
  | u :: l, h, h' => by
    rw [List.mapM_cons]
    obtain ⟨s, o⟩ := u
    cases o with
    | none =>
      refine ⟨"Expects(this->underlyingParameter != nullptr)", ?_⟩
      have hs : s < 2 ^ 63 := h (s, none) (List.mem_cons_self ..)
      unfold Param.mkShifted toLong
      simp only
      rw [if_pos hs, if_neg (by omega)]
      rfl
    | some p =>
      simp only
      rw [Param.mkShifted_wrapped (h (s, some p) (List.mem_cons_self ..)), Outcome.ok_bind, Outcome.pure_eq, Outcome.ok_bind]
      obtain ⟨m, hm⟩ := wrapAll_null l (fun v hv => h v (List.mem_cons_of_mem _ hv)) (by
        intro hall; apply h'; intro v hv
        rcases List.mem_cons.mp hv with rfl | hv
        · rfl
        · exact hall v hv)
      exact ⟨m, by rw [hm]; rfl⟩

theorem exists_somes {α : Type} : ∀ {l : List (Nat × Option α)}, (∀ u ∈ l, u.2.isSome = true) → ∃ l' : List (Nat × α), l = l'.map fun u => (u.1, some u.2)
  | [], _ => ⟨[], rfl⟩
  | (s, none) :: l, h => by have := h (s, none) (List.mem_cons_self ..); simp at this
  | (s, some p) :: l, h => by
    obtain ⟨l', rfl⟩ := exists_somes (l := l) fun u hu => h u (List.mem_cons_of_mem _ hu)
    exact ⟨(s, p) :: l', rfl⟩

theorem mkPiecewise_good {l : List (Nat × Param)} (hs : ∀ u ∈ l, u.1 < 2 ^ 63) (hg : GoodPieces (l.map fun u => (u.1, some u.2))) :
    Param.mkPiecewise (l.map fun u => (u.1, some u.2)) = .ok (.piecewise (l.map fun u => (u.1, u.2.wrapped u.1))) := by
  obtain ⟨⟨u, h0, hu⟩, h1, h2⟩ := hg
  unfold Param.mkPiecewise
  rw [List.head?_eq_getElem?, h0]
  simp only
  rw [show decide (u.1 = 0) = true by simpa using hu, (startsSorted_iff _).mpr h1]
  simp only [Outcome.require_true, Outcome.ok_bind]
  rw [wrapAll_ok l hs]
  rfl

end Rampack
