import Verif.Param.Lemmas
/-
C38, C39: piecewise and shifted parameters.
-/
namespace Rampack

open Rampack.Spec

/-- C38, values: a piecewise parameter has, at every cycle of the run, the value of the piece to which the cycle belongs, with
cycles counted from the start of this piece and the length of the piece as the length of the run. (The right hand side is an
outcome: if the piece itself is a piecewise parameter which does not accept the length of the piece, it is an exception.) -/
theorem C38_value {l : List (Nat × Param)} {q : Param} (hq : Param.mkPiecewise (l.map fun u => (u.1, some u.2)) = .ok q)
    (hs : ∀ u ∈ l, u.1 < 2 ^ 63) {cycle total : Nat} (hc : cycle ≤ total) (ht : total < 2 ^ 64) (hl : ∀ u ∈ l, u.1 ≤ total) :
    ∃ i u, IsPiece l cycle i ∧ l[i]? = some u ∧ q.value cycle total = u.2.value (cycle - u.1) (pieceEnd l i total - u.1) := by
  have hacc : ∃ u, l[0]? = some u ∧ u.1 = 0 := by
    unfold Param.mkPiecewise at hq
    cases l with
    | nil => cases hq
    | cons u l =>
      simp only [List.map_cons, List.head?_cons] at hq
      by_cases hu : u.1 = 0
      · exact ⟨u, rfl, hu⟩
      · rw [show decide (u.1 = 0) = false by simpa using hu] at hq; cases hq
  have hsort : ((l.map fun u => (u.1, some u.2)).map Prod.fst).Pairwise (· ≤ ·) := by
    by_contra hn
    unfold Param.mkPiecewise at hq
    obtain ⟨u, h0, hu⟩ := hacc
    rw [List.head?_eq_getElem?, List.getElem?_map, h0] at hq
    simp only [Option.map_some] at hq
    rw [show decide (u.1 = 0) = true by simpa using hu] at hq
    have : startsSorted (l.map fun u => (u.1, some u.2)) = false := by
      rw [← Bool.not_eq_true, startsSorted_iff]; exact hn
    rw [this] at hq
    cases hq
  obtain ⟨u, h0, hu⟩ := hacc
  rw [mkPiecewise_good hs ⟨⟨(u.1, some u.2), by rw [List.getElem?_map, h0]; rfl, hu⟩, hsort, fun v hv => (by
    obtain ⟨w, -, rfl⟩ := List.mem_map.mp hv
    rfl)⟩] at hq
  injection hq with hq
  subst hq
  rw [List.map_map] at hsort
  have hne : l ≠ [] := by rintro rfl; simp at h0
  have hh : ∀ v, l.head? = some v → v.1 ≤ cycle := by
    intro v hv
    rw [List.head?_eq_getElem?, h0] at hv
    injection hv with hv; subst hv; omega
  obtain ⟨i, v, h1, h2, h3⟩ := piecesValue_eq l hne hh hl hc (by unfold sizeMax; omega) hsort
  refine ⟨i, v, h1, h2, ?_⟩
  rw [Param.value, show decide (cycle ≤ total) = true by simpa using hc]
  have hlast : (l.map fun u => (u.1, u.2.wrapped u.1)).getLast? = some ((l.getLast hne).1, (l.getLast hne).2.wrapped (l.getLast hne).1) := by
    rw [List.getLast?_map, List.getLast?_eq_some_getLast hne]; rfl
  rw [Outcome.require_true, Outcome.ok_bind, hlast]
  simp only
  rw [show decide (total ≥ (l.getLast hne).1) = true by simpa using hl _ (List.getLast_mem hne)]
  exact h3

/-- C38, ill-formed lists: a list of pieces is accepted exactly if it makes sense; otherwise an exception is thrown. -/
theorem C38_rejects {l : List (Nat × Option Param)} (hs : ∀ u ∈ l, u.1 < 2 ^ 63) :
    (GoodPieces l → ∃ q, Param.mkPiecewise l = .ok q) ∧ (¬ GoodPieces l → ∃ m, Param.mkPiecewise l = .throw m) := by
  constructor
  · intro hg
    obtain ⟨l', rfl⟩ := exists_somes hg.2.2
    refine ⟨_, mkPiecewise_good (fun u hu => ?_) hg⟩
    exact hs (u.1, some u.2) (List.mem_map.mpr ⟨u, hu, rfl⟩)
  · intro hg
    unfold Param.mkPiecewise
    cases l with
    | nil => exact ⟨_, rfl⟩
    | cons u l =>
      simp only [List.head?_cons]
      by_cases hu : u.1 = 0
      · rw [show decide (u.1 = 0) = true by simpa using hu, Outcome.require_true, Outcome.ok_bind]
        by_cases hp : ((u :: l).map Prod.fst).Pairwise (· ≤ ·)
        · rw [(startsSorted_iff _).mpr hp, Outcome.require_true, Outcome.ok_bind]
          obtain ⟨m, hm⟩ := wrapAll_null (u :: l) hs fun hall => hg ⟨⟨u, rfl, hu⟩, hp, hall⟩
          exact ⟨m, by rw [hm]; rfl⟩
        · rw [show startsSorted (u :: l) = false by rw [← Bool.not_eq_true, startsSorted_iff]; exact hp]
          exact ⟨_, rfl⟩
      · rw [show decide (u.1 = 0) = false by simpa using hu]
        exact ⟨_, rfl⟩

/-- C38, wrong cycles: cycles after the end of the run and runs which end before the last piece starts are rejected. -/
theorem C38_range {l : List (Nat × Param)} {q : Param} (hq : Param.mkPiecewise (l.map fun u => (u.1, some u.2)) = .ok q) (hs : ∀ u ∈ l, u.1 < 2 ^ 63)
    {cycle total : Nat} (h : total < cycle ∨ ∃ u ∈ l, total < u.1) : ∃ m, q.value cycle total = .throw m := by
  have hg : GoodPieces (l.map fun u => (u.1, some u.2)) := by
    by_contra hn
    obtain ⟨m, hm⟩ := (C38_rejects (l := l.map fun u => (u.1, some u.2)) (by
      intro v hv
      obtain ⟨u, hu, rfl⟩ := List.mem_map.mp hv
      exact hs u hu)).2 hn
    rw [hm] at hq; cases hq
  rw [mkPiecewise_good hs hg] at hq
  injection hq with hq
  subst hq
  rw [Param.value]
  by_cases hct : cycle ≤ total
  · obtain ⟨u, hu, hut⟩ : ∃ u ∈ l, total < u.1 := by rcases h with h | h
                                                     · omega
                                                     · exact h
    have hne : l ≠ [] := by rintro rfl; simp at hu
    have hlast : (l.map fun u => (u.1, u.2.wrapped u.1)).getLast? = some ((l.getLast hne).1, (l.getLast hne).2.wrapped (l.getLast hne).1) := by
      rw [List.getLast?_map, List.getLast?_eq_some_getLast hne]; rfl
    rw [show decide (cycle ≤ total) = true by simpa using hct, Outcome.require_true, Outcome.ok_bind, hlast]
    simp only
    have hle : u.1 ≤ (l.getLast hne).1 := by
      have hp := hg.2.1
      rw [List.map_map] at hp
      obtain ⟨i, hi, e⟩ := List.getElem_of_mem hu
      rw [List.getLast_eq_getElem]
      rcases Nat.lt_or_ge i (l.length - 1) with h1 | h1
      · have := List.pairwise_iff_getElem.mp hp i (l.length - 1) (by simpa using hi) (by simp; omega) h1
        simp only [List.getElem_map, Function.comp] at this
        rw [e] at this; exact this
      · have : i = l.length - 1 := by omega
        subst this
        rw [e]
    rw [show decide (total ≥ (l.getLast hne).1) = false by simp; omega]
    exact ⟨_, rfl⟩
  · rw [show decide (cycle ≤ total) = false by simpa using hct]
    exact ⟨_, rfl⟩

/-- Beside the theorems on piecewise parameters: 10 cycles of a constant, then a linear one. -/
example : ∃ q, Param.mkPiecewise [(0, some (.const 5)), (10, some (.linear 2 1))] = .ok q ∧ q.value 9 100 = .ok 5 ∧ q.value 13 100 = .ok 7 ∧
    ∃ m, q.value 5 7 = .throw m := by
  have hs : ∀ u ∈ [(0, Param.const 5), (10, Param.linear 2 1)], u.1 < 2 ^ 63 := by simp
  obtain ⟨q, hq⟩ := (C38_rejects (l := [(0, some (.const 5)), (10, some (.linear 2 1))]) (by simp)).1 ⟨⟨_, rfl, rfl⟩, by simp, by simp⟩
  have hq' : Param.mkPiecewise ([(0, Param.const 5), (10, Param.linear 2 1)].map fun u => (u.1, some u.2)) = .ok q := hq
  refine ⟨q, hq, ?_, ?_, C38_range hq' hs (.inr ⟨(10, .linear 2 1), by simp, by norm_num⟩)⟩
  · obtain ⟨i, u, hi, hu, e⟩ := C38_value hq' hs (cycle := 9) (total := 100) (by norm_num) (by norm_num) (by simp)
    obtain ⟨v, hv, hv'⟩ := hi.1
    rw [hu] at hv
    injection hv with hv
    subst hv
    match i, hu with
    | 0, hu => simp at hu; subst hu; rw [e]; rfl
    | 1, hu => simp at hu; subst hu; simp at hv'
    | i + 2, hu => simp at hu
  · obtain ⟨i, u, hi, hu, e⟩ := C38_value hq' hs (cycle := 13) (total := 100) (by norm_num) (by norm_num) (by simp)
    match i, hu, hi with
    | 0, hu, hi => have := hi.2 1 (10, .linear 2 1) (by norm_num) rfl; simp at this
    | 1, hu, _ => simp at hu; subst hu; rw [e, Param.value]; norm_num
    | i + 2, hu, _ => simp at hu

/-- C39: a shifted parameter has, at every cycle, the value which the original parameter has `shift` cycles earlier (`shift` may
be negative); the length of the run saturates at the largest representable number. Where the shifted cycle or the shifted length
of the run would not be representable, an exception is thrown. -/
theorem C39_shifted {shift : Int} (h1 : -2 ^ 63 < shift) (h2 : shift < 2 ^ 63) (p : Param) {cycle total : Nat} (hc : cycle < 2 ^ 64) (ht : total < 2 ^ 64) :
    ∃ q, Param.mkShifted shift (some p) = .ok q ∧
      (0 ≤ (cycle : Int) - shift → (cycle : Int) - shift ≤ 2 ^ 64 - 1 → 0 ≤ (total : Int) - shift →
        q.value cycle total = p.value ((cycle : Int) - shift).toNat (min ((total : Int) - shift) (2 ^ 64 - 1)).toNat) ∧
      (((cycle : Int) - shift < 0 ∨ (total : Int) - shift < 0 ∨ (2 : Int) ^ 64 - 1 < (cycle : Int) - shift) → ∃ m, q.value cycle total = .throw m) := by
  unfold Param.mkShifted
  rw [if_neg (by omega)]
  simp only
  refine ⟨_, rfl, ?_, ?_⟩
  · intro a1 a2 a3
    split
    · next hs =>
      simp only [Param.value]
      rw [show decide (cycle ≥ shift.toNat) = true by simp; omega, show decide (total ≥ shift.toNat) = true by simp; omega]
      simp only [Outcome.require_true, Outcome.ok_bind]
      congr 1
      · omega
      · omega
    · next hs =>
      simp only [Param.value]
      rw [show decide (cycle ≤ sizeMax - (-shift).toNat) = true from decide_eq_true (by unfold sizeMax; omega)]
      simp only [Outcome.require_true, Outcome.ok_bind]
      congr 1
      · omega
      · unfold sizeMax; split <;> omega
  · intro a
    split
    · next hs =>
      simp only [Param.value]
      by_cases hcs : cycle ≥ shift.toNat
      · rw [show decide (cycle ≥ shift.toNat) = true by simpa using hcs, show decide (total ≥ shift.toNat) = false by simp; omega]
        exact ⟨_, rfl⟩
      · rw [show decide (cycle ≥ shift.toNat) = false by simpa using hcs]
        exact ⟨_, rfl⟩
    · next hs =>
      simp only [Param.value]
      rw [show decide (cycle ≤ sizeMax - (-shift).toNat) = false from decide_eq_false (by unfold sizeMax; omega)]
      exact ⟨_, rfl⟩

/-- Beside `C39_shifted`: shifts in both directions. -/
example : (∃ q, Param.mkShifted 100 (some (.linear 2 1)) = .ok q ∧ q.value 130 1000 = .ok 61) ∧
    (∃ q, Param.mkShifted (-7) (some (.linear 2 1)) = .ok q ∧ q.value 3 10 = .ok 21) := by
  constructor
  · obtain ⟨q, hq, hv, -⟩ := C39_shifted (shift := 100) (by norm_num) (by norm_num) (.linear 2 1) (cycle := 130) (total := 1000) (by norm_num) (by norm_num)
    refine ⟨q, hq, ?_⟩
    rw [hv (by norm_num) (by norm_num) (by norm_num), Param.value]
    norm_num [Int.toNat]
  · obtain ⟨q, hq, hv, -⟩ := C39_shifted (shift := -7) (by norm_num) (by norm_num) (.linear 2 1) (cycle := 3) (total := 10) (by norm_num) (by norm_num)
    refine ⟨q, hq, ?_⟩
    rw [hv (by norm_num) (by norm_num) (by norm_num), Param.value]
    norm_num [Int.toNat]

end Rampack
