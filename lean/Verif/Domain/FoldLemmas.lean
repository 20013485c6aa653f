import Verif.Domain.AxisLemmas
/-
Helper lemmas: the loop which prepares one axis.
-/
namespace Rampack.Domain

open Rampack.Packing (require_true'')

variable {o : ℝ} {d n : Nat} {w : ℝ}

/-- Bounds after `j` iterations. -/
noncomputable def partialBounds (o : ℝ) (d n : Nat) (w : ℝ) (j : Nat) : List Bounds :=
  (List.range d).map fun k =>
    ⟨if k < j then fit (realMiddle o d n k + w / 2) else 0,
     if (k + 1) % d < j then fit (realMiddle o d n ((k + 1) % d) - w / 2) else 0⟩

@[simp] theorem partialBounds_length (j : Nat) : (partialBounds o d n w j).length = d := by simp [partialBounds]

theorem prev_eq (hd : 2 ≤ d) {j k : Nat} (hj : j < d) (hk : k < d) : (j + d - 1) % d = k ↔ (k + 1) % d = j := by
  rcases Nat.eq_zero_or_pos j with rfl | h0
  · rw [Nat.mod_eq_of_lt (by omega : 0 + d - 1 < d)]
    constructor
    · intro h; have : k + 1 = d := by omega
      rw [this, Nat.mod_self]
    · intro h
      by_contra hne
      rw [Nat.mod_eq_of_lt (by omega)] at h
      omega
  · rw [show j + d - 1 = (j - 1) + d by omega, Nat.add_mod_right, Nat.mod_eq_of_lt (by omega : j - 1 < d)]
    constructor
    · intro h; rw [Nat.mod_eq_of_lt (by omega)]; omega
    · intro h
      by_cases hk1 : k + 1 < d
      · rw [Nat.mod_eq_of_lt hk1] at h; omega
      · have : k + 1 = d := by omega
        rw [this, Nat.mod_self] at h; omega

theorem partialBounds_get (j : Nat) {k : Nat} (hk : k < (partialBounds o d n w j).length) : (partialBounds o d n w j)[k] =
    ⟨if k < j then fit (realMiddle o d n k + w / 2) else 0,
     if (k + 1) % d < j then fit (realMiddle o d n ((k + 1) % d) - w / 2) else 0⟩ := by
  simp [partialBounds]

/-- The end of the last ghost layer after `j` iterations. -/
noncomputable def prevEnd (o : ℝ) (d n : Nat) (w : ℝ) : Nat → Option ℝ
  | 0 => none
  | j + 1 => some (realMiddle o d n j + w / 2)

theorem step_ok (h : AxisOk o d n w) {j : Nat} (hj : j < d) :
    boundsStep o d n w (partialBounds o d n w j, prevEnd o d n w j) j = .ok (partialBounds o d n w (j + 1), prevEnd o d n w (j + 1)) := by
  have hd := h.two
  have hafter : afterPrevious (realMiddle o d n j - w / 2) (prevEnd o d n w j) = true := by
    cases j with
    | zero => rfl
    | succ i =>
      simp only [prevEnd, afterPrevious, decide_eq_true_eq, gt_iff_lt]
      have := h.mid_step i
      rw [h.mid_nat (by omega), show ((i : ℤ) + 1) = ((i + 1 : ℕ) : ℤ) by push_cast; rfl, h.mid_nat hj] at this
      linarith
  have hp : (j + d - 1) % d < d := Nat.mod_lt _ (by omega)
  unfold boundsStep
  simp only [hafter, Outcome.require_true, Outcome.ok_bind]
  rw [vget_ok (by simpa using hp), Outcome.ok_bind, vset_ok (by simpa using hp), Outcome.ok_bind,
    vget_ok (by simpa using hj), Outcome.ok_bind, vset_ok (by simpa using hj), Outcome.ok_bind, Outcome.pure_eq]
  congr 2
  refine List.ext_getElem (by simp) fun k hk1 hk2 => ?_
  have hkd : k < d := by simpa using hk2
  rw [partialBounds_get (j + 1) hk2]
  have hpe := prev_eq hd hj hkd
  simp only [List.getElem_set, partialBounds_get]
  by_cases hkj : j = k
  · subst hkj
    rw [if_pos rfl, if_pos (show j < j + 1 by omega)]
    by_cases hq : (j + d - 1) % d = j
    · simp only [if_pos hq]
      have := hpe.mp hq
      rw [this, if_pos (by omega)]
    · simp only [if_neg hq]
      have hne : (j + 1) % d ≠ j := fun e => hq (hpe.mpr e)
      congr 1
      by_cases hlt : (j + 1) % d < j
      · rw [if_pos hlt, if_pos (by omega)]
      · rw [if_neg hlt, if_neg (by omega)]
  · rw [if_neg hkj]
    have e1 : (if k < j + 1 then fit (realMiddle o d n k + w / 2) else 0) = if k < j then fit (realMiddle o d n k + w / 2) else 0 := by
      by_cases hlt : k < j
      · rw [if_pos hlt, if_pos (by omega)]
      · rw [if_neg hlt, if_neg (by omega)]
    rw [e1]
    by_cases hq : (j + d - 1) % d = k
    · rw [if_pos hq]
      have e2 := hpe.mp hq
      rw [e2, if_pos (show j < j + 1 by omega)]
      subst hq
      rfl
    · rw [if_neg hq]
      have hne : (k + 1) % d ≠ j := fun e => hq (hpe.mpr e)
      congr 1
      by_cases hlt : (k + 1) % d < j
      · rw [if_pos hlt, if_pos (by omega)]
      · rw [if_neg hlt, if_neg (by omega)]

theorem fold_ok (h : AxisOk o d n w) : ∀ j ≤ d,
    (List.range j).foldlM (boundsStep o d n w) (List.replicate d ⟨0, 0⟩, none) = .ok (partialBounds o d n w j, prevEnd o d n w j) := by
  intro j
  induction j with
  | zero =>
    intro _
    show Outcome.ok _ = _
    congr 2
    refine List.ext_getElem (by simp) fun k hk1 hk2 => ?_
    rw [partialBounds_get]
    simp
  | succ j ih =>
    intro hj
    rw [List.range_succ, List.foldlM_append, ih (by omega), Outcome.ok_bind, List.foldlM_cons, step_ok h (by omega)]
    rfl

/-- The bounds of the domain `k`. -/
noncomputable def finalBounds (o : ℝ) (d n : Nat) (w : ℝ) (k : Nat) : Bounds :=
  ⟨Int.fract (mid o d n k + w / 2), Int.fract (mid o d n (k + 1) - w / 2)⟩

theorem final_get (h : AxisOk o d n w) {k : Nat} (hk : k < d) : (partialBounds o d n w d)[k]? = some (finalBounds o d n w k) := by
  have hd := h.two
  have hc := h.cpos
  have hw := h.wide
  have hh := h.half
  have ho := h.o0
  have ho1 := h.o1
  have hwp := h.wpos
  have near : ∀ i : Nat, i < d → -1 ≤ realMiddle o d n i - w / 2 ∧ realMiddle o d n i + w / 2 < 2 := by
    intro i hi
    have h1 := abs_le.mp (realMiddle_near h.cells o d i)
    have hpos : 0 ≤ (i : ℝ) * (1 / d) := by have := h.dpos; positivity
    have hlt : (i : ℝ) * (1 / d) ≤ 1 - 1 / d := by
      have e : (i : ℝ) + 1 ≤ d := by exact_mod_cast hi
      have hd' := h.dpos
      have := mul_le_mul_of_nonneg_right e (by positivity : 0 ≤ 1 / (d : ℝ))
      rw [add_mul, h.dinv] at this
      linarith
    constructor <;> linarith [h1.1, h1.2]
  rw [List.getElem?_eq_getElem (by simpa using hk), partialBounds_get, if_pos hk, if_pos (Nat.mod_lt _ (by omega))]
  unfold finalBounds
  have a := near k hk
  have b := near ((k + 1) % d) (Nat.mod_lt _ (by omega))
  rw [fit_fract (by linarith [a.1]) a.2, fit_fract b.1 (by linarith [b.2]), h.mid_nat hk]
  congr 2
  by_cases hk1 : k + 1 < d
  · rw [Nat.mod_eq_of_lt hk1, show ((k : ℤ) + 1) = ((k + 1 : ℕ) : ℤ) by push_cast; rfl, h.mid_nat hk1]
  · have e : k + 1 = d := by omega
    rw [e, Nat.mod_self, show ((k : ℤ) + 1) = (0 : ℕ) + (d : ℤ) * 1 by push_cast; omega, h.mid_add, h.mid_nat (by omega)]
    rw [show realMiddle o d n 0 + ((1 : ℤ) : ℝ) - w / 2 = (realMiddle o d n 0 - w / 2) + 1 by push_cast; ring, Int.fract_add_one]

/-- Being within the bounds of a domain. -/
theorem within_final (h : AxisOk o d n w) (k : Nat) {r : ℝ} (h0 : 0 ≤ r) (h1 : r < 1) :
    within (finalBounds o d n w k) r = true ↔ ∃ t : ℤ, InGap o d n w k (r + t) := by
  have hc := h.cpos
  have a := h.mid_step k
  have hw := h.wide
  have hh := h.half
  have n1 := abs_le.mp (h.mid_near k)
  have n2 := abs_le.mp (h.mid_near (k + 1))
  push_cast at n1 n2
  rw [show ((k : ℝ) + 1) * (1 / d) = k * (1 / d) + 1 / d by ring] at n2
  have hwp := h.wpos
  exact within_iff (by linarith) (by linarith [n1.1, n2.2]) h0 h1

/-- What preparing an axis gives. -/
theorem prepareAxis_ok {h o : ℝ} {d n : Nat} {range totalRange : ℝ} (hh : 0 < h) (ho0 : 0 ≤ o) (ho1 : o < 1) (hd : 0 < d) (hn : 0 < n)
    (hr : range ≤ h / n) (hT : range ≤ totalRange) :
    prepareAxis h o d n range totalRange =
      .ok (if d < 2 then some [] else if 1 / (d : ℝ) - (totalRange - range + h / n) / h ≤ 1 / n then none
        else some (partialBounds o d n ((totalRange - range + h / n) / h) d)) := by
  unfold prepareAxis
  have e1 : (decide (o ≥ 0) && decide (o < 1)) = true := by simp [ho0, ho1]
  rw [e1, Outcome.require_true, Outcome.ok_bind, require_true'' hd, Outcome.ok_bind, require_true'' hn, Outcome.ok_bind]
  by_cases h2 : d < 2
  · rw [if_pos h2, if_pos h2]; rfl
  · rw [if_neg h2, if_neg h2]
    simp only []
    rw [require_true'' (show h / n ≥ range from hr), Outcome.ok_bind]
    by_cases hw : 1 / (d : ℝ) - (totalRange - range + h / n) / h ≤ 1 / n
    · rw [if_pos hw, if_pos hw]; rfl
    · rw [if_neg hw, if_neg hw]
      have hA : AxisOk o d n ((totalRange - range + h / n) / h) := by
        refine ⟨by omega, hn, ho0, ho1, ?_, not_le.mp hw⟩
        rw [le_div_iff₀ hh]
        have : 1 / (n : ℝ) * h = h / n := by ring
        rw [this]; linarith
      rw [fold_ok hA d le_rfl]
      rfl

theorem axisOk_of {h o : ℝ} {d n : Nat} {range totalRange : ℝ} (hh : 0 < h) (hT : range ≤ totalRange) {l : List Bounds}
    (hp : prepareAxis h o d n range totalRange = .ok (some l)) :
    (0 ≤ o ∧ o < 1) ∧ 0 < d ∧ 0 < n ∧ (2 ≤ d → range ≤ h / n ∧ AxisOk o d n ((totalRange - range + h / n) / h) ∧
      l = partialBounds o d n ((totalRange - range + h / n) / h) d) := by
  by_cases ho : 0 ≤ o ∧ o < 1
  · by_cases hd : 0 < d
    · by_cases hn : 0 < n
      · by_cases h2 : d < 2
        · exact ⟨ho, hd, hn, fun h => by omega⟩
        · by_cases hr : range ≤ h / n
          · rw [prepareAxis_ok hh ho.1 ho.2 hd hn hr hT, if_neg h2] at hp
            by_cases hw : 1 / (d : ℝ) - (totalRange - range + h / n) / h ≤ 1 / n
            · rw [if_pos hw] at hp; cases hp
            · rw [if_neg hw] at hp
              refine ⟨ho, hd, hn, fun _ => ⟨hr, ?_, ?_⟩⟩
              · refine ⟨by omega, hn, ho.1, ho.2, ?_, not_le.mp hw⟩
                rw [le_div_iff₀ hh]
                have : 1 / (n : ℝ) * h = h / n := by ring
                rw [this]; linarith
              · injection hp with hp; injection hp with hp; exact hp.symm
          · exfalso
            unfold prepareAxis at hp
            rw [show (decide (o ≥ 0) && decide (o < 1)) = true by simp [ho.1, ho.2], Outcome.require_true, Outcome.ok_bind,
              require_true'' hd, Outcome.ok_bind, require_true'' hn, Outcome.ok_bind, if_neg h2] at hp
            simp only [] at hp
            rw [show decide (h / (n : ℝ) ≥ range) = false by simpa using hr] at hp
            cases hp
      · exfalso
        unfold prepareAxis at hp
        rw [show (decide (o ≥ 0) && decide (o < 1)) = true by simp [ho.1, ho.2], Outcome.require_true, Outcome.ok_bind,
          require_true'' hd, Outcome.ok_bind, show decide (n > 0) = false by simpa using hn] at hp
        cases hp
    · exfalso
      unfold prepareAxis at hp
      rw [show (decide (o ≥ 0) && decide (o < 1)) = true by simp [ho.1, ho.2], Outcome.require_true, Outcome.ok_bind,
        show decide (d > 0) = false by simpa using hd] at hp
      cases hp
  · exfalso
    unfold prepareAxis at hp
    have : (decide (o ≥ 0) && decide (o < 1)) = false := by
      by_contra hne
      rw [Bool.not_eq_false] at hne
      simp at hne
      exact ho hne
    rw [this] at hp
    cases hp

end Rampack.Domain
