import Verif.Shapes.BananaLemmas
/-
The volume of equal balls in equal distances on an arc.
-/
namespace Rampack.Banana

open Rampack Spec Shapes Composite Volume MeasureTheory

/-- The angle of the ball `k` of `N + 1`. -/
noncomputable def ang (A : ℝ) (N k : ℕ) : ℝ := -A / 2 + k * (A / N)

/-- Balls on the arc. -/
noncomputable def arcBalls (x0 R A r : ℝ) (N : ℕ) : List SphereData := (List.range (N + 1)).map fun k : ℕ => ⟨arcPoint x0 R (ang A N k), r⟩

theorem ang_lt {A : ℝ} (hA : 0 < A) {N j k : ℕ} (hN : 1 ≤ N) (h : j < k) : ang A N j < ang A N k := by
  unfold ang
  have h1 : (0 : ℝ) < N := by exact_mod_cast hN
  have h2 : (j : ℝ) < k := by exact_mod_cast h
  have := mul_lt_mul_of_pos_right h2 (div_pos hA h1)
  linarith

theorem ang_le {A : ℝ} (hA : 0 < A) {N j k : ℕ} (hN : 1 ≤ N) (h : j ≤ k) : ang A N j ≤ ang A N k := by
  rcases Nat.eq_or_lt_of_le h with rfl | h
  · exact le_refl _
  · exact (ang_lt hA hN h).le

theorem ang_zero (A : ℝ) (N : ℕ) : ang A N 0 = -A / 2 := by simp [ang]

theorem ang_last (A : ℝ) {N : ℕ} (hN : 1 ≤ N) : ang A N N = A / 2 := by
  have h1 : (N : ℝ) ≠ 0 := by exact_mod_cast (by omega : N ≠ 0)
  unfold ang; field_simp; ring

theorem ang_step (A : ℝ) (N k : ℕ) : ang A N (k + 1) - ang A N k = A / N := by
  unfold ang; push_cast; ring

/-- The number subtracted for the ends. -/
noncomputable def endsCommon (R A r : ℝ) (N : ℕ) : ℝ := if A > Real.pi ∧ N + 1 > 2 then common r r (2 * R * Real.sin (A / 2)) else 0

noncomputable def arcVolume (R A r : ℝ) (N : ℕ) : ℝ :=
  ((N + 1 : ℕ) : ℝ) * 4 / 3 * Real.pi * r ^ 3 - (N : ℝ) * common r r (2 * R * Real.sin (A / N / 2)) - endsCommon R A r N

/-- No point is in all balls of a long arc. -/
theorem not_all {x0 R A r : ℝ} {N : ℕ} (hA2 : A < 2 * Real.pi) (hN : 2 ≤ N) (hr : 0 < r) (hR : r ≤ R) (hl : Real.pi < A) {p : Vec3 ℝ}
    (h : ∀ k < N + 1, Ball (arcPoint x0 R (ang A N k)) r p) : False := by
  have hN0 : (2 : ℝ) ≤ N := by exact_mod_cast hN
  have hpi := Real.pi_pos
  have hstep : A / N < Real.pi := by
    rw [div_lt_iff₀ (by linarith)]; nlinarith
  -- the point opposite to the middle of the arc
  have h1 : Ball (arcPoint x0 R Real.pi) r p := by
    refine ball_between (a := A / 2) (d := -A / 2 + 2 * Real.pi) hr hR (by linarith) (by linarith) (by linarith) ?_ ?_
    · have := h N (by omega); rwa [ang_last A (by omega)] at this
    · have := h 0 (by omega); rw [ang_zero] at this; rwa [arc_around]
  -- the middle of the arc
  have h0 : Ball (arcPoint x0 R 0) r p := by
    refine ball_between (a := ang A N (N / 2)) (d := ang A N (N / 2 + 1)) hr hR ?_ ?_ ?_ (h _ (by omega)) (h _ (by omega))
    · unfold ang
      have : ((N / 2 : ℕ) : ℝ) * 2 ≤ N := by exact_mod_cast Nat.div_mul_le_self N 2
      have e : ((N / 2 : ℕ) : ℝ) * (A / N) ≤ N / 2 * (A / N) := mul_le_mul_of_nonneg_right (by linarith) (div_nonneg (by linarith) (by linarith))
      have e2 : (N : ℝ) / 2 * (A / N) = A / 2 := by field_simp
      linarith
    · unfold ang
      have : (N : ℝ) ≤ ((N / 2 + 1 : ℕ) : ℝ) * 2 := by exact_mod_cast (by omega : N ≤ (N / 2 + 1) * 2)
      have e : (N : ℝ) / 2 * (A / N) ≤ ((N / 2 + 1 : ℕ) : ℝ) * (A / N) := mul_le_mul_of_nonneg_right (by linarith) (div_nonneg (by linarith) (by linarith))
      have e2 : (N : ℝ) / 2 * (A / N) = A / 2 := by field_simp
      linarith
    · rw [ang_step]; exact hstep.le
  have := opposite (x0 := x0) (θ := 0) hr hR h0
  rw [zero_add] at this
  exact this h1

/-- The volume of equal balls in equal distances on an arc. -/
theorem arc_volume {x0 R A r : ℝ} {N : ℕ} (hA : 0 < A) (hA2 : A < 2 * Real.pi) (hN : 1 ≤ N) (hr : 0 < r) (hR : r ≤ R) : HasVolume (Balls3 (arcBalls x0 R A r N)) (arcVolume R A r N) := by
  have hR0 : 0 < R := by linarith
  have hpi := Real.pi_pos
  have hN0 : (1 : ℝ) ≤ N := by exact_mod_cast hN
  have hstep0 : 0 < A / N := by positivity
  have hstepA : A / N ≤ A := div_le_self hA.le hN0
  let S : ℕ → Set ((ℝ × ℝ) × ℝ) := fun k => points (Ball (arcPoint x0 R (ang A N k)) r)
  let T : ℕ → Set ((ℝ × ℝ) × ℝ) := fun k => if k < N then S (k + 1) else if A > Real.pi ∧ N + 1 > 2 then S 0 else ∅
  have hS : ∀ k, MeasurableSet (S k) := fun k => any_ball_measurable _ _
  have hT : ∀ k, MeasurableSet (T k) := by
    intro k
    show MeasurableSet (if k < N then S (k + 1) else if A > Real.pi ∧ N + 1 > 2 then S 0 else ∅)
    split
    · exact hS _
    · split
      · exact hS _
      · exact MeasurableSet.empty
  have T1 : ∀ {k}, k < N → T k = S (k + 1) := fun hk => if_pos hk
  have T2 : A > Real.pi ∧ N + 1 > 2 → T N = S 0 := by
    intro h
    show (if N < N then S (N + 1) else if A > Real.pi ∧ N + 1 > 2 then S 0 else ∅) = _
    rw [if_neg (lt_irrefl _), if_pos h]
  have T3 : ¬ (A > Real.pi ∧ N + 1 > 2) → T N = ∅ := by
    intro h
    show (if N < N then S (N + 1) else if A > Real.pi ∧ N + 1 > 2 then S 0 else ∅) = _
    rw [if_neg (lt_irrefl _), if_neg h]
  have span : ∀ {j k}, j < k → k < N + 1 → ang A N k - ang A N j ≤ A := by
    intro j k hjk hk
    have h1 := ang_le hA hN (Nat.zero_le j)
    have h2 := ang_le hA hN (show k ≤ N by omega)
    rw [ang_zero] at h1
    rw [ang_last A hN] at h2
    linarith
  let i : ℕ → ℝ := fun k => if k < N then common r r (2 * R * Real.sin (A / N / 2)) else endsCommon R A r N
  have hc0 : ∀ {t : ℝ}, 0 < t → t < 2 * Real.pi → 0 ≤ common r r (2 * R * Real.sin (t / 2)) := by
    intro t h1 h2
    have hs : 0 < Real.sin (t / 2) := Real.sin_pos_of_pos_of_lt_pi (by linarith) (by linarith)
    have hd : 0 < 2 * R * Real.sin (t / 2) := by positivity
    exact common_nonneg hr hr hd (by linarith) (by linarith)
  have key := pieces_volume (n := N + 1) (A := S) (N := T) (fun k _ => hS k) (fun k _ => hT k) (a := fun _ => 4 / 3 * Real.pi * r ^ 3) (i := i) (fun k _ => by positivity) ?_ (fun k _ => any_ball_volume _ hr) ?_ ?_ ?_
  · have e1 : ∑ k ∈ Finset.range (N + 1), (4 / 3 * Real.pi * r ^ 3 - i k) = arcVolume R A r N := by
      rw [Finset.sum_sub_distrib, Finset.sum_const, Finset.card_range, nsmul_eq_mul, Finset.sum_range_succ]
      have e2 : ∑ k ∈ Finset.range N, i k = N * common r r (2 * R * Real.sin (A / N / 2)) := by
        rw [Finset.sum_congr rfl (g := fun _ => common r r (2 * R * Real.sin (A / N / 2))) fun k hk => if_pos (Finset.mem_range.mp hk), Finset.sum_const, Finset.card_range, nsmul_eq_mul]
      have e3 : i N = endsCommon R A r N := if_neg (lt_irrefl _)
      rw [e2, e3]
      unfold arcVolume
      ring
    rw [e1] at key
    refine ⟨key.1, ?_⟩
    rw [← key.2]
    congr 1
    ext p
    constructor
    · rintro ⟨d, hd, hp⟩
      obtain ⟨k, hk, rfl⟩ := List.mem_map.mp hd
      exact ⟨k, List.mem_range.mp hk, hp⟩
    · rintro ⟨k, hk, hp⟩
      exact ⟨_, List.mem_map.mpr ⟨k, List.mem_range.mpr hk, rfl⟩, hp⟩
  · intro k _
    show 0 ≤ if k < N then common r r (2 * R * Real.sin (A / N / 2)) else endsCommon R A r N
    split
    · exact hc0 hstep0 (by linarith)
    · unfold endsCommon
      split
      · exact hc0 hA hA2
      · exact le_refl _
  · intro k hk
    show volume (S k ∩ T k) = ENNReal.ofReal (if k < N then common r r (2 * R * Real.sin (A / N / 2)) else endsCommon R A r N)
    split
    next h =>
      rw [T1 h, show common r r (2 * R * Real.sin (A / N / 2)) = common r r (2 * R * Real.sin ((ang A N (k + 1) - ang A N k) / 2)) by rw [ang_step]]
      have := ang_step A N k
      exact arc_common x0 hR0 hr (by linarith) (by linarith)
    next h =>
      obtain rfl : k = N := by omega
      unfold endsCommon
      split
      next hl =>
        rw [T2 hl, Set.inter_comm]
        have e0 := ang_zero A k
        have e1 := ang_last A hN
        rw [show A / 2 = (ang A k k - ang A k 0) / 2 by rw [e0, e1]; ring]
        exact arc_common x0 hR0 hr (by linarith) (by linarith)
      next hl => rw [T3 hl, Set.inter_empty]; simp
  · intro j k hjk hk
    rw [Set.disjoint_left]
    rintro p ⟨hj1, hj2⟩ ⟨hk1, hk2⟩
    rw [T1 (by omega)] at hj2
    have h1 := ang_le hA hN (show j ≤ j + 1 by omega)
    have h2 := ang_le hA hN (show j + 1 ≤ k by omega)
    rcases le_or_gt (ang A N k - ang A N j) Real.pi with hle | hgt
    · exact hj2 (ball_between hr hR h1 h2 hle hj1 hk1)
    · have hlong : A > Real.pi := by linarith [span hjk hk]
      rcases Nat.lt_or_ge k N with hkN | hkN
      · rw [T1 hkN] at hk2
        have h3 := ang_le hA hN (show k ≤ k + 1 by omega)
        have h4 := ang_le hA hN (show k + 1 ≤ N by omega)
        have h5 := ang_le hA hN (Nat.zero_le j)
        rw [ang_last A hN] at h4
        rw [ang_zero] at h5
        refine hk2 (ball_between (a := ang A N k) (d := ang A N j + 2 * Real.pi) hr hR h3 (by linarith) (by linarith) hk1 ?_)
        rw [arc_around]; exact hj1
      · obtain rfl : k = N := by omega
        by_cases hj0 : j = 0
        · subst hj0
          by_cases hk3 : k + 1 > 2
          · rw [T2 ⟨hlong, hk3⟩] at hk2
            exact hk2 hj1
          · obtain rfl : k = 1 := by omega
            exact hj2 hk1
        · rw [T2 ⟨hlong, by omega⟩] at hk2
          have h3 := ang_le hA hN (show 0 ≤ j by omega)
          have e0 := ang_zero A k
          have e1 := ang_last A hN
          refine hk2 ?_
          show Ball (arcPoint x0 R (ang A k 0)) r _
          rw [← arc_around]
          refine ball_between (a := ang A k k) (d := ang A k j + 2 * Real.pi) hr hR (by linarith) (by linarith) (by linarith) hk1 ?_
          rw [arc_around]; exact hj1
  · intro k hk p hp
    by_contra hno
    push Not at hno
    have hup : ∀ m, k + m < N + 1 → p ∈ S (k + m) := by
      intro m
      induction m with
      | zero => intro _; exact hp
      | succ m ih =>
        intro hm
        by_contra hn
        refine hno (k + m) (by omega) ⟨ih (by omega), ?_⟩
        rw [T1 (by omega)]; exact hn
    have hlast := hup (N - k) (by omega)
    rw [show k + (N - k) = N by omega] at hlast
    by_cases hl : A > Real.pi ∧ N + 1 > 2
    · have h0 : p ∈ S 0 := by
        by_contra hn
        refine hno N (by omega) ⟨hlast, ?_⟩
        rw [T2 hl]; exact hn
      have hall : ∀ m, m < N + 1 → p ∈ S m := by
        intro m
        induction m with
        | zero => intro _; exact h0
        | succ m ih =>
          intro hm
          by_contra hn
          refine hno m (by omega) ⟨ih (by omega), ?_⟩
          rw [T1 (by omega)]; exact hn
      exact not_all hA2 (by omega) hr hR hl.1 hall
    · refine hno N (by omega) ⟨hlast, ?_⟩
      rw [T3 hl]; exact Set.notMem_empty p

end Rampack.Banana
