import Verif.Observables.FourierSpec
import Verif.OutcomeLemmas
import Verif.Box.Lemmas
import Verif.Box.Props
import Mathlib.Analysis.SpecialFunctions.Trigonometric.Basic
import Mathlib.Tactic.Linarith
import Mathlib.Tactic.LinearCombination
/-
Lemmas for C99.
-/
namespace Rampack.Fourier

open Spec Box PBC

noncomputable section

def tr (i : Fin 2) (x : ℝ) : ℝ := if i = 0 then Real.cos x else Real.sin x

@[simp] theorem tr_zero (x : ℝ) : tr 0 x = Real.cos x := rfl
@[simp] theorem tr_one (x : ℝ) : tr 1 x = Real.sin x := rfl

/-- Coefficients, with all eight of them. -/
def cf (n : Vec3 Nat) (l : List (Vec3 ℝ × ℝ)) : Coefs := fun i j k =>
  (l.map fun q => q.2 * (tr i (2 * Real.pi * n.x * q.1.x) * tr j (2 * Real.pi * n.y * q.1.y) * tr k (2 * Real.pi * n.z * q.1.z))).sum

theorem function_tr {n : Nat} {i : Fin 2} (h : i.val < numFunctions n) (x : ℝ) : function n i x = tr i (2 * Real.pi * n * x) := by
  unfold function tr
  by_cases hn : n = 0
  · have hi : i = 0 := by
      unfold numFunctions at h
      rw [if_pos hn] at h
      exact Fin.ext (by simpa using h)
    subst hn
    subst hi
    simp
  · rw [if_neg hn]

theorem tr_unused {n : Nat} {i : Fin 2} (h : ¬ i.val < numFunctions n) (x : ℝ) : tr i (2 * Real.pi * n * x) = 0 := by
  unfold numFunctions at h
  by_cases hn : n = 0
  · rw [if_pos hn] at h
    have hi : i = 1 := Fin.ext (by have := i.isLt; simp; omega)
    subst hn
    subst hi
    simp
  · rw [if_neg hn] at h
    exact absurd i.isLt h

theorem mapM_sampled {f : Shape → Outcome ℝ} {b : Box} : ∀ {S : List Shape} {l : List (Vec3 ℝ × ℝ)},
    List.Forall₂ (fun (s : Shape) (q : Vec3 ℝ × ℝ) => s.pos = combo b q.1 ∧ f s = .ok q.2) S l → S.mapM f = .ok (l.map Prod.snd) := by
  intro S l h
  induction h with
  | nil => rfl
  | @cons s q S l hs _ ih => rw [List.mapM_cons, hs.2, Outcome.ok_bind, ih, Outcome.ok_bind]; rfl

theorem zip_sampled {f : Shape → Outcome ℝ} {b : Box} (hb : b.WF) (g : Vec3 ℝ → ℝ → ℝ) {S : List Shape} {l : List (Vec3 ℝ × ℝ)}
    (h : List.Forall₂ (fun (s : Shape) (q : Vec3 ℝ × ℝ) => s.pos = combo b q.1 ∧ f s = .ok q.2) S l) :
    ((S.zip (l.map Prod.snd)).map fun q => g (b.absToRel q.1.pos) q.2).sum = (l.map fun q => g q.1 q.2).sum := by
  induction h with
  | nil => rfl
  | @cons s q S l hs _ ih =>
    simp only [List.map_cons, List.zip_cons_cons, List.sum_cons, ih]
    rw [hs.1, ← relToAbs_eq_combo, absToRel_relToAbs hb]

theorem coefficients_ok {n : Vec3 Nat} {f : Shape → Outcome ℝ} {V : View} {l : List (Vec3 ℝ × ℝ)} (hb : V.box.WF) (h : Sampled f V l) :
    coefficients n f V = .ok (cf n l) := by
  unfold coefficients
  rw [mapM_sampled h, Outcome.ok_bind]
  show Outcome.ok _ = _
  congr 1
  funext i j k
  have hz := zip_sampled hb (fun p v => function n.x i p.x * function n.y j p.y * function n.z k p.z * v) h
  by_cases hc : i.val < numFunctions n.x ∧ j.val < numFunctions n.y ∧ k.val < numFunctions n.z
  · rw [if_pos hc]
    refine hz.trans ?_
    unfold cf
    congr 1
    refine List.map_congr_left fun q _ => ?_
    rw [function_tr hc.1, function_tr hc.2.1, function_tr hc.2.2]
    ring
  · rw [if_neg hc]
    unfold cf
    symm
    refine List.sum_eq_zero fun x hx => ?_
    obtain ⟨q, -, rfl⟩ := List.mem_map.mp hx
    by_cases h1 : i.val < numFunctions n.x
    · by_cases h2 : j.val < numFunctions n.y
      · have h3 : ¬ k.val < numFunctions n.z := fun h3 => hc ⟨h1, h2, h3⟩
        rw [tr_unused h3]; ring
      · rw [tr_unused h2]; ring
    · rw [tr_unused h1]; ring

/-- The waves as an expansion. -/
theorem waves_cf (n : Vec3 Nat) (l : List (Vec3 ℝ × ℝ)) (s : Vec3 ℝ) :
    waves n l s = cf n l 0 0 0 * (Real.cos (2 * Real.pi * n.x * s.x) * Real.cos (2 * Real.pi * n.y * s.y) * Real.cos (2 * Real.pi * n.z * s.z)) +
      cf n l 0 0 1 * (Real.cos (2 * Real.pi * n.x * s.x) * Real.cos (2 * Real.pi * n.y * s.y) * Real.sin (2 * Real.pi * n.z * s.z)) +
      cf n l 0 1 0 * (Real.cos (2 * Real.pi * n.x * s.x) * Real.sin (2 * Real.pi * n.y * s.y) * Real.cos (2 * Real.pi * n.z * s.z)) +
      cf n l 0 1 1 * (Real.cos (2 * Real.pi * n.x * s.x) * Real.sin (2 * Real.pi * n.y * s.y) * Real.sin (2 * Real.pi * n.z * s.z)) +
      cf n l 1 0 0 * (Real.sin (2 * Real.pi * n.x * s.x) * Real.cos (2 * Real.pi * n.y * s.y) * Real.cos (2 * Real.pi * n.z * s.z)) +
      cf n l 1 0 1 * (Real.sin (2 * Real.pi * n.x * s.x) * Real.cos (2 * Real.pi * n.y * s.y) * Real.sin (2 * Real.pi * n.z * s.z)) +
      cf n l 1 1 0 * (Real.sin (2 * Real.pi * n.x * s.x) * Real.sin (2 * Real.pi * n.y * s.y) * Real.cos (2 * Real.pi * n.z * s.z)) +
      cf n l 1 1 1 * (Real.sin (2 * Real.pi * n.x * s.x) * Real.sin (2 * Real.pi * n.y * s.y) * Real.sin (2 * Real.pi * n.z * s.z)) := by
  unfold waves cf
  induction l with
  | nil => simp
  | cons q l ih =>
    simp only [List.map_cons, List.sum_cons, tr_zero, tr_one] at ih ⊢
    rw [ih, mul_sub, mul_sub, mul_sub, Real.cos_sub, Real.cos_sub, Real.cos_sub]
    ring

theorem cf_x {n : Vec3 Nat} (hn : n.x = 0) (l : List (Vec3 ℝ × ℝ)) (j k : Fin 2) : cf n l 1 j k = 0 := by
  unfold cf
  refine List.sum_eq_zero fun x hx => ?_
  obtain ⟨q, -, rfl⟩ := List.mem_map.mp hx
  simp [hn]

theorem cf_y {n : Vec3 Nat} (hn : n.y = 0) (l : List (Vec3 ℝ × ℝ)) (i k : Fin 2) : cf n l i 1 k = 0 := by
  unfold cf
  refine List.sum_eq_zero fun x hx => ?_
  obtain ⟨q, -, rfl⟩ := List.mem_map.mp hx
  simp [hn]

theorem cf_z {n : Vec3 Nat} (hn : n.z = 0) (l : List (Vec3 ℝ × ℝ)) (i j : Fin 2) : cf n l i j 1 = 0 := by
  unfold cf
  refine List.sum_eq_zero fun x hx => ?_
  obtain ⟨q, -, rfl⟩ := List.mem_map.mp hx
  simp [hn]

/-! ### Phases -/

theorem atan2_polar (c d : ℝ) : ∃ r : ℝ, 0 ≤ r ∧ r * r = c * c + d * d ∧ c = r * Real.cos (atan2 d c) ∧ d = r * Real.sin (atan2 d c) := by
  refine ⟨‖(⟨c, d⟩ : ℂ)‖, norm_nonneg _, ?_, ?_, ?_⟩
  · have := Complex.sq_norm (⟨c, d⟩ : ℂ)
    rw [Complex.normSq_mk] at this
    nlinarith
  · exact (Complex.norm_mul_cos_arg ⟨c, d⟩).symm
  · exact (Complex.norm_mul_sin_arg ⟨c, d⟩).symm

theorem atan2_mem (d c : ℝ) : -Real.pi < atan2 d c ∧ atan2 d c ≤ Real.pi := ⟨Complex.neg_pi_lt_arg _, Complex.arg_le_pi _⟩

theorem guarded_mem (d c : ℝ) : -Real.pi < guardedAtan2 d c ∧ guardedAtan2 d c ≤ Real.pi := by
  unfold guardedAtan2
  split
  · exact ⟨by linarith [Real.pi_pos], Real.pi_pos.le⟩
  · exact atan2_mem d c

/-- The coordinate has the given phase, up to a full turn. -/
theorem phasePos_spec {phase : ℝ} {n : Nat} (hn : 0 < n) (h : -Real.pi < phase ∧ phase ≤ Real.pi) :
    ∃ k : ℤ, 2 * Real.pi * n * phasePos phase n = phase + k * (2 * Real.pi) := by
  have hp := Real.pi_pos
  have h1 : (1 : ℝ) ≤ n := by exact_mod_cast hn
  have h0 : 0 ≤ phase / n / 2 / Real.pi + 1 := by
    have : -1 ≤ phase / n / 2 / Real.pi := by
      rw [div_div, div_div, le_div_iff₀ (by positivity)]
      nlinarith
    linarith
  refine ⟨n * (1 - ⌊phase / n / 2 / Real.pi + 1⌋), ?_⟩
  unfold phasePos fmod1
  rw [if_pos h0]
  generalize ⌊phase / n / 2 / Real.pi + 1⌋ = m
  push_cast
  field_simp
  ring

theorem cos_max (c d : ℝ) (t : ℝ) : ∃ r : ℝ, 0 ≤ r ∧ r * r = c * c + d * d ∧ (c * Real.cos t + d * Real.sin t = r * Real.cos (t - atan2 d c)) := by
  obtain ⟨r, h0, h1, h2, h3⟩ := atan2_polar c d
  refine ⟨r, h0, h1, ?_⟩
  rw [Real.cos_sub]
  generalize atan2 d c = p at *
  rw [h2, h3]
  ring

/-! ### Periodic distances in the unit cube -/

theorem wrap_le (d : ℝ) (m : ℤ) : distWrap |d| ^ 2 ≤ (d + m) ^ 2 := by
  obtain ⟨k, h1, h2, h3⟩ := distWrap_spec |d|
  have h4 : -(1 / 2) ≤ distWrap |d| := by
    by_cases hk : k = 0
    · subst hk
      rw [h1]
      have := abs_nonneg d
      push_cast
      linarith
    · exact (h3 hk).le
  obtain ⟨j, hj⟩ : ∃ j : ℤ, d + m = distWrap |d| + j ∨ d + m = -(distWrap |d|) + j := by
    rcases abs_cases d with ⟨e, -⟩ | ⟨e, -⟩
    · exact ⟨m + k, Or.inl (by rw [h1, e]; push_cast; ring)⟩
    · exact ⟨m - k, Or.inr (by rw [h1, e]; push_cast; ring)⟩
  by_cases h0 : j = 0
  · subst h0
    rcases hj with hj | hj <;> rw [hj] <;> push_cast <;> nlinarith
  · have hj1 : (1 : ℝ) ≤ |(j : ℝ)| := by
      have : (1 : ℤ) ≤ |j| := Int.one_le_abs h0
      exact_mod_cast this
    rw [sq_le_sq]
    have hw : abs (distWrap |d|) ≤ 1 / 2 := abs_le.mpr ⟨h4, h2⟩
    rcases hj with hj | hj <;> rw [hj]
    · have := abs_sub_abs_le_abs_sub (j : ℝ) (-(distWrap |d|))
      rw [abs_neg, sub_neg_eq_add, add_comm (j : ℝ)] at this
      linarith
    · have := abs_sub_abs_le_abs_sub (j : ℝ) (distWrap |d|)
      rw [sub_eq_neg_add (j : ℝ)] at this
      linarith

theorem wrap_eq (d : ℝ) : ∃ m : ℤ, distWrap |d| ^ 2 = (d + m) ^ 2 := by
  obtain ⟨k, h1, -, -⟩ := distWrap_spec |d|
  rcases abs_cases d with ⟨e, -⟩ | ⟨e, -⟩
  · exact ⟨-k, by rw [h1, e]; push_cast; ring⟩
  · exact ⟨k, by rw [h1, e]; push_cast; ring⟩

theorem unit_absToRel (p : Vec3 ℝ) : (⟨1, 1⟩ : Box).absToRel p = p := Mat3.one_mulVec p
theorem unit_relToAbs (p : Vec3 ℝ) : (⟨1, 1⟩ : Box).relToAbs p = p := Mat3.one_mulVec p

theorem unit_distance (p q : Vec3 ℝ) :
    PBC.getDistance2 ⟨1, 1⟩ p q = distWrap |q.x - p.x| ^ 2 + distWrap |q.y - p.y| ^ 2 + distWrap |q.z - p.z| ^ 2 := by
  unfold PBC.getDistance2
  simp only [unit_absToRel, unit_relToAbs, Vec3.norm2, Vec3.dot]
  ring

theorem unit_distance_le (p q : Vec3 ℝ) (m : Vec3 ℤ) : PBC.getDistance2 ⟨1, 1⟩ p q ≤ dist2 p (q + (⟨m.x, m.y, m.z⟩ : Vec3 ℝ)) := by
  rw [unit_distance]
  unfold dist2
  simp only [Vec3.add_x, Vec3.add_y, Vec3.add_z]
  have h1 := wrap_le (q.x - p.x) m.x
  have h2 := wrap_le (q.y - p.y) m.y
  have h3 := wrap_le (q.z - p.z) m.z
  rw [show q.x + (m.x : ℝ) - p.x = q.x - p.x + m.x by ring, show q.y + (m.y : ℝ) - p.y = q.y - p.y + m.y by ring, show q.z + (m.z : ℝ) - p.z = q.z - p.z + m.z by ring]
  linarith

theorem unit_distance_eq (p q : Vec3 ℝ) : ∃ m : Vec3 ℤ, PBC.getDistance2 ⟨1, 1⟩ p q = dist2 p (q + (⟨m.x, m.y, m.z⟩ : Vec3 ℝ)) := by
  obtain ⟨a, h1⟩ := wrap_eq (q.x - p.x)
  obtain ⟨b, h2⟩ := wrap_eq (q.y - p.y)
  obtain ⟨c, h3⟩ := wrap_eq (q.z - p.z)
  refine ⟨⟨a, b, c⟩, ?_⟩
  rw [unit_distance, h1, h2, h3]
  unfold dist2
  simp only [Vec3.add_x, Vec3.add_y, Vec3.add_z]
  ring

/-! ### Equivalent points -/

/-- A shift by `k` halves of periods. -/
def half (n : Nat) (k : ℤ) : ℝ := if n > 0 then (k : ℝ) / (2 * n) else 0

def halves (n : Vec3 Nat) (k : Vec3 ℤ) : Vec3 ℝ := ⟨half n.x k.x, half n.y k.y, half n.z k.z⟩

/-- Shifts by an even number of halves of periods along tracked axes. -/
def EvenShift (n : Vec3 Nat) (k : Vec3 ℤ) : Prop := Even (k.x + k.y + k.z) ∧ ∀ i, n.get i = 0 → k.get i = 0

theorem half_cos (n : Nat) (k : ℤ) (hk : n = 0 → k = 0) (x y : ℝ) :
    Real.cos (2 * Real.pi * n * (x + half n k - y)) = (-1) ^ k * Real.cos (2 * Real.pi * n * (x - y)) := by
  unfold half
  by_cases hn : n > 0
  · rw [if_pos hn, ← Real.cos_add_int_mul_pi]
    congr 1
    have : (n : ℝ) ≠ 0 := by positivity
    field_simp
    ring
  · have : n = 0 := by omega
    subst this
    rw [hk rfl]
    simp

theorem waves_halves {n : Vec3 Nat} {k : Vec3 ℤ} (hk : EvenShift n k) (l : List (Vec3 ℝ × ℝ)) (s : Vec3 ℝ) : waves n l (s + halves n k) = waves n l s := by
  unfold waves
  congr 1
  refine List.map_congr_left fun q _ => ?_
  simp only [halves, Vec3.add_x, Vec3.add_y, Vec3.add_z]
  rw [half_cos n.x k.x (hk.2 0), half_cos n.y k.y (hk.2 1), half_cos n.z k.z (hk.2 2)]
  have : ((-1 : ℝ) ^ k.x * (-1) ^ k.y * (-1) ^ k.z) = 1 := by
    rw [← zpow_add₀ (by norm_num), ← zpow_add₀ (by norm_num), hk.1.neg_one_zpow]
  linear_combination (q.2 * Real.cos (2 * Real.pi * n.x * (s.x - q.1.x)) * Real.cos (2 * Real.pi * n.y * (s.y - q.1.y)) * Real.cos (2 * Real.pi * n.z * (s.z - q.1.z))) * this

theorem cos_int (n : Nat) (m : ℤ) (x y : ℝ) : Real.cos (2 * Real.pi * n * (x + m - y)) = Real.cos (2 * Real.pi * n * (x - y)) := by
  rw [← Real.cos_add_int_mul_two_pi (2 * Real.pi * n * (x - y)) (n * m)]
  congr 1
  push_cast
  ring

theorem waves_int (n : Vec3 Nat) (l : List (Vec3 ℝ × ℝ)) (s : Vec3 ℝ) (m : Vec3 ℤ) : waves n l (s + (⟨m.x, m.y, m.z⟩ : Vec3 ℝ)) = waves n l s := by
  unfold waves
  congr 1
  refine List.map_congr_left fun q _ => ?_
  simp only [Vec3.add_x, Vec3.add_y, Vec3.add_z, cos_int]

/-! ### `normalizeOriginPos` -/

theorem next_eq (n : Vec3 Nat) (rel : Vec3 ℝ) (idx : Vec3 Nat) :
    next n rel idx = ⟨Int.fract (shift1 n.x idx.x rel.x), Int.fract (shift1 n.y idx.y rel.y), Int.fract (shift1 n.z idx.z rel.z)⟩ := by
  unfold next PBC.getCorrection
  simp only [unit_absToRel, unit_relToAbs, corr1_eq]
  ext <;> simp only [Int.fract, Vec3.add_x, Vec3.add_y, Vec3.add_z] <;> ring

theorem argmin_fold (prev : Vec3 ℝ) (L : List (Vec3 ℝ)) : ∀ (b : Vec3 ℝ),
    let r := L.foldl (tryNext prev) (b, PBC.getDistance2 ⟨1, 1⟩ prev b)
    r.2 = PBC.getDistance2 ⟨1, 1⟩ prev r.1 ∧ (r.1 = b ∨ r.1 ∈ L) ∧ r.2 ≤ PBC.getDistance2 ⟨1, 1⟩ prev b ∧ ∀ p ∈ L, r.2 ≤ PBC.getDistance2 ⟨1, 1⟩ prev p := by
  induction L with
  | nil => intro b; simp
  | cons p L ih =>
    intro b
    simp only [List.foldl_cons]
    rw [show tryNext prev (b, PBC.getDistance2 ⟨1, 1⟩ prev b) p = if PBC.getDistance2 ⟨1, 1⟩ prev p < PBC.getDistance2 ⟨1, 1⟩ prev b then
      (p, PBC.getDistance2 ⟨1, 1⟩ prev p) else (b, PBC.getDistance2 ⟨1, 1⟩ prev b) from rfl]
    by_cases h : PBC.getDistance2 ⟨1, 1⟩ prev p < PBC.getDistance2 ⟨1, 1⟩ prev b
    · simp only [if_pos h]
      obtain ⟨h1, h2, h3, h4⟩ := ih p
      refine ⟨h1, Or.inr ?_, h3.trans h.le, ?_⟩
      · rcases h2 with h2 | h2
        · rw [h2]; exact List.mem_cons_self ..
        · exact List.mem_cons_of_mem _ h2
      · intro q hq
        rcases List.mem_cons.mp hq with rfl | hq
        · exact h3
        · exact h4 q hq
    · simp only [if_neg h]
      obtain ⟨h1, h2, h3, h4⟩ := ih b
      refine ⟨h1, ?_, h3, ?_⟩
      · rcases h2 with h2 | h2
        · exact Or.inl h2
        · exact Or.inr (List.mem_cons_of_mem _ h2)
      · intro q hq
        rcases List.mem_cons.mp hq with rfl | hq
        · exact h3.trans (not_lt.mp h)
        · exact h4 q hq

theorem mem_candidates {n : Vec3 Nat} {k : Vec3 Nat} :
    k ∈ candidates n ↔ (k.x < max (2 * n.x) 1 ∧ k.y < max (2 * n.y) 1 ∧ k.z < max (2 * n.z) 1) ∧ (k.x + k.y + k.z) % 2 = 0 := by
  unfold candidates
  rw [List.mem_filter, List.mem_flatMap]
  simp only [List.mem_flatMap, List.mem_map, List.mem_range, decide_eq_true_eq]
  constructor
  · rintro ⟨⟨i, hi, j, hj, m, hm, rfl⟩, h⟩
    exact ⟨⟨hi, hj, hm⟩, h⟩
  · rintro ⟨⟨h1, h2, h3⟩, h⟩
    exact ⟨⟨k.x, h1, k.y, h2, k.z, h3, rfl⟩, h⟩

theorem shift1_half (n idx : Nat) (x : ℝ) : shift1 n idx x = x + half n idx := by
  unfold shift1 half
  split
  · push_cast; ring
  · ring

/-- A candidate which is congruent to the given shift. -/
theorem reduce1 (n : Nat) (K : ℤ) (hK : n = 0 → K = 0) : ∃ (k : Nat) (m : ℤ), k < max (2 * n) 1 ∧ (2 : ℤ) ∣ K - k ∧ half n K = half n k + m := by
  by_cases hn : n = 0
  · subst hn
    refine ⟨0, 0, by simp, by simp [hK rfl], by simp [half]⟩
  · have hp : (0 : ℤ) < 2 * n := by omega
    have h0 := Int.emod_nonneg K hp.ne'
    have h1 := Int.emod_lt_of_pos K hp
    have h2 := Int.mul_ediv_add_emod K (2 * n)
    refine ⟨(K % (2 * n)).toNat, K / (2 * n), by omega, ?_, ?_⟩
    · rw [Int.toNat_of_nonneg h0]
      refine ⟨n * (K / (2 * n)), by linear_combination -h2⟩
    · unfold half
      rw [if_pos (by omega), if_pos (by omega)]
      have e : (((K % (2 * n)).toNat : ℤ) : ℝ) = K - 2 * n * ((K / (2 * n) : ℤ) : ℝ) := by
        rw [Int.toNat_of_nonneg h0]
        have := congrArg (fun t : ℤ => (t : ℝ)) h2
        push_cast at this
        linarith
      rw [e]
      have : (n : ℝ) ≠ 0 := by exact_mod_cast hn
      field_simp
      ring

theorem normalize_spec (n : Vec3 Nat) (prev rel : Vec3 ℝ) (h0 : OnAxes n rel) :
    (∃ (k : Vec3 ℤ) (m : Vec3 ℤ), EvenShift n k ∧ normalizeOrigin n prev rel = rel + halves n k + (⟨m.x, m.y, m.z⟩ : Vec3 ℝ)) ∧
    OnAxes n (normalizeOrigin n prev rel) ∧
    ∃ m0 : Vec3 ℤ, ∀ (k m : Vec3 ℤ), EvenShift n k →
      dist2 prev (normalizeOrigin n prev rel + (⟨m0.x, m0.y, m0.z⟩ : Vec3 ℝ)) ≤ dist2 prev (rel + halves n k + (⟨m.x, m.y, m.z⟩ : Vec3 ℝ)) := by
  obtain ⟨h1, h2, -, h4⟩ := argmin_fold prev ((candidates n).map (next n rel)) rel
  have hr : (((candidates n).map (next n rel)).foldl (tryNext prev) (rel, PBC.getDistance2 ⟨1, 1⟩ prev rel)).1 = normalizeOrigin n prev rel := rfl
  rw [h1, hr] at h4
  rw [hr] at h2
  refine ⟨?_, ?_, ?_⟩
  · rcases h2 with h2 | h2
    · refine ⟨⟨0, 0, 0⟩, ⟨0, 0, 0⟩, ⟨by simp, fun i _ => by fin_cases i <;> rfl⟩, ?_⟩
      rw [h2]
      ext <;> simp [halves, half]
    · obtain ⟨k, hk, hn⟩ := List.mem_map.mp h2
      obtain ⟨⟨k1, k2, k3⟩, k4⟩ := mem_candidates.mp hk
      refine ⟨⟨k.x, k.y, k.z⟩, ⟨-⌊shift1 n.x k.x rel.x⌋, -⌊shift1 n.y k.y rel.y⌋, -⌊shift1 n.z k.z rel.z⌋⟩, ⟨?_, ?_⟩, ?_⟩
      · rw [Int.even_iff]
        show ((k.x : ℤ) + k.y + k.z) % 2 = 0
        omega
      · intro i hi
        fin_cases i
        · show ((k.x : Nat) : ℤ) = 0
          have hi : n.x = 0 := hi
          rw [hi] at k1
          omega
        · show ((k.y : Nat) : ℤ) = 0
          have hi : n.y = 0 := hi
          rw [hi] at k2
          omega
        · show ((k.z : Nat) : ℤ) = 0
          have hi : n.z = 0 := hi
          rw [hi] at k3
          omega
      · rw [← hn, next_eq]
        simp only [Int.fract, shift1_half, halves]
        ext <;> simp only [Vec3.add_x, Vec3.add_y, Vec3.add_z] <;> push_cast <;> ring
  · rcases h2 with h2 | h2
    · rw [h2]; exact h0
    · obtain ⟨k, hk, hn⟩ := List.mem_map.mp h2
      rw [← hn, next_eq]
      intro i hi
      have := h0 i hi
      fin_cases i
      · have hi : n.x = 0 := hi
        have this : rel.x = 0 := this
        simp [shift1, hi, this]
      · have hi : n.y = 0 := hi
        have this : rel.y = 0 := this
        simp [shift1, hi, this]
      · have hi : n.z = 0 := hi
        have this : rel.z = 0 := this
        simp [shift1, hi, this]
  · obtain ⟨m0, hm0⟩ := unit_distance_eq prev (normalizeOrigin n prev rel)
    refine ⟨m0, fun K m hK => ?_⟩
    rw [← hm0]
    obtain ⟨a, ma, a1, a2, a3⟩ := reduce1 n.x K.x (hK.2 0)
    obtain ⟨b, mb, b1, b2, b3⟩ := reduce1 n.y K.y (hK.2 1)
    obtain ⟨c, mc, c1, c2, c3⟩ := reduce1 n.z K.z (hK.2 2)
    have hmem : (⟨a, b, c⟩ : Vec3 Nat) ∈ candidates n := by
      rw [mem_candidates]
      refine ⟨⟨a1, b1, c1⟩, ?_⟩
      have := Int.even_iff.mp hK.1
      simp only
      omega
    refine (h4 _ (List.mem_map.mpr ⟨_, hmem, rfl⟩)).trans ?_
    refine (unit_distance_le prev _ ⟨⌊shift1 n.x a rel.x⌋ + ma + m.x, ⌊shift1 n.y b rel.y⌋ + mb + m.y, ⌊shift1 n.z c rel.z⌋ + mc + m.z⟩).trans (le_of_eq ?_)
    congr 1
    rw [next_eq]
    simp only [Int.fract, shift1_half, halves, a3, b3, c3]
    ext <;> simp only [Vec3.add_x, Vec3.add_y, Vec3.add_z] <;> push_cast <;> ring

end

end Rampack.Fourier
