import Verif.Observables.FourierLemmas
/-
Lemmas on maxima for C99.
-/
namespace Rampack.Fourier

open Spec Box PBC

noncomputable section

theorem mem_idxs {n : Vec3 Nat} {i : Fin 3} : i ∈ nonzeroIdxs n ↔ 0 < n.get i := by
  unfold nonzeroIdxs
  rw [List.mem_filter]
  simp only [decide_eq_true_eq]
  constructor
  · exact fun h => h.2
  · refine fun h => ⟨?_, h⟩
    fin_cases i <;> simp

theorem nodup_idxs (n : Vec3 Nat) : (nonzeroIdxs n).Nodup := List.Nodup.filter _ (by decide)

theorem idxs_one {n : Vec3 Nat} {i : Fin 3} (h : nonzeroIdxs n = [i]) : 0 < n.get i ∧ ∀ a, a ≠ i → n.get a = 0 := by
  refine ⟨mem_idxs.mp (by rw [h]; simp), fun a ha => ?_⟩
  by_contra hn
  have := mem_idxs.mpr (Nat.pos_of_ne_zero hn)
  rw [h] at this
  exact ha (by simpa using this)

theorem idxs_two {n : Vec3 Nat} {i j : Fin 3} (h : nonzeroIdxs n = [i, j]) : i ≠ j ∧ 0 < n.get i ∧ 0 < n.get j ∧ ∀ a, a ≠ i → a ≠ j → n.get a = 0 := by
  refine ⟨?_, mem_idxs.mp (by rw [h]; simp), mem_idxs.mp (by rw [h]; simp), fun a ha hb => ?_⟩
  · have := nodup_idxs n
    rw [h] at this
    simpa using this
  · by_contra hn
    have := mem_idxs.mpr (Nat.pos_of_ne_zero hn)
    rw [h] at this
    simp at this
    exact this.elim ha hb

/-- The phase along an axis. -/
def ph (n : Vec3 Nat) (s : Vec3 ℝ) (i : Fin 3) : ℝ := 2 * Real.pi * n.get i * s.get i

theorem wave1 {n : Vec3 Nat} {i : Fin 3} (h : ∀ a, a ≠ i → n.get a = 0) (l : List (Vec3 ℝ × ℝ)) (s : Vec3 ℝ) :
    waves n l s = coefAt (cf n l) (fun _ => 0) * Real.cos (ph n s i) + coefAt (cf n l) (fun a => if a = i then 1 else 0) * Real.sin (ph n s i) := by
  rw [waves_cf]
  match i, h with
  | 0, h =>
    have hy : n.y = 0 := h 1 (by decide)
    have hz : n.z = 0 := h 2 (by decide)
    simp [coefAt, ph, cf_y hy, cf_z hz, hy, hz]
  | 1, h =>
    have hx : n.x = 0 := h 0 (by decide)
    have hz : n.z = 0 := h 2 (by decide)
    simp [coefAt, ph, cf_x hx, cf_z hz, hx, hz]
  | 2, h =>
    have hx : n.x = 0 := h 0 (by decide)
    have hy : n.y = 0 := h 1 (by decide)
    simp [coefAt, ph, cf_x hx, cf_y hy, hx, hy]

theorem wave2 {n : Vec3 Nat} {i j : Fin 3} (hij : i ≠ j) (h : ∀ a, a ≠ i → a ≠ j → n.get a = 0) (l : List (Vec3 ℝ × ℝ)) (s : Vec3 ℝ) :
    waves n l s = coefAt (cf n l) (fun _ => 0) * (Real.cos (ph n s i) * Real.cos (ph n s j)) +
      coefAt (cf n l) (fun a => if a = j then 1 else 0) * (Real.cos (ph n s i) * Real.sin (ph n s j)) +
      coefAt (cf n l) (fun a => if a = i then 1 else 0) * (Real.sin (ph n s i) * Real.cos (ph n s j)) +
      coefAt (cf n l) (fun a => if a = i ∨ a = j then 1 else 0) * (Real.sin (ph n s i) * Real.sin (ph n s j)) := by
  rw [waves_cf]
  match i, j, hij, h with
  | 0, 0, hij, _ => exact absurd rfl hij
  | 1, 1, hij, _ => exact absurd rfl hij
  | 2, 2, hij, _ => exact absurd rfl hij
  | 0, 1, _, h =>
    have hz : n.z = 0 := h 2 (by decide) (by decide)
    simp [coefAt, ph, cf_z hz, hz]
  | 1, 0, _, h =>
    have hz : n.z = 0 := h 2 (by decide) (by decide)
    simp [coefAt, ph, cf_z hz, hz]
    ring
  | 0, 2, _, h =>
    have hy : n.y = 0 := h 1 (by decide) (by decide)
    simp [coefAt, ph, cf_y hy, hy]
  | 2, 0, _, h =>
    have hy : n.y = 0 := h 1 (by decide) (by decide)
    simp [coefAt, ph, cf_y hy, hy]
    ring
  | 1, 2, _, h =>
    have hx : n.x = 0 := h 0 (by decide) (by decide)
    simp [coefAt, ph, cf_x hx, hx]
  | 2, 1, _, h =>
    have hx : n.x = 0 := h 0 (by decide) (by decide)
    simp [coefAt, ph, cf_x hx, hx]
    ring

/-- The wave vector with the sign of one component. -/
def sgn (n : Vec3 Nat) (j : Fin 3) (e : ℤ) : Vec3 ℤ := Vec3.ofFn fun a => if a = j then e * n.get a else n.get a

theorem diag_nil (σ : Vec3 ℤ) (s : Vec3 ℝ) : diagonal σ [] s = 0 := rfl

theorem diag1 {n : Vec3 Nat} {i : Fin 3} (h : ∀ a, a ≠ i → n.get a = 0) (l : List (Vec3 ℝ × ℝ)) (s : Vec3 ℝ) :
    diagonal (sgn n i 1) l s = waves n l s := by
  unfold diagonal waves
  congr 1
  refine List.map_congr_left fun q _ => ?_
  match i, h with
  | 0, h =>
    have hy : n.y = 0 := h 1 (by decide)
    have hz : n.z = 0 := h 2 (by decide)
    simp [sgn, Vec3.ofFn, hy, hz, mul_assoc]
  | 1, h =>
    have hx : n.x = 0 := h 0 (by decide)
    have hz : n.z = 0 := h 2 (by decide)
    simp [sgn, Vec3.ofFn, hx, hz, mul_assoc]
  | 2, h =>
    have hx : n.x = 0 := h 0 (by decide)
    have hy : n.y = 0 := h 1 (by decide)
    simp [sgn, Vec3.ofFn, hx, hy, mul_assoc]

/-- A travelling wave in the plane. -/
theorem diag_phase {n : Vec3 Nat} {i j : Fin 3} (hij : i ≠ j) (h : ∀ a, a ≠ i → a ≠ j → n.get a = 0) (e : ℤ) (s p : Vec3 ℝ) :
    2 * Real.pi * ((sgn n j e).x * (s.x - p.x) + (sgn n j e).y * (s.y - p.y) + (sgn n j e).z * (s.z - p.z)) =
      ph n s i - ph n p i + e * (ph n s j - ph n p j) := by
  match i, j, hij, h with
  | 0, 0, hij, _ => exact absurd rfl hij
  | 1, 1, hij, _ => exact absurd rfl hij
  | 2, 2, hij, _ => exact absurd rfl hij
  | 0, 1, _, h =>
    have hz : n.z = 0 := h 2 (by decide) (by decide)
    simp [sgn, Vec3.ofFn, ph, hz]
    ring
  | 1, 0, _, h =>
    have hz : n.z = 0 := h 2 (by decide) (by decide)
    simp [sgn, Vec3.ofFn, ph, hz]
    ring
  | 0, 2, _, h =>
    have hy : n.y = 0 := h 1 (by decide) (by decide)
    simp [sgn, Vec3.ofFn, ph, hy]
    ring
  | 2, 0, _, h =>
    have hy : n.y = 0 := h 1 (by decide) (by decide)
    simp [sgn, Vec3.ofFn, ph, hy]
    ring
  | 1, 2, _, h =>
    have hx : n.x = 0 := h 0 (by decide) (by decide)
    simp [sgn, Vec3.ofFn, ph, hx]
    ring
  | 2, 1, _, h =>
    have hx : n.x = 0 := h 0 (by decide) (by decide)
    simp [sgn, Vec3.ofFn, ph, hx]
    ring

/-- Coefficients in the plane as sums over phases. -/
theorem coef2 {n : Vec3 Nat} {i j : Fin 3} (hij : i ≠ j) (h : ∀ a, a ≠ i → a ≠ j → n.get a = 0) (l : List (Vec3 ℝ × ℝ)) :
    coefAt (cf n l) (fun _ => 0) = (l.map fun q => q.2 * (Real.cos (ph n q.1 i) * Real.cos (ph n q.1 j))).sum ∧
    coefAt (cf n l) (fun a => if a = j then 1 else 0) = (l.map fun q => q.2 * (Real.cos (ph n q.1 i) * Real.sin (ph n q.1 j))).sum ∧
    coefAt (cf n l) (fun a => if a = i then 1 else 0) = (l.map fun q => q.2 * (Real.sin (ph n q.1 i) * Real.cos (ph n q.1 j))).sum ∧
    coefAt (cf n l) (fun a => if a = i ∨ a = j then 1 else 0) = (l.map fun q => q.2 * (Real.sin (ph n q.1 i) * Real.sin (ph n q.1 j))).sum := by
  match i, j, hij, h with
  | 0, 0, hij, _ => exact absurd rfl hij
  | 1, 1, hij, _ => exact absurd rfl hij
  | 2, 2, hij, _ => exact absurd rfl hij
  | 0, 1, _, h =>
    have hz : n.z = 0 := h 2 (by decide) (by decide)
    simp [coefAt, cf, ph, hz]
  | 1, 0, _, h =>
    have hz : n.z = 0 := h 2 (by decide) (by decide)
    refine ⟨?_, ?_, ?_, ?_⟩ <;>
    · refine congrArg List.sum (List.map_congr_left fun q _ => ?_)
      simp [ph, hz, -mul_eq_mul_left_iff] <;> ring
  | 0, 2, _, h =>
    have hy : n.y = 0 := h 1 (by decide) (by decide)
    simp [coefAt, cf, ph, hy]
  | 2, 0, _, h =>
    have hy : n.y = 0 := h 1 (by decide) (by decide)
    refine ⟨?_, ?_, ?_, ?_⟩ <;>
    · refine congrArg List.sum (List.map_congr_left fun q _ => ?_)
      simp [ph, hy, -mul_eq_mul_left_iff] <;> ring
  | 1, 2, _, h =>
    have hx : n.x = 0 := h 0 (by decide) (by decide)
    simp [coefAt, cf, ph, hx]
  | 2, 1, _, h =>
    have hx : n.x = 0 := h 0 (by decide) (by decide)
    refine ⟨?_, ?_, ?_, ?_⟩ <;>
    · refine congrArg List.sum (List.map_congr_left fun q _ => ?_)
      simp [ph, hx, -mul_eq_mul_left_iff] <;> ring

theorem diag2 {n : Vec3 Nat} {i j : Fin 3} (hij : i ≠ j) (h : ∀ a, a ≠ i → a ≠ j → n.get a = 0) (l : List (Vec3 ℝ × ℝ)) (s : Vec3 ℝ) :
    diagonal (sgn n j 1) l s = (coefAt (cf n l) (fun _ => 0) - coefAt (cf n l) (fun a => if a = i ∨ a = j then 1 else 0)) * Real.cos (ph n s i + ph n s j) +
      (coefAt (cf n l) (fun a => if a = i then 1 else 0) + coefAt (cf n l) (fun a => if a = j then 1 else 0)) * Real.sin (ph n s i + ph n s j) ∧
    diagonal (sgn n j (-1)) l s = (coefAt (cf n l) (fun _ => 0) + coefAt (cf n l) (fun a => if a = i ∨ a = j then 1 else 0)) * Real.cos (ph n s i - ph n s j) +
      (coefAt (cf n l) (fun a => if a = i then 1 else 0) - coefAt (cf n l) (fun a => if a = j then 1 else 0)) * Real.sin (ph n s i - ph n s j) := by
  obtain ⟨h1, h2, h3, h4⟩ := coef2 hij h l
  rw [h1, h2, h3, h4]
  unfold diagonal
  simp only [diag_phase hij h]
  clear h1 h2 h3 h4
  constructor
  · induction l with
    | nil => simp
    | cons q l ih =>
      simp only [List.map_cons, List.sum_cons]
      rw [ih, show ph n s i - ph n q.1 i + ((1 : ℤ) : ℝ) * (ph n s j - ph n q.1 j) = (ph n s i + ph n s j) - (ph n q.1 i + ph n q.1 j) by push_cast; ring,
        Real.cos_sub (ph n s i + ph n s j), Real.cos_add (ph n q.1 i), Real.sin_add (ph n q.1 i)]
      ring
  · induction l with
    | nil => simp
    | cons q l ih =>
      simp only [List.map_cons, List.sum_cons]
      rw [ih, show ph n s i - ph n q.1 i + ((-1 : ℤ) : ℝ) * (ph n s j - ph n q.1 j) = (ph n s i - ph n s j) - (ph n q.1 i - ph n q.1 j) by push_cast; ring,
        Real.cos_sub (ph n s i - ph n s j), Real.cos_sub (ph n q.1 i), Real.sin_sub (ph n q.1 i)]
      ring

/-- All points with the greatest value are found from one by shifts. -/
def Complete (n : Vec3 Nat) (l : List (Vec3 ℝ × ℝ)) (rel : Vec3 ℝ) : Prop :=
  Peak n l rel ∧ ∀ p, Peak n l p → ∃ k, EvenShift n k ∧ ∀ a, n.get a ≠ 0 → p.get a = (rel + halves n k).get a

theorem eps_lt {r : ℝ} (h0 : 0 ≤ r) (h : r * r < epsilon2) : r < 1 / 10 ^ 8 := by
  unfold epsilon2 at h
  nlinarith

theorem eps_le {r : ℝ} (h : 1 / 10 ^ 8 ≤ r) : epsilon2 ≤ r * r := by
  unfold epsilon2
  have : (0 : ℝ) < 1 / 10 ^ 8 := by norm_num
  nlinarith

theorem get_ofFn {α : Type} (g : Fin 3 → α) (a : Fin 3) : (Vec3.ofFn g).get a = g a := by
  match a with
  | 0 => rfl
  | 1 => rfl
  | 2 => rfl

theorem get_add (p q : Vec3 ℝ) (a : Fin 3) : (p + q).get a = p.get a + q.get a := by
  match a with
  | 0 => rfl
  | 1 => rfl
  | 2 => rfl

theorem get_halves (n : Vec3 Nat) (k : Vec3 ℤ) (a : Fin 3) : (halves n k).get a = half (n.get a) (k.get a) := by
  match a with
  | 0 => rfl
  | 1 => rfl
  | 2 => rfl

theorem get_zero_vec (a : Fin 3) : (0 : Vec3 ℝ).get a = 0 := by
  match a with
  | 0 => rfl
  | 1 => rfl
  | 2 => rfl

theorem relative1D_axes {n : Vec3 Nat} {i : Fin 3} (hi : 0 < n.get i) (C : Coefs) : OnAxes n (relative1D n C i) := by
  intro a ha
  unfold relative1D
  simp only
  split
  · exact get_zero_vec a
  · rw [get_ofFn, if_neg]
    rintro rfl
    omega

/-- In one dimension: the point is not far from the maximum. -/
theorem peak1 {n : Vec3 Nat} {i : Fin 3} (hi : 0 < n.get i) (h : ∀ a, a ≠ i → n.get a = 0) (l : List (Vec3 ℝ × ℝ)) :
    (∀ p, waves n l p ≤ waves n l (relative1D n (cf n l) i) + 2 / 10 ^ 8) ∧
    ((∃ p, 1 / 10 ^ 8 ≤ waves n l p) → Complete n l (relative1D n (cf n l) i)) := by
  set c := coefAt (cf n l) (fun _ => 0) with hc
  set d := coefAt (cf n l) (fun a => if a = i then 1 else 0) with hd
  obtain ⟨r, h0, h1, hcr, hdr⟩ := atan2_polar c d
  have hw : ∀ p, waves n l p = r * Real.cos (ph n p i - atan2 d c) := by
    intro p
    rw [wave1 h, ← hc, ← hd, Real.cos_sub]
    generalize atan2 d c = t at *
    rw [hcr, hdr]
    ring
  have hle : ∀ p, waves n l p ≤ r := by
    intro p
    rw [hw]
    nlinarith [Real.cos_le_one (ph n p i - atan2 d c)]
  have hge : ∀ p, -r ≤ waves n l p := by
    intro p
    rw [hw]
    nlinarith [Real.neg_one_le_cos (ph n p i - atan2 d c)]
  by_cases hs : c * c + d * d < epsilon2
  · have hr := eps_lt h0 (by rw [h1]; exact hs)
    refine ⟨fun p => ?_, fun ⟨p, hp⟩ => absurd hp ?_⟩
    · have := hle p
      have := hge (relative1D n (cf n l) i)
      linarith
    · have := hle p
      push Not
      linarith
  · obtain ⟨k0, hk0⟩ := phasePos_spec hi (atan2_mem d c)
    have hrel : ph n (relative1D n (cf n l) i) i = atan2 d c + k0 * (2 * Real.pi) := by
      unfold ph relative1D
      simp only
      rw [if_neg hs, get_ofFn, if_pos rfl, hk0]
    have hmax : waves n l (relative1D n (cf n l) i) = r := by
      rw [hw, hrel, add_sub_cancel_left, Real.cos_int_mul_two_pi, mul_one]
    refine ⟨fun p => ?_, fun _ => ⟨fun p => by rw [hmax]; exact hle p, fun p hp => ?_⟩⟩
    · have := hle p
      rw [hmax]
      have : (0 : ℝ) < 2 / 10 ^ 8 := by norm_num
      linarith
    · have hr : 0 < r := by
        by_contra hr
        have : r = 0 := le_antisymm (not_lt.mp hr) h0
        rw [this] at h1
        apply hs
        rw [← h1]
        norm_num [epsilon2]
      have hp1 := hp (relative1D n (cf n l) i)
      rw [hmax, hw p] at hp1
      have hcos : Real.cos (ph n p i - atan2 d c) = 1 := by
        have := Real.cos_le_one (ph n p i - atan2 d c)
        nlinarith
      obtain ⟨k, hk⟩ := (Real.cos_eq_one_iff _).mp hcos
      refine ⟨Vec3.ofFn fun a => if a = i then 2 * (k - k0) else 0, ⟨?_, ?_⟩, ?_⟩
      · match i with
        | 0 => simp [Vec3.ofFn]
        | 1 => simp [Vec3.ofFn]
        | 2 => simp [Vec3.ofFn]
      · intro a ha
        rw [get_ofFn, if_neg]
        rintro rfl
        omega
      · intro a ha
        have hai : a = i := by
          by_contra hai
          exact ha (h a hai)
        subst hai
        rw [get_add, get_halves, get_ofFn, if_pos rfl]
        unfold half
        rw [if_pos hi]
        unfold ph at hk hrel
        have hn : (n.get a : ℝ) ≠ 0 := by exact_mod_cast ha
        have hp := Real.pi_pos
        have hpos : (0 : ℝ) < 2 * Real.pi * n.get a := by positivity
        refine mul_left_cancel₀ hpos.ne' ?_
        rw [mul_add, hrel]
        push_cast
        field_simp
        linarith

theorem relative2D_axes {n : Vec3 Nat} {i j : Fin 3} (hi : 0 < n.get i) (hj : 0 < n.get j) (C : Coefs) : OnAxes n (relative2D n C i j) := by
  intro a ha
  unfold relative2D
  simp only
  split
  · exact get_zero_vec a
  · rw [get_ofFn, if_neg, if_neg]
    · rintro rfl
      omega
    · rintro rfl
      omega

/-- A guarded phase is the phase, unless the amplitude is small. -/
theorem guarded_eq {y x : ℝ} (h : ¬ x * x + y * y < epsilon2) : guardedAtan2 y x = atan2 y x := if_neg h

theorem mul_cos_le {P : ℝ} (h : 0 ≤ P) (t : ℝ) : P * Real.cos t ≤ P := mul_le_of_le_one_right h (Real.cos_le_one t)

theorem neg_le_mul_cos {P : ℝ} (h : 0 ≤ P) (t : ℝ) : -P ≤ P * Real.cos t := by nlinarith [Real.neg_one_le_cos t]

theorem both_one {P R c d : ℝ} (hP : 0 < P) (hR : 0 < R) (hc : c ≤ 1) (hd : d ≤ 1) (h : P / 2 * 1 + R / 2 * 1 ≤ P / 2 * c + R / 2 * d) : c = 1 ∧ d = 1 := by
  constructor <;> nlinarith

set_option maxHeartbeats 800000 in
/-- In two dimensions: the point is not far from the maximum. -/
theorem peak2 {n : Vec3 Nat} {i j : Fin 3} (hij : i ≠ j) (hi : 0 < n.get i) (hj : 0 < n.get j) (h : ∀ a, a ≠ i → a ≠ j → n.get a = 0) (l : List (Vec3 ℝ × ℝ)) :
    (∀ p, waves n l p ≤ waves n l (relative2D n (cf n l) i j) + 2 / 10 ^ 8) ∧
    ((∃ p, 1 / 10 ^ 8 ≤ diagonal (sgn n j 1) l p) → (∃ p, 1 / 10 ^ 8 ≤ diagonal (sgn n j (-1)) l p) → Complete n l (relative2D n (cf n l) i j)) := by
  have hdg := diag2 hij h l
  have hwv := wave2 hij h l
  set A := coefAt (cf n l) (fun _ => 0) with hA
  set B := coefAt (cf n l) (fun a => if a = j then 1 else 0) with hB
  set C := coefAt (cf n l) (fun a => if a = i then 1 else 0) with hC
  set D := coefAt (cf n l) (fun a => if a = i ∨ a = j then 1 else 0) with hD
  obtain ⟨P, P0, P1, P2, P3⟩ := atan2_polar (A - D) (C + B)
  obtain ⟨R, R0, R1, R2, R3⟩ := atan2_polar (A + D) (C - B)
  set a' := atan2 (C + B) (A - D) with ha'
  set b' := atan2 (C - B) (A + D) with hb'
  have hplus : ∀ p, diagonal (sgn n j 1) l p = P * Real.cos (ph n p i + ph n p j - a') := by
    intro p
    rw [(hdg p).1, Real.cos_sub _ a', P2, P3]
    ring
  have hminus : ∀ p, diagonal (sgn n j (-1)) l p = R * Real.cos (ph n p i - ph n p j - b') := by
    intro p
    rw [(hdg p).2, Real.cos_sub _ b', R2, R3]
    ring
  have hw : ∀ p, waves n l p = P / 2 * Real.cos (ph n p i + ph n p j - a') + R / 2 * Real.cos (ph n p i - ph n p j - b') := by
    intro p
    have e1 := (hdg p).1
    have e2 := (hdg p).2
    rw [hplus, Real.cos_add, Real.sin_add] at e1
    rw [hminus, Real.cos_sub (ph n p i) (ph n p j), Real.sin_sub] at e2
    rw [hwv p]
    linear_combination (-1 / 2) * e1 + (-1 / 2) * e2
  have hle : ∀ p, waves n l p ≤ P / 2 + R / 2 := by
    intro p
    rw [hw]
    linarith [mul_cos_le (P := P / 2) (by linarith) (ph n p i + ph n p j - a'), mul_cos_le (P := R / 2) (by linarith) (ph n p i - ph n p j - b')]
  by_cases hs : A * A + B * B + C * C + D * D < epsilon2
  · have hPR : P * P + R * R < 2 * epsilon2 := by rw [P1, R1]; linarith
    have hsum : P + R < 2 / 10 ^ 8 := by
      unfold epsilon2 at hPR
      by_contra hc
      push Not at hc
      nlinarith [sq_nonneg (P - R)]
    refine ⟨fun p => ?_, fun ⟨p, hp⟩ ⟨q, hq⟩ => ?_⟩
    · have e1 := hle p
      have e2 := hw (relative2D n (cf n l) i j)
      have e3 := neg_le_mul_cos (P := P / 2) (by linarith) (ph n (relative2D n (cf n l) i j) i + ph n (relative2D n (cf n l) i j) j - a')
      have e4 := neg_le_mul_cos (P := R / 2) (by linarith) (ph n (relative2D n (cf n l) i j) i - ph n (relative2D n (cf n l) i j) j - b')
      linarith
    · exfalso
      rw [hplus] at hp
      rw [hminus] at hq
      have e1 : P * Real.cos (ph n p i + ph n p j - a') ≤ P := mul_cos_le P0 _
      have e2 : R * Real.cos (ph n q i - ph n q j - b') ≤ R := mul_cos_le R0 _
      linarith
  · set a := guardedAtan2 (C + B) (A - D) with ha
    set b := guardedAtan2 (C - B) (A + D) with hb
    have hga := guarded_mem (C + B) (A - D)
    have hgb := guarded_mem (C - B) (A + D)
    rw [← ha] at hga
    rw [← hb] at hgb
    obtain ⟨u, hu⟩ := phasePos_spec hi (phase := (a + b) / 2) ⟨by linarith, by linarith⟩
    obtain ⟨v, hv⟩ := phasePos_spec hj (phase := (a - b) / 2) ⟨by linarith [Real.pi_pos], by linarith [Real.pi_pos]⟩
    have hri : ph n (relative2D n (cf n l) i j) i = (a + b) / 2 + u * (2 * Real.pi) := by
      unfold ph relative2D
      simp only
      rw [if_neg hs, get_ofFn, if_pos rfl, hu]
    have hrj : ph n (relative2D n (cf n l) i j) j = (a - b) / 2 + v * (2 * Real.pi) := by
      unfold ph relative2D
      simp only
      rw [if_neg hs, get_ofFn, if_neg hij.symm, if_pos rfl, hv]
    have hsum : ph n (relative2D n (cf n l) i j) i + ph n (relative2D n (cf n l) i j) j - a' = a - a' + ((u + v : ℤ) : ℝ) * (2 * Real.pi) := by
      rw [hri, hrj]; push_cast; ring
    have hdif : ph n (relative2D n (cf n l) i j) i - ph n (relative2D n (cf n l) i j) j - b' = b - b' + ((u - v : ℤ) : ℝ) * (2 * Real.pi) := by
      rw [hri, hrj]; push_cast; ring
    have hmax : waves n l (relative2D n (cf n l) i j) = P / 2 * Real.cos (a - a') + R / 2 * Real.cos (b - b') := by
      rw [hw, hsum, hdif, Real.cos_add_int_mul_two_pi, Real.cos_add_int_mul_two_pi]
    have hPa : P / 2 - 1 / 10 ^ 8 ≤ P / 2 * Real.cos (a - a') := by
      by_cases hP : (A - D) * (A - D) + (C + B) * (C + B) < epsilon2
      · have := eps_lt P0 (by rw [P1]; exact hP)
        linarith [neg_le_mul_cos (P := P / 2) (by linarith) (a - a')]
      · rw [ha, guarded_eq hP, ← ha', sub_self, Real.cos_zero]
        have : (0 : ℝ) < 1 / 10 ^ 8 := by norm_num
        linarith
    have hRb : R / 2 - 1 / 10 ^ 8 ≤ R / 2 * Real.cos (b - b') := by
      by_cases hR : (A + D) * (A + D) + (C - B) * (C - B) < epsilon2
      · have := eps_lt R0 (by rw [R1]; exact hR)
        linarith [neg_le_mul_cos (P := R / 2) (by linarith) (b - b')]
      · rw [hb, guarded_eq hR, ← hb', sub_self, Real.cos_zero]
        have : (0 : ℝ) < 1 / 10 ^ 8 := by norm_num
        linarith
    refine ⟨fun p => ?_, fun ⟨p, hp⟩ ⟨q, hq⟩ => ?_⟩
    · have := hle p
      rw [hmax]
      linarith
    · rw [hplus] at hp
      rw [hminus] at hq
      have e1 : P * Real.cos (ph n p i + ph n p j - a') ≤ P := mul_cos_le P0 _
      have e2 : R * Real.cos (ph n q i - ph n q j - b') ≤ R := mul_cos_le R0 _
      have hP : ¬ (A - D) * (A - D) + (C + B) * (C + B) < epsilon2 := by
        rw [← P1]; exact not_lt.mpr (eps_le (by linarith))
      have hR : ¬ (A + D) * (A + D) + (C - B) * (C - B) < epsilon2 := by
        rw [← R1]; exact not_lt.mpr (eps_le (by linarith))
      have haa : a = a' := guarded_eq hP
      have hbb : b = b' := guarded_eq hR
      have hPp : 0 < P := by
        have : (0 : ℝ) < 1 / 10 ^ 8 := by norm_num
        linarith
      have hRp : 0 < R := by
        have : (0 : ℝ) < 1 / 10 ^ 8 := by norm_num
        linarith
      rw [haa, hbb, sub_self, sub_self, Real.cos_zero] at hmax
      refine ⟨fun p => by rw [hmax]; linarith [hle p], fun p hp => ?_⟩
      have hp1 := hp (relative2D n (cf n l) i j)
      rw [hmax, hw p] at hp1
      have c1 := Real.cos_le_one (ph n p i + ph n p j - a')
      have c2 := Real.cos_le_one (ph n p i - ph n p j - b')
      obtain ⟨d1, d2⟩ := both_one hPp hRp c1 c2 hp1
      obtain ⟨x, hx⟩ := (Real.cos_eq_one_iff _).mp d1
      obtain ⟨y, hy⟩ := (Real.cos_eq_one_iff _).mp d2
      refine ⟨Vec3.ofFn fun a => if a = i then x + y - 2 * u else if a = j then x - y - 2 * v else 0, ⟨?_, ?_⟩, ?_⟩
      · have hev : Even ((x + y - 2 * u) + (x - y - 2 * v)) := ⟨x - u - v, by ring⟩
        have hev' : Even ((x - y - 2 * v) + (x + y - 2 * u)) := ⟨x - u - v, by ring⟩
        match i, j, hij with
        | 0, 0, hij => exact absurd rfl hij
        | 1, 1, hij => exact absurd rfl hij
        | 2, 2, hij => exact absurd rfl hij
        | 0, 1, _ => simpa [Vec3.ofFn] using hev
        | 1, 0, _ => simpa [Vec3.ofFn] using hev'
        | 0, 2, _ => simpa [Vec3.ofFn] using hev
        | 2, 0, _ => simpa [Vec3.ofFn] using hev'
        | 1, 2, _ => simpa [Vec3.ofFn] using hev
        | 2, 1, _ => simpa [Vec3.ofFn] using hev'
      · intro t ht
        rw [get_ofFn, if_neg, if_neg]
        · rintro rfl; omega
        · rintro rfl; omega
      · intro t ht
        have hp := Real.pi_pos
        have hn : (n.get t : ℝ) ≠ 0 := by exact_mod_cast ht
        have htp : 0 < n.get t := Nat.pos_of_ne_zero ht
        have hpos : (0 : ℝ) < 2 * Real.pi * n.get t := by positivity
        refine mul_left_cancel₀ hpos.ne' ?_
        rw [get_add, get_halves, get_ofFn, mul_add]
        unfold half
        rw [if_pos htp]
        by_cases hti : t = i
        · subst hti
          rw [if_pos rfl]
          unfold ph at hri hx hy
          rw [hri, haa, hbb]
          push_cast
          field_simp
          linarith
        · have htj : t = j := by
            by_contra htj
            exact ht (h t hti htj)
          subst htj
          rw [if_neg hti, if_pos rfl]
          unfold ph at hrj hx hy
          rw [hrj, haa, hbb]
          push_cast
          field_simp
          linarith

end

end Rampack.Fourier
