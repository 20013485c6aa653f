import Verif.Shapes.CompositeProps2
/-
C103: lollipops made of spheres, and their volumes.
-/
namespace Rampack

open Spec Shapes Composite Volume MeasureTheory

namespace Composite

/-- Heights of spheres of a lollipop before they are centred. -/
noncomputable def lolliHeight (N : Nat) (s d z : ℝ) (k : Nat) : ℝ := (if k ≤ N then (k : ℝ) * s else N * s + d) + z

/-- Radii of spheres of a lollipop. -/
noncomputable def lolliRadius (N : Nat) (a b : ℝ) (k : Nat) : ℝ := if k ≤ N then a else b

theorem lolli_row (N : Nat) (a b s d z : ℝ) : row (N + 1) (fun k => 0 + (k : ℝ) * s + z) (fun _ => a) ++ [⟨⟨0, 0, N * s + d + z⟩, b⟩] = row (N + 2) (lolliHeight N s d z) (lolliRadius N a b) := by
  rw [row_succ (N + 1)]
  congr 1
  · apply row_congr
    · intro k hk
      rw [lolliHeight, if_pos (by omega)]
      ring
    · intro k hk
      rw [lolliRadius, if_pos (by omega)]
  · rw [lolliHeight, lolliRadius, if_neg (by omega), if_neg (by omega)]

/-- The stick is ordered. -/
theorem stick_ordered (N : Nat) {a b s d z : ℝ} (ha : 0 < a) (hs : 0 < s) : Ordered (N + 1) (lolliHeight N s d z) (lolliRadius N a b) := by
  have hh : ∀ k < N + 1, lolliHeight N s d z k = k * s + z := fun k hk => by rw [lolliHeight, if_pos (by omega)]
  have hr : ∀ k < N + 1, lolliRadius N a b k = a := fun k hk => by rw [lolliRadius, if_pos (by omega)]
  refine ⟨?_, ?_, ?_, ?_, ?_⟩
  · intro k hk; rw [hr k hk]; exact ha
  · intro k hk
    rw [hh k (by omega), hh (k + 1) hk]; push_cast; linarith
  · intro k hk
    rw [hh k (by omega), hh (k + 1) hk, hr k (by omega), hr (k + 1) hk]; push_cast; linarith
  · intro k hk
    rw [hh k (by omega), hh (k + 1) hk, hr k (by omega), hr (k + 1) hk]; push_cast; linarith
  · intro i j hij hj
    have hij' : (i : ℝ) + 1 ≤ j := by exact_mod_cast hij
    rw [hh i (by omega), hh j (by omega), hh (j + 1) hj, hr i (by omega), hr j (by omega), hr (j + 1) hj]
    push_cast
    have h12 : 0 ≤ ((j : ℝ) - i) * s := mul_nonneg (by linarith) hs.le
    apply between
    · linarith
    · linarith
    · linarith
    · have e : ((j : ℝ) + 1) * s + z - (i * s + z) = (j - i) * s + s := by ring
      have e2 : (j : ℝ) * s + z - (i * s + z) = (j - i) * s := by ring
      have e3 : ((j : ℝ) + 1) * s + z - (j * s + z) = s := by ring
      rw [e, e2, e3]
      have : ((j - i) * s + s) * a ^ 2 - s * a ^ 2 - (j - i) * s * a ^ 2 + (j - i) * s * s * ((j - i) * s + s) = (j - i) * s * s * ((j - i) * s + s) := by ring
      rw [this]
      positivity

/-- The lollipop is ordered if the tip does not reach too far. -/
theorem lolli_ordered {N : Nat} {a b s d z : ℝ} (ha : 0 < a) (hb : 0 < b) (hs : 0 < s) (hd1 : a - b ≤ d) (hd2 : b - a ≤ d) (hd : 0 < d) (h : N = 0 ∨ b ^ 2 ≤ a ^ 2 + d ^ 2 + d * s) :
    Ordered (N + 2) (lolliHeight N s d z) (lolliRadius N a b) := by
  have h0 := stick_ordered N (b := b) (d := d) (z := z) ha hs
  have hl : lolliHeight N s d z N = N * s + z := by rw [lolliHeight, if_pos (by omega)]
  have ht : lolliHeight N s d z (N + 1) = N * s + d + z := by rw [lolliHeight, if_neg (by omega)]
  have rl : lolliRadius N a b N = a := by rw [lolliRadius, if_pos (by omega)]
  have rt : lolliRadius N a b (N + 1) = b := by rw [lolliRadius, if_neg (by omega)]
  refine ⟨?_, ?_, ?_, ?_, ?_⟩
  · intro k hk
    rcases Nat.lt_or_ge k (N + 1) with h1 | h1
    · exact h0.pos k h1
    · obtain rfl : k = N + 1 := by omega
      rw [rt]; exact hb
  · intro k hk
    rcases Nat.lt_or_ge k N with h1 | h1
    · exact h0.up k (by omega)
    · obtain rfl : k = N := by omega
      rw [hl, ht]; linarith
  · intro k hk
    rcases Nat.lt_or_ge k N with h1 | h1
    · exact h0.left k (by omega)
    · obtain rfl : k = N := by omega
      rw [hl, ht, rl, rt]; linarith
  · intro k hk
    rcases Nat.lt_or_ge k N with h1 | h1
    · exact h0.right k (by omega)
    · obtain rfl : k = N := by omega
      rw [hl, ht, rl, rt]; linarith
  · intro i j hij hj
    rcases Nat.lt_or_ge j N with h1 | h1
    · exact h0.between i j hij (by omega)
    · obtain rfl : j = N := by omega
      have h := h.resolve_left (by omega)
      have hi : lolliHeight j s d z i = i * s + z := by rw [lolliHeight, if_pos (by omega)]
      have ri : lolliRadius j a b i = a := by rw [lolliRadius, if_pos (by omega)]
      rw [hl, ht, rl, rt, hi, ri]
      have hij' : (i : ℝ) + 1 ≤ j := by exact_mod_cast hij
      have h12 : s ≤ ((j : ℝ) - i) * s := by nlinarith
      have e12 : (j : ℝ) * s + z - (i * s + z) = (j - i) * s := by ring
      have e13 : (j : ℝ) * s + d + z - (i * s + z) = (j - i) * s + d := by ring
      have e23 : (j : ℝ) * s + d + z - (j * s + z) = d := by ring
      apply between
      · linarith
      · linarith
      · linarith
      · rw [e12, e13, e23]
        generalize ((j : ℝ) - i) * s = x at h12
        have : (x + d) * a ^ 2 - d * a ^ 2 - x * b ^ 2 + x * d * (x + d) = x * (a ^ 2 + d ^ 2 + d * x - b ^ 2) := by ring
        rw [this]
        apply mul_nonneg (by linarith)
        nlinarith

/-- A point of the tip and of the sphere of the stick before the last one, which is not in the last one. -/
theorem beyond {a b s d : ℝ} (ha : 0 < a) (hb : 0 < b) (hs : 0 < s) (hd1 : a - b < d) (hd2 : b - a < d) (hd : 0 < d) (h : a ^ 2 + d ^ 2 + d * s < b ^ 2) :
    ∃ x q : ℝ, 0 < q ∧ q < a ^ 2 - x ^ 2 ∧ q < b ^ 2 - (x - (s + d)) ^ 2 ∧ a ^ 2 - (x - s) ^ 2 < q := by
  have hD : s + d < a + b := by
    by_contra hc
    push Not at hc
    nlinarith
  have hab : a < b := by nlinarith
  have hx := crossing_spec (r1 := a) (r2 := b) (d := s + d) (by linarith)
  generalize crossing a b (s + d) = x at hx
  have e1 : b ^ 2 - (x - (s + d)) ^ 2 = a ^ 2 - x ^ 2 := by nlinarith
  have hv : 0 < a ^ 2 - x ^ 2 := by
    have h1 : x < a := by nlinarith
    have h2 : -a < x := by nlinarith
    nlinarith
  have hK : a ^ 2 - (x - s) ^ 2 < a ^ 2 - x ^ 2 := by
    have : (s + d) * (2 * x - s) = a ^ 2 + d ^ 2 + d * s - b ^ 2 := by nlinarith
    have h3 : 2 * x - s < 0 := by
      by_contra hc
      push Not at hc
      nlinarith [mul_nonneg (by linarith : 0 ≤ s + d) hc]
    nlinarith
  refine ⟨x, (max 0 (a ^ 2 - (x - s) ^ 2) + (a ^ 2 - x ^ 2)) / 2, ?_, ?_, ?_, ?_⟩
  · have := le_max_left 0 (a ^ 2 - (x - s) ^ 2)
    linarith
  · have := max_lt hv hK
    linarith
  · rw [e1]
    have := max_lt hv hK
    linarith
  · have := le_max_right 0 (a ^ 2 - (x - s) ^ 2)
    linarith

/-- The set of such points has a positive volume. -/
theorem beyond_volume {a b s d z : ℝ} (ha : 0 < a) (hb : 0 < b) (hs : 0 < s) (hd1 : a - b < d) (hd2 : b - a < d) (hd : 0 < d) (h : a ^ 2 + d ^ 2 + d * s < b ^ 2) :
    0 < volume ((points (Ball ⟨0, 0, z⟩ a) ∩ points (Ball ⟨0, 0, z + s + d⟩ b)) \ points (Ball ⟨0, 0, z + s⟩ a)) := by
  obtain ⟨x, q, h0, h1, h2, h3⟩ := beyond ha hb hs hd1 hd2 hd h
  have hopen : IsOpen {p : (ℝ × ℝ) × ℝ | p.1.1 ^ 2 + p.1.2 ^ 2 < a ^ 2 - (p.2 - z) ^ 2 ∧ p.1.1 ^ 2 + p.1.2 ^ 2 < b ^ 2 - (p.2 - (z + s + d)) ^ 2 ∧ a ^ 2 - (p.2 - (z + s)) ^ 2 < p.1.1 ^ 2 + p.1.2 ^ 2} := by
    have o1 : IsOpen {p : (ℝ × ℝ) × ℝ | p.1.1 ^ 2 + p.1.2 ^ 2 < a ^ 2 - (p.2 - z) ^ 2} := isOpen_lt (by fun_prop) (by fun_prop)
    have o2 : IsOpen {p : (ℝ × ℝ) × ℝ | p.1.1 ^ 2 + p.1.2 ^ 2 < b ^ 2 - (p.2 - (z + s + d)) ^ 2} := isOpen_lt (by fun_prop) (by fun_prop)
    have o3 : IsOpen {p : (ℝ × ℝ) × ℝ | a ^ 2 - (p.2 - (z + s)) ^ 2 < p.1.1 ^ 2 + p.1.2 ^ 2} := isOpen_lt (by fun_prop) (by fun_prop)
    exact o1.inter (o2.inter o3)
  have hne : {p : (ℝ × ℝ) × ℝ | p.1.1 ^ 2 + p.1.2 ^ 2 < a ^ 2 - (p.2 - z) ^ 2 ∧ p.1.1 ^ 2 + p.1.2 ^ 2 < b ^ 2 - (p.2 - (z + s + d)) ^ 2 ∧ a ^ 2 - (p.2 - (z + s)) ^ 2 < p.1.1 ^ 2 + p.1.2 ^ 2}.Nonempty := by
    refine ⟨((Real.sqrt q, 0), z + x), ?_, ?_, ?_⟩ <;> simp only [Real.sq_sqrt h0.le]
    · ring_nf at h1 ⊢; linarith
    · ring_nf at h2 ⊢; linarith
    · ring_nf at h3 ⊢; linarith
  refine lt_of_lt_of_le (hopen.measure_pos volume hne) (measure_mono ?_)
  rintro p ⟨g1, g2, g3⟩
  rw [points_ball, points_ball, points_ball]
  exact ⟨⟨g1, g2⟩, not_lt.mpr g3.le⟩

/-- The sum without common parts of neighbours is not the volume if the tip reaches beyond the last sphere of the stick. -/
theorem lolli_wrong {N : Nat} {a b s d z : ℝ} (ha : 0 < a) (hb : 0 < b) (hs : 0 < s) (hd1 : a - b < d) (hd2 : b - a < d) (hd : 0 < d) (hN : N ≠ 0) (h : a ^ 2 + d ^ 2 + d * s < b ^ 2) :
    ¬ HasVolume (Balls3 (row (N + 2) (lolliHeight N s d z) (lolliRadius N a b))) (rowVolume (N + 1) (lolliHeight N s d z) (lolliRadius N a b)) := by
  rintro ⟨_, hv⟩
  obtain ⟨M, rfl⟩ : ∃ M, N = M + 1 := ⟨N - 1, by omega⟩
  have hpi := Real.pi_pos
  have hl : lolliHeight (M + 1) s d z (M + 1) = M * s + z + s := by rw [lolliHeight, if_pos (by omega)]; push_cast; ring
  have hm : lolliHeight (M + 1) s d z M = M * s + z := by rw [lolliHeight, if_pos (by omega)]
  have ht : lolliHeight (M + 1) s d z (M + 2) = M * s + z + s + d := by rw [lolliHeight, if_neg (by omega)]; push_cast; ring
  have rl : lolliRadius (M + 1) a b (M + 1) = a := by rw [lolliRadius, if_pos (by omega)]
  have rm : lolliRadius (M + 1) a b M = a := by rw [lolliRadius, if_pos (by omega)]
  have rt : lolliRadius (M + 1) a b (M + 2) = b := by rw [lolliRadius, if_neg (by omega)]
  obtain ⟨u0, hu⟩ := row_volume (stick_ordered (M + 1) (b := b) (d := d) (z := z) ha hs)
  have e : rowVolume (M + 1 + 1) (lolliHeight (M + 1) s d z) (lolliRadius (M + 1) a b) =
      rowVolume (M + 1) (lolliHeight (M + 1) s d z) (lolliRadius (M + 1) a b) + 4 / 3 * Real.pi * b ^ 3 - common a b d := by
    unfold rowVolume
    rw [Finset.sum_range_succ _ (M + 1 + 1), Finset.sum_range_succ (fun k => common (lolliRadius (M + 1) a b k) (lolliRadius (M + 1) a b (k + 1)) (lolliHeight (M + 1) s d z (k + 1) - lolliHeight (M + 1) s d z k)) (M + 1)]
    rw [show M + 1 + 1 = M + 2 from rfl, hl, ht, rl, rt, show M * s + z + s + d - (M * s + z + s) = d by ring]
    ring
  have hB := ball_volume (M * s + z + s + d) hb
  have hC := common_volume (M * s + z + s) ha hb hd hd1.le hd2.le
  have c0 := common_nonneg ha hb hd hd1.le hd2.le
  rw [e, balls_succ, show M + 1 + 1 = M + 2 from rfl, ht, rt] at hv
  have hsum := measure_union_add_inter (μ := volume) (points (Balls3 (row (M + 2) (lolliHeight (M + 1) s d z) (lolliRadius (M + 1) a b)))) (measurable_ball (M * s + z + s + d) b)
  rw [hv, hB, show points (Balls3 (row (M + 2) (lolliHeight (M + 1) s d z) (lolliRadius (M + 1) a b))) = points (Balls3 (row (M + 1 + 1) (lolliHeight (M + 1) s d z) (lolliRadius (M + 1) a b))) from rfl, hu,
    ← ENNReal.ofReal_add u0 (by positivity)] at hsum
  have hbig : ENNReal.ofReal (common a b d) < volume (points (Balls3 (row (M + 1 + 1) (lolliHeight (M + 1) s d z) (lolliRadius (M + 1) a b))) ∩ points (Ball ⟨0, 0, M * s + z + s + d⟩ b)) := by
    have hpos := beyond_volume (z := M * s + z) ha hb hs hd1 hd2 hd h
    rw [← hC]
    have hsub : (points (Ball ⟨0, 0, M * s + z + s⟩ a) ∩ points (Ball ⟨0, 0, M * s + z + s + d⟩ b)) ∪
        ((points (Ball ⟨0, 0, M * s + z⟩ a) ∩ points (Ball ⟨0, 0, M * s + z + s + d⟩ b)) \ points (Ball ⟨0, 0, M * s + z + s⟩ a)) ⊆
        points (Balls3 (row (M + 1 + 1) (lolliHeight (M + 1) s d z) (lolliRadius (M + 1) a b))) ∩ points (Ball ⟨0, 0, M * s + z + s + d⟩ b) := by
      rintro p (⟨h1, h2⟩ | ⟨⟨h1, h2⟩, _⟩)
      · refine ⟨⟨⟨⟨0, 0, M * s + z + s⟩, a⟩, ?_, h1⟩, h2⟩
        exact List.mem_map.mpr ⟨M + 1, List.mem_range.mpr (by omega), by rw [hl, rl]⟩
      · refine ⟨⟨⟨⟨0, 0, M * s + z⟩, a⟩, ?_, h1⟩, h2⟩
        exact List.mem_map.mpr ⟨M, List.mem_range.mpr (by omega), by rw [hm, rm]⟩
    refine lt_of_lt_of_le ?_ (measure_mono hsub)
    rw [measure_union]
    · refine ENNReal.lt_add_right ?_ hpos.ne'
      rw [hC]
      exact ENNReal.ofReal_ne_top
    · rw [Set.disjoint_left]
      rintro p ⟨h1, _⟩ ⟨_, h2⟩
      exact h2 h1
    · exact ((measurable_ball _ _).inter (measurable_ball _ _)).diff (measurable_ball _ _)
  have hle : common a b d ≤ rowVolume (M + 1) (lolliHeight (M + 1) s d z) (lolliRadius (M + 1) a b) + 4 / 3 * Real.pi * b ^ 3 := by
    have : ENNReal.ofReal (common a b d) ≤ ENNReal.ofReal (4 / 3 * Real.pi * b ^ 3) := by
      rw [← hC, ← hB]
      exact measure_mono Set.inter_subset_right
    have := (ENNReal.ofReal_le_ofReal_iff (by positivity)).mp this
    linarith
  have hlt := ENNReal.add_lt_add_left (a := ENNReal.ofReal (rowVolume (M + 1) (lolliHeight (M + 1) s d z) (lolliRadius (M + 1) a b) + 4 / 3 * Real.pi * b ^ 3 - common a b d)) ENNReal.ofReal_ne_top hbig
  rw [hsum, ← ENNReal.ofReal_add (by linarith) c0, sub_add_cancel] at hlt
  exact lt_irrefl _ hlt

/-- Common parts of neighbours in the stick. -/
theorem stickOverlaps_eq {N : Nat} {c r : Nat → ℝ} {a p : ℝ} (h0 : r 0 = a) (ha : 0 < a) (hp : p < 2 * a) : stickOverlaps (row (N + 2) c r) p = .ok (N * common a a (2 * a - p)) := by
  rw [stickOverlaps, row_length, front_row, h0, Nat.add_sub_cancel]
  split
  · rename_i h
    simp only [Outcome.ok_bind]
    rw [sphericalCap, decide_eq_true ha.le, decide_eq_true (by linarith)]
    simp only [Outcome.require_true, Outcome.ok_bind]
    rw [common, if_pos (by linarith)]
    congr 1
    have : 2 * a - p ≠ 0 := by linarith
    field_simp
    ring
  · rename_i h
    rw [common_far (by linarith), mul_zero]

theorem tipOverlap_eq {N : Nat} {c r : Nat → ℝ} {a b d p : ℝ} (ra : r N = a) (rb : r (N + 1) = b) (hc : c (N + 1) - c N = d) (ha : 0 < a) (hb : 0 < b) (hd : 0 < d) (e : d = a + b - p) :
    tipOverlap (row (N + 2) c r) p = .ok (common a b d) := by
  rw [tipOverlap, row_length, show N + 2 - 1 = N + 1 from rfl, Nat.add_sub_cancel, vget_row (by omega), vget_row (by omega)]
  split
  · rename_i h
    simp only [Outcome.ok_bind, ra, rb, hc]
    rw [intersection_eq hb ha hd (by linarith), common_comm]
  · rename_i h
    rw [common_far (by linarith)]

theorem lollipopVolume_eq {N : Nat} {a b p q z : ℝ} (ha : 0 < a) (hb : 0 < b) (hp : p < 2 * a) (hd : 0 < a + b - q) :
    lollipopVolume (row (N + 2) (lolliHeight N (2 * a - p) (a + b - q) z) (lolliRadius N a b)) p q = .ok (rowVolume (N + 1) (lolliHeight N (2 * a - p) (a + b - q) z) (lolliRadius N a b)) := by
  have hl : lolliHeight N (2 * a - p) (a + b - q) z N = N * (2 * a - p) + z := by rw [lolliHeight, if_pos (by omega)]
  have ht : lolliHeight N (2 * a - p) (a + b - q) z (N + 1) = N * (2 * a - p) + (a + b - q) + z := by rw [lolliHeight, if_neg (by omega)]
  have rl : lolliRadius N a b N = a := by rw [lolliRadius, if_pos (by omega)]
  have rt : lolliRadius N a b (N + 1) = b := by rw [lolliRadius, if_neg (by omega)]
  rw [lollipopVolume, stickOverlaps_eq (by rw [lolliRadius, if_pos (by omega)]) ha hp, Outcome.ok_bind, tipOverlap_eq rl rt (d := a + b - q) (by rw [hl, ht]; ring) ha hb hd rfl, Outcome.ok_bind, baseVolume_row]
  unfold rowVolume
  rw [Finset.sum_range_succ (fun k => common (lolliRadius N a b k) (lolliRadius N a b (k + 1)) (lolliHeight N (2 * a - p) (a + b - q) z (k + 1) - lolliHeight N (2 * a - p) (a + b - q) z k)) N, hl, ht, rl, rt]
  have : ∑ k ∈ Finset.range N, common (lolliRadius N a b k) (lolliRadius N a b (k + 1)) (lolliHeight N (2 * a - p) (a + b - q) z (k + 1) - lolliHeight N (2 * a - p) (a + b - q) z k) = N * common a a (2 * a - p) := by
    rw [Finset.sum_congr rfl (g := fun _ => common a a (2 * a - p))]
    · simp
    · intro k hk
      have hk := Finset.mem_range.mp hk
      rw [lolliRadius, lolliRadius, lolliHeight, lolliHeight, if_pos (by omega), if_pos (by omega), if_pos (by omega), if_pos (by omega)]
      congr 1
      push_cast
      ring
  rw [this, show N * (2 * a - p) + (a + b - q) + z - (N * (2 * a - p) + z) = a + b - q by ring]
  congr 1
  ring

/-- The middle between ends of a lollipop. -/
noncomputable def lolliShift (N : Nat) (a b p q : ℝ) : ℝ := -((-a + (N * (2 * a - p) + (a + b - q) + b)) / 2)

theorem lollipop_eq {N : Nat} {a b p q : ℝ} (ha : 0 < a) (hb : 0 < b) (hp : p < 2 * a) (hqa : q < 2 * a) (hqb : q < 2 * b) :
    ∃ m, lollipop (N + 2) a b p q = .ok m ∧ m.spheres = row (N + 2) (lolliHeight N (2 * a - p) (a + b - q) (lolliShift N a b p q)) (lolliRadius N a b) ∧
      m.volume = rowVolume (N + 1) (lolliHeight N (2 * a - p) (a + b - q) (lolliShift N a b p q)) (lolliRadius N a b) ∧ m.geometry.primary = some ⟨0, 0, 1⟩ ∧ m.geometry.secondary = none ∧ m.geometry.origin = 0 ∧
      m.geometry.points = spherePoints m.spheres ++ ([("ss", ⟨0, 0, lolliHeight N (2 * a - p) (a + b - q) (lolliShift N a b p q) 0⟩), ("st", ⟨0, 0, lolliHeight N (2 * a - p) (a + b - q) (lolliShift N a b p q) (N + 1)⟩)] ++
        if decide (p = 0) && decide (q = 0) then [("cm", massCentre m.spheres)] else []) ∧
      (m.geometry.points.map Prod.fst).Nodup := by
  obtain ⟨m, hm, h1, h2, h3, h4, h5, h6, h7⟩ := finish_ok (N := N + 1) (c := lolliHeight N (2 * a - p) (a + b - q) (lolliShift N a b p q)) (r := lolliRadius N a b)
    (v := rowVolume (N + 1) (lolliHeight N (2 * a - p) (a + b - q) (lolliShift N a b p q)) (lolliRadius N a b)) (decide (p = 0) && decide (q = 0)) (show "ss" ≠ "st" by decide) not_ss not_st (by decide) (by decide)
  have hrow := lolli_row N a b (2 * a - p) (a + b - q) 0
  simp only [add_zero] at hrow
  have hpos : ∀ k < N + 1 + 1, 0 < lolliRadius N a b k := by
    intro k _
    unfold lolliRadius
    split
    · exact ha
    · exact hb
  have hshift : row (N + 1 + 1) (fun k => lolliHeight N (2 * a - p) (a + b - q) 0 k + -((lolliHeight N (2 * a - p) (a + b - q) 0 0 - lolliRadius N a b 0 + (lolliHeight N (2 * a - p) (a + b - q) 0 (N + 1) + lolliRadius N a b (N + 1))) / 2))
      (lolliRadius N a b) = row (N + 2) (lolliHeight N (2 * a - p) (a + b - q) (lolliShift N a b p q)) (lolliRadius N a b) := by
    apply row_congr
    · intro k _
      rw [lolliHeight, lolliHeight, lolliHeight, lolliHeight, lolliShift, lolliRadius, lolliRadius, if_pos (by omega : 0 ≤ N), if_pos (by omega : 0 ≤ N), if_neg (by omega : ¬ N + 1 ≤ N), if_neg (by omega : ¬ N + 1 ≤ N)]
      push_cast
      ring
    · intro k _; rfl
  refine ⟨m, ?_, h1, h2, h3, h4, h5, by rw [h1]; exact h6, h7⟩
  rw [lollipop, decide_eq_true (show N + 2 ≥ 2 by omega), decide_eq_true ha, decide_eq_true hb, decide_eq_true hp, decide_eq_true (show q < 2 * min a b by rcases min_cases a b with h | h <;> linarith),
    show N + 2 - 1 = N + 1 from rfl, stickSpheres_eq ha]
  simp only [Outcome.require_true, Outcome.ok_bind]
  rw [make_ok hb]
  simp only [Outcome.ok_bind, zero_add]
  simp only [zero_add] at hrow
  rw [hrow, centred_row hpos, hshift, Outcome.ok_bind, lollipopOf, lollipopVolume_eq ha hb hp (by linarith), Outcome.ok_bind]
  exact hm

end Composite

/-- C103 for lollipops: they are built exactly for at least two spheres, positive radii, a penetration of the stick smaller than its diameter and a penetration of the tip smaller than both diameters; all spheres but the last one have the radius of the stick,
neighbours penetrate each other to the given depths, both ends are equally far from the origin, points are at the ends and at all spheres, the mass centre is given when spheres touch. The volume is the volume of the body exactly if there is only one sphere
in the stick or the tip does not reach too far: rt² ≤ rs² + d² + d s, where d is the distance of centres of the tip and of its neighbour and s the distance in the stick. This is the case if the tip penetrates the stick not deeper than the radius of the stick. -/
theorem C103_lollipop (n : Nat) (a b p q : ℝ) :
    ((∃ m, lollipop n a b p q = .ok m) ↔ 2 ≤ n ∧ 0 < a ∧ 0 < b ∧ p < 2 * a ∧ q < 2 * a ∧ q < 2 * b) ∧
    ∀ m, lollipop n a b p q = .ok m → m.spheres.length = n ∧
      (∀ (k : Nat) (s : SphereData), m.spheres[k]? = some s → s.position.x = 0 ∧ s.position.y = 0 ∧ s.radius = if k + 1 < n then a else b) ∧
      (∀ (k : Nat) (s s' : SphereData), m.spheres[k]? = some s → m.spheres[k + 1]? = some s' → s'.position.z - s.position.z = s.radius + s'.radius - if k + 2 < n then p else q) ∧
      (∀ s s' : SphereData, m.spheres[0]? = some s → m.spheres[n - 1]? = some s' → s.position.z - s.radius = -(s'.position.z + s'.radius)) ∧
      (HasVolume (Balls3 m.spheres) m.volume ↔ n = 2 ∨ b ^ 2 ≤ a ^ 2 + (a + b - q) ^ 2 + (a + b - q) * (2 * a - p)) ∧ (∀ s, m.geometry.getPrimaryAxis s = .ok (s.rot.mulVec ⟨0, 0, 1⟩)) ∧ m.geometry.secondary = none ∧
      (∀ (k : Nat) (s : SphereData), m.spheres[k]? = some s → m.geometry.getNamedPoint ("s" ++ toString k) = .ok s.position) ∧ m.geometry.getNamedPoint "o" = .ok 0 ∧
      (∀ s, m.spheres[0]? = some s → m.geometry.getNamedPoint "ss" = .ok s.position) ∧ (∀ s, m.spheres[n - 1]? = some s → m.geometry.getNamedPoint "st" = .ok s.position) ∧
      (p = 0 → q = 0 → ∃ c, m.geometry.getNamedPoint "cm" = .ok c ∧ Balances m.spheres c) := by
  have hreq : ∀ m, lollipop n a b p q = .ok m → 2 ≤ n ∧ 0 < a ∧ 0 < b ∧ p < 2 * a ∧ q < 2 * a ∧ q < 2 * b := by
    intro m hm
    unfold lollipop at hm
    obtain ⟨_, h1, hm⟩ := Outcome.bind_eq_ok.mp hm
    obtain ⟨_, h2, hm⟩ := Outcome.bind_eq_ok.mp hm
    obtain ⟨_, h3, hm⟩ := Outcome.bind_eq_ok.mp hm
    obtain ⟨_, h4, hm⟩ := Outcome.bind_eq_ok.mp hm
    obtain ⟨_, h5, hm⟩ := Outcome.bind_eq_ok.mp hm
    have h5 := of_decide_eq_true (Outcome.require_eq_ok.mp h5)
    have h6 := min_le_left a b
    have h7 := min_le_right a b
    exact ⟨of_decide_eq_true (Outcome.require_eq_ok.mp h1), of_decide_eq_true (Outcome.require_eq_ok.mp h2), of_decide_eq_true (Outcome.require_eq_ok.mp h3), of_decide_eq_true (Outcome.require_eq_ok.mp h4), by linarith, by linarith⟩
  refine ⟨⟨fun ⟨m, hm⟩ => hreq m hm, ?_⟩, ?_⟩
  · rintro ⟨hn, ha, hb, hp, hqa, hqb⟩
    obtain ⟨N, rfl⟩ : ∃ k, n = k + 2 := ⟨n - 2, by omega⟩
    obtain ⟨m, hm, _⟩ := lollipop_eq (N := N) ha hb hp hqa hqb
    exact ⟨m, hm⟩
  · intro m hm
    obtain ⟨hn, ha, hb, hp, hqa, hqb⟩ := hreq m hm
    obtain ⟨N, rfl⟩ : ∃ k, n = k + 2 := ⟨n - 2, by omega⟩
    obtain ⟨m', hm', hs, hv, hp1, hp2, hor, hpts, hnd⟩ := lollipop_eq (N := N) ha hb hp hqa hqb
    obtain rfl : m' = m := Outcome.ok_inj.mp (hm'.symm.trans hm)
    obtain ⟨hk, hl⟩ := named_all hpts hnd
    have get : ∀ {k : Nat} {s : SphereData}, m'.spheres[k]? = some s → k < N + 2 ∧ s = ⟨⟨0, 0, lolliHeight N (2 * a - p) (a + b - q) (lolliShift N a b p q) k⟩, lolliRadius N a b k⟩ := by
      intro k s h
      have hlt : k < N + 2 := by
        have := (List.getElem?_eq_some_iff.mp h).1
        rwa [hs, row_length] at this
      rw [hs, row_get hlt] at h
      exact ⟨hlt, (Option.some.inj h).symm⟩
    refine ⟨by rw [hs, row_length], ?_, ?_, ?_, ?_, ?_, hp2, hk, ?_, ?_, ?_, ?_⟩
    · intro k s h
      obtain ⟨_, rfl⟩ := get h
      refine ⟨rfl, rfl, ?_⟩
      show lolliRadius N a b k = _
      rw [lolliRadius]
      simp only [show k ≤ N ↔ k + 1 < N + 2 by omega]
    · intro k s s' h h'
      obtain ⟨_, rfl⟩ := get h
      obtain ⟨h2, rfl⟩ := get h'
      show lolliHeight N _ _ _ (k + 1) - lolliHeight N _ _ _ k = lolliRadius N a b k + lolliRadius N a b (k + 1) - _
      rw [lolliHeight, lolliHeight, lolliRadius, lolliRadius, if_pos (by omega : k ≤ N), if_pos (by omega : k ≤ N)]
      by_cases hlast : k + 1 ≤ N
      · rw [if_pos hlast, if_pos hlast, if_pos (by omega)]
        push_cast
        ring
      · obtain rfl : k = N := by omega
        rw [if_neg hlast, if_neg hlast, if_neg (by omega)]
        ring
    · intro s s' h h'
      rw [show N + 2 - 1 = N + 1 from rfl] at h'
      obtain ⟨_, rfl⟩ := get h
      obtain ⟨_, rfl⟩ := get h'
      show lolliHeight N _ _ _ 0 - lolliRadius N a b 0 = -(lolliHeight N _ _ _ (N + 1) + lolliRadius N a b (N + 1))
      rw [lolliHeight, lolliHeight, lolliRadius, lolliRadius, if_pos (by omega : 0 ≤ N), if_pos (by omega : 0 ≤ N), if_neg (by omega : ¬ N + 1 ≤ N), if_neg (by omega : ¬ N + 1 ≤ N), lolliShift]
      push_cast
      ring
    · rw [hs, hv]
      constructor
      · intro h
        by_contra hc
        push Not at hc
        exact lolli_wrong ha hb (by linarith) (by linarith) (by linarith) (by linarith) (by omega) hc.2 h
      · intro h
        exact row_volume (lolli_ordered ha hb (by linarith) (by linarith) (by linarith) (by linarith) (h.imp (by omega) id))
    · intro s; rw [Geometry.getPrimaryAxis, hp1]
    · rw [Geometry.getNamedPoint, if_pos rfl, Geometry.getGeometricOrigin, hor]
      congr 1
      ext <;> simp [Mat3.mulVec, Vec3.dot]
    · intro s h
      obtain ⟨_, rfl⟩ := get h
      refine hl "ss" _ (by decide) (by simp)
    · intro s h
      rw [show N + 2 - 1 = N + 1 from rfl] at h
      obtain ⟨_, rfl⟩ := get h
      refine hl "st" _ (by decide) (by simp)
    · intro h0 h1
      refine ⟨massCentre m'.spheres, hl "cm" _ (by decide) (by rw [decide_eq_true h0, decide_eq_true h1]; simp), ?_⟩
      refine (C72_balances (by rw [hs]; exact row_ne (N + 1) _ _) ?_ _).mpr rfl
      intro s h
      rw [hs] at h
      obtain ⟨k, hk, rfl⟩ := List.mem_map.mp h
      show 0 < lolliRadius N a b k
      unfold lolliRadius
      split
      · exact ha
      · exact hb

/-- C103 fails for lollipops: three spheres, the stick with the radius 1 and the penetration 3/2, the tip with the radius 10 and the penetration 19/10, are allowed, and the volume is wrong. -/
theorem C103_lollipop_violated : ∃ m, lollipop 3 1 10 (3 / 2) (19 / 10) = .ok m ∧ ¬ HasVolume (Balls3 m.spheres) m.volume := by
  obtain ⟨m, hm⟩ := (C103_lollipop 3 1 10 (3 / 2) (19 / 10)).1.mpr (by norm_num)
  refine ⟨m, hm, ?_⟩
  rw [((C103_lollipop 3 1 10 (3 / 2) (19 / 10)).2 m hm).2.2.2.2.1]
  norm_num

/-- A lollipop of four spheres with the right volume. -/
example : ∃ m, lollipop 4 (1 / 2) 1 (1 / 10) (1 / 10) = .ok m ∧ HasVolume (Balls3 m.spheres) m.volume := by
  obtain ⟨m, hm⟩ := (C103_lollipop 4 (1 / 2) 1 (1 / 10) (1 / 10)).1.mpr (by norm_num)
  exact ⟨m, hm, ((C103_lollipop 4 (1 / 2) 1 (1 / 10) (1 / 10)).2 m hm).2.2.2.2.1.mpr (by norm_num)⟩

end Rampack
