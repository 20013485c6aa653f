import Verif.Domain.Model
import Verif.Packing.ObsLemmas
import Mathlib.Order.SuccPred.IntervalSucc
import Mathlib.Algebra.Order.Floor.Ring
/-
Helper lemmas: domains along one axis.
-/
namespace Rampack.Domain

theorem cround_near (x : ℝ) : |(cround x : ℝ) - x| ≤ 1 / 2 := by
  unfold cround
  rw [abs_le]
  split
  · have h1 := Int.floor_le (x + 1 / 2)
    have h2 := Int.lt_floor_add_one (x + 1 / 2)
    constructor <;> linarith
  · have h1 := Int.le_ceil (x - 1 / 2)
    have h2 := Int.ceil_lt_add_one (x - 1 / 2)
    constructor <;> linarith

theorem realMiddle_near {n : Nat} (hn : 0 < n) (o : ℝ) (d idx : Nat) :
    |realMiddle o d n idx - (o + idx * (1 / (d : ℝ)))| ≤ 1 / n / 2 := by
  have hn' : (0 : ℝ) < n := by exact_mod_cast hn
  have h := cround_near ((o + idx * (1 / (d : ℝ))) * n - 1 / 2)
  unfold realMiddle
  simp only []
  have e : ((cround ((o + idx * (1 / (d : ℝ))) * n - 1 / 2) : ℝ) + 1 / 2) / n - (o + idx * (1 / (d : ℝ))) =
      ((cround ((o + idx * (1 / (d : ℝ))) * n - 1 / 2) : ℝ) - ((o + idx * (1 / (d : ℝ))) * n - 1 / 2)) / n := by
    field_simp; ring
  rw [e, abs_div, abs_of_pos hn', div_le_iff₀ hn']
  have : (1 : ℝ) / n / 2 * n = 1 / 2 := by field_simp
  rw [this]; exact h

theorem fit_fract {x : ℝ} (h0 : -1 ≤ x) (h1 : x < 2) : fit x = Int.fract x := by
  unfold fit Int.fract
  split
  · have : ⌊x⌋ = -1 := by rw [Int.floor_eq_iff]; push_cast; constructor <;> linarith
    rw [this]; push_cast; ring
  · split
    · have : ⌊x⌋ = 1 := by rw [Int.floor_eq_iff]; push_cast; constructor <;> linarith
      rw [this]; push_cast; ring
    · have : ⌊x⌋ = 0 := by rw [Int.floor_eq_iff]; push_cast; constructor <;> linarith
      rw [this]; push_cast; ring

/-- The test of bounds wrapped into the unit interval. -/
theorem within_iff {a b r : ℝ} (hab : a < b) (hb : b < a + 1) (h0 : 0 ≤ r) (h1 : r < 1) :
    within ⟨Int.fract a, Int.fract b⟩ r = true ↔ ∃ t : ℤ, a < r + t ∧ r + t < b := by
  have ha1 := Int.floor_add_fract a
  have ha2 := Int.fract_nonneg a
  have ha3 := Int.fract_lt_one a
  have hb1 := Int.floor_add_fract b
  have hb2 := Int.fract_nonneg b
  have hb3 := Int.fract_lt_one b
  set A := Int.fract a
  set B := Int.fract b
  have hfl : ⌊b⌋ = ⌊a⌋ ∨ ⌊b⌋ = ⌊a⌋ + 1 := by
    have p1 : (⌊a⌋ : ℝ) < ⌊b⌋ + 1 := by linarith
    have p2 : (⌊b⌋ : ℝ) < ⌊a⌋ + 2 := by linarith
    have q1 : ⌊a⌋ < ⌊b⌋ + 1 := by exact_mod_cast p1
    have q2 : ⌊b⌋ < ⌊a⌋ + 2 := by exact_mod_cast p2
    omega
  unfold within
  simp only
  rcases hfl with hf | hf
  · rw [hf] at hb1
    have hAB : A < B := by linarith
    rw [if_pos hAB]
    simp only [Bool.not_eq_true', Bool.or_eq_false_iff, decide_eq_false_iff_not, not_le, ge_iff_le]
    constructor
    · rintro ⟨p, q⟩
      exact ⟨⌊a⌋, by linarith, by linarith⟩
    · rintro ⟨t, p, q⟩
      have p1 : (⌊a⌋ : ℝ) < t + 1 := by linarith
      have p2 : (t : ℝ) < ⌊a⌋ + 1 := by linarith
      have q1 : ⌊a⌋ < t + 1 := by exact_mod_cast p1
      have q2 : t < ⌊a⌋ + 1 := by exact_mod_cast p2
      have : t = ⌊a⌋ := by omega
      subst this
      constructor <;> linarith
  · rw [hf] at hb1
    push_cast at hb1
    have hAB : ¬ A < B := by linarith
    rw [if_neg hAB]
    simp only [Bool.not_eq_true', Bool.and_eq_false_iff, decide_eq_false_iff_not, not_le, ge_iff_le]
    constructor
    · rintro (p | p)
      · exact ⟨⌊a⌋, by linarith, by linarith⟩
      · exact ⟨⌊a⌋ + 1, by push_cast; linarith, by push_cast; linarith⟩
    · rintro ⟨t, p, q⟩
      have p1 : (⌊a⌋ : ℝ) < t + 1 := by linarith
      have p2 : (t : ℝ) < ⌊a⌋ + 2 := by linarith
      have q1 : ⌊a⌋ < t + 1 := by exact_mod_cast p1
      have q2 : t < ⌊a⌋ + 2 := by exact_mod_cast p2
      have : t = ⌊a⌋ ∨ t = ⌊a⌋ + 1 := by omega
      rcases this with rfl | rfl
      · left; linarith
      · right; push_cast at q; linarith

/-- Parameters of a divided axis which passed the check for narrowness. `w` is the relative width of ghost layers. -/
structure AxisOk (o : ℝ) (d n : Nat) (w : ℝ) : Prop where
  two : 2 ≤ d
  cells : 0 < n
  o0 : 0 ≤ o
  o1 : o < 1
  cell_le : 1 / (n : ℝ) ≤ w
  wide : 1 / (n : ℝ) < 1 / (d : ℝ) - w

variable {o : ℝ} {d n : Nat} {w : ℝ}

namespace AxisOk

theorem npos (h : AxisOk o d n w) : (0 : ℝ) < n := by exact_mod_cast h.cells

theorem dpos (h : AxisOk o d n w) : (0 : ℝ) < d := by have := h.two; exact_mod_cast (by omega : 0 < d)

theorem cpos (h : AxisOk o d n w) : (0 : ℝ) < 1 / n := by have := h.npos; positivity

theorem half (h : AxisOk o d n w) : 1 / (d : ℝ) ≤ 1 / 2 := by
  have : (2 : ℝ) ≤ d := by exact_mod_cast h.two
  exact one_div_le_one_div_of_le (by norm_num) this

theorem dinv (h : AxisOk o d n w) : (d : ℝ) * (1 / d) = 1 := by have := h.dpos; field_simp

/-- All middles of ghost layers of the periodic system. -/
noncomputable def _root_.Rampack.Domain.mid (o : ℝ) (d n : Nat) (m : ℤ) : ℝ := realMiddle o d n (m % d).toNat + (m / d : ℤ)

theorem mid_nat (h : AxisOk o d n w) {i : Nat} (hi : i < d) : mid o d n i = realMiddle o d n i := by
  unfold mid
  have h1 : ((i : ℤ) % d) = i := Int.emod_eq_of_lt (by omega) (by exact_mod_cast hi)
  have h2 : ((i : ℤ) / d) = 0 := Int.ediv_eq_zero_of_lt (by omega) (by exact_mod_cast hi)
  rw [h1, h2]; simp

theorem mid_add (h : AxisOk o d n w) (m q : ℤ) : mid o d n (m + d * q) = mid o d n m + q := by
  have hd : (d : ℤ) ≠ 0 := by have := h.two; omega
  unfold mid
  rw [Int.add_mul_emod_self_left, Int.add_mul_ediv_left _ _ hd]
  push_cast; ring

theorem mid_near (h : AxisOk o d n w) (m : ℤ) : |mid o d n m - (o + m * (1 / (d : ℝ)))| ≤ 1 / n / 2 := by
  have hd : (d : ℤ) ≠ 0 := by have := h.two; omega
  have hk := realMiddle_near h.cells o d (m % d).toNat
  have e : ((m % d).toNat : ℝ) = ((m % d : ℤ) : ℝ) := by
    have : 0 ≤ m % d := Int.emod_nonneg _ hd
    exact_mod_cast (Int.toNat_of_nonneg this)
  have e2 : (m : ℝ) = ((m % d : ℤ) : ℝ) + d * ((m / d : ℤ) : ℝ) := by exact_mod_cast (Int.emod_add_mul_ediv m d).symm
  unfold mid
  rw [e] at hk
  have e3 : (m : ℝ) * (1 / d) = ((m % d : ℤ) : ℝ) * (1 / d) + ((m / d : ℤ) : ℝ) := by
    rw [e2, add_mul]
    have := h.dinv
    linear_combination ((m / d : ℤ) : ℝ) * this
  rw [e3]
  have e4 : realMiddle o d n (m % d).toNat + ((m / d : ℤ) : ℝ) - (o + (((m % d : ℤ) : ℝ) * (1 / d) + ((m / d : ℤ) : ℝ))) =
      realMiddle o d n (m % d).toNat - (o + ((m % d : ℤ) : ℝ) * (1 / d)) := by ring
  rw [e4]; exact hk

theorem mid_step (h : AxisOk o d n w) (m : ℤ) : mid o d n m + w < mid o d n (m + 1) := by
  have h1 := abs_le.mp (h.mid_near m)
  have h2 := abs_le.mp (h.mid_near (m + 1))
  have h3 := h.wide
  push_cast at h2
  have : ((m : ℝ) + 1) * (1 / d) = m * (1 / d) + 1 / d := by ring
  rw [this] at h2
  linarith [h1.1, h1.2, h2.1, h2.2]

theorem wpos (h : AxisOk o d n w) : 0 < w := lt_of_lt_of_le h.cpos h.cell_le

theorem mid_mono (h : AxisOk o d n w) : StrictMono (mid o d n) :=
  strictMono_int_of_lt_succ fun m => by have := h.mid_step m; have := h.wpos; linarith

/-- Middles are middles of cells. -/
theorem mid_cell (h : AxisOk o d n w) (m : ℤ) : ∃ K : ℤ, mid o d n m * n = K + 1 / 2 := by
  have hn := h.npos
  unfold mid realMiddle
  refine ⟨cround ((o + (m % d).toNat * (1 / (d : ℝ))) * n - 1 / 2) + (m / d) * n, ?_⟩
  simp only []
  push_cast
  field_simp
  ring

/-- The relative interval of the domain number `m` of the periodic system. -/
def _root_.Rampack.Domain.InGap (o : ℝ) (d n : Nat) (w : ℝ) (m : ℤ) (x : ℝ) : Prop :=
  mid o d n m + w / 2 < x ∧ x < mid o d n (m + 1) - w / 2

theorem gap_shift (h : AxisOk o d n w) {m : ℤ} {x : ℝ} (hx : InGap o d n w m x) (q : ℤ) : InGap o d n w (m + d * q) (x + q) := by
  unfold InGap at *
  rw [h.mid_add, show m + (d : ℤ) * q + 1 = m + 1 + d * q by ring, h.mid_add]
  constructor <;> linarith [hx.1, hx.2]

/-- Different domains are separated by more than a ghost layer. -/
theorem gap_apart (h : AxisOk o d n w) {m m' : ℤ} {x y : ℝ} (hx : InGap o d n w m x) (hy : InGap o d n w m' y) (hm : m < m') :
    w < y - x := by
  have : mid o d n (m + 1) ≤ mid o d n m' := h.mid_mono.monotone (by omega)
  linarith [hx.1, hx.2, hy.1, hy.2]

/-- Points close to different domains are in cells which are not neighbours. -/
theorem gap_cells (h : AxisOk o d n w) {m m' : ℤ} {x y x' y' e : ℝ} (hx : InGap o d n w m x) (hy : InGap o d n w m' y) (hm : m < m')
    (he : 1 / (n : ℝ) + 2 * e ≤ w) (hx' : |x' - x| ≤ e) (hy' : |y' - y| ≤ e) : ⌊x' * n⌋ + 2 ≤ ⌊y' * n⌋ := by
  have hn := h.npos
  obtain ⟨K, hK⟩ := h.mid_cell (m + 1)
  have hmm : mid o d n (m + 1) ≤ mid o d n m' := h.mid_mono.monotone (by omega)
  have h1 := abs_le.mp hx'
  have h2 := abs_le.mp hy'
  have hc : (1 : ℝ) / n * n = 1 := by field_simp
  have a1 : x' < mid o d n (m + 1) - 1 / n / 2 := by linarith [hx.2, h1.2]
  have a2 : mid o d n (m + 1) + 1 / n / 2 < y' := by linarith [hy.1, h2.1]
  have b1 : x' * n < K := by
    have := mul_lt_mul_of_pos_right a1 hn
    have e1 : (mid o d n (m + 1) - 1 / n / 2) * n = K := by rw [sub_mul, hK]; linear_combination (-1 / 2 : ℝ) * hc
    linarith
  have b2 : (K : ℝ) + 1 < y' * n := by
    have := mul_lt_mul_of_pos_right a2 hn
    have e1 : (mid o d n (m + 1) + 1 / n / 2) * n = K + 1 := by rw [add_mul, hK]; linear_combination (1 / 2 : ℝ) * hc
    linarith
  have c1 : ⌊x' * n⌋ < K := Int.floor_lt.mpr b1
  have c2 : K + 1 ≤ ⌊y' * n⌋ := Int.le_floor.mpr (by push_cast; linarith)
  omega

/-- Points of a domain have the right number of the domain. -/
theorem gap_domain (h : AxisOk o d n w) {k : Nat} (hk : k < d) {r : ℝ} (hr0 : 0 ≤ r) (hr1 : r < 1) {t : ℤ} (hd : d < 2 ^ 63)
    (hx : InGap o d n w k (r + t)) : domainCoord r o d = k := by
  have hd' := h.dpos
  have h1 := abs_le.mp (h.mid_near k)
  have h2 := abs_le.mp (h.mid_near (k + 1))
  have hc := h.cell_le
  push_cast at h1 h2
  have e : ((k : ℝ) + 1) * (1 / d) = k * (1 / d) + 1 / d := by ring
  rw [e] at h2
  have a1 : (k : ℝ) * (1 / d) < r + t - o := by linarith [hx.1, h1.1]
  have a2 : r + t - o < (k : ℝ) * (1 / d) + 1 / d := by linarith [hx.2, h2.2]
  have b1 := mul_lt_mul_of_pos_right a1 hd'
  have b2 := mul_lt_mul_of_pos_right a2 hd'
  have c1 : (k : ℝ) * (1 / d) * d = k := by field_simp
  have c2 : ((k : ℝ) * (1 / d) + 1 / d) * d = k + 1 := by field_simp
  rw [c1] at b1
  rw [c2] at b2
  have hfl : ⌊(r - o) * d⌋ = k - t * d := by
    rw [Int.floor_eq_iff]
    push_cast
    constructor <;> nlinarith
  have lo : -(d : ℤ) ≤ ⌊(r - o) * d⌋ := by
    rw [Int.le_floor]; push_cast; nlinarith [h.o1]
  have hi : ⌊(r - o) * d⌋ < d := by
    rw [Int.floor_lt]; push_cast; nlinarith [h.o0]
  unfold domainCoord
  simp only []
  have hd2 : (d : ℤ) < 2 ^ 63 := by exact_mod_cast hd
  rw [Int.emod_eq_of_lt (by omega) (by omega)]
  have : ((⌊(r - o) * (d : ℝ)⌋ + d).toNat : ℤ) % d = k := by
    rw [Int.toNat_of_nonneg (by omega), hfl, show (k : ℤ) - t * d + d = k + d * (1 - t) by ring, Int.add_mul_emod_self_left]
    exact Int.emod_eq_of_lt (by omega) (by omega)
  exact_mod_cast this

end AxisOk

end Rampack.Domain
