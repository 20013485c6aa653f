import Verif.Lattice.ArrangeSpec
import Mathlib.Tactic.IntervalCases
/-
Helper lemmas on the number of cells (C107).
-/
namespace Rampack

open Spec LatticeDimensions

/-- The first of the largest elements. -/
def firstMax (d : Vec3 Nat) : Fin 3 := if d.y ≤ d.x ∧ d.z ≤ d.x then 0 else if d.z ≤ d.y then 1 else 2

theorem firstMax_le (d : Vec3 Nat) (c : Fin 3) : d.get c ≤ d.get (firstMax d) := by
  unfold firstMax
  split_ifs with h1 h2 <;> fin_cases c <;> simp [Vec3.get] <;> omega

theorem increment_eq (d : Vec3 Nat) : increment d = d.put (firstMax d) ((d.get (firstMax d) + 1) % 2 ^ 64) := by
  unfold increment firstMax
  split_ifs with h1 h2 <;> rfl

theorem firstMax_put {d : Vec3 Nat} {j : Nat} (h : d.get (firstMax d) ≤ j) : firstMax (d.put (firstMax d) j) = firstMax d := by
  have hm := firstMax_le d
  have h0 := hm 0
  have h1 := hm 1
  have h2 := hm 2
  rcases e : firstMax d with ⟨a, ha⟩
  rw [e] at h h0 h1 h2
  unfold firstMax at e
  interval_cases a
  · simp [Vec3.get] at h h0 h1 h2
    simp [firstMax, Vec3.put, Vec3.ofFn, Vec3.get]
    omega
  · simp [Vec3.get] at h h0 h1 h2
    have : ¬ (d.y ≤ d.x ∧ d.z ≤ d.x) := by
      intro hh
      rw [if_pos hh] at e
      exact absurd (congrArg Fin.val e) (by simp)
    simp [firstMax, Vec3.put, Vec3.ofFn, Vec3.get]
    rw [if_neg (by omega), if_pos (by omega)]
  · simp [Vec3.get] at h h0 h1 h2
    have n1 : ¬ (d.y ≤ d.x ∧ d.z ≤ d.x) := by
      intro hh
      rw [if_pos hh] at e
      exact absurd (congrArg Fin.val e) (by simp)
    have n2 : ¬ d.z ≤ d.y := by
      intro hh
      rw [if_neg n1, if_pos hh] at e
      exact absurd (congrArg Fin.val e) (by simp)
    simp [firstMax, Vec3.put, Vec3.ofFn, Vec3.get]
    rw [if_neg (by omega), if_neg (by omega)]

theorem put_put (d : Vec3 Nat) (a : Fin 3) (i j : Nat) : (d.put a i).put a j = d.put a j := by
  fin_cases a <;> rfl

theorem put_get (d : Vec3 Nat) (a : Fin 3) (j : Nat) : (d.put a j).get a = j := by
  fin_cases a <;> rfl

theorem put_same (d : Vec3 Nat) (a : Fin 3) : d.put a (d.get a) = d := by
  fin_cases a <;> rfl

theorem cellCount_put {d : Vec3 Nat} (h : ∀ c, 0 < d.get c) (a : Fin 3) : ∃ m, 0 < m ∧ ∀ j, cellCount (d.put a j) = j * m := by
  have h0 : 0 < d.x := h 0
  have h1 : 0 < d.y := h 1
  have h2 : 0 < d.z := h 2
  fin_cases a
  · exact ⟨d.y * d.z, by positivity, fun j => by simp [cellCount, Vec3.put, Vec3.ofFn, Vec3.get]; ring⟩
  · exact ⟨d.x * d.z, by positivity, fun j => by simp [cellCount, Vec3.put, Vec3.ofFn, Vec3.get]; ring⟩
  · exact ⟨d.x * d.y, by positivity, fun j => by simp [cellCount, Vec3.put, Vec3.ofFn, Vec3.get]; ring⟩

theorem product_eq {d : Vec3 Nat} (h : cellCount d < 2 ^ 64) : product d = cellCount d := Nat.mod_eq_of_lt h

theorem grow_zero {N : Nat} (hN : 0 < N) : ∀ {fuel : Nat} {d : Vec3 Nat}, (∃ c, d.get c = 0) → grow fuel N d = .diverge := by
  have hp : ∀ {d : Vec3 Nat}, (∃ c, d.get c = 0) → product d < N := by
    rintro d ⟨c, hc⟩
    have : cellCount d = 0 := by
      unfold cellCount
      fin_cases c <;> simp [Vec3.get] at hc <;> simp [hc]
    rw [product_eq (by omega), this]
    exact hN
  intro fuel
  induction fuel with
  | zero => intro d h; rw [grow, if_pos (hp h)]
  | succ fuel ih =>
    intro d h
    rw [grow, if_pos (hp h)]
    apply ih
    obtain ⟨c, hc⟩ := h
    rw [increment_eq]
    by_cases hz : d.get (firstMax d) = 0
    · have hall : ∀ c, d.get c = 0 := fun c => by
        have := firstMax_le d c
        omega
      have : firstMax d = 0 := by
        have h0 : d.x = 0 := hall 0
        have h1 : d.y = 0 := hall 1
        have h2 : d.z = 0 := hall 2
        simp [firstMax, h0, h1, h2]
      exact ⟨1, by rw [this]; exact hall 1⟩
    · refine ⟨c, ?_⟩
      have hne : c ≠ firstMax d := by
        rintro rfl
        exact hz hc
      rcases e : firstMax d with ⟨a, ha⟩
      rw [e] at hne
      interval_cases a <;> fin_cases c <;> first | exact absurd rfl hne | exact hc

theorem grow_put {N : Nat} (hN : N < 2 ^ 60) {r : Vec3 Nat} (hr : ∀ c, 0 < r.get c) :
    ∀ {fuel j : Nat}, r.get (firstMax r) ≤ j → cellCount (r.put (firstMax r) j) < 2 ^ 63 → N ≤ fuel + j →
      ∃ k, j ≤ k ∧ grow fuel N (r.put (firstMax r) j) = .ok (r.put (firstMax r) k) ∧ N ≤ cellCount (r.put (firstMax r) k) ∧
        ∀ i, j ≤ i → i < k → cellCount (r.put (firstMax r) i) < N := by
  obtain ⟨m, hm, hmul⟩ := cellCount_put hr (firstMax r)
  have hpos := hr (firstMax r)
  intro fuel
  induction fuel with
  | zero =>
    intro j hj hs hf
    have : N ≤ cellCount (r.put (firstMax r) j) := by
      rw [hmul]
      nlinarith
    refine ⟨j, le_rfl, ?_, this, fun i h1 h2 => by omega⟩
    rw [grow, if_neg]
    rw [product_eq (by omega)]
    omega
  | succ fuel ih =>
    intro j hj hs hf
    by_cases hc : cellCount (r.put (firstMax r) j) < N
    · have hjm : j * m < N := by rw [← hmul]; exact hc
      have hjl : j < 2 ^ 60 := by nlinarith
      have hs' : cellCount (r.put (firstMax r) (j + 1)) < 2 ^ 63 := by
        rw [hmul]
        have : m ≤ j * m := Nat.le_mul_of_pos_left _ (by omega)
        have : (j + 1) * m = j * m + m := by ring
        omega
      obtain ⟨k, h1, h2, h3, h4⟩ := ih (j := j + 1) (by omega) hs' (by omega)
      refine ⟨k, by omega, ?_, h3, ?_⟩
      · rw [grow, if_pos (by rw [product_eq (by omega)]; exact hc), increment_eq, firstMax_put hj, put_get, put_put, Nat.mod_eq_of_lt (by omega)]
        exact h2
      · intro i hi hik
        rcases Nat.eq_or_lt_of_le hi with rfl | hi
        · exact hc
        · exact h4 i hi hik
    · refine ⟨j, le_rfl, ?_, by omega, fun i h1 h2 => by omega⟩
      rw [grow, if_neg]
      rw [product_eq (by omega)]
      exact hc

theorem cround_nearest {x : ℝ} {k : Nat} (hx : 0 ≤ x) (h : NearestInteger x k) : Domain.cround x = k := by
  unfold Domain.cround
  rw [if_pos hx, Int.floor_eq_iff]
  obtain ⟨h1, h2⟩ := h
  push_cast
  constructor <;> linarith

theorem numAllCells_eq {n s : Nat} (hs : 0 < s) : numAllCells n s = ⌈(n : ℝ) / s⌉₊ := by
  symm
  have hs' : (0 : ℝ) < s := by exact_mod_cast hs
  have hd := Nat.div_add_mod n s
  have hlt := Nat.mod_lt n hs
  unfold numAllCells
  split_ifs with h
  · have : (n : ℝ) / s = (n / s : ℕ) := by
      rw [div_eq_iff hs'.ne']
      rw [h, add_zero] at hd
      have : ((s * (n / s) : ℕ) : ℝ) = n := by rw [hd]
      push_cast at this ⊢
      linarith
    rw [this, Nat.ceil_natCast]
  · rw [Nat.ceil_eq_iff (Nat.succ_ne_zero _)]
    rw [Nat.succ_sub_one, lt_div_iff₀ hs', div_le_iff₀ hs']
    have e : (n : ℝ) = s * (n / s : ℕ) + (n % s : ℕ) := by exact_mod_cast hd.symm
    have h1 : (0 : ℝ) < (n % s : ℕ) := by exact_mod_cast Nat.pos_of_ne_zero h
    have h2 : ((n % s : ℕ) : ℝ) < s := by exact_mod_cast hlt
    constructor
    · rw [e]; nlinarith
    · rw [e]; push_cast; nlinarith

theorem cbrt_unique {t v : ℝ} (ht : 0 < t) (h : t ^ 3 = v) : v ^ (1 / 3 : ℝ) = t := by
  rw [← h, ← Real.rpow_natCast, ← Real.rpow_mul ht.le]
  norm_num

end Rampack
