import Verif.Lattice.ArrangeLemmas
import Verif.Lattice.PopProps
import Verif.Lattice.FactoryProps
import Verif.Lattice.CellOptProps
/-
Theorems on lattice arrangements (C107).
-/
namespace Rampack

open Spec LatticeDimensions Arrange

theorem along_ok {t h : ℝ} {k : Nat} (ht : 0 < t) (hh : 0 < h) (hk : NearestInteger (h / t) k) (hs : k < 2 ^ 64) : along t h = .ok k := by
  unfold along
  rw [cround_nearest (by positivity) hk, if_neg]
  · rfl
  · push Not
    exact_mod_cast hs

theorem optimize_eq {n s : Nat} {b : Box} (hb : b.WF) (hs : 0 < s) {t : ℝ} (ht : 0 < t) (hN : 0 < ⌈(n : ℝ) / s⌉₊)
    (hV : t ^ 3 * ⌈(n : ℝ) / s⌉₊ = b.heights.x * b.heights.y * b.heights.z) {r : Vec3 Nat} (hr : ∀ a, NearestInteger (b.heights.get a / t) (r.get a))
    (hsmall : ∀ a, r.get a < 2 ^ 64) (fuel : Nat) : optimize fuel n s b = grow fuel ⌈(n : ℝ) / s⌉₊ r := by
  obtain ⟨hx, hy, hz⟩ := Box.heights_pos hb
  have hN' : (0 : ℝ) < ⌈(n : ℝ) / s⌉₊ := by exact_mod_cast hN
  have e : (b.heights.x * b.heights.y * b.heights.z / (⌈(n : ℝ) / s⌉₊ : ℝ)) ^ (1 / 3 : ℝ) = t := by
    refine cbrt_unique ht ?_
    rw [← hV]
    field_simp
  unfold optimize
  rw [if_neg hs.ne', numAllCells_eq hs]
  simp only [e]
  rw [along_ok ht hx (hr 0) (hsmall 0), along_ok ht hy (hr 1) (hsmall 1), along_ok ht hz (hr 2) (hsmall 2)]
  rfl

theorem ceil_div_pos {n s : Nat} (hn : 0 < n) (hs : 0 < s) : 0 < ⌈(n : ℝ) / s⌉₊ :=
  Nat.ceil_pos.mpr (div_pos (by exact_mod_cast hn) (by exact_mod_cast hs))

theorem ceil_div_le {n s : Nat} (hs : 0 < s) : ⌈(n : ℝ) / s⌉₊ ≤ n := by
  refine Nat.ceil_le.mpr ?_
  have : (1 : ℝ) ≤ s := by exact_mod_cast hs
  rw [div_le_iff₀ (by linarith)]
  nlinarith [(Nat.cast_nonneg n : (0 : ℝ) ≤ n)]

theorem rounded_small {N : Nat} {h : Vec3 ℝ} {t : ℝ} (ht : 0 < t) (hh : 0 < h.x ∧ 0 < h.y ∧ 0 < h.z) (hV : t ^ 3 * N = h.x * h.y * h.z) {r : Vec3 Nat}
    (hr : ∀ a, NearestInteger (h.get a / t) (r.get a)) (hpos : ∀ a, 0 < r.get a) : cellCount r ≤ 8 * N ∧ ∀ a, r.get a ≤ cellCount r := by
  have key : ∀ {y : ℝ} {k : Nat}, 0 < k → NearestInteger (y / t) k → (k : ℝ) * t ≤ 2 * y := by
    intro y k hk h
    have hk' : (1 : ℝ) ≤ k := by exact_mod_cast hk
    have h1 := h.1
    rw [le_div_iff₀ ht] at h1
    nlinarith
  have kx := key (hpos 0) (hr 0)
  have ky := key (hpos 1) (hr 1)
  have kz := key (hpos 2) (hr 2)
  have px : 0 < r.x := hpos 0
  have py : 0 < r.y := hpos 1
  have pz : 0 < r.z := hpos 2
  simp only [Vec3.get] at kx ky kz
  constructor
  · have h1 : ((r.x : ℝ) * t) * ((r.y : ℝ) * t) ≤ (2 * h.x) * (2 * h.y) := mul_le_mul kx ky (by positivity) (by linarith [hh.1])
    have h2 : ((r.x : ℝ) * t) * ((r.y : ℝ) * t) * ((r.z : ℝ) * t) ≤ (2 * h.x) * (2 * h.y) * (2 * h.z) :=
      mul_le_mul h1 kz (by positivity) (by have := hh.1; have := hh.2.1; positivity)
    have h3 : (r.x * r.y * r.z : ℝ) * t ^ 3 ≤ (8 * N) * t ^ 3 := by nlinarith
    have h4 := le_of_mul_le_mul_right h3 (by positivity)
    unfold cellCount
    exact_mod_cast h4
  · intro a
    unfold cellCount
    have pxy : 0 < r.x * r.y := by positivity
    have pyz : 0 < r.y * r.z := by positivity
    have pxz : 0 < r.x * r.z := by positivity
    fin_cases a <;> simp only [Vec3.get]
    · calc r.x ≤ r.x * (r.y * r.z) := Nat.le_mul_of_pos_right _ pyz
        _ = _ := by ring
    · calc r.y ≤ r.y * (r.x * r.z) := Nat.le_mul_of_pos_right _ pxz
        _ = _ := by ring
    · calc r.z ≤ r.z * (r.x * r.y) := Nat.le_mul_of_pos_right _ pxy
        _ = _ := by ring

/-- C107: numbers of cells chosen for `n` molecules, `s` of them in a cell: the heights of the box are divided by the side of the cube, `N` of which have the volume equal to the product of heights, where `N` is the least number
of cells which suffices. If no result rounds to 0, numbers of cells are the rounded ones, but the largest one of them is made larger, by as little as needed for all molecules to have a place. -/
theorem C107_dimensions_partial {n s : Nat} {b : Box} (hb : b.WF) (hn : 0 < n) (hn' : n < 2 ^ 60) (hs : 0 < s) {t : ℝ} (ht : 0 < t)
    (hV : t ^ 3 * ⌈(n : ℝ) / s⌉₊ = b.heights.x * b.heights.y * b.heights.z) {r : Vec3 Nat} (hr : ∀ a, NearestInteger (b.heights.get a / t) (r.get a)) (hpos : ∀ a, 0 < r.get a) :
    ∃ (a : Fin 3) (k : Nat), (∀ fuel, n ≤ fuel → optimize fuel n s b = .ok (r.put a k)) ∧ (∀ c, r.get c ≤ r.get a) ∧ r.get a ≤ k ∧ n ≤ cellCount (r.put a k) * s ∧
      cellCount (r.put a k) ≤ 8 * ⌈(n : ℝ) / s⌉₊ ∧ ∀ j, r.get a ≤ j → j < k → cellCount (r.put a j) * s < n := by
  have hN := ceil_div_pos hn hs
  have hNn := ceil_div_le (n := n) hs
  have hs' : (0 : ℝ) < s := by exact_mod_cast hs
  have hcov : ∀ c : Nat, ⌈(n : ℝ) / s⌉₊ ≤ c ↔ n ≤ c * s := by
    intro c
    rw [Nat.ceil_le, div_le_iff₀ hs']
    exact_mod_cast Iff.rfl
  obtain ⟨h8, hle⟩ := rounded_small ht (Box.heights_pos hb) hV hr hpos
  have e := put_same r (firstMax r)
  obtain ⟨k, h1, -, h3, h4⟩ := grow_put (N := ⌈(n : ℝ) / s⌉₊) (by omega) hpos (fuel := n) (j := r.get (firstMax r)) le_rfl (by rw [e]; omega) (by omega)
  refine ⟨firstMax r, k, ?_, firstMax_le r, h1, (hcov _).mp h3, ?_, ?_⟩
  · intro fuel hf
    rw [optimize_eq hb hs ht hN hV hr (fun a => by have := hle a; omega)]
    obtain ⟨k', g1, g2, g3, g4⟩ := grow_put (N := ⌈(n : ℝ) / s⌉₊) (by omega) hpos (fuel := fuel) (j := r.get (firstMax r)) le_rfl (by rw [e]; omega) (by omega)
    rw [e] at g2
    rw [g2]
    rcases Nat.lt_trichotomy k k' with hk | hk | hk
    · have := g4 k h1 hk
      omega
    · rw [hk]
    · have := h4 k' g1 hk
      omega
  · rcases Nat.eq_or_lt_of_le h1 with hk | hk
    · rw [← hk, e]
      exact h8
    · have hlast := h4 (k - 1) (by omega) (by omega)
      obtain ⟨m, hm, hmul⟩ := cellCount_put hpos (firstMax r)
      rw [hmul] at hlast ⊢
      have h0 := hpos (firstMax r)
      obtain ⟨k, rfl⟩ : ∃ k', k = k' + 1 := ⟨k - 1, by omega⟩
      rw [Nat.add_sub_cancel] at hlast
      have : m ≤ k * m := Nat.le_mul_of_pos_left _ (by omega)
      have : (k + 1) * m = k * m + m := by ring
      omega
  · intro j hj hjk
    have := h4 j hj hjk
    rw [← not_le, ← hcov]
    omega

/-- C107 is violated: if a height of the box is less than half of the side of that cube, numbers of cells are never found: the loop does not end. -/
theorem C107_flat_violated {n s : Nat} {b : Box} (hb : b.WF) (hn : 0 < n) (hs : 0 < s) {t : ℝ} (ht : 0 < t)
    (hV : t ^ 3 * ⌈(n : ℝ) / s⌉₊ = b.heights.x * b.heights.y * b.heights.z) (hlarge : ∀ a, b.heights.get a / t < 2 ^ 63) {a : Fin 3} (ha : b.heights.get a < t / 2) (fuel : Nat) :
    optimize fuel n s b = .diverge := by
  obtain ⟨hx, hy, hz⟩ := Box.heights_pos hb
  have hp : ∀ c, 0 < b.heights.get c := by intro c; fin_cases c <;> assumption
  have hfl : ∀ c, NearestInteger (b.heights.get c / t) ⌊b.heights.get c / t + 1 / 2⌋₊ := by
    intro c
    have h0 : 0 ≤ b.heights.get c / t + 1 / 2 := by have := hp c; positivity
    have h1 := Nat.floor_le h0
    have h2 := Nat.lt_floor_add_one (b.heights.get c / t + 1 / 2)
    constructor <;> linarith
  have hr : ∀ c, NearestInteger (b.heights.get c / t) ((Vec3.ofFn fun c => ⌊b.heights.get c / t + 1 / 2⌋₊).get c) := by
    intro c
    fin_cases c
    · exact hfl 0
    · exact hfl 1
    · exact hfl 2
  rw [optimize_eq hb hs ht (ceil_div_pos hn hs) hV hr]
  · refine grow_zero (ceil_div_pos hn hs) ⟨a, ?_⟩
    have h1 : b.heights.get a / t < 1 / 2 := by rw [div_lt_iff₀ ht]; linarith
    have h2 : ⌊b.heights.get a / t + 1 / 2⌋₊ = 0 := Nat.floor_eq_zero.mpr (by linarith)
    fin_cases a <;> exact h2
  · intro c
    have h1 : ((((Vec3.ofFn fun c => ⌊b.heights.get c / t + 1 / 2⌋₊).get c : Nat) : ℝ)) < 2 ^ 64 := by
      have := (hr c).1
      have := hlarge c
      linarith
    exact_mod_cast h1

end Rampack
