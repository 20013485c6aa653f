import Verif.Lattice.Factory
import Verif.Lattice.Spec
import Verif.Box.Lemmas
import Mathlib.Tactic.Ring
import Mathlib.Tactic.Linarith
import Mathlib.Tactic.NormNum
import Mathlib.Tactic.FieldSimp
/-
Theorems on unit cells of crystals (C89).
-/
namespace Rampack

namespace Spec

/-- The vector from the molecule `s` to the copy of the molecule `t` which is moved by `n` cells. -/
noncomputable def apart (b : Box) (n : Vec3 ℤ) (s t : Shape) : Vec3 ℝ := b.relToAbs (ofInts n + t.pos) - b.relToAbs s.pos

/-- The distance between nearest neighbours in the infinite crystal is `d` for every molecule. -/
def NearestAt (d : ℝ) (c : UnitCell) : Prop :=
  (∀ (i j : Nat) s t, c.molecules[i]? = some s → c.molecules[j]? = some t → ∀ n : Vec3 ℤ, (i ≠ j ∨ n ≠ ⟨0, 0, 0⟩) → d ≤ (apart c.box n s t).norm) ∧
  ∀ (i : Nat) s, c.molecules[i]? = some s → ∃ (j : Nat) (t : Shape) (n : Vec3 ℤ), c.molecules[j]? = some t ∧ (i ≠ j ∨ n ≠ ⟨0, 0, 0⟩) ∧ (apart c.box n s t).norm = d

end Spec

open Spec
open Lattice Factory

/-- The same, for squares of distances in units of `d`. -/
def Crystal (w : Vec3 ℝ) (l : List Shape) : Prop :=
  (∀ (i j : Nat) s t, l[i]? = some s → l[j]? = some t → ∀ n : Vec3 ℤ, (i ≠ j ∨ n ≠ ⟨0, 0, 0⟩) →
    1 ≤ w.x * (n.x + (t.pos.x - s.pos.x)) ^ 2 + w.y * (n.y + (t.pos.y - s.pos.y)) ^ 2 + w.z * (n.z + (t.pos.z - s.pos.z)) ^ 2) ∧
  ∀ (i : Nat) s, l[i]? = some s → ∃ (j : Nat) (t : Shape) (n : Vec3 ℤ), l[j]? = some t ∧ (i ≠ j ∨ n ≠ ⟨0, 0, 0⟩) ∧
    w.x * (n.x + (t.pos.x - s.pos.x)) ^ 2 + w.y * (n.y + (t.pos.y - s.pos.y)) ^ 2 + w.z * (n.z + (t.pos.z - s.pos.z)) ^ 2 = 1

theorem crystal_nearest {d : ℝ} (hd : 0 < d) {l w : Vec3 ℝ} (hx : l.x ^ 2 = w.x * d ^ 2) (hy : l.y ^ 2 = w.y * d ^ 2) (hz : l.z ^ 2 = w.z * d ^ 2)
    (hw : 0 < w.x ∧ 0 < w.y ∧ 0 < w.z) : ∃ b, Box.ofLengths l = .ok b ∧ b.WF ∧ ∀ ms, Crystal w ms → NearestAt d ⟨b, ms⟩ := by
  have h0 : ∀ {a k : ℝ}, a ^ 2 = k * d ^ 2 → 0 < k → a ≠ 0 := by
    rintro a k h hk rfl
    have : 0 < k * d ^ 2 := by positivity
    nlinarith
  have hne : (Mat3.diag l.x l.y l.z).det ≠ 0 := by
    have : (Mat3.diag l.x l.y l.z).det = l.x * l.y * l.z := by simp [Mat3.diag, Mat3.det]
    rw [this]
    exact mul_ne_zero (mul_ne_zero (h0 hx hw.1) (h0 hy hw.2.1)) (h0 hz hw.2.2)
  have hm : Box.ofLengths l = .ok ⟨Mat3.diag l.x l.y l.z, (Mat3.diag l.x l.y l.z).inverse⟩ := by
    rw [Box.ofLengths, Box.make, if_neg hne]
  refine ⟨_, hm, (Box.make_wf hm).1, fun ms hc => ?_⟩
  have hn2 : ∀ n s t, (apart (⟨Mat3.diag l.x l.y l.z, (Mat3.diag l.x l.y l.z).inverse⟩ : Box) n s t).norm2 =
      d ^ 2 * (w.x * (n.x + (t.pos.x - s.pos.x)) ^ 2 + w.y * (n.y + (t.pos.y - s.pos.y)) ^ 2 + w.z * (n.z + (t.pos.z - s.pos.z)) ^ 2) := by
    intro n s t
    simp only [apart, Box.relToAbs, Mat3.diag, Mat3.mulVec, Vec3.norm2, Vec3.dot, ofInts, Vec3.add_x, Vec3.add_y, Vec3.add_z, Vec3.sub_x, Vec3.sub_y, Vec3.sub_z]
    linear_combination (n.x + (t.pos.x - s.pos.x)) ^ 2 * hx + (n.y + (t.pos.y - s.pos.y)) ^ 2 * hy + (n.z + (t.pos.z - s.pos.z)) ^ 2 * hz
  constructor
  · intro i j s t hi hj n hn
    have h1 := hc.1 i j s t hi hj n hn
    unfold Vec3.norm
    refine Real.le_sqrt_of_sq_le ?_
    rw [hn2]
    nlinarith [sq_nonneg d]
  · intro i s hi
    obtain ⟨j, t, n, h1, h2, h3⟩ := hc.2 i s hi
    refine ⟨j, t, n, h1, h2, ?_⟩
    unfold Vec3.norm
    rw [hn2, h3, mul_one, Real.sqrt_sq hd.le]

/-- What is used of an integer. -/
theorem int_facts (n : ℤ) : (0 : ℝ) ≤ (n : ℝ) ^ 2 - n ∧ (0 : ℝ) ≤ (n : ℝ) ^ 2 + n ∧ (0 : ℝ) ≤ (n : ℝ) ^ 2 + 3 * n + 2 ∧ (0 : ℝ) ≤ (n : ℝ) ^ 2 - 3 * n + 2 := by
  have h : ∀ k : ℤ, 0 ≤ k * (k + 1) := by
    intro k
    rcases le_or_gt 0 k with hk | hk
    · exact mul_nonneg hk (by omega)
    · exact mul_nonneg_of_nonpos_of_nonpos hk.le (by omega)
  have l : ∀ k : ℤ, 0 ≤ k → (0 : ℝ) ≤ (k : ℝ) := fun k hk => by exact_mod_cast hk
  refine ⟨?_, ?_, ?_, ?_⟩
  · have := l _ (h (n - 1)); push_cast at this; nlinarith
  · have := l _ (h n); push_cast at this; nlinarith
  · have := l _ (h (n + 1)); push_cast at this; nlinarith
  · have := l _ (h (n - 2)); push_cast at this; nlinarith

theorem int_one {n : ℤ} (h : n ≠ 0) : (1 : ℝ) ≤ (n : ℝ) ^ 2 := by
  have : 1 ≤ n ^ 2 := by
    rcases lt_or_gt_of_ne h with h | h <;> nlinarith
  exact_mod_cast this

theorem vec_ne {n : Vec3 ℤ} (h : n ≠ ⟨0, 0, 0⟩) : n.x ≠ 0 ∨ n.y ≠ 0 ∨ n.z ≠ 0 := by
  by_contra hc
  push Not at hc
  exact h (Vec3.ext hc.1 hc.2.1 hc.2.2)

/-- Closes the case of two molecules. -/
macro "crystal_pair" n:ident hn:ident : tactic => `(tactic| (
  have hx := int_facts (Vec3.x $n)
  have hy := int_facts (Vec3.y $n)
  have hz := int_facts (Vec3.z $n)
  have h1 := sq_nonneg ((Vec3.x $n : ℤ) : ℝ)
  have h2 := sq_nonneg ((Vec3.y $n : ℤ) : ℝ)
  have h3 := sq_nonneg ((Vec3.z $n : ℤ) : ℝ)
  obtain ⟨hx1, hx2, hx3, hx4⟩ := hx
  obtain ⟨hy1, hy2, hy3, hy4⟩ := hy
  obtain ⟨hz1, hz2, hz3, hz4⟩ := hz
  first
    | linarith
    | (rcases vec_ne (Or.resolve_left $hn (by simp)) with h | h | h <;> have := int_one h <;> linarith)))

theorem crystal_sc : Crystal ⟨1, 1, 1⟩ [site (1 / 2) (1 / 2) (1 / 2)] := by
  constructor
  · intro i j s t hi hj n hn
    rcases i with _ | i <;> simp at hi
    rcases j with _ | j <;> simp at hj
    subst hi hj
    simp only [site]
    crystal_pair n hn
  · intro i s hi
    rcases i with _ | i <;> simp at hi
    subst hi
    exact ⟨0, _, ⟨1, 0, 0⟩, rfl, .inr (by simp), by simp⟩

theorem crystal_bcc : Crystal ⟨4 / 3, 4 / 3, 4 / 3⟩ [site (1 / 4) (1 / 4) (1 / 4), site (3 / 4) (3 / 4) (3 / 4)] := by
  constructor
  · intro i j s t hi hj n hn
    rcases i with _ | _ | i <;> simp at hi <;> rcases j with _ | _ | j <;> simp at hj <;> subst hi hj <;> simp only [site] <;> crystal_pair n hn
  · intro i s hi
    rcases i with _ | _ | i <;> simp at hi <;> subst hi
    · exact ⟨1, _, ⟨0, 0, 0⟩, rfl, .inl (by simp), by norm_num [site]⟩
    · exact ⟨0, _, ⟨0, 0, 0⟩, rfl, .inl (by simp), by norm_num [site]⟩

theorem crystal_fcc : Crystal ⟨2, 2, 2⟩ [site (1 / 4) (1 / 4) (1 / 4), site (1 / 4) (3 / 4) (3 / 4), site (3 / 4) (1 / 4) (3 / 4), site (3 / 4) (3 / 4) (1 / 4)] := by
  constructor
  · intro i j s t hi hj n hn
    rcases i with _ | _ | _ | _ | i <;> simp at hi <;> rcases j with _ | _ | _ | _ | j <;> simp at hj <;> subst hi hj <;> simp only [site] <;> crystal_pair n hn
  · intro i s hi
    rcases i with _ | _ | _ | _ | i <;> simp at hi <;> subst hi
    · exact ⟨1, _, ⟨0, 0, 0⟩, rfl, .inl (by simp), by norm_num [site]⟩
    all_goals exact ⟨0, _, ⟨0, 0, 0⟩, rfl, .inl (by simp), by norm_num [site]⟩

/-- Sites of the hexagonal close-packed structure. -/
theorem hcp_sites (b : Box) (axis : Fin 3) : (hcp b axis).molecules =
    match axis with
    | 0 => [site (1 / 4) (1 / 4) (1 / 12), site (1 / 4) (3 / 4) (7 / 12), site (3 / 4) (1 / 4) (5 / 12), site (3 / 4) (3 / 4) (11 / 12)]
    | 1 => [site (1 / 12) (1 / 4) (1 / 4), site (7 / 12) (1 / 4) (3 / 4), site (5 / 12) (3 / 4) (1 / 4), site (11 / 12) (3 / 4) (3 / 4)]
    | 2 => [site (1 / 4) (1 / 12) (1 / 4), site (3 / 4) (7 / 12) (1 / 4), site (1 / 4) (5 / 12) (3 / 4), site (3 / 4) (11 / 12) (3 / 4)] := by
  fin_cases axis <;> simp [hcp, site, cycled, shift, Vec3.put, Vec3.ofFn, Vec3.get] <;> norm_num

theorem crystal_hcp (b : Box) (axis : Fin 3) : Crystal (sidesFor axis 1 3 (8 / 3)) (hcp b axis).molecules := by
  rw [hcp_sites]
  constructor
  · intro i j s t hi hj n hn
    fin_cases axis
    all_goals
      rcases i with _ | _ | _ | _ | i <;> simp at hi <;> rcases j with _ | _ | _ | _ | j <;> simp at hj <;> subst hi hj <;> simp only [site, sidesFor] <;> crystal_pair n hn
  · intro i s hi
    fin_cases axis
    all_goals
      rcases i with _ | _ | _ | _ | i <;> simp at hi <;> subst hi
      · exact ⟨1, _, ⟨0, 0, 0⟩, rfl, .inl (by simp), by norm_num [site, sidesFor]⟩
      · exact ⟨0, _, ⟨0, 0, 0⟩, rfl, .inl (by simp), by norm_num [site, sidesFor]⟩
      · exact ⟨3, _, ⟨0, 0, 0⟩, rfl, .inl (by simp), by norm_num [site, sidesFor]⟩
      · exact ⟨2, _, ⟨0, 0, 0⟩, rfl, .inl (by simp), by norm_num [site, sidesFor]⟩

theorem crystal_hexagonal (b : Box) (axis : Fin 3) : Crystal (sidesFor axis 1 3 1) (hexagonal b axis).molecules := by
  constructor
  · intro i j s t hi hj n hn
    fin_cases axis
    all_goals
      simp only [hexagonal] at hi hj
      rcases i with _ | _ | i <;> simp at hi <;> rcases j with _ | _ | j <;> simp at hj <;> subst hi hj <;> simp only [site, sidesFor] <;> crystal_pair n hn
  · intro i s hi
    fin_cases axis
    all_goals
      simp only [hexagonal] at hi
      rcases i with _ | _ | i <;> simp at hi <;> subst hi
      · exact ⟨1, _, ⟨0, 0, 0⟩, rfl, .inl (by simp), by norm_num [site, sidesFor]⟩
      · exact ⟨0, _, ⟨0, 0, 0⟩, rfl, .inl (by simp), by norm_num [site, sidesFor]⟩

/-- C89: the simple cubic cell made for a ball diameter: it has one molecule and the distance between nearest neighbours is the diameter. -/
theorem C89_sc {d : ℝ} (hd : 0 < d) : ∃ c, scBalls d = .ok c ∧ c.box.WF ∧ c.molecules.length = 1 ∧ cellNormalized c.molecules = true ∧ NearestAt d c := by
  obtain ⟨b, h1, h2, h3⟩ := crystal_nearest hd (l := ⟨d, d, d⟩) (w := ⟨1, 1, 1⟩) (by simp) (by simp) (by simp) (by norm_num)
  refine ⟨sc b, by rw [scBalls, h1]; rfl, h2, rfl, ?_, h3 _ crystal_sc⟩
  simp [cellNormalized, sc, site]
  norm_num

/-- C89: the body-centred cubic cell. -/
theorem C89_bcc {d : ℝ} (hd : 0 < d) : ∃ c, bccBalls d = .ok c ∧ c.box.WF ∧ c.molecules.length = 2 ∧ cellNormalized c.molecules = true ∧ NearestAt d c := by
  have e : (2 * d / √3) ^ 2 = 4 / 3 * d ^ 2 := by
    rw [div_pow, Real.sq_sqrt (by norm_num)]
    ring
  obtain ⟨b, h1, h2, h3⟩ := crystal_nearest hd (l := ⟨2 * d / √3, 2 * d / √3, 2 * d / √3⟩) (w := ⟨4 / 3, 4 / 3, 4 / 3⟩) e e e (by norm_num)
  refine ⟨bcc b, by rw [bccBalls, h1]; rfl, h2, rfl, ?_, h3 _ crystal_bcc⟩
  simp [cellNormalized, bcc, site]
  norm_num

/-- C89: the face-centred cubic cell. -/
theorem C89_fcc {d : ℝ} (hd : 0 < d) : ∃ c, fccBalls d = .ok c ∧ c.box.WF ∧ c.molecules.length = 4 ∧ cellNormalized c.molecules = true ∧ NearestAt d c := by
  have e : (√2 * d) ^ 2 = 2 * d ^ 2 := by
    rw [mul_pow, Real.sq_sqrt (by norm_num)]
  obtain ⟨b, h1, h2, h3⟩ := crystal_nearest hd (l := ⟨√2 * d, √2 * d, √2 * d⟩) (w := ⟨2, 2, 2⟩) e e e (by norm_num)
  refine ⟨fcc b, by rw [fccBalls, h1]; rfl, h2, rfl, ?_, h3 _ crystal_fcc⟩
  simp [cellNormalized, fcc, site]
  norm_num

/-- C89: the hexagonal close-packed cell, for each of the axes. -/
theorem C89_hcp {d : ℝ} (hd : 0 < d) (axis : Fin 3) : ∃ c, hcpBalls d axis = .ok c ∧ c.box.WF ∧ c.molecules.length = 4 ∧ cellNormalized c.molecules = true ∧ NearestAt d c := by
  have e1 : d ^ 2 = 1 * d ^ 2 := by ring
  have e2 : (√3 * d) ^ 2 = 3 * d ^ 2 := by
    rw [mul_pow, Real.sq_sqrt (by norm_num)]
  have e3 : (2 * √6 * d / 3) ^ 2 = 8 / 3 * d ^ 2 := by
    rw [div_pow, mul_pow, mul_pow, Real.sq_sqrt (by norm_num)]
    ring
  obtain ⟨b, h1, h2, h3⟩ := crystal_nearest hd (l := sidesFor axis d (√3 * d) (2 * √6 * d / 3)) (w := sidesFor axis 1 3 (8 / 3))
    (by fin_cases axis <;> assumption) (by fin_cases axis <;> assumption) (by fin_cases axis <;> assumption) (by fin_cases axis <;> norm_num [sidesFor])
  refine ⟨hcp b axis, by rw [hcpBalls, h1]; rfl, h2, rfl, ?_, h3 _ (crystal_hcp b axis)⟩
  rw [hcp_sites]
  fin_cases axis <;> simp [cellNormalized, site] <;> norm_num

/-- C89: the hexagonal cell, for each of the axes. -/
theorem C89_hexagonal {d : ℝ} (hd : 0 < d) (axis : Fin 3) :
    ∃ c, hexagonalBalls d axis = .ok c ∧ c.box.WF ∧ c.molecules.length = 2 ∧ cellNormalized c.molecules = true ∧ NearestAt d c := by
  have e1 : d ^ 2 = 1 * d ^ 2 := by ring
  have e2 : (√3 * d) ^ 2 = 3 * d ^ 2 := by
    rw [mul_pow, Real.sq_sqrt (by norm_num)]
  obtain ⟨b, h1, h2, h3⟩ := crystal_nearest hd (l := sidesFor axis d (√3 * d) d) (w := sidesFor axis 1 3 1)
    (by fin_cases axis <;> assumption) (by fin_cases axis <;> assumption) (by fin_cases axis <;> assumption) (by fin_cases axis <;> norm_num [sidesFor])
  refine ⟨hexagonal b axis, by rw [hexagonalBalls, h1]; rfl, ?_, ?_, ?_, ?_⟩
  · fin_cases axis <;> exact h2
  · fin_cases axis <;> rfl
  · fin_cases axis <;> simp [cellNormalized, hexagonal, site] <;> norm_num
  · have h4 := h3 _ (crystal_hexagonal b axis)
    fin_cases axis <;> exact h4

/-- C89: hexagonal layers are perpendicular to the given axis: molecules of the hexagonal cell have the same coordinate along it, so that the next layer is at the distance of the diameter, and those
of the hexagonal close-packed cell are in two layers, at 1/4 and 3/4 of the side. -/
theorem C89_layers {d : ℝ} (hd : 0 < d) (axis : Fin 3) :
    (∃ c, hexagonalBalls d axis = .ok c ∧ (∀ s ∈ c.molecules, s.pos.get axis = 1 / 2) ∧ (c.box.sides.get axis).norm = d) ∧
    ∃ c s₁ s₂ s₃ s₄, hcpBalls d axis = .ok c ∧ c.molecules = [s₁, s₂, s₃, s₄] ∧ s₁.pos.get axis = 1 / 4 ∧ s₂.pos.get axis = 1 / 4 ∧ s₃.pos.get axis = 3 / 4 ∧ s₄.pos.get axis = 3 / 4 ∧
      (c.box.sides.get axis).norm = 2 * (√6 / 3 * d) := by
  have mk : ∀ l : Vec3 ℝ, 0 < l.x → 0 < l.y → 0 < l.z → ∃ b, Box.ofLengths l = .ok b ∧ (b.sides.get axis).norm = l.get axis := by
    intro l hx hy hz
    have hne : (Mat3.diag l.x l.y l.z).det ≠ 0 := by
      have : (Mat3.diag l.x l.y l.z).det = l.x * l.y * l.z := by simp [Mat3.diag, Mat3.det]
      rw [this]
      positivity
    refine ⟨⟨Mat3.diag l.x l.y l.z, (Mat3.diag l.x l.y l.z).inverse⟩, by rw [Box.ofLengths, Box.make, if_neg hne], ?_⟩
    fin_cases axis
    · simp [Box.sides, Box.relToAbs, Mat3.diag, Mat3.mulVec, Vec3.get, Vec3.norm, Vec3.norm2, Vec3.dot, hx.le]
    · simp [Box.sides, Box.relToAbs, Mat3.diag, Mat3.mulVec, Vec3.get, Vec3.norm, Vec3.norm2, Vec3.dot, hy.le]
    · simp [Box.sides, Box.relToAbs, Mat3.diag, Mat3.mulVec, Vec3.get, Vec3.norm, Vec3.norm2, Vec3.dot, hz.le]
  have h3 : 0 < √3 * d := by positivity
  have h6 : 0 < 2 * √6 * d / 3 := by positivity
  constructor
  · obtain ⟨b, hb, hs⟩ := mk (sidesFor axis d (√3 * d) d) (by fin_cases axis <;> assumption) (by fin_cases axis <;> assumption) (by fin_cases axis <;> assumption)
    have hh : (hexagonal b axis).box = b := by fin_cases axis <;> rfl
    refine ⟨hexagonal b axis, by rw [hexagonalBalls, hb]; rfl, ?_, ?_⟩
    · fin_cases axis <;> simp [hexagonal, site, Vec3.get]
    · rw [hh, hs]
      fin_cases axis <;> rfl
  · obtain ⟨b, hb, hs⟩ := mk (sidesFor axis d (√3 * d) (2 * √6 * d / 3)) (by fin_cases axis <;> assumption) (by fin_cases axis <;> assumption) (by fin_cases axis <;> assumption)
    have hside : (b.sides.get axis).norm = 2 * (√6 / 3 * d) := by
      rw [hs]
      fin_cases axis <;> simp [sidesFor, Vec3.get] <;> ring
    have hm := hcp_sites b axis
    fin_cases axis
    all_goals
      refine ⟨hcp b _, _, _, _, _, by rw [hcpBalls, hb]; rfl, hm, ?_, ?_, ?_, ?_, hside⟩ <;> simp [site, Vec3.get]

/-- C89: cells are not made for the zero diameter. -/
theorem C89_zero (axis : Fin 3) : (∃ m, scBalls 0 = .throw m) ∧ (∃ m, bccBalls 0 = .throw m) ∧ (∃ m, fccBalls 0 = .throw m) ∧ (∃ m, hcpBalls 0 axis = .throw m) ∧
    ∃ m, hexagonalBalls 0 axis = .throw m := by
  have e : ∀ l : Vec3 ℝ, l = ⟨0, 0, 0⟩ → ∃ m, Box.ofLengths l = .throw m := by
    rintro l rfl
    rw [Box.ofLengths, Box.make, if_pos (by simp [Mat3.diag, Mat3.det])]
    exact ⟨_, rfl⟩
  refine ⟨?_, ?_, ?_, ?_, ?_⟩
  · obtain ⟨m, hm⟩ := e ⟨0, 0, 0⟩ rfl
    exact ⟨m, by rw [scBalls, hm]; rfl⟩
  · obtain ⟨m, hm⟩ := e ⟨2 * 0 / √3, 2 * 0 / √3, 2 * 0 / √3⟩ (by simp)
    exact ⟨m, by rw [bccBalls, hm]; rfl⟩
  · obtain ⟨m, hm⟩ := e ⟨√2 * 0, √2 * 0, √2 * 0⟩ (by simp)
    exact ⟨m, by rw [fccBalls, hm]; rfl⟩
  · obtain ⟨m, hm⟩ := e (sidesFor axis 0 (√3 * 0) (2 * √6 * 0 / 3)) (by fin_cases axis <;> simp [sidesFor])
    exact ⟨m, by rw [hcpBalls, hm]; rfl⟩
  · obtain ⟨m, hm⟩ := e (sidesFor axis 0 (√3 * 0) 0) (by fin_cases axis <;> simp [sidesFor])
    exact ⟨m, by rw [hexagonalBalls, hm]; rfl⟩

example : ∃ c, hcpBalls 2 1 = .ok c ∧ NearestAt 2 c := by
  obtain ⟨c, h1, -, -, -, h2⟩ := C89_hcp (d := 2) (by norm_num) 1
  exact ⟨c, h1, h2⟩

end Rampack
