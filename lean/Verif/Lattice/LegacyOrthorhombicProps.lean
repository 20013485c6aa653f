import Verif.Lattice.LegacyOrthorhombicSpec
import Verif.Lattice.OrthorhombicProps
/-
Property C118: orthorhombic arrangements of legacy input files.
-/
namespace Rampack.Orthorhombic

open Spec

theorem isGiven_of {box : Vec3 ℝ} (h : Positive box) : isGiven box = true := decide_eq_true fun e => h.1.ne' e.1

theorem boxDimensions_ok {b : Option (Vec3 ℝ)} {d : Vec3 ℝ} : boxDimensions b = .ok d ↔ (b = none ∧ d = ⟨0, 0, 0⟩) ∨ (b = some d ∧ Positive d) := by
  match b with
  | none => exact ⟨fun h => .inl ⟨rfl, by cases h; rfl⟩, by rintro (⟨-, rfl⟩ | ⟨h, -⟩) <;> first | rfl | cases h⟩
  | some e =>
    simp only [boxDimensions]
    by_cases h : e.x > 0 ∧ e.y > 0 ∧ e.z > 0
    · rw [decide_eq_true h]
      exact ⟨fun h' => .inr (by cases h'; exact ⟨rfl, h⟩), by rintro (⟨h', -⟩ | ⟨h', -⟩) <;> cases h'; rfl⟩
    · rw [decide_eq_false h]
      exact ⟨fun h' => (by cases h'), by rintro (⟨h', -⟩ | ⟨h', h''⟩) <;> cases h'; exact absurd h'' h⟩

theorem arrangeSizes_ok {M : Model} {n : Nat} {counts : Vec3 Nat} {cell box : Vec3 ℝ} {r : Vec3 ℝ × List Shape} :
    arrangeSizes M n counts cell box = .ok r ↔ n ≤ counts.x * counts.y * counts.z ∧ r.1 = box ∧ arrange M n counts cell box = .ok r.2 := by
  unfold arrangeSizes
  have e : ((counts.x : ℝ) * counts.y * counts.z ≥ n) ↔ n ≤ counts.x * counts.y * counts.z := by
    rw [ge_iff_le]
    exact_mod_cast Iff.rfl
  by_cases h : n ≤ counts.x * counts.y * counts.z
  · rw [decide_eq_true (e.mpr h), Outcome.require_true, Outcome.ok_bind, Outcome.bind_eq_ok]
    constructor
    · rintro ⟨s, h1, h2⟩
      cases h2
      exact ⟨h, rfl, h1⟩
    · rintro ⟨-, h1, h2⟩
      refine ⟨r.2, h2, ?_⟩
      rw [← h1]
      rfl
  · rw [decide_eq_false (mt e.mp h)]
    exact ⟨fun h' => (by cases h'), fun h' => absurd h'.1 h⟩

theorem possible_counts {n : Nat} (hn : 0 < n) {c : Vec3 Nat} (h : n ≤ c.x * c.y * c.z) : 0 < c.x ∧ 0 < c.y ∧ 0 < c.z := by
  have h0 : 0 < c.x * c.y * c.z := by omega
  exact ⟨Nat.pos_of_ne_zero fun e => by simp [e] at h0, Nat.pos_of_ne_zero fun e => by simp [e] at h0, Nat.pos_of_ne_zero fun e => by simp [e] at h0⟩

theorem auto_margin {m : Nat} {c : ℝ} (hc : 0 < c) : ((m : ℝ) - 1) * c < c * m := by nlinarith

/-- The result comes from an arrangement on a lattice with a place for all molecules. -/
theorem packing_arranged {M : Model} {n : Nat} {sizes : Sizes} {b : Option (Vec3 ℝ)} {r : Vec3 ℝ × List Shape} (h : arrangePacking M n sizes b = .ok r) :
    0 < n ∧ Asked M n sizes b r.1 ∧ ∃ counts cell, arrange M n counts cell r.1 = .ok r.2 ∧ n ≤ counts.x * counts.y * counts.z := by
  unfold arrangePacking at h
  obtain ⟨d, hd, h⟩ := Outcome.bind_eq_ok.mp h
  have auto : isGiven ⟨0, 0, 0⟩ = false := by simp [isGiven]
  match sizes with
  | .default =>
    obtain ⟨_, h1, h⟩ := Outcome.bind_eq_ok.mp h
    rcases boxDimensions_ok.mp hd with ⟨-, rfl⟩ | ⟨rfl, hp⟩
    · rw [auto] at h1
      cases h1
    obtain ⟨s, h2, h⟩ := Outcome.bind_eq_ok.mp h
    cases h
    obtain ⟨hn, -, -⟩ := C117_box_possible.mp ⟨s, h2⟩
    obtain ⟨hm, ha, hb⟩ := inLine_cube hn
    have h3 := h2
    unfold arrangeBox at h3
    obtain ⟨_, -, h3⟩ := Outcome.bind_eq_ok.mp h3
    obtain ⟨_, -, h3⟩ := Outcome.bind_eq_ok.mp h3
    exact ⟨hn, .default hp ⟨ha, hb⟩ (C117_possible.mp ⟨s, h3⟩).layers, _, _, h3, ha⟩
  | .counts c =>
    obtain ⟨_, h1, h⟩ := Outcome.bind_eq_ok.mp h
    rcases boxDimensions_ok.mp hd with ⟨-, rfl⟩ | ⟨rfl, hp⟩
    · rw [auto] at h1
      cases h1
    obtain ⟨h2, h3, h4⟩ := arrangeSizes_ok.mp h
    have hq := C117_possible.mp ⟨_, h4⟩
    rw [h3]
    exact ⟨hq.some, .counts hp h2 hq.layers, _, _, h4, h2⟩
  | .cells cell c =>
    obtain ⟨_, -, h⟩ := Outcome.bind_eq_ok.mp h
    obtain ⟨h2, h3, h4⟩ := arrangeSizes_ok.mp h
    have hq := C117_possible.mp ⟨_, h4⟩
    rw [h3]
    refine ⟨hq.some, ?_, _, _, h4, h2⟩
    rcases boxDimensions_ok.mp hd with ⟨rfl, rfl⟩ | ⟨rfl, hp⟩
    · rw [auto, if_neg (by decide), mul_comm cell.x, mul_comm cell.y, mul_comm cell.z]
      exact .auto hq.sizes h2 hq.layers
    · rw [isGiven_of hp, if_pos rfl] at hq ⊢
      exact .cells hq.sizes h2 hq.layers hq.margin

/-- **C118** An arrangement succeeds exactly if what is asked for is possible, and then it has the box asked for. -/
theorem C118_asked {M : Model} {n : Nat} {sizes : Sizes} {b : Option (Vec3 ℝ)} {box : Vec3 ℝ} :
    (∃ shapes, arrangePacking M n sizes b = .ok (box, shapes)) ↔ 0 < n ∧ Asked M n sizes b box := by
  constructor
  · rintro ⟨s, h⟩
    obtain ⟨h1, h2, -⟩ := packing_arranged h
    exact ⟨h1, h2⟩
  · rintro ⟨hn, h⟩
    have auto : isGiven ⟨0, 0, 0⟩ = false := by simp [isGiven]
    have given : ∀ {d : Vec3 ℝ}, Positive d → boxDimensions (some d) = .ok d := fun hp => boxDimensions_ok.mpr (.inr ⟨rfl, hp⟩)
    cases h with
    | default hp place layers =>
      rename_i m
      obtain ⟨s, hs⟩ := C117_box_possible.mpr ⟨hn, hp, fun hf => ⟨m, by simpa only [layer_same] using layers hf, place⟩⟩
      refine ⟨s, ?_⟩
      simp only [arrangePacking, given hp, Outcome.ok_bind, arrangeShapes, isGiven_of hp, Outcome.require_true, hs]
      rfl
    | counts hp place layers =>
      rename_i c
      obtain ⟨h1, h2, h3⟩ := possible_counts hn place
      have pos : ∀ {m : Nat}, 0 < m → (0 : ℝ) < m := fun h => by exact_mod_cast h
      obtain ⟨s, hs⟩ := C117_possible.mpr (show Possible M n c ⟨box.x / (c.x : ℝ), box.y / (c.y : ℝ), box.z / (c.z : ℝ)⟩ box from
        ⟨hn, ⟨h1, h2, h3⟩, ⟨div_pos hp.1 (pos h1), div_pos hp.2.1 (pos h2), div_pos hp.2.2 (pos h3)⟩, ⟨margin_box h1 hp.1, margin_box h2 hp.2.1, margin_box h3 hp.2.2⟩, layers⟩)
      refine ⟨s, ?_⟩
      simp only [arrangePacking, given hp, Outcome.ok_bind, arrangeShapes, isGiven_of hp, Outcome.require_true]
      exact arrangeSizes_ok.mpr ⟨place, rfl, hs⟩
    | cells hc place layers margin =>
      rename_i cell c
      obtain ⟨s, hs⟩ := C117_possible.mpr (show Possible M n c cell box from ⟨hn, possible_counts hn place, hc, margin, layers⟩)
      obtain ⟨h1, h2, h3⟩ := possible_counts hn place
      have pos : ∀ {m : Nat} {a b : ℝ}, 0 < m → 0 < a → ((m : ℝ) - 1) * a < b → 0 < b := by
        intro m a b hm ha hb
        have : (1 : ℝ) ≤ m := by exact_mod_cast hm
        nlinarith [mul_nonneg (sub_nonneg.mpr this) ha.le]
      have hp : Positive box := ⟨pos h1 hc.1 margin.1, pos h2 hc.2.1 margin.2.1, pos h3 hc.2.2 margin.2.2⟩
      refine ⟨s, ?_⟩
      simp only [arrangePacking, given hp, Outcome.ok_bind, arrangeShapes, isGiven_of hp, decide_eq_true (show cell.x > 0 ∧ cell.y > 0 ∧ cell.z > 0 from hc), Outcome.require_true, if_true]
      exact arrangeSizes_ok.mpr ⟨place, rfl, hs⟩
    | auto hc place layers =>
      rename_i cell c
      have e : (⟨cell.x * (c.x : ℝ), cell.y * (c.y : ℝ), cell.z * (c.z : ℝ)⟩ : Vec3 ℝ) = ⟨(c.x : ℝ) * cell.x, (c.y : ℝ) * cell.y, (c.z : ℝ) * cell.z⟩ := by
        rw [mul_comm cell.x, mul_comm cell.y, mul_comm cell.z]
      obtain ⟨s, hs⟩ := C117_possible.mpr (show Possible M n c cell ⟨cell.x * (c.x : ℝ), cell.y * (c.y : ℝ), cell.z * (c.z : ℝ)⟩ from
        ⟨hn, possible_counts hn place, hc, ⟨auto_margin hc.1, auto_margin hc.2.1, auto_margin hc.2.2⟩, layers⟩)
      refine ⟨s, ?_⟩
      simp only [arrangePacking, boxDimensions, Outcome.ok_bind, arrangeShapes, auto, decide_eq_true (show cell.x > 0 ∧ cell.y > 0 ∧ cell.z > 0 from hc), Outcome.require_true]
      rw [if_neg (by decide)]
      exact arrangeSizes_ok.mpr ⟨place, e.symm, hs⟩

/-- **C118** No molecule is left out, and all are inside the box. -/
theorem C118_all {M : Model} {n : Nat} {sizes : Sizes} {b : Option (Vec3 ℝ)} {box : Vec3 ℝ} {shapes : List Shape} (h : arrangePacking M n sizes b = .ok (box, shapes)) :
    shapes.length = n ∧ ∀ s ∈ shapes, (0 < s.pos.x ∧ s.pos.x < box.x) ∧ (0 < s.pos.y ∧ s.pos.y < box.y) ∧ 0 < s.pos.z ∧ s.pos.z < box.z := by
  obtain ⟨-, -, counts, cell, h1, h2⟩ := packing_arranged h
  refine ⟨?_, (C117_inside h1).1⟩
  rw [(C117_lattice h1).1]
  exact Nat.min_eq_left h2

/-- **C118** With the optimisation of spacing: if minimal distances have been found, the arrangement succeeds exactly if the spacing is positive, there is a place for all molecules and
antipolar layers are even in number. The box is made of cells whose dimensions are minimal distances with the spacing added, no molecule is left out, all are inside the box, and neighbours
are at minimal distances with the spacing added. -/
theorem C118_spacing {M : Model} {n : Nat} {spacing : ℝ} {counts : Vec3 Nat} {d : Vec3 ℝ} (hd : Positive d) :
    ((∃ r, arrangeSpacing M n spacing counts (.ok d) = .ok r) ↔ 0 < n ∧ 0 < spacing ∧ n ≤ counts.x * counts.y * counts.z ∧ EvenLayers M counts) ∧
    ∀ box shapes, arrangeSpacing M n spacing counts (.ok d) = .ok (box, shapes) →
      box = ⟨(counts.x : ℝ) * (d.x + spacing), (counts.y : ℝ) * (d.y + spacing), (counts.z : ℝ) * (d.z + spacing)⟩ ∧ shapes.length = n ∧
      (∀ s ∈ shapes, (0 < s.pos.x ∧ s.pos.x < box.x) ∧ (0 < s.pos.y ∧ s.pos.y < box.y) ∧ 0 < s.pos.z ∧ s.pos.z < box.z) ∧
      ∀ i j k, i < counts.x → j < counts.y → k < counts.z → (i * counts.y + j) * counts.z + k < n → ∃ s, shapes[(i * counts.y + j) * counts.z + k]? = some s ∧
        s.pos = ⟨((i : ℝ) + 1 / 2) * (d.x + spacing), ((j : ℝ) + 1 / 2) * (d.y + spacing), ((k : ℝ) + 1 / 2) * (d.z + spacing)⟩ ∧ Oriented M (layer M i j k) s.rot := by
  have e : ((counts.x : ℝ) * counts.y * counts.z ≥ n) ↔ n ≤ counts.x * counts.y * counts.z := by
    rw [ge_iff_le]
    exact_mod_cast Iff.rfl
  have inv : ∀ r, arrangeSpacing M n spacing counts (.ok d) = .ok r → 0 < spacing ∧ n ≤ counts.x * counts.y * counts.z ∧
      r.1 = ⟨(d.x + spacing) * (counts.x : ℝ), (d.y + spacing) * (counts.y : ℝ), (d.z + spacing) * (counts.z : ℝ)⟩ ∧
      arrange M n counts ⟨d.x + spacing, d.y + spacing, d.z + spacing⟩ r.1 = .ok r.2 := by
    intro r h
    unfold arrangeSpacing at h
    by_cases h1 : spacing > 0
    swap
    · rw [decide_eq_false h1] at h
      cases h
    by_cases h2 : n ≤ counts.x * counts.y * counts.z
    swap
    · rw [decide_eq_true h1, decide_eq_false (mt e.mp h2)] at h
      cases h
    obtain ⟨_, -, h⟩ := Outcome.bind_eq_ok.mp h
    obtain ⟨_, -, h⟩ := Outcome.bind_eq_ok.mp h
    rw [Outcome.ok_bind] at h
    obtain ⟨s, h3, h⟩ := Outcome.bind_eq_ok.mp h
    cases h
    exact ⟨h1, h2, rfl, h3⟩
  refine ⟨⟨?_, ?_⟩, ?_⟩
  · rintro ⟨r, h⟩
    obtain ⟨h1, h2, -, h4⟩ := inv r h
    have hq := C117_possible.mp ⟨_, h4⟩
    exact ⟨hq.some, h1, h2, hq.layers⟩
  · rintro ⟨hn, h1, h2, hl⟩
    have c1 : 0 < d.x + spacing := add_pos hd.1 h1
    have c2 : 0 < d.y + spacing := add_pos hd.2.1 h1
    have c3 : 0 < d.z + spacing := add_pos hd.2.2 h1
    obtain ⟨s, hs⟩ := C117_possible.mpr (show Possible M n counts ⟨d.x + spacing, d.y + spacing, d.z + spacing⟩
      ⟨(d.x + spacing) * (counts.x : ℝ), (d.y + spacing) * (counts.y : ℝ), (d.z + spacing) * (counts.z : ℝ)⟩ from
        ⟨hn, possible_counts hn h2, ⟨c1, c2, c3⟩, ⟨auto_margin c1, auto_margin c2, auto_margin c3⟩, hl⟩)
    refine ⟨(⟨(d.x + spacing) * (counts.x : ℝ), (d.y + spacing) * (counts.y : ℝ), (d.z + spacing) * (counts.z : ℝ)⟩, s), ?_⟩
    simp only [arrangeSpacing, decide_eq_true (show spacing > 0 from h1), decide_eq_true (e.mpr h2), Outcome.require_true, Outcome.ok_bind, hs]
    rfl
  · intro box shapes h
    obtain ⟨h1, h2, h3, h4⟩ := inv _ h
    have hin := (C117_inside h4).1
    obtain ⟨hl, hat⟩ := C117_lattice h4
    simp only at h3
    refine ⟨by rw [h3, mul_comm (d.x + spacing), mul_comm (d.y + spacing), mul_comm (d.z + spacing)], by rw [hl]; exact Nat.min_eq_left h2, hin, fun i j k hi hj hk ht => ?_⟩
    obtain ⟨s, e1, e2, e3⟩ := hat i j k hi hj hk ht
    refine ⟨s, e1, ?_, e3⟩
    rw [e2, h3]
    have mid : ∀ (m i : Nat) (c : ℝ), centred m i c (c * (m : ℝ)) = ((i : ℝ) + 1 / 2) * c := by
      intro m i c
      unfold centred
      ring
    simp only [mid]

/-- 5 molecules at minimal distances 1, 1 and 2 with the spacing 1/2. -/
example : ∃ r, arrangeSpacing sample 5 (1 / 2) ⟨1, 3, 2⟩ (.ok ⟨1, 1, 2⟩) = .ok r :=
  (C118_spacing ⟨by norm_num, by norm_num, by norm_num⟩).1.mpr ⟨by decide, by norm_num, by decide, fun _ => ⟨1, rfl⟩⟩

/-- 5 molecules, with a box made of cells. -/
example : ∃ shapes, arrangePacking sample 5 (.cells ⟨1, 1, 3⟩ ⟨1, 3, 2⟩) none = .ok (⟨1, 3, 6⟩, shapes) := by
  refine C118_asked.mpr ⟨by decide, ?_⟩
  have := Asked.auto (M := sample) (n := 5) (cell := ⟨1, 1, 3⟩) (counts := ⟨1, 3, 2⟩) ⟨by norm_num, by norm_num, by norm_num⟩ (by decide) (fun _ => ⟨1, rfl⟩)
  norm_num at this
  exact this

/-- There is no place for 7 of them. -/
example (b : Option (Vec3 ℝ)) (box : Vec3 ℝ) : ¬∃ shapes, arrangePacking sample 7 (.cells ⟨1, 1, 3⟩ ⟨1, 3, 2⟩) b = .ok (box, shapes) := by
  rw [C118_asked]
  rintro ⟨-, h⟩
  cases h with
  | cells _ p => exact absurd p (by decide)
  | auto _ p => exact absurd p (by decide)

end Rampack.Orthorhombic
