import Verif.Lattice.OrthorhombicSpec
import Verif.OutcomeLemmas
import Verif.Shapes.BananaLemmas
import Mathlib.Tactic.Linarith
import Mathlib.Tactic.FieldSimp
import Mathlib.Tactic.Positivity
/-
Property C117: orthorhombic arrangements.
-/
namespace Rampack.Orthorhombic

open Spec

theorem loop_take (shape : Vec3 Nat → Shape) (n : Nat) : ∀ (l : List (Vec3 Nat)) (idx : Nat) (r : List Shape), loop shape n l idx r = r ++ (l.take (n - idx)).map shape
  | [], idx, r => by simp [loop]
  | i :: is, idx, r => by
    rw [loop]
    by_cases h : idx ≥ n
    · rw [if_pos h, Nat.sub_eq_zero_of_le h]
      simp
    · rw [if_neg h, loop_take shape n is, show n - idx = (n - (idx + 1)) + 1 by omega]
      simp

theorem flat_range {α : Type} (f : Nat → Nat → α) (a b : Nat) (hb : 0 < b) :
    ((List.range a).flatMap fun i => (List.range b).map (f i)) = (List.range (a * b)).map fun t => f (t / b) (t % b) := by
  induction a with
  | zero => simp
  | succ a ih =>
    rw [List.range_succ, List.flatMap_append, ih, Nat.succ_mul, List.range_add, List.map_append]
    congr 1
    simp only [List.flatMap_cons, List.flatMap_nil, List.append_nil, List.map_map]
    refine List.map_congr_left fun k hk => ?_
    have hk := List.mem_range.mp hk
    simp only [Function.comp]
    rw [Nat.add_comm, Nat.add_mul_div_right _ _ hb, Nat.div_eq_of_lt hk, Nat.zero_add, Nat.add_mul_mod_self_right, Nat.mod_eq_of_lt hk]

theorem triples_eq {c : Vec3 Nat} (hy : 0 < c.y) (hz : 0 < c.z) :
    triples c = (List.range (c.x * (c.y * c.z))).map fun t => ⟨t / (c.y * c.z), t % (c.y * c.z) / c.z, t % (c.y * c.z) % c.z⟩ := by
  unfold triples
  have : ∀ i, ((List.range c.y).flatMap fun j => (List.range c.z).map fun k => (⟨i, j, k⟩ : Vec3 Nat)) = (List.range (c.y * c.z)).map fun u => ⟨i, u / c.z, u % c.z⟩ :=
    fun i => flat_range (fun j k => (⟨i, j, k⟩ : Vec3 Nat)) _ _ hz
  simp only [this]
  exact flat_range (fun i u => (⟨i, u / c.z, u % c.z⟩ : Vec3 Nat)) _ _ (Nat.mul_pos hy hz)

theorem triples_length {c : Vec3 Nat} (hy : 0 < c.y) (hz : 0 < c.z) : (triples c).length = c.x * c.y * c.z := by
  rw [triples_eq hy hz, List.length_map, List.length_range, Nat.mul_assoc]

theorem triples_at {c : Vec3 Nat} {i j k : Nat} (hi : i < c.x) (hj : j < c.y) (hk : k < c.z) : (triples c)[(i * c.y + j) * c.z + k]? = some ⟨i, j, k⟩ := by
  have hy : 0 < c.y := by omega
  have hz : 0 < c.z := by omega
  have hu : j * c.z + k < c.y * c.z := by
    calc j * c.z + k < j * c.z + c.z := by omega
      _ = (j + 1) * c.z := by ring
      _ ≤ c.y * c.z := Nat.mul_le_mul_right _ hj
  have e : (i * c.y + j) * c.z + k = (j * c.z + k) + i * (c.y * c.z) := by ring
  have ht : (j * c.z + k) + i * (c.y * c.z) < c.x * (c.y * c.z) := by
    calc (j * c.z + k) + i * (c.y * c.z) < c.y * c.z + i * (c.y * c.z) := by omega
      _ = (i + 1) * (c.y * c.z) := by ring
      _ ≤ c.x * (c.y * c.z) := Nat.mul_le_mul_right _ hi
  rw [e, triples_eq hy hz, List.getElem?_map, List.getElem?_range ht, Option.map_some, Nat.add_mul_div_right _ _ (Nat.mul_pos hy hz), Nat.div_eq_of_lt hu, Nat.zero_add,
    Nat.add_mul_mod_self_right, Nat.mod_eq_of_lt hu, Nat.add_comm (j * c.z), Nat.add_mul_div_right _ _ hz, Nat.div_eq_of_lt hk, Nat.zero_add, Nat.add_mul_mod_self_right,
    Nat.mod_eq_of_lt hk]

theorem turn_mulVec (axis : Fin 3) (θ : ℝ) (v : Vec3 ℝ) : (turn axis θ).mulVec v = Turned axis θ v := by
  match axis with
  | 0 => ext <;> simp [turn, Turned, Mat3.rotation, Mat3.mulVec, Vec3.dot] <;> ring
  | 1 => ext <;> simp [turn, Turned, Mat3.rotation, Mat3.mulVec, Vec3.dot] <;> ring
  | 2 => ext <;> simp [turn, Turned, Mat3.rotation, Mat3.mulVec, Vec3.dot] <;> ring

theorem half_turn (axis : Fin 3) (v : Vec3 ℝ) : Turned axis Real.pi v = HalfTurned axis v := by
  match axis with
  | 0 => ext <;> simp [Turned, HalfTurned]
  | 1 => ext <;> simp [Turned, HalfTurned]
  | 2 => ext <;> simp [Turned, HalfTurned]

theorem item_layer (M : Model) (c : Vec3 Nat) : item c M.polarAxis = layer M c.x c.y c.z := by
  unfold item layer
  obtain ⟨_, p, _, _, _⟩ := M
  match p with
  | 0 => rfl
  | 1 => rfl
  | 2 => rfl

theorem place_oriented (M : Model) (counts : Vec3 Nat) (cell box : Vec3 ℝ) (i : Vec3 Nat) : Oriented M (layer M i.x i.y i.z) (place M counts cell box i).rot := by
  intro v
  simp only [place, item_layer, ← Mat3.mulVec_mulVec, turn_mulVec]
  by_cases ho : Odd (layer M i.x i.y i.z)
  · have h1 := Nat.odd_iff.mp ho
    cases M.antiferro <;> cases M.anticlinic <;> simp [ho, h1, turn_mulVec, half_turn, Mat3.one_mulVec]
  · have h1 : layer M i.x i.y i.z % 2 = 0 := by
      have := mt Nat.odd_iff.mpr ho
      omega
    cases M.antiferro <;> cases M.anticlinic <;> simp [ho, h1, Mat3.one_mulVec]

theorem offset_eq {count : Nat} (h : 0 < count) (i : Nat) (cell box : ℝ) : (i : ℝ) * cell + offset count cell box = centred count i cell box := by
  unfold offset centred
  rw [Nat.cast_sub h]
  push_cast
  ring

theorem offset_pos {count : Nat} (h : 0 < count) {cell box : ℝ} : 0 < offset count cell box ↔ ((count : ℝ) - 1) * cell < box := by
  unfold offset
  rw [Nat.cast_sub h]
  push_cast
  constructor <;> intro h <;> linarith

/-- **C117** An arrangement succeeds exactly if it is possible. -/
theorem C117_possible {M : Model} {n : Nat} {counts : Vec3 Nat} {cell box : Vec3 ℝ} : (∃ shapes, arrange M n counts cell box = .ok shapes) ↔ Possible M n counts cell box := by
  unfold arrange
  by_cases h1 : n > 0
  swap
  · rw [decide_eq_false h1]
    exact ⟨fun ⟨_, h⟩ => (by cases h), fun h => absurd h.some h1⟩
  by_cases h2 : counts.x > 0 ∧ counts.y > 0 ∧ counts.z > 0
  swap
  · rw [decide_eq_true h1, decide_eq_false h2]
    exact ⟨fun ⟨_, h⟩ => (by cases h), fun h => absurd h.cells h2⟩
  by_cases h3 : cell.x > 0 ∧ cell.y > 0 ∧ cell.z > 0
  swap
  · rw [decide_eq_true h1, decide_eq_true h2, decide_eq_false h3]
    exact ⟨fun ⟨_, h⟩ => (by cases h), fun h => absurd h.sizes h3⟩
  have pos : ∀ {c : Nat} {a b : ℝ}, 0 < c → 0 < a → ((c : ℝ) - 1) * a < b → 0 < b := by
    intro c a b hc ha hb
    have : (1 : ℝ) ≤ c := by exact_mod_cast hc
    nlinarith [mul_nonneg (sub_nonneg.mpr this) ha.le]
  by_cases h4 : box.x > 0 ∧ box.y > 0 ∧ box.z > 0
  swap
  · rw [decide_eq_true h1, decide_eq_true h2, decide_eq_true h3, decide_eq_false h4]
    exact ⟨fun ⟨_, h⟩ => (by cases h), fun h => absurd ⟨pos h2.1 h3.1 h.margin.1, pos h2.2.1 h3.2.1 h.margin.2.1, pos h2.2.2 h3.2.2 h.margin.2.2⟩ h4⟩
  rw [decide_eq_true h1, decide_eq_true h2, decide_eq_true h3, decide_eq_true h4, item_layer]
  simp only [Outcome.require_true, Outcome.ok_bind]
  have h5 : (!M.antiferro || layer M counts.x counts.y counts.z % 2 == 0) = true ↔ (M.antiferro = true → Even (layer M counts.x counts.y counts.z)) := by
    rw [Nat.even_iff]
    cases M.antiferro <;> simp
  by_cases h6 : (!M.antiferro || layer M counts.x counts.y counts.z % 2 == 0) = true
  swap
  · rw [Bool.eq_false_iff.mpr h6]
    exact ⟨fun ⟨_, h⟩ => (by cases h), fun h => absurd (h5.mpr h.layers) h6⟩
  rw [h6]
  simp only [Outcome.require_true, Outcome.ok_bind]
  have h7 : (offset counts.x cell.x box.x > 0 ∧ offset counts.y cell.y box.y > 0 ∧ offset counts.z cell.z box.z > 0) ↔
      (((counts.x : ℝ) - 1) * cell.x < box.x ∧ ((counts.y : ℝ) - 1) * cell.y < box.y ∧ ((counts.z : ℝ) - 1) * cell.z < box.z) :=
    and_congr (offset_pos h2.1) (and_congr (offset_pos h2.2.1) (offset_pos h2.2.2))
  by_cases h8 : offset counts.x cell.x box.x > 0 ∧ offset counts.y cell.y box.y > 0 ∧ offset counts.z cell.z box.z > 0
  · rw [decide_eq_true h8, Outcome.require_true, Outcome.ok_bind]
    exact ⟨fun _ => ⟨h1, h2, h3, h7.mp h8, h5.mp h6⟩, fun _ => ⟨_, rfl⟩⟩
  · rw [decide_eq_false h8]
    exact ⟨fun ⟨_, h⟩ => (by cases h), fun h => absurd (h7.mpr h.margin) h8⟩

theorem arrange_ok {M : Model} {n : Nat} {counts : Vec3 Nat} {cell box : Vec3 ℝ} {shapes : List Shape} (h : arrange M n counts cell box = .ok shapes) :
    shapes = ((triples counts).take n).map (place M counts cell box) := by
  unfold arrange at h
  obtain ⟨_, -, h⟩ := Outcome.bind_eq_ok.mp h
  obtain ⟨_, -, h⟩ := Outcome.bind_eq_ok.mp h
  obtain ⟨_, -, h⟩ := Outcome.bind_eq_ok.mp h
  obtain ⟨_, -, h⟩ := Outcome.bind_eq_ok.mp h
  obtain ⟨_, -, h⟩ := Outcome.bind_eq_ok.mp h
  obtain ⟨_, -, h⟩ := Outcome.bind_eq_ok.mp h
  rw [loop_take] at h
  cases h
  simp

/-- **C117** There are as many molecules as asked for, or as many as there are cells if this is less. Cells are filled in order, the last index being the fastest one. The lattice is in
the middle of the box, and orientations are as asked for. -/
theorem C117_lattice {M : Model} {n : Nat} {counts : Vec3 Nat} {cell box : Vec3 ℝ} {shapes : List Shape} (h : arrange M n counts cell box = .ok shapes) :
    shapes.length = min n (counts.x * counts.y * counts.z) ∧
    ∀ i j k, i < counts.x → j < counts.y → k < counts.z → (i * counts.y + j) * counts.z + k < n → ∃ s, shapes[(i * counts.y + j) * counts.z + k]? = some s ∧
      s.pos = ⟨centred counts.x i cell.x box.x, centred counts.y j cell.y box.y, centred counts.z k cell.z box.z⟩ ∧ Oriented M (layer M i j k) s.rot := by
  have hp := C117_possible.mp ⟨shapes, h⟩
  have e := arrange_ok h
  refine ⟨by rw [e, List.length_map, List.length_take, triples_length hp.cells.2.1 hp.cells.2.2], fun i j k hi hj hk ht => ?_⟩
  refine ⟨place M counts cell box ⟨i, j, k⟩, ?_, ?_, place_oriented M counts cell box ⟨i, j, k⟩⟩
  · rw [e, List.getElem?_map, List.getElem?_take_of_lt ht, triples_at hi hj hk]
    rfl
  · simp only [place]
    rw [offset_eq hp.cells.1, offset_eq hp.cells.2.1, offset_eq hp.cells.2.2]

/-- Each molecule is in some cell. -/
theorem arranged_cell {M : Model} {n : Nat} {counts : Vec3 Nat} {cell box : Vec3 ℝ} {shapes : List Shape} (h : arrange M n counts cell box = .ok shapes) {t : Nat} {s : Shape}
    (hs : shapes[t]? = some s) : ∃ i j k, i < counts.x ∧ j < counts.y ∧ k < counts.z ∧ t = (i * counts.y + j) * counts.z + k ∧
      s.pos = ⟨centred counts.x i cell.x box.x, centred counts.y j cell.y box.y, centred counts.z k cell.z box.z⟩ := by
  have hp := C117_possible.mp ⟨shapes, h⟩
  obtain ⟨hl, hat⟩ := C117_lattice h
  obtain ⟨ht, -⟩ := List.getElem?_eq_some_iff.mp hs
  rw [hl] at ht
  have hz := hp.cells.2.2
  have hy := hp.cells.2.1
  have ht' : t < counts.x * counts.y * counts.z := by omega
  have e1 : t / counts.z / counts.y * counts.y + t / counts.z % counts.y = t / counts.z := by rw [Nat.mul_comm]; exact Nat.div_add_mod _ _
  have e2 : (t / counts.z / counts.y * counts.y + t / counts.z % counts.y) * counts.z + t % counts.z = t := by rw [e1, Nat.mul_comm]; exact Nat.div_add_mod _ _
  have hi : t / counts.z / counts.y < counts.x := by
    rw [Nat.div_lt_iff_lt_mul hy, Nat.div_lt_iff_lt_mul hz]
    exact ht'
  obtain ⟨s', h1, h2, -⟩ := hat _ _ _ hi (Nat.mod_lt _ hy) (Nat.mod_lt (t) hz) (by rw [e2]; omega)
  rw [e2, hs] at h1
  cases h1
  exact ⟨_, _, _, hi, Nat.mod_lt _ hy, Nat.mod_lt _ hz, e2.symm, h2⟩

theorem centred_inside {count i : Nat} (hi : i < count) {cell box : ℝ} (hc : 0 < cell) (hb : ((count : ℝ) - 1) * cell < box) :
    0 < centred count i cell box ∧ centred count i cell box < box := by
  have h1 : (i : ℝ) + 1 ≤ count := by exact_mod_cast hi
  have h0 : (0 : ℝ) ≤ i := Nat.cast_nonneg i
  unfold centred
  constructor
  · nlinarith [mul_nonneg h0 hc.le]
  · nlinarith [mul_nonneg (sub_nonneg.mpr h1) hc.le]

/-- **C117** All molecules are inside the box, and any two differ in some coordinate by at least the size of the cell. -/
theorem C117_inside {M : Model} {n : Nat} {counts : Vec3 Nat} {cell box : Vec3 ℝ} {shapes : List Shape} (h : arrange M n counts cell box = .ok shapes) :
    (∀ s ∈ shapes, (0 < s.pos.x ∧ s.pos.x < box.x) ∧ (0 < s.pos.y ∧ s.pos.y < box.y) ∧ 0 < s.pos.z ∧ s.pos.z < box.z) ∧
    ∀ (t u : Nat) (s r : Shape), shapes[t]? = some s → shapes[u]? = some r → t ≠ u →
      cell.x ≤ |s.pos.x - r.pos.x| ∨ cell.y ≤ |s.pos.y - r.pos.y| ∨ cell.z ≤ |s.pos.z - r.pos.z| := by
  have hp := C117_possible.mp ⟨shapes, h⟩
  constructor
  · intro s hs
    obtain ⟨t, ht⟩ := List.mem_iff_getElem?.mp hs
    obtain ⟨i, j, k, hi, hj, hk, -, e⟩ := arranged_cell h ht
    rw [e]
    exact ⟨centred_inside hi hp.sizes.1 hp.margin.1, centred_inside hj hp.sizes.2.1 hp.margin.2.1, centred_inside hk hp.sizes.2.2 hp.margin.2.2⟩
  · intro t u s r hs hr hne
    obtain ⟨i, j, k, -, -, -, e, es⟩ := arranged_cell h hs
    obtain ⟨i', j', k', -, -, -, e', er⟩ := arranged_cell h hr
    have apart : ∀ {a b c : Nat} {cell box : ℝ}, 0 < cell → a ≠ b → cell ≤ |centred c a cell box - centred c b cell box| := by
      intro a b c cell box hc hab
      have : centred c a cell box - centred c b cell box = ((a : ℝ) - b) * cell := by unfold centred; ring
      rw [this, abs_mul, abs_of_pos hc]
      have h1 : (1 : ℝ) ≤ |(a : ℝ) - b| := by
        have : (1 : ℤ) ≤ |(a : ℤ) - b| := Int.one_le_abs (by omega)
        exact_mod_cast this
      nlinarith
    rw [es, er]
    by_cases h1 : i = i'
    · by_cases h2 : j = j'
      · refine .inr (.inr (apart hp.sizes.2.2 fun h3 => hne ?_))
        rw [e, e', h1, h2, h3]
      · exact .inr (.inl (apart hp.sizes.2.1 h2))
    · exact .inl (apart hp.sizes.1 h1)

theorem inLine_cube {n : Nat} (hn : 0 < n) : 0 < inLine n ∧ n ≤ inLine n * inLine n * inLine n ∧ (inLine n - 1) * (inLine n - 1) * (inLine n - 1) < n := by
  obtain ⟨x, hx⟩ : ∃ x, x = (n : ℝ) ^ ((1 : ℝ) / 3) := ⟨_, rfl⟩
  have hn' : (0 : ℝ) < n := by exact_mod_cast hn
  have h0 : 0 < x := by rw [hx]; exact Real.rpow_pos_of_pos hn' _
  have h3 : x * x * x = n := by
    have : x ^ (3 : ℕ) = n := by
      rw [hx, ← Real.rpow_natCast, ← Real.rpow_mul hn'.le]
      norm_num
    linarith [this, show x ^ (3 : ℕ) = x * x * x by ring]
  have hc : x ≤ inLine n := by unfold inLine; rw [← hx]; exact Nat.le_ceil x
  have hp : 0 < inLine n := by unfold inLine; rw [← hx]; exact Nat.ceil_pos.mpr h0
  have hl : ((inLine n - 1 : Nat) : ℝ) < x := by
    have : inLine n - 1 < inLine n := by omega
    have : inLine n - 1 < Nat.ceil x := by unfold inLine at this ⊢; rw [← hx] at this ⊢; exact this
    exact Nat.lt_ceil.mp this
  refine ⟨hp, ?_, ?_⟩
  · have : (n : ℝ) ≤ inLine n * inLine n * inLine n := by
      rw [← h3]
      have hi : (0 : ℝ) ≤ inLine n := Nat.cast_nonneg _
      exact mul_le_mul (mul_le_mul hc hc h0.le hi) hc h0.le (mul_nonneg hi hi)
    exact_mod_cast this
  · have h1 : (0 : ℝ) ≤ ((inLine n - 1 : Nat) : ℝ) := Nat.cast_nonneg _
    have : (((inLine n - 1 : Nat) : ℝ) * ((inLine n - 1 : Nat) : ℝ) * ((inLine n - 1 : Nat) : ℝ)) < n := by
      rw [← h3]
      have a1 : ((inLine n - 1 : Nat) : ℝ) * ((inLine n - 1 : Nat) : ℝ) ≤ x * x := mul_le_mul hl.le hl.le h1 h0.le
      nlinarith [mul_pos h0 h0, mul_nonneg h1 h1]
    exact_mod_cast this

theorem cube_unique {n m m' : Nat} (h1 : n ≤ m * m * m) (h2 : (m' - 1) * (m' - 1) * (m' - 1) < n) : m' ≤ m := by
  by_contra hlt
  have : m ≤ m' - 1 := by omega
  have := Nat.mul_le_mul (Nat.mul_le_mul this this) this
  omega

theorem margin_box {m : Nat} (hm : 0 < m) {b : ℝ} (hb : 0 < b) : ((m : ℝ) - 1) * (b / m) < b := by
  have : (0 : ℝ) < m := by exact_mod_cast hm
  have e : ((m : ℝ) - 1) * (b / m) = b - b / m := by field_simp
  have := div_pos hb this
  linarith

theorem layer_same (M : Model) (m : Nat) : layer M m m m = m := by
  unfold layer
  split <;> rfl

/-- **C117** With a box only: it succeeds exactly for positive numbers, and for antipolar layers only if there is an even number of them. -/
theorem C117_box_possible {M : Model} {n : Nat} {box : Vec3 ℝ} : (∃ shapes, arrangeBox M n box = .ok shapes) ↔
      (0 < n ∧ (0 < box.x ∧ 0 < box.y ∧ 0 < box.z) ∧ (M.antiferro = true → ∃ m, Even m ∧ n ≤ m * m * m ∧ (m - 1) * (m - 1) * (m - 1) < n)) := by
  unfold arrangeBox
  by_cases h1 : n > 0
  swap
  · rw [decide_eq_false h1]
    exact ⟨fun ⟨_, h⟩ => (by cases h), fun h => absurd h.1 h1⟩
  by_cases h2 : box.x > 0 ∧ box.y > 0 ∧ box.z > 0
  swap
  · rw [decide_eq_true h1, decide_eq_false h2]
    exact ⟨fun ⟨_, h⟩ => (by cases h), fun h => absurd h.2.1 h2⟩
  rw [decide_eq_true h1, decide_eq_true h2]
  simp only [Outcome.require_true, Outcome.ok_bind]
  rw [C117_possible]
  obtain ⟨hm, ha, hb⟩ := inLine_cube h1
  have hm' : (0 : ℝ) < inLine n := by exact_mod_cast hm
  constructor
  · intro h
    refine ⟨h1, h2, fun hf => ⟨inLine n, ?_, ha, hb⟩⟩
    have := h.layers hf
    rwa [layer_same] at this
  · rintro ⟨-, -, h⟩
    refine ⟨h1, ⟨hm, hm, hm⟩, ⟨div_pos h2.1 hm', div_pos h2.2.1 hm', div_pos h2.2.2 hm'⟩, ⟨margin_box hm h2.1, margin_box hm h2.2.1, margin_box hm h2.2.2⟩, fun hf => ?_⟩
    obtain ⟨m, he, h3, h4⟩ := h hf
    rw [layer_same, Nat.le_antisymm (cube_unique h3 hb) (cube_unique ha h4)]
    exact he

theorem centred_box {m : Nat} (hm : 0 < m) (i : Nat) (b : ℝ) : centred m i (b / m) b = ((i : ℝ) + 1 / 2) * (b / m) := by
  have : (m : ℝ) ≠ 0 := by exact_mod_cast hm.ne'
  unfold centred
  field_simp
  ring

/-- **C117** With a box only: the lattice has the smallest number of cells in all directions for which all molecules have their place, cells fill the box, molecules are in the middle of
cells, and there are as many of them as asked for. -/
theorem C117_box {M : Model} {n : Nat} {box : Vec3 ℝ} {shapes : List Shape} (h : arrangeBox M n box = .ok shapes) :
    ∃ m, (n ≤ m * m * m ∧ (m - 1) * (m - 1) * (m - 1) < n) ∧ shapes.length = n ∧
      ∀ i j k, i < m → j < m → k < m → (i * m + j) * m + k < n → ∃ s, shapes[(i * m + j) * m + k]? = some s ∧
        s.pos = ⟨((i : ℝ) + 1 / 2) * (box.x / m), ((j : ℝ) + 1 / 2) * (box.y / m), ((k : ℝ) + 1 / 2) * (box.z / m)⟩ ∧ Oriented M (layer M i j k) s.rot := by
  obtain ⟨h1, h2, -⟩ := C117_box_possible.mp ⟨shapes, h⟩
  obtain ⟨hm, ha, hb⟩ := inLine_cube h1
  unfold arrangeBox at h
  obtain ⟨_, -, h⟩ := Outcome.bind_eq_ok.mp h
  obtain ⟨_, -, h⟩ := Outcome.bind_eq_ok.mp h
  obtain ⟨hl, hat⟩ := C117_lattice h
  refine ⟨inLine n, ⟨ha, hb⟩, by rw [hl]; exact Nat.min_eq_left ha, fun i j k hi hj hk ht => ?_⟩
  obtain ⟨s, e, hp, ho⟩ := hat i j k hi hj hk ht
  refine ⟨s, e, ?_, ho⟩
  rw [hp]
  simp only [centred_box hm]

/-- **C117** Orientations are rotations. -/
theorem C117_rotation {M : Model} {n : Nat} {counts : Vec3 Nat} {cell box : Vec3 ℝ} {shapes : List Shape} (h : arrange M n counts cell box = .ok shapes) :
    ∀ s ∈ shapes, ∀ v, (s.rot.mulVec v).x ^ 2 + (s.rot.mulVec v).y ^ 2 + (s.rot.mulVec v).z ^ 2 = v.x ^ 2 + v.y ^ 2 + v.z ^ 2 := by
  intro s hs v
  rw [arrange_ok h] at hs
  obtain ⟨i, -, rfl⟩ := List.mem_map.mp hs
  rw [place_oriented M counts cell box i v]
  have turned : ∀ (a : Fin 3) (θ : ℝ) (w : Vec3 ℝ), (Turned a θ w).x ^ 2 + (Turned a θ w).y ^ 2 + (Turned a θ w).z ^ 2 = w.x ^ 2 + w.y ^ 2 + w.z ^ 2 := by
    intro a θ w
    have := Real.sin_sq_add_cos_sq θ
    match a with
    | 0 => simp only [Turned]; linear_combination (w.y ^ 2 + w.z ^ 2) * this
    | 1 => simp only [Turned]; linear_combination (w.x ^ 2 + w.z ^ 2) * this
    | 2 => simp only [Turned]; linear_combination (w.x ^ 2 + w.y ^ 2) * this
  rw [turned]
  split
  · rw [← half_turn, turned]
  · rfl

/-- Five molecules in antipolar, anticlinic layers along Z, on a lattice of 2 x 2 x 2 cells. -/
noncomputable def sample : Model := ⟨true, 2, true, 0, 1⟩

example : Possible sample 5 ⟨2, 2, 2⟩ ⟨1, 1, 3⟩ ⟨3, 3, 7⟩ :=
  ⟨by decide, by decide, by norm_num, by norm_num, fun _ => ⟨1, rfl⟩⟩

/-- The fourth one is in an odd layer. -/
example : ∃ shapes s, arrange sample 5 ⟨2, 2, 2⟩ ⟨1, 1, 3⟩ ⟨3, 3, 7⟩ = .ok shapes ∧ shapes.length = 5 ∧ shapes[3]? = some s ∧ s.pos = ⟨1, 2, 5⟩ ∧
    s.rot.mulVec ⟨1, 0, 0⟩ = ⟨-1, 0, 0⟩ := by
  obtain ⟨shapes, h⟩ := C117_possible.mpr (show Possible sample 5 ⟨2, 2, 2⟩ ⟨1, 1, 3⟩ ⟨3, 3, 7⟩ from
    ⟨by decide, by decide, by norm_num, by norm_num, fun _ => ⟨1, rfl⟩⟩)
  obtain ⟨hl, hat⟩ := C117_lattice h
  obtain ⟨s, e, hp, ho⟩ := hat 0 1 1 (by decide) (by decide) (by decide) (by decide)
  refine ⟨shapes, s, h, by rw [hl]; decide, e, ?_, ?_⟩
  · rw [hp]
    ext <;> norm_num [centred]
  · rw [ho]
    simp [sample, layer, Turned, HalfTurned]

/-- A box with 8 molecules. -/
example : ∃ shapes, arrangeBox sample 8 ⟨3, 3, 7⟩ = .ok shapes :=
  C117_box_possible.mpr ⟨by decide, by norm_num, fun _ => ⟨2, ⟨1, rfl⟩, by decide, by decide⟩⟩

/-- But not with 9 of them, which need 3 layers. -/
example : ¬∃ shapes, arrangeBox sample 9 ⟨3, 3, 7⟩ = .ok shapes := by
  rw [C117_box_possible]
  rintro ⟨-, -, h⟩
  obtain ⟨m, he, h1, h2⟩ := h rfl
  have := Nat.le_antisymm (cube_unique (m := 3) (n := 9) (by decide) h2) (cube_unique h1 (by decide))
  subst this
  exact absurd he (by decide)

end Rampack.Orthorhombic
