import Verif.Lattice.LayerOptProps
import Verif.Packing.UpscaleProps
import Verif.Box.Props
/-
A lattice for which the layer-wise optimisation leaves gaps: C102.
-/
namespace Rampack

open Spec Packing Lattice DistanceOptimizer CellOptimizationTransformer LayerWise

namespace LayerOpt

/-- The overlaps of one cell, as those of a packing. -/
theorem oneCell {I : Interaction} (hI : Contract I) {b : Box} (hb : b.WF) {cell : List Shape} (hne : cell ≠ []) (hcap : sites cell.length I.centres.length < 2 ^ 50) :
    ∃ Q, PInv Q I ∧ mols Q = cell.map (fun s => ⟨b.relToAbs ⟨Int.fract s.pos.x, Int.fract s.pos.y, Int.fract s.pos.z⟩, s.rot⟩) ∧ Q.box = b ∧ Q.hasWall = ⟨false, false, false⟩ ∧
      (CellOverlaps I ⟨1, 1, 1⟩ b cell ↔ 0 < numTotal Q I) := by
  have hd : 0 < (⟨1, 1, 1⟩ : Vec3 Nat).x ∧ 0 < (⟨1, 1, 1⟩ : Vec3 Nat).y ∧ 0 < (⟨1, 1, 1⟩ : Vec3 Nat).z := by simp
  have hs : (⟨1, 1, 1⟩ : Vec3 Nat).x * (⟨1, 1, 1⟩ : Vec3 Nat).y * (⟨1, 1, 1⟩ : Vec3 Nat).z < 2 ^ 31 := by norm_num
  obtain ⟨hN, hn, hlen⟩ := normalized_regular hb hd hs cell
  have ec : Lattice.create ⟨b, cell⟩ ⟨1, 1, 1⟩ = .ok ⟨[cell], b, ⟨1, 1, 1⟩, countCells ⟨1, 1, 1⟩, true⟩ := rfl
  have hB : latticeBox ⟨[cell.map wrapShape], b, ⟨1, 1, 1⟩, countCells ⟨1, 1, 1⟩, true⟩ = .ok b := by
    rw [latticeBox_stretch]
    simp only [Nat.cast_one]
    rw [stretch_one]
    exact hb.make
  have hg : gen ⟨[cell.map wrapShape], b, ⟨1, 1, 1⟩, countCells ⟨1, 1, 1⟩, true⟩ =
      cell.map (fun s => ⟨b.relToAbs ⟨Int.fract s.pos.x, Int.fract s.pos.y, Int.fract s.pos.z⟩, s.rot⟩) := by
    have : Lattice.allCells ⟨1, 1, 1⟩ = [⟨0, 0, 0⟩] := rfl
    unfold gen molsAt
    rw [this, List.flatMap_singleton]
    simp only [if_true, List.headD_cons, List.map_map]
    refine List.map_congr_left fun s _ => ?_
    simp only [Function.comp, wrapShape, wrap_eq, place, ofCell, Nat.cast_zero]
    congr 2
    ext <;> simp
  have hin := gen_inside hN hn hB
  rw [hg] at hin
  obtain ⟨Q, eQ, hQ, hQm, hQb, hQw, -⟩ := Packing.create_ok hI hb (by simpa using hne) hin (by simpa [sites] using hcap) 1
  refine ⟨Q, hQ, hQm, hQb, hQw, ?_⟩
  obtain ⟨K, hK, hk⟩ := count_numTotal hQ.q hI
  obtain ⟨k, c1, -, p1⟩ := hk false
  rw [← hK, Nat.cast_pos, ← p1 rfl]
  constructor
  · rintro ⟨L, L', B', g', Q', n, q1, q2, q3, q4, q5, q6, q7⟩
    rw [ec] at q1
    cases q1
    rw [normalize_regular hb hd hs] at q2
    cases q2
    rw [hB] at q3
    cases q3
    rw [generate_ok hN, hg] at q4
    cases q4
    rw [eQ] at q5
    cases q5
    rw [c1] at q6
    cases q6
    exact q7
  · exact fun q => ⟨_, _, b, _, Q, k, ec, normalize_regular hb hd hs cell, hB, (generate_ok hN).trans (by rw [hg]), eQ, c1, q⟩

/-- The box of the height `h`. -/
noncomputable def towerBox (h : ℝ) : Box := ⟨Mat3.diag 1 1 h, (Mat3.diag 1 1 h).inverse⟩

theorem tower_make {h : ℝ} (hh : 0 < h) : Box.make (Mat3.diag 1 1 h) = .ok (towerBox h) := by
  have : (Mat3.diag 1 1 h).det ≠ 0 := by simp [Mat3.diag, Mat3.det, hh.ne']
  rw [Box.make, if_neg this]
  rfl

theorem tower_abs (h : ℝ) (v : Vec3 ℝ) : (towerBox h).relToAbs v = ⟨v.x, v.y, h * v.z⟩ := by
  ext <;> simp [Box.relToAbs, towerBox, Mat3.diag, Mat3.mulVec, Vec3.dot]

theorem tower_lattice (h : ℝ) (n : Vec3 ℤ) : lattice (towerBox h) n = ⟨n.x, n.y, n.z * h⟩ := by
  ext <;> simp [lattice, combo, towerBox, Mat3.diag, Mat3.c0, Mat3.c1, Mat3.c2]

/-- Three balls of the diameter 1/5, one above another. -/
noncomputable def tower : List Shape := [⟨⟨1 / 2, 1 / 2, 0⟩, .one⟩, ⟨⟨1 / 2, 1 / 2, 1 / 2⟩, .one⟩, ⟨⟨1 / 2, 1 / 2, 3 / 4⟩, .one⟩]

noncomputable def towerI : Interaction := ballsI [] (1 / 10) (1 / 5)

theorem towerI_contract : Contract towerI := ballsI_contract [] (by norm_num) _

theorem tower_coords (c : Nat → ℝ) : atCoords 2 tower c = [⟨⟨1 / 2, 1 / 2, c 0⟩, .one⟩, ⟨⟨1 / 2, 1 / 2, c 1⟩, .one⟩, ⟨⟨1 / 2, 1 / 2, c 2⟩, .one⟩] := rfl

/-- The packing of the three balls. -/
theorem tower_packing {h : ℝ} (hh : 0 < h) (c : Nat → ℝ) :
    ∃ Q, PInv Q towerI ∧ (∀ i s, (mols Q)[i]? = some s → i < 3 ∧ s = ⟨⟨1 / 2, 1 / 2, h * Int.fract (c i)⟩, .one⟩) ∧
      (∀ i < 3, (mols Q)[i]? = some ⟨⟨1 / 2, 1 / 2, h * Int.fract (c i)⟩, .one⟩) ∧ Q.box = towerBox h ∧ Q.hasWall = ⟨false, false, false⟩ ∧
      (CellOverlaps towerI ⟨1, 1, 1⟩ (towerBox h) (atCoords 2 tower c) ↔ 0 < numTotal Q towerI) := by
  obtain ⟨Q, h1, h2, h3, h4, h5⟩ := oneCell towerI_contract (Box.make_wf (tower_make hh)).1 (cell := atCoords 2 tower c) (by simp [tower_coords])
    (by norm_num [tower_coords, sites, towerI, ballsI])
  have hf : Int.fract (1 / 2 : ℝ) = 1 / 2 := Int.fract_eq_self.mpr ⟨by norm_num, by norm_num⟩
  have hm : mols Q = [⟨⟨1 / 2, 1 / 2, h * Int.fract (c 0)⟩, .one⟩, ⟨⟨1 / 2, 1 / 2, h * Int.fract (c 1)⟩, .one⟩, ⟨⟨1 / 2, 1 / 2, h * Int.fract (c 2)⟩, .one⟩] := by
    rw [h2, tower_coords]
    simp only [List.map_cons, List.map_nil, tower_abs, hf]
  refine ⟨Q, h1, ?_, ?_, h3, h4, h5⟩
  · intro i s hs
    rw [hm] at hs
    match i, hs with
    | 0, hs => exact ⟨by omega, by simpa using hs.symm⟩
    | 1, hs => exact ⟨by omega, by simpa using hs.symm⟩
    | 2, hs => exact ⟨by omega, by simpa using hs.symm⟩
  · intro i hi
    rw [hm]
    match i, hi with
    | 0, _ => rfl
    | 1, _ => rfl
    | 2, _ => rfl

theorem tower_overlap {h : ℝ} (hh : 0 < h) {c : Nat → ℝ} {i j : Nat} (hi : i < 3) (hj : j < 3) (hij : i ≠ j) (n : ℤ) (hd : |(c j - c i + n) * h| < 1 / 5) :
    CellOverlaps towerI ⟨1, 1, 1⟩ (towerBox h) (atCoords 2 tower c) := by
  obtain ⟨Q, h1, -, h3, h4, h5, h6⟩ := tower_packing hh c
  refine h6.mpr (numTotal_pos h1 towerI_contract rfl (ballsI_translation _ _ _) (h3 i hi) (h3 j hj) hij ?_)
  rw [h4]
  show decide (dist2 _ (_ + PBC.getTranslation (towerBox h) _ _) < (2 * (1 / 10)) ^ 2) = true
  rw [decide_eq_true_iff]
  have hrect : Rectangular (towerBox h) := by simp [Rectangular, towerBox, Mat3.diag, Mat3.c0, Mat3.c1, Mat3.c2, Vec3.dot]
  refine lt_of_le_of_lt ((C06_translation (tower_make hh) _ _).2.2.1 hrect ⟨0, 0, n + ⌊c j⌋ - ⌊c i⌋⟩) ?_
  rw [tower_lattice]
  have e : ∀ x, Int.fract (c x) = c x - ⌊c x⌋ := fun x => rfl
  simp only [dist2, Vec3.add_x, Vec3.add_y, Vec3.add_z, e]
  push_cast
  have : ((1 : ℝ) / 2 + 0 - 1 / 2) ^ 2 + (1 / 2 + 0 - 1 / 2) ^ 2 + (h * (c j - ⌊c j⌋) + (n + ⌊c j⌋ - ⌊c i⌋) * h - h * (c i - ⌊c i⌋)) ^ 2 = ((c j - c i + n) * h) ^ 2 := by ring
  rw [this, ← sq_abs]
  have := abs_nonneg ((c j - c i + n) * h)
  nlinarith

theorem tower_free {h : ℝ} (hh : 0 < h) {c : Nat → ℝ} (hd : ∀ i < 3, ∀ j < 3, i ≠ j → ∀ n : ℤ, 1 / 5 ≤ |(c j - c i + n) * h|) :
    ¬ CellOverlaps towerI ⟨1, 1, 1⟩ (towerBox h) (atCoords 2 tower c) := by
  obtain ⟨Q, h1, h2, -, h4, h5, h6⟩ := tower_packing hh c
  rw [h6, numTotal_zero h1 towerI_contract rfl (ballsI_translation _ _ _) h5]
  · exact lt_irrefl _
  intro i j s t hs ht hij n
  obtain ⟨hi, rfl⟩ := h2 i s hs
  obtain ⟨hj, rfl⟩ := h2 j t ht
  rw [h4, tower_lattice]
  show decide (dist2 _ (_ + _) < (2 * (1 / 10)) ^ 2) = false
  rw [decide_eq_false_iff_not, not_lt]
  have e : ∀ x, Int.fract (c x) = c x - ⌊c x⌋ := fun x => rfl
  have key := hd i hi j hj hij (n.z - ⌊c j⌋ + ⌊c i⌋)
  simp only [dist2, BC.hard, Vec3.add_x, Vec3.add_y, Vec3.add_z, e]
  have k2 : (1 / 5 : ℝ) ^ 2 ≤ ((c j - c i + ((n.z - ⌊c j⌋ + ⌊c i⌋ : ℤ) : ℝ)) * h) ^ 2 := by
    rw [← sq_abs ((c j - c i + ((n.z - ⌊c j⌋ + ⌊c i⌋ : ℤ) : ℝ)) * h)]
    exact pow_le_pow_left₀ (by norm_num) key 2
  push_cast at k2
  have : (h * (c j - ⌊c j⌋) + n.z * h - h * (c i - ⌊c i⌋)) = (c j - c i + (n.z - ⌊c j⌋ + ⌊c i⌋)) * h := by ring
  rw [this]
  nlinarith [sq_nonneg ((1 : ℝ) / 2 + n.x - 1 / 2), sq_nonneg ((1 : ℝ) / 2 + n.y - 1 / 2)]

theorem tower_coordOf (i : Nat) (hi : i < 3) : coordOf 2 tower i = if i = 0 then 0 else if i = 1 then 1 / 2 else 3 / 4 := by
  match i, hi with
  | 0, _ => simp [coordOf, tower, Vec3.get]
  | 1, _ => simp [coordOf, tower, Vec3.get]
  | 2, _ => simp [coordOf, tower, Vec3.get]

/-- Distances are such for all periodic images if they are such for the nearest ones. -/
theorem images_apart {u d : ℝ} (h1 : d ≤ |u|) (h2 : |u| ≤ 1 - d) (hd : 0 < d) (n : ℤ) : d ≤ |u + n| := by
  rcases lt_trichotomy n 0 with h | h | h
  · have h : (n : ℝ) ≤ -1 := by exact_mod_cast (by omega : n ≤ -1)
    have := (abs_le.mp h2).2
    rw [abs_of_nonpos (by linarith)]
    linarith
  · rw [h, Int.cast_zero, add_zero]; exact h1
  · have h : (1 : ℝ) ≤ n := by exact_mod_cast (by omega : 1 ≤ n)
    have := (abs_le.mp h2).1
    rw [abs_of_nonneg (by linarith)]
    linarith

/-- Balls at heights which are apart enough do not overlap. -/
theorem tower_apart {c : Nat → ℝ} (h1 : 1 / 5 ≤ c 1 - c 0) (h2 : 1 / 5 ≤ c 2 - c 1) (h3 : c 2 - c 0 ≤ 4 / 5) :
    ¬ CellOverlaps towerI ⟨1, 1, 1⟩ (towerBox 1) (atCoords 2 tower c) := by
  refine tower_free one_pos fun i hi j hj hij n => ?_
  rw [mul_one]
  have key : 1 / 5 ≤ |c j - c i| ∧ |c j - c i| ≤ 1 - 1 / 5 := by
    match i, hi, j, hj with
    | 0, _, 0, _ => omega
    | 1, _, 1, _ => omega
    | 2, _, 2, _ => omega
    | 0, _, 1, _ => rw [abs_of_nonneg (by linarith)]; constructor <;> linarith
    | 0, _, 2, _ => rw [abs_of_nonneg (by linarith)]; constructor <;> linarith
    | 1, _, 2, _ => rw [abs_of_nonneg (by linarith)]; constructor <;> linarith
    | 1, _, 0, _ => rw [abs_of_nonpos (by linarith)]; constructor <;> linarith
    | 2, _, 0, _ => rw [abs_of_nonpos (by linarith)]; constructor <;> linarith
    | 2, _, 1, _ => rw [abs_of_nonpos (by linarith)]; constructor <;> linarith
  exact images_apart key.1 key.2 (by norm_num) n

theorem tower_layering {m : Nat} {layer : Nat → Nat} (h : Layering 2 tower m layer) : m = 3 ∧ layer 0 = 0 ∧ layer 1 = 1 ∧ layer 2 = 2 := by
  have e : ¬ SameCoord (0 : ℝ) (1 / 2) := by unfold SameCoord; norm_num [abs_of_nonpos]
  have e' : ¬ SameCoord (1 / 2 : ℝ) (3 / 4) := by unfold SameCoord; norm_num [abs_of_nonpos]
  have h01 : layer 0 < layer 1 := (h.below (i := 0) (j := 1) rfl rfl).mpr ⟨by norm_num [Vec3.get], e⟩
  have h12 : layer 1 < layer 2 := (h.below (i := 1) (j := 2) rfl rfl).mpr ⟨by norm_num [Vec3.get], e'⟩
  have hl : tower.length = 3 := rfl
  have l2 := h.lt 2 (by rw [hl]; omega)
  have key : ∀ l < m, layer 0 = l ∨ layer 1 = l ∨ layer 2 = l := by
    intro l hl'
    obtain ⟨i, hi, e⟩ := h.onto l hl'
    rw [hl] at hi
    match i, hi with
    | 0, _ => exact Or.inl e
    | 1, _ => exact Or.inr (Or.inl e)
    | 2, _ => exact Or.inr (Or.inr e)
  have k0 := key 0 (by omega)
  have k1 := key 1 (by omega)
  have k2 := key 2 (by omega)
  by_cases hm : 3 < m
  · have k3 := key 3 hm
    omega
  · omega

theorem tower_index {layer : Nat → Nat} (h0 : layer 0 = 0) (h1 : layer 1 = 1) (h2 : layer 2 = 2) {i l : Nat} (hi : i < 3) (h : layer i = l) : i = l := by
  match i, hi with
  | 0, _ => omega
  | 1, _ => omega
  | 2, _ => omega

/-- Where the layers are moved. -/
theorem tower_moved {m : Nat} {layer : Nat → Nat} {c : Nat → ℝ} (h : Layering 2 tower m layer) (hm : LayersMoved towerI ⟨1, 1, 1⟩ (towerBox 1) 2 tower m layer c) :
    c 0 = 0 ∧ 1 / 5 ≤ c 1 ∧ c 1 < 21 / 100 ∧ 1 / 2 ≤ c 2 ∧ c 2 < 51 / 100 := by
  obtain ⟨rfl, h0, h1, h2⟩ := tower_layering h
  have hp : precision = 1 / 10 ^ 12 := rfl
  have hl : tower.length = 3 := rfl
  have c0 : c 0 = 0 := by rw [hm.1 0 (by rw [hl]; omega) h0, tower_coordOf 0 (by omega)]; rfl
  obtain ⟨i, j, p, q, x, y, hi, e1, e2, hj, e3, e4, k1, k2, k3, k4, k5, k6⟩ := hm.2 1 (by omega) (by omega)
  rw [hl] at hi hj
  have := tower_index h0 h1 h2 hi (show layer i = 0 by omega)
  subst this
  have := tower_index h0 h1 h2 hj e3
  subst this
  rw [tower_coordOf 0 (by omega), if_pos rfl] at e2
  rw [tower_coordOf 1 (by omega), if_neg (by omega), if_pos rfl] at e4
  subst e2 e4
  have at1 : ∀ z, layerAt layer (coordOf 2 tower) c 1 z 0 = 0 ∧ layerAt layer (coordOf 2 tower) c 1 z 1 = z ∧ layerAt layer (coordOf 2 tower) c 1 z 2 = 3 / 4 := by
    intro z
    unfold layerAt
    refine ⟨by rw [h0, if_pos (by omega), c0], by rw [h1, if_neg (by omega), if_pos rfl], ?_⟩
    rw [h2, if_neg (by omega), if_neg (by omega), tower_coordOf 2 (by omega), if_neg (by omega), if_neg (by omega)]
  have hx : x < 1 / 5 := by
    by_contra hx
    push Not at hx
    obtain ⟨a1, a2, a3⟩ := at1 x
    rcases k5 with k5 | k5
    · linarith
    · exact tower_apart (by rw [a1, a2]; linarith) (by rw [a2, a3]; linarith) (by rw [a1, a3]; norm_num) k5
  have c1 : 1 / 5 ≤ c 1 ∧ c 1 < 21 / 100 := by
    rcases k6 with ⟨k6, k7⟩ | ⟨k6, -⟩
    · have k7 := k7 1 (by rw [hl]; omega) h1
      have hy : 1 / 5 ≤ y := by
        by_contra hy
        push Not at hy
        obtain ⟨a1, a2, -⟩ := at1 y
        refine k6 (tower_overlap one_pos (i := 0) (j := 1) (by omega) (by omega) (by omega) 0 ?_)
        rw [a1, a2, Int.cast_zero, abs_lt]
        constructor <;> linarith
      rw [k7, hp]
      rw [hp] at k4
      constructor
      · have : (0 : ℝ) < 1 / 10 ^ 12 := by positivity
        linarith
      · norm_num at k4 ⊢
        linarith
    · exfalso
      rw [hp] at k4
      norm_num at k4
      linarith
  refine ⟨c0, c1.1, c1.2, ?_⟩
  obtain ⟨i, j, p, q, x, y, hi, e1, e2, hj, e3, e4, k1, k2, k3, k4, k5, k6⟩ := hm.2 2 (by omega) (by omega)
  rw [hl] at hi hj
  have := tower_index h0 h1 h2 hi (show layer i = 1 by omega)
  subst this
  have := tower_index h0 h1 h2 hj e3
  subst this
  rw [tower_coordOf 1 (by omega), if_neg (by omega), if_pos rfl] at e2
  rw [tower_coordOf 2 (by omega), if_neg (by omega), if_neg (by omega)] at e4
  subst e2 e4
  have at2 : ∀ z, layerAt layer (coordOf 2 tower) c 2 z 0 = 0 ∧ layerAt layer (coordOf 2 tower) c 2 z 1 = c 1 ∧ layerAt layer (coordOf 2 tower) c 2 z 2 = z := by
    intro z
    unfold layerAt
    exact ⟨by rw [h0, if_pos (by omega), c0], by rw [h1, if_pos (by omega)], by rw [h2, if_neg (by omega), if_pos rfl]⟩
  have hx : x = 1 / 2 := by
    rcases k5 with k5 | k5
    · exact k5
    · obtain ⟨a1, a2, a3⟩ := at2 x
      exact absurd k5 (tower_apart (by rw [a1, a2]; linarith [c1.1]) (by rw [a2, a3]; linarith [c1.2]) (by rw [a1, a3]; linarith))
  rw [hp] at k4
  rcases k6 with ⟨-, k7⟩ | ⟨k6, -⟩
  · have k7 := k7 2 (by rw [hl]; omega) h2
    rw [k7, hp]
    norm_num at k4 ⊢
    constructor <;> linarith
  · exfalso
    norm_num at k4
    linarith

theorem tower_stretch {k : ℝ} (hk : 0 < k) : Box.make (stretch (towerBox 1).dims ((⟨1, 1, 1⟩ : Vec3 ℝ).put 2 k)) = .ok (towerBox k) := by
  have : stretch (towerBox 1).dims ((⟨1, 1, 1⟩ : Vec3 ℝ).put 2 k) = Mat3.diag 1 1 k := by
    ext <;> simp [stretch, towerBox, Mat3.diag, Mat3.mul_def, Mat3.mul, Vec3.dot, Mat3.c0, Mat3.c1, Mat3.c2, Vec3.put, Vec3.ofFn, Vec3.get]
  rw [this, tower_make hk]

theorem tower_compressed {c : Nat → ℝ} (h0 : c 0 = 0) {j : Nat} (hj : 0 < j ∧ j < 3) {k : ℝ} (hk : 0 < k) (n : ℤ) (h : |c j - n * k| < 1 / 5) :
    OverlapsCompressed towerI ⟨1, 1, 1⟩ (towerBox 1) 2 tower c k := by
  refine ⟨_, tower_stretch hk, tower_overlap hk (i := 0) (j := j) (by omega) hj.2 (by omega) (-n) ?_⟩
  rw [h0]
  have : (c j / k - 0 / k + ((-n : ℤ) : ℝ)) * k = c j - n * k := by
    push_cast
    field_simp
    ring
  rw [this]
  exact h

/-- The compression cannot end below 3/5. -/
theorem tower_compression {c : Nat → ℝ} (h0 : c 0 = 0) (h1 : 1 / 5 ≤ c 1) (h2 : c 1 < 21 / 100) (h3 : 1 / 2 ≤ c 2) (h4 : c 2 < 51 / 100) {k : ℝ} (hk : 0 < k) (hk' : k < 3 / 5) :
    OverlapsCompressed towerI ⟨1, 1, 1⟩ (towerBox 1) 2 tower c k := by
  by_cases h : k < 2 / 5
  · have e := abs_sub_round (c 1 / k)
    refine tower_compressed h0 (j := 1) (by omega) hk (round (c 1 / k)) ?_
    have : c 1 - round (c 1 / k) * k = (c 1 / k - round (c 1 / k)) * k := by field_simp
    rw [this, abs_mul, abs_of_pos hk]
    nlinarith
  · refine tower_compressed h0 (j := 2) (by omega) hk 1 ?_
    rw [Int.cast_one, one_mul, abs_lt]
    constructor <;> linarith

end LayerOpt

open LayerOpt

/-- C102: the optimisation of layers is documented to compress them "until they are tangent". But from three balls of the diameter 1/5, one above another, the
third one is left nearly 3/10 above the second one: a layer is never moved below the place at which the previous one was initially. -/
theorem C102_tangent_violated : ∃ L I L' s0 s1 s2, LatticeReached L ∧ Contract I ∧ Balls I (1 / 5) ∧ L.dims = ⟨1, 1, 1⟩ ∧
    LayerOpt.transform 2 0 I L = .ok L' ∧ L'.getUnit = .ok [s0, s1, s2] ∧
    s0.pos.x = s1.pos.x ∧ s0.pos.y = s1.pos.y ∧ s1.pos.x = s2.pos.x ∧ s1.pos.y = s2.pos.y ∧
    (L'.box.relToAbs s1.pos - L'.box.relToAbs s0.pos).z < 21 / 100 ∧ 29 / 100 < (L'.box.relToAbs s2.pos - L'.box.relToAbs s1.pos).z := by
  have hw1 := (Box.make_wf (tower_make one_pos)).1
  have hcl : ClearLayers 2 tower := by
    intro s hs t ht u hu
    simp only [tower, List.mem_cons, List.not_mem_nil, or_false] at hs ht hu
    rcases hs with rfl | rfl | rfl <;> rcases ht with rfl | rfl | rfl <;> rcases hu with rfl | rfl | rfl <;> unfold SameCoord <;>
      norm_num [Vec3.get, abs_of_nonneg, abs_of_nonpos]
  obtain ⟨L, hL⟩ : ∃ L : Lattice, L = ⟨[tower], towerBox 1, ⟨1, 1, 1⟩, countCells ⟨1, 1, 1⟩, true⟩ := ⟨_, rfl⟩
  have hr : LatticeReached L := .create (c := ⟨towerBox 1, tower⟩) (d := ⟨1, 1, 1⟩) hw1 (by norm_num) (by rw [hL]; rfl)
  have hu : L.getUnit = .ok tower := by rw [hL]; rfl
  have hdim : L.dims = ⟨1, 1, 1⟩ := by rw [hL]
  have hbox : L.box = towerBox 1 := by rw [hL]
  have hreg : L.regular = true := by rw [hL]
  have hnorm : L.isNormalized = true := by
    rw [hL]
    norm_num [isNormalized, cellNormalized, tower]
  have hHt : (towerBox 1).heights = ⟨1, 1, 1⟩ := unitBox_heights
  have hHa : ∀ a, (⟨1, 1, 1⟩ : Vec3 ℝ).get a = 1 := by
    intro a
    match a with
    | 0 => rfl
    | 1 => rfl
    | 2 => rfl
  have hB : L.latticeBox = .ok (towerBox 1) := by
    rw [latticeBox_stretch, hdim, hbox]
    simp only [Nat.cast_one]
    rw [stretch_one]
    exact hw1.make
  have hsz : L.size = 3 := by
    rw [hL]
    simp [Lattice.size, countCells_eq, tower]
  have hp : precision = 1 / 10 ^ 12 := rfl
  have htot : towerI.totalRange = 1 / 5 := rfl
  rcases C102_layers (axis := 2) (spacing := 0) hr towerI_contract (by rw [htot]; norm_num) (by rw [hsz]; norm_num [sites, towerI, ballsI])
    (fun cell hc => by rw [hu] at hc; cases hc; exact hcl) with ⟨m, -, href⟩ | ⟨L', cell, m, layer, c, k, x, q1, q2, q3, q4, q5, q6, q7, q8, q9, k1, k2, k3, k4, k5, k6, k7, k8, k9, k10⟩
  · exfalso
    rcases href with h | h | h | ⟨cell, hc, h⟩
    · cases h
    · rw [hreg] at h; cases h
    · rw [hnorm] at h; cases h
    rw [hu] at hc
    cases hc
    rcases h with h | h | ⟨B, m, layer, c, hB', hlay, hmv, h⟩
    · simp [tower] at h
    · rw [hdim, hbox, ← atCoords_self 2 tower] at h
      refine tower_apart ?_ ?_ ?_ h <;> simp only [tower_coordOf 0 (by omega), tower_coordOf 1 (by omega), tower_coordOf 2 (by omega)] <;> norm_num
    · rw [hB] at hB'
      cases hB'
      rw [hdim, hbox] at hmv h
      obtain ⟨m0, m1, m2, m3, m4⟩ := tower_moved hlay hmv
      rw [hHt] at h
      rcases h with ⟨a, h⟩ | h | ⟨k, h1, -, h2⟩
      · rw [hHa, hp, htot] at h
        norm_num at h
      · refine h (tower_compression m0 m1 m2 m3 m4 ?_ ?_) <;> rw [hHa, hp, htot] <;> norm_num
      · rw [hHa] at h2
        linarith
  rw [hu] at q6
  cases q6
  rw [hdim, hbox] at q9 k5 k6
  obtain ⟨m0, m1, m2, m3, m4⟩ := tower_moved q7 q9
  have hk0 : 0 < k := lt_trans k1 k2
  have hk : 3 / 5 ≤ k := by
    by_contra hk
    push Not at hk
    rcases k6 with k6 | k6
    · rw [k6] at hk; norm_num at hk
    · exact k6 (tower_compression m0 m1 m2 m3 m4 hk0 hk)
  rw [hbox, hHt, hHa, mul_zero, add_zero, mul_one] at k8
  rw [hbox, hHt, hHa, div_one, k8, tower_stretch hk0] at k9
  have hL' : L'.box = towerBox k := (Outcome.ok_inj.mp k9).symm
  rw [hbox, hHt, hHa, k8] at k10
  have hsp : ∀ i, spacedAt layer c 1 0 k i = c i / k := fun i => by unfold spacedAt; ring
  have hlen : tower.length = 3 := rfl
  have hc1 : 0 < c 1 / k ∧ c 1 / k ≤ c 2 / k := ⟨by positivity, by gcongr; linarith⟩
  have hc2 : c 2 / k < 1 := by rw [div_lt_one hk0]; linarith
  have hcen : ∀ i < 3, centredAt tower.length (spacedAt layer c 1 0 k) i = c i / k + (1 / 2 - c 2 / k / 2) := by
    intro i hi
    unfold centredAt
    rw [hlen]
    simp only [hsp, m0, zero_div, zero_add]
    rw [Int.fract_eq_self]
    match i, hi with
    | 0, _ => rw [m0, zero_div]; constructor <;> linarith
    | 1, _ => constructor <;> linarith
    | 2, _ => constructor <;> linarith
  rw [tower_coords, hcen 0 (by omega), hcen 1 (by omega), hcen 2 (by omega)] at k10
  refine ⟨L, towerI, L', _, _, _, hr, towerI_contract, ?_, hdim, q1, k10, rfl, rfl, rfl, rfl, ?_, ?_⟩
  · have := ballsI_balls (1 / 10) (1 / 5)
    rwa [show (2 * (1 / 10) : ℝ) = 1 / 5 by norm_num] at this
  · rw [hL', tower_abs, tower_abs]
    simp only [Vec3.sub_z]
    have : k * (c 1 / k + (1 / 2 - c 2 / k / 2)) - k * (c 0 / k + (1 / 2 - c 2 / k / 2)) = c 1 - c 0 := by field_simp; ring
    rw [this, m0]
    linarith
  · rw [hL', tower_abs, tower_abs]
    simp only [Vec3.sub_z]
    have : k * (c 2 / k + (1 / 2 - c 2 / k / 2)) - k * (c 1 / k + (1 / 2 - c 2 / k / 2)) = c 2 - c 1 := by field_simp; ring
    rw [this]
    linarith

end Rampack
