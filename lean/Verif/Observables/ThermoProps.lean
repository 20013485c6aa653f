import Verif.Observables.Thermo
import Verif.Packing.Demo
import Verif.Packing.LookLemmas
import Verif.Packing.Violations
import Verif.OutcomeLemmas
import Mathlib.Tactic.Linarith
import Mathlib.Tactic.FieldSimp
import Mathlib.Tactic.Ring
/-
Property C100 of observables made of single numbers.
-/
namespace Rampack

open Packing

namespace Spec

/-- The arithmetic mean. -/
noncomputable def mean (l : List ℝ) : ℝ := l.sum / l.length

/-- The unbiased estimator of the variance. -/
noncomputable def sampleVariance (l : List ℝ) : ℝ := (l.map fun x => (x - mean l) ^ 2).sum / (l.length - 1)

/-- Energies of molecules of a packing, each one with the rest of the system. -/
noncomputable def energies (P : Packing) (I : Interaction) : List ℝ := (mols P).zipIdx.map fun q => energyOf P I q.2 q.1

/-- `h` is the distance of the face spanned by `v` and `w` from the opposite one, which is moved by `u`. -/
def IsHeight (h : ℝ) (u v w : Vec3 ℝ) : Prop := ∃ n : Vec3 ℝ, n.norm2 = 1 ∧ n.dot v = 0 ∧ n.dot w = 0 ∧ n.dot u = h

end Spec

open Spec

namespace ThermoLemmas

theorem sum_squares (l : List ℝ) (c : ℝ) : (l.map fun x => (x - c) ^ 2).sum = (l.map fun x => x * x).sum - 2 * c * l.sum + l.length * c ^ 2 := by
  induction l with
  | nil => simp
  | cons x l ih => simp only [List.map_cons, List.sum_cons, ih, List.length_cons, Nat.cast_add, Nat.cast_one]; ring

theorem sampleVariance_eq {l : List ℝ} (h : 2 ≤ l.length) :
    sampleVariance l = (l.map fun x => x * x).sum / ((l.length : ℝ) - 1) - l.sum ^ 2 / l.length / ((l.length : ℝ) - 1) := by
  have h1 : (2 : ℝ) ≤ l.length := by exact_mod_cast h
  have h2 : (l.length : ℝ) ≠ 0 := by linarith
  have h3 : (l.length : ℝ) - 1 ≠ 0 := by intro e; linarith
  rw [sampleVariance, sum_squares, mean]
  field_simp
  ring

theorem sampleVariance_nonneg {l : List ℝ} (h : 2 ≤ l.length) : 0 ≤ sampleVariance l := by
  have h1 : (2 : ℝ) ≤ l.length := by exact_mod_cast h
  apply div_nonneg
  · apply List.sum_nonneg
    intro x hx
    obtain ⟨y, -, rfl⟩ := List.mem_map.mp hx
    exact sq_nonneg _
  · linarith

theorem energies_eq (P : Packing) (I : Interaction) : energies P I = (List.range P.size).map fun i => energyOf P I i (P.shapeFn i) := by
  have h := congrArg (List.map fun x : Nat × Shape => energyOf P I x.1 x.2) (enum_mols (P := P))
  rw [List.map_map, List.map_map] at h
  exact h

theorem energies_length (P : Packing) (I : Interaction) : (energies P I).length = P.size := by rw [energies_eq]; simp

theorem particle_ok {P : Packing} {I : Interaction} (h : Reachable P I) (hs : I.hasSoft = true) {i : Nat} (hi : i < P.size) :
    P.particleEnergy I i i = .ok (energyOf P I i (P.shapeFn i)) := by
  obtain ⟨hP, hI⟩ := h.inv
  rw [particleEnergy_ok hP.q hI (hP.q.core.shapeFn hi).1 (hP.q.core.shapeFn hi).2 hi, if_pos hs, single_energy hP hI hi (hP.q.core.shapeFn hi).2]

theorem loop_ok {P : Packing} {I : Interaction} (h : Reachable P I) (hs : I.hasSoft = true) (l : List Nat) (hl : ∀ i ∈ l, i < P.size) (a b : ℝ) :
    l.foldlM (P.addEnergy I) (a, b) = .ok (a + (l.map fun i => energyOf P I i (P.shapeFn i)).sum,
      b + ((l.map fun i => energyOf P I i (P.shapeFn i)).map fun x => x * x).sum) := by
  induction l generalizing a b with
  | nil => simp [Outcome.pure_eq]
  | cons i l ih =>
    rw [List.foldlM_cons, addEnergy, particle_ok h hs (hl i (by simp)), Outcome.ok_bind]
    show List.foldlM _ _ l = _
    rw [ih (fun j hj => hl j (by simp [hj]))]
    simp only [List.map_cons, List.sum_cons, add_assoc]

theorem height_of {b : Box} (hb : b.WF) {u v w : Vec3 ℝ} (hv : |(v.cross w).dot u| = b.volume) :
    IsHeight (b.volume / (v.cross w).norm) u v w := by
  have hpos := Box.volume_pos hb
  have hn0 : 0 < (v.cross w).norm := by
    apply Real.sqrt_pos.mpr
    apply lt_of_le_of_ne (Vec3.norm2_nonneg _)
    intro e
    have e' : (v.cross w).x * (v.cross w).x + (v.cross w).y * (v.cross w).y + (v.cross w).z * (v.cross w).z = 0 := e.symm
    have h1 : (v.cross w).x = 0 := by nlinarith [mul_self_nonneg (v.cross w).x, mul_self_nonneg (v.cross w).y, mul_self_nonneg (v.cross w).z]
    have h2 : (v.cross w).y = 0 := by nlinarith [mul_self_nonneg (v.cross w).x, mul_self_nonneg (v.cross w).y, mul_self_nonneg (v.cross w).z]
    have h3 : (v.cross w).z = 0 := by nlinarith [mul_self_nonneg (v.cross w).x, mul_self_nonneg (v.cross w).y, mul_self_nonneg (v.cross w).z]
    unfold Vec3.dot at hv
    rw [h1, h2, h3] at hv
    simp at hv
    linarith
  have hsq : (v.cross w).x * (v.cross w).x + (v.cross w).y * (v.cross w).y + (v.cross w).z * (v.cross w).z = (v.cross w).norm ^ 2 := (Vec3.norm_sq _).symm
  have key : ∀ s : ℝ, s * s = 1 → s * (v.cross w).dot u = b.volume → IsHeight (b.volume / (v.cross w).norm) u v w := by
    intro s hs hd
    refine ⟨(s / (v.cross w).norm) • v.cross w, ?_, ?_, ?_, ?_⟩
    · generalize (v.cross w).norm = N at *
      generalize v.cross w = c at *
      show s / N * c.x * (s / N * c.x) + s / N * c.y * (s / N * c.y) + s / N * c.z * (s / N * c.z) = 1
      have : s / N * c.x * (s / N * c.x) + s / N * c.y * (s / N * c.y) + s / N * c.z * (s / N * c.z) = (s * s) * (c.x * c.x + c.y * c.y + c.z * c.z) / N ^ 2 := by ring
      rw [this, hsq, hs]
      field_simp
    · simp only [Vec3.dot, Vec3.cross, Vec3.smul_x, Vec3.smul_y, Vec3.smul_z]; ring
    · simp only [Vec3.dot, Vec3.cross, Vec3.smul_x, Vec3.smul_y, Vec3.smul_z]; ring
    · rw [← hd]
      generalize (v.cross w).norm = N
      simp only [Vec3.dot, Vec3.smul_x, Vec3.smul_y, Vec3.smul_z]; ring
  rcases abs_cases ((v.cross w).dot u) with ⟨h1, -⟩ | ⟨h1, -⟩
  · exact key 1 (by ring) (by rw [← hv, h1]; ring)
  · exact key (-1) (by ring) (by rw [← hv, h1]; ring)

end ThermoLemmas

open ThermoLemmas

/-- C100: the number density times the volume is the number of molecules, the packing fraction times the volume is the joint volume of molecules (a negative volume of a
molecule is refused), the compressibility factor Z satisfies pV = ZNT, and the temperature and the pressure are the ones which were given. -/
theorem C100_state {P : Packing} {I : Interaction} (h : Reachable P I) (T p v : ℝ) :
    (∃ rho, Thermo.numberDensity.calculate P T p v I = .ok [rho] ∧ rho * |P.box.dims.det| = (mols P).length) ∧
    (0 ≤ v → ∃ theta, Thermo.packingFraction.calculate P T p v I = .ok [theta] ∧ theta * |P.box.dims.det| = (mols P).length * v) ∧
    (v < 0 → ∃ msg, Thermo.packingFraction.calculate P T p v I = .throw msg) ∧
    (T ≠ 0 → ∃ Z, Thermo.compressibilityFactor.calculate P T p v I = .ok [Z] ∧ p * |P.box.dims.det| = Z * (mols P).length * T) ∧
    Thermo.temperature.calculate P T p v I = .ok [T] ∧ Thermo.pressure.calculate P T p v I = .ok [p] := by
  obtain ⟨hP, hI⟩ := h.inv
  have hV := Box.volume_pos hP.q.core.box
  have hN := hP.size_pos
  have hN' : (0 : ℝ) < P.size := by exact_mod_cast hN
  rw [← Box.volume_eq, mols_length]
  refine ⟨⟨_, rfl, ?_⟩, fun hv => ⟨P.numberDensity * v, ?_, ?_⟩, fun hv => ⟨"Expects(shapeVolume >= 0)", ?_⟩, fun hT => ⟨p / T / P.numberDensity, ?_, ?_⟩, rfl, rfl⟩
  · unfold Packing.numberDensity; field_simp
  · simp only [Thermo.calculate]
    rw [packingFraction, decide_eq_true hv, Outcome.require_true]
    rfl
  · unfold Packing.numberDensity; field_simp
  · simp only [Thermo.calculate]
    rw [packingFraction, decide_eq_false (not_le.mpr hv)]
    rfl
  · simp only [Thermo.calculate]
    rw [if_neg (by rintro (h | h); exact hT h; omega)]
  · unfold Packing.numberDensity; field_simp

/-- C100 for names of columns: each value has a name, and all names of all observables are different. -/
theorem C100_names : (∀ (O : Thermo) (P : Packing) (T p v : ℝ) (I : Interaction) (l : List ℝ), O.calculate P T p v I = .ok l → O.header.length = l.length) ∧
    (∀ O : Thermo, O.header.Nodup) ∧ (∀ (O1 O2 : Thermo) (name : String), name ∈ O1.header → name ∈ O2.header → O1 = O2) ∧ Thermo.boxDimensions.header = ["L_X", "L_Y", "L_Z"] := by
  refine ⟨?_, ?_, ?_, rfl⟩
  · intro O P T p v I l h
    cases O <;> simp only [Thermo.calculate] at h
    · rw [← Outcome.ok_inj.mp h]; rfl
    · rw [← Outcome.ok_inj.mp h]; rfl
    · obtain ⟨_, -, h⟩ := Outcome.bind_eq_ok.mp h
      rw [← Outcome.ok_inj.mp h]; rfl
    · split at h
      · cases h
      · rw [← Outcome.ok_inj.mp h]; rfl
    · obtain ⟨_, -, h⟩ := Outcome.bind_eq_ok.mp h
      split at h
      · cases h
      · rw [← Outcome.ok_inj.mp h]; rfl
    · obtain ⟨_, -, h⟩ := Outcome.bind_eq_ok.mp h
      rw [← Outcome.ok_inj.mp h]; rfl
    · rw [← Outcome.ok_inj.mp h]; rfl
    · rw [← Outcome.ok_inj.mp h]; rfl
  · intro O; cases O <;> decide
  · intro O1 O2 name h1 h2
    cases O1 <;> simp only [Thermo.header, List.mem_cons, List.not_mem_nil, or_false] at h1 <;> (try rcases h1 with rfl | rfl | rfl) <;> (try subst h1) <;> cases O2 <;> first | rfl | exact absurd h2 (by decide)

/-- C100: box dimensions are distances of opposite faces of the box. -/
theorem C100_box {P : Packing} {I : Interaction} (h : Reachable P I) (T p v : ℝ) : ∃ x y z, Thermo.boxDimensions.calculate P T p v I = .ok [x, y, z] ∧
    0 < x ∧ 0 < y ∧ 0 < z ∧
    IsHeight x P.box.sides.x P.box.sides.y P.box.sides.z ∧ IsHeight y P.box.sides.y P.box.sides.z P.box.sides.x ∧ IsHeight z P.box.sides.z P.box.sides.x P.box.sides.y := by
  obtain ⟨hP, hI⟩ := h.inv
  obtain ⟨hx, hy, hz⟩ := Box.heights_pos hP.q.core.box
  have e : ∀ a b c : Vec3 ℝ, (b.cross c).dot a = (a.cross b).dot c := by intro a b c; simp only [Vec3.dot, Vec3.cross]; ring
  refine ⟨_, _, _, rfl, hx, hy, hz, ?_, ?_, ?_⟩
  · exact height_of hP.q.core.box (by rw [e]; rfl)
  · exact height_of hP.q.core.box (by rw [e, e]; rfl)
  · exact height_of hP.q.core.box rfl

/-- C100: the energy per particle is half of the mean of energies of single molecules with the rest of the system, so that the energy of each pair is counted once; it is zero
without soft interactions. -/
theorem C100_energy {P : Packing} {I : Interaction} (h : Reachable P I) (T p v : ℝ) :
    Thermo.energyPerParticle.calculate P T p v I = .ok [if I.hasSoft then mean (energies P I) / 2 else 0] := by
  obtain ⟨hP, hI⟩ := h.inv
  have hN := hP.size_pos
  simp only [Thermo.calculate]
  rw [totalEnergy_ok hP.q hI, Outcome.ok_bind, if_neg (by omega), double_energy hP hI, mean, energies_length, energies_eq]
  congr 2
  split_ifs
  · ring
  · simp

/-- C100: energy fluctuations are a half of the standard deviation (with the unbiased estimator of the variance) of energies of single molecules with the rest of the
system; this is for at least two molecules, since for one molecule the program divides zero by zero. -/
theorem C100_fluctuations {P : Packing} {I : Interaction} (h : Reachable P I) (T p v : ℝ) (hn : 2 ≤ (mols P).length) :
    ∃ f, Thermo.energyFluctuations.calculate P T p v I = .ok [f] ∧ 0 ≤ f ∧
      if I.hasSoft then (2 * f) ^ 2 = sampleVariance (energies P I) else f = 0 := by
  rw [mols_length] at hn
  simp only [Thermo.calculate, energyFluctuations]
  by_cases hs : I.hasSoft = true
  · rw [if_neg (by simpa using hs), loop_ok h hs _ (fun i hi => List.mem_range.mp hi), Outcome.ok_bind]
    simp only []
    rw [if_neg (by omega)]
    refine ⟨_, rfl, by positivity, ?_⟩
    rw [if_pos hs]
    have hl : 2 ≤ (energies P I).length := by rw [energies_length]; exact hn
    have e := sampleVariance_eq hl
    rw [energies_length] at e
    rw [energies_eq] at e ⊢
    rw [zero_add, zero_add, ← e, mul_div_cancel₀ _ (by norm_num), Real.sq_sqrt]
    have := sampleVariance_nonneg hl
    rwa [energies_eq] at this
  · rw [if_pos (by simpa using hs)]
    exact ⟨0, rfl, le_refl _, by rw [if_neg hs]⟩

/-- Three molecules in the unit cube, of which the first two attract each other. -/
noncomputable def threeShapes : List Shape := [⟨⟨1 / 4, 1 / 2, 1 / 2⟩, 1⟩, ⟨⟨1 / 2, 1 / 2, 1 / 2⟩, 1⟩, ⟨⟨3 / 8, 0, 0⟩, 1⟩]

/-- Balls of diameter 1/5 which attract up to the distance of 3/10. -/
noncomputable def wellI : Interaction := ballsI [] (1 / 10) 1

namespace ThermoLemmas

theorem three_reachable : ∃ P, Reachable P wellI ∧ mols P = threeShapes ∧ P.box = Rampack.unitBox ∧ P.ng = none := by
  have hI := ballsI_contract [] (r := 1 / 10) (by norm_num) 1
  have hin : ∀ s ∈ threeShapes, Inside Rampack.unitBox s.pos := by
    intro s hs
    simp only [threeShapes, List.mem_cons, List.not_mem_nil, or_false] at hs
    rcases hs with rfl | rfl | rfl <;> exact Rampack.unitBox_inside (by norm_num) (by norm_num) (by norm_num)
  obtain ⟨P, e, h, h1, h2, h3, h4, h5⟩ := create_ok hI Packing.unitBox_wf (shapes := threeShapes) (by simp [threeShapes]) hin (by simp [threeShapes, ballsI]) 1
  refine ⟨P, .create hI Rampack.unitBox_ok (by simp [threeShapes]) hin (by simp [threeShapes, wellI, ballsI, sites]) e, h1, h2, ?_⟩
  have : ¬ P.ng.isSome = true := by
    rw [h.used]
    intro hu
    apply hu.1
    rw [h2, Rampack.unitBox_heights]
    simp only [max_self]
    have : P.range ≤ P.cellSize := by unfold cellSize; simp only; split_ifs with hc <;> linarith
    rw [h.q.core.range_eq] at this
    have e3 : (ballsI [] (1 / 10) 1).range = 3 * (1 / 10) := rfl
    rw [e3] at this
    linarith
  simpa using this

theorem unitBox_eq : Rampack.unitBox = ⟨1, 1⟩ := by
  have h1 : Mat3.diag 1 1 1 = 1 := rfl
  have h2 : (1 : Mat3).inverse = 1 := by
    ext <;> simp [Mat3.inverse, Mat3.det, Mat3.one_def, Mat3.one]
  unfold Rampack.unitBox
  rw [h1, h2]

theorem near1 {x y : ℝ} (h : |y - x| ≤ 1 / 2) : PBC.trans1 x y = 0 := by
  obtain ⟨h1, h2⟩ := abs_le.mp h
  unfold PBC.trans1
  rw [PBC.transDown, if_neg (by linarith), PBC.transUp, if_neg (by linarith)]

theorem near3 {p q : Vec3 ℝ} (hx : |q.x - p.x| ≤ 1 / 2) (hy : |q.y - p.y| ≤ 1 / 2) (hz : |q.z - p.z| ≤ 1 / 2) : PBC.getTranslation Rampack.unitBox p q = 0 := by
  rw [unitBox_eq]
  unfold PBC.getTranslation
  have e : ∀ v, (⟨1, 1⟩ : Box).absToRel v = v := fun v => Mat3.one_mulVec v
  simp only [e]
  rw [near1 hx, near1 hy, near1 hz]
  ext <;> simp [Box.relToAbs, Mat3.mulVec, Vec3.dot]

theorem pair_near {P : Packing} (hb : P.box = Rampack.unitBox) (hg : P.ng = none) {s t : Shape} (hx : |t.pos.x - s.pos.x| ≤ 1 / 2) (hy : |t.pos.y - s.pos.y| ≤ 1 / 2)
    (hz : |t.pos.z - s.pos.z| ≤ 1 / 2) : pairEnergy P wellI s t = if dist2 s.pos t.pos ≤ (3 / 10) ^ 2 then -1 else 0 := by
  unfold pairEnergy
  rw [hg, hb]
  simp only [Option.isSome_none, Bool.false_eq_true, if_false, sitePairs, molSites, wellI, ballsI, List.length_nil, if_true, List.map_cons, List.map_nil, List.sum_cons,
    List.sum_nil, add_zero]
  have : (BC.pbc Rampack.unitBox).translation s.pos t.pos = 0 := near3 hx hy hz
  rw [this, add_zero]
  norm_num

theorem three_energies {P : Packing} (hm : mols P = threeShapes) (hb : P.box = Rampack.unitBox) (hg : P.ng = none) : energies P wellI = [-1, -1, 0] := by
  have e : energies P wellI = [energyOf P wellI 0 ⟨⟨1 / 4, 1 / 2, 1 / 2⟩, 1⟩, energyOf P wellI 1 ⟨⟨1 / 2, 1 / 2, 1 / 2⟩, 1⟩, energyOf P wellI 2 ⟨⟨3 / 8, 0, 0⟩, 1⟩] := by
    unfold energies; rw [hm]; rfl
  rw [e]
  simp only [energyOf, hm, threeShapes, List.eraseIdx_cons_zero, List.eraseIdx_cons_succ, List.map_cons, List.map_nil, List.sum_cons, List.sum_nil, add_zero]
  rw [pair_near hb hg (by norm_num [abs_of_pos]) (by norm_num) (by norm_num), pair_near hb hg (by norm_num [abs_of_pos]) (by norm_num) (by norm_num),
    pair_near hb hg (by norm_num [abs_of_neg]) (by norm_num) (by norm_num), pair_near hb hg (by norm_num [abs_of_neg]) (by norm_num) (by norm_num),
    pair_near hb hg (by norm_num [abs_of_neg]) (by norm_num) (by norm_num), pair_near hb hg (by norm_num [abs_of_pos]) (by norm_num) (by norm_num)]
  norm_num [dist2]

end ThermoLemmas

/-- C100, violated: `E` is documented as the average interaction energy of a single particle with the rest of the system, and `varE` as its variance. Neither is what is
reported: `E` is a half of the average, and `varE` is neither the variance (by either of the estimators) of energies of molecules nor that of halves of them. -/
theorem C100_documented_violated : ∃ P I, Reachable P I ∧ I.hasSoft = true ∧
    Thermo.energyPerParticle.calculate P 1 1 1 I ≠ .ok [mean (energies P I)] ∧
    ∃ f, Thermo.energyFluctuations.calculate P 1 1 1 I = .ok [f] ∧
      f ≠ sampleVariance (energies P I) ∧ f ≠ mean ((energies P I).map fun x => (x - mean (energies P I)) ^ 2) ∧
      f ≠ sampleVariance ((energies P I).map (· / 2)) := by
  obtain ⟨P, h, hm, hb, hg⟩ := three_reachable
  have he := three_energies hm hb hg
  have hs : wellI.hasSoft = true := rfl
  obtain ⟨f, hf, h0, h2⟩ := C100_fluctuations h 1 1 1 (by rw [hm]; simp [threeShapes])
  have hv : sampleVariance [-1, -1, 0] = 1 / 3 := by norm_num [sampleVariance, mean]
  rw [if_pos hs, he, hv] at h2
  refine ⟨P, wellI, h, hs, ?_, f, hf, ?_, ?_, ?_⟩
  · rw [C100_energy h, if_pos hs, he]
    intro e
    rw [Outcome.ok_inj, List.cons.injEq] at e
    norm_num [mean] at e
  · rw [he, hv]; rintro rfl; norm_num at h2
  · rw [he]
    have : mean ([-1, -1, 0].map fun x => (x - mean [-1, -1, 0]) ^ 2) = 2 / 9 := by norm_num [mean]
    rw [this]; rintro rfl; norm_num at h2
  · rw [he]
    have : sampleVariance ([-1, -1, 0].map (· / 2)) = 1 / 12 := by norm_num [sampleVariance, mean]
    rw [this]; rintro rfl; norm_num at h2

/-- C100, violated: the compressibility factor is documented as at least 1, but it is whatever the pressure says. -/
theorem C100_factor_violated : ∃ P I, Reachable P I ∧ ∃ Z, Thermo.compressibilityFactor.calculate P 1 1 1 I = .ok [Z] ∧ Z < 1 := by
  obtain ⟨P, h, hm, hb, hg⟩ := three_reachable
  obtain ⟨-, -, -, hZ, -⟩ := C100_state h 1 1 1
  obtain ⟨Z, e, hZ⟩ := hZ (by norm_num)
  refine ⟨P, _, h, Z, e, ?_⟩
  have hd : P.box.dims.det = 1 := by rw [hb, unitBox_eq]; simp [Mat3.det, Mat3.one_def, Mat3.one]
  rw [hd, hm] at hZ
  simp [threeShapes] at hZ
  linarith

/-- Energies of molecules, and so the energy per particle and fluctuations, can be different from zero. -/
example : ∃ P I, Reachable P I ∧ I.hasSoft = true ∧ 2 ≤ (mols P).length ∧ energies P I = [-1, -1, 0] := by
  obtain ⟨P, h, hm, hb, hg⟩ := three_reachable
  exact ⟨P, _, h, rfl, by rw [hm]; simp [threeShapes], three_energies hm hb hg⟩

end Rampack
