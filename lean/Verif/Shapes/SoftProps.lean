import Verif.Shapes.Soft
import Verif.Shapes.HardRangeProps
/-
C73: soft interactions depend on the distance as documented, and vanish beyond their range. C74: joined interactions.
-/
namespace Rampack

open Spec Shapes

theorem central_contract {f : ℝ → ℝ} {range : ℝ} (hpos : 0 < range) (hf : ∀ d, range ^ 2 < d → f d = 0) (centres : List (Vec3 ℝ)) : Contract (central f range centres) where
  range_pos := hpos
  overlap_symm := fun _ _ _ => rfl
  overlap_symm_pbc := fun _ _ _ _ _ => rfl
  overlap_range := by intro s1 s2 t h; exact absurd h (by simp [central])
  energy_symm := by
    intro s1 s2 t
    show f ((s2.pos + t - s1.pos).norm2) = f ((s1.pos + -t - s2.pos).norm2)
    rw [hard_flip]
  energy_symm_pbc := by
    intro m b s1 s2 _
    show f (PBC.getDistance2 b s1.pos s2.pos) = f (PBC.getDistance2 b s2.pos s1.pos)
    rw [distance2_comm]
  energy_range := by
    intro s1 s2 t h
    rw [dist2_hard]
    by_contra hc
    exact h (hf _ (not_le.mp hc))
  noHard_overlap := fun _ _ _ _ => rfl
  noHard_wall := fun _ _ _ _ => rfl

theorem central_total {f : ℝ → ℝ} {range : ℝ} {centres : List (Vec3 ℝ)} : TotalRange (central f range centres) := totalRange_ge (cs := centres) (r := range)

theorem lennardJones_ok {e s : ℝ} {cs : List (Vec3 ℝ)} {I : Interaction} (h : lennardJones e s cs = .ok I) : 0 < e ∧ 0 < s ∧ I = central (ljEnergy e s) (3 * s) cs := by
  unfold lennardJones at h
  obtain ⟨_, h1, h⟩ := Outcome.bind_eq_ok.mp h
  obtain ⟨_, h2, h⟩ := Outcome.bind_eq_ok.mp h
  exact ⟨by simpa using Outcome.require_eq_ok.mp h1, by simpa using Outcome.require_eq_ok.mp h2, (Outcome.ok_inj.mp h).symm⟩

theorem repulsive_ok {e s : ℝ} {cs : List (Vec3 ℝ)} {I : Interaction} (h : repulsiveLennardJones e s cs = .ok I) : 0 < e ∧ 0 < s ∧ I = central (wcaEnergy e s) (wcaRange s) cs := by
  unfold repulsiveLennardJones at h
  obtain ⟨_, h1, h⟩ := Outcome.bind_eq_ok.mp h
  obtain ⟨_, h2, h⟩ := Outcome.bind_eq_ok.mp h
  exact ⟨by simpa using Outcome.require_eq_ok.mp h1, by simpa using Outcome.require_eq_ok.mp h2, (Outcome.ok_inj.mp h).symm⟩

theorem squareInverse_ok {e s : ℝ} {cs : List (Vec3 ℝ)} {I : Interaction} (h : squareInverseCore e s cs = .ok I) : e ≠ 0 ∧ 0 < s ∧ I = central (squareInverseEnergy e s) s cs := by
  unfold squareInverseCore at h
  obtain ⟨_, h1, h⟩ := Outcome.bind_eq_ok.mp h
  obtain ⟨_, h2, h⟩ := Outcome.bind_eq_ok.mp h
  exact ⟨by simpa using Outcome.require_eq_ok.mp h1, by simpa using Outcome.require_eq_ok.mp h2, (Outcome.ok_inj.mp h).symm⟩

theorem norm_sq' (v : Vec3 ℝ) : v.norm2 = v.norm ^ 2 := by
  unfold Vec3.norm
  rw [Real.sq_sqrt]
  simp only [Vec3.norm2, Vec3.dot]
  nlinarith [sq_nonneg v.x, sq_nonneg v.y, sq_nonneg v.z]

theorem ljEnergy_eq (e s : ℝ) {r : ℝ} (hr : 0 < r) : ljEnergy e s (r ^ 2) = 4 * e * ((s / r) ^ 12 - (s / r) ^ 6) := by
  unfold ljEnergy
  simp only
  have : r ≠ 0 := hr.ne'
  field_simp

/-- C73 for Lennard-Jones: the energy for the distance r is 4ε((σ/r)¹² - (σ/r)⁶). -/
theorem C73_lennardJones {e s : ℝ} {cs : List (Vec3 ℝ)} {I : Interaction} (hI : lennardJones e s cs = .ok I) (s1 s2 : Site) (t : Vec3 ℝ) (hd : 0 < (s2.pos + t - s1.pos).norm) :
    I.energy s1 s2 (BC.hard t) = 4 * e * ((s / (s2.pos + t - s1.pos).norm) ^ 12 - (s / (s2.pos + t - s1.pos).norm) ^ 6) := by
  obtain ⟨_, _, rfl⟩ := lennardJones_ok hI
  show ljEnergy e s (s2.pos + t - s1.pos).norm2 = _
  rw [norm_sq', ljEnergy_eq e s hd]

/-- C73 for Lennard-Jones: the energy is never below -ε, is -ε at one distance only, and has the sign of the interaction: repulsive below σ, attractive above. -/
theorem C73_lennardJones_well {e s r : ℝ} (he : 0 < e) (hs : 0 < s) (hr : 0 < r) :
    -e ≤ ljEnergy e s (r ^ 2) ∧ (ljEnergy e s (r ^ 2) = -e ↔ r ^ 6 = 2 * s ^ 6) ∧ (0 < ljEnergy e s (r ^ 2) ↔ r < s) ∧ (ljEnergy e s (r ^ 2) < 0 ↔ s < r) := by
  rw [ljEnergy_eq e s hr]
  obtain ⟨x, hx⟩ : ∃ x, x = (s / r) ^ 6 := ⟨_, rfl⟩
  have h12 : (s / r) ^ 12 = x ^ 2 := by rw [hx]; ring
  have hq : 0 < s / r := div_pos hs hr
  have hx0 : 0 < x := by rw [hx]; positivity
  rw [h12, ← hx]
  have hlt : x < 1 ↔ s < r := by
    rw [hx, pow_lt_one_iff_of_nonneg hq.le (by norm_num), div_lt_one hr]
  have hgt : 1 < x ↔ r < s := by
    rw [hx, one_lt_pow_iff_of_nonneg hq.le (by norm_num), one_lt_div hr]
  refine ⟨by nlinarith [sq_nonneg (2 * x - 1)], ?_, ?_, ?_⟩
  · have e1 : 4 * e * (x ^ 2 - x) = -e ↔ x = 1 / 2 := by
      constructor
      · intro h
        have : e * (2 * x - 1) ^ 2 = 0 := by nlinarith
        rcases mul_eq_zero.mp this with h | h
        · exact absurd h he.ne'
        · have := pow_eq_zero_iff (n := 2) (by norm_num) |>.mp h
          linarith
      · rintro rfl
        ring
    rw [e1, hx, div_pow]
    have hr6 : r ^ 6 ≠ 0 := by positivity
    rw [div_eq_div_iff hr6 (by norm_num)]
    constructor <;> intro h <;> linarith
  · rw [← hgt]
    constructor
    · intro h
      by_contra hc
      nlinarith [mul_nonneg he.le (mul_nonneg hx0.le (sub_nonneg.mpr (not_lt.mp hc)))]
    · intro h
      nlinarith [mul_pos he (mul_pos hx0 (sub_pos.mpr h))]
  · rw [← hlt]
    constructor
    · intro h
      by_contra hc
      nlinarith [mul_nonneg he.le (mul_nonneg hx0.le (sub_nonneg.mpr (not_lt.mp hc)))]
    · intro h
      nlinarith [mul_pos he (mul_pos hx0 (sub_pos.mpr h))]

/-- C73 fails for Lennard-Jones: the energy does not vanish beyond the range 3σ, so the interaction does not keep what the packing requires. -/
theorem C73_range_violated {e s : ℝ} {cs : List (Vec3 ℝ)} {I : Interaction} (hI : lennardJones e s cs = .ok I) : ¬ Contract I := by
  obtain ⟨he, hs, rfl⟩ := lennardJones_ok hI
  intro h
  have key := (C73_lennardJones_well (r := 4 * s) he hs (by linarith)).2.2.2.mpr (by linarith)
  have hn : ((⟨4 * s, 0, 0⟩ : Vec3 ℝ) + 0 - 0).norm2 = (4 * s) ^ 2 := by simp [Vec3.norm2, Vec3.dot]; ring
  have h1 := h.energy_range ⟨0, 1, 0⟩ ⟨⟨4 * s, 0, 0⟩, 1, 0⟩ 0 (by
    show ljEnergy e s ((⟨4 * s, 0, 0⟩ : Vec3 ℝ) + 0 - 0).norm2 ≠ 0
    rw [hn]
    exact key.ne)
  rw [dist2_hard] at h1
  have h2 : ((⟨4 * s, 0, 0⟩ : Vec3 ℝ) + 0 - 0).norm2 ≤ (3 * s) ^ 2 := h1
  rw [hn] at h2
  nlinarith

/-- C73 for Lennard-Jones: what is neglected beyond the range is at most 4ε/729 for each pair. What is missing: it should be zero. -/
theorem C73_range_partial {e s r : ℝ} (he : 0 < e) (hs : 0 < s) (hr : 3 * s < r) : |ljEnergy e s (r ^ 2)| ≤ 4 * e / 729 := by
  have hr0 : 0 < r := by linarith
  rw [ljEnergy_eq e s hr0]
  have hq : 0 < s / r := div_pos hs hr0
  have hq3 : s / r ≤ 1 / 3 := by rw [div_le_div_iff₀ hr0 (by norm_num)]; linarith
  obtain ⟨x, hx⟩ : ∃ x, x = (s / r) ^ 6 := ⟨_, rfl⟩
  have h12 : (s / r) ^ 12 = x ^ 2 := by rw [hx]; ring
  have hx0 : 0 < x := by rw [hx]; positivity
  have hx1 : x ≤ 1 / 729 := by
    rw [hx]
    calc (s / r) ^ 6 ≤ (1 / 3) ^ 6 := pow_le_pow_left₀ hq.le hq3 6
      _ = 1 / 729 := by norm_num
  rw [h12, ← hx, abs_le]
  constructor
  · nlinarith [mul_nonneg he.le hx0.le, mul_nonneg he.le (sub_nonneg.mpr hx1)]
  · nlinarith [mul_nonneg he.le hx0.le, mul_nonneg he.le (sub_nonneg.mpr hx1), mul_nonneg (mul_nonneg he.le hx0.le) (sub_nonneg.mpr hx1)]

theorem wcaRange_pos {s : ℝ} (hs : 0 < s) : 0 < wcaRange s := mul_pos hs (Real.rpow_pos_of_pos two_pos _)

theorem wcaRange_pow (s : ℝ) : wcaRange s ^ 6 = 2 * s ^ 6 := by
  unfold wcaRange
  rw [mul_pow, ← Real.rpow_natCast ((2 : ℝ) ^ (1 / 6 : ℝ)) 6, ← Real.rpow_mul two_pos.le]
  norm_num
  ring

/-- C73 for the repulsive Lennard-Jones interaction: the energy for the distance r is 4ε((σ/r)¹² - (σ/r)⁶) + ε up to the distance of the minimum, where r⁶ = 2σ⁶, and zero further. -/
theorem C73_repulsive {e s : ℝ} {cs : List (Vec3 ℝ)} {I : Interaction} (hI : repulsiveLennardJones e s cs = .ok I) (s1 s2 : Site) (t : Vec3 ℝ) (hd : 0 < (s2.pos + t - s1.pos).norm) :
    I.energy s1 s2 (BC.hard t) = (if (s2.pos + t - s1.pos).norm ^ 6 < 2 * s ^ 6 then 4 * e * ((s / (s2.pos + t - s1.pos).norm) ^ 12 - (s / (s2.pos + t - s1.pos).norm) ^ 6) + e else 0) := by
  obtain ⟨_, hs, rfl⟩ := repulsive_ok hI
  show wcaEnergy e s (s2.pos + t - s1.pos).norm2 = _
  rw [norm_sq']
  generalize (s2.pos + t - s1.pos).norm = r at hd ⊢
  have hiff : r ^ 6 < 2 * s ^ 6 ↔ r ^ 2 < wcaRange s * wcaRange s := by
    rw [← wcaRange_pow, pow_lt_pow_iff_left₀ hd.le (wcaRange_pos hs).le (by norm_num), ← pow_two, pow_lt_pow_iff_left₀ hd.le (wcaRange_pos hs).le (by norm_num)]
  unfold wcaEnergy
  by_cases h : r ^ 6 < 2 * s ^ 6
  · rw [if_pos h, if_neg (not_le.mpr (hiff.mp h))]
    have := ljEnergy_eq e s hd
    unfold ljEnergy at this
    simp only at this ⊢
    rw [this]
  · rw [if_neg h, if_pos (not_lt.mp (fun hc => h (hiff.mpr hc)))]

/-- C73 for the repulsive Lennard-Jones interaction: it keeps what the packing requires, its energy is positive exactly below its range, and it grows as the distance gets smaller. -/
theorem C73_repulsive_range {e s : ℝ} {cs : List (Vec3 ℝ)} {I : Interaction} (hI : repulsiveLennardJones e s cs = .ok I) : Contract I ∧ TotalRange I ∧
    (∀ r, 0 < r → (0 < wcaEnergy e s (r ^ 2) ↔ r < I.range) ∧ 0 ≤ wcaEnergy e s (r ^ 2)) ∧ (∀ r r', 0 < r → r < r' → r' < I.range → wcaEnergy e s (r' ^ 2) < wcaEnergy e s (r ^ 2)) := by
  obtain ⟨he, hs, rfl⟩ := repulsive_ok hI
  have hpos := wcaRange_pos hs
  have form : ∀ r, 0 < r → r < wcaRange s → wcaEnergy e s (r ^ 2) = e * (2 * (s / r) ^ 6 - 1) ^ 2 := by
    intro r hr hlt
    unfold wcaEnergy
    rw [if_neg (by rw [← pow_two, ge_iff_le, not_le, pow_lt_pow_iff_left₀ hr.le hpos.le (by norm_num)]; exact hlt)]
    have := ljEnergy_eq e s hr
    unfold ljEnergy at this
    simp only at this ⊢
    rw [this]
    ring
  have big : ∀ r, 0 < r → r < wcaRange s → 1 < 2 * (s / r) ^ 6 := by
    intro r hr hlt
    have h6 : r ^ 6 < 2 * s ^ 6 := by rw [← wcaRange_pow]; exact pow_lt_pow_left₀ hlt hr.le (by norm_num)
    rw [div_pow, mul_div_assoc', one_lt_div (by positivity)]
    exact h6
  refine ⟨central_contract hpos ?_ cs, central_total, ?_, ?_⟩
  · intro d hd
    unfold wcaEnergy
    rw [if_pos (by rw [← pow_two]; exact hd.le)]
  · intro r hr
    show (_ ↔ r < wcaRange s) ∧ _
    by_cases hlt : r < wcaRange s
    · rw [form r hr hlt]
      have h1 := big r hr hlt
      have : 0 < e * (2 * (s / r) ^ 6 - 1) ^ 2 := mul_pos he (pow_pos (by linarith) 2)
      exact ⟨⟨fun _ => hlt, fun _ => this⟩, this.le⟩
    · have h0 : wcaEnergy e s (r ^ 2) = 0 := by
        unfold wcaEnergy
        rw [if_pos (by rw [← pow_two]; exact pow_le_pow_left₀ hpos.le (not_lt.mp hlt) 2)]
      rw [h0]
      exact ⟨⟨fun h => absurd h (lt_irrefl _), fun h => absurd h hlt⟩, le_rfl⟩
  · intro r r' hr hrr hlt
    have hr' : 0 < r' := hr.trans hrr
    have hlt' : r' < wcaRange s := hlt
    rw [form r' hr' hlt', form r hr (hrr.trans hlt')]
    have b1 := big r' hr' hlt'
    have h6 : (s / r') ^ 6 < (s / r) ^ 6 := pow_lt_pow_left₀ (div_lt_div_of_pos_left hs hr hrr) (by positivity) (by norm_num)
    have : (2 * (s / r') ^ 6 - 1) ^ 2 < (2 * (s / r) ^ 6 - 1) ^ 2 := pow_lt_pow_left₀ (by linarith) (by linarith) (by norm_num)
    exact mul_lt_mul_of_pos_left this he

/-- C73 for the square-inverse core: the energy for the distance r is ε(σ²/r² - 1) up to σ, and zero further; it keeps what the packing requires. -/
theorem C73_squareInverse {e s : ℝ} {cs : List (Vec3 ℝ)} {I : Interaction} (hI : squareInverseCore e s cs = .ok I) : Contract I ∧ TotalRange I ∧ I.range = s ∧
    ∀ (s1 s2 : Site) (t : Vec3 ℝ), 0 < (s2.pos + t - s1.pos).norm →
      I.energy s1 s2 (BC.hard t) = if (s2.pos + t - s1.pos).norm < s then e * (s ^ 2 / (s2.pos + t - s1.pos).norm ^ 2 - 1) else 0 := by
  obtain ⟨_, hs, rfl⟩ := squareInverse_ok hI
  refine ⟨central_contract hs ?_ cs, central_total, rfl, ?_⟩
  · intro d hd
    have hd0 : 0 < d := lt_trans (by positivity) hd
    unfold squareInverseEnergy
    rw [max_eq_left, mul_zero]
    have : s ^ 2 / d ≤ 1 := by rw [div_le_one hd0]; exact hd.le
    linarith
  · intro s1 s2 t hr
    show squareInverseEnergy e s (s2.pos + t - s1.pos).norm2 = _
    rw [norm_sq']
    generalize (s2.pos + t - s1.pos).norm = r at hr ⊢
    unfold squareInverseEnergy
    split_ifs with h
    · rw [max_eq_right]
      have : 1 ≤ s ^ 2 / r ^ 2 := by rw [one_le_div (by positivity)]; exact pow_le_pow_left₀ hr.le h.le 2
      linarith
    · rw [max_eq_left, mul_zero]
      have : s ^ 2 / r ^ 2 ≤ 1 := by rw [div_le_one (by positivity)]; exact pow_le_pow_left₀ hs.le (not_lt.mp h) 2
      linarith

/-- Parameters which are accepted. -/
example : (∃ I, lennardJones 1 2 [] = .ok I) ∧ (∃ I, repulsiveLennardJones 1 2 [⟨1, 0, 0⟩] = .ok I) ∧ ∃ I, squareInverseCore (-1) 2 [] = .ok I := by
  refine ⟨⟨_, by rw [lennardJones, decide_eq_true (by norm_num), decide_eq_true (by norm_num)]; rfl⟩, ⟨_, by rw [repulsiveLennardJones, decide_eq_true (by norm_num), decide_eq_true (by norm_num)]; rfl⟩,
    ⟨_, by rw [squareInverseCore, decide_eq_true (by norm_num), decide_eq_true (by norm_num)]; rfl⟩⟩

/-! Joined interactions -/

theorem compound_ok {I1 I2 I : Interaction} (h : compound I1 I2 = .ok I) : I1.centres = I2.centres ∧ I =
    { hasHard := I1.hasHard || I2.hasHard, hasSoft := I1.hasSoft || I2.hasSoft, isConvex := compoundConvex I1 I2, centres := I1.centres, range := max I1.range I2.range,
      totalRange := max I1.totalRange I2.totalRange, overlap := fun s1 s2 bc => (I1.hasHard && I1.overlap s1 s2 bc) || (I2.hasHard && I2.overlap s1 s2 bc),
      energy := fun s1 s2 bc => (if I1.hasSoft then I1.energy s1 s2 bc else 0) + (if I2.hasSoft then I2.energy s1 s2 bc else 0), wall := fun s o v => I1.wall s o v || I2.wall s o v } := by
  unfold compound at h
  obtain ⟨_, h1, h⟩ := Outcome.bind_eq_ok.mp h
  exact ⟨by simpa using Outcome.require_eq_ok.mp h1, (Outcome.ok_inj.mp h).symm⟩

/-- C74: the joined interaction overlaps if one of the parts does, and its energy is the sum of energies, for whole molecules as well as for centres. -/
theorem C74_parts {I1 I2 I : Interaction} (h : compound I1 I2 = .ok I) (h1 : Contract I1) (h2 : Contract I2) (k1 : SoftHonest I1) (k2 : SoftHonest I2) :
    (∀ s1 s2 bc, I.overlap s1 s2 bc = true ↔ I1.overlap s1 s2 bc = true ∨ I2.overlap s1 s2 bc = true) ∧ (∀ s1 s2 bc, I.energy s1 s2 bc = I1.energy s1 s2 bc + I2.energy s1 s2 bc) ∧
    (∀ s1 s2 bc, I.overlapBetweenShapes s1 s2 bc = true ↔ I1.overlapBetweenShapes s1 s2 bc = true ∨ I2.overlapBetweenShapes s1 s2 bc = true) ∧
    (∀ s o n, I.overlapWithWallForShape s o n = true ↔ I1.overlapWithWallForShape s o n = true ∨ I2.overlapWithWallForShape s o n = true) := by
  obtain ⟨hc, hI⟩ := compound_ok h
  have ho : ∀ s1 s2 bc, I.overlap s1 s2 bc = true ↔ I1.overlap s1 s2 bc = true ∨ I2.overlap s1 s2 bc = true := by
    intro s1 s2 bc
    rw [hI]
    simp only [Bool.or_eq_true, Bool.and_eq_true]
    refine or_congr ?_ ?_
    · cases hh : I1.hasHard with
      | false => simp [h1.noHard_overlap hh]
      | true => simp
    · cases hh : I2.hasHard with
      | false => simp [h2.noHard_overlap hh]
      | true => simp
  have hs : ∀ s, I.shapeSites s = I1.shapeSites s := by
    intro s; rw [hI]; rfl
  have hs2 : ∀ s, I.shapeSites s = I2.shapeSites s := by
    intro s
    rw [hs]
    unfold Interaction.shapeSites
    rw [hc]
  refine ⟨ho, ?_, ?_, ?_⟩
  · intro s1 s2 bc
    rw [hI]
    simp only
    congr 1
    · cases hh : I1.hasSoft with
      | false => simp [k1 hh]
      | true => simp
    · cases hh : I2.hasSoft with
      | false => simp [k2 hh]
      | true => simp
  · intro s1 s2 bc
    rw [overlapBetweenShapes_iff, overlapBetweenShapes_iff, overlapBetweenShapes_iff, ← hs2, ← hs2, hs s1, hs s2]
    constructor
    · rintro ⟨x, hx, y, hy, k⟩
      rcases (ho x y bc).mp k with k | k
      · exact Or.inl ⟨x, hx, y, hy, k⟩
      · exact Or.inr ⟨x, hx, y, hy, k⟩
    · rintro (⟨x, hx, y, hy, k⟩ | ⟨x, hx, y, hy, k⟩)
      · exact ⟨x, hx, y, hy, (ho x y bc).mpr (Or.inl k)⟩
      · exact ⟨x, hx, y, hy, (ho x y bc).mpr (Or.inr k)⟩
  · intro s o n
    have hw : ∀ x, I.wall x o n = true ↔ I1.wall x o n = true ∨ I2.wall x o n = true := by
      intro x; rw [hI]; simp
    rw [overlapWithWallForShape_iff, overlapWithWallForShape_iff, overlapWithWallForShape_iff, ← hs2, hs]
    constructor
    · rintro ⟨x, hx, k⟩
      rcases (hw x).mp k with k | k
      · exact Or.inl ⟨x, hx, k⟩
      · exact Or.inr ⟨x, hx, k⟩
    · rintro (⟨x, hx, k⟩ | ⟨x, hx, k⟩)
      · exact ⟨x, hx, (hw x).mpr (Or.inl k)⟩
      · exact ⟨x, hx, (hw x).mpr (Or.inr k)⟩

/-- C74: if both parts keep what the packing requires, so does the joined interaction. -/
theorem C74_contract {I1 I2 I : Interaction} (h : compound I1 I2 = .ok I) (h1 : Contract I1) (h2 : Contract I2) (t1 : TotalRange I1) (t2 : TotalRange I2) : Contract I ∧ TotalRange I := by
  obtain ⟨hc, rfl⟩ := compound_ok h
  have sq1 : I1.range ^ 2 ≤ (max I1.range I2.range) ^ 2 := pow_le_pow_left₀ h1.range_pos.le (le_max_left _ _) 2
  have sq2 : I2.range ^ 2 ≤ (max I1.range I2.range) ^ 2 := pow_le_pow_left₀ h2.range_pos.le (le_max_right _ _) 2
  refine ⟨⟨lt_of_lt_of_le h1.range_pos (le_max_left _ _), ?_, ?_, ?_, ?_, ?_, ?_, ?_, ?_⟩, ?_, ?_⟩
  · intro s1 s2 t; simp only; rw [h1.overlap_symm, h2.overlap_symm]
  · intro m b s1 s2 hb; simp only; rw [h1.overlap_symm_pbc m b s1 s2 hb, h2.overlap_symm_pbc m b s1 s2 hb]
  · intro s1 s2 t k
    simp only [Bool.or_eq_true, Bool.and_eq_true] at k
    rcases k with ⟨_, k⟩ | ⟨_, k⟩
    · exact le_trans (h1.overlap_range s1 s2 t k) sq1
    · exact le_trans (h2.overlap_range s1 s2 t k) sq2
  · intro s1 s2 t; simp only; rw [h1.energy_symm, h2.energy_symm]
  · intro m b s1 s2 hb; simp only; rw [h1.energy_symm_pbc m b s1 s2 hb, h2.energy_symm_pbc m b s1 s2 hb]
  · intro s1 s2 t k
    simp only at k
    by_cases k1 : I1.energy s1 s2 (BC.hard t) = 0
    · by_cases k2 : I2.energy s1 s2 (BC.hard t) = 0
      · exact absurd (by rw [k1, k2]; simp) k
      · exact le_trans (h2.energy_range s1 s2 t k2) sq2
    · exact le_trans (h1.energy_range s1 s2 t k1) sq1
  · intro k s1 s2 bc
    simp only [Bool.or_eq_false_iff] at k
    simp [k.1, k.2]
  · intro k s o v
    simp only [Bool.or_eq_false_iff] at k
    simp [h1.noHard_wall k.1, h2.noHard_wall k.2]
  · exact max_le_max t1.1 t2.1
  · intro c hcc
    have a := t1.2 c hcc
    have b := t2.2 c (by rw [← hc]; exact hcc)
    show max I1.range I2.range + 2 * c.norm ≤ max I1.totalRange I2.totalRange
    rcases le_total I1.range I2.range with hle | hle
    · rw [max_eq_right hle]; exact le_trans b (le_max_right _ _)
    · rw [max_eq_left hle]; exact le_trans a (le_max_left _ _)

/-- C74: the joined interaction is declared convex only if just one part is hard and that part is declared convex; overlaps are then those of this part. -/
theorem C74_convex {I1 I2 I : Interaction} (h : compound I1 I2 = .ok I) (hconv : I.isConvex = true) :
    (I1.hasHard = true ∧ I1.isConvex = true ∧ ∀ s1 s2 bc, I.overlap s1 s2 bc = I1.overlap s1 s2 bc) ∨ (I2.hasHard = true ∧ I2.isConvex = true ∧ ∀ s1 s2 bc, I.overlap s1 s2 bc = I2.overlap s1 s2 bc) := by
  obtain ⟨hc, rfl⟩ := compound_ok h
  have hv : compoundConvex I1 I2 = true := hconv
  unfold compoundConvex at hv
  cases a1 : I1.hasHard <;> cases a2 : I2.hasHard <;> simp [a1, a2] at hv
  · exact Or.inr ⟨rfl, hv, fun s1 s2 bc => by simp [a1, a2]⟩
  · exact Or.inl ⟨rfl, hv, fun s1 s2 bc => by simp [a1, a2]⟩

/-- A hard sphere with a soft repulsion around it meets the hypotheses. -/
example : ∃ I1 I2 I, sphere 1 = .ok I1 ∧ repulsiveLennardJones 1 3 [] = .ok I2 ∧ compound I1 I2 = .ok I ∧ Contract I1 ∧ Contract I2 ∧ TotalRange I1 ∧ TotalRange I2 ∧ SoftHonest I1 ∧ SoftHonest I2 ∧ I.isConvex = true := by
  obtain ⟨I1, hI1⟩ : ∃ I1, sphere 1 = .ok I1 := ⟨_, by rw [sphere, decide_eq_true (by norm_num)]; rfl⟩
  obtain ⟨I2, hI2⟩ : ∃ I2, repulsiveLennardJones 1 3 [] = .ok I2 := ⟨_, by rw [repulsiveLennardJones, decide_eq_true (by norm_num), decide_eq_true (by norm_num)]; rfl⟩
  obtain ⟨c1, t1, _⟩ := C70_spheres hI1
  obtain ⟨c2, t2, _⟩ := C73_repulsive_range hI2
  obtain ⟨_, e1⟩ := sphere_ok hI1
  obtain ⟨_, _, e2⟩ := repulsive_ok hI2
  refine ⟨I1, I2, _, hI1, hI2, by rw [compound, decide_eq_true (by rw [e1, e2]; rfl)]; rfl, c1, c2, t1, t2, ?_, ?_, ?_⟩
  · intro _ s1 s2 bc; rw [e1]
  · intro hs; rw [e2] at hs; simp [central] at hs
  · show compoundConvex I1 I2 = true
    rw [e1, e2]
    rfl

end Rampack
