import Verif.Shapes.BananaRodVolume
/-
C106: molecules made of rods on an arc.
-/
namespace Rampack

open Spec Shapes Composite Volume Banana

/-- C106 for molecules made of rods: they are built exactly for positive sizes, an angle between zero and the full one, at least two segments, at least one part of a segment, no segment of three or more which reaches the centre of the arc,
and ends which do not meet; the body does not depend on the number of parts: it is made of rods on chords between points of the arc in equal angles, from one end to the other, and "beg" and "end" are these ends; and the volume is the volume
of the body for an arc not longer than a half of the circle whose segments do not reach the centre. The volume for longer arcs, which the input does not let in, is missing, as are segments which reach the centre by less than the numerical
precision. -/
theorem C106_rods_partial (R A : ℝ) (n : ℕ) (r : ℝ) (parts : ℕ) :
    ((∃ m, rodBanana R A n r parts = .ok m) ↔ (0 < R ∧ 0 < A ∧ A < 2 * Real.pi ∧ 2 ≤ n ∧ 0 < r) ∧ (n = 2 ∨ r ≤ R * Real.cos (A / n / 2) * (1 + 1 / 10 ^ 12)) ∧
      (A ≤ Real.pi ∨ 2 * r ≤ 2 * Real.sin (A / 2) * R * (1 + 1 / 10 ^ 12)) ∧ 0 < parts) ∧
    ∀ m, rodBanana R A n r parts = .ok m → m.rods.length = n * parts ∧
      ∃ v : ℕ → Vec3 ℝ, (∀ k, v k = ⟨(if A < Real.pi then R * Real.cos (A / 2) else 0) - R * Real.cos (((k : ℝ) / n - 1 / 2) * A), 0, R * Real.sin (((k : ℝ) / n - 1 / 2) * A)⟩) ∧
        (∀ p, (∃ d ∈ m.rods, RodData.Inside d p) ↔ ∃ k < n, Capsule (v k) (v (k + 1)) r p) ∧ m.beg = v 0 ∧ m.fin = v n ∧
        (A ≤ Real.pi → r ≤ R * Real.cos (A / n / 2) → HasVolume (fun p => ∃ d ∈ m.rods, RodData.Inside d p) m.volume) := by
  have req : ∀ m, rodBanana R A n r parts = .ok m → RodsAllowed R A n r parts := by
    intro m hm
    unfold rodBanana at hm
    obtain ⟨_, h1, -⟩ := Outcome.bind_eq_ok.mp hm
    exact (checks_iff R A n r parts).mp h1
  refine ⟨⟨fun ⟨m, hm⟩ => req m hm, fun h => ?_⟩, ?_⟩
  · obtain ⟨m, hm, -⟩ := rodBanana_eq (show RodsAllowed R A n r parts from h)
    exact ⟨m, hm⟩
  · intro m hm
    have ha := req m hm
    obtain ⟨m', hm', hrods, hv, hbeg, hfin⟩ := rodBanana_eq ha
    obtain rfl : m' = m := Outcome.ok_inj.mp (hm'.symm.trans hm)
    obtain ⟨⟨hR, hA, -, hn, hr⟩, -, -, hparts⟩ := ha
    have hbody : ∀ p, (∃ d ∈ m'.rods, RodData.Inside d p) ↔ ∃ k < n, Capsule (vertex R A n k) (vertex R A n (k + 1)) r p := by
      intro p; rw [hrods]; exact arcRods_body R A n r hparts p
    refine ⟨by rw [hrods, arcRods_length], vertex R A n, ?_, hbody, hbeg, hfin, ?_⟩
    · intro k
      have ea : ang A n k = ((k : ℝ) / n - 1 / 2) * A := by unfold ang; ring
      rw [← ea]
      rfl
    · intro hA2 hD
      rw [hv, show (fun p => ∃ d ∈ m'.rods, RodData.Inside d p) = fun p => ∃ k < n, Capsule (vertex R A n k) (vertex R A n (k + 1)) r p from funext fun p => propext (hbody p)]
      exact rods_volume hA hA2 hn hr hR hD

/-- Three segments in two parts on a half of the circle. -/
example : ∃ m, rodBanana 2 Real.pi 3 1 2 = .ok m ∧ HasVolume (fun p => ∃ d ∈ m.rods, RodData.Inside d p) m.volume := by
  have hpi := Real.pi_pos
  have hc : (1 : ℝ) ≤ 2 * Real.cos (Real.pi / (3 : ℕ) / 2) := by
    rw [show Real.pi / (3 : ℕ) / 2 = Real.pi / 6 by push_cast; ring, Real.cos_pi_div_six]
    have : (1 : ℝ) ≤ Real.sqrt 3 := by rw [Real.one_le_sqrt]; norm_num
    linarith
  obtain ⟨m, hm⟩ := (C106_rods_partial 2 Real.pi 3 1 2).1.mpr ⟨⟨by norm_num, hpi, by linarith, by norm_num, by norm_num⟩, Or.inr (by nlinarith), Or.inl le_rfl, by norm_num⟩
  obtain ⟨-, v, -, -, -, -, hv⟩ := (C106_rods_partial 2 Real.pi 3 1 2).2 m hm
  exact ⟨m, hm, hv le_rfl hc⟩

/-- C106, violated for two segments, which may reach the centre of the arc: parameters pass all checks of the input, but the reported volume is not the volume of the body; it is even smaller than the volume of one ball which is inside. -/
theorem C106_two_violated : ∃ R A r parts, rodBananaAccepted R A 2 r parts ∧ ∃ m, rodBanana R A 2 r parts = .ok m ∧ m.volume < 4 / 3 * Real.pi * r ^ 3 ∧
    (∃ c, ∀ p, Ball c r p → ∃ d ∈ m.rods, RodData.Inside d p) ∧ ¬ HasVolume (fun p => ∃ d ∈ m.rods, RodData.Inside d p) m.volume := by
  have hpi := Real.pi_gt_three
  have hpi2 := Real.pi_lt_d4
  have hval : basicValidation (1 / 1000) (2 * Real.pi / 3) 2 1 = .ok () := (validation_iff _ _ _ _).mpr ⟨by norm_num, by linarith, by linarith, by norm_num, by norm_num⟩
  have hall : RodsAllowed (1 / 1000) (2 * Real.pi / 3) 2 1 1 := ⟨(validation_iff _ _ _ _).mp hval, Or.inl rfl, Or.inl (by linarith), by norm_num⟩
  obtain ⟨m, hm, hrods, hv, -, -⟩ := rodBanana_eq hall
  have hlt : m.volume < 4 / 3 * Real.pi * 1 ^ 3 := by
    rw [hv]
    unfold rodBananaVolume
    simp only []
    have e : 2 * Real.pi / 3 / ((2 : ℕ) : ℝ) / 2 = Real.pi / 6 := by push_cast; ring
    rw [e, Real.tan_pi_div_six, Real.sin_pi_div_six]
    have h3 : (0.577 : ℝ) < 1 / Real.sqrt 3 := by
      rw [lt_div_iff₀ (by positivity)]
      have : Real.sqrt 3 < 1.7325 := by rw [Real.sqrt_lt' (by norm_num)]; norm_num
      nlinarith
    have e2 : ((((2 : ℕ) : ℝ) - 1) * (2 * Real.pi / 3 / ((2 : ℕ) : ℝ)) / 2 / Real.pi + 1) = 7 / 6 := by push_cast; field_simp; norm_num
    rw [e2]
    push_cast
    nlinarith
  have hball : ∀ p, Ball (vertex (1 / 1000) (2 * Real.pi / 3) 2 0) 1 p → ∃ d ∈ m.rods, RodData.Inside d p := by
    intro p hp
    rw [hrods, arcRods_body _ _ _ _ (by norm_num)]
    refine ⟨0, by norm_num, _, ⟨0, le_refl _, zero_le_one, rfl⟩, ?_⟩
    rw [show ∀ a b : Vec3 ℝ, a + (0 : ℝ) • b = a by intro a b; ext <;> simp]
    exact hp
  refine ⟨1 / 1000, 2 * Real.pi / 3, 1, 1, ⟨by norm_num, by norm_num, by norm_num, by linarith, by linarith, by norm_num, ?_, Or.inl rfl⟩, m, hm, hlt, ⟨_, hball⟩, ?_⟩
  · rw [open_eq hval, decide_eq_true (Or.inl (by linarith))]
  · rintro ⟨-, hvol⟩
    have hle := MeasureTheory.measure_mono (μ := MeasureTheory.volume) (s := Spec.points (Ball (vertex (1 / 1000) (2 * Real.pi / 3) 2 0) 1)) (t := Spec.points fun p => ∃ d ∈ m.rods, RodData.Inside d p) fun p hp => hball _ hp
    rw [hvol, any_ball_volume _ one_pos, ENNReal.ofReal_le_ofReal_iff'] at hle
    rcases hle with hle | hle
    · linarith
    · have : (0 : ℝ) < 4 / 3 * Real.pi * 1 ^ 3 := by positivity
      linarith

end Rampack
