import Verif.Shapes.BananaRodLemmas
/-
C106: molecules made of rods on an arc.
-/
namespace Rampack

open Spec Shapes Composite Volume

namespace Banana

/-- When the molecule is built. -/
def RodsAllowed (R A : ℝ) (n : ℕ) (r : ℝ) (m : ℕ) : Prop :=
  (0 < R ∧ 0 < A ∧ A < 2 * Real.pi ∧ 2 ≤ n ∧ 0 < r) ∧ (n = 2 ∨ r ≤ R * Real.cos (A / n / 2) * (1 + 1 / 10 ^ 12)) ∧ (A ≤ Real.pi ∨ 2 * r ≤ 2 * Real.sin (A / 2) * R * (1 + 1 / 10 ^ 12)) ∧ 0 < m

theorem validation_iff (R A : ℝ) (n : ℕ) (r : ℝ) : basicValidation R A n r = .ok () ↔ 0 < R ∧ 0 < A ∧ A < 2 * Real.pi ∧ 2 ≤ n ∧ 0 < r := by
  unfold basicValidation
  constructor
  · intro h
    obtain ⟨_, h1, h⟩ := Outcome.bind_eq_ok.mp h
    obtain ⟨_, h2, h⟩ := Outcome.bind_eq_ok.mp h
    obtain ⟨_, h3, h⟩ := Outcome.bind_eq_ok.mp h
    obtain ⟨_, h4, h⟩ := Outcome.bind_eq_ok.mp h
    exact ⟨of_decide_eq_true (Outcome.require_eq_ok.mp h1), of_decide_eq_true (Outcome.require_eq_ok.mp h2), of_decide_eq_true (Outcome.require_eq_ok.mp h3), of_decide_eq_true (Outcome.require_eq_ok.mp h4),
      of_decide_eq_true (Outcome.require_eq_ok.mp h)⟩
  · rintro ⟨h1, h2, h3, h4, h5⟩
    rw [decide_eq_true (show R > 0 from h1), decide_eq_true (show A > 0 from h2), decide_eq_true h3, decide_eq_true (show n ≥ 2 from h4), decide_eq_true (show r > 0 from h5)]
    rfl

theorem outside_eq {R A : ℝ} {n : ℕ} {r : ℝ} (h : basicValidation R A n r = .ok ()) : isArcOriginOutside R A n r = .ok (decide (r ≤ R * Real.cos (A / n / 2) * (1 + 1 / 10 ^ 12))) := by
  unfold isArcOriginOutside
  rw [h]
  rfl

theorem open_eq {R A : ℝ} {n : ℕ} {r : ℝ} (h : basicValidation R A n r = .ok ()) : isArcOpen R A n r = .ok (decide (A ≤ Real.pi ∨ 2 * r ≤ 2 * Real.sin (A / 2) * R * (1 + 1 / 10 ^ 12))) := by
  unfold isArcOpen
  rw [h, Outcome.ok_bind]
  split
  next h => rw [decide_eq_true (Or.inl h)]
  next h => simp only [h, false_or, ge_iff_le]

theorem checks_iff (R A : ℝ) (n : ℕ) (r : ℝ) (m : ℕ) : rodBananaChecks R A n r m = .ok () ↔ RodsAllowed R A n r m := by
  unfold rodBananaChecks RodsAllowed
  constructor
  · intro h
    obtain ⟨_, h1, h⟩ := Outcome.bind_eq_ok.mp h
    rw [outside_eq h1, Outcome.ok_bind] at h
    obtain ⟨_, h2, h⟩ := Outcome.bind_eq_ok.mp h
    rw [open_eq h1, Outcome.ok_bind] at h
    obtain ⟨_, h3, h⟩ := Outcome.bind_eq_ok.mp h
    have hv := (validation_iff R A n r).mp h1
    have h2' := Outcome.require_eq_ok.mp h2
    rw [Bool.or_eq_true, decide_eq_true_eq, decide_eq_true_eq] at h2'
    refine ⟨hv, ?_, of_decide_eq_true (Outcome.require_eq_ok.mp h3), of_decide_eq_true (Outcome.require_eq_ok.mp h)⟩
    rcases h2' with h2' | h2'
    · left; have := hv.2.2.2.1; omega
    · exact Or.inr h2'
  · rintro ⟨hv, h2, h3, h4⟩
    have h1 := (validation_iff R A n r).mpr hv
    rw [h1, outside_eq h1, open_eq h1]
    have : (decide (n ≤ 2) || decide (r ≤ R * Real.cos (A / n / 2) * (1 + 1 / 10 ^ 12))) = true := by
      rw [Bool.or_eq_true, decide_eq_true_eq, decide_eq_true_eq]
      exact h2.imp (fun h => h.le) id
    simp only [Outcome.ok_bind]
    rw [this, decide_eq_true h3, decide_eq_true (show m > 0 from h4)]
    rfl

theorem chordParts_length (p q : Vec3 ℝ) (m : ℕ) (r : ℝ) : (chordParts p q m r).length = m := by simp [chordParts]

theorem arcRods_length (R A : ℝ) (n : ℕ) (r : ℝ) (m : ℕ) : (arcRods R A n r m).length = n * m := by
  unfold arcRods
  rw [List.length_flatMap]
  simp [chordParts_length]

theorem arcRods_first (R A : ℝ) (n : ℕ) (r : ℝ) (m : ℕ) : ∃ f, vget (arcRods R A (n + 1) r (m + 1)) 0 = .ok f ∧ f.position - f.halfAxis = vertex R A (n + 1) 0 := by
  refine ⟨_, ?_, part_beg (vertex R A (n + 1) 0) (vertex R A (n + 1) (0 + 1)) m r⟩
  unfold arcRods
  rw [List.range_succ_eq_map, List.flatMap_cons, chordParts_cons]
  rfl

theorem arcRods_last (R A : ℝ) (n : ℕ) (r : ℝ) (m : ℕ) : ∃ f, vget (arcRods R A (n + 1) r (m + 1)) ((arcRods R A (n + 1) r (m + 1)).length - 1) = .ok f ∧ f.position + f.halfAxis = vertex R A (n + 1) (n + 1) := by
  refine ⟨_, ?_, part_end (vertex R A (n + 1) n) (vertex R A (n + 1) (n + 1)) m r⟩
  unfold vget
  have : (arcRods R A (n + 1) r (m + 1))[(arcRods R A (n + 1) r (m + 1)).length - 1]? = some (partOf (vertex R A (n + 1) n) (vertex R A (n + 1) (n + 1) - vertex R A (n + 1) n) (m + 1) r m) := by
    rw [← List.getLast?_eq_getElem?]
    rw [arcRods, List.range_succ, List.flatMap_append, List.flatMap_singleton, chordParts, List.range_succ (n := m), List.map_append, List.map_singleton, ← List.append_assoc, List.getLast?_concat]
  rw [this]

theorem rodBanana_eq {R A : ℝ} {n : ℕ} {r : ℝ} {m : ℕ} (h : RodsAllowed R A n r m) : ∃ b, rodBanana R A n r m = .ok b ∧ b.rods = arcRods R A n r m ∧ b.volume = rodBananaVolume R A n r ∧
    b.beg = vertex R A n 0 ∧ b.fin = vertex R A n n := by
  have hc := (checks_iff R A n r m).mpr h
  obtain ⟨⟨-, -, -, hn, hr⟩, -, -, hm⟩ := h
  obtain ⟨n, rfl⟩ : ∃ k, n = k + 1 := ⟨n - 1, by omega⟩
  obtain ⟨m, rfl⟩ : ∃ k, m = k + 1 := ⟨m - 1, by omega⟩
  have e1 : arcSegments R (A / ((n + 1 : ℕ) : ℝ)) (m + 1) r (n + 1) (-(A / ((n + 1 : ℕ) : ℝ)) * ((n + 1 - 1 : ℕ) : ℝ) / 2) =
      .ok ((List.range (n + 1)).flatMap fun k : ℕ => chordParts (arcPoint 0 R (ang A (n + 1) k)) (arcPoint 0 R (ang A (n + 1) (k + 1))) (m + 1) r) := by
    rw [arcSegments_eq hr]
    have e : -(A / ((n + 1 : ℕ) : ℝ)) * ((n + 1 - 1 : ℕ) : ℝ) / 2 - A / ((n + 1 : ℕ) : ℝ) / 2 = -A / 2 := by
      have : (((n + 1 : ℕ)) : ℝ) ≠ 0 := by exact_mod_cast Nat.succ_ne_zero n
      rw [Nat.add_sub_cancel]
      push_cast at this ⊢
      field_simp
      ring
    rw [e]
    unfold ang
    push_cast
    rfl
  obtain ⟨f, hf, ef⟩ := arcRods_first R A n r m
  obtain ⟨l, hl, el⟩ := arcRods_last R A n r m
  refine ⟨⟨arcRods R A (n + 1) r (m + 1), rodBananaVolume R A (n + 1) r, f.position - f.halfAxis, l.position + l.halfAxis⟩, ?_, rfl, rfl, ef, el⟩
  unfold rodBanana
  rw [hc, Outcome.ok_bind]
  simp only [e1, Outcome.ok_bind]
  rw [translatedRods_eq hr, Outcome.ok_bind]
  unfold rodBananaOf
  rw [hf, Outcome.ok_bind, hl, Outcome.ok_bind]

theorem arcRods_body (R A : ℝ) (n : ℕ) (r : ℝ) {m : ℕ} (hm : 0 < m) (p : Vec3 ℝ) : (∃ d ∈ arcRods R A n r m, RodData.Inside d p) ↔ ∃ k < n, Capsule (vertex R A n k) (vertex R A n (k + 1)) r p := by
  constructor
  · rintro ⟨d, hd, hp⟩
    obtain ⟨k, hk, hd⟩ := List.mem_flatMap.mp hd
    exact ⟨k, List.mem_range.mp hk, (divided _ _ hm r p).mp ⟨d, hd, hp⟩⟩
  · rintro ⟨k, hk, hp⟩
    obtain ⟨d, hd, hp⟩ := (divided _ _ hm r p).mpr hp
    exact ⟨d, List.mem_flatMap.mpr ⟨k, List.mem_range.mpr hk, hd⟩, hp⟩

end Banana

end Rampack
