import Verif.Sim.OrientLemmas
import Verif.Sim.MetroSpec
/-
Reverse moves.
-/
namespace Rampack

open Spec Packing

theorem make_of_wf {b : Box} (hb : b.WF) : Box.make b.dims = .ok b := by
  unfold Box.make
  rw [if_neg hb.det_ne, ← hb.inv_eq]

/-- A translation and the opposite one. -/
theorem wrap_back {b : Box} (hb : b.WF) {p : Vec3 ℝ} (hp : Inside b p) (v w : Vec3 ℝ) (hw : w = -v) : wrap b (wrap b (p + v) + w) = p := by
  subst hw
  obtain ⟨-, h1, -, -⟩ := C05_correction (make_of_wf hb) (p + v)
  obtain ⟨-, -, h2, h3⟩ := C05_correction (make_of_wf hb) p
  have h4 := h3 (wrap b (p + v) + -v) (by
    have : wrap b (p + v) + -v - p = PBC.getCorrection b (p + v) := by
      unfold wrap
      abel
    rw [this]
    exact h1)
  rw [h2 hp, add_zero] at h4
  exact h4

theorem axisRotation_neg (n : Vec3 ℝ) (a : ℝ) : axisRotation n (-a) = (axisRotation n a).transpose := by
  rw [axisRotation_entries, axisRotation_entries, Real.sin_neg, Real.cos_neg]
  ext <;> simp [Mat3.transpose, Mat3.c0, Mat3.c1, Mat3.c2] <;> ring

/-- A rotation and the opposite one. -/
theorem axisRotation_back {n : Vec3 ℝ} (hn : n.norm2 = 1) (a : ℝ) : axisRotation n (-a) * axisRotation n a = 1 := by
  rw [axisRotation_neg]
  exact (axisRotation_isRotation hn a).1

theorem uniformReal_mirror (x u : ℝ) : uniformReal (-x) x (1 - u) = -uniformReal (-x) x u := by
  unfold uniformReal
  ring

/-- The axis depends only on the numbers used for it. -/
theorem sampleAxis_local {t t' : Tape} {v : Vec3 ℝ} (h : sampleAxis t = .ok (v, t')) :
    ∃ k, t' = t.drop (3 * k + 3) ∧ ∀ u : Tape, (∀ j, j < 3 * k + 3 → u j = t j) → sampleAxis u = .ok (v, u.drop (3 * k + 3)) := by
  classical
  unfold sampleAxis at h
  split_ifs at h with hk
  injection h with h
  injection h with h1 h2
  subst h1 h2
  refine ⟨Nat.find hk, rfl, fun u hu => ?_⟩
  have hc : ∀ j ≤ Nat.find hk, axisCandidate u j = axisCandidate t j := by
    intro j hj
    unfold axisCandidate
    rw [hu (3 * j) (by omega), hu (3 * j + 1) (by omega), hu (3 * j + 2) (by omega)]
  have hk' : ∃ k, (axisCandidate u k).norm2 ≤ 1 := ⟨Nat.find hk, by rw [hc _ le_rfl]; exact Nat.find_spec hk⟩
  have he : Nat.find hk' = Nat.find hk := by
    rw [Nat.find_eq_iff]
    refine ⟨by rw [hc _ le_rfl]; exact Nat.find_spec hk, fun j hj => ?_⟩
    rw [hc j hj.le]
    exact Nat.find_min hk hj
  unfold sampleAxis
  rw [dif_pos hk']
  rw [he, hc _ le_rfl]

/-- A random rotation is determined by an axis and one further number. -/
theorem sampleRotation_local {x : ℝ} {t t' : Tape} {R : Mat3} (h : Sampler.sampleRotation x t = .ok (R, t')) :
    ∃ n k, n.norm2 = 1 ∧ t' = t.drop (k + 1) ∧ ∀ u : Tape, (∀ j, j < k → u j = t j) →
      Sampler.sampleRotation x u = .ok (axisRotation n (uniformReal (-x) x (u k)), u.drop (k + 1)) := by
  unfold Sampler.sampleRotation at h
  obtain ⟨⟨v, t1⟩, h1, h⟩ := Outcome.bind_eq_ok.mp h
  simp only at h
  obtain ⟨n, h2, h⟩ := Outcome.bind_eq_ok.mp h
  injection h with h
  injection h with h3 h4
  obtain ⟨k, rfl, hu⟩ := sampleAxis_local h1
  refine ⟨n, 3 * k + 3, normalize_ok h2, ?_, fun u hj => ?_⟩
  · rw [← h4, Tape.drop_drop]
  · unfold Sampler.sampleRotation
    rw [hu u hj, Outcome.ok_bind]
    simp only
    rw [h2, Outcome.ok_bind, Tape.drop_drop]
    rfl

theorem sampleParticle_local {idxs : List Nat} {t t' : Tape} {i : Nat} (h : Sampler.sampleParticle idxs t = .ok (i, t')) :
    ∀ u : Tape, u 0 = t 0 → Sampler.sampleParticle idxs u = .ok (i, u.drop 1) := by
  intro u hu
  unfold Sampler.sampleParticle at h ⊢
  obtain ⟨⟨k, t1⟩, h1, h⟩ := Outcome.bind_eq_ok.mp h
  obtain ⟨h2, h3, -⟩ := Sampler.uniformInt_ok h1
  simp only at h
  obtain ⟨j, h4, h⟩ := Outcome.bind_eq_ok.mp h
  injection h with h
  injection h with h5 h6
  subst h5
  have : uniformInt idxs.length u = .ok (k, u.drop 1) := by
    unfold uniformInt
    rw [if_neg h2, hu, h3]
  rw [this, Outcome.ok_bind]
  simp only
  rw [h4, Outcome.ok_bind]
  rfl

theorem adjustMax_again (b : Box) (m : ℝ) (i : Bool) : Sampler.adjustMax b (Sampler.adjustMax b m i) i = Sampler.adjustMax b m i := by
  cases i <;> rfl

theorem mulVec_smul' (A : Mat3) (k : ℝ) (v : Vec3 ℝ) : A.mulVec (k • v) = k • A.mulVec v := by
  ext <;> simp [Mat3.mulVec, Vec3.dot] <;> ring

/-- A vector is its norm times the unit vector. -/
theorem normalize_eq {v n : Vec3 ℝ} (h : normalize v = .ok n) : v = v.norm • n := by
  unfold normalize at h
  split_ifs at h with h0
  injection h with h
  subst h
  ext <;> simp <;> field_simp

theorem rotation_pi_twice {n : Vec3 ℝ} (hn : n.norm2 = 1) : axisRotation n Real.pi * axisRotation n Real.pi = 1 := by
  have h := axisRotation_back hn Real.pi
  have : axisRotation n (-Real.pi) = axisRotation n Real.pi := by
    rw [axisRotation_entries, axisRotation_entries]
    simp
  rwa [this] at h

/-- What a flip does. -/
theorem flipMove_ok {s : Shape} {a o : Vec3 ℝ} {z : Bool} {k : Kind} (h : Sampler.flipMove s a o z = .ok k) :
    ∃ n, normalize (s.rot.mulVec a) = .ok n ∧ n.norm2 = 1 ∧ (axisRotation n Real.pi).mulVec (s.rot.mulVec a) = s.rot.mulVec a ∧
      ((z = true ∧ k = .rotation (axisRotation n Real.pi)) ∨
        (z = false ∧ k = .move (s.rot.mulVec o - (axisRotation n Real.pi).mulVec (s.rot.mulVec o)) (axisRotation n Real.pi))) := by
  unfold Sampler.flipMove at h
  obtain ⟨n, h1, h⟩ := Outcome.bind_eq_ok.mp h
  have hn := normalize_ok h1
  refine ⟨n, h1, hn, ?_, ?_⟩
  · have := (axisRotation_about hn Real.pi).1 (s.rot.mulVec a).norm
    rw [← normalize_eq h1] at this
    exact this
  · simp only at h
    cases z
    · right
      injection h with h
      refine ⟨rfl, ?_⟩
      rw [← h]
      congr 1
      ext <;> simp [Mat3.mulVec, Vec3.dot] <;> ring
    · left
      injection h with h
      exact ⟨rfl, h.symm⟩

/-- The flip of a flipped shape. -/
theorem flipMove_again {b : Box} (hb : b.WF) {s : Shape} {a o : Vec3 ℝ} {z : Bool} {k : Kind} (hp : Inside b s.pos)
    (h : Sampler.flipMove s a o z = .ok k) :
    ∃ k2, Sampler.flipMove (k.apply b s) a o z = .ok k2 ∧ k2.apply b (k.apply b s) = s := by
  obtain ⟨n, h1, hn, h2, h3⟩ := flipMove_ok h
  have hR := rotation_pi_twice hn
  rcases h3 with ⟨rfl, rfl⟩ | ⟨rfl, rfl⟩
  · refine ⟨.rotation (axisRotation n Real.pi), ?_, ?_⟩
    · unfold Sampler.flipMove
      simp only [Kind.apply, Shape.rotate]
      rw [← Mat3.mulVec_mulVec, h2, h1, Outcome.ok_bind]
      rfl
    · simp only [Kind.apply, Shape.rotate]
      rw [← Mat3.mul_assoc, hR, Mat3.one_mul]
  · refine ⟨.move ((axisRotation n Real.pi).mulVec (s.rot.mulVec o) - s.rot.mulVec o) (axisRotation n Real.pi), ?_, ?_⟩
    · unfold Sampler.flipMove
      simp only [Kind.apply, Shape.rotate, Shape.translate]
      rw [← Mat3.mulVec_mulVec, h2, h1, Outcome.ok_bind]
      have e : (axisRotation n Real.pi).mulVec ((axisRotation n Real.pi).mulVec (s.rot.mulVec o)) = s.rot.mulVec o := by
        rw [Mat3.mulVec_mulVec, hR, Mat3.one_mulVec]
      rw [← Mat3.mulVec_mulVec, if_neg (by simp)]
      have e2 : ((-1 : ℝ) • axisRotation n Real.pi).mulVec ((axisRotation n Real.pi).mulVec (s.rot.mulVec o)) = -s.rot.mulVec o := by
        have : ∀ (A : Mat3) (v : Vec3 ℝ), ((-1 : ℝ) • A).mulVec v = -A.mulVec v := by
          intro A v
          ext <;> simp [Mat3.mulVec, Vec3.dot] <;> ring
        rw [this, e]
      rw [e2]
      show Outcome.ok _ = _
      congr 2
      abel
    · simp only [Kind.apply, Shape.rotate, Shape.translate]
      rw [← Mat3.mul_assoc, hR, Mat3.one_mul, wrap_back hb hp _ _ (by abel)]

end Rampack
