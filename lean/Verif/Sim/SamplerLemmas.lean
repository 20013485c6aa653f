import Verif.OutcomeLemmas
import Verif.Sim.Model
/-
Lemmas about samplers.
-/
namespace Rampack

theorem Tape.drop_drop (t : Tape) (a b : Nat) : (t.drop a).drop b = t.drop (a + b) := by
  funext n
  unfold Tape.drop
  rw [Nat.add_assoc]

namespace Sampler

theorem uniformInt_ok {n k : Nat} {t t' : Tape} (h : uniformInt n t = .ok (k, t')) :
    n ≠ 0 ∧ k = ⌊t 0 * n⌋₊ ∧ t' = t.drop 1 := by
  unfold uniformInt at h
  split_ifs at h with hn
  injection h with h
  injection h with h1 h2
  exact ⟨hn, h1.symm, h2.symm⟩

theorem uniformInt_lt {n k : Nat} {t t' : Tape} (ht : t.Ok) (h : uniformInt n t = .ok (k, t')) : k < n := by
  obtain ⟨hn, rfl, -⟩ := uniformInt_ok h
  have h0 : (0 : ℝ) < n := by exact_mod_cast Nat.pos_of_ne_zero hn
  rw [Nat.floor_lt (mul_nonneg (ht 0).1 h0.le)]
  have := (ht 0).2
  nlinarith

theorem _root_.Rampack.Tape.Ok.drop {t : Tape} (h : t.Ok) (n : Nat) : (t.drop n).Ok := fun _ => h _

theorem _root_.Rampack.Tape.Positive.drop {t : Tape} (h : t.Positive) (n : Nat) : (t.drop n).Positive := fun _ => h _

theorem _root_.Rampack.Tape.Positive.ok {t : Tape} (h : t.Positive) : t.Ok := fun n => ⟨(h n).1.le, (h n).2⟩

theorem sampleParticle_ok {idxs : List Nat} {t t' : Tape} {i : Nat} (h : sampleParticle idxs t = .ok (i, t')) :
    i ∈ idxs ∧ t' = t.drop 1 := by
  unfold sampleParticle at h
  obtain ⟨⟨k, t1⟩, h1, h⟩ := Outcome.bind_eq_ok.mp h
  obtain ⟨j, h2, h⟩ := Outcome.bind_eq_ok.mp h
  obtain ⟨-, -, h3⟩ := uniformInt_ok h1
  injection h with h
  injection h with h4 h5
  subst h4 h5
  exact ⟨List.mem_of_getElem? (vget_eq_ok.mp h2), h3⟩

/-- The tape after a rotation was sampled is a later part of the one before. -/
theorem sampleRotation_ok {x : ℝ} {t t' : Tape} {R : Mat3} (h : sampleRotation x t = .ok (R, t')) :
    ∃ n v k, normalize v = .ok n ∧ R = axisRotation n (uniformReal (-x) x (t k)) ∧ t' = t.drop (k + 1) := by
  unfold sampleRotation at h
  obtain ⟨⟨v, t1⟩, h1, h⟩ := Outcome.bind_eq_ok.mp h
  simp only at h
  obtain ⟨n, h2, h⟩ := Outcome.bind_eq_ok.mp h
  injection h with h
  injection h with h3 h4
  subst h3 h4
  unfold sampleAxis at h1
  split_ifs at h1 with hk
  injection h1 with h1
  injection h1 with h5 h6
  subst h5 h6
  refine ⟨n, _, _, h2, rfl, ?_⟩
  funext k
  unfold Tape.drop
  congr 1
  omega

/-- The sampled molecule is one of the given ones, the step sizes stay, and the tape goes on. -/
theorem sampleMove_ok {P : Packing} {idxs : List Nat} {t t' : Tape} {s s' : Sampler} {mv : MoveData}
    (h : s.sampleMove P idxs t = .ok (mv, s', t')) :
    mv.idx ∈ idxs ∧ s'.stepSizes = s.stepSizes ∧ (∀ n, s'.requested n = s.requested n) ∧ ∃ k, t' = t.drop k := by
  rcases s with x | ⟨x, m, i⟩ | ⟨x, _ | y, m, i⟩ | ⟨e, a, o, z⟩
  · unfold sampleMove at h
    obtain ⟨⟨R, t1⟩, h1, h⟩ := Outcome.bind_eq_ok.mp h
    simp only at h
    obtain ⟨⟨j, t2⟩, h2, h⟩ := Outcome.bind_eq_ok.mp h
    obtain ⟨_, _, k, -, -, h3⟩ := sampleRotation_ok h1
    obtain ⟨h4, h5⟩ := sampleParticle_ok h2
    injection h with h
    injection h with h6 h7
    injection h7 with h7 h8
    subst h3 h5 h6 h7 h8
    exact ⟨h4, rfl, fun _ => rfl, k + 1 + 1, by simp only [Tape.drop_drop]⟩
  · unfold sampleMove at h
    simp only [sampleTranslation] at h
    obtain ⟨⟨j, t2⟩, h2, h⟩ := Outcome.bind_eq_ok.mp h
    obtain ⟨h4, h5⟩ := sampleParticle_ok h2
    injection h with h
    injection h with h6 h7
    injection h7 with h7 h8
    subst h5 h6 h7 h8
    exact ⟨h4, rfl, fun _ => rfl, 4, by simp only [Tape.drop_drop]⟩
  · cases h
  · unfold sampleMove at h
    simp only [sampleTranslation] at h
    obtain ⟨⟨R, t1⟩, h1, h⟩ := Outcome.bind_eq_ok.mp h
    simp only at h
    obtain ⟨⟨j, t2⟩, h2, h⟩ := Outcome.bind_eq_ok.mp h
    obtain ⟨_, _, k, -, -, h3⟩ := sampleRotation_ok h1
    obtain ⟨h4, h5⟩ := sampleParticle_ok h2
    injection h with h
    injection h with h6 h7
    injection h7 with h7 h8
    subst h3 h5 h6 h7 h8
    exact ⟨h4, rfl, fun _ => rfl, 3 + (k + 1) + 1, by simp only [Tape.drop_drop]⟩
  · unfold sampleMove at h
    obtain ⟨⟨j, t2⟩, h2, h⟩ := Outcome.bind_eq_ok.mp h
    simp only at h
    obtain ⟨sh, h3, h⟩ := Outcome.bind_eq_ok.mp h
    obtain ⟨kd, h4, h⟩ := Outcome.bind_eq_ok.mp h
    obtain ⟨h5, h6⟩ := sampleParticle_ok h2
    injection h with h
    injection h with h7 h8
    injection h8 with h8 h9
    subst h6 h7 h8 h9
    exact ⟨h5, rfl, fun _ => rfl, 1, rfl⟩

theorem uniformReal_abs {x u : ℝ} (hx : 0 ≤ x) (h0 : 0 ≤ u) (h1 : u < 1) : |uniformReal (-x) x u| ≤ x := by
  unfold uniformReal
  rw [abs_le]
  constructor <;> nlinarith

end Sampler

end Rampack
