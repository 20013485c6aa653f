import Verif.Sim.DivideProps
import Mathlib.Order.Interval.Finset.Nat
/-
C67: moves of each kind are tried as often as asked for, and all molecules are chosen equally often.
-/
namespace Rampack

open Spec Packing Sim

private theorem asked_cons (m : Nat) (s : Sampler) (l : List Sampler) : movesAsked m (s :: l) = movesAsked m [s] + movesAsked m l := by
  simp [movesAsked]

private theorem requested_asked {s : Sampler} {m r : Nat} (h : s.requested m = .ok r) : r = movesAsked m [s] := by
  cases s with
  | flip e _ _ _ =>
    unfold Sampler.requested at h
    obtain ⟨_, -, h⟩ := Outcome.bind_eq_ok.mp h
    injection h with h
    simp [movesAsked, h]
  | _ => injection h with h; simp [movesAsked, h]

/-- The numbers for which a group is chosen. -/
private theorem kinds_card {m : Nat} : ∀ {l : List Sampler} {acc : Nat} {accs : List Nat}, moveTypeAccumulations m l acc = .ok accs →
    ∀ g s, l[g]? = some s →
      ((Finset.Ico acc (acc + movesAsked m l)).filter fun x => moveTypeFor accs x = g).card = movesAsked m [s]
  | [], _, _, _, g, s, hs => by cases hs
  | s0 :: l, acc, accs, h, g, s, hs => by
    unfold moveTypeAccumulations at h
    obtain ⟨r, h1, h⟩ := Outcome.bind_eq_ok.mp h
    obtain ⟨rest, h2, h⟩ := Outcome.bind_eq_ok.mp h
    injection h with h
    subst h
    have hr := requested_asked h1
    cases g with
    | zero =>
      injection hs with hs
      subst hs
      have : ((Finset.Ico acc (acc + movesAsked m (s0 :: l))).filter fun x => moveTypeFor ((acc + r) :: rest) x = 0) =
          Finset.Ico acc (acc + movesAsked m [s0]) := by
        ext x
        rw [Finset.mem_filter, Finset.mem_Ico, Finset.mem_Ico, asked_cons, ← hr]
        simp only [moveTypeFor]
        by_cases hx : x < acc + r
        · rw [if_pos hx]; constructor <;> intro h <;> omega
        · rw [if_neg hx]; constructor <;> intro h <;> omega
      rw [this, Nat.card_Ico]
      omega
    | succ g =>
      rw [← kinds_card h2 g s hs]
      congr 1
      ext x
      rw [Finset.mem_filter, Finset.mem_filter, Finset.mem_Ico, Finset.mem_Ico, asked_cons, ← hr]
      simp only [moveTypeFor]
      by_cases hx : x < acc + r
      · rw [if_pos hx]; constructor <;> intro h <;> omega
      · rw [if_neg hx]; constructor <;> intro h <;> omega

/-- C67: for moves counted for `m` molecules, a group is chosen by a function of an equally distributed integer below the number of all
moves asked for. The group is the value of this function for exactly as many integers as moves are asked for by the group: as many as
molecules, or, for flips, molecules divided by how seldom flips are to be. -/
theorem C67_kinds {m : Nat} {samplers : List Sampler} {accs : List Nat} (h : moveTypeAccumulations m samplers 0 = .ok accs) :
    ∃ f : ℕ → ℕ, (∀ g s, samplers[g]? = some s →
        ((Finset.range (movesAsked m samplers)).filter fun x => f x = g).card = movesAsked m [s]) ∧
      ∀ T idxs tid domain S cs S' cs', Sim.tryMove T idxs accs tid domain (S, cs) = .ok (S', cs') →
        ∃ t g s mv s' t' P dE rest, S.mts[tid]? = some t ∧ g = f ⌊t 0 * movesAsked m samplers⌋₊ ∧ S.env.samplers[g]? = some s ∧
          s.sampleMove S.P idxs (t.drop 1) = .ok (mv, s', t') ∧ S.P.tryKind T.I tid mv.idx mv.kind domain = .ok (P, dE) ∧
          S'.log = S.log ++ .tried g :: rest := by
  refine ⟨moveTypeFor accs, ?_, ?_⟩
  · intro g s hs
    rw [← kinds_card h g s hs, Nat.zero_add, Finset.range_eq_Ico]
  · intro T idxs tid domain S cs S' cs' e
    unfold Sim.tryMove at e
    simp only at e
    obtain ⟨samplers', e0, e⟩ := Outcome.bind_eq_ok.mp e
    obtain ⟨e0, -⟩ := getMoveSamplers_ok e0
    obtain ⟨_, -, e⟩ := Outcome.bind_eq_ok.mp e
    obtain ⟨_, -, e⟩ := Outcome.bind_eq_ok.mp e
    obtain ⟨last, e1, e⟩ := Outcome.bind_eq_ok.mp e
    obtain ⟨t, e2, e⟩ := Outcome.bind_eq_ok.mp e
    rw [vget_eq_ok] at e2
    obtain ⟨⟨x, t1⟩, e3, e⟩ := Outcome.bind_eq_ok.mp e
    simp only at e
    obtain ⟨-, hx, ht1⟩ := Sampler.uniformInt_ok e3
    obtain ⟨smp, e4, e⟩ := Outcome.bind_eq_ok.mp e
    rw [vget_eq_ok] at e4
    obtain ⟨⟨mv, smp', t2⟩, e5, e⟩ := Outcome.bind_eq_ok.mp e
    simp only at e
    obtain ⟨⟨P, dE⟩, e6, e⟩ := Outcome.bind_eq_ok.mp e
    simp only at e
    have hl : last = movesAsked m samplers := by
      have : accs.getLast? = some last := by
        unfold vback at e1
        split at e1
        · next h => injection e1 with e1; subst e1; exact h
        · cases e1
      rw [accumulations_last h this, Nat.zero_add]
    rw [hl] at hx
    rw [ht1] at e5
    rw [e0] at e4
    unfold decideMove at e
    obtain ⟨c, -, e⟩ := Outcome.bind_eq_ok.mp e
    rcases Outcome.ite_eq_ok.mp e with ⟨-, e⟩ | ⟨-, e⟩
    · obtain ⟨P', -, e⟩ := Outcome.bind_eq_ok.mp e
      injection e with e
      injection e with e e'
      subst e
      exact ⟨t, _, smp, mv, smp', t2, P, dE, [_], e2, by rw [hx], e4, e5, e6, by simp only [List.append_assoc]; rfl⟩
    · injection e with e
      injection e with e e'
      subst e
      exact ⟨t, _, smp, mv, smp', t2, P, dE, [], e2, by rw [hx], e4, e5, e6, rfl⟩

/-- C67, molecules: the molecule is given by an equally distributed integer below the number of molecules to choose from, which is made
from the last number a sampler uses. -/
theorem C67_molecules {s s' : Sampler} {P : Packing} {idxs : List Nat} {t t' : Tape} {mv : MoveData}
    (h : s.sampleMove P idxs t = .ok (mv, s', t')) : ∃ n, t' = t.drop (n + 1) ∧ idxs[⌊t n * idxs.length⌋₊]? = some mv.idx := by
  have key : ∀ {t t' : Tape} {i : Nat}, Sampler.sampleParticle idxs t = .ok (i, t') →
      t' = t.drop 1 ∧ idxs[⌊t 0 * idxs.length⌋₊]? = some i := by
    intro t t' i h
    unfold Sampler.sampleParticle at h
    obtain ⟨⟨k, t1⟩, h1, h⟩ := Outcome.bind_eq_ok.mp h
    obtain ⟨-, h3, h4⟩ := Sampler.uniformInt_ok h1
    simp only at h
    obtain ⟨j, h5, h⟩ := Outcome.bind_eq_ok.mp h
    have h := Outcome.ok_inj.mp h
    injection h with h6 h7
    subst h3 h4 h6 h7
    exact ⟨rfl, vget_eq_ok.mp h5⟩
  rcases s with x | ⟨x, m, i⟩ | ⟨x, _ | y, m, i⟩ | ⟨e, a, o, z⟩
  · simp only [Sampler.sampleMove] at h
    obtain ⟨⟨R, t1⟩, h1, h⟩ := Outcome.bind_eq_ok.mp h
    simp only at h
    obtain ⟨⟨j, t2⟩, h2, h⟩ := Outcome.bind_eq_ok.mp h
    obtain ⟨_, _, k, -, -, h3⟩ := Sampler.sampleRotation_ok h1
    obtain ⟨h4, h5⟩ := key h2
    have h := Outcome.ok_inj.mp h
    injection h with h6 h7
    injection h7 with h7 h8
    subst h3 h4 h6 h7 h8
    exact ⟨k + 1, Tape.drop_drop _ _ _, h5⟩
  · simp only [Sampler.sampleMove] at h
    obtain ⟨⟨j, t2⟩, h2, h⟩ := Outcome.bind_eq_ok.mp h
    obtain ⟨h4, h5⟩ := key h2
    have h := Outcome.ok_inj.mp h
    injection h with h6 h7
    injection h7 with h7 h8
    subst h4 h6 h7 h8
    exact ⟨3, Tape.drop_drop t _ _, h5⟩
  · cases h
  · simp only [Sampler.sampleMove] at h
    obtain ⟨⟨R, t1⟩, h1, h⟩ := Outcome.bind_eq_ok.mp h
    simp only at h
    obtain ⟨⟨j, t2⟩, h2, h⟩ := Outcome.bind_eq_ok.mp h
    obtain ⟨_, _, k, -, -, h3⟩ := Sampler.sampleRotation_ok h1
    obtain ⟨h4, h5⟩ := key h2
    have h := Outcome.ok_inj.mp h
    injection h with h6 h7
    injection h7 with h7 h8
    subst h3 h4 h6 h7 h8
    refine ⟨3 + (k + 1), ?_, h5⟩
    show ((t.drop 3).drop (k + 1)).drop 1 = _
    rw [Tape.drop_drop, Tape.drop_drop]
    rfl
  · simp only [Sampler.sampleMove] at h
    obtain ⟨⟨j, t2⟩, h2, h⟩ := Outcome.bind_eq_ok.mp h
    simp only at h
    obtain ⟨sh, h3, h⟩ := Outcome.bind_eq_ok.mp h
    obtain ⟨kd, h4, h⟩ := Outcome.bind_eq_ok.mp h
    obtain ⟨h5, h6⟩ := key h2
    have h := Outcome.ok_inj.mp h
    injection h with h7 h8
    injection h8 with h8 h9
    subst h5 h7 h8 h9
    exact ⟨0, rfl, h6⟩

/-- The hypotheses are met: twelve moves are asked for by three groups for five molecules, two of which are flips. -/
example : ∃ accs, moveTypeAccumulations 5 [.translation (1 / 10) 0 true, .rotation (1 / 10), .flip 2 ⟨0, 0, 1⟩ 0 true] 0 = .ok accs ∧
    movesAsked 5 [.translation (1 / 10) 0 true, .rotation (1 / 10), .flip 2 ⟨0, 0, 1⟩ 0 true] = 12 := by
  refine ⟨[5, 10, 12], ?_, rfl⟩
  simp [moveTypeAccumulations, Sampler.requested, Outcome.require]

end Rampack
