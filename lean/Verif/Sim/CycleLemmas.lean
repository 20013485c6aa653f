import Verif.Sim.MoveLemmas
/-
What a cycle does to a simulation besides the packing.
-/
namespace Rampack

open Spec

theorem set_same {α : Type} {l : List α} {g : Nat} {a : α} (h : l[g]? = some a) : l.set g a = l := by
  apply List.ext_getElem?
  intro i
  rw [List.getElem?_set]
  split_ifs with h1 h2
  · rw [← h1, h]
  · rw [List.getElem?_eq_none (by omega)]
  · rfl

namespace Sim

/-- The event of a scaling. -/
def scalingLog (b : Bool) (P : Packing) : List Event := .triedScaling :: if b then [.acceptedScaling P] else []

/-- The state after a scaling was tried. -/
def scaledState (S : Sim) (t : Tape) (b : Bool) (P : Packing) : Sim :=
  { S with mts := S.mts.set 0 t, P := P, log := S.log ++ scalingLog b P }

theorem decideScaling_ok {S S' : Sim} {a b : Bool} (h : S.decideScaling a = .ok (S', b)) :
    b = a ∧ ((a = true ∧ S' = { S with log := S.log ++ [.acceptedScaling S.P] }) ∨
      (a = false ∧ ∃ P, S.P.revertScaling = .ok P ∧ S' = { S with P := P })) := by
  unfold decideScaling at h
  rcases Outcome.ite_eq_ok.mp h with ⟨h0, h⟩ | ⟨h0, h⟩
  · injection h with h
    injection h with h1 h2
    exact ⟨h2.symm.trans h0.symm, Or.inl ⟨h0, h1.symm⟩⟩
  · obtain ⟨P, h1, h⟩ := Outcome.bind_eq_ok.mp h
    injection h with h
    injection h with h2 h3
    have h0' : a = false := by simpa using h0
    exact ⟨h3.symm.trans h0'.symm, Or.inr ⟨h0', P, h1, h2.symm⟩⟩

/-- The condition of acceptance of a scaling. -/
noncomputable def scalingAccepted (S : Sim) (I : Interaction) (b : Box) (dE : EnergyChange) (u : ℝ) : Bool :=
  if I.hasSoft || S.overlapsCounted then
    (((S.volumeTerm (|b.volume| / |S.P.box.volume|)).sub (dE.toExt.div S.temperature)).sub
      (S.workTerm (|b.volume| - |S.P.box.volume|))).exp.geNum u
  else !dE.positive

/-- What `tryScaling` does. -/
theorem tryScaling_ok {S S' : Sim} {I : Interaction} {b : Bool} (h : S.tryScaling I = .ok (S', b)) :
    ∃ (t : Tape) (s : Scaler) (box : Box) (t' : Tape) (P' : Packing), S.mts[0]? = some t ∧ S.env.scaler = .enabled s ∧
      s.updateBox S.P.box t = .ok (box, t') ∧ box.volume ≠ 0 ∧ S' = S.scaledState (t'.drop 1) b P' ∧
      ((b = false ∧ P' = S.P) ∨ ∃ P₁ dE, S.P.tryScaling I box = .ok (P₁, dE) ∧
        ((b = true ∧ P' = P₁ ∧ S.scalingAccepted I box dE (t' 0) = true) ∨
         (b = false ∧ P₁.revertScaling = .ok P'))) := by
  unfold tryScaling at h
  obtain ⟨_, h1, h⟩ := Outcome.bind_eq_ok.mp h
  obtain ⟨t, h2, h⟩ := Outcome.bind_eq_ok.mp h
  rw [vget_eq_ok] at h2
  obtain ⟨s, h3, h⟩ := Outcome.bind_eq_ok.mp h
  have h3' : S.env.scaler = .enabled s := by
    unfold Env.getBoxScaler at h3
    split at h3
    · injection h3 with h3
      subst h3
      assumption
    · cases h3
  obtain ⟨⟨box, t'⟩, h4, h⟩ := Outcome.bind_eq_ok.mp h
  simp only at h
  obtain ⟨_, h5, h⟩ := Outcome.bind_eq_ok.mp h
  rw [Outcome.require_eq_ok, decide_eq_true_eq] at h5
  rcases Outcome.ite_eq_ok.mp h with ⟨h0, h⟩ | ⟨h0, h⟩
  · unfold scaleSoft at h
    obtain ⟨⟨P₁, dE⟩, h6, h⟩ := Outcome.bind_eq_ok.mp h
    simp only at h6 h0
    obtain ⟨h7, h8⟩ := decideScaling_ok h
    rcases h8 with ⟨h8, rfl⟩ | ⟨h8, P, h9, rfl⟩
    · refine ⟨t, s, box, t', P₁, h2, h3', h4, h5, ?_, Or.inr ⟨P₁, dE, h6, Or.inl ⟨h7.trans h8, rfl, ?_⟩⟩⟩
      · rw [h7, h8]
        simp [scaledState, scalingLog]
      · unfold scalingAccepted
        rw [if_pos h0]
        exact h8
    · refine ⟨t, s, box, t', P, h2, h3', h4, h5, ?_, Or.inr ⟨P₁, dE, h6, Or.inr ⟨h7.trans h8, h9⟩⟩⟩
      rw [h7, h8]
      simp [scaledState, scalingLog]
  · unfold scaleHard at h
    simp only at h
    rcases Outcome.ite_eq_ok.mp h with ⟨h6, h⟩ | ⟨h6, h⟩
    · injection h with h
      injection h with h7 h8
      subst h7 h8
      exact ⟨t, s, box, t', S.P, h2, h3', h4, h5, rfl, Or.inl ⟨rfl, rfl⟩⟩
    · obtain ⟨⟨P₁, dE⟩, h6, h⟩ := Outcome.bind_eq_ok.mp h
      obtain ⟨h7, h8⟩ := decideScaling_ok h
      rcases h8 with ⟨h8, rfl⟩ | ⟨h8, P, h9, rfl⟩
      · refine ⟨t, s, box, t', P₁, h2, h3', h4, h5, ?_, Or.inr ⟨P₁, dE, h6, Or.inl ⟨h7.trans h8, rfl, ?_⟩⟩⟩
        · rw [h7, h8]
          simp [scaledState, scalingLog]
        · unfold scalingAccepted
          rw [if_neg h0]
          exact h8
      · refine ⟨t, s, box, t', P, h2, h3', h4, h5, ?_, Or.inr ⟨P₁, dE, h6, Or.inr ⟨h7.trans h8, h9⟩⟩⟩
        rw [h7, h8]
        simp [scaledState, scalingLog]

/-- Scaling in a cycle. -/
theorem cycleScaling_ok {S S' : Sim} {I : Interaction} (h : S.cycleScaling I = .ok S') :
    (S.env.isBoxScalingEnabled = false ∧ S' = S) ∨
    (S.env.isBoxScalingEnabled = true ∧ ∃ S₁ b, S.tryScaling I = .ok (S₁, b) ∧
      S' = { S₁ with scalingCounter := S₁.scalingCounter.increment b }) := by
  unfold cycleScaling at h
  rcases Outcome.ite_eq_ok.mp h with ⟨h0, h⟩ | ⟨h0, h⟩
  · obtain ⟨⟨S₁, b⟩, h1, h⟩ := Outcome.bind_eq_ok.mp h
    injection h with h
    exact Or.inr ⟨h0, S₁, b, h1, h.symm⟩
  · injection h with h
    exact Or.inl ⟨by simpa using h0, h.symm⟩

/-- What the evaluation of the counter of a group does to the counter and to the sampler. -/
def GroupDone (n : Nat) (c : Counter) (s : Sampler) (c' : Counter) (s' : Sampler) : Prop :=
  ∃ r, s.requested n = .ok r ∧ ((c.movesSince < 100 * r ∧ c' = c ∧ s' = s) ∨
    (100 * r ≤ c.movesSince ∧ c' = c.resetCurrent ∧ ∃ b b', adjustSampler s c.currentRate b = .ok (s', b')))

/-- The state with other counters and samplers. -/
def withGroups (S : Sim) (cs : List Counter) (bs : List Bool) (ss : List Sampler) : Sim :=
  { S with counters := cs, cancelReported := bs, env := { S.env with samplers := ss } }

/-- One group. -/
theorem evaluateGroup_ok {S S' : Sim} {g : Nat} (h : S.evaluateGroup g = .ok S') :
    ∃ s c c' s' bs, S.env.samplers[g]? = some s ∧ S.counters[g]? = some c ∧ GroupDone S.P.size c s c' s' ∧
      S' = S.withGroups (S.counters.set g c') bs (S.env.samplers.set g s') := by
  unfold evaluateGroup at h
  obtain ⟨samplers, h1, h⟩ := Outcome.bind_eq_ok.mp h
  obtain ⟨h1, -⟩ := getMoveSamplers_ok h1
  subst h1
  obtain ⟨s, h2, h⟩ := Outcome.bind_eq_ok.mp h
  rw [vget_eq_ok] at h2
  obtain ⟨c, h3, h⟩ := Outcome.bind_eq_ok.mp h
  rw [vget_eq_ok] at h3
  obtain ⟨b, h4, h⟩ := Outcome.bind_eq_ok.mp h
  obtain ⟨r, h5, h⟩ := Outcome.bind_eq_ok.mp h
  rcases Outcome.ite_eq_ok.mp h with ⟨h6, h⟩ | ⟨h6, h⟩
  · injection h with h
    subst h
    refine ⟨s, c, c, s, S.cancelReported, h2, h3, ⟨r, h5, Or.inl ⟨h6, rfl, rfl⟩⟩, ?_⟩
    unfold withGroups
    rw [set_same h3, set_same h2]
  · unfold endWindow at h
    obtain ⟨_, h7, h⟩ := Outcome.bind_eq_ok.mp h
    obtain ⟨⟨s', b'⟩, h8, h⟩ := Outcome.bind_eq_ok.mp h
    injection h with h
    subst h
    exact ⟨s, c, c.resetCurrent, s', _, h2, h3, ⟨r, h5, Or.inr ⟨by omega, rfl, b, b', h8⟩⟩, rfl⟩

/-- All groups up to the given number. -/
theorem evaluateGroups_ok {S : Sim} : ∀ (n : Nat) {S' : Sim}, (List.range n).foldlM evaluateGroup S = .ok S' →
    ∃ cs bs ss, S' = S.withGroups cs bs ss ∧ cs.length = S.counters.length ∧ ss.length = S.env.samplers.length ∧
      ∀ g, (g < n → ∃ c s c' s', S.counters[g]? = some c ∧ S.env.samplers[g]? = some s ∧ cs[g]? = some c' ∧ ss[g]? = some s' ∧
        GroupDone S.P.size c s c' s') ∧ (n ≤ g → cs[g]? = S.counters[g]? ∧ ss[g]? = S.env.samplers[g]?)
  | 0, S', h => by
    rw [List.range_zero, List.foldlM_nil] at h
    injection h with h
    subst h
    exact ⟨S.counters, S.cancelReported, S.env.samplers, rfl, rfl, rfl, fun g => ⟨fun h => absurd h (by omega),
      fun _ => ⟨rfl, rfl⟩⟩⟩
  | n + 1, S', h => by
    rw [List.range_succ, List.foldlM_append] at h
    obtain ⟨S₁, h1, h⟩ := Outcome.bind_eq_ok.mp h
    rw [List.foldlM_cons] at h
    obtain ⟨S₂, h2, h⟩ := Outcome.bind_eq_ok.mp h
    rw [List.foldlM_nil] at h
    injection h with h
    subst h
    obtain ⟨cs, bs, ss, rfl, h3, h4, h5⟩ := evaluateGroups_ok n h1
    obtain ⟨s, c, c', s', bs', h6, h7, h8, rfl⟩ := evaluateGroup_ok h2
    have e1 : (S.withGroups cs bs ss).env.samplers = ss := rfl
    have e2 : (S.withGroups cs bs ss).counters = cs := rfl
    have e3 : (S.withGroups cs bs ss).P = S.P := rfl
    rw [e1] at h6 ⊢
    rw [e2] at h7 ⊢
    rw [e3] at h8
    refine ⟨cs.set n c', bs', ss.set n s', rfl, by simpa using h3, by simpa using h4, fun g => ⟨fun hg => ?_, fun hg => ?_⟩⟩
    · by_cases hgn : g = n
      · subst hgn
        obtain ⟨h9, h10⟩ := (h5 g).2 le_rfl
        refine ⟨c, s, c', s', by rw [← h9, h7], by rw [← h10, h6], ?_, ?_, h8⟩
        · rw [List.getElem?_set_self (List.getElem?_eq_some_iff.mp h7).1]
        · rw [List.getElem?_set_self (List.getElem?_eq_some_iff.mp h6).1]
      · rw [List.getElem?_set_ne (Ne.symm hgn), List.getElem?_set_ne (Ne.symm hgn)]
        exact (h5 g).1 (by omega)
    · rw [List.getElem?_set_ne (by omega), List.getElem?_set_ne (by omega)]
      exact (h5 g).2 (by omega)

theorem evaluateMoves_ok {S S' : Sim} (h : S.evaluateMoves = .ok S') :
    ∃ cs bs ss, S' = S.withGroups cs bs ss ∧ cs.length = S.counters.length ∧ ss.length = S.env.samplers.length ∧
      ∀ g, g < S.env.samplers.length → ∃ c s c' s', S.counters[g]? = some c ∧ S.env.samplers[g]? = some s ∧
        cs[g]? = some c' ∧ ss[g]? = some s' ∧ GroupDone S.P.size c s c' s' := by
  unfold evaluateMoves at h
  obtain ⟨samplers, h1, h⟩ := Outcome.bind_eq_ok.mp h
  obtain ⟨h1, -⟩ := getMoveSamplers_ok h1
  subst h1
  obtain ⟨cs, bs, ss, h2, h3, h4, h5⟩ := evaluateGroups_ok _ h
  exact ⟨cs, bs, ss, h2, h3, h4, fun g hg => (h5 g).1 hg⟩

/-- The scaling counter and the scaler after their evaluation. -/
noncomputable def scalerEvaluated (c : Counter) (s : Scaler) : Counter × Scaler :=
  if c.movesSince < 100 then (c, s) else (c.resetCurrent, adjustScaler s c.currentRate)

theorem evaluateScaling_ok {S S' : Sim} {s : Scaler} (hs : S.env.scaler = .enabled s) (h : S.evaluateScaling = .ok S') :
    S' = { S with
      scalingCounter := (scalerEvaluated S.scalingCounter s).1
      env := { S.env with scaler := .enabled (scalerEvaluated S.scalingCounter s).2 } } := by
  unfold evaluateScaling at h
  unfold scalerEvaluated
  rcases Outcome.ite_eq_ok.mp h with ⟨h0, h⟩ | ⟨h0, h⟩
  · injection h with h
    subst h
    simp only [if_pos h0]
    rw [← hs]
  · obtain ⟨s', h1, h⟩ := Outcome.bind_eq_ok.mp h
    unfold Env.getBoxScaler at h1
    rw [hs] at h1
    injection h1 with h1
    injection h with h
    subst h h1
    simp only [if_neg h0]

end Sim

end Rampack
