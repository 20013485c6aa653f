import Verif.Sim.ScheduleLemmas
/-
Whole runs.
-/
namespace Rampack

open Spec

namespace Sim

theorem cyclesDone_zero (stop : Nat → Bool) (o : Nat) : cyclesDone stop o 0 = 0 := rfl

theorem cyclesDone_succ (stop : Nat → Bool) (o n : Nat) :
    cyclesDone stop o (n + 1) = if stop (o + 1) then 1 else cyclesDone stop (o + 1) n + 1 := by
  unfold cyclesDone
  rw [List.range_succ_eq_map, List.find?_cons, List.find?_map]
  have e : ((fun i => stop (o + i + 1)) ∘ Nat.succ) = fun i => stop (o + 1 + i + 1) := by
    funext i
    simp only [Function.comp]
    congr 1
    omega
  rw [e]
  by_cases h : stop (o + 1) = true
  · rw [if_pos h, Nat.add_zero, h]
  · rw [if_neg h, Nat.add_zero]
    have h' : stop (o + 1) = false := by simpa using h
    rw [h']
    cases (List.range n).find? fun i => stop (o + 1 + i + 1) <;> rfl

theorem stopped_succ (stop : Nat → Bool) (o n : Nat) : stopped stop o (n + 1) = (stop (o + 1) || stopped stop (o + 1) n) := by
  unfold stopped
  rw [List.range_succ_eq_map, List.any_cons, List.any_map]
  have e : ((fun i => stop (o + i + 1)) ∘ Nat.succ) = fun i => stop (o + 1 + i + 1) := by
    funext i
    simp only [Function.comp]
    congr 1
    omega
  rw [e]

theorem cyclesDone_le (stop : Nat → Bool) : ∀ (n o : Nat), cyclesDone stop o n ≤ n
  | 0, o => le_rfl
  | n + 1, o => by
    rw [cyclesDone_succ]
    have := cyclesDone_le stop n (o + 1)
    split_ifs <;> omega

theorem cyclesDone_all (stop : Nat → Bool) : ∀ (n o : Nat), stopped stop o n = false → cyclesDone stop o n = n
  | 0, o, _ => rfl
  | n + 1, o, h => by
    rw [stopped_succ, Bool.or_eq_false_iff] at h
    rw [cyclesDone_succ, if_neg (by rw [h.1]; simp), cyclesDone_all stop n (o + 1) h.2]

/-- A list of marks for consecutive cycles. -/
def marksFrom (cm : Nat → List Mark) (o k : Nat) : List Mark := (List.range k).flatMap fun i => cm (o + i + 1)

theorem marksFrom_succ (cm : Nat → List Mark) (o k : Nat) : marksFrom cm o (k + 1) = cm (o + 1) ++ marksFrom cm (o + 1) k := by
  unfold marksFrom
  rw [List.range_succ_eq_map, List.flatMap_cons, List.flatMap_map]
  congr 1
  apply List.flatMap_congr
  intro i _
  congr 1
  omega

/-- A loop over cycles. -/
theorem cycleLoop_progress {ss₀ : List Sampler} {sc₀ : ScalerStatus} {base : List Event} {adjust : Bool}
    {f : Sim → Outcome Sim} {cm : Nat → List Mark} {stop : Nat → Bool}
    (hf : ∀ {S S' : Sim} {L : List Event} {marks : List Mark} {p t : Nat}, Progress ss₀ sc₀ base marks p t adjust L S →
      f S = .ok S' → ∃ M, Progress ss₀ sc₀ base (marks ++ cm (t + 1)) (p + 1) (t + 1) adjust (L ++ M) S') :
    ∀ (n : Nat) {S S' : Sim} {L : List Event} {marks : List Mark} {p t : Nat}, Progress ss₀ sc₀ base marks p t adjust L S →
      cycleLoop f stop n S = .ok S' → ∃ M S'', Progress ss₀ sc₀ base (marks ++ marksFrom cm t (cyclesDone stop t n))
        (p + cyclesDone stop t n) (t + cyclesDone stop t n) adjust (L ++ M) S'' ∧
        S' = { S'' with interrupted := stopped stop t n }
  | 0, S, S', L, marks, p, t, h, hc => by
    injection hc with hc
    subst hc
    refine ⟨[], S, ?_, ?_⟩
    · simpa [cyclesDone_zero, marksFrom] using h
    · rw [show stopped stop t 0 = S.interrupted from h.interrupted.symm]
  | n + 1, S, S', L, marks, p, t, h, hc => by
    unfold cycleLoop at hc
    obtain ⟨S₁, h1, hc⟩ := Outcome.bind_eq_ok.mp hc
    obtain ⟨M, p1⟩ := hf h h1
    rcases Outcome.ite_eq_ok.mp hc with ⟨h0, hc⟩ | ⟨h0, hc⟩
    · injection hc with hc
      subst hc
      rw [p1.total] at h0
      rw [cyclesDone_succ, if_pos h0, stopped_succ, h0]
      refine ⟨M, S₁, ?_, rfl⟩
      rw [marksFrom_succ]
      simpa [marksFrom] using p1
    · rw [p1.total] at h0
      obtain ⟨M', S'', p2, h2⟩ := cycleLoop_progress hf n p1 hc
      rw [cyclesDone_succ, if_neg h0, stopped_succ, show stop (t + 1) = false by simpa using h0, Bool.false_or,
        marksFrom_succ]
      refine ⟨M ++ M', S'', ?_, h2⟩
      rw [show p + (cyclesDone stop (t + 1) n + 1) = p + 1 + cyclesDone stop (t + 1) n by omega,
        show t + (cyclesDone stop (t + 1) n + 1) = t + 1 + cyclesDone stop (t + 1) n by omega]
      simpa only [List.append_assoc] using p2

theorem Agrees.phase {f k : Event → Bool} {len : Nat → Nat} {L : List Event} {a b : Bool} {c : Counter}
    (h : Agrees f k len L a c) {e : Event} (hf : f e = false) (hk : k e = false)
    (he : ∀ w : Window, w.step f k len e = { w with adjusting := b }) : Agrees f k len (L ++ [e]) b c := by
  obtain ⟨h1, h2, h3, h4, h5⟩ := h
  have hw : window f k len (L ++ [e]) = { window f k len L with adjusting := b } := by
    unfold window
    rw [List.foldl_append, List.foldl_cons, List.foldl_nil]
    exact he _
  refine ⟨?_, ?_, ?_, ?_, ?_⟩
  · rw [List.countP_append, List.countP_singleton, hf]
    exact h1
  · rw [List.countP_append, List.countP_singleton, hk]
    exact h2
  · rw [hw]
  · rw [hw]; exact h4
  · rw [hw]; exact h5

/-- The averaging phase begins. -/
theorem averaging_progress {ss₀ : List Sampler} {sc₀ : ScalerStatus} {base L : List Event} {marks : List Mark}
    {performed total : Nat} {adjust : Bool} {S : Sim} (h : Progress ss₀ sc₀ base marks performed total adjust L S) :
    Progress ss₀ sc₀ base (marks ++ [.averaging]) performed total false (L ++ [.averaging])
      { S with shouldAdjust := false, log := S.log ++ [.averaging] } := by
  obtain ⟨⟨h1, h2, h3, h4, h5, h6, h7, h10, h8, h9⟩, m, p, t, i, a, c⟩ := h
  have hsa : samplersAfter ss₀ (L ++ [.averaging]) = samplersAfter ss₀ L := by
    unfold samplersAfter
    rw [List.foldl_append]
    rfl
  have hsc : scalerAfter sc₀ (L ++ [.averaging]) = scalerAfter sc₀ L := by
    unfold scalerAfter
    rw [List.foldl_append]
    rfl
  refine ⟨⟨?_, h2, h3, ?_, ?_, ?_, ?_, h10, wellAdjusted_append h8 ?_, wellScaled_append h9 ?_⟩, ?_, p, t, i, rfl,
    currentPackings_append c (by simp [isReport])⟩
  · rw [h1, List.append_assoc]
  · rw [hsa]; exact h4
  · intro g s₀ hg
    obtain ⟨old, s, c, b1, b2, b3, b4, b5, b6⟩ := h5 g s₀ hg
    exact ⟨old, s, c, by rw [hsa]; exact b1, b2, b3, b4, b5, b6.phase rfl rfl (fun _ => rfl)⟩
  · exact h6.phase rfl rfl (fun _ => rfl)
  · rw [hsc]; exact h7
  · simp [isCycle]
  · simp [isCycle]
  · rw [List.filterMap_append, m]
    rfl

/-- What runs begin with. -/
theorem start_ok {S S' : Sim} {env : Env} {T : Traits} (h : S.start env T = .ok S') :
    ∃ ss₀, setupSamplers T (S.env.combine env).samplers = .ok ss₀ ∧ (S.env.combine env).isComplete = true ∧
      S' = { S with
        env := { S.env.combine env with samplers := ss₀ }
        counters := List.replicate ss₀.length .zero
        cancelReported := List.replicate ss₀.length false
        scalingCounter := .zero
        performed := 0
        total := 0
        max := 0
        interrupted := false
        log := S.log ++ [.clear] } := by
  unfold start at h
  simp only at h
  obtain ⟨_, h1, h⟩ := Outcome.bind_eq_ok.mp h
  rw [Outcome.require_eq_ok] at h1
  obtain ⟨ss, h2, h⟩ := Outcome.bind_eq_ok.mp h
  obtain ⟨h2, -⟩ := getMoveSamplers_ok h2
  subst h2
  obtain ⟨ss₀, h3, h⟩ := Outcome.bind_eq_ok.mp h
  unfold reset at h
  obtain ⟨ss', h4, h⟩ := Outcome.bind_eq_ok.mp h
  obtain ⟨h4, -⟩ := getMoveSamplers_ok h4
  simp only at h4
  rw [h4] at h
  injection h with h
  exact ⟨ss₀, h3, h1, h.symm⟩

/-- The counters are zero and the phase of thermalisation begins. -/
theorem begin_progress {ss₀ : List Sampler} {S : Sim} {t p : ℝ} {base : List Event}
    (hl : S.log = base ++ [.thermo t p]) (hs : S.env.samplers = ss₀) (hc : S.counters = List.replicate ss₀.length .zero)
    (hsc : S.scalingCounter = .zero) (hi : S.interrupted = false) (hp : S.performed = 0) :
    Progress ss₀ S.env.scaler base [.thermalisation] 0 S.total true ([.thermo t p] ++ [.thermalisation])
      { S with shouldAdjust := true, log := S.log ++ [.thermalisation] } := by
  refine ⟨⟨?_, ?_, ?_, rfl, ?_, ?_, rfl, ?_, ?_, ?_⟩, rfl, hp, rfl, hi, rfl, ?_⟩
  · rw [hl, List.append_assoc]
  · rw [hs]
  · change S.counters.length = _
    rw [hc, List.length_replicate]
  · intro g s₀ hg
    refine ⟨s₀, s₀, .zero, hg, ?_, ?_, .refl _, fun _ => rfl, ⟨rfl, rfl, rfl, rfl, rfl⟩⟩
    · change S.env.samplers[g]? = _
      rw [hs, hg]
    · change S.counters[g]? = _
      rw [hc, List.getElem?_replicate, if_pos (List.getElem?_eq_some_iff.mp hg).1]
  · change Agrees _ _ _ _ _ S.scalingCounter
    rw [hsc]
    exact ⟨rfl, rfl, rfl, rfl, rfl⟩
  · intro _
    change S.scalingCounter.movesSince = 0
    rw [hsc]
    rfl
  · intro L₁ n P ss sc L₂ he
    have : Event.cycle n P ss sc ∈ [.thermo t p] ++ [Event.thermalisation] := by rw [he]; simp
    simp at this
  · intro L₁ n P ss sc L₂ he
    have : Event.cycle n P ss sc ∈ [.thermo t p] ++ [Event.thermalisation] := by rw [he]; simp
    simp at this
  · have h0 : CurrentPackings [] := by
      intro L₁ e L₂ he
      have := congrArg List.length he
      simp at this
    exact currentPackings_append (L := []) h0 (by simp [isReport])

/-- What `prepare` does. -/
theorem prepare_ok {S S' : Sim} {T : Traits} {o m : Nat} {b : Bool} (h : S.prepare T o m b = .ok S') :
    ∃ t p P P₁, S.P.setupForInteraction T.I = .ok P₁ ∧ P₁.toggleOverlapCounting b T.I = .ok P ∧
      S' = { S with total := o, max := m, temperature := t, pressure := p, log := S.log ++ [.thermo t p], P := P,
                    overlapsCounted := b } := by
  unfold prepare at h
  obtain ⟨S₁, h1, h⟩ := Outcome.bind_eq_ok.mp h
  unfold updateThermo at h1
  obtain ⟨_, -, h1⟩ := Outcome.bind_eq_ok.mp h1
  obtain ⟨t, -, h1⟩ := Outcome.bind_eq_ok.mp h1
  obtain ⟨p, -, h1⟩ := Outcome.bind_eq_ok.mp h1
  injection h1 with h1
  subst h1
  obtain ⟨P₁, h2, h⟩ := Outcome.bind_eq_ok.mp h
  obtain ⟨P, h3, h⟩ := Outcome.bind_eq_ok.mp h
  injection h with h
  exact ⟨t, p, P, P₁, h2, h3, h.symm⟩

/-- A whole run of `integrate`. -/
theorem integrate_progress {S S' : Sim} {env : Env} {p : IntegrationParams} {T : Traits} {stop : Nat → Bool}
    (h : S.integrate env p T stop = .ok S') :
    ∃ ss₀ L S'', setupSamplers T (S.env.combine env).samplers = .ok ss₀ ∧
      (∃ adjust, Progress ss₀ (S.env.combine env).scaler (S.log ++ [.clear]) (schedule p stop) (runCycles p stop)
        (p.cycleOffset + runCycles p stop) adjust L S'') ∧
      S' = { S'' with interrupted := stopped stop p.cycleOffset (p.thermalisationCycles + p.averagingCycles) } := by
  unfold integrate at h
  obtain ⟨_, h0, ha⟩ := Outcome.bind_eq_ok.mp h
  obtain ⟨S₁, h1, hb⟩ := Outcome.bind_eq_ok.mp ha
  obtain ⟨S₂, h2, hc⟩ := Outcome.bind_eq_ok.mp hb
  obtain ⟨n, h3, hd⟩ := Outcome.bind_eq_ok.mp hc
  obtain ⟨_, h4, he⟩ := Outcome.bind_eq_ok.mp hd
  obtain ⟨S₃, h5, hf⟩ := Outcome.bind_eq_ok.mp he
  clear h ha hb hc hd he h3 h4 h0
  obtain ⟨ss₀, b1, -, rfl⟩ := start_ok h1
  obtain ⟨t, pr, P, P₁, -, -, rfl⟩ := prepare_ok h2
  have hst : stopped stop p.cycleOffset (p.thermalisationCycles + p.averagingCycles) =
      (stopped stop p.cycleOffset p.thermalisationCycles ||
        stopped stop (p.cycleOffset + p.thermalisationCycles) p.averagingCycles) := by
    unfold stopped
    rw [List.range_add, List.any_append, List.any_map]
    congr 2
    funext i
    simp only [Function.comp]
    congr 1
    omega
  have p0 := begin_progress (ss₀ := ss₀) (t := t) (p := pr) (base := S.log ++ [.clear])
    (S := { S with
        env := { S.env.combine env with samplers := ss₀ }
        counters := List.replicate ss₀.length .zero
        cancelReported := List.replicate ss₀.length false
        scalingCounter := .zero
        performed := 0
        total := p.cycleOffset
        max := p.cycleOffset + p.thermalisationCycles + p.averagingCycles
        interrupted := false
        temperature := t
        pressure := pr
        log := S.log ++ [.clear] ++ [.thermo t pr]
        P := P
        overlapsCounted := false }) rfl rfl rfl rfl rfl rfl
  unfold thermalisationPhase at h5
  obtain ⟨M₁, S₄, p1, h6⟩ := cycleLoop_progress (cm := cycleMarks p.toRunParams none)
    (fun h hc => thermalisationCycle_progress h hc) _ p0 h5
  have hS₃ : S₃.interrupted = stopped stop p.cycleOffset p.thermalisationCycles := by rw [h6]
  rcases Outcome.ite_eq_ok.mp hf with ⟨hi, h⟩ | ⟨hi, h⟩
  · injection h with h
    subst h
    rw [hS₃] at hi
    refine ⟨ss₀, [.thermo t pr] ++ [.thermalisation] ++ M₁, S₄, b1, ⟨true, ?_⟩, ?_⟩
    · unfold schedule runCycles
      rw [if_pos hi, if_pos hi]
      have := p1
      simp only [Nat.zero_add] at this
      simp only [List.append_nil, Nat.add_zero]
      exact this
    · rw [h6, hst, hi]
      rfl
  · have hi' : stopped stop p.cycleOffset p.thermalisationCycles = false := by
      rw [hS₃] at hi
      simpa using hi
    have hS₄ : S₃ = S₄ := by
      rw [h6, hi', ← p1.interrupted]
    subst hS₄
    unfold averagingPhase at h
    obtain ⟨M₂, S₅, p2, h7⟩ := cycleLoop_progress (cm := cycleMarks p.toRunParams (some p.averagingEvery))
      (fun h hc => averagingCycle_progress h hc) _ (averaging_progress p1) h
    refine ⟨ss₀, [.thermo t pr] ++ [.thermalisation] ++ M₁ ++ [.averaging] ++ M₂, S₅, b1, ⟨false, ?_⟩, ?_⟩
    · unfold schedule runCycles
      rw [if_neg (by rw [hi']; simp), if_neg (by rw [hi']; simp)]
      have := p2
      simp only [Nat.zero_add, cyclesDone_all stop _ _ hi'] at this
      rw [cyclesDone_all stop _ _ hi']
      rw [show p.cycleOffset + (p.thermalisationCycles + cyclesDone stop (p.cycleOffset + p.thermalisationCycles) p.averagingCycles)
        = p.cycleOffset + p.thermalisationCycles + cyclesDone stop (p.cycleOffset + p.thermalisationCycles) p.averagingCycles by omega]
      convert this using 1
      simp [phaseMarks, marksFrom]
    · rw [h7, hst, hi', cyclesDone_all stop _ _ hi', Bool.false_or]

end Sim

end Rampack
