import Verif.Sim.ReportLemmas
import Verif.Sim.RelaxTotal
import Verif.Sim.Demo
/-
Theorems on lengths and schedules of runs (C25), adaptation of step sizes (C26) and statistics of moves (C28).

A run is `S.integrate env p T stop` or `S.relaxOverlaps env p T stop fuel`: the simulation `S` with the environment overridden by
`env`, run parameters `p`, shape traits `T`; `stop n` tells that an interruption is requested when cycle number `n` ends. What the
run does is in the log of events, which a run begins with a `clear`.
-/
namespace Rampack

open Rampack.Spec Rampack.Packing Rampack.Sim

/-! ### Examples of runs -/

/-- Three thermalisation and six averaging cycles after the cycle number 10. -/
def demoParams : IntegrationParams := ⟨⟨2, 1, 3, 10, 2⟩, 3, 6, 2⟩

theorem demoParams_legal : Legal demoParams := ⟨by decide, by decide, by decide, by decide, by decide, by decide⟩

/-- A run of two touching balls, with translations, rotations, rototranslations, flips and scaling. -/
theorem demo_run (p : IntegrationParams) (hp : Legal p) (stop : Nat → Bool) :
    ∃ S S' : Sim, S.integrate Env.empty p (demoTraits (1 / 40)) stop = .ok S' ∧ mols S.P = twoShapes ∧
      Live (demoTraits (1 / 40)) S.P.size S' := by
  obtain ⟨P, S, P1, k, -, -, hm, hr, h1, h2, h3, -⟩ := demo_ready (r := 1 / 40) (by norm_num) (by norm_num) (.inl ⟨rfl, rfl, rfl⟩)
  obtain ⟨P1', e1, h⟩ := hr.integrate hp stop
  rw [h1] at e1
  injection e1 with e1
  subst e1
  rcases h with ⟨k', e2, hk, -⟩ | ⟨-, S', h, hl⟩
  · rw [h2] at e2
    injection e2 with e2
    subst e2
    exact absurd (h3.mp hk) (by norm_num)
  · exact ⟨S, S', h, hm, hl⟩

/-- The same with two domains and without scaling. -/
theorem demo_run_domains (p : IntegrationParams) (hp : Legal p) (stop : Nat → Bool) :
    ∃ S S' : Sim, S.integrate Env.empty p (demoTraits (1 / 40)) stop = .ok S' ∧ mols S.P = twoShapes ∧ S.divs = ⟨2, 1, 1⟩ := by
  obtain ⟨P, S, P1, k, -, hmk, hm, hr, h1, h2, h3, -⟩ := demo_ready (r := 1 / 40) (by norm_num) (by norm_num) (.inr ⟨rfl, rfl, rfl⟩)
  obtain ⟨P1', e1, h⟩ := hr.integrate hp stop
  rw [h1] at e1
  injection e1 with e1
  subst e1
  rcases h with ⟨k', e2, hk, -⟩ | ⟨-, S', h, hl⟩
  · rw [h2] at e2
    injection e2 with e2
    subst e2
    exact absurd (h3.mp hk) (by norm_num)
  · refine ⟨S, S', h, hm, ?_⟩
    unfold Sim.make at hmk
    obtain ⟨_, -, hmk⟩ := Outcome.bind_eq_ok.mp hmk
    obtain ⟨_, -, hmk⟩ := Outcome.bind_eq_ok.mp hmk
    obtain ⟨_, -, hmk⟩ := Outcome.bind_eq_ok.mp hmk
    injection hmk with hmk
    rw [← hmk]

/-- A relaxation of two overlapping balls which is interrupted after the cycle number 14, if it does not end before. -/
theorem demo_relax : ∃ S S' : Sim, S.relaxOverlaps Env.empty demoParams.toRunParams (demoTraits (1 / 30)) (fun n => n == 14) 10 = .ok S' ∧
    mols S.P = twoShapes := by
  obtain ⟨P, S, P1, k, -, -, hm, hr, h1, h2, h3, -⟩ := demo_ready (r := 1 / 30) (by norm_num) (by norm_num) (.inl ⟨rfl, rfl, rfl⟩)
  obtain ⟨S', h⟩ := hr.relaxOverlaps (p := demoParams.toRunParams) (stop := fun n => n == 14) (j := 3) (fuel := 10) (by decide)
    (by decide) (by decide) (by decide) (by decide)
  exact ⟨S, S', h, hm⟩

/-! ### C25 -/

/-- C25: a completed run does the cycles, renormalisations of orientations, snapshots, averages and inline infos in its schedule
(`schedule`), in this order and no others; the numbers of cycles which the simulation reports and whether it was interrupted are
in line with it, and what is shown or averaged is the packing at that moment. -/
theorem C25_schedule {S S' : Sim} {env : Env} {p : IntegrationParams} {T : Traits} {stop : Nat → Bool}
    (h : S.integrate env p T stop = .ok S') :
    ∃ L, S'.log = S.log ++ .clear :: L ∧ L.filterMap mark = schedule p stop ∧ CurrentPackings L ∧
      S'.performed = runCycles p stop ∧ S'.total = p.cycleOffset + runCycles p stop ∧
      S'.interrupted = stopped stop p.cycleOffset (p.thermalisationCycles + p.averagingCycles) := by
  obtain ⟨ss₀, L, S'', -, ⟨adjust, hp⟩, rfl⟩ := integrate_progress h
  refine ⟨L, ?_, hp.marks, hp.current, hp.performed, hp.total, rfl⟩
  show S''.log = _
  rw [hp.run.log]
  simp

/-- C25, in numbers: cycles are numbered consecutively after the offset, snapshots are taken, and passed to every recorder, after
those divisible by the snapshot period, and values are averaged as many times as there are averaging cycles divisible by the
averaging period. -/
theorem C25_numbers {S S' : Sim} {env : Env} {p : IntegrationParams} {T : Traits} {stop : Nat → Bool}
    (h : S.integrate env p T stop = .ok S') :
    ∃ L, S'.log = S.log ++ .clear :: L ∧
      cycleNumbers L = List.range' (p.cycleOffset + 1) (runCycles p stop) ∧
      snapshotNumbers L = (List.range' (p.cycleOffset + 1) (runCycles p stop)).filter (fun n => decide (p.snapshotEvery ∣ n)) ∧
      (∀ r, r < p.recorders → recordedNumbers r L = snapshotNumbers L) ∧
      L.countP isAveraged = (List.range' (p.cycleOffset + 1) (runCycles p stop)).countP
        (fun n => decide (p.cycleOffset + p.thermalisationCycles < n ∧ p.averagingEvery ∣ n)) := by
  obtain ⟨L, h1, h2, -⟩ := C25_schedule h
  obtain ⟨h3, h4, h5, h6⟩ := schedule_numbers p stop
  refine ⟨L, h1, ?_, ?_, ?_, ?_⟩
  · rw [cycleNumbers_marks, h2, h3]
  · rw [snapshotNumbers_marks, h2, h4]
  · intro r hr
    rw [recordedNumbers_marks, snapshotNumbers_marks, h2, h5 r hr, h4]
  · rw [averaged_marks, h2, h6]

/-- C25, without interruptions: exactly the requested numbers of cycles. -/
theorem C25_uninterrupted {S S' : Sim} {env : Env} {p : IntegrationParams} {T : Traits} {stop : Nat → Bool}
    (h : S.integrate env p T stop = .ok S')
    (hs : ∀ n, p.cycleOffset < n → n ≤ p.cycleOffset + p.thermalisationCycles + p.averagingCycles → stop n = false) :
    runCycles p stop = p.thermalisationCycles + p.averagingCycles ∧ S'.performed = p.thermalisationCycles + p.averagingCycles ∧
      S'.interrupted = false := by
  have hst : ∀ o n, p.cycleOffset ≤ o → o + n ≤ p.cycleOffset + p.thermalisationCycles + p.averagingCycles → stopped stop o n = false := by
    intro o n h1 h2
    unfold stopped
    rw [List.any_eq_false]
    intro i hi
    rw [hs _ (by omega) (by have := List.mem_range.mp hi; omega)]
    simp
  have h0 := hst p.cycleOffset p.thermalisationCycles le_rfl (by omega)
  have hr : runCycles p stop = p.thermalisationCycles + p.averagingCycles := by
    unfold runCycles
    rw [h0, cyclesDone_all _ _ _ h0, cyclesDone_all _ _ _ (hst (p.cycleOffset + p.thermalisationCycles) p.averagingCycles (by omega) (by omega))]
    rfl
  obtain ⟨L, -, -, -, h3, -, h5⟩ := C25_schedule h
  exact ⟨hr, by rw [h3, hr], by rw [h5]; exact hst _ _ le_rfl (by omega)⟩

/-- C25, with an interruption: the run ends after the cycle in which it comes. -/
theorem C25_interrupted {S S' : Sim} {env : Env} {p : IntegrationParams} {T : Traits} {stop : Nat → Bool} {k : Nat}
    (h : S.integrate env p T stop = .ok S') (hk : 0 < k) (hk' : k ≤ p.thermalisationCycles + p.averagingCycles)
    (hstop : stop (p.cycleOffset + k) = true) (hs : ∀ i, 0 < i → i < k → stop (p.cycleOffset + i) = false) :
    S'.performed = k ∧ S'.total = p.cycleOffset + k ∧ S'.interrupted = true := by
  have key : ∀ (n o j : Nat), 0 < j → j ≤ n → stop (o + j) = true → (∀ i, 0 < i → i < j → stop (o + i) = false) → cyclesDone stop o n = j := by
    intro n
    induction n with
    | zero => intro o j h1 h2; omega
    | succ n ih =>
      intro o j h1 h2 h3 h4
      rw [cyclesDone_succ]
      by_cases hj : j = 1
      · subst hj; rw [if_pos h3]
      · rw [if_neg (by rw [h4 1 (by omega) (by omega)]; simp), ih (o + 1) (j - 1) (by omega) (by omega)]
        · omega
        · rw [← h3]; congr 1; omega
        · intro i hi hij
          rw [← h4 (i + 1) (by omega) (by omega)]; congr 1; omega
  have any : ∀ (n o j : Nat), 0 < j → j ≤ n → stop (o + j) = true → stopped stop o n = true := by
    intro n o j h1 h2 h3
    unfold stopped
    rw [List.any_eq_true]
    exact ⟨j - 1, List.mem_range.mpr (by omega), by rw [← h3]; congr 1; omega⟩
  have hr : runCycles p stop = k := by
    unfold runCycles
    by_cases hkt : k ≤ p.thermalisationCycles
    · rw [any _ _ k hk hkt hstop, key _ _ k hk hkt hstop hs]; rfl
    · have h0 : stopped stop p.cycleOffset p.thermalisationCycles = false := by
        unfold stopped
        rw [List.any_eq_false]
        intro i hi
        have := List.mem_range.mp hi
        have := hs (i + 1) (by omega) (by omega)
        rw [← Nat.add_assoc] at this
        rw [this]
        simp
      rw [h0, cyclesDone_all _ _ _ h0, key _ (p.cycleOffset + p.thermalisationCycles) (k - p.thermalisationCycles) (by omega) (by omega)]
      · simp only [Bool.false_eq_true, if_false]; omega
      · rw [← hstop]; congr 1; omega
      · intro i hi hij
        rw [← hs (p.thermalisationCycles + i) (by omega) (by omega)]; congr 1; omega
  obtain ⟨L, -, -, -, h3, h4, h5⟩ := C25_schedule h
  exact ⟨by rw [h3, hr], by rw [h4, hr], by rw [h5]; exact any _ _ k hk hk' hstop⟩

/-- C25 for overlap relaxation: the number `k` of cycles is not known beforehand, and their schedule is that of a thermalisation of
`k` cycles; an interruption ends it after the current cycle. -/
theorem C25_relaxation {S S' : Sim} {env : Env} {p : RunParams} {T : Traits} {stop : Nat → Bool} {fuel : Nat}
    (h : S.relaxOverlaps env p T stop fuel = .ok S') :
    ∃ L k, S'.log = S.log ++ .clear :: L ∧ L.filterMap mark = .thermalisation :: phaseMarks p none p.cycleOffset k ∧ CurrentPackings L ∧
      cycleNumbers L = List.range' (p.cycleOffset + 1) k ∧
      snapshotNumbers L = (List.range' (p.cycleOffset + 1) k).filter (fun n => decide (p.snapshotEvery ∣ n)) ∧
      S'.performed = k ∧ S'.total = p.cycleOffset + k ∧ (∀ i, 0 < i → i < k → stop (p.cycleOffset + i) = false) ∧
      (S'.interrupted = true ↔ 0 < k ∧ stop (p.cycleOffset + k) = true) := by
  obtain ⟨ss₀, L, k, S'', b, -, hp, rfl, h4, h5, -⟩ := relax_progress h
  refine ⟨L, k, ?_, hp.marks, hp.current, ?_, ?_, hp.performed, hp.total, h4, ?_⟩
  · show S''.log = _
    rw [hp.run.log]
    simp
  · rw [cycleNumbers_marks, hp.marks, List.filterMap_cons, phaseMarks_cycle]
    rfl
  · rw [snapshotNumbers_marks, hp.marks, List.filterMap_cons, phaseMarks_snapshot]
    rfl
  · show b = true ↔ _
    rcases h5 with ⟨rfl, g2, g3⟩ | ⟨rfl, g2, -⟩
    · exact ⟨fun _ => ⟨g2, g3⟩, fun _ => rfl⟩
    · constructor
      · intro h; cases h
      · rintro ⟨g3, g4⟩
        rw [g2 g3] at g4
        cases g4

/-- A complete run of nine cycles: snapshots after cycles 12, 14, 16, 18 are passed to both recorders, values are averaged three times. -/
example : ∃ (S S' : Sim) (L : List Event), S.integrate Env.empty demoParams (demoTraits (1 / 40)) (fun _ => false) = .ok S' ∧
    S'.log = S.log ++ .clear :: L ∧ cycleNumbers L = [11, 12, 13, 14, 15, 16, 17, 18, 19] ∧ snapshotNumbers L = [12, 14, 16, 18] ∧
    recordedNumbers 1 L = [12, 14, 16, 18] ∧ L.countP isAveraged = 3 := by
  obtain ⟨S, S', h, -⟩ := demo_run demoParams demoParams_legal (fun _ => false)
  obtain ⟨L, h1, h2, h3, h4, h5⟩ := C25_numbers h
  have hr : runCycles demoParams (fun _ => false) = 9 := by decide
  rw [hr] at h2 h3 h5
  have h3' : snapshotNumbers L = [12, 14, 16, 18] := by rw [h3]; decide
  exact ⟨S, S', L, h, h1, by rw [h2]; decide, h3', by rw [h4 1 (by decide), h3'], by rw [h5]; decide⟩

example : ∃ S S' : Sim, S.integrate Env.empty demoParams (demoTraits (1 / 40)) (fun _ => false) = .ok S' ∧ S'.performed = 9 := by
  obtain ⟨S, S', h, -⟩ := demo_run demoParams demoParams_legal (fun _ => false)
  exact ⟨S, S', h, (C25_uninterrupted h (fun _ _ _ => rfl)).2.1⟩

/-- Interrupted when five cycles are done, i.e. in averaging. -/
example : ∃ S S' : Sim, S.integrate Env.empty demoParams (demoTraits (1 / 40)) (fun n => n == 15) = .ok S' ∧ S'.performed = 5 ∧
    S'.interrupted = true := by
  obtain ⟨S, S', h, -⟩ := demo_run demoParams demoParams_legal (fun n => n == 15)
  have := C25_interrupted (k := 5) h (by decide) (by decide) (by decide) (by
    intro i h1 h2
    show (10 + i == 15) = false
    simp; omega)
  exact ⟨S, S', h, this.1, this.2.2⟩

example : ∃ (S S' : Sim) (k : Nat), S.relaxOverlaps Env.empty demoParams.toRunParams (demoTraits (1 / 30)) (fun n => n == 14) 10 = .ok S' ∧
    S'.performed = k ∧ S'.total = 10 + k := by
  obtain ⟨S, S', h, -⟩ := demo_relax
  obtain ⟨L, k, -, -, -, -, -, h1, h2, -⟩ := C25_relaxation h
  exact ⟨S, S', k, h, h1, h2⟩

/-- What the conditions checked at the beginning of a run miss: the period of snapshots may be zero. Then the run goes wrong after
its first cycle. -/
theorem C25_zero_period_violated : ∃ (S : Sim) (p : IntegrationParams) (T : Traits), Ready T S Env.empty T.I ∧ checkParams p = .ok () ∧
    p.snapshotEvery = 0 ∧ ∀ stop, S.integrate Env.empty p T stop = .ub := by
  obtain ⟨P, S, P1, k, -, -, hm, hr, h1, h2, h3, -⟩ := demo_ready (r := 1 / 40) (by norm_num) (by norm_num) (.inl ⟨rfl, rfl, rfl⟩)
  refine ⟨S, { demoParams with snapshotEvery := 0 }, demoTraits (1 / 40), hr, rfl, rfl, fun stop => ?_⟩
  obtain ⟨S₁, S₂, e1, e2, hl, -⟩ := hr.live 10 19 false
  have ek : S₂.P.countTotalOverlaps (demoTraits (1 / 40)).I true = .ok 0 := by
    obtain ⟨P1', e3, h⟩ := hr.integrate demoParams_legal stop
    rw [h1] at e3
    injection e3 with e3
    subst e3
    rcases h with ⟨k', e4, hk, -⟩ | ⟨-, S', h, -⟩
    · rw [h2] at e4
      injection e4 with e4
      subst e4
      exact absurd (h3.mp hk) (by norm_num)
    · unfold Sim.integrate at h
      obtain ⟨u0, -, h⟩ := Outcome.bind_eq_ok.mp h
      obtain ⟨S₁', f1, h⟩ := Outcome.bind_eq_ok.mp h
      rw [e1] at f1
      injection f1 with f1
      subst f1
      obtain ⟨S₂', f2, h⟩ := Outcome.bind_eq_ok.mp h
      have e2' : S₁.prepare (demoTraits (1 / 40)) demoParams.cycleOffset (demoParams.cycleOffset + demoParams.thermalisationCycles + demoParams.averagingCycles) false = .ok S₂ := e2
      rw [e2'] at f2
      injection f2 with f2
      subst f2
      obtain ⟨n, f3, h⟩ := Outcome.bind_eq_ok.mp h
      obtain ⟨u, f4, h⟩ := Outcome.bind_eq_ok.mp h
      rw [Outcome.require_eq_ok, decide_eq_true_eq] at f4
      rw [f3, f4]
  obtain ⟨S3, e3, a3⟩ := (hl.phase true (S₂.log ++ [.thermalisation])).performCycle
  obtain ⟨S4, e4, a4⟩ := a3.updateThermo
  obtain ⟨S5, e5, a5⟩ := a4.fixStep (p := { demoParams.toRunParams with snapshotEvery := 0 }) (by decide)
  unfold Sim.integrate
  have e0 : checkParams { demoParams with snapshotEvery := 0 } = .ok () := rfl
  have e2' : S₁.prepare (demoTraits (1 / 40)) 10 (10 + 3 + 6) false = .ok S₂ := e2
  rw [e0, Outcome.ok_bind, e1, Outcome.ok_bind]
  show (S₁.prepare (demoTraits (1 / 40)) 10 (10 + 3 + 6) false >>= _) = _
  rw [e2', Outcome.ok_bind, ek, Outcome.ok_bind]
  show (thermalisationPhase _ (demoTraits (1 / 40)) stop S₂ >>= _) = _
  have : thermalisationPhase { demoParams with snapshotEvery := 0 } (demoTraits (1 / 40)) stop S₂ = .ub := by
    unfold thermalisationPhase
    show Sim.cycleLoop _ stop (2 + 1) _ = _
    simp only [Sim.cycleLoop]
    unfold Sim.thermalisationCycle
    rw [e3, Outcome.ok_bind, e4, Outcome.ok_bind]
    have e5' : Sim.fixStep { demoParams with snapshotEvery := 0 }.toRunParams (demoTraits (1 / 40)).I S4 = .ok S5 := e5
    rw [e5', Outcome.ok_bind]
    rfl
  rw [this]
  rfl

/-! ### C26 -/

/-- C26: in a completed run, all step sizes change as `WellAdjusted` and `WellScaled` say: only at the end of a cycle of thermalisation
in which the evaluation window of the group is full, by an increase if the acceptance rate in the window is above 0.2, by a decrease
if it is below 0.1. Step sizes after the run are those in the log. -/
theorem C26_adjustment {S S' : Sim} {env : Env} {p : IntegrationParams} {T : Traits} {stop : Nat → Bool}
    (h : S.integrate env p T stop = .ok S') :
    ∃ ss₀ L, setupSamplers T (S.env.combine env).samplers = .ok ss₀ ∧ S'.log = S.log ++ .clear :: L ∧
      WellAdjusted ss₀ L ∧ WellScaled (S.env.combine env).scaler L ∧
      (∀ (g : Nat) (s : Sampler), (samplersAfter ss₀ L)[g]? = some s → ∃ s', S'.env.samplers[g]? = some s' ∧ s'.stepSizes = s.stepSizes) ∧
      S'.env.scaler = scalerAfter (S.env.combine env).scaler L := by
  obtain ⟨ss₀, L, S'', h0, ⟨adjust, hp⟩, rfl⟩ := integrate_progress h
  refine ⟨ss₀, L, h0, ?_, hp.run.adjusted, hp.run.scaled, ?_, hp.run.scaler⟩
  · show S''.log = _
    rw [hp.run.log]
    simp
  · intro g s hs
    have hg : g < ss₀.length := by rw [← hp.run.lenA]; exact (List.getElem?_eq_some_iff.mp hs).1
    obtain ⟨old, s', c, g1, g2, -, g4, -⟩ := hp.run.group g _ (List.getElem?_eq_getElem hg)
    rw [hs] at g1
    injection g1 with g1
    subst g1
    exact ⟨s', g2, g4.1⟩

/-- C26: in averaging, and after it, step sizes are what they were at its beginning. -/
theorem C26_averaging {S S' : Sim} {env : Env} {p : IntegrationParams} {T : Traits} {stop : Nat → Bool}
    (h : S.integrate env p T stop = .ok S') :
    ∃ ss₀ L, setupSamplers T (S.env.combine env).samplers = .ok ss₀ ∧ S'.log = S.log ++ .clear :: L ∧
      ∀ L₁ L₂, L = L₁ ++ .averaging :: L₂ → ∀ M, M <+: L₂ →
        scalerAfter (S.env.combine env).scaler (L₁ ++ .averaging :: M) = scalerAfter (S.env.combine env).scaler L₁ ∧
        ∀ (g : Nat) (s s' : Sampler), (samplersAfter ss₀ L₁)[g]? = some s → (samplersAfter ss₀ (L₁ ++ .averaging :: M))[g]? = some s' →
          s'.stepSizes = s.stepSizes := by
  obtain ⟨ss₀, L, S'', h0, ⟨adjust, hp⟩, rfl⟩ := integrate_progress h
  refine ⟨ss₀, L, h0, ?_, ?_⟩
  · show S''.log = _
    rw [hp.run.log]
    simp
  · intro L₁ L₂ hL M hM
    have ha := after_averaging hp.marks hL
    exact ⟨frozen_scaler hp.run.scaled ha hL M hM, (frozen_samplers hp.run.adjusted (samplersAfter_length hp.run.adjusted) ha hL M hM).2⟩

/-- C26 for overlap relaxation, which is like thermalisation. -/
theorem C26_relaxation {S S' : Sim} {env : Env} {p : RunParams} {T : Traits} {stop : Nat → Bool} {fuel : Nat}
    (h : S.relaxOverlaps env p T stop fuel = .ok S') :
    ∃ ss₀ L, setupSamplers T (S.env.combine env).samplers = .ok ss₀ ∧ S'.log = S.log ++ .clear :: L ∧
      WellAdjusted ss₀ L ∧ WellScaled (S.env.combine env).scaler L ∧ S'.env.scaler = scalerAfter (S.env.combine env).scaler L := by
  obtain ⟨ss₀, L, k, S'', b, h0, hp, rfl, -⟩ := relax_progress h
  refine ⟨ss₀, L, h0, ?_, hp.run.adjusted, hp.run.scaled, hp.run.scaler⟩
  show S''.log = _
  rw [hp.run.log]
  simp

example : ∃ (S S' : Sim) (ss₀ : List Sampler) (L : List Event),
    S.integrate Env.empty demoParams (demoTraits (1 / 40)) (fun _ => false) = .ok S' ∧ S'.log = S.log ++ .clear :: L ∧
    WellAdjusted ss₀ L ∧ cycleNumbers L = [11, 12, 13, 14, 15, 16, 17, 18, 19] ∧ ∃ L₁ L₂, L = L₁ ++ .averaging :: L₂ := by
  obtain ⟨S, S', h, -⟩ := demo_run demoParams demoParams_legal (fun _ => false)
  obtain ⟨ss₀, L, -, h1, h2, -⟩ := C26_adjustment h
  obtain ⟨L', h3, h4, -⟩ := C25_numbers h
  obtain ⟨L'', h5, h6, -⟩ := C25_schedule h
  rw [h1] at h3 h5
  have e : L = L' := by simpa using h3
  have e' : L = L'' := by simpa using h5
  have hr : runCycles demoParams (fun _ => false) = 9 := by decide
  rw [hr] at h4
  refine ⟨S, S', ss₀, L, h, h1, h2, by rw [e, h4]; decide, ?_⟩
  have hm : Mark.averaging ∈ L.filterMap mark := by
    rw [e', h6]
    unfold schedule
    have : stopped (fun _ => false) demoParams.cycleOffset demoParams.thermalisationCycles = false := by decide
    rw [this]
    simp
  obtain ⟨ev, hev, hmark⟩ := List.mem_filterMap.mp hm
  have : ev = .averaging := by
    cases ev <;> simp [mark] at hmark
    rfl
  subst this
  exact List.append_of_mem hev

example : ∃ (S S' : Sim) (ss₀ : List Sampler) (L : List Event),
    S.relaxOverlaps Env.empty demoParams.toRunParams (demoTraits (1 / 30)) (fun n => n == 14) 10 = .ok S' ∧ S'.log = S.log ++ .clear :: L ∧
    WellAdjusted ss₀ L := by
  obtain ⟨S, S', h, -⟩ := demo_relax
  obtain ⟨ss₀, L, -, h1, h2, -⟩ := C26_relaxation h
  exact ⟨S, S', ss₀, L, h, h1, h2⟩

/-! ### C28 -/

/-- C28: after a run, the statistics of a group tell how many of its moves were tried and accepted in the whole run, in whichever
domain and window, and the current step sizes; those of scaling follow. -/
theorem C28_statistics {S S' : Sim} {env : Env} {p : IntegrationParams} {T : Traits} {stop : Nat → Bool} {l : List Stats}
    (h : S.integrate env p T stop = .ok S') (hs : S'.getMovesStatistics = .ok l) :
    ∃ ss₀ L, setupSamplers T (S.env.combine env).samplers = .ok ss₀ ∧ S'.log = S.log ++ .clear :: L ∧
      (∀ g, g < ss₀.length → ∃ x s, l[g]? = some x ∧ x.total = L.countP (isTried g) ∧ x.accepted = L.countP (isAccepted g) ∧
        (samplersAfter ss₀ L)[g]? = some s ∧ s.stepSizes = .ok x.steps) ∧
      l.drop ss₀.length = match scalerAfter (S.env.combine env).scaler L with
        | .enabled s => [⟨L.countP isTriedScaling, L.countP isAcceptedScaling, [s.step]⟩]
        | _ => [] := by
  obtain ⟨ss₀, L, S'', h0, ⟨adjust, hp⟩, rfl⟩ := integrate_progress h
  obtain ⟨h1, h2⟩ := runInv_stats hp.run (l := l) hs
  refine ⟨ss₀, L, h0, ?_, h1, h2⟩
  show S''.log = _
  rw [hp.run.log]
  simp

/-- The statistics can be had after the run of the example. -/
example : ∃ (S S' : Sim) (l : List Stats) (L : List Event) (x : Stats),
    S.integrate Env.empty demoParams (demoTraits (1 / 40)) (fun _ => false) = .ok S' ∧ S'.getMovesStatistics = .ok l ∧
    S'.log = S.log ++ .clear :: L ∧ l[0]? = some x ∧ x.total = L.countP (isTried 0) := by
  obtain ⟨P, S, P1, k, -, -, hm, hr, h1, h2, h3, -⟩ := demo_ready (r := 1 / 40) (by norm_num) (by norm_num) (.inl ⟨rfl, rfl, rfl⟩)
  obtain ⟨P1', e1, h⟩ := hr.integrate demoParams_legal (fun _ => false)
  rw [h1] at e1
  injection e1 with e1
  subst e1
  rcases h with ⟨k', e2, hk, -⟩ | ⟨-, S', h, hl⟩
  · rw [h2] at e2
    injection e2 with e2
    subst e2
    exact absurd (h3.mp hk) (by norm_num)
  · obtain ⟨ss₀, L, S'', h0, ⟨adjust, hp⟩, rfl⟩ := integrate_progress h
    have hlen : 0 < ss₀.length := by rw [← hp.run.len]; exact List.length_pos_of_ne_nil hl.groups
    obtain ⟨l, e⟩ := stats_total hl (by show S''.env.samplers.length = S''.counters.length; rw [hp.run.len, hp.run.lenC])
    obtain ⟨ss₀', L', g0, g1, g2, -⟩ := C28_statistics h e
    rw [h0] at g0
    injection g0 with g0
    subst g0
    obtain ⟨x, s, g3, g4, -⟩ := g2 0 hlen
    exact ⟨S, _, l, L', x, h, e, g1, g3, g4⟩

/-- C28 for overlap relaxation. -/
theorem C28_relaxation {S S' : Sim} {env : Env} {p : RunParams} {T : Traits} {stop : Nat → Bool} {fuel : Nat} {l : List Stats}
    (h : S.relaxOverlaps env p T stop fuel = .ok S') (hs : S'.getMovesStatistics = .ok l) :
    ∃ ss₀ L, setupSamplers T (S.env.combine env).samplers = .ok ss₀ ∧ S'.log = S.log ++ .clear :: L ∧
      (∀ g, g < ss₀.length → ∃ x s, l[g]? = some x ∧ x.total = L.countP (isTried g) ∧ x.accepted = L.countP (isAccepted g) ∧
        (samplersAfter ss₀ L)[g]? = some s ∧ s.stepSizes = .ok x.steps) ∧
      l.drop ss₀.length = match scalerAfter (S.env.combine env).scaler L with
        | .enabled s => [⟨L.countP isTriedScaling, L.countP isAcceptedScaling, [s.step]⟩]
        | _ => [] := by
  obtain ⟨ss₀, L, k, S'', b, h0, hp, rfl, -⟩ := relax_progress h
  obtain ⟨h1, h2⟩ := runInv_stats hp.run (l := l) hs
  refine ⟨ss₀, L, h0, ?_, h1, h2⟩
  show S''.log = _
  rw [hp.run.log]
  simp

end Rampack
