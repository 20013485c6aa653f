import Verif.Frontend.CasinoEnvLemmas
import Verif.Sim.Demo
/-
C83: each run is performed at the temperature and the pressure given for it.
-/
namespace Rampack

open Spec

/-- **C83** In an integration the temperature and the pressure in each cycle are those which the parameters have at the number of cycles performed before
it, but from the beginning of the averaging on they stay as they are then. They are also those told last to the observables. -/
theorem C83_integration {S S' : Sim} {env : Env} {p : Sim.IntegrationParams} {T : Traits} {stop : Nat → Bool} (h : S.integrate env p T stop = .ok S') :
    ∃ L, S'.log = S.log ++ .clear :: L ∧ thermoAfter L = some (S'.temperature, S'.pressure) ∧
      CyclesInForce (S.env.combine env) (p.cycleOffset + p.thermalisationCycles + p.averagingCycles)
        (fun n => min (n - 1) (p.cycleOffset + p.thermalisationCycles)) L := by
  obtain ⟨c, k, L, t, -⟩ := Sim.integrate_thermal h
  exact ⟨L, by rw [t.log, List.append_assoc]; rfl, t.last, t.past⟩

/-- **C83** The same for relaxation of overlaps, where parameters change to the end. -/
theorem C83_relaxation {S S' : Sim} {env : Env} {p : Sim.RunParams} {T : Traits} {stop : Nat → Bool} {fuel : Nat}
    (h : S.relaxOverlaps env p T stop fuel = .ok S') :
    ∃ L, S'.log = S.log ++ .clear :: L ∧ thermoAfter L = some (S'.temperature, S'.pressure) ∧
      CyclesInForce (S.env.combine env) sizeMax (fun n => n - 1) L := by
  obtain ⟨c, k, L, t⟩ := Sim.relaxOverlaps_thermal h
  exact ⟨L, by rw [t.log, List.append_assoc]; rfl, t.last, t.past⟩

namespace Input

variable {X : Type}

/-- **C83** A parameter passes the verification exactly if it is constant in the averaging phase. -/
theorem C83_verified (p : Param) (r : IntegrationRun X) (offset : Nat) (h0 : r.averagingCycles ≠ some 0) :
    verifyDynamicParameter p r offset = .ok () ↔
      ∃ x, p.value (r.thermalizationCycles.getD 0 + offset) (r.thermalizationCycles.getD 0 + offset + r.averagingCycles.getD 0) = .ok x ∧
        ∀ i, i < r.averagingCycles.getD 0 →
          p.value (r.thermalizationCycles.getD 0 + offset + i) (r.thermalizationCycles.getD 0 + offset + r.averagingCycles.getD 0) = .ok x := by
  unfold verifyDynamicParameter
  rw [if_neg h0]
  simp only
  constructor
  · intro h
    obtain ⟨x, h1, h⟩ := Outcome.bind_eq_ok.mp h
    refine ⟨x, h1, fun i hi => ?_⟩
    rcases Nat.eq_zero_or_pos i with rfl | h2
    · exact h1
    · exact sameValues_iff.mp h _ (by omega) (by omega)
  · rintro ⟨x, h1, h⟩
    rw [h1, Outcome.ok_bind]
    refine sameValues_iff.mpr fun c h2 h3 => ?_
    have := h (c - (r.thermalizationCycles.getD 0 + offset)) (by omega)
    rwa [Nat.add_sub_cancel' (by omega)] at this

/-- The number of the last cycle of a run which is not interrupted; none is known for relaxation of overlaps. -/
def lastCycle (offset : Nat) : Run X → Nat
  | .integration r => offset + r.thermalizationCycles.getD 0 + r.averagingCycles.getD 0
  | .relaxation _ => sizeMax

theorem verified_value {p : Param} {r : IntegrationRun X} {offset n : Nat} {x : ℝ} (h : verifyDynamicParameter p r offset = .ok ()) (hn : 0 < n)
    (hle : n ≤ offset + r.thermalizationCycles.getD 0 + r.averagingCycles.getD 0)
    (hv : p.value (min (n - 1) (offset + r.thermalizationCycles.getD 0)) (offset + r.thermalizationCycles.getD 0 + r.averagingCycles.getD 0) = .ok x) :
    p.value (n - 1) (offset + r.thermalizationCycles.getD 0 + r.averagingCycles.getD 0) = .ok x := by
  rcases Nat.le_total (n - 1) (offset + r.thermalizationCycles.getD 0) with h1 | h1
  · rwa [Nat.min_eq_left h1] at hv
  · rw [Nat.min_eq_right h1] at hv
    by_cases h0 : r.averagingCycles = some 0
    · rw [h0] at hle
      have : n - 1 < offset + r.thermalizationCycles.getD 0 := by
        have : (some 0).getD 0 = 0 := rfl
        omega
      omega
    · obtain ⟨y, h2, h3⟩ := (C83_verified p r offset h0).mp h
      rw [Nat.add_comm (r.thermalizationCycles.getD 0) offset] at h2 h3
      rw [h2] at hv
      injection hv with hv
      subst hv
      have := h3 (n - 1 - (offset + r.thermalizationCycles.getD 0)) (by omega)
      rwa [Nat.add_sub_cancel' h1] at this

/-- A run, performed as in the casino mode. -/
theorem performRun_block {traits : Option X → Traits} {stop : Nat → Bool} {fuel : Nat} {env : Env} {run : Run X} {offset : Nat} {S S' : Sim}
    (hr : Remains env S) (hs : env.hasBoxScaler = true) (h : performRun traits stop fuel env run offset S = .ok S') :
    ∃ L, S'.log = S.log ++ .clear :: L ∧ CyclesInForce env (lastCycle offset run) (fun n => n - 1) L ∧ SameGiven env S'.env := by
  have hsame := combine_remains hr hs
  unfold performRun at h
  split at h
  · rename_i r
    obtain ⟨_, h1, h⟩ := Outcome.bind_eq_ok.mp h
    obtain ⟨c, k, L, t, hc⟩ := Sim.integrate_thermal h
    refine ⟨L, by rw [t.log, List.append_assoc]; rfl, ?_, hsame.trans ⟨t.envT, t.envP, t.has, t.scaling⟩⟩
    intro A n P ss sc B hL
    obtain ⟨x, y, h2, h3⟩ := t.past A n P ss sc B hL
    obtain ⟨hn, hle⟩ := t.upto n P ss sc (by rw [hL]; simp)
    have hle := hle.trans hc
    refine ⟨x, y, h2, ?_⟩
    obtain ⟨⟨q, h4, h5⟩, h6, h7⟩ := hsame.symm.inForce h3
    unfold verifyParameters at h1
    obtain ⟨q', h8, h1⟩ := Outcome.bind_eq_ok.mp h1
    obtain ⟨_, h9, h1⟩ := Outcome.bind_eq_ok.mp h1
    rw [Sim.getTemperature_ok h8] at h4
    injection h4 with h4
    subst h4
    refine ⟨⟨q', Sim.getTemperature_ok h8, verified_value h9 hn hle h5⟩, fun he => ?_, h7⟩
    rw [if_pos he] at h1
    obtain ⟨q, h10, h11⟩ := h6 he
    obtain ⟨q'', h12, h13⟩ := Outcome.bind_eq_ok.mp h1
    refine ⟨q, h10, ?_⟩
    unfold Env.getPressure at h12
    rw [h10] at h12
    injection h12 with h12
    subst h12
    exact verified_value h13 hn hle h11
  · rename_i r
    obtain ⟨c, k, L, t⟩ := Sim.relaxOverlaps_thermal h
    exact ⟨L, by rw [t.log, List.append_assoc]; rfl, hsame.symm.cyclesInForce t.past, hsame.trans ⟨t.envT, t.envP, t.has, t.scaling⟩⟩

theorem afterRun_given {env : Env} {S : Sim} (h : SameGiven env S.env) : SameGiven env (afterRun env S) := by
  obtain ⟨h1, h2, h3, h4⟩ := h
  exact ⟨rfl, rfl, h3, h4⟩

theorem combine_has {e f : Env} (h : e.hasBoxScaler = true) : (e.combine f).hasBoxScaler = true := by
  unfold Env.hasBoxScaler at *
  rw [combine_scaler]
  split_ifs with h1
  · exact h1
  · exact h

theorem remains_combine {env f : Env} {S : Sim} (h : SameGiven env S.env) : Remains ((afterRun env S).combine f) S := by
  obtain ⟨h1, h2, -, -⟩ := h
  constructor
  · rw [combine_temperature, h1]
    split_ifs with h3
    · intro h; rw [h] at h3; cases h3
    · exact id
  · rw [combine_pressure, h2]
    split_ifs with h3
    · intro h; rw [h] at h3; cases h3
    · exact id

/-- The parts of the log in which the runs of the list were performed, with the environments which were given. -/
def Performed (env : Env) (runs : List (Run X)) (blocks : List (List Event)) : Prop :=
  ∀ (i : Nat) (L : List Event), blocks[i]? = some L → ∃ run, runs[i]? = some run ∧
    CyclesInForce (combineAll env (runs.take (i + 1))) (lastCycle 0 run) (fun n => n - 1) L

theorem performRuns_blocks {traits : Option X → Traits} {fuel : Nat} : ∀ (runs : List (Run X)) {stops : List (Nat → Bool)} {env given : Env} {S S' : Sim},
    SameGiven env S.env → SameGiven given env → env.hasBoxScaler = true → performRuns traits fuel runs stops (afterRun env S) S = .ok S' →
    ∃ blocks, S'.log = S.log ++ (blocks.map (Event.clear :: ·)).flatten ∧ Performed given runs blocks ∧ blocks.length ≤ runs.length ∧
      (S.interrupted = false → S'.interrupted = false → blocks.length = runs.length)
  | [], stops, env, given, S, S', _, _, _, h => by
    injection h with h
    subst h
    exact ⟨[], by simp, by intro i L h; simp at h, le_rfl, fun _ _ => rfl⟩
  | run :: runs, stops, env, given, S, S', hs, hg, hb, h => by
    simp only [performRuns] at h
    obtain ⟨S₁, h1, h⟩ := Outcome.bind_eq_ok.mp h
    have hg' : SameGiven (given.combine run.environment) ((afterRun env S).combine run.environment) :=
      (hg.trans (afterRun_given hs)).combine _
    have hb' : ((afterRun env S).combine run.environment).hasBoxScaler = true := combine_has ((afterRun_given hs).has.trans hb)
    obtain ⟨L, a1, a2, a3⟩ := performRun_block (remains_combine hs) hb' h1
    have key : ∀ blocks, Performed (given.combine run.environment) runs blocks → Performed given (run :: runs) (L :: blocks) := by
      intro blocks hP i M hi
      rcases i with _ | i
      · injection hi with hi
        subst hi
        exact ⟨run, rfl, hg'.symm.cyclesInForce a2⟩
      · exact hP i M hi
    rcases Outcome.ite_eq_ok.mp h with ⟨h2, h⟩ | ⟨h2, h⟩
    · injection h with h
      subst h
      refine ⟨[L], by simpa using a1, key [] (by intro i L h; simp at h), by simp, fun _ h => ?_⟩
      rw [h] at h2
      cases h2
    · obtain ⟨blocks, b1, b2, b3, b4⟩ := performRuns_blocks runs a3 hg' hb' h
      refine ⟨L :: blocks, ?_, key blocks b2, by simpa using b3, fun _ h => ?_⟩
      · rw [b1, a1]
        simp
      · rw [List.length_cons, List.length_cons, b4 (by simpa using h2) h]

/-- **C83** A simulation started or continued from any run performs it and the runs after it in order, until interrupted; in each cycle of each run the
temperature and the pressure are those given last in the input up to that run, at the number of cycles performed before. -/
theorem C83_runs {D : Decimals} {base env : Env} {runs : List (Run X)} {start offset : Nat} {Ld : Loaded} {traits : Option X → Traits} {fuel : Nat}
    {stops : List (Nat → Bool)} {S S' : Sim} (hT : S.env.temperature = none) (hP : S.env.pressure = none)
    (hr : recreateEnvironment D base runs start Ld = .ok env) (h : performFrom traits fuel runs start offset stops env S = .ok S') :
    ∃ blocks : List (List Event), S'.log = S.log ++ (blocks.map (Event.clear :: ·)).flatten ∧
      0 < blocks.length ∧ start + blocks.length ≤ runs.length ∧ (S'.interrupted = false → start + blocks.length = runs.length) ∧
      ∀ (i : Nat) (L : List Event), blocks[i]? = some L → ∃ run, runs[start + i]? = some run ∧
        CyclesInForce (combineAll base (runs.take (start + i + 1))) (lastCycle (if i = 0 then offset else 0) run) (fun n => n - 1) L := by
  obtain ⟨hg, hc⟩ := recreate_given hr
  have hb : env.hasBoxScaler = true := by
    unfold Env.isComplete at hc
    split_ifs at hc with h1
    · simpa using h1
    · simpa using h1
  unfold performFrom at h
  split at h
  · cases h
  · rename_i run hrun
    obtain ⟨S₁, h1, h⟩ := Outcome.bind_eq_ok.mp h
    obtain ⟨L, a1, a2, a3⟩ := performRun_block ⟨fun _ => hT, fun _ => hP⟩ hb h1
    obtain ⟨hlt, -⟩ := List.getElem?_eq_some_iff.mp hrun
    have key : ∀ blocks, Performed (combineAll base (runs.take (start + 1))) (runs.drop (start + 1)) blocks →
        ∀ (i : Nat) (M : List Event), (L :: blocks)[i]? = some M → ∃ run, runs[start + i]? = some run ∧
          CyclesInForce (combineAll base (runs.take (start + i + 1))) (lastCycle (if i = 0 then offset else 0) run) (fun n => n - 1) M := by
      intro blocks hQ i M hi
      rcases i with _ | i
      · injection hi with hi
        subst hi
        exact ⟨run, hrun, hg.symm.cyclesInForce a2⟩
      · obtain ⟨run', h2, h3⟩ := hQ i M hi
        rw [List.getElem?_drop] at h2
        refine ⟨run', by rw [← h2]; congr 1; omega, ?_⟩
        rw [if_neg (by omega)]
        rw [← combineAll_append, ← List.take_add] at h3
        rw [show start + (i + 1) + 1 = start + 1 + (i + 1) by omega]
        exact h3
    rcases Outcome.ite_eq_ok.mp h with ⟨h2, h⟩ | ⟨h2, h⟩
    · injection h with h
      subst h
      refine ⟨[L], by simpa using a1, by simp, by simp; omega, fun h => ?_, key [] (by intro i L h; simp at h)⟩
      rw [h] at h2
      cases h2
    · obtain ⟨blocks, b1, b2, b3, b4⟩ := performRuns_blocks _ a3 hg hb h
      rw [List.length_drop] at b3 b4
      refine ⟨L :: blocks, ?_, by simp, by simp; omega, fun h => ?_, key blocks b2⟩
      · rw [b1, a1]
        simp
      · rw [List.length_cons]
        have := b4 (by simpa using h2) h
        omega

/-- **C83** What was given last. -/
theorem C83_given (base : Env) (runs : List (Run X)) :
    (combineAll base runs).temperature = lastSpecified ((base :: runs.map Run.environment).map Env.temperature) ∧
    (combineAll base runs).pressure = lastSpecified ((base :: runs.map Run.environment).map Env.pressure) ∧
    specifiedScaling (combineAll base runs) = lastSpecified ((base :: runs.map Run.environment).map specifiedScaling) := by
  have h : combineAll base runs = (runs.map Run.environment).foldl Env.combine base := by
    unfold combineAll
    rw [List.foldl_map]
  rw [h]
  obtain ⟨h1, h2, -, h4⟩ := C29_combine base (runs.map Run.environment)
  exact ⟨h1, h2, h4⟩

/-- An environment in which the temperature rises by 1 in each cycle. -/
noncomputable def risingEnv : Env := { Sim.demoEnv Sim.demoSamplers (.enabled Sim.demoScaler) with temperature := some (.linear 1 1) }

theorem rising_defined : Spec.Defined (.linear 1 1) := fun cycle total => ⟨1 + cycle * 1, rfl, by positivity⟩

/-- A simulation as made in the casino mode, with the environment given to the run. -/
theorem rising_run {p : Sim.IntegrationParams} (hp : Sim.Legal p) (stop : Nat → Bool) :
    ∃ S S' : Sim, S.env = Env.empty ∧ S.log = [] ∧ S.integrate risingEnv p (Sim.demoTraits (1 / 40)) stop = .ok S' := by
  obtain ⟨P, S, P1, k, -, hmk, -, hr, h1, h2, h3, -, hlog⟩ := Sim.demo_ready (r := 1 / 40) (by norm_num) (by norm_num) (.inl ⟨rfl, rfl, rfl⟩)
  have henv : S.env = Sim.demoEnv Sim.demoSamplers (.enabled Sim.demoScaler) := by
    unfold Sim.make at hmk
    obtain ⟨_, -, hmk⟩ := Outcome.bind_eq_ok.mp hmk
    obtain ⟨_, -, hmk⟩ := Outcome.bind_eq_ok.mp hmk
    obtain ⟨_, -, hmk⟩ := Outcome.bind_eq_ok.mp hmk
    injection hmk with hmk
    rw [← hmk]
  have hc : S.env.combine Env.empty = Sim.demoEnv Sim.demoSamplers (.enabled Sim.demoScaler) := by rw [henv]; rfl
  have hc' : Env.empty.combine risingEnv = risingEnv := rfl
  obtain ⟨⟨a1, a2, a3, a4, a5, a6, a7⟩, b1, b2, b3, b4, b5, b6, b7, b8, b9, b10, b11, b12⟩ := hr
  rw [hc] at b3 b4 b6 b8 b12
  have hr' : Sim.Ready (Sim.demoTraits (1 / 40)) { S with env := Env.empty } risingEnv (Packing.ballsI [] (1 / 40) (3 * (1 / 40))) := by
    refine ⟨⟨a1, a2, a3, a4, a5, a6, ?_⟩, b1, b2, ?_, ?_, b5, ?_, ?_, ?_, b9, b10, b11, ?_⟩
    · intro q hq a b t ht
      rw [show q = .linear 1 1 from (Option.some.inj hq).symm] at ht
      obtain ⟨v, h, h'⟩ := rising_defined a b
      rw [h] at ht
      injection ht with ht
      rw [← ht]; exact h'
    · rw [hc']; exact b3
    · rw [hc']; exact b4
    · rw [hc']; exact b6
    · exact ⟨_, rfl, rising_defined⟩
    · intro _; exact b8 rfl
    · exact b12
  obtain ⟨P1', e1, h⟩ := hr'.integrate hp stop
  rw [h1] at e1
  injection e1 with e1
  subst e1
  rcases h with ⟨k', e2, hk, -⟩ | ⟨-, S', h, hl⟩
  · rw [h2] at e2
    injection e2 with e2
    subst e2
    exact absurd (h3.mp hk) (by norm_num)
  · exact ⟨{ S with env := Env.empty }, S', rfl, hlog, h⟩

/-- A run of five cycles of thermalisation, with the environment of the whole input. -/
def fiveCycles : IntegrationRun Unit := ⟨[], Env.empty, some 5, none, 2, 0, 1, 3, [], none, [], none, [], [], none, none, none⟩

theorem five_performed : ∃ S S' : Sim, S.env = Env.empty ∧ S.log = [] ∧
    recreateEnvironment ⟨fun _ => [], fun _ => none⟩ risingEnv [.integration fiveCycles] 0 ⟨false, none⟩ = .ok risingEnv ∧
    performFrom (fun _ => Sim.demoTraits (1 / 40)) 0 [.integration fiveCycles] 0 0 [] risingEnv S = .ok S' := by
  obtain ⟨S, S', h1, h2, h3⟩ := rising_run (p := fiveCycles.params 0) ⟨by decide, by decide, by decide, by decide, by decide, by decide⟩ (fun _ => false)
  refine ⟨S, S', h1, h2, rfl, ?_⟩
  have hv : verifyParameters risingEnv fiveCycles 0 = .ok () := by
    simp [verifyParameters, verifyDynamicParameter, Env.getTemperature, Env.getPressure, risingEnv, Sim.demoEnv, fiveCycles, sameValues, Param.value,
      Env.isBoxScalingEnabled]
  simp only [performFrom, List.getElem?_cons_zero, performRun, hv, Outcome.ok_bind, List.headD_nil, h3]
  split_ifs <;> rfl

/-- In the last of the five cycles the temperature is 5. -/
example : ∃ (S S' : Sim) (L : List Event), performFrom (fun _ => Sim.demoTraits (1 / 40)) 0 [.integration fiveCycles] 0 0 [] risingEnv S = .ok S' ∧
    S'.log = S.log ++ .clear :: L ∧ ∀ A P ss sc B, L = A ++ .cycle 5 P ss sc :: B → ∃ p, thermoAfter A = some (5, p) := by
  obtain ⟨S, S', h1, h2, h3, h4⟩ := five_performed
  obtain ⟨blocks, b1, b2, b3, -, b5⟩ := C83_runs (by rw [h1]; rfl) (by rw [h1]; rfl) h3 h4
  have hl : blocks.length = 1 := by simp at b3; omega
  obtain ⟨L, rfl⟩ := List.length_eq_one_iff.mp hl
  refine ⟨S, S', L, h4, by simpa using b1, fun A P ss sc B hL => ?_⟩
  obtain ⟨run, -, h5⟩ := b5 0 L rfl
  obtain ⟨t, p, h6, ⟨q, h7, h8⟩, -⟩ := h5 A 5 P ss sc B hL
  refine ⟨p, ?_⟩
  rw [h6]
  obtain rfl := Option.some.inj (show some (.linear 1 1) = some q from h7)
  simp only [Param.value] at h8
  injection h8 with h8
  rw [← h8]
  norm_num

end Input

end Rampack
