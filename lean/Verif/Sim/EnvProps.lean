import Verif.Sim.Model
/-
C29: environments of consecutive runs.
-/
namespace Rampack

open Rampack

namespace Spec

/-- The last value specified in a list of optional values. -/
def lastSpecified {α : Type} : List (Option α) → Option α
  | [] => none
  | x :: l => (lastSpecified l).or x

/-- The samplers an environment specifies, if it does. -/
def specifiedSamplers (e : Env) : Option (List Sampler) := if e.samplers = [] then none else some e.samplers

/-- What an environment says about scaling the box, if it does: `some none` means that it is switched off. -/
def specifiedScaling (e : Env) : Option (Option Scaler) :=
  match e.scaler with
  | .unset => none
  | .disabled => some none
  | .enabled s => some (some s)

end Spec

open Spec

theorem combine_specified (e f : Env) :
    (e.combine f).temperature = f.temperature.or e.temperature ∧
    (e.combine f).pressure = f.pressure.or e.pressure ∧
    specifiedSamplers (e.combine f) = (specifiedSamplers f).or (specifiedSamplers e) ∧
    specifiedScaling (e.combine f) = (specifiedScaling f).or (specifiedScaling e) := by
  obtain ⟨t, p, s, b⟩ := e
  obtain ⟨t', p', s', b'⟩ := f
  rcases t' with _ | t' <;> rcases p' with _ | p' <;> rcases s' with _ | ⟨x, s'⟩ <;> rcases b' with _ | _ | b' <;>
    rcases b with _ | _ | b <;> simp [Env.combine, Env.hasTemperature, Env.hasPressure, Env.hasMoveSamplers,
      Env.hasBoxScaler, specifiedSamplers, specifiedScaling]

theorem lastSpecified_append {α : Type} (l : List (Option α)) (x : Option α) :
    lastSpecified (l ++ [x]) = x.or (lastSpecified l) := by
  induction l with
  | nil => simp [lastSpecified]
  | cons a l ih => simp [lastSpecified, ih, Option.or_assoc]

/-- **C29** Runs with the environments `l` one after another, beginning with `e`: each item is the last specified one. -/
theorem C29_combine (e : Env) (l : List Env) :
    (l.foldl Env.combine e).temperature = lastSpecified ((e :: l).map Env.temperature) ∧
    (l.foldl Env.combine e).pressure = lastSpecified ((e :: l).map Env.pressure) ∧
    specifiedSamplers (l.foldl Env.combine e) = lastSpecified ((e :: l).map specifiedSamplers) ∧
    specifiedScaling (l.foldl Env.combine e) = lastSpecified ((e :: l).map specifiedScaling) := by
  induction l using List.reverseRecOn with
  | nil => simp [lastSpecified]
  | append_singleton l f ih =>
    rw [List.foldl_append, ← List.cons_append]
    simp only [List.map_append, List.map_cons, List.map_nil, List.foldl_cons, List.foldl_nil]
    rw [lastSpecified_append,
      lastSpecified_append, lastSpecified_append, lastSpecified_append, ← List.map_cons, ← List.map_cons, ← List.map_cons,
      ← List.map_cons, ← ih.1, ← ih.2.1, ← ih.2.2.1, ← ih.2.2.2]
    exact combine_specified _ _

/-- **C29** An environment is complete exactly if the temperature and the samplers are specified and scaling is either switched
off, or specified together with the pressure. -/
theorem C29_complete (e : Env) :
    e.isComplete = true ↔ e.temperature ≠ none ∧ specifiedSamplers e ≠ none ∧
      (specifiedScaling e = some none ∨ (∃ s, specifiedScaling e = some (some s)) ∧ e.pressure ≠ none) := by
  obtain ⟨t, p, s, b⟩ := e
  rcases t with _ | t <;> rcases p with _ | p <;> rcases s with _ | ⟨x, s⟩ <;> rcases b with _ | _ | b <;>
    simp [Env.isComplete, Env.hasTemperature, Env.hasPressure, Env.hasMoveSamplers, Env.isBoxScalingEnabled,
      Env.hasBoxScaler, specifiedSamplers, specifiedScaling]

/-- **C29** A run starts only if the combined environment is complete; otherwise it is refused. -/
theorem C29_refused (S : Sim) (env : Env) (T : Traits) (h : (S.env.combine env).isComplete = false) :
    ∃ m, S.start env T = .throw m := by
  unfold Sim.start
  simp only [h]
  exact ⟨_, rfl⟩

/-- **C29** Setting an item of an environment specifies it and changes nothing else; a missing value is refused. -/
theorem C29_setters (e : Env) :
    (∀ p, e.setTemperature (some p) = .ok { e with temperature := some p }) ∧
    (∀ p, e.setPressure (some p) = .ok { e with pressure := some p }) ∧
    (∀ l, l ≠ [] → e.setMoveSamplers (l.map some) = .ok { e with samplers := l }) ∧
    (∀ s, e.setBoxScaler (some s) = .ok { e with scaler := .enabled s }) ∧
    e.disableBoxScaling = { e with scaler := .disabled } ∧
    (∃ m, e.setTemperature none = .throw m) ∧ (∃ m, e.setPressure none = .throw m) ∧
    (∃ m, e.setBoxScaler none = .throw m) ∧
    (∀ l, (l = [] ∨ none ∈ l) → ∃ m, e.setMoveSamplers l = .throw m) := by
  refine ⟨fun _ => rfl, fun _ => rfl, fun l hl => ?_, fun _ => rfl, rfl, ⟨_, rfl⟩, ⟨_, rfl⟩, ⟨_, rfl⟩, fun l hl => ?_⟩
  · rcases l with _ | ⟨a, l⟩
    · exact absurd rfl hl
    · unfold Env.setMoveSamplers
      have : ((a :: l).map some).all Option.isSome = true := by simp
      rw [this]
      simp [List.reduceOption]
  · unfold Env.setMoveSamplers
    rcases l with _ | ⟨a, l⟩
    · exact ⟨_, rfl⟩
    · have hn : none ∈ a :: l := hl.resolve_left (by simp)
      have : (a :: l).all Option.isSome = false := by
        rw [List.all_eq_false]
        exact ⟨none, hn, by simp⟩
      rw [this]
      exact ⟨_, rfl⟩

/-- Three runs: the first one specifies everything, the second one a new temperature, the third one switches scaling off. -/
example (s : Sampler) (b : Scaler) :
    let l : List Env := [⟨some (.const 1), some (.const 2), [s], .enabled b⟩, ⟨some (.const 3), none, [], .unset⟩,
      ⟨none, none, [], .disabled⟩]
    (l.foldl Env.combine .empty).temperature = some (.const 3) ∧
    (l.foldl Env.combine .empty).pressure = some (.const 2) ∧
    specifiedSamplers (l.foldl Env.combine .empty) = some [s] ∧
    specifiedScaling (l.foldl Env.combine .empty) = some none := by
  intro l
  have h := C29_combine .empty l
  refine ⟨h.1.trans ?_, h.2.1.trans ?_, h.2.2.1.trans ?_, h.2.2.2.trans ?_⟩ <;>
    simp [l, lastSpecified, specifiedSamplers, specifiedScaling, Env.empty]

/-- `C29_refused` is about something: a run of a fresh simulation without any environment. -/
example (S : Sim) (h : S.env = .empty) : (S.env.combine .empty).isComplete = false := by rw [h]; rfl

end Rampack
