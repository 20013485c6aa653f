import Verif.Frontend.CasinoEnv
import Verif.Sim.ThermoLemmas
import Verif.Sim.EnvProps
import Verif.IO.SnapLemmas
/-
Lemmas on environments of runs.
-/
namespace Rampack

open Spec

/-- Environments with the same parameters and kinds of scaling. -/
structure SameGiven (e e' : Env) : Prop where
  temperature : e'.temperature = e.temperature
  pressure : e'.pressure = e.pressure
  has : e'.hasBoxScaler = e.hasBoxScaler
  enabled : e'.isBoxScalingEnabled = e.isBoxScalingEnabled

theorem SameGiven.refl (e : Env) : SameGiven e e := ⟨rfl, rfl, rfl, rfl⟩

theorem SameGiven.trans {a b c : Env} (h : SameGiven a b) (h' : SameGiven b c) : SameGiven a c :=
  ⟨h'.1.trans h.1, h'.2.trans h.2, h'.3.trans h.3, h'.4.trans h.4⟩

theorem SameGiven.symm {a b : Env} (h : SameGiven a b) : SameGiven b a := ⟨h.1.symm, h.2.symm, h.3.symm, h.4.symm⟩

theorem combine_temperature (e f : Env) : (e.combine f).temperature = if f.temperature.isSome then f.temperature else e.temperature := by
  rcases e with ⟨_, _, _, _⟩
  rcases f with ⟨_ | _, _ | _, _, _⟩ <;> simp only [Env.combine, Env.hasTemperature, Env.hasPressure] <;> split_ifs <;> simp_all

theorem combine_pressure (e f : Env) : (e.combine f).pressure = if f.pressure.isSome then f.pressure else e.pressure := by
  rcases e with ⟨_, _, _, _⟩
  rcases f with ⟨_ | _, _ | _, _, _⟩ <;> simp only [Env.combine, Env.hasTemperature, Env.hasPressure] <;> split_ifs <;> simp_all

theorem combine_scaler (e f : Env) : (e.combine f).scaler = if f.hasBoxScaler then f.scaler else e.scaler := by
  unfold Env.combine
  simp only
  split_ifs <;> rfl

theorem SameGiven.combine {e e' : Env} (h : SameGiven e e') (f : Env) : SameGiven (e.combine f) (e'.combine f) := by
  obtain ⟨h1, h2, h3, h4⟩ := h
  refine ⟨by rw [combine_temperature, combine_temperature, h1], by rw [combine_pressure, combine_pressure, h2], ?_, ?_⟩
  · unfold Env.hasBoxScaler at h3 ⊢
    rw [combine_scaler, combine_scaler]
    split_ifs
    · rfl
    · exact h3
  · unfold Env.isBoxScalingEnabled at h4 ⊢
    rw [combine_scaler, combine_scaler]
    split_ifs
    · rfl
    · exact h4

theorem SameGiven.inForce {e e' : Env} (h : SameGiven e e') {n m : Nat} {t p : ℝ} (hf : InForce e n m t p) : InForce e' n m t p :=
  hf.congr h.1.symm h.2.symm h.4.symm

theorem SameGiven.cyclesInForce {e e' : Env} (h : SameGiven e e') {m : Nat} {f : Nat → Nat} {L : List Event} (hf : CyclesInForce e m f L) :
    CyclesInForce e' m f L := by
  intro A n P ss sc B hL
  obtain ⟨t, p, h1, h2⟩ := hf A n P ss sc B hL
  exact ⟨t, p, h1, h.inForce h2⟩

theorem overwriteScaler_ok {D : Decimals} {m : Ramsnap.Aux} {c c' : ScalerStatus} (h : overwriteScaler D m c = .ok c') :
    c' = c ∨ ∃ s s' t, c = .enabled s ∧ c' = .enabled s' ∧ Ramsnap.findEntry (moveKey "scaling" "scaling") m = some t ∧ D.stod t = some s'.step ∧
      s'.kind = s.kind ∧ 0 < s'.step := by
  unfold overwriteScaler at h
  split at h
  · rename_i s
    split at h
    · injection h with h; exact .inl h.symm
    · rename_i t ht
      obtain ⟨x, h1, h⟩ := Outcome.bind_eq_ok.mp h
      obtain ⟨_, h2, h⟩ := Outcome.bind_eq_ok.mp h
      obtain ⟨s', h3, h⟩ := Outcome.bind_eq_ok.mp h
      injection h with h
      have h2 := Outcome.require_eq_ok.mp h2
      unfold Scaler.setStepSize at h3
      obtain ⟨_, _, h3⟩ := Outcome.bind_eq_ok.mp h3
      injection h3 with h3
      subst h3
      refine .inr ⟨s, _, t, rfl, h.symm, ht, ?_, rfl, of_decide_eq_true h2⟩
      unfold Decimals.number at h1
      split at h1
      · cases h1
      · injection h1 with h1
        rw [← h1]
        assumption
  · injection h with h; exact .inl h.symm

theorem overwrite_given {D : Decimals} {e e' : Env} {m : Ramsnap.Aux} (h : overwriteMoveStepSizes D e m = .ok e') : SameGiven e e' := by
  unfold overwriteMoveStepSizes at h
  obtain ⟨ss, -, h⟩ := Outcome.bind_eq_ok.mp h
  obtain ⟨ss', -, h⟩ := Outcome.bind_eq_ok.mp h
  obtain ⟨c, h1, h⟩ := Outcome.bind_eq_ok.mp h
  injection h with h
  subst h
  rcases overwriteScaler_ok h1 with rfl | ⟨s, s', t, h2, rfl, -⟩
  · exact ⟨rfl, rfl, rfl, rfl⟩
  · refine ⟨rfl, rfl, ?_, ?_⟩
    · unfold Env.hasBoxScaler; rw [h2]
    · unfold Env.isBoxScalingEnabled; rw [h2]

namespace Input

variable {X : Type}

theorem combineAll_append (e : Env) (l l' : List (Run X)) : combineAll e (l ++ l') = combineAll (combineAll e l) l' := by
  unfold combineAll
  rw [List.foldl_append]

theorem SameGiven.combineAll {e e' : Env} (h : SameGiven e e') (l : List (Run X)) : SameGiven (combineAll e l) (combineAll e' l) := by
  induction l generalizing e e' with
  | nil => exact h
  | cons r l ih => exact ih (h.combine r.environment)

/-- The recreated environment is that given in the input. -/
theorem recreate_given {D : Decimals} {base env : Env} {runs : List (Run X)} {start : Nat} {L : Loaded} (h : recreateEnvironment D base runs start L = .ok env) :
    SameGiven (combineAll base (runs.take (start + 1))) env ∧ env.isComplete = true := by
  unfold recreateEnvironment at h
  obtain ⟨env', h1, h⟩ := Outcome.bind_eq_ok.mp h
  obtain ⟨_, h2, h⟩ := Outcome.bind_eq_ok.mp h
  injection h with h
  subst h
  refine ⟨?_, Outcome.require_eq_ok.mp h2⟩
  have hsplit : runs.take (start + 1) = runs.take start ++ (runs.drop start).take 1 := by rw [List.take_add]
  unfold replayEnvironment at h1
  rcases Outcome.ite_eq_ok.mp h1 with ⟨-, h1⟩ | ⟨-, h1⟩
  · split at h1
    · cases h1
    · exact overwrite_given h1
  · obtain ⟨env', h3, h1⟩ := Outcome.bind_eq_ok.mp h1
    injection h1 with h1
    subst h1
    rw [hsplit, combineAll_append]
    refine SameGiven.combineAll ?_ _
    unfold restoreSteps at h3
    split at h3
    · injection h3 with h3
      subst h3
      exact .refl _
    · exact overwrite_given h3

theorem sameValues_iff {p : Param} {total : Nat} {x : ℝ} : ∀ {k cycle : Nat},
    sameValues p total x k cycle = .ok () ↔ ∀ c, cycle ≤ c → c < cycle + k → p.value c total = .ok x
  | 0, cycle => by simp only [sameValues, true_iff]; intro c h1 h2; omega
  | k + 1, cycle => by
    simp only [sameValues]
    constructor
    · intro h c h1 h2
      obtain ⟨y, h3, h⟩ := Outcome.bind_eq_ok.mp h
      obtain ⟨_, h4, h⟩ := Outcome.bind_eq_ok.mp h
      obtain rfl := of_decide_eq_true (Outcome.require_eq_ok.mp h4)
      rcases h1.eq_or_lt with rfl | h1
      · exact h3
      · exact sameValues_iff.mp h c h1 (by omega)
    · intro h
      rw [h cycle le_rfl (by omega), Outcome.ok_bind, decide_eq_true rfl, Outcome.require_true, Outcome.ok_bind]
      exact sameValues_iff.mpr fun c h1 h2 => h c (by omega) (by omega)

/-- What remains of the earlier parameters of the simulation. -/
structure Remains (env : Env) (S : Sim) : Prop where
  temperature : env.temperature = none → S.env.temperature = none
  pressure : env.pressure = none → S.env.pressure = none

theorem combine_remains {env : Env} {S : Sim} (h : Remains env S) (hs : env.hasBoxScaler = true) : SameGiven env (S.env.combine env) := by
  refine ⟨?_, ?_, ?_, ?_⟩
  · rw [combine_temperature]
    split_ifs with h1
    · rfl
    · have := Option.not_isSome_iff_eq_none.mp h1
      rw [this, h.1 this]
  · rw [combine_pressure]
    split_ifs with h1
    · rfl
    · have := Option.not_isSome_iff_eq_none.mp h1
      rw [this, h.2 this]
  · unfold Env.hasBoxScaler
    rw [combine_scaler, if_pos hs]
  · unfold Env.isBoxScalingEnabled
    rw [combine_scaler, if_pos hs]

end Input

end Rampack
