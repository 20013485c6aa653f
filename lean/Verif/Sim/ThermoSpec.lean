import Verif.Sim.Model
/-
Specification of the temperature and the pressure of runs.
-/
namespace Rampack.Spec

/-- The temperature and the pressure which were told last. -/
def thermoAfter (L : List Event) : Option (ℝ × ℝ) :=
  L.foldl (fun x e => match e with
    | .thermo t p => some (t, p)
    | _ => x) none

/-- The temperature and the pressure given by the parameters of the environment for a cycle of a run; without scaling of the box there is no pressure. -/
structure InForce (e : Env) (cycle max : Nat) (t p : ℝ) : Prop where
  temperature : ∃ q, e.temperature = some q ∧ q.value cycle max = .ok t
  pressure : e.isBoxScalingEnabled = true → ∃ q, e.pressure = some q ∧ q.value cycle max = .ok p
  none : e.isBoxScalingEnabled = false → p = 0

/-- Before each cycle in the log the temperature and the pressure were told which are given for the number `at n` of cycle `n`. -/
def CyclesInForce (e : Env) (max : Nat) (at_ : Nat → Nat) (L : List Event) : Prop :=
  ∀ A n P ss sc B, L = A ++ .cycle n P ss sc :: B → ∃ t p, thermoAfter A = some (t, p) ∧ InForce e (at_ n) max t p

end Rampack.Spec
