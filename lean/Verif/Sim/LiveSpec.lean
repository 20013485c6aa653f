import Verif.Sim.Model
import Verif.Domain.Spec
/-
Circumstances in which runs complete.
-/
namespace Rampack.Spec

open Rampack

/-- The sampler may be used with so many molecules: the rotation step is known, and flips are rarer than molecules and have an
axis. -/
def Usable (molecules : Nat) : Sampler → Prop
  | .rototranslation _ rot _ _ => rot.isSome = true
  | .flip every axis _ _ => 0 < every ∧ every < molecules ∧ axis ≠ 0
  | _ => True

/-- Wherever the engine is, a candidate for a random axis in the unit ball comes sooner or later, and the first such one is not
exactly zero. -/
def Fair (t : Tape) : Prop := ∀ j, ∃ axis t', sampleAxis (t.drop j) = .ok (axis, t') ∧ axis ≠ 0

/-- The parameter has a non-negative value for all cycles. -/
def Defined (p : Param) : Prop := ∀ cycle total, ∃ v, p.value cycle total = .ok v ∧ 0 ≤ v

/-- The scaler always finds a new box. -/
def SafeKind (k : ScalerKind) : Prop := ∀ step M b t, 0 < step → Box.make M = .ok b → t.Positive →
  ∃ b' t', (Scaler.mk k step).updateBox b t = .ok (b', t')

/-- A box scaler with its status which may be used: scaling is disabled or is safe. -/
def SafeScaler : ScalerStatus → Prop
  | .unset => False
  | .disabled => True
  | .enabled s => 0 < s.step ∧ SafeKind s.kind

end Rampack.Spec
