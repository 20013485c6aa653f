import Verif.Frontend.WholeInput
import Verif.Frontend.InputSpec
import Verif.Frontend.ObservSpec
import Verif.Frontend.ShapeClassesSpec
import Verif.Frontend.ArrangeExprSpec
/-
What the whole input file means: the relation `IsInput` of InputSpec.lean, with arrangements, shapes and observables as in their own specifications.
-/
namespace Rampack.WholeInput.Spec

open Pyon Rampack.Input Rampack.Input.Spec

/-- Arrangements, shapes, observables and bulk observables are read as documented, and nothing else is read in their places. -/
structure Documented (fuel : Nat) (P : Parts Part) : Prop where
  arrangement : ∀ n x, Reads P.arrangement n x ↔ ∃ a, x = .arrangement a ∧ ArrangeExpr.Spec.IsArrangement fuel n a
  shape : ∀ n x, ReadsShape P.shape n x ↔ ∃ s, x = .shape s ∧ ShapeExpr.Spec.IsSpecies n s
  observable : ∀ n x, Reads P.observable n x ↔ ∃ o, x = .observable o ∧ Observ.Spec.IsScoped n o
  bulkObservable : ∀ n x, Reads P.bulkObservable n x ↔ ∃ b, x = .bulk b ∧ Observ.Spec.IsBulk n b

/-- What is made for a run: the observables with their scopes and the bulk observables. -/
def runObservables : Run Part → List Part
  | .integration r => r.observables
  | .relaxation r => r.observables

end Rampack.WholeInput.Spec
