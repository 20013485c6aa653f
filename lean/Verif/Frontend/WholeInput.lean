import Verif.Frontend.Input
import Verif.Frontend.Observ
import Verif.Frontend.ShapeClasses
import Verif.Frontend.ArrangeExpr
/-
Model of the whole matcher of input files, with the matchers of arrangements, shapes and observables put in their places: /repo/src/frontend/matchers/RampackMatcher.cpp
uses the other matchers through `pyon::matcher::Any`, which holds a value of any type.

Simplification: in the model each family of matchers has its own type of values, where the program has `std::any` everywhere. `retype` changes that type and nothing
else: what a matcher makes is wrapped, and unwrapped before it is used.
-/
namespace Rampack.WholeInput

open Pyon Rampack.Input

/-- Change the value which has been made. -/
def mapResult {α β : Type} (f : α → β) : Result α → Result β
  | .matched a => .matched (f a)
  | .unmatched r => .unmatched r
  | .thrown m => .thrown m

section

variable {F V W : Type} (f : Any F V → Any F W) (g : Any F W → Any F V) (h : Any F V → Any F W)

/-- A matcher with results of another type; Any.h:22-73. -/
def retype (m : Matcher F V) : Matcher F W := ⟨fun n => mapResult f (m.run n), m.nodeType⟩

/-- The data of a class with values of another type; MatcherDataclass.h:59-86. -/
def retypeData (d : ClassData F W) : ClassData F V := ⟨d.standard.map fun e => (e.1, g e.2), d.variadic.map g, d.keyword.map fun e => (e.1, g e.2)⟩

/-- Variadic arguments, whose conversion is not used; MatcherDataclass.cpp:108-113. -/
def retypeVariadic (m : ArrayMatcher F V) : ArrayMatcher F W := ⟨m.element.map (retype f), m.filters.map fun p l => p (l.map g), fun as => .ok (.array as)⟩

/-- Keyword arguments, whose conversion is not used; MatcherDataclass.cpp:115-120. -/
def retypeKeyword (m : DictionaryMatcher F V) : DictionaryMatcher F W :=
  ⟨m.keys.map fun p => (p.1, retype f p.2), m.values.map (retype f), m.filters.map fun p l => p (l.map fun e => (e.1, g e.2)), fun es => .ok (.dictionary es)⟩

/-- A class whose arguments are wrapped by `f`, unwrapped by `g` for filters and the conversion, and whose result is wrapped by `h`; MatcherDataclass.h:131-145. -/
def retypeClass (c : ClassMatcher F V) : ClassMatcher F W :=
  ⟨c.name, c.arguments.map fun a => ⟨a.name, a.matcher.map (retype f), a.default.map f⟩, c.variadic.map (retypeVariadic f g), c.keyword.map (retypeKeyword f g),
    c.filters.map fun p d => p (retypeData g d), fun d => (c.mapping (retypeData g d)).map h⟩

/-- An alternative of matchers with results of another type; MatcherAlternative.h:43-65. -/
def retypeChoice : Choice F V → Choice F W
  | .dataclass c => .dataclass (retypeClass f g h c)
  | .other m => .other (retype h m)
  | .join l r => .join (retypeChoice l) (retypeChoice r)

end

/-- What the matchers of parts make: arrangements, shapes and observables. Values made on the way to shapes are kept as they are. -/
inductive Part where
  | arrangement (a : ArrangeExpr.Arrangement)
  | shape (s : ShapeExpr.Species)
  | observable (o : Observ.Scoped)
  | bulk (b : Observ.Bulk)
  | inner (a : Any ℝ ShapeExpr.V)

/-- Wrap a value made on the way to a shape; nodes are left as they are. -/
def wrap : Any ℝ ShapeExpr.V → Any ℝ (Value Part)
  | .node n => .node n
  | a => .value (.object (.inner a))

/-- Unwrap it. -/
def unwrap : Any ℝ (Value Part) → Any ℝ ShapeExpr.V
  | .node n => .node n
  | .value (.object (.inner a)) => a
  | _ => .node .none

/-- `std::shared_ptr<ShapeTraits>`; anything else is not made by matchers of shapes. -/
def outShape : Any ℝ ShapeExpr.V → Any ℝ (Value Part)
  | .value (.object (.species s)) => .value (.shape (some (.shape s)))
  | _ => .node .none

/-- `std::shared_ptr<PackingFactory>`. -/
def outArrangement : Any ℝ ArrangeExpr.V → Any ℝ (Value Part)
  | .value (.object (.arrangement a)) => .value (.object (.arrangement a))
  | _ => .node .none

/-- Observables with their scopes. -/
def outObservable : Any ℝ Observ.V → Any ℝ (Value Part)
  | .value (.object (.observable o)) => .value (.object (.observable o))
  | _ => .node .none

/-- Bulk observables. -/
def outBulk : Any ℝ Observ.V → Any ℝ (Value Part)
  | .value (.object (.bulk b)) => .value (.object (.bulk b))
  | _ => .node .none

/-- The matchers of parts; RampackMatcher.cpp:147, 153, 246, 385-386. -/
noncomputable def allParts (conv : ℚ → Option ℝ) (fuel : Nat) : Outcome (Parts Part) := do
  let arrangement ← ArrangeExpr.createArrangement conv fuel
  let shape ← ShapeExpr.createShape conv
  let observable ← Observ.createObservables conv
  let bulk ← Observ.createBulk conv
  return ⟨retype outArrangement arrangement.toMatcher, retypeChoice wrap unwrap outShape shape, retype outObservable observable.toMatcher, retype outBulk bulk.toMatcher⟩

/-- `RampackMatcher::create` applied to a text, RampackMatcher.cpp:379-440. -/
noncomputable def matchWhole (conv : ℚ → Option ℝ) (maxThreads fuel : Nat) (expression : Text) : Outcome (Parameters Part) := do
  let P ← allParts conv fuel
  matchInput conv maxThreads P expression

end Rampack.WholeInput
