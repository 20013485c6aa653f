import Verif.Pyon.Matcher
/-
What it means that an expression matches, apart from the way in which matchers look for it.
-/
namespace Rampack.Pyon.Spec

variable {F V : Type} {α : Type}

/-- The key has been given, for the last time with this value. -/
def Given (es : List (Text × α)) (k : Text) (v : α) : Prop := ∃ p s, es = p ++ (k, v) :: s ∧ ∀ e ∈ s, e.1 ≠ k

/-- The key has not been given. -/
def NotGiven (es : List (Text × α)) (k : Text) : Prop := ∀ e ∈ es, e.1 ≠ k

/-- The matcher, if there is one, turns the node into the value; without a matcher the node itself is the value. -/
def Turns (m : Option (Matcher F V)) (n : Node F) (a : Any F V) : Prop :=
  match m with
  | none => a = .node n
  | some m => m.run n = .matched a

/-- All conditions hold. -/
def Satisfied (filters : List (α → Except String Bool)) (a : α) : Prop := ∀ f ∈ filters, f a = .ok true

/-- The data of an array: its elements one by one, in their order, satisfying the conditions. -/
def ArrayOf (m : ArrayMatcher F V) (ns : List (Node F)) (as : List (Any F V)) : Prop :=
  List.Forall₂ (Turns m.element) ns as ∧ Satisfied m.filters as

/-- The value at a key: the matcher is the first one whose predicate holds for the key, or the one for all other values. -/
inductive ValueAt (m : DictionaryMatcher F V) (k : Text) (n : Node F) (a : Any F V) : Prop where
  | key {p s : List ((Text → Bool) × Matcher F V)} {q : Text → Bool} {e : Matcher F V} :
    m.keys = p ++ (q, e) :: s → (∀ r ∈ p, r.1 k = false) → q k = true → e.run n = .matched a → ValueAt m k n a
  | other : (∀ r ∈ m.keys, r.1 k = false) → Turns m.values n a → ValueAt m k n a

/-- Entries in the order of keys, each key once. -/
def Ordered (es : List (Text × α)) : Prop := es.Pairwise (fun a b => a.1 < b.1)

/-- The data of a dictionary: all of its keys with their values, satisfying the conditions. -/
structure DictionaryOf (m : DictionaryMatcher F V) (es : List (Text × Node F)) (as : List (Text × Any F V)) : Prop where
  ordered : Ordered as
  all : ∀ k n, Given es k n → ∃ a, (k, a) ∈ as ∧ ValueAt m k n a
  only : ∀ k a, (k, a) ∈ as → ∃ n, Given es k n ∧ ValueAt m k n a
  satisfied : Satisfied m.filters as

/-- Where the value of the `i`-th declared argument comes from: the `i`-th positional argument, and then it must not be named; or, if there
are not so many positional arguments, the one with its name, or else its default value. -/
inductive Bound (ps : List (Node F)) (ks : List (Text × Node F)) (i : Nat) (a : Argument F V) (v : Any F V) : Prop where
  | positional {n : Node F} : ps[i]? = some n → NotGiven ks a.name → Turns a.matcher n v → Bound ps ks i a v
  | keyword {n : Node F} : ps.length ≤ i → Given ks a.name n → Turns a.matcher n v → Bound ps ks i a v
  | default : ps.length ≤ i → NotGiven ks a.name → a.default = some v → Bound ps ks i a v

/-- A declared argument. -/
def Declared (c : ClassMatcher F V) (k : Text) : Prop := ∃ a ∈ c.arguments, a.name = k

/-- The positional arguments beyond the declared ones: none unless variadic arguments have been declared. -/
def Rest (c : ClassMatcher F V) (ps : List (Node F)) (as : List (Any F V)) : Prop :=
  match c.variadic with
  | none => ps.length ≤ c.arguments.length ∧ as = []
  | some m => ArrayOf m (ps.drop c.arguments.length) as

/-- The named arguments which have not been declared: none unless variadic keyword arguments have been declared. -/
def NamedRest (c : ClassMatcher F V) (ks : List (Text × Node F)) (as : List (Text × Any F V)) : Prop :=
  match c.keyword with
  | none => (∀ e ∈ ks, Declared c e.1) ∧ as = []
  | some m => ∃ es, (∀ k n, Given es k n ↔ Given ks k n ∧ ¬ Declared c k) ∧ DictionaryOf m es as

/-- The arguments of an invocation bound to the declared ones. -/
structure Binds (c : ClassMatcher F V) (ps : List (Node F)) (ks : List (Text × Node F)) (d : ClassData F V) : Prop where
  names : d.standard.map Prod.fst = c.arguments.map (·.name)
  values : ∀ i a, c.arguments[i]? = some a → ∃ v, d.standard[i]? = some (a.name, v) ∧ Bound ps ks i a v
  rest : Rest c ps d.variadic
  named : NamedRest c ks d.keyword

/-- More positional arguments than can be taken. -/
def Excessive (c : ClassMatcher F V) (ps : List (Node F)) : Prop := c.variadic = none ∧ c.arguments.length < ps.length

/-- An argument which has to be given and is not. -/
def Missing (c : ClassMatcher F V) (ps : List (Node F)) (ks : List (Text × Node F)) (k : Text) : Prop :=
  ∃ i a, c.arguments[i]? = some a ∧ a.name = k ∧ ps.length ≤ i ∧ a.default = none ∧ NotGiven ks k

/-- An argument given both by its position and by its name. -/
def Redefined (c : ClassMatcher F V) (ps : List (Node F)) (ks : List (Text × Node F)) (k : Text) : Prop :=
  ∃ i a, c.arguments[i]? = some a ∧ a.name = k ∧ i < ps.length ∧ ¬ NotGiven ks k

/-- A named argument which has not been declared. -/
def Unknown (c : ClassMatcher F V) (ks : List (Text × Node F)) (k : Text) : Prop := c.keyword = none ∧ ¬ NotGiven ks k ∧ ¬ Declared c k

/-- The arguments given are not the right ones. -/
def Wrong (c : ClassMatcher F V) (ps : List (Node F)) (ks : List (Text × Node F)) : Prop :=
  Excessive c ps ∨ (∃ k, Missing c ps ks k) ∨ (∃ k, Redefined c ps ks k) ∨ ∃ k, Unknown c ks k

/-- A report on arguments tells the truth. -/
def Truthful (c : ClassMatcher F V) (ps : List (Node F)) (ks : List (Text × Node F)) : ArgumentsReport → Prop
  | .excessive => Excessive c ps
  | .missing names => names ≠ [] ∧ ∀ k, k ∈ names ↔ Missing c ps ks k
  | .redefined k => Redefined c ps ks k
  | .unknown k => Unknown c ks k

/-! ### Alternatives -/

/-- The matchers joined, from left to right. -/
def options : Choice F V → List (Matcher F V)
  | .dataclass c => [c.toMatcher]
  | .other m => [m]
  | .join l r => options l ++ options r

/-- The result of the first option which does not fail to match. -/
def First (ms : List (Matcher F V)) (n : Node F) (x : Result (Any F V)) : Prop :=
  ∃ p m s, ms = p ++ m :: s ∧ (∀ m' ∈ p, ∃ r, m'.run n = .unmatched r) ∧ m.run n = x

/-- A matcher fails on nodes of types it does not declare. -/
def Honest (m : Matcher F V) : Prop := ∀ n, m.nodeType n.type = false → ∃ r, m.run n = .unmatched r

/-- Options other than classes: they keep to the types they declare, which do not include classes. -/
def Sound : Choice F V → Prop
  | .dataclass _ => True
  | .other m => Honest m ∧ m.nodeType .dataclass = false
  | .join l r => Sound l ∧ Sound r

end Rampack.Pyon.Spec
