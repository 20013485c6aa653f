/-
Outcomes of C++ operations.

`ok`      normal return,
`throw`   an exception (contract macros `Expects`/`Assert`/`Validate…` of /repo/src/utils/Exceptions.h, or a C++
          standard exception),
`ub`      undefined behaviour (out-of-range `operator[]`, `x / 0`, `x % 0`, dereferencing an empty optional, …),
`diverge` a loop which ran out of the (arbitrarily large) fuel given to it.
-/
namespace Rampack

universe u v

inductive Outcome (α : Type u) where
  | ok (a : α)
  | throw (msg : String)
  | ub
  | diverge
  deriving Repr, DecidableEq

namespace Outcome

variable {α : Type u} {β : Type v}

@[inline] protected def bind : Outcome α → (α → Outcome β) → Outcome β
  | ok a, f => f a
  | throw e, _ => throw e
  | ub, _ => ub
  | diverge, _ => diverge

instance : Monad Outcome.{u} where
  pure := ok
  bind := Outcome.bind

@[simp] theorem bind_ok (a : α) (f : α → Outcome β) : Outcome.bind (ok a) f = f a := rfl
@[simp] theorem bind_throw (e : String) (f : α → Outcome β) : Outcome.bind (throw e) f = throw e := rfl
@[simp] theorem bind_ub (f : α → Outcome β) : Outcome.bind ub f = ub := rfl
@[simp] theorem bind_diverge (f : α → Outcome β) : Outcome.bind diverge f = diverge := rfl

@[simp] theorem pure_eq {α : Type u} (a : α) : (pure a : Outcome α) = ok a := rfl
@[simp] theorem ok_bind {α β : Type u} (a : α) (f : α → Outcome β) : (ok a >>= f) = f a := rfl
@[simp] theorem throw_bind {α β : Type u} (e : String) (f : α → Outcome β) : ((throw e : Outcome α) >>= f) = throw e :=
  rfl
@[simp] theorem ub_bind {α β : Type u} (f : α → Outcome β) : ((ub : Outcome α) >>= f) = ub := rfl
@[simp] theorem diverge_bind {α β : Type u} (f : α → Outcome β) : ((diverge : Outcome α) >>= f) = diverge := rfl

theorem bind_assoc' {α β γ : Type u} (x : Outcome α) (f : α → Outcome β) (g : β → Outcome γ) :
    (x >>= f) >>= g = x >>= fun a => f a >>= g := by
  cases x <;> rfl

@[simp] theorem map_ok {α β : Type u} (f : α → β) (a : α) : (f <$> (ok a)) = ok (f a) := rfl
@[simp] theorem map_throw {α β : Type u} (f : α → β) (e) : (f <$> (throw e : Outcome α)) = throw e := rfl
@[simp] theorem map_ub {α β : Type u} (f : α → β) : (f <$> (ub : Outcome α)) = ub := rfl

instance : LawfulMonad Outcome.{u} := LawfulMonad.mk'
  (id_map := by intro α x; cases x <;> rfl)
  (pure_bind := by intros; rfl)
  (bind_assoc := by intro α β γ x f g; cases x <;> rfl)

/-- A contract check: `Expects(b)` throws when the condition is false (src/utils/Exceptions.h). -/
def require (b : Bool) (msg : String) : Outcome Unit := if b then ok () else throw msg

@[simp] theorem require_true (msg : String) : require true msg = ok () := rfl
@[simp] theorem require_false (msg : String) : require false msg = throw msg := rfl

/-- The outcome is a normal return. -/
def isOk : Outcome α → Bool
  | ok _ => true
  | _ => false

/-- The outcome is an exception. -/
def isThrow : Outcome α → Bool
  | throw _ => true
  | _ => false

end Outcome

/-- `xs[i]` of a `std::vector`/`std::array` : undefined behaviour when out of range. -/
def vget {α : Type u} (xs : List α) (i : Nat) : Outcome α :=
  match xs[i]? with
  | some a => .ok a
  | none => .ub

/-- `xs[i] = a` of a `std::vector`/`std::array` : undefined behaviour when out of range. -/
def vset {α : Type u} (xs : List α) (i : Nat) (a : α) : Outcome (List α) :=
  if i < xs.length then .ok (xs.set i a) else .ub

theorem vget_ok {α : Type u} {xs : List α} {i : Nat} (h : i < xs.length) : vget xs i = .ok xs[i] := by
  simp [vget, h]

theorem vset_ok {α : Type u} {xs : List α} {i : Nat} {a : α} (h : i < xs.length) : vset xs i a = .ok (xs.set i a) := by
  simp [vset, h]

end Rampack
