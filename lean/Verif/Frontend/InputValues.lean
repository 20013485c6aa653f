import Verif.Frontend.InputWhole
import Verif.Param.Props
/-
Lemmas: expressions of parameters have one meaning.
-/
namespace Rampack.Input

open Pyon Pyon.Spec Rampack.Input.Spec

theorem call_name {n : Node ℝ} {name name' : String} {sig sig' : List (String × Option (Node ℝ))} {args args' : List (Node ℝ)} (h : Call n name sig args)
    (h' : Call n name' sig' args') : name = name' := by
  obtain ⟨ps, ks, rfl, -⟩ := h
  obtain ⟨ps', ks', h, -⟩ := h'
  injection h with h
  exact String.toList_inj.mp h

theorem call_unique {n : Node ℝ} {name name' : String} {sig : List (String × Option (Node ℝ))} {args args' : List (Node ℝ)} (h : Call n name sig args)
    (h' : Call n name' sig args') : args = args' := by
  obtain ⟨ps, ks, rfl, -, -, hl, h⟩ := h
  obtain ⟨ps', ks', e, -, -, hl', h'⟩ := h'
  injection e with _ e1 e2
  subst e1 e2
  refine List.ext_getElem? fun i => ?_
  by_cases hi : i < sig.length
  · have hs : sig[i]? = some ((sig[i]).1, (sig[i]).2) := by rw [List.getElem?_eq_getElem hi]
    have ha : args[i]? = some args[i] := List.getElem?_eq_getElem (by omega)
    have ha' : args'[i]? = some args'[i] := List.getElem?_eq_getElem (by omega)
    have given : ∀ {k : Text} {a : Node ℝ}, Given ks k a → NotGiven ks k → False := by
      rintro k a ⟨p, s, rfl, -⟩ hn
      exact hn (k, a) (by simp) rfl
    rw [ha, ha']
    rcases h i _ _ _ hs ha with ⟨p1, p2⟩ | ⟨p1, p2⟩ | ⟨p1, p2, p3⟩ <;> rcases h' i _ _ _ hs ha' with ⟨q1, q2⟩ | ⟨q1, q2⟩ | ⟨q1, q2, q3⟩
    · rw [← p1, ← q1]
    · exact (given q2 p2).elim
    · rw [List.getElem?_eq_none q1] at p1; cases p1
    · exact (given p2 q2).elim
    · rw [given_unique p2 q2]
    · exact (given p2 q2).elim
    · rw [List.getElem?_eq_none p1] at q1; cases q1
    · exact (given q2 p2).elim
    · rw [← p3, ← q3]
  · rw [List.getElem?_eq_none (by omega), List.getElem?_eq_none (by omega)]

theorem number_unique {n : Node ℝ} {x y : ℝ} (h : IsNumber n x) (h' : IsNumber n y) : x = y := by
  rcases h with rfl | ⟨i, rfl, rfl⟩ <;> rcases h' with h | ⟨j, h, rfl⟩
  · injection h
  · cases h
  · cases h
  · injection h with h; rw [h]

theorem number_not_call {n : Node ℝ} {x : ℝ} {name : String} {sig : List (String × Option (Node ℝ))} {args : List (Node ℝ)} (h : IsNumber n x) (h' : Call n name sig args) :
    False := by
  obtain ⟨ps, ks, rfl, -⟩ := h'
  rcases h with h | ⟨i, h, -⟩ <;> cases h

/-- The meaning of a simple parameter is its value. -/
theorem simple_value {n : Node ℝ} {p : Param} (h : SimpleParam n p) (cycle total : Nat) : ∃ x, p.value cycle total = .ok x ∧ SimpleAt n cycle x := by
  cases h with
  | number h => exact ⟨_, rfl, .number h⟩
  | const h h' => exact ⟨_, rfl, .const h h'⟩
  | linear h h1 h2 => exact ⟨_, by rw [Param.value, mul_comm], .linear h h1 h2⟩
  | exp h h1 h2 => exact ⟨_, by rw [Param.value], .exp h h1 h2⟩

theorem simpleAt_unique {n : Node ℝ} {cycle : Nat} {x y : ℝ} (h : SimpleAt n cycle x) (h' : SimpleAt n cycle y) : x = y := by
  cases h with
  | number h =>
    cases h' with
    | number h' => exact number_unique h h'
    | const h' _ => exact (number_not_call h h').elim
    | linear h' _ _ => exact (number_not_call h h').elim
    | exp h' _ _ => exact (number_not_call h h').elim
  | const h h1 =>
    cases h' with
    | number h' => exact (number_not_call h' h).elim
    | const h' h2 =>
      have := call_unique h h'
      injection this with this
      subst this
      exact number_unique h1 h2
    | linear h' _ _ => exact absurd (call_name h h') (by decide)
    | exp h' _ _ => exact absurd (call_name h h') (by decide)
  | linear h h1 h2 =>
    cases h' with
    | number h' => exact (number_not_call h' h).elim
    | const h' h2 => exact absurd (call_name h h') (by decide)
    | linear h' h3 h4 =>
      have := call_unique h h'
      injection this with e1 this
      injection this with e2
      subst e1 e2
      rw [number_unique h1 h3, number_unique h2 h4]
    | exp h' _ _ => exact absurd (call_name h h') (by decide)
  | exp h h1 h2 =>
    cases h' with
    | number h' => exact (number_not_call h' h).elim
    | const h' h2 => exact absurd (call_name h h') (by decide)
    | linear h' h3 h4 => exact absurd (call_name h h') (by decide)
    | exp h' h3 h4 =>
      have := call_unique h h'
      injection this with e1 this
      injection this with e2
      subst e1 e2
      rw [number_unique h1 h3, number_unique h2 h4]

/-- Pieces are not simple parameters. -/
theorem piecewise_not_simple {ps : List (Node ℝ)} {ks : List (Text × Node ℝ)} {cycle : Nat} {x : ℝ} (h : SimpleAt (.dataclass "piecewise".toList ps ks) cycle x) : False := by
  have key : ∀ {name : String} {sig : List (String × Option (Node ℝ))} {args : List (Node ℝ)}, Call (.dataclass "piecewise".toList ps ks) name sig args → "piecewise" = name := by
    rintro name sig args ⟨ps, ks, h, -⟩
    injection h with h
    exact String.toList_inj.mp h
  cases h with
  | number h => rcases h with h | ⟨i, h, -⟩ <;> cases h
  | const h _ => exact absurd (key h) (by decide)
  | linear h _ _ => exact absurd (key h) (by decide)
  | exp h _ _ => exact absurd (key h) (by decide)

theorem pieceFrom_iff {n : Node ℝ} {u : Nat × Param} (h : IsPiece n u) (s : Nat) (q : Node ℝ) (h' : PieceFrom n s q) : s = u.1 ∧ SimpleParam q u.2 := by
  obtain ⟨a, b, h1, h2, h3⟩ := h
  obtain ⟨a', h4, h5⟩ := h'
  have := call_unique h1 h4
  injection this with e1 this
  injection this with e2
  subst e1 e2
  rw [IsSize] at h2
  rw [h2] at h5
  injection h5 with h5
  exact ⟨by exact_mod_cast h5.symm, h3⟩

theorem pieceFrom_of {n : Node ℝ} {u : Nat × Param} (h : IsPiece n u) : ∃ q, PieceFrom n u.1 q ∧ SimpleParam q u.2 := by
  obtain ⟨a, b, h1, h2, h3⟩ := h
  exact ⟨b, ⟨a, h1, h2⟩, h3⟩

/-- Lists of pieces have one meaning in each cycle. -/
theorem pieces_unique {ps : List (Node ℝ)} {l : List (Nat × Param)} (h : List.Forall₂ IsPiece ps l) {b a b' a' : List (Node ℝ)} {n n' q q' : Node ℝ} {s s' cycle : Nat}
    (e : ps = b ++ n :: a) (e' : ps = b' ++ n' :: a') (hn : PieceFrom n s q) (hn' : PieceFrom n' s' q') (hs : s ≤ cycle) (hs' : s' ≤ cycle)
    (ha : ∀ m ∈ a, ∀ s q, PieceFrom m s q → cycle < s) (ha' : ∀ m ∈ a', ∀ s q, PieceFrom m s q → cycle < s) : s = s' ∧ q = q' := by
  have same : n = n' → s = s' ∧ q = q' := by
    rintro rfl
    obtain ⟨x, h1, rfl⟩ := hn
    obtain ⟨y, h2, rfl⟩ := hn'
    have := call_unique h1 h2
    injection this with e1 this
    injection this with e2
    injection e1 with e1
    exact ⟨by exact_mod_cast e1, e2⟩
  rw [e] at e'
  rcases List.append_eq_append_iff.mp e' with ⟨w, h1, h2⟩ | ⟨w, h1, h2⟩
  · cases w with
    | nil => injection h2 with h2; exact same h2
    | cons m w =>
      injection h2 with _ h2
      have := ha n' (by rw [h2]; simp) _ _ hn'
      omega
  · cases w with
    | nil => injection h2 with h2; exact same h2.symm
    | cons m w =>
      injection h2 with _ h2
      have := ha' n (by rw [h2]; simp) _ _ hn
      omega

theorem paramAt_unique {n : Node ℝ} {p : Param} (h : IsParam n p) {cycle : Nat} {x y : ℝ} (hx : ParamAt n cycle x) (hy : ParamAt n cycle y) : x = y := by
  cases h with
  | simple h =>
    obtain ⟨z, -, hz⟩ := simple_value h cycle cycle
    have key : ∀ {w}, ParamAt n cycle w → w = z := by
      intro w hw
      cases hw with
      | simple hw => exact simpleAt_unique hw hz
      | piecewise _ _ _ _ => exact (piecewise_not_simple hz).elim
    rw [key hx, key hy]
  | piecewise h _ _ _ =>
    generalize hn : (Node.dataclass "piecewise".toList _ [] : Node ℝ) = n at hx hy
    cases hx with
    | simple hx => subst hn; exact (piecewise_not_simple hx).elim
    | piecewise p1 p2 p3 p4 =>
      injection hn with _ e1
      generalize hn : (Node.dataclass "piecewise".toList _ [] : Node ℝ) = n at hy
      cases hy with
      | simple hy => subst hn; exact (piecewise_not_simple hy).elim
      | piecewise q1 q2 q3 q4 =>
        injection hn with _ e2
        obtain ⟨rfl, rfl⟩ := pieces_unique h e1 (e1.trans e2) p1 q1 p2 q2 p3 q3
        exact simpleAt_unique p4 q4

end Rampack.Input
