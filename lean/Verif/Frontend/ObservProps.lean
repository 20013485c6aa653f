import Verif.Frontend.ObservWhole
import Verif.Frontend.InputProps
/-
Property C110: observables given as expressions are what the documentation says, and no other expressions are taken.
-/
namespace Rampack.Observ

open Pyon Pyon.Spec Rampack.Input Rampack.Input.Spec Rampack.Observ.Spec

variable {conv : ℚ → Option ℝ}

/-- **C110** A text is accepted as an observable exactly if it is an expression which means one, and then it is that observable with that scope. -/
theorem C110_observable (hconv : Rampack.Spec.RoundsIntegers conv) {t : Text} {o : Scoped} :
    matchObservable conv t = .ok o ↔ ∃ n, parse conv t = .ok n ∧ IsScoped n o := by
  obtain ⟨c, ec, rc⟩ := scoped_reads hconv
  unfold matchObservable
  rw [ec, Outcome.ok_bind]
  cases hn : parse conv t with
  | ok n =>
    rw [Outcome.ok_bind]
    constructor
    · intro h
      cases hr : c.toMatcher.run n with
      | matched a =>
        rw [hr] at h
        obtain ⟨q, hq, rfl⟩ := (rc n a).mp hr
        cases h
        exact ⟨n, rfl, hq⟩
      | unmatched r => rw [hr] at h; cases h
      | thrown m => rw [hr] at h; cases h
    · rintro ⟨n', h1, h2⟩
      cases h1
      have hr := (rc n _).mpr ⟨o, h2, rfl⟩
      rw [hr]
  | throw m => exact ⟨fun h => (by cases h), fun ⟨_, h, _⟩ => (by cases h)⟩
  | ub => exact ⟨fun h => (by cases h), fun ⟨_, h, _⟩ => (by cases h)⟩
  | diverge => exact ⟨fun h => (by cases h), fun ⟨_, h, _⟩ => (by cases h)⟩

/-- **C110** A text is accepted as a bulk observable exactly if it is an expression which means one, and then it is that bulk observable. -/
theorem C110_bulk (hconv : Rampack.Spec.RoundsIntegers conv) {t : Text} {b : Bulk} :
    matchBulkObservable conv t = .ok b ↔ ∃ n, parse conv t = .ok n ∧ IsBulk n b := by
  obtain ⟨c, ec, rc⟩ := bulk_reads hconv
  unfold matchBulkObservable
  rw [ec, Outcome.ok_bind]
  cases hn : parse conv t with
  | ok n =>
    rw [Outcome.ok_bind]
    constructor
    · intro h
      cases hr : c.toMatcher.run n with
      | matched a =>
        rw [hr] at h
        obtain ⟨q, hq, rfl⟩ := (rc n a).mp hr
        cases h
        exact ⟨n, rfl, hq⟩
      | unmatched r => rw [hr] at h; cases h
      | thrown m => rw [hr] at h; cases h
    · rintro ⟨n', h1, h2⟩
      cases h1
      have hr := (rc n _).mpr ⟨b, h2, rfl⟩
      rw [hr]
  | throw m => exact ⟨fun h => (by cases h), fun ⟨_, h, _⟩ => (by cases h)⟩
  | ub => exact ⟨fun h => (by cases h), fun ⟨_, h, _⟩ => (by cases h)⟩
  | diverge => exact ⟨fun h => (by cases h), fun ⟨_, h, _⟩ => (by cases h)⟩

/-- Conversion without rounding. -/
theorem exact_rounds : Rampack.Spec.RoundsIntegers (fun q => some (q : ℝ)) := by intro i; simp

/-- **C110** An expression means at most one observable and at most one bulk observable. -/
theorem C110_unique {n : Node ℝ} :
    (∀ o o', IsScoped n o → IsScoped n o' → o = o') ∧ ∀ b b', IsBulk n b → IsBulk n b' → b = b' := by
  obtain ⟨c, -, rc⟩ := scoped_reads exact_rounds
  obtain ⟨d, -, rd⟩ := bulk_reads exact_rounds
  constructor
  · intro o o' h h'
    have h1 := (rc n _).mpr ⟨o, h, rfl⟩
    have h2 := (rc n _).mpr ⟨o', h', rfl⟩
    rw [h1] at h2
    injection h2 with h2
    injection h2 with h2
    injection h2 with h2
    injection h2
  · intro o o' h h'
    have h1 := (rd n _).mpr ⟨o, h, rfl⟩
    have h2 := (rd n _).mpr ⟨o', h', rfl⟩
    rw [h1] at h2
    injection h2 with h2
    injection h2 with h2
    injection h2 with h2
    injection h2

/-- **C110** The scope of an observable is never empty and has no bits other than the three. -/
theorem C110_scope (hconv : Rampack.Spec.RoundsIntegers conv) {t : Text} {o : Scoped} (h : matchObservable conv t = .ok o) : 0 < o.scope ∧ o.scope < 8 := by
  obtain ⟨n, -, hs⟩ := (C110_observable hconv).mp h
  clear h
  cases hs with
  | full => exact (by decide : 0 < scopeOf true true true ∧ scopeOf true true true < 8)
  | @given _ _ _ _ _ s a i _ _ _ _ _ h' =>
    exact (by decide : ∀ s a i : Bool, s = true ∨ a = true ∨ i = true → 0 < scopeOf s a i ∧ scopeOf s a i < 8) s a i h'

/-! ### Cases -/

/-- `pressure` -/
example (hconv : Rampack.Spec.RoundsIntegers conv) : matchObservable conv "pressure".toList = .ok ⟨7, .pressure⟩ := by
  refine (C110_observable hconv).mpr ⟨.dataclass "pressure".toList [] [], ?_, .full (.plain (name := "pressure") (by simp [Simple]) ?_)⟩
  · exact C45_parses_partial hconv ⟨[], "pressure".toList, [], .nil, .name ⟨'p', "ressure".toList, rfl, by unfold Rampack.Spec.Letter; decide⟩
      (by unfold Rampack.Spec.Reserved; decide), .inl .nil, by simp⟩
  · exact call_positional (ps := []) (ds := []) rfl rfl

/-- `scoped(nematic_order(True), averaging=True)`, with positional arguments only: `scoped(nematic_order(True), False, True)` -/
example : IsScoped (.dataclass "scoped".toList [.dataclass "nematic_order".toList [.boolean true] [], .boolean false, .boolean true] []) ⟨2, .nematicOrder true⟩ :=
  .given (snapshot := false) (averaging := true) (inline := false) (call_positional (ds := [.boolean false]) rfl rfl)
    (.nematic (call_positional (ds := []) rfl rfl) rfl) rfl rfl rfl (by decide)

/-- `bond_order([0, 0, 1], [6, 4])` -/
example : IsScoped (.dataclass "bond_order".toList [.array [.int 0, .int 0, .int 1], .array [.int 6, .int 4]] [])
    ⟨7, .bondOrder [4, 6] [0, 0, 1] "o".toList "o".toList true⟩ := by
  refine .full (.bond (ranks := [6, 4]) (call_positional (ds := [.string "o".toList, .string "o".toList, .boolean true]) rfl rfl) ⟨?_, rfl, 1, by decide⟩ (.all ?_ (by decide))
    (by decide) (by decide) ⟨rfl, by decide⟩ ⟨rfl, by decide⟩ rfl)
  · exact ⟨_, rfl, .cons ⟨0, rfl, by decide⟩ (.cons ⟨0, rfl, by decide⟩ (.cons ⟨1, rfl, by decide⟩ .nil))⟩
  · exact ⟨_, rfl, .cons ⟨rfl, by decide⟩ (.cons ⟨rfl, by decide⟩ .nil)⟩

/-- `density_histogram(None, 50)` -/
example : IsBulk (.dataclass "density_histogram".toList [.none, .int 50] []) (.density [1, 50, 1] .dummy .unit false) :=
  .density (call_positional (ds := [.none, .none, .string "unit".toList, .boolean false]) rfl rfl) .none (.some ⟨rfl, by decide⟩) .none (by decide) .none .unit rfl

/-- `pair_averaged_correlation(5, 50, radial, s220("primary"))` -/
example : IsBulk (.dataclass "pair_averaged_correlation".toList [.int 5, .int 50, .dataclass "radial".toList [] [],
    .dataclass "s220".toList [.string "primary".toList] []] []) (.pairAveraged (.radial "o".toList) (.s220 .primary) 5 50 false) :=
  .pairAveraged (call_positional (ds := [.boolean false]) rfl rfl) ⟨.inr ⟨5, rfl, by norm_num⟩, by norm_num⟩ ⟨rfl, by decide⟩
    (.radial (call_positional (ps := []) (ds := [.string "o".toList]) rfl rfl) ⟨rfl, by decide⟩) (.s220 (call_positional (ds := []) rfl rfl) .primary) rfl

/-! ### Where the program is not as documented -/

/-- Invocations with positional arguments for the whole signature have these arguments. -/
theorem call_args {name : String} {signature : List (String × Option (Node ℝ))} {ps args : List (Node ℝ)} {m : Text}
    (h : Call (.dataclass m ps []) name signature args) {i : Nat} {k : String} {dflt : Option (Node ℝ)} {a : Node ℝ} (hs : signature[i]? = some (k, dflt))
    (hp : ps[i]? = some a) : args[i]? = some a := by
  obtain ⟨ps', ks, e, hl, -, hn, ha⟩ := h
  cases e
  have hi : i < args.length := by
    rw [hn]
    exact (List.getElem?_eq_some_iff.mp hs).1
  have := ha i k dflt args[i] hs (List.getElem?_eq_getElem hi)
  rcases this with ⟨h1, -⟩ | ⟨h1, -⟩ | ⟨h1, -⟩
  · rw [List.getElem?_eq_getElem hi, ← h1, hp]
  · rw [List.getElem?_eq_none h1] at hp; cases hp
  · rw [List.getElem?_eq_none h1] at hp; cases hp

/-- Texts of invocations with integers and arrays. -/
theorem parse_text (hconv : Rampack.Spec.RoundsIntegers conv) {t : Text} {n : Node ℝ} (h : Rampack.Spec.Expressible conv (fun _ => []) n)
    (ht : t = Rampack.Spec.canonical (fun _ => []) n) : parse conv t = .ok n := by
  rw [ht]
  exact C45_canonical hconv h

/-- The decimal form, computed by structural recursion. -/
def decimals : Nat → Nat → Text
  | 0, n => Rampack.Spec.decimalText n
  | k + 1, n => if n < 10 then [Char.ofNat (48 + n)] else decimals k (n / 10) ++ [Char.ofNat (48 + n % 10)]

theorem decimals_eq (k n : Nat) : Rampack.Spec.decimalText n = decimals k n := by
  induction k generalizing n with
  | zero => rfl
  | succ k ih => rw [Rampack.Spec.decimalText, decimals, ih]

/-- Evaluation of the canonical form. -/
macro "eval_text" : tactic => `(tactic| (simp only [Rampack.Spec.canonical, Rampack.Spec.canonicals, Rampack.Spec.canonicalEntries, Rampack.Spec.joinText, Rampack.Spec.intText, decimals_eq 12, List.append_nil]; rfl))

/-- **C110** The documentation of `density_histogram` says that a direction is turned off by `None` or by 1 bin. It is by `None`, but an expression with
1 bin is refused. -/
theorem C110_one_bin_violated (hconv : Rampack.Spec.RoundsIntegers conv) :
    matchBulkObservable conv "density_histogram(None, 50)".toList = .ok (.density [1, 50, 1] .dummy .unit false) ∧
      ∀ b, matchBulkObservable conv "density_histogram(1, 50)".toList ≠ .ok b := by
  constructor
  · refine (C110_bulk hconv).mpr ⟨.dataclass "density_histogram".toList [.none, .int 50] [], parse_text hconv ?_ (by eval_text), ?_⟩
    · refine .dataclass ⟨'d', "ensity_histogram".toList, rfl, by unfold Rampack.Spec.Letter; decide⟩ (by unfold Rampack.Spec.Reserved; decide) ?_ (by simp) (by simp) (by simp)
      simp only [List.mem_cons, List.not_mem_nil, or_false, forall_eq_or_imp, forall_eq]
      exact ⟨.none, .int (by unfold Rampack.Spec.InLong; decide)⟩
    · exact .density (call_positional (ds := [.none, .none, .string "unit".toList, .boolean false]) rfl rfl) .none (.some ⟨rfl, by decide⟩) .none (by decide)
        .none .unit rfl
  · intro b h
    obtain ⟨n, hn, hb⟩ := (C110_bulk hconv).mp h
    clear h
    have := parse_text (t := "density_histogram(1, 50)".toList) (n := .dataclass "density_histogram".toList [.int 1, .int 50] []) hconv ?_ (by eval_text)
    · rw [hn] at this
      cases this
      have key : ∀ x : Nat, IsMaybeBins (.int 1) x → False := by
        intro x hx
        cases hx with
        | some h =>
          obtain ⟨h1, h2⟩ := h
          injection h1 with h1
          omega
      have no : ∀ {name : String} {g : List (String × Option (Node ℝ))} {args : List (Node ℝ)}, name.toList ≠ "density_histogram".toList →
          ¬ Call (.dataclass "density_histogram".toList [.int 1, .int 50] []) name g args := by
        rintro name g args hne ⟨ps, ks, e, -⟩
        injection e with e
        exact hne e.symm
      cases hb with
      | pairDensity h => exact no (name := "pair_density_correlation") (by decide) h
      | pairAveraged h => exact no (name := "pair_averaged_correlation") (by decide) h
      | evolution h => exact no (name := "probability_evolution") (by decide) h
      | binAveraged h => exact no (name := "bin_averaged_function") (by decide) h
      | density h h1 =>
        have := call_args (i := 0) h rfl rfl
        simp only [List.getElem?_cons_zero, Option.some.injEq] at this
        subst this
        exact key _ h1
    · refine .dataclass ⟨'d', "ensity_histogram".toList, rfl, by unfold Rampack.Spec.Letter; decide⟩ (by unfold Rampack.Spec.Reserved; decide) ?_ (by simp) (by simp) (by simp)
      simp only [List.mem_cons, List.not_mem_nil, or_false, forall_eq_or_imp, forall_eq]
      exact ⟨.int (by unfold Rampack.Spec.InLong; decide), .int (by unfold Rampack.Spec.InLong; decide)⟩

/-- **C110** Miller indices are kept in 32 bits without a check: 4294967297 is taken as 1. -/
theorem C110_wrapped_violated (hconv : Rampack.Spec.RoundsIntegers conv) :
    matchObservable conv "bond_order([0, 0, 4294967297], 6)".toList = matchObservable conv "bond_order([0, 0, 1], 6)".toList ∧
      matchObservable conv "bond_order([0, 0, 4294967297], 6)".toList = .ok ⟨7, .bondOrder [6] [0, 0, 1] "o".toList "o".toList true⟩ := by
  have name : Rampack.Spec.IsIdentifier "bond_order".toList := ⟨'b', "ond_order".toList, rfl, by unfold Rampack.Spec.Letter; decide⟩
  have key : ∀ i : Int, Rampack.Spec.InLong i → Int.bmod i (2 ^ 32) = 1 → ∀ t : Text,
      t = Rampack.Spec.canonical (fun _ => []) (.dataclass "bond_order".toList [.array [.int 0, .int 0, .int i], .int 6] [] : Node ℝ) →
      matchObservable conv t = .ok ⟨7, .bondOrder [6] [0, 0, 1] "o".toList "o".toList true⟩ := by
    intro i hl hi t ht
    refine (C110_observable hconv).mpr ⟨_, parse_text hconv (.dataclass name (by unfold Rampack.Spec.Reserved; decide) ?_ (by simp) (by simp) (by simp)) ht, ?_⟩
    · simp only [List.mem_cons, List.not_mem_nil, or_false, forall_eq_or_imp, forall_eq]
      refine ⟨.array ?_, .int (by unfold Rampack.Spec.InLong; decide)⟩
      simp only [List.mem_cons, List.not_mem_nil, or_false, forall_eq_or_imp, forall_eq]
      exact ⟨.int (by unfold Rampack.Spec.InLong; decide), .int (by unfold Rampack.Spec.InLong; decide), .int hl⟩
    · refine .full (.bond (ranks := [6]) (call_positional (ds := [.string "o".toList, .string "o".toList, .boolean true]) rfl rfl) ⟨?_, rfl, 1, by decide⟩
        (.single ⟨rfl, by decide⟩) (by decide) (by decide) ⟨rfl, by decide⟩ ⟨rfl, by decide⟩ rfl)
      exact ⟨_, rfl, .cons ⟨0, rfl, by decide⟩ (.cons ⟨0, rfl, by decide⟩ (.cons ⟨i, rfl, hi.symm⟩ .nil))⟩
  have h1 := key 4294967297 (by unfold Rampack.Spec.InLong; decide) (by decide) _ (by eval_text : "bond_order([0, 0, 4294967297], 6)".toList = _)
  have h2 := key 1 (by unfold Rampack.Spec.InLong; decide) (by decide) _ (by eval_text : "bond_order([0, 0, 1], 6)".toList = _)
  exact ⟨h1.trans h2.symm, h1⟩

/-- **C110** A positive largest Miller index of 2^31 is refused, and not as an invalid expression: the constructor of the observable throws. The number just
below is accepted. -/
theorem C110_large_violated (hconv : Rampack.Spec.RoundsIntegers conv) :
    (∀ o, matchObservable conv "smectic_order(2147483648)".toList ≠ .ok o) ∧
      mkSmectic [2147483648, 2147483648, 2147483648] false "o".toList (.const 1) = .throw "Precondition" ∧
      ∃ o, matchObservable conv "smectic_order(2147483647)".toList = .ok o := by
  have name : Rampack.Spec.IsIdentifier "smectic_order".toList := ⟨'s', "mectic_order".toList, rfl, by unfold Rampack.Spec.Letter; decide⟩
  have text : ∀ i : Int, Rampack.Spec.InLong i → ∀ t : Text, t = Rampack.Spec.canonical (fun _ => []) (.dataclass "smectic_order".toList [.int i] [] : Node ℝ) →
      parse conv t = .ok (.dataclass "smectic_order".toList [.int i] []) := by
    intro i hl t ht
    refine parse_text hconv (.dataclass name (by unfold Rampack.Spec.Reserved; decide) ?_ (by simp) (by simp) (by simp)) ht
    simp only [List.mem_cons, List.not_mem_nil, or_false, forall_eq]
    exact .int hl
  have no : ∀ {name : String} {g : List (String × Option (Node ℝ))} {args : List (Node ℝ)} {i : Int}, name.toList ≠ "smectic_order".toList →
      ¬ Call (.dataclass "smectic_order".toList [.int i] []) name g args := by
    rintro name g args i hne ⟨ps, ks, e, -⟩
    injection e with e
    exact hne e.symm
  refine ⟨fun o h => ?_, rfl, ?_⟩
  · obtain ⟨n, hn, hs⟩ := (C110_observable hconv).mp h
    clear h
    rw [text 2147483648 (by unfold Rampack.Spec.InLong; decide) _ (by eval_text)] at hn
    cases hn
    have main : ∀ o, ¬ IsObservable (.dataclass "smectic_order".toList [.int 2147483648] []) o := by
      intro o ho
      cases ho with
      | plain hm h =>
        refine no ?_ h
        clear h
        simp only [Simple, List.mem_cons, Prod.mk.injEq, List.not_mem_nil, or_false] at hm
        rcases hm with ⟨rfl, -⟩ | ⟨rfl, -⟩ | ⟨rfl, -⟩ | ⟨rfl, -⟩ | ⟨rfl, -⟩ | ⟨rfl, -⟩ | ⟨rfl, -⟩ | ⟨rfl, -⟩ | ⟨rfl, -⟩ <;> decide
      | nematic h => exact no (name := "nematic_order") (by decide) h
      | bond h => exact no (name := "bond_order") (by decide) h
      | fourier h =>
        obtain ⟨a, b, h, -⟩ := h
        exact no (name := "fourier_tracker") (by decide) h
      | smectic h h1 h2 =>
        have := call_args (i := 0) h rfl rfl
        simp only [List.getElem?_cons_zero, Option.some.injEq] at this
        subst this
        cases h1 with
        | single h1 =>
          obtain ⟨h1, -⟩ := h1
          injection h1 with h1
          obtain ⟨rfl, h2, -⟩ := h2
          have h3 := h2 _ (List.mem_cons_self ..)
          dsimp only at h3
          rw [← h1] at h3
          exact absurd h3 (by decide)
        | all h1 =>
          obtain ⟨⟨ns, h1, -⟩, -⟩ := h1
          cases h1
    cases hs with
    | full h => exact main _ h
    | given h => exact no (name := "scoped") (by decide) h
  · refine ⟨_, (C110_observable hconv).mpr ⟨_, text 2147483647 (by unfold Rampack.Spec.InLong; decide) _ (by eval_text), .full (.smectic
      (call_positional (ds := [.boolean false, .string "o".toList, .dataclass "const".toList [] []]) rfl rfl) (.single (k := 2147483647) ⟨rfl, by decide⟩)
      ⟨rfl, by decide, 2147483647, by decide⟩ rfl ⟨rfl, by decide⟩ (.const (x := 1) (call_positional (ps := []) (ds := [.int 1]) rfl rfl) (.inr ⟨1, rfl, by norm_num⟩))
      (.inl ⟨1, rfl⟩))⟩⟩

end Rampack.Observ
