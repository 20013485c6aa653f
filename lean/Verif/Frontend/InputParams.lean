import Verif.Frontend.InputBasics
/-
What the matchers of dynamic parameters read.
-/
namespace Rampack.Input

open Pyon Pyon.Spec Rampack.Input.Spec

variable {X α : Type}

theorem exists_read {m : Matcher ℝ (Value X)} {R : Node ℝ → α → Prop} {wrap : α → Value X} (h : Interprets m R wrap) {ms : List (Matcher ℝ (Value X))}
    {Q : List (Node ℝ) → List (Any ℝ (Value X)) → Prop} :
    (∃ args vals, RunAll (m :: ms) args vals ∧ Q args vals) ↔
      ∃ a x, R a x ∧ ∃ args vals, RunAll ms args vals ∧ Q (a :: args) (.value (wrap x) :: vals) := by
  constructor
  · rintro ⟨args, vals, hr, hq⟩
    cases args with
    | nil => simp [RunAll] at hr
    | cons a args =>
      cases vals with
      | nil => simp [RunAll] at hr
      | cons v vals =>
        obtain ⟨x, hx, rfl⟩ := (h _ _).mp hr.1
        exact ⟨a, x, hx, args, vals, hr.2, hq⟩
  · rintro ⟨a, x, hx, args, vals, hr, hq⟩
    refine ⟨a :: args, .value (wrap x) :: vals, ?_, hq⟩
    exact ⟨(h _ _).mpr ⟨x, hx, rfl⟩, hr⟩

theorem exists_unread {Q : List (Node ℝ) → List (Any ℝ (Value X)) → Prop} : (∃ args vals, RunAll [] args vals ∧ Q args vals) ↔ Q [] [] := by
  constructor
  · rintro ⟨args, vals, hr, hq⟩
    cases args with
    | nil =>
      cases vals with
      | nil => exact hq
      | cons v vals => simp [RunAll] at hr
    | cons a args => simp [RunAll] at hr
  · intro h
    exact ⟨[], [], trivial, h⟩

theorem class_run {c : ClassMatcher ℝ (Value X)} {name : String} {sig ms} (hd : Declares c.arguments sig ms) (hname : c.name = name.toList)
    (hn : (sig.map Prod.fst).Nodup) (hv : c.variadic = none) (hk : c.keyword = none) {n : Node ℝ} {v : Any ℝ (Value X)} :
    c.toMatcher.run n = .matched v ↔ ∃ args vals, RunAll ms args vals ∧ Call n name sig args ∧ Satisfied c.filters ⟨pairs sig vals, [], []⟩ ∧
      c.mapping ⟨pairs sig vals, [], []⟩ = .ok v := by
  change c.run n = _ ↔ _
  rw [class_reads hd hname hn hv hk]
  constructor
  · rintro ⟨a, b, h1, h2, h3⟩
    exact ⟨a, b, h2, h1, h3⟩
  · rintro ⟨a, b, h1, h2, h3⟩
    exact ⟨a, b, h2, h1, h3⟩

theorem ok_bind' {β γ : Type} {a : β} {f : β → Except String γ} : ((.ok a : Except String β) >>= f) = f a := rfl

theorem ok_map' {β γ : Type} {a : β} {f : β → γ} : (.ok a : Except String β).map f = .ok (f a) := rfl

theorem ok_pure' {β : Type} {a : β} : (pure a : Except String β) = .ok a := rfl

theorem error_bind' {β γ : Type} {m : String} {f : β → Except String γ} : ((.error m : Except String β) >>= f) = .error m := rfl

/-- Evaluation of conversions and filters on known arguments. -/
macro "eval_class" : tactic => `(tactic| simp only [ClassMatcher.mapTo, pairs, get_cons, String.reduceEq, if_true, if_false, reduceIte, ok_bind', ok_map',
  ok_pure', asText, asFlag, asReal, asSize, asOptSize, asOptText, asOptReal, asVersion, asParam, asPiece, asSampler, asSamplers, asDirection, asStyle, asWriter,
  asWriters, asRecorder, asRecorders, asObject, asObjects, asShape, asFlags, asSizes, asRun, asRuns, Except.ok.injEq])

variable {conv : ℚ → Option ℝ}

theorem const_reads : ∃ c, createConst (X := X) = .ok c ∧ c.name = "const".toList ∧
    Interprets c.toMatcher (fun n p => ∃ a x, Call n "const" [("value", none)] [a] ∧ IsNumber a x ∧ p = .const x) (fun p => .param (some p)) := by
  refine ⟨_, rfl, rfl, fun n v => ?_⟩
  rw [class_run (.required .nil) rfl (by decide) rfl rfl]
  simp only [exists_read float_reads, exists_unread]
  eval_class
  constructor
  · rintro ⟨a, x, h1, h2, -, rfl⟩
    exact ⟨_, ⟨a, x, h2, h1, rfl⟩, rfl⟩
  · rintro ⟨p, ⟨a, x, h1, h2, rfl⟩, rfl⟩
    exact ⟨a, x, h2, h1, by simp [Satisfied], rfl⟩

theorem linear_reads (hconv : Rampack.Spec.RoundsIntegers conv) : ∃ c, createLinear (X := X) conv = .ok c ∧ c.name = "linear".toList ∧
    Interprets c.toMatcher (fun n p => ∃ a b x y, Call n "linear" [("slope", none), ("intercept", some (.int 0))] [a, b] ∧ IsNumber a x ∧ IsNumber b y ∧
      p = .linear x y) (fun p => .param (some p)) := by
  have h0 : float.run (.int 0) = .matched (.value (.real ((0 : Int) : ℝ)) : Any ℝ (Value X)) := (float_reads _ _).mpr ⟨_, .inr ⟨0, rfl, rfl⟩, rfl⟩
  refine ⟨_, by rw [createLinear, optional_ok (parse_0 hconv) h0]; rfl, rfl, fun n v => ?_⟩
  rw [class_run (.required (.optional h0 .nil)) rfl (by decide) rfl rfl]
  simp only [exists_read float_reads, exists_unread]
  eval_class
  constructor
  · rintro ⟨a, x, h1, b, y, h2, h3, -, rfl⟩
    exact ⟨_, ⟨a, b, x, y, h3, h1, h2, rfl⟩, rfl⟩
  · rintro ⟨p, ⟨a, b, x, y, h3, h1, h2, rfl⟩, rfl⟩
    exact ⟨a, x, h1, b, y, h2, h3, by simp [Satisfied], rfl⟩

theorem exp_reads : ∃ c, createExp (X := X) = .ok c ∧ c.name = "exp".toList ∧
    Interprets c.toMatcher (fun n p => ∃ a b x y, Call n "exp" [("a0", none), ("rate", none)] [a, b] ∧ IsNumber a x ∧ IsNumber b y ∧
      p = .exponential x y) (fun p => .param (some p)) := by
  refine ⟨_, rfl, rfl, fun n v => ?_⟩
  rw [class_run (.required (.required .nil)) rfl (by decide) rfl rfl]
  simp only [exists_read float_reads, exists_unread]
  eval_class
  constructor
  · rintro ⟨a, x, h1, b, y, h2, h3, -, rfl⟩
    exact ⟨_, ⟨a, b, x, y, h3, h1, h2, rfl⟩, rfl⟩
  · rintro ⟨p, ⟨a, b, x, y, h3, h1, h2, rfl⟩, rfl⟩
    exact ⟨a, x, h1, b, y, h2, h3, by simp [Satisfied], rfl⟩

theorem constFloat_reads : Interprets (X := X) constFloat (fun n p => ∃ x, IsNumber n x ∧ p = .const x) (fun p => .param (some p)) := by
  intro n v
  unfold constFloat
  rw [float_run]
  constructor
  · rintro ⟨x, h, -, h'⟩
    cases h'
    exact ⟨_, ⟨x, h, rfl⟩, rfl⟩
  · rintro ⟨p, ⟨x, h, rfl⟩, rfl⟩
    exact ⟨x, h, by simp [Satisfied], rfl⟩

theorem simple_iff {n : Node ℝ} {p : Param} : SimpleParam n p ↔
    (∃ x, IsNumber n x ∧ p = .const x) ∨ (∃ a x, Call n "const" [("value", none)] [a] ∧ IsNumber a x ∧ p = .const x) ∨
      (∃ a b x y, Call n "linear" [("slope", none), ("intercept", some (.int 0))] [a, b] ∧ IsNumber a x ∧ IsNumber b y ∧ p = .linear x y) ∨
      ∃ a b x y, Call n "exp" [("a0", none), ("rate", none)] [a, b] ∧ IsNumber a x ∧ IsNumber b y ∧ p = .exponential x y := by
  constructor
  · rintro (⟨h⟩ | ⟨h, h1⟩ | ⟨h, h1, h2⟩ | ⟨h, h1, h2⟩)
    · exact .inl ⟨_, h, rfl⟩
    · exact .inr (.inl ⟨_, _, h, h1, rfl⟩)
    · exact .inr (.inr (.inl ⟨_, _, _, _, h, h1, h2, rfl⟩))
    · exact .inr (.inr (.inr ⟨_, _, _, _, h, h1, h2, rfl⟩))
  · rintro (⟨x, h, rfl⟩ | ⟨a, x, h, h1, rfl⟩ | ⟨a, b, x, y, h, h1, h2, rfl⟩ | ⟨a, b, x, y, h, h1, h2, rfl⟩)
    · exact .number h
    · exact .const h h1
    · exact .linear h h1 h2
    · exact .exp h h1 h2

theorem heads_nodup {l : List String} (h : l.Nodup) : (l.map fun s => Head.named s.toList).Nodup :=
  h.map (fun a b hab => String.toList_inj.mp (Head.named.inj hab))

/-- Heads of literals are not heads of classes. -/
theorem nodup_literals {hs : List Head} {l : List String} (h : l.Nodup) (hh : hs.Nodup) (hd : ∀ x ∈ hs, ∀ s, x ≠ .named s) :
    (hs ++ l.map fun s => Head.named s.toList).Nodup := by
  rw [List.nodup_append]
  refine ⟨hh, heads_nodup h, ?_⟩
  intro a ha b hb
  obtain ⟨s, -, rfl⟩ := List.mem_map.mp hb
  exact hd a ha _

/-- The matcher of parameters other than piecewise. -/
theorem specific_reads (hconv : Rampack.Spec.RoundsIntegers conv) : ∃ c : Choice ℝ (Value X), createSpecific conv = .ok c ∧ Sound c ∧
    List.Forall₂ Takes (options c) (.number :: ["const", "linear", "exp"].map fun s => Head.named s.toList) ∧
    (∀ n v, (∃ m ∈ options c, m.run n = .matched v) ↔ ∃ p, SimpleParam n p ∧ v = .value (.param (some p))) ∧
    Interprets c.toMatcher SimpleParam (fun p => .param (some p)) := by
  obtain ⟨c1, e1, n1, r1⟩ := const_reads (X := X)
  obtain ⟨c2, e2, n2, r2⟩ := linear_reads (X := X) hconv
  obtain ⟨c3, e3, n3, r3⟩ := exp_reads (X := X)
  have hs : Sound (.join (.join (.join (.other constFloat) (.dataclass c1)) (.dataclass c2)) (.dataclass c3)) :=
    ⟨⟨⟨sound_float, trivial⟩, trivial⟩, trivial⟩
  have ht : List.Forall₂ Takes (options (.join (.join (.join (.other constFloat) (.dataclass c1)) (.dataclass c2)) (.dataclass c3)))
      (.number :: ["const", "linear", "exp"].map fun s => Head.named s.toList) :=
    .cons takes_float (.cons (takes_class n1) (.cons (takes_class n2) (.cons (takes_class n3) .nil)))
  have ho : ∀ n v, (∃ m ∈ options (.join (.join (.join (.other constFloat) (.dataclass c1)) (.dataclass c2)) (.dataclass c3)), m.run n = .matched v) ↔
      ∃ p, SimpleParam n p ∧ v = .value (.param (some p)) := by
    intro n v
    simp only [options, List.cons_append, List.nil_append, List.mem_cons, List.not_mem_nil, or_false, exists_eq_or_imp, exists_eq_left, constFloat_reads n v,
      r1 n v, r2 n v, r3 n v, simple_iff, ← exists_or, ← or_and_right]
  refine ⟨_, by rw [createSpecific, e1, e2, e3]; rfl, hs, ht, ho, fun n v => ?_⟩
  rw [alternative_reads hs ht (nodup_literals (hs := [.number]) (by decide) (by simp) (by simp)), ho]

theorem piece_reads (hconv : Rampack.Spec.RoundsIntegers conv) : ∃ c, createPiece (X := X) conv = .ok c ∧
    Interprets c.toMatcher IsPiece (fun u => .piece u.1 (some u.2)) := by
  obtain ⟨c, e, _, _, _, hr⟩ := specific_reads (X := X) hconv
  refine ⟨_, by rw [createPiece, e]; rfl, fun n v => ?_⟩
  rw [class_run (.required (.required .nil)) rfl (by decide) rfl rfl]
  simp only [exists_read size_reads, exists_read hr, exists_unread]
  eval_class
  constructor
  · rintro ⟨a, x, h1, b, y, h2, h3, -, rfl⟩
    exact ⟨(x, y), ⟨a, b, h3, h1, h2⟩, rfl⟩
  · rintro ⟨⟨x, y⟩, ⟨a, b, h3, h1, h2⟩, rfl⟩
    exact ⟨a, x, h1, b, y, h2, h3, by simp [Satisfied], rfl⟩

theorem variadic_run {c : ClassMatcher ℝ (Value X)} {m : ArrayMatcher ℝ (Value X)} (ha : c.arguments = []) (hv : c.variadic = some m) (hk : c.keyword = none)
    {n : Node ℝ} {v : Any ℝ (Value X)} :
    c.toMatcher.run n = .matched v ↔ ∃ ps as, n = .dataclass c.name ps [] ∧ ArrayOf m ps as ∧ Satisfied c.filters ⟨[], as, []⟩ ∧
      c.mapping ⟨[], as, []⟩ = .ok v := by
  change c.run n = _ ↔ _
  have hnd : (c.arguments.map (·.name)).Nodup := by rw [ha]; simp
  constructor
  · intro h
    obtain ⟨ps, ks, rfl⟩ := C46_kind h
    obtain ⟨_, ⟨st, va, kw⟩, hb, hf, hm⟩ := (C46_binds hnd).mp h
    have hrest := hb.rest
    have hnamed := hb.named
    have hnames := hb.names
    unfold Rest at hrest
    unfold NamedRest at hnamed
    rw [hv] at hrest
    rw [hk] at hnamed
    rw [ha] at hrest hnames
    obtain ⟨hn1, rfl⟩ := hnamed
    have hst : st = [] := by simpa using hnames
    subst hst
    have hks : ks = [] := by
      rw [List.eq_nil_iff_forall_not_mem]
      intro e he
      obtain ⟨a, h', _⟩ := hn1 e he
      rw [ha] at h'
      cases h'
    subst hks
    exact ⟨ps, va, rfl, hrest, hf, hm⟩
  · rintro ⟨ps, as, rfl, h1, h2, h3⟩
    rw [C46_binds hnd]
    refine ⟨rfl, ⟨[], as, []⟩, ⟨by rw [ha]; rfl, by rw [ha]; simp, ?_, ?_⟩, h2, h3⟩
    · unfold Rest
      rw [hv, ha]
      exact h1
    · unfold NamedRest
      rw [hk]
      exact ⟨by simp, rfl⟩

theorem forall₂_reads {m : Matcher ℝ (Value X)} {R : Node ℝ → α → Prop} {wrap : α → Value X} (hm : Interprets m R wrap) (ns : List (Node ℝ))
    (vs : List (Any ℝ (Value X))) : List.Forall₂ (Turns (some m)) ns vs ↔ ∃ l : List α, List.Forall₂ R ns l ∧ vs = l.map fun x => .value (wrap x) := by
  constructor
  · intro h
    induction h with
    | nil => exact ⟨[], .nil, rfl⟩
    | cons h _ ih =>
      obtain ⟨x, hx, rfl⟩ := (hm _ _).mp h
      obtain ⟨l, hl, rfl⟩ := ih
      exact ⟨x :: l, .cons hx hl, rfl⟩
  · rintro ⟨l, h, rfl⟩
    induction h with
    | nil => exact .nil
    | cons h _ ih => exact .cons ((hm _ _).mpr ⟨_, h, rfl⟩) ih

theorem piecesOf_eq (l : List (Nat × Param)) :
    piecesOf (X := X) ⟨[], l.map fun u => .value (.piece u.1 (some u.2)), []⟩ = .ok (l.map fun u => (u.1, some u.2)) := by
  unfold piecesOf
  induction l with
  | nil => rfl
  | cons u l ih =>
    simp only at ih ⊢
    rw [List.map_cons, List.mapM_cons, ih]
    rfl

theorem ascending_iff (l : List (Nat × Option Param)) : ascending l = true ↔ (l.map Prod.fst).Pairwise (· < ·) := by
  induction l with
  | nil => simp [ascending]
  | cons a l ih =>
    cases l with
    | nil => simp [ascending]
    | cons b l =>
      rw [ascending]
      split_ifs with h
      · simp only [Bool.false_eq_true, List.map_cons, List.pairwise_cons, false_iff]
        rintro ⟨h1, _⟩
        have := h1 b.1 (by simp)
        omega
      · rw [ih]
        simp only [List.map_cons, List.pairwise_cons, List.mem_cons]
        constructor
        · rintro ⟨h1, h2⟩
          refine ⟨?_, h1, h2⟩
          rintro x (rfl | hx)
          · omega
          · have := h1 x hx
            omega
        · rintro ⟨_, h1, h2⟩
          exact ⟨h1, h2⟩

theorem piecesInOrder_iff (l : List (Nat × Param)) (hl : l ≠ []) :
    piecesInOrder (X := X) ⟨[], l.map fun u => .value (.piece u.1 (some u.2)), []⟩ = .ok true ↔ InOrder l := by
  unfold piecesInOrder InOrder
  rw [piecesOf_eq, ok_bind']
  cases l with
  | nil => exact absurd rfl hl
  | cons a l =>
    have hm : ((a :: l).map fun u => (u.1, some u.2)).map Prod.fst = (a :: l).map Prod.fst := by simp
    rw [← hm, ← ascending_iff]
    simp only [List.map_cons, List.head?_cons, Option.some.injEq, ok_pure']
    split_ifs with h
    · simp [h]
    · simp only [not_not] at h
      simp [h]

theorem piecewise_reads (hconv : Rampack.Spec.RoundsIntegers conv) : ∃ c, createPiecewise (X := X) conv = .ok c ∧ c.name = "piecewise".toList ∧
    Interprets c.toMatcher (fun n p => ∃ ps l, List.Forall₂ IsPiece ps l ∧ 2 ≤ l.length ∧ InOrder l ∧ PiecewiseOf l p ∧
      n = .dataclass "piecewise".toList ps []) (fun p => .param (some p)) := by
  obtain ⟨c, e, hr⟩ := piece_reads (X := X) hconv
  refine ⟨_, by rw [createPiecewise, e]; rfl, rfl, fun n v => ?_⟩
  rw [variadic_run rfl rfl rfl]
  simp only [ArrayOf, ClassMatcher.mapTo, satisfied_one, arraySizeAtLeast]
  constructor
  · rintro ⟨ps, as, rfl, ⟨h1, h2⟩, h3, h4⟩
    obtain ⟨l, hl, rfl⟩ := (forall₂_reads hr ps as).mp h1
    simp only [List.length_map, Except.ok.injEq, decide_eq_true_eq, ge_iff_le] at h2
    rw [piecesInOrder_iff l (by rintro rfl; simp at h2)] at h3
    rw [piecesOf_eq, ok_bind'] at h4
    cases hp : Param.mkPiecewise (l.map fun u => (u.1, some u.2)) with
    | ok p =>
      rw [hp] at h4
      cases h4
      exact ⟨p, ⟨ps, l, hl, h2, h3, hp, rfl⟩, rfl⟩
    | throw m => rw [hp] at h4; cases h4
    | ub => rw [hp] at h4; cases h4
    | diverge => rw [hp] at h4; cases h4
  · rintro ⟨p, ⟨ps, l, h1, h2, h3, h4, rfl⟩, rfl⟩
    refine ⟨ps, l.map fun u => .value (.piece u.1 (some u.2)), rfl, ⟨(forall₂_reads hr ps _).mpr ⟨l, h1, rfl⟩, ?_⟩, ?_, ?_⟩
    · simp only [List.length_map, Except.ok.injEq, decide_eq_true_eq, ge_iff_le, h2]
    · rw [piecesInOrder_iff l (by rintro rfl; simp at h2)]
      exact h3
    · unfold PiecewiseOf at h4
      rw [piecesOf_eq, ok_bind', h4]
      rfl

theorem isParam_iff {n : Node ℝ} {p : Param} : IsParam n p ↔ SimpleParam n p ∨
    ∃ ps l, List.Forall₂ IsPiece ps l ∧ 2 ≤ l.length ∧ InOrder l ∧ PiecewiseOf l p ∧ n = .dataclass "piecewise".toList ps [] := by
  constructor
  · rintro (⟨h⟩ | ⟨h1, h2, h3, h4⟩)
    · exact .inl h
    · exact .inr ⟨_, _, h1, h2, h3, h4, rfl⟩
  · rintro (h | ⟨ps, l, h1, h2, h3, h4, rfl⟩)
    · exact .simple h
    · exact .piecewise h1 h2 h3 h4

/-- The matcher of `temperature` and `pressure`. -/
theorem dynamic_reads (hconv : Rampack.Spec.RoundsIntegers conv) : ∃ c : Choice ℝ (Value X), dynamicParameter conv = .ok c ∧
    Interprets c.toMatcher (Maybe IsParam) .param := by
  obtain ⟨c, e, hs, ht, ho, hr⟩ := specific_reads (X := X) hconv
  obtain ⟨c', e', hn', hr'⟩ := piecewise_reads (X := X) hconv
  have hs' : Sound (.join (.other (matcherNone (.ok (.value (.param none))))) (.join c (.dataclass c'))) := ⟨sound_none, hs, trivial⟩
  have ht' : List.Forall₂ Takes (options (.join (.other (matcherNone (.ok (.value (.param none))))) (.join c (.dataclass c'))))
      (.none :: .number :: ["const", "linear", "exp", "piecewise"].map fun s => Head.named s.toList) := by
    refine .cons takes_none ?_
    exact List.rel_append ht (.cons (takes_class hn') .nil)
  refine ⟨_, by rw [dynamicParameter, createDynamic, e, e']; rfl, fun n v => ?_⟩
  rw [alternative_reads hs' ht' (nodup_literals (hs := [.none, .number]) (by decide) (by simp) (by simp))]
  simp only [options, List.cons_append, List.nil_append, List.mem_cons, List.mem_append, List.not_mem_nil, or_false, exists_eq_or_imp, or_and_right, exists_or, ho,
    exists_eq_left, hr' n v]
  rw [none_run]
  constructor
  · rintro (⟨rfl, h⟩ | ⟨p, h, rfl⟩ | ⟨p, h, rfl⟩)
    · cases h
      exact ⟨none, rfl, rfl⟩
    · exact ⟨some p, isParam_iff.mpr (.inl h), rfl⟩
    · exact ⟨some p, isParam_iff.mpr (.inr h), rfl⟩
  · rintro ⟨p, h, rfl⟩
    cases p with
    | none => exact .inl ⟨h, rfl⟩
    | some p =>
      rcases isParam_iff.mp h with h | h
      · exact .inr (.inl ⟨p, h, rfl⟩)
      · exact .inr (.inr ⟨p, h, rfl⟩)

end Rampack.Input
