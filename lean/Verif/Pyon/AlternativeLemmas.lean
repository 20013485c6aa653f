import Verif.Pyon.BindingLemmas
/-
Lemmas on alternatives.
-/
namespace Rampack.Pyon

open Spec

variable {F V : Type}

/-- The matcher fails on the node. -/
def Fails (n : Node F) (m : Matcher F V) : Prop := ∃ r, m.run n = .unmatched r

theorem first_cons {m : Matcher F V} {ms : List (Matcher F V)} {n : Node F} {x : Result (Any F V)} (hx : ∀ r, x ≠ .unmatched r) :
    First (m :: ms) n x ↔ m.run n = x ∨ (Fails n m ∧ First ms n x) := by
  constructor
  · rintro ⟨p, m', s, h, hp, hm⟩
    cases p with
    | nil =>
      simp only [List.nil_append, List.cons.injEq] at h
      rw [h.1]
      exact .inl hm
    | cons y p =>
      simp only [List.cons_append, List.cons.injEq] at h
      refine .inr ⟨?_, p, m', s, h.2, fun z hz => hp z (List.mem_cons_of_mem _ hz), hm⟩
      rw [h.1]
      exact hp y List.mem_cons_self
  · rintro (h | ⟨hf, p, m', s, rfl, hp, hm⟩)
    · exact ⟨[], m, ms, rfl, by simp, h⟩
    · refine ⟨m :: p, m', s, rfl, ?_, hm⟩
      intro z hz
      rcases List.mem_cons.mp hz with rfl | hz
      · exact hf
      · exact hp z hz

theorem firstMatch_iff {ms : List (Matcher F V)} {n : Node F} {x : Result (Any F V)} (hx : ∀ r, x ≠ .unmatched r) {rs : List Report} :
    firstMatch n ms rs = x ↔ First ms n x := by
  induction ms generalizing rs with
  | nil =>
    simp only [firstMatch]
    constructor
    · intro h
      exact absurd h.symm (hx _)
    · rintro ⟨p, m, s, h, _⟩
      simp at h
  | cons m ms ih =>
    rw [first_cons hx, firstMatch]
    cases h : m.run n with
    | matched a => simp [Fails, h]
    | unmatched r =>
      simp only [ih, Fails, h]
      constructor
      · intro h'
        exact .inr ⟨⟨r, rfl⟩, h'⟩
      · rintro (h' | ⟨_, h'⟩)
        · exact absurd h'.symm (hx r)
        · exact h'
    | thrown msg => simp [Fails, h]

theorem firstMatch_unmatched {ms : List (Matcher F V)} {n : Node F} {rs : List Report} :
    (∃ r, firstMatch n ms rs = .unmatched r) ↔ ∀ m ∈ ms, Fails n m := by
  induction ms generalizing rs with
  | nil => simp [firstMatch]
  | cons m ms ih =>
    rw [firstMatch, List.forall_mem_cons]
    cases h : m.run n with
    | matched a => simp [Fails, h]
    | unmatched r =>
      simp only
      rw [ih]
      simp [Fails, h]
    | thrown msg => simp [Fails, h]

/-- Options which fail can be left out. -/
theorem first_filter {ms : List (Matcher F V)} {n : Node F} {x : Result (Any F V)} (hx : ∀ r, x ≠ .unmatched r) (p : Matcher F V → Bool)
    (hp : ∀ m ∈ ms, p m = false → Fails n m) : First (ms.filter p) n x ↔ First ms n x := by
  induction ms with
  | nil => simp
  | cons m ms ih =>
    have ih := ih (fun m' h => hp m' (List.mem_cons_of_mem _ h))
    rw [first_cons hx, ← ih]
    cases h : p m with
    | true => rw [List.filter_cons_of_pos h, first_cons hx]
    | false =>
      rw [List.filter_cons_of_neg (by simp [h])]
      have hf := hp m List.mem_cons_self h
      constructor
      · intro h'
        exact .inr ⟨hf, h'⟩
      · rintro (h' | ⟨_, h'⟩)
        · obtain ⟨r, hr⟩ := hf
          exact absurd (h'.symm.trans hr) (hx r)
        · exact h'

theorem alternatives_of (e : Choice F V) (a : Alternative F V) : (a.add e.toVariant).alternatives = a.alternatives ++ options e := by
  induction e generalizing a with
  | dataclass c => rfl
  | other m => rfl
  | join l r ihl ihr =>
    change a.alternatives ++ (joined l.toVariant r.toVariant).alternatives = _
    simp only [joined, ihl, ihr, options, List.nil_append]

/-- The classes among the options. -/
def classesOf : Choice F V → List (ClassMatcher F V)
  | .dataclass c => [c]
  | .other _ => []
  | .join l r => classesOf l ++ classesOf r

theorem classes_of (e : Choice F V) (a : Alternative F V) : (a.add e.toVariant).classes = a.classes ++ classesOf e := by
  induction e generalizing a with
  | dataclass c => rfl
  | other m => simp [Choice.toVariant, Alternative.add, classesOf]
  | join l r ihl ihr =>
    change a.classes ++ (joined l.toVariant r.toVariant).classes = _
    simp only [joined, ihl, ihr, classesOf, List.nil_append]

theorem class_fails_name {c : ClassMatcher F V} {name : Text} {ps : List (Node F)} {ks : List (Text × Node F)} (h : c.name ≠ name) :
    Fails (.dataclass name ps ks) c.toMatcher := by
  refine ⟨.className, ?_⟩
  change c.run (.dataclass name ps ks) = .unmatched .className
  rw [ClassMatcher.run, if_pos (Ne.symm h)]

theorem class_honest (c : ClassMatcher F V) : Honest c.toMatcher := by
  intro n hn
  cases n <;> first | exact ⟨_, rfl⟩ | simp [ClassMatcher.toMatcher, Node.type] at hn

theorem sound_honest {e : Choice F V} (he : Sound e) : ∀ m ∈ options e, Honest m := by
  induction e with
  | dataclass c =>
    intro m hm
    rw [List.mem_singleton.mp hm]
    exact class_honest c
  | other m =>
    intro m' hm
    rw [List.mem_singleton.mp hm]
    exact he.1
  | join l r ihl ihr =>
    intro m hm
    rcases List.mem_append.mp hm with hm | hm
    · exact ihl he.1 m hm
    · exact ihr he.2 m hm

theorem first_append {ms ms' : List (Matcher F V)} {n : Node F} {x : Result (Any F V)} (hx : ∀ r, x ≠ .unmatched r) :
    First (ms ++ ms') n x ↔ First ms n x ∨ ((∀ m ∈ ms, Fails n m) ∧ First ms' n x) := by
  induction ms with
  | nil => simp [First]
  | cons m ms ih =>
    rw [List.cons_append, first_cons hx, first_cons hx, ih, List.forall_mem_cons]
    tauto

theorem sound_classes {e : Choice F V} (he : Sound e) {name : Text} {ps : List (Node F)} {ks : List (Text × Node F)} {x : Result (Any F V)}
    (hx : ∀ r, x ≠ .unmatched r) :
    (First (options e) (.dataclass name ps ks) x ↔ First ((classesOf e).map (·.toMatcher)) (.dataclass name ps ks) x) ∧
    ((∀ m ∈ options e, Fails (.dataclass name ps ks) m) ↔ ∀ m ∈ (classesOf e).map (·.toMatcher), Fails (.dataclass name ps ks) m) := by
  induction e with
  | dataclass c => exact ⟨Iff.rfl, Iff.rfl⟩
  | other m =>
    have hf : Fails (.dataclass name ps ks) m := he.1 _ he.2
    refine ⟨?_, by simp [options, classesOf, hf]⟩
    simp only [options, classesOf, List.map_nil]
    rw [first_cons hx]
    constructor
    · rintro (h | ⟨_, h⟩)
      · obtain ⟨r, hr⟩ := hf
        exact absurd (h.symm.trans hr) (hx r)
      · exact h
    · intro h
      exact .inr ⟨hf, h⟩
  | join l r ihl ihr =>
    have hl := ihl he.1
    have hr := ihr he.2
    simp only [options, classesOf, List.map_append]
    refine ⟨?_, ?_⟩
    · rw [first_append hx, first_append hx, hl.1, hl.2, hr.1]
    · simp only [List.mem_append, or_imp, forall_and, hl.2, hr.2]

/-- What an alternative gives, with the reports of failures left out. -/
theorem alternative_run {l r : Choice F V} (he : Sound (.join l r)) {n : Node F} {x : Result (Any F V)} (hx : ∀ r, x ≠ .unmatched r) :
    ((Choice.join l r).toMatcher.run n = x ↔ First (options (.join l r)) n x) ∧
    ((∃ q, (Choice.join l r).toMatcher.run n = .unmatched q) ↔ ∀ m ∈ options (.join l r), Fails n m) := by
  have ha : (joined l.toVariant r.toVariant).alternatives = options (.join l r) := by
    simp only [joined, alternatives_of, options, List.nil_append]
  have hc : (joined l.toVariant r.toVariant).classes = classesOf (.join l r) := by
    simp only [joined, classes_of, classesOf, List.nil_append]
  have hrun : ∀ vs, (joined l.toVariant r.toVariant).variants n = vs →
      ((Choice.join l r).toMatcher.run n = x ↔ First vs n x) ∧ ((∃ q, (Choice.join l r).toMatcher.run n = .unmatched q) ↔ ∀ m ∈ vs, Fails n m) := by
    intro vs hvs
    change ((joined l.toVariant r.toVariant).run n = x ↔ _) ∧ ((∃ q, (joined l.toVariant r.toVariant).run n = .unmatched q) ↔ _)
    unfold Alternative.run
    rw [hvs]
    cases vs with
    | nil =>
      refine ⟨?_, by simp⟩
      constructor
      · intro h
        exact absurd h.symm (hx _)
      · rintro ⟨p, m, s, h, _⟩
        simp at h
    | cons v vs => exact ⟨firstMatch_iff hx, firstMatch_unmatched⟩
  by_cases hd : ∃ name ps ks, n = .dataclass name ps ks
  · obtain ⟨name, ps, ks, rfl⟩ := hd
    have h := hrun _ rfl
    rw [h.1, h.2]
    have hs := sound_classes he (name := name) (ps := ps) (ks := ks) hx
    rw [hs.1, hs.2]
    simp only [Alternative.variants, hc]
    generalize classesOf (.join l r) = cs
    constructor
    · induction cs with
      | nil => simp
      | cons c cs ih =>
        by_cases hn : c.name = name
        · rw [List.filter_cons_of_pos (by simp [hn]), List.map_cons, List.map_cons, first_cons hx, first_cons hx, ih]
        · rw [List.filter_cons_of_neg (by simp [hn]), List.map_cons, first_cons hx, ih]
          have hf := class_fails_name (ps := ps) (ks := ks) hn
          constructor
          · intro h
            exact .inr ⟨hf, h⟩
          · rintro (h | ⟨_, h⟩)
            · obtain ⟨q, hq⟩ := hf
              exact absurd (h.symm.trans hq) (hx q)
            · exact h
    · simp only [List.forall_mem_map, List.mem_filter, and_imp, beq_iff_eq]
      constructor
      · intro h c hcm
        by_cases hn : c.name = name
        · exact h c hcm hn
        · exact class_fails_name hn
      · intro h c hcm _
        exact h c hcm
  · have hv : (joined l.toVariant r.toVariant).variants n = (options (.join l r)).filter (fun m => m.nodeType n.type) := by
      rw [← ha]
      cases n <;> first | rfl | exact absurd ⟨_, _, _, rfl⟩ hd
    have h := hrun _ hv
    have hh := sound_honest he
    rw [h.1, h.2, first_filter hx _ (fun m hm hp => hh m hm n hp)]
    refine ⟨Iff.rfl, ?_⟩
    simp only [List.mem_filter, and_imp]
    constructor
    · intro h m hm
      cases ht : m.nodeType n.type with
      | true => exact h m hm ht
      | false => exact hh m hm n ht
    · intro h m hm _
      exact h m hm

end Rampack.Pyon
