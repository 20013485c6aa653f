import Verif.Pyon.MatcherSpec
import Mathlib.Data.List.Induction
import Mathlib.Data.List.Forall2
/-
Lemmas on maps, filters, collections and the binding of arguments.
-/
namespace Rampack.Pyon

open Spec

variable {F V : Type} {α : Type}

/-! ### Results -/

@[simp] theorem Result.matched_bind {α β : Type} (a : α) (f : α → Result β) : ((.matched a : Result α) >>= f) = f a := rfl
@[simp] theorem Result.unmatched_bind {α β : Type} (r : Report) (f : α → Result β) : ((.unmatched r : Result α) >>= f) = .unmatched r := rfl
@[simp] theorem Result.thrown_bind {α β : Type} (m : String) (f : α → Result β) : ((.thrown m : Result α) >>= f) = .thrown m := rfl
@[simp] theorem Result.pure_eq {α : Type} (a : α) : (pure a : Result α) = .matched a := rfl

theorem Result.bind_eq_matched {α β : Type} {x : Result α} {f : α → Result β} {b : β} :
    (x >>= f) = .matched b ↔ ∃ a, x = .matched a ∧ f a = .matched b := by
  cases x <;> simp

@[simp] theorem Result.inside_eq_matched {α : Type} {g : Report → Report} {x : Result α} {a : α} :
    x.inside g = .matched a ↔ x = .matched a := by
  cases x <;> simp [Result.inside]

theorem checkFilters_iff (fs : List (α → Except String Bool)) (a : α) (u : Unit) : checkFilters fs a = .matched u ↔ Satisfied fs a := by
  induction fs with
  | nil => simp [checkFilters, Satisfied]
  | cons f fs ih =>
    simp only [checkFilters, Satisfied, List.forall_mem_cons]
    cases h : f a with
    | ok b =>
      cases b
      · simp
      · simp only [ih, Satisfied, true_and]
    | error m => simp

theorem converted_iff {x : Except String α} {a : α} : converted x = .matched a ↔ x = .ok a := by
  cases x <;> simp [converted]

theorem finish_iff {fs : List (α → Except String Bool)} {g : α → Except String (Any F V)} {a : α} {v : Any F V} :
    finish fs g a = .matched v ↔ Satisfied fs a ∧ g a = .ok v := by
  unfold finish
  rw [Result.bind_eq_matched]
  simp only [checkFilters_iff, exists_and_left, converted_iff]
  constructor
  · rintro ⟨h, _, h'⟩
    exact ⟨h, h'⟩
  · rintro ⟨h, h'⟩
    exact ⟨h, (), h'⟩

/-! ### Maps -/

theorem put_mem {k : Text} {v : α} {m : List (Text × α)} (hm : Ordered m) (e : Text × α) :
    e ∈ put k v m ↔ e = (k, v) ∨ (e ∈ m ∧ e.1 ≠ k) := by
  induction m with
  | nil => simp [put]
  | cons x m ih =>
    obtain ⟨hx, hm⟩ := List.pairwise_cons.mp hm
    unfold put
    split_ifs with h1 h2
    · subst h1
      have : ∀ y ∈ m, y.1 ≠ x.1 := fun y hy => (hx y hy).ne'
      simp only [List.mem_cons]
      constructor
      · rintro (h | h)
        · exact .inl h
        · exact .inr ⟨.inr h, this e h⟩
      · rintro (h | ⟨h | h, h'⟩)
        · exact .inl h
        · exact absurd (by rw [h]) h'
        · exact .inr h
    · have : ∀ y ∈ x :: m, y.1 ≠ k := by
        intro y hy
        rcases List.mem_cons.mp hy with rfl | hy
        · exact h2.ne'
        · exact (h2.trans (hx y hy)).ne'
      simp only [List.mem_cons]
      constructor
      · rintro (h | h)
        · exact .inl h
        · exact .inr ⟨h, this e (List.mem_cons.mpr h)⟩
      · rintro (h | ⟨h, _⟩)
        · exact .inl h
        · exact .inr h
    · rw [List.mem_cons, ih hm, List.mem_cons]
      constructor
      · rintro (h | h | ⟨h, h'⟩)
        · exact .inr ⟨.inl h, by rw [h]; exact Ne.symm h1⟩
        · exact .inl h
        · exact .inr ⟨.inr h, h'⟩
      · rintro (h | ⟨h | h, h'⟩)
        · exact .inr (.inl h)
        · exact .inl h
        · exact .inr (.inr ⟨h, h'⟩)

theorem put_ordered {k : Text} {v : α} {m : List (Text × α)} (hm : Ordered m) : Ordered (put k v m) := by
  induction m with
  | nil => simp [put, Ordered]
  | cons x m ih =>
    obtain ⟨hx, hm'⟩ := List.pairwise_cons.mp hm
    unfold put
    split_ifs with h1 h2
    · subst h1
      exact List.pairwise_cons.mpr ⟨hx, hm'⟩
    · refine List.pairwise_cons.mpr ⟨?_, hm⟩
      intro y hy
      rcases List.mem_cons.mp hy with rfl | hy
      · exact h2
      · exact h2.trans (hx y hy)
    · refine List.pairwise_cons.mpr ⟨?_, ih hm'⟩
      intro y hy
      rcases (put_mem hm' y).mp hy with rfl | ⟨hy, _⟩
      · exact lt_of_le_of_ne (not_lt.mp h2) (Ne.symm h1)
      · exact hx y hy

theorem given_snoc {es : List (Text × α)} {e : Text × α} {k : Text} {v : α} :
    Given (es ++ [e]) k v ↔ e = (k, v) ∨ (Given es k v ∧ k ≠ e.1) := by
  constructor
  · rintro ⟨p, s, h, hs⟩
    rcases List.eq_nil_or_concat s with rfl | ⟨s', x, rfl⟩
    · have := List.append_inj_right' h rfl
      exact .inl (List.head_eq_of_cons_eq this)
    · have h' : es ++ [e] = (p ++ (k, v) :: s') ++ [x] := by rw [h]; simp
      have h1 := List.append_inj_left' h' rfl
      have h2 := List.head_eq_of_cons_eq (List.append_inj_right' h' rfl)
      refine .inr ⟨⟨p, s', h1, fun y hy => hs y (by simp [hy])⟩, ?_⟩
      rw [h2]
      exact Ne.symm (hs x (by simp))
  · rintro (rfl | ⟨⟨p, s, rfl, hs⟩, hk⟩)
    · exact ⟨es, [], rfl, by simp⟩
    · refine ⟨p, s ++ [e], by simp, ?_⟩
      intro y hy
      rcases List.mem_append.mp hy with hy | hy
      · exact hs y hy
      · rw [List.mem_singleton.mp hy]
        exact Ne.symm hk

theorem toMap_spec (es : List (Text × α)) : Ordered (toMap es) ∧ ∀ k v, (k, v) ∈ toMap es ↔ Given es k v := by
  induction es using List.reverseRecOn with
  | nil =>
    refine ⟨by simp [toMap, Ordered], fun k v => ?_⟩
    simp [toMap, Given]
  | append_singleton es e ih =>
    have h : toMap (es ++ [e]) = put e.1 e.2 (toMap es) := by simp [toMap]
    rw [h]
    refine ⟨put_ordered ih.1, fun k v => ?_⟩
    rw [put_mem ih.1, given_snoc, ih.2]
    constructor
    · rintro (h | ⟨h, h'⟩)
      · exact .inl h.symm
      · exact .inr ⟨h, h'⟩
    · rintro (h | ⟨h, h'⟩)
      · exact .inl h.symm
      · exact .inr ⟨h, h'⟩

theorem find_mem {m : List (Text × α)} {k : Text} {v : α} (h : find k m = some v) : (k, v) ∈ m := by
  induction m with
  | nil => simp [find] at h
  | cons e m ih =>
    unfold find at h
    split_ifs at h with h1
    · injection h with h
      subst h h1
      exact List.mem_cons_self
    · exact List.mem_cons_of_mem _ (ih h)

theorem find_none {m : List (Text × α)} {k : Text} : find k m = none ↔ NotGiven m k := by
  induction m with
  | nil => simp [find, NotGiven]
  | cons e m ih =>
    unfold find NotGiven
    split_ifs with h1
    · simp [h1]
    · rw [ih]
      simp [NotGiven, h1]

theorem find_ordered {m : List (Text × α)} (hm : Ordered m) {k : Text} {v : α} : find k m = some v ↔ (k, v) ∈ m := by
  refine ⟨find_mem, fun h => ?_⟩
  induction m with
  | nil => simp at h
  | cons e m ih =>
    obtain ⟨he, hm⟩ := List.pairwise_cons.mp hm
    unfold find
    rcases List.mem_cons.mp h with rfl | h
    · simp
    · have : e.1 ≠ k := (he _ h).ne
      rw [if_neg this]
      exact ih hm h

theorem given_mem {es : List (Text × α)} {k : Text} {v : α} (h : Given es k v) : (k, v) ∈ es := by
  obtain ⟨p, s, rfl, _⟩ := h
  simp

theorem given_of_mem {es : List (Text × α)} {k : Text} {v : α} (h : (k, v) ∈ es) : ∃ w, Given es k w := by
  induction es using List.reverseRecOn generalizing v with
  | nil => simp at h
  | append_singleton es e ih =>
    by_cases hk : k = e.1
    · exact ⟨e.2, given_snoc.mpr (.inl (by rw [hk]))⟩
    · rcases List.mem_append.mp h with h | h
      · obtain ⟨w, hw⟩ := ih h
        exact ⟨w, given_snoc.mpr (.inr ⟨hw, hk⟩)⟩
      · exact absurd (congrArg Prod.fst (List.mem_singleton.mp h)) hk

theorem not_given_iff {es : List (Text × α)} {k : Text} : NotGiven es k ↔ ∀ v, ¬ Given es k v := by
  constructor
  · intro h v hv
    exact h _ (given_mem hv) rfl
  · intro h e he hk
    obtain ⟨w, hw⟩ := given_of_mem (k := e.1) (v := e.2) he
    rw [hk] at hw
    exact h w hw

theorem given_unique {es : List (Text × α)} {k : Text} {v w : α} (hv : Given es k v) (hw : Given es k w) : v = w := by
  have h := (toMap_spec es).1
  have h1 := (find_ordered h).mpr (((toMap_spec es).2 k v).mpr hv)
  have h2 := (find_ordered h).mpr (((toMap_spec es).2 k w).mpr hw)
  rw [h1] at h2
  exact Option.some.inj h2

/-- Entries with distinct keys are all given. -/
theorem given_of_nodup {es : List (Text × α)} (hn : (es.map Prod.fst).Nodup) {k : Text} {v : α} : Given es k v ↔ (k, v) ∈ es := by
  refine ⟨given_mem, fun h => ?_⟩
  obtain ⟨p, s, rfl⟩ := List.append_of_mem h
  refine ⟨p, s, rfl, ?_⟩
  intro e he hk
  rw [List.map_append, List.map_cons] at hn
  have := (List.nodup_cons.mp (List.nodup_append.mp hn).2.1).1
  exact this (List.mem_map.mpr ⟨e, he, hk⟩)

theorem find_toMap (es : List (Text × α)) (k : Text) (v : α) : find k (toMap es) = some v ↔ Given es k v := by
  rw [find_ordered (toMap_spec es).1, (toMap_spec es).2]

theorem find_toMap_none (es : List (Text × α)) (k : Text) : find k (toMap es) = none ↔ NotGiven es k := by
  rw [find_none, not_given_iff (es := es)]
  constructor
  · intro h v hv
    exact h _ (((toMap_spec es).2 k v).mpr hv) rfl
  · intro h e he hk
    refine h e.2 (((toMap_spec es).2 k e.2).mp ?_)
    rw [← hk]
    exact he

/-- A map is its own map. -/
theorem toMap_of_ordered {m : List (Text × α)} (hm : Ordered m) : ∀ k v, Given m k v ↔ (k, v) ∈ m := by
  intro k v
  apply given_of_nodup
  unfold Ordered at hm
  rw [List.Nodup, List.pairwise_map]
  exact hm.imp (fun h => h.ne)

/-- Ordered lists with the same entries are equal. -/
theorem ordered_ext {m m' : List (Text × α)} (hm : Ordered m) (hm' : Ordered m') (h : ∀ k v, (k, v) ∈ m ↔ (k, v) ∈ m') : m = m' := by
  induction m generalizing m' with
  | nil =>
    cases m' with
    | nil => rfl
    | cons e m' => exact absurd ((h e.1 e.2).mpr List.mem_cons_self) (by simp)
  | cons x m ih =>
    cases m' with
    | nil => exact absurd ((h x.1 x.2).mp List.mem_cons_self) (by simp)
    | cons y m' =>
      obtain ⟨hx, hm⟩ := List.pairwise_cons.mp hm
      replace hm' := List.pairwise_cons.mp hm'
      obtain ⟨hy, hm'⟩ := hm'
      have hxy : x = y := by
        have h1 : x ∈ y :: m' := (h x.1 x.2).mp List.mem_cons_self
        have h2 : y ∈ x :: m := (h y.1 y.2).mpr List.mem_cons_self
        rcases List.mem_cons.mp h1 with h1 | h1
        · exact h1
        rcases List.mem_cons.mp h2 with h2 | h2
        · exact h2.symm
        exact absurd ((hx y h2).trans (hy x h1)) (lt_irrefl _)
      subst hxy
      have hmm : m = m' := by
        apply ih hm hm'
        intro k v
        constructor
        · intro hk
          rcases List.mem_cons.mp ((h k v).mp (List.mem_cons_of_mem _ hk)) with h1 | h1
          · exact absurd (hx _ hk) (by rw [h1]; exact lt_irrefl _)
          · exact h1
        · intro hk
          rcases List.mem_cons.mp ((h k v).mpr (List.mem_cons_of_mem _ hk)) with h1 | h1
          · exact absurd (hy _ hk) (by rw [h1]; exact lt_irrefl _)
          · exact h1
      rw [hmm]

/-! ### Collections -/

theorem matchElements_iff {m : Matcher F V} {ns : List (Node F)} {i : Nat} {as : List (Any F V)} :
    matchElements m i ns = .matched as ↔ List.Forall₂ (fun n a => m.run n = .matched a) ns as := by
  induction ns generalizing i as with
  | nil => simp only [matchElements, List.forall₂_nil_left_iff, Result.matched.injEq, eq_comm]
  | cons n ns ih =>
    unfold matchElements
    simp only [Result.bind_eq_matched, Result.inside_eq_matched, ih, Result.pure_eq]
    constructor
    · rintro ⟨a, ha, bs, hbs, h⟩
      injection h with h
      subst h
      exact .cons ha hbs
    · rintro (_ | ⟨ha, hbs⟩)
      exact ⟨_, ha, _, hbs, rfl⟩

theorem forall2_map_node {ns : List (Node F)} {as : List (Any F V)} :
    List.Forall₂ (fun n a => a = Any.node n) ns as ↔ as = ns.map .node := by
  induction ns generalizing as with
  | nil => simp only [List.forall₂_nil_left_iff, List.map_nil]
  | cons n ns ih =>
    constructor
    · rintro (_ | ⟨ha, hbs⟩)
      rw [ha, ih.mp hbs]
      rfl
    · rintro rfl
      exact .cons rfl (ih.mpr rfl)

theorem elements_iff {m : ArrayMatcher F V} {ns : List (Node F)} {as : List (Any F V)} :
    m.elements ns = .matched as ↔ List.Forall₂ (Turns m.element) ns as := by
  unfold ArrayMatcher.elements
  cases h : m.element with
  | none =>
    have : (Turns none : Node F → Any F V → Prop) = fun n a => a = Any.node n := rfl
    rw [this, forall2_map_node]
    simp [eq_comm]
  | some e =>
    have : (Turns (some e) : Node F → Any F V → Prop) = fun n a => e.run n = .matched a := rfl
    simp only [this, matchElements_iff]

theorem array_run_iff {m : ArrayMatcher F V} {ns : List (Node F)} {v : Any F V} :
    m.run (.array ns) = .matched v ↔ ∃ as, ArrayOf m ns as ∧ m.mapping as = .ok v := by
  unfold ArrayMatcher.run
  simp only [Result.bind_eq_matched, elements_iff, finish_iff, ArrayOf, and_assoc]

theorem matchKey_iff {k : Text} {n : Node F} {o : Option (Matcher F V)} {ms : List ((Text → Bool) × Matcher F V)} {a : Any F V}
    {fs : List (List (Text × Any F V) → Except String Bool)} {g : List (Text × Any F V) → Except String (Any F V)} :
    matchKey k n o ms = .matched a ↔ ValueAt ⟨ms, o, fs, g⟩ k n a := by
  induction ms with
  | nil =>
    unfold matchKey
    constructor
    · intro h
      refine .other (by simp) ?_
      cases o with
      | none => simpa [Turns, eq_comm] using h
      | some m => simpa [Turns] using h
    · rintro (⟨h, _, _, _⟩ | ⟨_, h⟩)
      · simp at h
      · cases o with
        | none => simpa [Turns, eq_comm] using h
        | some m => simpa [Turns] using h
  | cons x ms ih =>
    obtain ⟨q, e⟩ := x
    unfold matchKey
    split_ifs with hq
    · rw [Result.inside_eq_matched]
      constructor
      · intro h
        exact .key (p := []) (s := ms) rfl (by simp) hq h
      · rintro (⟨h, hp, hq', he⟩ | ⟨h, _⟩)
        · rename_i p s q' e'
          cases p with
          | nil =>
            simp only [List.nil_append, List.cons.injEq, Prod.mk.injEq] at h
            rw [h.1.2]
            exact he
          | cons y p =>
            simp only [List.cons_append, List.cons.injEq] at h
            have := hp y List.mem_cons_self
            rw [← h.1] at this
            exact absurd (this.symm.trans hq) (by decide)
        · have := h (q, e) List.mem_cons_self
          exact absurd (this.symm.trans hq) (by decide)
    · have hq' : q k = false := by simpa using hq
      rw [ih]
      constructor
      · rintro (⟨h, hp, hq2, he⟩ | ⟨h, ht⟩)
        · rename_i p s q' e'
          refine .key (p := (q, e) :: p) (s := s) (q := q') (e := e') ?_ ?_ hq2 he
          · simp only at h
            rw [List.cons_append, h]
          · intro r hr
            rcases List.mem_cons.mp hr with rfl | hr
            · exact hq'
            · exact hp r hr
        · refine .other ?_ ht
          intro r hr
          rcases List.mem_cons.mp hr with rfl | hr
          · exact hq'
          · exact h r hr
      · rintro (⟨h, hp, hq2, he⟩ | ⟨h, ht⟩)
        · rename_i p s q2 e'
          cases p with
          | nil =>
            simp only [List.nil_append, List.cons.injEq, Prod.mk.injEq] at h
            rw [h.1.1, hq2] at hq'
            cases hq'
          | cons y p =>
            simp only [List.cons_append, List.cons.injEq] at h
            exact .key (p := p) (s := s) h.2 (fun r hr => hp r (List.mem_cons_of_mem _ hr)) hq2 he
        · exact .other (fun r hr => h r (List.mem_cons_of_mem _ hr)) ht

theorem matchEntries_iff {m : DictionaryMatcher F V} {es : List (Text × Node F)} {as : List (Text × Any F V)} :
    matchEntries m es = .matched as ↔ List.Forall₂ (fun e a => a.1 = e.1 ∧ ValueAt m e.1 e.2 a.2) es as := by
  induction es generalizing as with
  | nil => simp only [matchEntries, List.forall₂_nil_left_iff, Result.matched.injEq, eq_comm]
  | cons e es ih =>
    unfold matchEntries
    simp only [Result.bind_eq_matched, ih, Result.pure_eq]
    constructor
    · rintro ⟨a, ha, bs, hbs, h⟩
      injection h with h
      subst h
      exact .cons ⟨rfl, matchKey_iff.mp ha⟩ hbs
    · rintro (_ | ⟨ha, hbs⟩)
      rename_i b bs
      refine ⟨b.2, matchKey_iff.mpr ha.2, bs, hbs, ?_⟩
      rw [← ha.1]

theorem valueAt_unique {m : DictionaryMatcher F V} {k : Text} {n : Node F} {a b : Any F V} (ha : ValueAt m k n a) (hb : ValueAt m k n b) :
    a = b := by
  have h1 := (matchKey_iff (fs := m.filters) (g := m.mapping)).mpr ha
  have h2 := (matchKey_iff (fs := m.filters) (g := m.mapping)).mpr hb
  rw [h1] at h2
  injection h2

theorem entries_ordered {m : DictionaryMatcher F V} {es : List (Text × Node F)} {as : List (Text × Any F V)} (ho : Ordered es)
    (h : List.Forall₂ (fun e a => a.1 = e.1 ∧ ValueAt m e.1 e.2 a.2) es as) : Ordered as := by
  have hk : as.map Prod.fst = es.map Prod.fst := by
    induction h with
    | nil => rfl
    | cons h _ ih => rw [List.map_cons, List.map_cons, h.1, ih (List.pairwise_cons.mp ho).2]
  unfold Ordered at *
  have : (es.map Prod.fst).Pairwise (· < ·) := List.pairwise_map.mpr ho
  rw [← hk] at this
  exact List.pairwise_map.mp this

/-- Entry by entry: the key is the same, and the value is the one for the key. -/
def EntryTurns (m : DictionaryMatcher F V) (e : Text × Node F) (a : Text × Any F V) : Prop := a.1 = e.1 ∧ ValueAt m e.1 e.2 a.2

theorem entries_all {m : DictionaryMatcher F V} {es : List (Text × Node F)} {as : List (Text × Any F V)}
    (h : List.Forall₂ (EntryTurns m) es as) : ∀ k n, (k, n) ∈ es → ∃ a, (k, a) ∈ as ∧ ValueAt m k n a := by
  induction h with
  | nil => simp
  | cons h _ ih =>
    rename_i e a es as _
    intro k n hk
    rcases List.mem_cons.mp hk with hk | hk
    · subst hk
      refine ⟨a.2, ?_, h.2⟩
      have : (k, a.2) = a := Prod.ext h.1.symm rfl
      rw [this]
      exact List.mem_cons_self
    · obtain ⟨b, hb, hv⟩ := ih k n hk
      exact ⟨b, List.mem_cons_of_mem _ hb, hv⟩

theorem entries_only {m : DictionaryMatcher F V} {es : List (Text × Node F)} {as : List (Text × Any F V)}
    (h : List.Forall₂ (EntryTurns m) es as) : ∀ k a, (k, a) ∈ as → ∃ n, (k, n) ∈ es ∧ ValueAt m k n a := by
  induction h with
  | nil => simp
  | cons h _ ih =>
    rename_i e a es as _
    intro k b hk
    rcases List.mem_cons.mp hk with hk | hk
    · subst hk
      have h1 : k = e.1 := h.1
      have : (k, e.2) = e := Prod.ext h1 rfl
      refine ⟨e.2, ?_, ?_⟩
      · rw [this]
        exact List.mem_cons_self
      · rw [h1]
        exact h.2
    · obtain ⟨n, hn, hv⟩ := ih k b hk
      exact ⟨n, List.mem_cons_of_mem _ hn, hv⟩

theorem forall2_entries {m : DictionaryMatcher F V} {es : List (Text × Node F)} {as : List (Text × Any F V)} (ho : Ordered es) :
    List.Forall₂ (EntryTurns m) es as ↔
      Ordered as ∧ (∀ k n, (k, n) ∈ es → ∃ a, (k, a) ∈ as ∧ ValueAt m k n a) ∧ ∀ k a, (k, a) ∈ as → ∃ n, (k, n) ∈ es ∧ ValueAt m k n a := by
  constructor
  · intro h
    exact ⟨entries_ordered ho h, entries_all h, entries_only h⟩
  · rintro ⟨hoa, hall, honly⟩
    have : ∃ bs, List.Forall₂ (EntryTurns m) es bs := by
      clear honly ho
      induction es with
      | nil => exact ⟨[], .nil⟩
      | cons e es ih =>
        obtain ⟨bs, hbs⟩ := ih (fun k n h => hall k n (List.mem_cons_of_mem _ h))
        obtain ⟨a, _, ha⟩ := hall e.1 e.2 List.mem_cons_self
        exact ⟨(e.1, a) :: bs, .cons ⟨rfl, ha⟩ hbs⟩
    obtain ⟨bs, hbs⟩ := this
    have heq : as = bs := by
      apply ordered_ext hoa (entries_ordered ho hbs)
      intro k a
      constructor
      · intro h
        obtain ⟨n, hn, hv⟩ := honly k a h
        obtain ⟨b, hb, hv'⟩ := entries_all hbs k n hn
        rw [valueAt_unique hv hv']
        exact hb
      · intro h
        obtain ⟨n, hn, hv⟩ := entries_only hbs k a h
        obtain ⟨b, hb, hv'⟩ := hall k n hn
        rw [valueAt_unique hv hv']
        exact hb
    rw [heq]
    exact hbs

theorem matchEntries_iff' {m : DictionaryMatcher F V} {es : List (Text × Node F)} {as : List (Text × Any F V)} :
    matchEntries m es = .matched as ↔ List.Forall₂ (EntryTurns m) es as := matchEntries_iff

theorem dictionary_run_iff {m : DictionaryMatcher F V} {es : List (Text × Node F)} {v : Any F V} :
    m.run (.dictionary es) = .matched v ↔ ∃ as, DictionaryOf m es as ∧ m.mapping as = .ok v := by
  unfold DictionaryMatcher.run
  simp only [Result.bind_eq_matched, matchEntries_iff', finish_iff, forall2_entries (toMap_spec es).1, (toMap_spec es).2]
  constructor
  · rintro ⟨as, ⟨h1, h2, h3⟩, h4, h5⟩
    exact ⟨as, ⟨h1, h2, h3, h4⟩, h5⟩
  · rintro ⟨as, ⟨h1, h2, h3, h4⟩, h5⟩
    exact ⟨as, ⟨h1, h2, h3⟩, h4, h5⟩

end Rampack.Pyon
