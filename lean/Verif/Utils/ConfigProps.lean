import Verif.Utils.ConfigLemmas
import Mathlib.Data.List.Basic
/-
C47: configurations.
-/
namespace Rampack

open Spec Utils

namespace Config

theorem collect_mem (name : Text → Text) (x : Text) : ∀ (ks acc : List Text), x ∈ collect name acc ks ↔ x ∈ acc ∨ ∃ k ∈ ks, name k = x
  | [], acc => by simp [collect]
  | k :: ks, acc => by
    rw [collect]
    split_ifs with h
    · rw [collect_mem name x ks acc]
      constructor
      · rintro (h1 | ⟨y, h1, h2⟩)
        · exact Or.inl h1
        · exact Or.inr ⟨y, List.mem_cons_of_mem _ h1, h2⟩
      · rintro (h1 | ⟨y, h1, h2⟩)
        · exact Or.inl h1
        · rcases List.mem_cons.mp h1 with rfl | h1
          · exact Or.inl (h2 ▸ h)
          · exact Or.inr ⟨y, h1, h2⟩
    · rw [collect_mem name x ks, List.mem_append, List.mem_singleton]
      constructor
      · rintro ((h1 | h1) | ⟨y, h1, h2⟩)
        · exact Or.inl h1
        · exact Or.inr ⟨k, List.mem_cons_self, h1.symm⟩
        · exact Or.inr ⟨y, List.mem_cons_of_mem _ h1, h2⟩
      · rintro (h1 | ⟨y, h1, h2⟩)
        · exact Or.inl (Or.inl h1)
        · rcases List.mem_cons.mp h1 with rfl | h1
          · exact Or.inl (Or.inr h2.symm)
          · exact Or.inr ⟨y, h1, h2⟩

theorem dropWhile_none {k : Text} (h : '.' ∉ k) : k.dropWhile (· != '.') = [] := by
  rw [List.dropWhile_eq_nil_iff]
  intro c hc
  simpa using fun e : c = '.' => h (e ▸ hc)

theorem dropWhile_some {a b : Text} (h : '.' ∉ a) : (a ++ '.' :: b).dropWhile (· != '.') = '.' :: b := by
  rw [List.dropWhile_append, dropWhile_none h]
  simp

theorem break_last (k : Text) (h : '.' ∈ k) : ∃ s n, '.' ∉ n ∧ k = s ++ '.' :: n := by
  rcases break_at '.' k.reverse with hd | ⟨a, b, hd, e⟩
  · simp [h] at hd
  · refine ⟨b.reverse, a.reverse, by simpa using hd, ?_⟩
    rw [← List.reverse_reverse k, e]
    simp

theorem sectionName_iff (k s : Text) : sectionName k = s ↔ InSection k s := by
  unfold sectionName InSection
  have key : ∀ {s n : Text}, '.' ∉ n → (((s ++ '.' :: n).reverse.dropWhile (· != '.')).drop 1).reverse = s := by
    intro s n hn
    rw [show (s ++ '.' :: n).reverse = n.reverse ++ '.' :: s.reverse by simp, dropWhile_some (by simpa using hn)]
    simp
  by_cases h : '.' ∈ k
  · obtain ⟨s', n, hn, rfl⟩ := break_last k h
    rw [key hn]
    constructor
    · rintro rfl
      exact Or.inr ⟨n, hn, rfl⟩
    · rintro (⟨rfl, h'⟩ | ⟨n', hn', e⟩)
      · exact absurd h h'
      · rw [← key (s := s') hn, e, key hn']
  · rw [dropWhile_none (by simpa using h)]
    constructor
    · rintro rfl
      exact Or.inl ⟨rfl, h⟩
    · rintro (⟨rfl, -⟩ | ⟨n, -, rfl⟩)
      · rfl
      · simp at h

theorem rootName_iff (k s : Text) : rootName k = s ↔ InRoot k s := by
  unfold rootName InRoot
  have key : ∀ {s n : Text}, '.' ∉ s → (s ++ '.' :: n).takeWhile (· != '.') = s := by
    intro s n hn
    rw [List.takeWhile_append_of_pos fun x hx => by simpa using fun e : x = '.' => hn (e ▸ hx)]
    simp
  by_cases h : '.' ∈ k
  · rw [if_pos h]
    rcases break_at '.' k with hd | ⟨a, b, hd, rfl⟩
    · exact absurd h hd
    · rw [key hd]
      constructor
      · rintro rfl
        exact Or.inr ⟨b, hd, rfl⟩
      · rintro (⟨rfl, h'⟩ | ⟨n', hn', e⟩)
        · exact absurd h h'
        · rw [← key (n := b) hd, e, key hn']
  · rw [if_neg h]
    constructor
    · rintro rfl
      exact Or.inl ⟨rfl, h⟩
    · rintro (⟨rfl, -⟩ | ⟨n, -, rfl⟩)
      · rfl
      · simp at h

/-- What holds for all configurations. -/
structure Good (C : Config) : Prop where
  nodup : C.keys.Nodup
  have' : ∀ k, lookup k C.fieldMap ≠ none ↔ k ∈ C.keys
  sections : C.sections = collect sectionName [] C.keys
  roots : C.rootSections = collect rootName [] C.keys

theorem Good.getString {C : Config} (h : Good C) (k v : Text) : C.getString k = .ok v ↔ lookup k C.fieldMap = some v := by
  unfold Config.getString
  cases lookup k C.fieldMap with
  | none => simp
  | some w => simp

theorem lastValue_mem (fs : List (Text × Text)) (k : Text) : lastValue fs k ≠ none ↔ k ∈ fs.map Prod.fst := by
  unfold lastValue
  rw [Ne, Option.map_eq_none_iff, List.getLast?_eq_none_iff, List.filter_eq_nil_iff]
  simp

theorem Has.good {C : Config} {fs : List (Text × Text)} (h : Has C fs) : Good C.build := by
  refine ⟨?_, ?_, rfl, rfl⟩
  · show C.keys.Nodup
    rw [h.keys]
    exact firsts_nodup _
  · intro k
    show lookup k C.fieldMap ≠ none ↔ k ∈ C.keys
    rw [h.keys, h.vals, lastValue_mem, firsts_mem]

theorem startsWith_iff (s t : Text) : startsWith s t = true ↔ ∃ a, s = t ++ a := (C50_ends s t).1

theorem subKey_iff (s k x : Text) : subKey s k = some x ↔ FullKey s x k := by
  unfold subKey FullKey
  by_cases hs : s = []
  · rw [if_pos hs]
    subst hs
    by_cases h : '.' ∈ k
    · rw [if_pos h]
      constructor
      · intro h; cases h
      · rintro (⟨-, h1, rfl⟩ | ⟨h1, -⟩)
        · exact absurd h h1
        · exact absurd rfl h1
    · rw [if_neg h]
      constructor
      · intro e
        obtain rfl := Option.some.inj e
        exact Or.inl ⟨rfl, h, rfl⟩
      · rintro (⟨-, h1, rfl⟩ | ⟨h1, -⟩)
        · rfl
        · exact absurd rfl h1
  · rw [if_neg hs]
    by_cases h : startsWith k (s ++ ['.']) = true
    · rw [if_pos h]
      obtain ⟨a, rfl⟩ := (startsWith_iff _ _).mp h
      have : (s ++ ['.'] ++ a).drop (s.length + 1) = a := List.drop_left' (by simp)
      rw [this]
      constructor
      · intro e
        obtain rfl := Option.some.inj e
        exact Or.inr ⟨hs, by simp⟩
      · rintro (⟨h1, -⟩ | ⟨-, h1⟩)
        · exact absurd h1 hs
        · rw [List.append_assoc, List.singleton_append] at h1
          rw [(List.cons.inj (List.append_cancel_left h1)).2]
    · rw [if_neg h]
      constructor
      · intro e; cases e
      · rintro (⟨h1, -⟩ | ⟨-, h1⟩)
        · exact absurd h1 hs
        · exact absurd ((startsWith_iff _ _).mpr ⟨x, by rw [h1]; simp⟩) h

theorem fullKey_inj {s k x y : Text} (h1 : FullKey s x k) (h2 : FullKey s y k) : x = y := by
  rw [← subKey_iff] at h1 h2
  rw [h1] at h2
  exact Option.some.inj h2

theorem fullKey_fun {s k l x : Text} (h1 : FullKey s x k) (h2 : FullKey s x l) : k = l := by
  rcases h1 with ⟨a, -, b⟩ | ⟨a, b⟩ <;> rcases h2 with ⟨c, -, d⟩ | ⟨c, d⟩
  · rw [b, d]
  · exact absurd a c
  · exact absurd c a
  · rw [b, d]

theorem fetchLoop_ok {C : Config} (hC : Good C) {s : Text} : ∀ (ks : List Text) (R : Config), (∀ k ∈ ks, k ∈ C.keys) → ∃ R', fetchLoop C (subKey s) ks R = .ok R' ∧
    R'.keys = R.keys ++ ks.filterMap (subKey s) ∧ (∀ k ∈ ks, ∀ x, FullKey s x k → lookup x R'.fieldMap = lookup k C.fieldMap) ∧
    ∀ x, (∀ k ∈ ks, ¬ FullKey s x k) → lookup x R'.fieldMap = lookup x R.fieldMap
  | [], R, _ => ⟨R, rfl, by simp, by simp, fun _ _ => rfl⟩
  | k :: ks, R, hk => by
    have hks : ∀ k ∈ ks, k ∈ C.keys := fun x hx => hk x (List.mem_cons_of_mem _ hx)
    rw [fetchLoop]
    cases hsub : subKey s k with
    | none =>
      obtain ⟨R', h1, h2, h3, h4⟩ := fetchLoop_ok hC ks R hks
      have hno : ∀ x, ¬ FullKey s x k := by
        intro x hx
        rw [(subKey_iff s k x).mpr hx] at hsub
        cases hsub
      refine ⟨R', h1, by rw [h2, List.filterMap_cons_none hsub], ?_, ?_⟩
      · intro y hy x hx
        rcases List.mem_cons.mp hy with rfl | hy
        · exact absurd hx (hno x)
        · exact h3 y hy x hx
      · intro x hx
        exact h4 x fun y hy => hx y (List.mem_cons_of_mem _ hy)
    | some z =>
      have hz := (subKey_iff s k z).mp hsub
      obtain ⟨v, hv⟩ := Option.ne_none_iff_exists'.mp ((hC.have' k).mpr (hk k List.mem_cons_self))
      simp only
      rw [hv]
      obtain ⟨R', h1, h2, h3, h4⟩ := fetchLoop_ok hC ks { R with fieldMap := assign z v R.fieldMap, keys := R.keys ++ [z] } hks
      refine ⟨R', h1, by rw [h2, List.filterMap_cons_some hsub]; simp, ?_, ?_⟩
      · intro y hy x hx
        by_cases hyk : y ∈ ks
        · exact h3 y hyk x hx
        · obtain rfl : y = k := by
            rcases List.mem_cons.mp hy with h | h
            · exact h
            · exact absurd h hyk
          obtain rfl := fullKey_inj hx hz
          rw [h4 x fun l hl hlx => hyk (fullKey_fun hx hlx ▸ hl), lookup_assign, if_pos rfl, hv]
      · intro x hx
        rw [h4 x fun y hy => hx y (List.mem_cons_of_mem _ hy), lookup_assign, if_neg]
        rintro rfl
        exact hx k List.mem_cons_self hz

theorem fetch_ok {C : Config} (hC : Good C) {s : Text} (hs : C.hasSection s = true) : ∃ R, C.fetchSubconfig s = .ok R ∧ Good R ∧
    R.keys = C.keys.filterMap (subKey s) ∧ (∀ x k, FullKey s x k → lookup x R.fieldMap = lookup k C.fieldMap) ∧
    ∀ x, (∀ k, ¬ FullKey s x k) → lookup x R.fieldMap = none := by
  obtain ⟨R, h1, h2, h3, h4⟩ := fetchLoop_ok hC (s := s) C.keys {} fun _ h => h
  have e : C.fetchSubconfig s = .ok R.build := by
    unfold fetchSubconfig
    rw [hs, h1]
    rfl
  have hkeys : R.keys = C.keys.filterMap (subKey s) := by rw [h2]; rfl
  have hmiss : ∀ x k, FullKey s x k → k ∉ C.keys → lookup x R.fieldMap = none := by
    intro x k hx hk
    rw [h4 x fun l hl hlx => hk (fullKey_fun hx hlx ▸ hl)]
    rfl
  have hval : ∀ x k, FullKey s x k → lookup x R.fieldMap = lookup k C.fieldMap := by
    intro x k hx
    by_cases hk : k ∈ C.keys
    · exact h3 k hk x hx
    · rw [hmiss x k hx hk]
      by_contra hne
      exact hk ((hC.have' k).mp fun h => hne h.symm)
  refine ⟨R.build, e, ⟨?_, ?_, rfl, rfl⟩, hkeys, hval, ?_⟩
  · show R.keys.Nodup
    rw [hkeys]
    refine hC.nodup.filterMap ?_
    intro k l x hk hl
    exact fullKey_fun ((subKey_iff s k x).mp hk) ((subKey_iff s l x).mp hl)
  · intro x
    show lookup x R.fieldMap ≠ none ↔ x ∈ R.keys
    rw [hkeys, List.mem_filterMap]
    constructor
    · intro h
      by_contra hne
      apply h
      by_cases hx : ∃ k, FullKey s x k
      · obtain ⟨k, hk⟩ := hx
        exact hmiss x k hk fun hm => hne ⟨k, hm, (subKey_iff s k x).mpr hk⟩
      · rw [h4 x fun k _ hk => hx ⟨k, hk⟩]
        rfl
    · rintro ⟨k, hk, hx⟩
      rw [hval x k ((subKey_iff s k x).mp hx)]
      exact (hC.have' k).mpr hk
  · intro x hx
    show lookup x R.fieldMap = none
    rw [h4 x fun k _ => hx k]
    rfl

theorem reached_good {C : Config} (h : ConfigReached C) : Good C := by
  induction h with
  | @parsed text delim allow C h =>
    by_cases hd : delim ≠ '#' ∧ delim ≠ ';'
    · obtain ⟨es, fs, C0, -, -, h1, rfl⟩ := (parse_iff (getlines_ok _ text (le_refl _)) hd).2.2 C h
      exact h1.good
    · unfold parse at h
      rw [decide_eq_false hd] at h
      cases h
  | @fetched C R s hC h ih =>
    by_cases hs : C.hasSection s = true
    · obtain ⟨R', h1, h2, -⟩ := fetch_ok ih hs
      rw [h] at h1
      rw [Outcome.ok_inj.mp h1]
      exact h2
    · unfold fetchSubconfig at h
      rw [Bool.not_eq_true] at hs
      rw [hs] at h
      cases h

theorem filterMap_taken (s : Text) : ∀ (l : List Text), ∃ taken : List Text, taken.Sublist l ∧ List.Forall₂ (FullKey s) (l.filterMap (subKey s)) taken ∧ ∀ k ∈ l, (∃ x, FullKey s x k) → k ∈ taken
  | [] => ⟨[], .slnil, .nil, by simp⟩
  | k :: l => by
    obtain ⟨t, h1, h2, h3⟩ := filterMap_taken s l
    cases hk : subKey s k with
    | none =>
      refine ⟨t, h1.cons _, by rw [List.filterMap_cons_none hk]; exact h2, ?_⟩
      rintro y hy ⟨x, hx⟩
      rcases List.mem_cons.mp hy with rfl | hy
      · rw [(subKey_iff s y x).mpr hx] at hk
        cases hk
      · exact h3 y hy ⟨x, hx⟩
    | some z =>
      refine ⟨k :: t, h1.cons₂ _, by rw [List.filterMap_cons_some hk]; exact .cons ((subKey_iff s k z).mp hk) h2, ?_⟩
      rintro y hy ⟨x, hx⟩
      rcases List.mem_cons.mp hy with rfl | hy
      · exact List.mem_cons_self
      · exact List.mem_cons_of_mem _ (h3 y hy ⟨x, hx⟩)

end Config

theorem entries_unique : ∀ {ls es es' : List Text}, Entries ls es → Entries ls es' → es = es'
  | [], _, _, h, h' => by cases h; cases h'; rfl
  | l :: ls, es, es', h, h' => by
    have hu : ∀ {c c'}, ContentOf l c → ContentOf l c' → c = c' := fun a b => ((content_iff _ _).mp a).symm.trans ((content_iff _ _).mp b)
    cases h with
    | skip hl h =>
      cases h' with
      | skip hl' h' => exact entries_unique h h'
      | whole hl' h0' hc' h' => exact absurd (hu hl' hl) h0'
      | continued hl' hp' h' => exact absurd (hu hl' hl) (by simp)
    | whole hl h0 hc h =>
      cases h' with
      | skip hl' h' => exact absurd (hu hl hl') h0
      | whole hl' h0' hc' h' => rw [entries_unique h h', hu hl hl']
      | continued hl' hp' h' => exact absurd (by rw [hu hl hl']; simp) hc
    | continued hl hp h =>
      cases h' with
      | skip hl' h' => exact absurd (hu hl hl') (by simp)
      | whole hl' h0' hc' h' => exact absurd (by rw [← hu hl hl']; simp) hc'
      | continued hl' hp' h' =>
        have e := hu hl hl'
        obtain rfl := List.append_cancel_right e
        rw [trimmed_iff] at hp hp'
        obtain ⟨rfl, rfl⟩ := List.cons.inj (entries_unique h h')
        rw [← hp, ← hp']

theorem fields_unique {delim : Char} : ∀ {es : List Text} {s : Text} {fs fs' : List (Text × Text)}, Fields delim s es fs → Fields delim s es fs' → fs = fs'
  | [], _, _, _, h, h' => by cases h; cases h'; rfl
  | e :: es, s, fs, fs', h, h' => by
    generalize hx : e = x at h'
    cases h with
    | @section' _ name _ _ h =>
      cases h' with
      | @section' _ name' _ _ h' =>
        obtain rfl := List.append_cancel_right (List.cons.inj hx).2
        exact fields_unique h h'
      | field hb hd hp hk hv h' => rw [← hx] at hb; simp at hb
    | @field _ k v k1 v1 _ fs hb hd hp hk hv h =>
      cases h' with
      | section' h' => rw [hx] at hb; simp at hb
      | @field _ k' v' k1' v1' _ fs' hb' hd' hp' hk' hv' h' =>
        have hlen : k.length = k'.length := by
          rcases List.append_eq_append_iff.mp hx with ⟨z, hz1, hz2⟩ | ⟨z, hz1, hz2⟩
          · cases z with
            | nil => simp at hz1; rw [hz1]
            | cons c z =>
              obtain ⟨rfl, -⟩ := List.cons.inj hz2
              exact absurd (by rw [hz1]; simp) hd'
          · cases z with
            | nil => simp at hz1; rw [hz1]
            | cons c z =>
              obtain ⟨rfl, -⟩ := List.cons.inj hz2
              exact absurd (by rw [hz1]; simp) hd
        obtain ⟨rfl, h2⟩ := List.append_inj hx hlen
        obtain rfl := (List.cons.inj h2).2
        rw [trimmed_iff] at hk hk' hv hv'
        rw [fields_unique h h', ← hk, ← hk', ← hv, ← hv']

/-- C47: a text is parsed to exactly the fields written in it. Each text has lines, their entries and fields are uniquely given, and it is parsed if and only if the entries are legal and, without the
permission, no field is redefined; otherwise, an exception is thrown. Keys are in the order of appearance, and the last value is taken, if redefinitions are allowed. -/
theorem C47_parse (text : Text) (delim : Char) (allow : Bool) (hd : delim ≠ '#' ∧ delim ≠ ';') : ∃ ls, IsLines text ls ∧
    ((∃ C, Config.parse text delim allow = .ok C) ↔ ∃ es fs, Entries ls es ∧ Fields delim [] es fs ∧ (allow = true ∨ (fs.map Prod.fst).Nodup)) ∧
    ((∃ C, Config.parse text delim allow = .ok C) ∨ ∃ m, Config.parse text delim allow = .throw m) ∧
    ∀ C es fs, Config.parse text delim allow = .ok C → Entries ls es → Fields delim [] es fs →
      C.keys = firsts (fs.map Prod.fst) ∧ (∀ k, C.hasField k = true ↔ k ∈ fs.map Prod.fst) ∧ (∀ k v, C.getString k = .ok v ↔ lastValue fs k = some v) := by
  have hl := getlines_ok _ text (le_refl _)
  refine ⟨_, hl, (Config.parse_iff hl hd).1, (Config.parse_iff hl hd).2.1, ?_⟩
  intro C es fs h he hf
  obtain ⟨es', fs', C0, he', hf', h0, rfl⟩ := (Config.parse_iff hl hd).2.2 C h
  obtain rfl := entries_unique he he'
  obtain rfl := fields_unique hf hf'
  refine ⟨h0.keys, fun k => ?_, fun k v => ?_⟩
  · unfold Config.hasField
    rw [decide_eq_true_eq]
    show k ∈ C0.keys ↔ _
    rw [h0.keys, Config.firsts_mem]
  · rw [h0.good.getString]
    show lookup k C0.fieldMap = _ ↔ _
    rw [h0.vals]

/-- C47: the lines of a text are uniquely given. -/
theorem C47_lines {text : Text} {l m : List Text} (hl : IsLines text l) (hm : IsLines text m) : l = m := lines_unique hl hm

/-- C47: a field is there exactly if it has a value, and sections are exactly the ones which keys belong to. -/
theorem C47_sections {C : Config} (hC : ConfigReached C) : C.keys.Nodup ∧ (∀ k, C.hasField k = true ↔ k ∈ C.keys) ∧ (∀ k, C.hasField k = true ↔ ∃ v, C.getString k = .ok v) ∧
    (∀ s, C.hasSection s = true ↔ ∃ k ∈ C.keys, InSection k s) ∧ ∀ s, C.hasRootSection s = true ↔ ∃ k ∈ C.keys, InRoot k s := by
  have hg := Config.reached_good hC
  refine ⟨hg.nodup, fun k => by unfold Config.hasField; rw [decide_eq_true_eq], fun k => ?_, fun s => ?_, fun s => ?_⟩
  · unfold Config.hasField
    rw [decide_eq_true_eq, ← hg.have', Option.ne_none_iff_exists']
    simp only [hg.getString]
  · unfold Config.hasSection
    rw [decide_eq_true_eq, hg.sections, Config.collect_mem]
    simp [Config.sectionName_iff]
  · unfold Config.hasRootSection
    rw [decide_eq_true_eq, hg.roots, Config.collect_mem]
    simp [Config.rootName_iff]

/-- C47: a sub-configuration has exactly the fields under the section, in the same order and with the same values; there is one for each section which has fields directly in it, otherwise an exception is
thrown. -/
theorem C47_sub {C : Config} (hC : ConfigReached C) (s : Text) :
    (C.hasSection s = true → ∃ R, C.fetchSubconfig s = .ok R ∧
      (∃ taken : List Text, taken.Sublist C.keys ∧ List.Forall₂ (FullKey s) R.keys taken ∧ ∀ k ∈ C.keys, (∃ x, FullKey s x k) → k ∈ taken) ∧
      (∀ x k v, FullKey s x k → (R.getString x = .ok v ↔ C.getString k = .ok v)) ∧ ∀ x, (∀ k, ¬ FullKey s x k) → R.hasField x = false) ∧
    (C.hasSection s = false → ∃ m, C.fetchSubconfig s = .throw m) := by
  have hg := Config.reached_good hC
  constructor
  · intro hs
    obtain ⟨R, h1, h2, h3, h4, h5⟩ := Config.fetch_ok hg hs
    refine ⟨R, h1, ?_, ?_, ?_⟩
    · rw [h3]
      exact Config.filterMap_taken s C.keys
    · intro x k v hx
      rw [h2.getString, hg.getString, h4 x k hx]
    · intro x hx
      unfold Config.hasField
      rw [decide_eq_false_iff_not]
      intro hm
      exact (h2.have' x).mpr hm (h5 x hx)
  · intro hs
    unfold Config.fetchSubconfig
    rw [hs]
    exact ⟨_, rfl⟩

/-- C47 fails for root sections which have only subsections: there are fields under the root section, but there is no sub-configuration of it. -/
theorem C47_root_violated : ∃ (C : Config) (m : String), ConfigReached C ∧ C.hasRootSection "a".toList = true ∧ C.getString "a.b.k".toList = .ok "v".toList ∧ C.fetchSubconfig "a".toList = .throw m := by
  have h : ∃ C, Config.parse "[a.b]\nk=v".toList '=' false = .ok C := by
    rw [(Config.parse_iff (ls := ["[a.b]".toList, "k=v".toList]) ⟨by decide, by right; decide⟩ (by decide)).1]
    refine ⟨["[a.b]".toList, "k=v".toList], [("a.b.k".toList, "v".toList)], ?_, ?_, Or.inr (by decide)⟩
    · refine .whole ((content_iff _ _).mpr (by decide)) (by decide) (by decide) (.whole ((content_iff _ _).mpr (by decide)) (by decide) (by decide) .nil)
    · exact .section' (name := "a.b".toList) (.field (k := "k".toList) (v := "v".toList) (k' := "k".toList) (v' := "v".toList) (s := "a.b.".toList) (by decide) (by decide) (by decide)
        ((trimmed_iff _ _).mpr (by decide)) ((trimmed_iff _ _).mpr (by decide)) .nil)
  obtain ⟨C, hC⟩ := h
  obtain ⟨es, fs, C0, he, hf, h0, rfl⟩ := (Config.parse_iff (ls := ["[a.b]".toList, "k=v".toList]) ⟨by decide, by right; decide⟩ (by decide)).2.2 C hC
  obtain rfl := entries_unique he (.whole (c := "[a.b]".toList) ((content_iff _ _).mpr (by decide)) (by decide) (by decide) (.whole (c := "k=v".toList) ((content_iff _ _).mpr (by decide)) (by decide) (by decide) .nil))
  obtain rfl := fields_unique hf (.section' (name := "a.b".toList) (.field (k := "k".toList) (v := "v".toList) (k' := "k".toList) (v' := "v".toList) (s := "a.b.".toList) (by decide) (by decide) (by decide)
        ((trimmed_iff _ _).mpr (by decide)) ((trimmed_iff _ _).mpr (by decide)) .nil))
  have hr := ConfigReached.parsed hC
  have hkeys : C0.build.keys = ["a.b.k".toList] := h0.keys
  have hs : C0.build.hasSection "a".toList = false := by
    unfold Config.hasSection
    rw [decide_eq_false_iff_not, h0.good.sections, hkeys]
    decide
  obtain ⟨m, hm⟩ := (C47_sub hr "a".toList).2 hs
  refine ⟨C0.build, m, hr, ?_, ?_, hm⟩
  · unfold Config.hasRootSection
    rw [decide_eq_true_eq, h0.good.roots, hkeys]
    decide
  · rw [h0.good.getString]
    show lookup _ C0.fieldMap = _
    rw [h0.vals]
    decide

namespace ParseUtils

/-- Values put together. -/
def values (v : Text) (vs : List Text) : Text := vs.foldl appendToken v

theorem values_joined : ∀ (vs : List Text) (v : Text), v ≠ [] → values v vs = joined [' '] (v :: vs)
  | [], v, _ => rfl
  | w :: vs, v, hv => by
    have : values v (w :: vs) = values (v ++ [' '] ++ w) vs := by
      unfold values
      rw [List.foldl_cons, appendToken, if_neg hv]
    rw [this, values_joined vs _ (by simp)]
    cases vs with
    | nil => simp [joined]
    | cons x vs =>
      rw [joined_cons (l := x :: vs) (by simp), joined_cons (l := w :: x :: vs) (by simp), joined_cons (l := x :: vs) (by simp)]
      simp

theorem values_start (vs : List Text) (h : ∀ v ∈ vs, v ≠ []) : values [] vs = joined [' '] vs := by
  cases vs with
  | nil => rfl
  | cons v vs => exact values_joined vs v (h v List.mem_cons_self)

theorem loop_values {fields : List Text} {c : Text} : ∀ {vs : List Text} (rest : List Text) {m : List (Text × Text)} {v : Text}, (∀ x ∈ vs, x ∉ fields) → lookup c m = some v →
    ∃ m', fieldsLoop fields (some c) m (vs ++ rest) = fieldsLoop fields (some c) m' rest ∧ ∀ k, lookup k m' = if k = c then some (values v vs) else lookup k m
  | [], rest, m, v, _, hl => ⟨m, rfl, by
      intro k
      split_ifs with h
      · rw [h, hl]; rfl
      · rfl⟩
  | x :: vs, rest, m, v, hv, hl => by
    obtain ⟨m', h1, h2⟩ := loop_values (vs := vs) rest (m := assign c (appendToken v x) m) (v := appendToken v x) (fun y hy => hv y (List.mem_cons_of_mem _ hy)) (by rw [lookup_assign, if_pos rfl])
    refine ⟨m', ?_, ?_⟩
    · rw [List.cons_append, fieldsLoop, if_neg (hv x List.mem_cons_self), hl]
      exact h1
    · intro k
      rw [h2, lookup_assign]
      by_cases hk : k = c
      · rw [if_pos hk, if_pos hk]; rfl
      · rw [if_neg hk, if_neg hk, if_neg hk]

theorem loop_field {fields : List Text} {t : Text} (h : t ∈ fields) (curr : Option Text) (m : List (Text × Text)) (ts : List Text) : fieldsLoop fields curr m (t :: ts) =
    if lookup t m ≠ none then .throw "ValidationException: Redefined field" else fieldsLoop fields (some t) (assign t [] m) ts := by
  cases curr <;> rw [fieldsLoop, if_pos h]

theorem loop_parts {fields : List Text} : ∀ {parts : List (Text × List Text)} {curr : Option Text} {m : List (Text × Text)}, (∀ p ∈ parts, p.1 ∈ fields ∧ ∀ x ∈ p.2, x ∉ fields) →
    (parts.map Prod.fst).Nodup → (∀ p ∈ parts, lookup p.1 m = none) →
    ∃ m', fieldsLoop fields curr m (fieldTokens parts) = .ok m' ∧ (∀ p ∈ parts, lookup p.1 m' = some (values [] p.2)) ∧ ∀ k, k ∉ parts.map Prod.fst → lookup k m' = lookup k m
  | [], curr, m, _, _, _ => ⟨m, by rw [show fieldTokens [] = [] from rfl, fieldsLoop], by simp, fun _ _ => rfl⟩
  | p :: parts, curr, m, h1, h2, h3 => by
    rw [List.map_cons, List.nodup_cons] at h2
    obtain ⟨m1, k1, k2⟩ := loop_values (fields := fields) (c := p.1) (vs := p.2) (fieldTokens parts) (m := assign p.1 [] m) (v := []) (h1 p List.mem_cons_self).2 (by rw [lookup_assign, if_pos rfl])
    obtain ⟨m', j1, j2, j3⟩ := loop_parts (parts := parts) (curr := some p.1) (m := m1) (fun q hq => h1 q (List.mem_cons_of_mem _ hq)) h2.2 (by
      intro q hq
      have hne : q.1 ≠ p.1 := fun e => h2.1 (e ▸ List.mem_map_of_mem hq)
      rw [k2, if_neg hne, lookup_assign, if_neg hne, h3 q (List.mem_cons_of_mem _ hq)])
    refine ⟨m', ?_, ?_, ?_⟩
    · rw [show fieldTokens (p :: parts) = p.1 :: (p.2 ++ fieldTokens parts) from rfl, loop_field (h1 p List.mem_cons_self).1, if_neg (by simpa using h3 p List.mem_cons_self), k1, j1]
    · intro q hq
      rcases List.mem_cons.mp hq with rfl | hq
      · rw [j3 _ h2.1, k2, if_pos rfl]
      · exact j2 q hq
    · intro k hk
      rw [List.map_cons, List.mem_cons, not_or] at hk
      rw [j3 k hk.2, k2, if_neg hk.1, lookup_assign, if_neg hk.1]

theorem loop_rev {fields : List Text} : ∀ {ts : List Text} {curr : Option Text} {m m' : List (Text × Text)}, fieldsLoop fields curr m ts = .ok m' →
    ∃ vs parts, ts = vs ++ fieldTokens parts ∧ (∀ x ∈ vs, x ∉ fields) ∧ (vs ≠ [] → curr = none → [] ∈ fields) ∧ (∀ p ∈ parts, p.1 ∈ fields ∧ ∀ x ∈ p.2, x ∉ fields) ∧
      (parts.map Prod.fst).Nodup ∧ ∀ p ∈ parts, lookup p.1 m = none
  | [], curr, m, m', _ => ⟨[], [], rfl, by simp, by simp, by simp, by simp, by simp⟩
  | t :: ts, curr, m, m', h => by
    by_cases ht : t ∈ fields
    · rw [loop_field ht] at h
      by_cases hm : lookup t m ≠ none
      · rw [if_pos hm] at h; cases h
      · rw [if_neg hm] at h
        obtain ⟨vs, parts, h1, h2, -, h4, h5, h6⟩ := loop_rev h
        have hne : ∀ p ∈ parts, p.1 ≠ t := by
          intro p hp e
          have := h6 p hp
          rw [lookup_assign, if_pos e] at this
          cases this
        refine ⟨[], (t, vs) :: parts, by rw [h1]; rfl, by simp, by simp, ?_, ?_, ?_⟩
        · intro p hp
          rcases List.mem_cons.mp hp with rfl | hp
          · exact ⟨ht, h2⟩
          · exact h4 p hp
        · rw [List.map_cons, List.nodup_cons]
          refine ⟨?_, h5⟩
          rw [List.mem_map]
          rintro ⟨p, hp, e⟩
          exact hne p hp e
        · intro p hp
          rcases List.mem_cons.mp hp with rfl | hp
          · simpa using hm
          · have := h6 p hp
            rw [lookup_assign, if_neg (hne p hp)] at this
            exact this
    · cases curr with
      | none =>
        rw [fieldsLoop, if_neg ht] at h
        by_cases h0 : [] ∉ fields
        · rw [if_pos h0] at h; cases h
        · rw [if_neg h0] at h
          obtain ⟨vs, parts, h1, h2, -, h4, h5, h6⟩ := loop_rev h
          refine ⟨t :: vs, parts, by rw [h1]; rfl, ?_, fun _ _ => not_not.mp h0, h4, h5, ?_⟩
          · intro x hx
            rcases List.mem_cons.mp hx with rfl | hx
            · exact ht
            · exact h2 x hx
          · intro p hp
            have := h6 p hp
            rw [lookup_assign] at this
            split_ifs at this
            exact this
      | some c =>
        rw [fieldsLoop, if_neg ht] at h
        cases hc : lookup c m with
        | none => rw [hc] at h; cases h
        | some v =>
          rw [hc] at h
          obtain ⟨vs, parts, h1, h2, -, h4, h5, h6⟩ := loop_rev h
          refine ⟨t :: vs, parts, by rw [h1]; rfl, ?_, by simp, h4, h5, ?_⟩
          · intro x hx
            rcases List.mem_cons.mp hx with rfl | hx
            · exact ht
            · exact h2 x hx
          · intro p hp
            have := h6 p hp
            rw [lookup_assign] at this
            split_ifs at this
            exact this

theorem loop_total {fields : List Text} : ∀ {ts : List Text} {curr : Option Text} {m : List (Text × Text)}, (∀ c ∈ curr, lookup c m ≠ none) →
    (∃ m', fieldsLoop fields curr m ts = .ok m') ∨ ∃ e, fieldsLoop fields curr m ts = .throw e
  | [], curr, m, _ => by rw [fieldsLoop]; simp
  | t :: ts, curr, m, h => by
    by_cases ht : t ∈ fields
    · rw [loop_field ht]
      by_cases hm : lookup t m ≠ none
      · rw [if_pos hm]; exact Or.inr ⟨_, rfl⟩
      · rw [if_neg hm]
        refine loop_total ?_
        intro c hc
        obtain rfl := Option.some.inj hc
        rw [lookup_assign, if_pos rfl]
        simp
    · cases curr with
      | none =>
        rw [fieldsLoop, if_neg ht]
        by_cases h0 : [] ∉ fields
        · rw [if_pos h0]; exact Or.inr ⟨_, rfl⟩
        · rw [if_neg h0]
          refine loop_total ?_
          intro c hc
          obtain rfl := Option.some.inj hc
          rw [lookup_assign, if_pos rfl]
          simp
      | some c =>
        rw [fieldsLoop, if_neg ht]
        cases hc : lookup c m with
        | none => exact absurd hc (h c rfl)
        | some v =>
          simp only
          refine loop_total ?_
          intro c' hc'
          obtain rfl := Option.some.inj hc'
          rw [lookup_assign, if_pos rfl]
          simp

end ParseUtils

/-- C47: lists of fields with values in a line (tokens are not empty). They are parsed exactly if tokens before the first field, if any, are permitted by an empty field name and no field is given twice; each
field, and only these ones, gets its tokens joined with spaces. -/
theorem C47_fields (fields tokens : List Text) (hne : ∀ t ∈ tokens, t ≠ []) :
    ((∃ m, ParseUtils.parseFields fields tokens = .ok m) ↔ ∃ free parts, tokens = free ++ fieldTokens parts ∧ (∀ x ∈ free, x ∉ fields) ∧ (free ≠ [] → [] ∈ fields) ∧
      (∀ p ∈ parts, p.1 ∈ fields ∧ ∀ x ∈ p.2, x ∉ fields) ∧ (parts.map Prod.fst).Nodup) ∧
    ((∃ m, ParseUtils.parseFields fields tokens = .ok m) ∨ ∃ e, ParseUtils.parseFields fields tokens = .throw e) ∧
    ∀ m free parts, ParseUtils.parseFields fields tokens = .ok m → tokens = free ++ fieldTokens parts → (∀ x ∈ free, x ∉ fields) → (∀ p ∈ parts, p.1 ∈ fields ∧ ∀ x ∈ p.2, x ∉ fields) →
      (parts.map Prod.fst).Nodup → (∀ p ∈ parts, lookup p.1 m = some (joined [' '] p.2)) ∧ (free ≠ [] → lookup [] m = some (joined [' '] free)) ∧
      ∀ k, k ∉ parts.map Prod.fst → (k ≠ [] ∨ free = []) → lookup k m = none := by
  have key : ∀ free parts, tokens = free ++ fieldTokens parts → (∀ x ∈ free, x ∉ fields) → (free ≠ [] → [] ∈ fields) → (∀ p ∈ parts, p.1 ∈ fields ∧ ∀ x ∈ p.2, x ∉ fields) →
      (parts.map Prod.fst).Nodup → ∃ m, ParseUtils.parseFields fields tokens = .ok m ∧ (∀ p ∈ parts, lookup p.1 m = some (joined [' '] p.2)) ∧ (free ≠ [] → lookup [] m = some (joined [' '] free)) ∧
      ∀ k, k ∉ parts.map Prod.fst → (k ≠ [] ∨ free = []) → lookup k m = none := by
    rintro free parts rfl h1 h2 h3 h4
    have hpn : ∀ p ∈ parts, p.1 ≠ [] ∧ ∀ x ∈ p.2, x ≠ [] := by
      intro p hp
      have hsub : ∀ x ∈ p.1 :: p.2, x ≠ [] := fun x hx => hne x (List.mem_append_right _ (List.mem_flatMap.mpr ⟨p, hp, hx⟩))
      exact ⟨hsub _ List.mem_cons_self, fun x hx => hsub x (List.mem_cons_of_mem _ hx)⟩
    unfold ParseUtils.parseFields
    cases free with
    | nil =>
      obtain ⟨m, k1, k2, k3⟩ := ParseUtils.loop_parts (fields := fields) (parts := parts) (curr := none) (m := []) h3 h4 fun _ _ => rfl
      refine ⟨m, k1, ?_, by simp, fun k hk _ => by rw [k3 k hk]; rfl⟩
      intro p hp
      rw [k2 p hp, ParseUtils.values_start _ (hpn p hp).2]
    | cons t free =>
      obtain ⟨m1, j1, j2⟩ := ParseUtils.loop_values (fields := fields) (c := []) (vs := free) (fieldTokens parts) (m := assign [] t []) (v := t) (fun x hx => h1 x (List.mem_cons_of_mem _ hx))
        (by rw [lookup_assign, if_pos rfl])
      obtain ⟨m, k1, k2, k3⟩ := ParseUtils.loop_parts (fields := fields) (parts := parts) (curr := some []) (m := m1) h3 h4 (by
        intro p hp
        rw [j2, if_neg (hpn p hp).1, lookup_assign, if_neg (hpn p hp).1]
        rfl)
      refine ⟨m, ?_, ?_, ?_, ?_⟩
      · rw [List.cons_append, ParseUtils.fieldsLoop, if_neg (h1 t List.mem_cons_self), if_neg (not_not.mpr (h2 (by simp))), j1, k1]
      · intro p hp
        rw [k2 p hp, ParseUtils.values_start _ (hpn p hp).2]
      · intro _
        rw [k3, j2, if_pos rfl, ParseUtils.values_joined _ _ (hne t (by simp))]
        rw [List.mem_map]
        rintro ⟨p, hp, e⟩
        exact (hpn p hp).1 e
      · intro k hk hk'
        have hk0 : k ≠ [] := by
          rcases hk' with h | h
          · exact h
          · cases h
        rw [k3 k hk, j2, if_neg hk0, lookup_assign, if_neg hk0]
        rfl
  refine ⟨⟨?_, ?_⟩, ParseUtils.loop_total (by simp), ?_⟩
  · rintro ⟨m, h⟩
    obtain ⟨vs, parts, h1, h2, h3, h4, h5, -⟩ := ParseUtils.loop_rev h
    exact ⟨vs, parts, h1, h2, fun h => h3 h rfl, h4, h5⟩
  · rintro ⟨free, parts, h1, h2, h3, h4, h5⟩
    obtain ⟨m, h, -⟩ := key free parts h1 h2 h3 h4 h5
    exact ⟨m, h⟩
  · intro m free parts h h1 h2 h4 h5
    have h3 : free ≠ [] → [] ∈ fields := by
      intro hf
      cases free with
      | nil => exact absurd rfl hf
      | cons t free =>
        by_contra h0
        rw [h1, ParseUtils.parseFields, List.cons_append, ParseUtils.fieldsLoop, if_neg (h2 t List.mem_cons_self), if_pos h0] at h
        cases h
    obtain ⟨m', h', k⟩ := key free parts h1 h2 h3 h4 h5
    rw [h] at h'
    rw [Outcome.ok_inj.mp h']
    exact k

/-- A text with a comment, a section and a continued value. -/
example : (match Config.parse "a = 1 # one\n\n[s]\nb = x \\\n  y ; z\n".toList '=' false with
    | .ok C => decide (C.keys = ["a".toList, "s.b".toList] ∧ lookup "s.b".toList C.fieldMap = some "x\ny".toList ∧ C.hasSection "s".toList)
    | _ => false) = true := by
  have hg : getlines '\n' "a = 1 # one\n\n[s]\nb = x \\\n  y ; z\n".toList = ["a = 1 # one".toList, [], "[s]".toList, "b = x \\".toList, "  y ; z".toList] :=
    lines_unique (getlines_ok _ _ (le_refl _)) ⟨by decide, Or.inl (by decide)⟩
  unfold Config.parse
  rw [hg]
  decide

/-- A redefinition and a missing delimiter are refused. -/
example : (∃ m, Config.parse "a=1\na=2".toList '=' false = .throw m) ∧ ∃ m, Config.parse "a".toList '=' true = .throw m := by
  have h1 : getlines '\n' "a=1\na=2".toList = ["a=1".toList, "a=2".toList] := lines_unique (getlines_ok _ _ (le_refl _)) ⟨by decide, Or.inr (by decide)⟩
  have h2 : getlines '\n' "a".toList = ["a".toList] := lines_unique (getlines_ok _ _ (le_refl _)) ⟨by decide, Or.inr (by decide)⟩
  unfold Config.parse
  rw [h1, h2]
  exact ⟨⟨_, rfl⟩, _, rfl⟩

/-- Tokens before the first field and a field with two tokens. -/
example : ParseUtils.parseFields [[], "dim".toList, "axis".toList] ["sc".toList, "dim".toList, "1".toList, "2".toList] = .ok [([], "sc".toList), ("dim".toList, "1 2".toList)] := by
  rfl

end Rampack
