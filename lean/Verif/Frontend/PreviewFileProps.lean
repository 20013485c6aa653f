import Verif.Frontend.PreviewFileSpec
import Verif.Frontend.InputFiles
import Verif.Frontend.ObservProps
import Verif.Utils.VersionProps
/-
Property C116: formats of shape previews.
-/
namespace Rampack.PreviewFile

open Pyon Pyon.Spec Rampack.Input Rampack.Input.Spec Rampack.PreviewFile.Spec

theorem takeWhile_stop {p : Char → Bool} {d r : Text} (hd : ∀ c ∈ d, p c = true) (hr : ∀ c ∈ r.head?, p c = false) : (d ++ r).takeWhile p = d := by
  rw [List.takeWhile_append_of_pos hd]
  cases r with
  | nil => simp
  | cons c r => rw [List.takeWhile_cons_of_neg (by simp [hr c rfl])]; simp

theorem dropWhile_stop {p : Char → Bool} {d r : Text} (hd : ∀ c ∈ d, p c = true) (hr : ∀ c ∈ r.head?, p c = false) : (d ++ r).dropWhile p = r := by
  rw [List.dropWhile_append_of_pos hd]
  cases r with
  | nil => rfl
  | cons c r => rw [List.dropWhile_cons_of_neg (by simp [hr c rfl])]

theorem stoul_iff {s : Text} {n : Nat} : (∃ k, Version.stoul s = .ok (n, k)) ↔ BeginsWith s n := by
  constructor
  · rintro ⟨k, h⟩
    unfold Version.stoul at h
    obtain ⟨sign, neg, hs, hneg, ht⟩ : ∃ (sign : Text) (neg : Bool), ((sign = [] ∨ sign = "+".toList) ∧ neg = false ∨ sign = "-".toList ∧ neg = true) ∧
        ((s.dropWhile isSpace).head? == some '-') = neg ∧
        s.dropWhile isSpace = sign ++ (if ((s.dropWhile isSpace).head? == some '-' || (s.dropWhile isSpace).head? == some '+') = true then (s.dropWhile isSpace).tail else s.dropWhile isSpace) := by
      cases s.dropWhile isSpace with
      | nil => exact ⟨[], false, .inl ⟨.inl rfl, rfl⟩, rfl, rfl⟩
      | cons c t =>
        by_cases h1 : c = '-'
        · exact ⟨"-".toList, true, .inr ⟨rfl, rfl⟩, by simp [h1], by simp [h1]⟩
        · by_cases h2 : c = '+'
          · exact ⟨"+".toList, false, .inl ⟨.inr rfl, rfl⟩, by simp [h1], by simp [h2]⟩
          · exact ⟨[], false, .inl ⟨.inl rfl, rfl⟩, by simp [h1], by simp [h1, h2]⟩
    dsimp only at h
    rw [hneg] at h ht
    generalize (if (neg || (s.dropWhile isSpace).head? == some '+') = true then (s.dropWhile isSpace).tail else s.dropWhile isSpace) = u at h ht
    split at h
    · cases h
    · next hd =>
      split at h
      · cases h
      · next hb =>
        injection h with h
        injection h with h _
        refine ⟨s.takeWhile isSpace, sign, u.takeWhile isDec, u.dropWhile isDec, ?_, fun c hc => List.mem_takeWhile_imp hc, ?_, fun c hc => List.mem_takeWhile_imp hc, ?_, by omega, ?_⟩
        · rw [List.append_assoc, List.takeWhile_append_dropWhile, List.append_assoc, ← ht, List.takeWhile_append_dropWhile]
        · intro e
          rw [e] at hd
          exact hd rfl
        · intro c hc
          have := List.head?_dropWhile_not isDec u
          rw [Option.mem_def.mp hc] at this
          simpa using this
        · rcases hs with ⟨hs, rfl⟩ | ⟨hs, rfl⟩
          · exact .inl ⟨hs, by simpa using h.symm⟩
          · exact .inr ⟨hs, by simpa using h.symm⟩
  · rintro ⟨blanks, sign, digits, rest, rfl, hb, hd, hc, hr, hl, hs⟩
    obtain ⟨c, d, rfl⟩ := List.exists_cons_of_ne_nil hd
    have hc0 := hc c (by simp)
    have hm : (c == '-') = false := TextIn.dec_ne hc0 (by decide)
    have hp : (c == '+') = false := TextIn.dec_ne hc0 (by decide)
    have hw : (blanks ++ sign ++ (c :: d) ++ rest).dropWhile isSpace = sign ++ ((c :: d) ++ rest) := by
      rw [List.append_assoc, List.append_assoc]
      refine dropWhile_stop hb fun x hx => ?_
      rcases hs with ⟨rfl | rfl, -⟩ | ⟨rfl, -⟩
      · have : c = x := by simpa using hx
        subst this
        exact dec_not_space hc0
      · have : '+' = x := by simpa using hx
        subst this
        decide
      · have : '-' = x := by simpa using hx
        subst this
        decide
    have ht := takeWhile_stop hc hr
    have hm' : c ≠ '-' := by simpa using hm
    have hp' : c ≠ '+' := by simpa using hp
    have hl' : ¬ 2 ^ 64 ≤ textNat (c :: d) := by omega
    unfold Version.stoul
    simp only [hw]
    rcases hs with ⟨rfl | rfl, rfl⟩ | ⟨rfl, rfl⟩
    · have e1 : (((c :: d) ++ rest : Text).head? == some '-') = false := by simp [hm']
      have e2 : (((c :: d) ++ rest : Text).head? == some '+') = false := by simp [hp']
      simp only [List.nil_append]
      simp only [e1, e2, Bool.or_self, Bool.false_eq_true, if_false, ht, List.isEmpty_cons, if_neg hl']
      exact ⟨_, rfl⟩
    · have e1 : (("+".toList ++ ((c :: d) ++ rest) : Text).head? == some '-') = false := by simp
      have e2 : (("+".toList ++ ((c :: d) ++ rest) : Text).head? == some '+') = true := by simp
      have e3 : ("+".toList ++ ((c :: d) ++ rest) : Text).tail = (c :: d) ++ rest := by simp
      simp only [e1, e2, e3, Bool.or_true, Bool.false_eq_true, if_true, if_false, ht, List.isEmpty_cons, if_neg hl']
      exact ⟨_, rfl⟩
    · have e1 : (("-".toList ++ ((c :: d) ++ rest) : Text).head? == some '-') = true := by simp
      have e3 : ("-".toList ++ ((c :: d) ++ rest) : Text).tail = (c :: d) ++ rest := by simp
      simp only [e1, e3, Bool.true_or, Bool.false_eq_true, if_true, if_false, ht, List.isEmpty_cons, if_neg hl']
      exact ⟨_, rfl⟩

theorem divisions_iff {params : List (Text × Text)} (hu : ∀ k s t, (k, s) ∈ params → (k, t) ∈ params → s = t) {n : Nat} : divisions params = .ok n ↔ Divisions params n := by
  unfold divisions Divisions
  cases h : params.find? fun e => e.1 == "mesh_divisions".toList with
  | none =>
    have hn : ∀ s, ("mesh_divisions".toList, s) ∉ params := by
      intro s m
      have := List.find?_eq_none.mp h _ m
      simp at this
    constructor
    · intro e
      cases e
      exact .inl ⟨hn, rfl⟩
    · rintro (⟨-, rfl⟩ | ⟨s, m, -⟩)
      · rfl
      · exact absurd m (hn s)
  | some e =>
    obtain ⟨k, s⟩ := e
    have hk : k = "mesh_divisions".toList := by simpa using List.find?_some h
    have hm : ("mesh_divisions".toList, s) ∈ params := hk ▸ List.mem_of_find?_eq_some h
    have key : (do let (n, _) ← Version.stoul s; Outcome.require (decide (n ≥ 1)) "Expects(meshSubdivisions >= 1)"; return n : Outcome Nat) = .ok n ↔
        (∃ k, Version.stoul s = .ok (n, k)) ∧ 1 ≤ n := by
      cases e : Version.stoul s with
      | ok r =>
        obtain ⟨a, b⟩ := r
        by_cases ha : a ≥ 1
        · simp only [Outcome.ok_bind, decide_eq_true ha, Outcome.require_true]
          constructor
          · intro h
            cases h
            exact ⟨⟨b, rfl⟩, ha⟩
          · rintro ⟨⟨k, h⟩, -⟩
            cases h
            rfl
        · simp only [Outcome.ok_bind, decide_eq_false ha]
          constructor
          · intro h
            cases h
          · rintro ⟨⟨k, h⟩, h1⟩
            cases h
            exact absurd h1 ha
      | throw m => exact ⟨fun h => (by cases h), fun h => (by obtain ⟨⟨k, h⟩, -⟩ := h; cases h)⟩
      | ub => exact ⟨fun h => (by cases h), fun h => (by obtain ⟨⟨k, h⟩, -⟩ := h; cases h)⟩
      | diverge => exact ⟨fun h => (by cases h), fun h => (by obtain ⟨⟨k, h⟩, -⟩ := h; cases h)⟩
    refine Iff.trans key ?_
    rw [stoul_iff]
    constructor
    · rintro ⟨h1, h2⟩
      exact .inr ⟨s, hm, h1, h2⟩
    · rintro (⟨h1, -⟩ | ⟨t, h1, h2, h3⟩)
      · exact absurd hm (h1 s)
      · cases hu _ _ _ hm h1
        exact ⟨h2, h3⟩

theorem construct_ok {α : Type} {o : Outcome α} {a : α} : construct o = .ok a ↔ o = .ok a := by
  cases o <;> simp [construct]

/-- An invocation of a class of formats. -/
def IsFormat (name : String) (format : Format) (n : Node ℝ) (p : Preview) : Prop :=
  ∃ (ps : List (Node ℝ)) (ks : List (Text × Node ℝ)) (a : Node ℝ) (params : List (Text × Text)),
    n = .dataclass name.toList ps ks ∧ ps.length ≤ 1 ∧ Arguments ps ks [("filename", none)] [a] ∧
      IsText a p.filename ∧ Ordered params ∧ (∀ k m, (Given ks k m ∧ k ≠ "filename".toList) ↔ ∃ s, m = .string s ∧ (k, s) ∈ params) ∧ Divisions params p.divisions ∧ p.format = format

theorem format_reads (name : String) (format : Format) (hname : ∃ c, createClass (F := ℝ) (V := Value Preview) name.toList [required "filename" filename] = .ok c ∧
      c = ⟨name.toList, [required "filename" filename], none, none, [], c.mapping⟩) :
    ∃ c, createFormat name format = .ok c ∧ c.name = name.toList ∧ Interprets c.toMatcher (IsFormat name format) .object := by
  obtain ⟨c, ec, hc⟩ := hname
  refine ⟨_, by rw [createFormat, ec, Outcome.ok_bind]; rfl, by rw [hc]; rfl, fun n v => ?_⟩
  rw [keyword_run (name := name) (by rw [hc]; exact .required .nil) (by rw [hc]; rfl) (by decide) (by rw [hc]; rfl) rfl (by rw [hc]; rfl)]
  simp only [exists_read filename_reads, exists_unread, ClassMatcher.mapTo]
  eval_class
  simp only [texts_iff]
  have hdecl : ∀ k : Text, (¬ ∃ s ∈ [("filename", (none : Option (Node ℝ)))], k = s.1.toList) ↔ k ≠ "filename".toList := by
    intro k
    simp only [List.mem_cons, List.not_mem_nil, or_false, exists_eq_left, ne_eq]
  simp only [hdecl]
  have unique : ∀ {ks : List (Text × Node ℝ)} {params : List (Text × Text)}, (∀ k m, (Given ks k m ∧ k ≠ "filename".toList) ↔ ∃ s, m = .string s ∧ (k, s) ∈ params) →
      ∀ k s t, (k, s) ∈ params → (k, t) ∈ params → s = t := by
    intro ks params h k s t hs ht
    have := Input.given_unique ((h k _).mpr ⟨s, rfl, hs⟩).1 ((h k _).mpr ⟨t, rfl, ht⟩).1
    injection this
  constructor
  · rintro ⟨a, f, g1, ps, ks, kw, rfl, g3, g4, ⟨es, g5, params, rfl, g6, g7⟩, g8⟩
    rw [entryText_list, ok_bind'] at g8
    have hg : ∀ k m, (Given ks k m ∧ k ≠ "filename".toList) ↔ ∃ s, m = .string s ∧ (k, s) ∈ params := fun k m => by rw [← g7, g5]
    cases hd : construct (divisions params) with
    | error m => rw [hd] at g8; cases g8
    | ok n =>
      rw [hd] at g8
      cases g8
      exact ⟨⟨f, format, n⟩, ⟨ps, ks, a, params, rfl, g3, g4, g1, g6, hg, (divisions_iff (unique hg)).mp (construct_ok.mp hd), rfl⟩, rfl⟩
  · rintro ⟨⟨f, fo, n⟩, ⟨ps, ks, a, params, rfl, g3, g4, g1, g6, g7, g8, rfl⟩, rfl⟩
    refine ⟨a, f, g1, ps, ks, _, rfl, g3, g4, ⟨ks.filter fun e => decide (e.1 ≠ "filename".toList), ?_, params, rfl, g6, ?_⟩, ?_⟩
    · intro k m
      rw [given_filter (p := fun k => decide (k ≠ "filename".toList)), decide_eq_true_eq]
    · intro k m
      rw [given_filter (p := fun k => decide (k ≠ "filename".toList)), decide_eq_true_eq, g7]
    · rw [entryText_list, ok_bind', construct_ok.mpr ((divisions_iff (unique g7)).mpr g8)]
      rfl

theorem preview_reads : ∃ c, createPreview = .ok c ∧ Interprets c.toMatcher IsPreview .object := by
  obtain ⟨c1, e1, n1, r1⟩ := format_reads "wolfram" .wolfram ⟨_, rfl, rfl⟩
  obtain ⟨c2, e2, n2, r2⟩ := format_reads "obj" .obj ⟨_, rfl, rfl⟩
  refine ⟨.join (.dataclass c1) (.dataclass c2), by rw [createPreview, e1, Outcome.ok_bind, e2]; rfl, fun n v => ?_⟩
  refine Iff.trans (alternative_reads (heads := ["wolfram", "obj"].map (fun s => Head.named s.toList)) (by exact ⟨trivial, trivial⟩)
    (by exact .cons (takes_class n1) (.cons (takes_class n2) .nil)) (heads_nodup (by decide))) ?_
  simp only [options, List.cons_append, List.nil_append, List.mem_cons, List.not_mem_nil, or_false, exists_eq_or_imp, exists_eq_left, r1 n v, r2 n v]
  constructor
  · rintro (⟨p, ⟨ps, ks, a, params, h1, h2, h3, h4, h5, h6, h7, h8⟩, rfl⟩ | ⟨p, ⟨ps, ks, a, params, h1, h2, h3, h4, h5, h6, h7, h8⟩, rfl⟩)
    · exact ⟨p, ⟨"wolfram", ps, ks, a, params, by rw [h8]; simp, h1, h2, h3, h4, h5, h6, h7⟩, rfl⟩
    · exact ⟨p, ⟨"obj", ps, ks, a, params, by rw [h8]; simp, h1, h2, h3, h4, h5, h6, h7⟩, rfl⟩
  · rintro ⟨p, ⟨name, ps, ks, a, params, h0, h1, h2, h3, h4, h5, h6, h7⟩, rfl⟩
    rcases List.mem_cons.mp h0 with e | h0
    · injection e with e1 e2
      exact .inl ⟨p, ⟨ps, ks, a, params, e1 ▸ h1, h2, h3, h4, h5, h6, h7, e2⟩, rfl⟩
    · injection List.mem_singleton.mp h0 with e1 e2
      exact .inr ⟨p, ⟨ps, ks, a, params, e1 ▸ h1, h2, h3, h4, h5, h6, h7, e2⟩, rfl⟩

/-- **C116** A text is accepted as a format of a preview exactly if it is an expression of this form, and then the name of the file, the format and the number of divisions are those in it.
Missing: the number of divisions should be all of the text given for it (`C116_rest_violated`, `C116_negative_violated`). -/
theorem C116_preview_partial {conv : ℚ → Option ℝ} {expression : Text} {p : Preview} :
    matchPreview conv expression = .ok p ↔ ∃ n, parse conv expression = .ok n ∧ IsPreview n p := by
  obtain ⟨c, e, h⟩ := preview_reads
  unfold matchPreview
  rw [e, Outcome.ok_bind]
  cases hp : parse conv expression with
  | ok n =>
    rw [Outcome.ok_bind]
    constructor
    · intro hm
      refine ⟨n, rfl, ?_⟩
      cases hr : c.toMatcher.run n with
      | matched v =>
        obtain ⟨q, hq, rfl⟩ := (h n v).mp hr
        rw [hr] at hm
        cases hm
        exact hq
      | unmatched r => rw [hr] at hm; cases hm
      | thrown m => rw [hr] at hm; cases hm
    · rintro ⟨n', en, hn⟩
      cases en
      rw [(h n _).mpr ⟨p, hn, rfl⟩]
  | throw m => exact ⟨fun h => (by cases h), fun ⟨_, h, _⟩ => (by cases h)⟩
  | ub => exact ⟨fun h => (by cases h), fun ⟨_, h, _⟩ => (by cases h)⟩
  | diverge => exact ⟨fun h => (by cases h), fun ⟨_, h, _⟩ => (by cases h)⟩

/-- `obj("shape.obj", mesh_divisions="...")`. -/
def withDivisions (s : Text) : Node ℝ := .dataclass "obj".toList [.string "shape.obj".toList] [("mesh_divisions".toList, .string s)]

theorem withDivisions_ok {s : Text} {n : Nat} (h : BeginsWith s n) (h1 : 1 ≤ n) : IsPreview (withDivisions s) ⟨"shape.obj".toList, .obj, n⟩ := by

  refine ⟨"obj", _, _, .string "shape.obj".toList, [("mesh_divisions".toList, s)], by simp, rfl, by simp, ?_, ?_, ?_, ?_, ?_⟩
  · refine ⟨rfl, fun i k d a h1 h2 => ?_⟩
    match i with
    | 0 =>
      cases h1
      cases h2
      refine .inl ⟨rfl, fun e m => ?_⟩
      rw [List.mem_singleton.mp m]
      exact show "mesh_divisions".toList ≠ "filename".toList by decide +kernel
    | i + 1 => cases h1
  · exact ⟨rfl, show "shape.obj".toList ≠ [] by decide +kernel⟩
  · exact List.pairwise_singleton _ _
  · intro k m
    constructor
    · rintro ⟨⟨q, r, h, -⟩, -⟩
      have : (k, m) ∈ [("mesh_divisions".toList, Node.string s)] := by rw [h]; simp
      injection List.mem_singleton.mp this with e1 e2
      exact ⟨_, e2, by rw [e1]; exact List.mem_singleton.mpr rfl⟩
    · rintro ⟨t, rfl, h⟩
      injection List.mem_singleton.mp h with e1 e2
      subst e1 e2
      exact ⟨⟨[], [], rfl, by simp⟩, by decide +kernel⟩
  · exact .inr ⟨_, List.mem_singleton.mpr rfl, h, h1⟩

theorem matched_unique {m n : Nat} {s : Text} (h : BeginsWith s m) (h' : BeginsWith s n) : m = n := by
  obtain ⟨k, hk⟩ := stoul_iff.mpr h
  obtain ⟨l, hl⟩ := stoul_iff.mpr h'
  rw [hk] at hl
  injection hl with hl
  injection hl

/-- **C116** What is documented is accepted: a number from 1 to 2^64 - 1 written with digits is the number of divisions, and nothing else is. -/
theorem C116_number {conv : ℚ → Option ℝ} {expression digits : Text} (h : parse conv expression = .ok (withDivisions digits)) (h0 : digits ≠ []) (hd : ∀ c ∈ digits, isDec c = true)
    (h1 : 1 ≤ textNat digits) (h2 : textNat digits < 2 ^ 64) :
    matchPreview conv expression = .ok ⟨"shape.obj".toList, .obj, textNat digits⟩ ∧ ∀ n, BeginsWith digits n → n = textNat digits := by
  have hb : BeginsWith digits (textNat digits) := ⟨[], [], digits, [], by simp, by simp, h0, hd, by simp, h2, .inl ⟨.inl rfl, rfl⟩⟩
  exact ⟨C116_preview_partial.mpr ⟨_, h, withDivisions_ok hb h1⟩, fun n hn => matched_unique hn hb⟩

theorem withDivisions_text {conv : ℚ → Option ℝ} (hconv : Rampack.Spec.RoundsIntegers conv) {t s : Text} (ht : t = Rampack.Spec.canonical (fun _ => []) (withDivisions s)) :
    parse conv t = .ok (withDivisions s) := by
  refine Observ.parse_text hconv ?_ ht
  refine .dataclass ⟨'o', "bj".toList, rfl, by unfold Rampack.Spec.Letter; decide⟩ (by unfold Rampack.Spec.Reserved; decide) ?_ ?_ ?_ (by simp)
  · simp only [List.mem_cons, List.not_mem_nil, or_false, forall_eq]
    exact .string
  · simp only [List.mem_cons, List.not_mem_nil, or_false, forall_eq]
    exact .string
  · simp only [List.mem_cons, List.not_mem_nil, or_false, forall_eq]
    exact ⟨'m', "esh_divisions".toList, by decide +kernel, by unfold Rampack.Spec.Letter; decide⟩

/-- **C116** The number of divisions may be followed by anything: `2.5 or so` is accepted as 2. -/
theorem C116_rest_violated {conv : ℚ → Option ℝ} (hconv : Rampack.Spec.RoundsIntegers conv) :
    matchPreview conv "obj(\"shape.obj\", mesh_divisions=\"2.5 or so\")".toList = .ok ⟨"shape.obj".toList, .obj, 2⟩ :=
  C116_preview_partial.mpr ⟨_, withDivisions_text (s := "2.5 or so".toList) hconv (by
    simp only [withDivisions, Rampack.Spec.canonical, Rampack.Spec.canonicals, Rampack.Spec.canonicalEntries, Rampack.Spec.joinText, List.append_nil]; decide +kernel),
    withDivisions_ok ⟨[], [], "2".toList, ".5 or so".toList, by decide +kernel, by simp, by decide +kernel, by decide +kernel, by decide +kernel,
      by decide +kernel, .inl ⟨.inl rfl, by decide +kernel⟩⟩ (by decide)⟩

/-- **C116** A negative number is accepted as a number of divisions, which is then greater than 10^19. -/
theorem C116_negative_violated {conv : ℚ → Option ℝ} (hconv : Rampack.Spec.RoundsIntegers conv) :
    ∃ n, matchPreview conv "obj(\"shape.obj\", mesh_divisions=\"-1\")".toList = .ok ⟨"shape.obj".toList, .obj, n⟩ ∧ 10 ^ 19 < n :=
  ⟨2 ^ 64 - 1, C116_preview_partial.mpr ⟨_, withDivisions_text (s := "-1".toList) hconv (by
    simp only [withDivisions, Rampack.Spec.canonical, Rampack.Spec.canonicals, Rampack.Spec.canonicalEntries, Rampack.Spec.joinText, List.append_nil]; decide +kernel),
    withDivisions_ok ⟨[], "-".toList, "1".toList, [], by decide +kernel, by simp, by decide +kernel, by decide +kernel, by simp,
      by decide +kernel, .inr ⟨rfl, by decide +kernel⟩⟩ (by decide)⟩, by decide⟩

/-- `obj("shape.obj", mesh_divisions="5")`, whatever conversion of numbers. -/
example {conv : ℚ → Option ℝ} (hconv : Rampack.Spec.RoundsIntegers conv) : matchPreview conv "obj(\"shape.obj\", mesh_divisions=\"5\")".toList = .ok ⟨"shape.obj".toList, .obj, 5⟩ :=
  (C116_number (withDivisions_text (s := "5".toList) hconv (by
    simp only [withDivisions, Rampack.Spec.canonical, Rampack.Spec.canonicals, Rampack.Spec.canonicalEntries, Rampack.Spec.joinText, List.append_nil]; decide +kernel))
    (by decide +kernel) (by decide +kernel) (by decide +kernel) (by decide +kernel)).1

end Rampack.PreviewFile
