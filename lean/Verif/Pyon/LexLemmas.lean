import Verif.Pyon.FloatLemmas
/-
Lemmas on white space, comments, names and strings.
-/
namespace Rampack.Pyon

open Rampack Spec

/-! ### White space and comments -/

theorem skip_comment {l : Text} (h : '\n' ∉ l) (t : Text) : skip true (l ++ '\n' :: t) = skip false t := by
  induction l with
  | nil => simp [skip]
  | cons c l ih =>
    have hc : c ≠ '\n' := fun e => h (by rw [e]; exact List.mem_cons_self)
    simp only [List.cons_append, skip, if_neg hc]
    exact ih fun hm => h (List.mem_cons_of_mem _ hm)

theorem skip_last {l : Text} (h : '\n' ∉ l) : skip true l = [] := by
  induction l with
  | nil => simp [skip]
  | cons c l ih =>
    have hc : c ≠ '\n' := fun e => h (by rw [e]; exact List.mem_cons_self)
    simp only [skip, if_neg hc]
    exact ih fun hm => h (List.mem_cons_of_mem _ hm)

theorem hash_not_space : isSpace '#' = false := by decide

theorem ws_gap {g : Text} (h : Gap g) (t : Text) : ws (g ++ t) = ws t := by
  induction h with
  | nil => rfl
  | space hc _ ih =>
    have := isSpace_iff.mpr hc
    simp only [ws, List.cons_append, skip, this, if_true]
    exact ih
  | @comment l t' hl _ ih =>
    have e : '#' :: l ++ '\n' :: t' ++ t = '#' :: (l ++ '\n' :: (t' ++ t)) := by simp
    rw [e]
    simp only [ws, skip, hash_not_space, Bool.false_eq_true, if_false, if_true]
    rw [skip_comment hl]
    exact ih

theorem ws_lastGap {g : Text} (h : LastGap g) : ws g = [] := by
  rcases h with h | ⟨g, l, hg, hl, rfl⟩
  · have := ws_gap h []
    rw [List.append_nil] at this
    rw [this]; rfl
  · rw [ws_gap hg]
    simp only [ws, skip, hash_not_space, Bool.false_eq_true, if_false, if_true]
    exact skip_last hl

/-- The text begins neither with white space nor with a comment. -/
def NoBlank (t : Text) : Prop := ∀ c ∈ t.head?, isSpace c = false ∧ c ≠ '#'

theorem ws_noop {t : Text} (h : NoBlank t) : ws t = t := by
  cases t with
  | nil => rfl
  | cons c t =>
    obtain ⟨h1, h2⟩ := h c rfl
    simp [ws, skip, h1, h2]

theorem skip_noBlank : ∀ (b : Bool) (t : Text), NoBlank (skip b t)
  | b, [] => by cases b <;> (simp only [skip]; intro c hc; simp at hc)
  | true, c :: t => by
    simp only [skip]
    split
    · exact skip_noBlank false t
    · exact skip_noBlank true t
  | false, c :: t => by
    simp only [skip]
    split
    · exact skip_noBlank false t
    · split
      · exact skip_noBlank true t
      · rename_i h1 h2
        intro c' hc'
        have : c' = c := by simpa using hc'.symm
        rw [this]; exact ⟨by simpa using h1, h2⟩

theorem ws_noBlank (t : Text) : NoBlank (ws t) := skip_noBlank false t

theorem ws_ws (t : Text) : ws (ws t) = ws t := ws_noop (ws_noBlank t)

/-- What is skipped before `r`: a comment without the end of line is possible at the end. -/
def EndGap (w r : Text) : Prop := LastGap w ∧ (r ≠ [] → Gap w)

theorem endGap_of {w : Text} (h : Gap w) (r : Text) : EndGap w r := ⟨.inl h, fun _ => h⟩

theorem gap_append {g h : Text} (hg : Gap g) (hh : Gap h) : Gap (g ++ h) := by
  induction hg with
  | nil => exact hh
  | space hc _ ih => exact .space hc ih
  | @comment l t hl _ ih =>
    have e : '#' :: l ++ '\n' :: t ++ h = '#' :: l ++ '\n' :: (t ++ h) := by simp
    rw [e]
    exact .comment hl ih

theorem gap_lastGap {g h : Text} (hg : Gap g) (hh : LastGap h) : LastGap (g ++ h) := by
  rcases hh with hh | ⟨g', l, hg', hl, rfl⟩
  · exact .inl (gap_append hg hh)
  · exact .inr ⟨g ++ g', l, gap_append hg hg', hl, by simp⟩

theorem endGap_append {w w' r r' : Text} (h : EndGap w r) (hr : r = w' ++ r') (h' : EndGap w' r') : EndGap (w ++ w') r' := by
  by_cases hn : r = []
  · subst hn
    obtain ⟨rfl, rfl⟩ := List.append_eq_nil_iff.mp hr.symm
    rw [List.append_nil]
    exact h
  · exact ⟨gap_lastGap (h.2 hn) h'.1, fun hr' => gap_append (h.2 hn) (h'.2 hr')⟩

theorem skip_split : ∀ (b : Bool) (t : Text), if b then (∃ l, '\n' ∉ l ∧ t = l ∧ skip b t = []) ∨ (∃ l w, '\n' ∉ l ∧ t = l ++ '\n' :: (w ++ skip b t) ∧ EndGap w (skip b t))
    else ∃ w, t = w ++ skip b t ∧ EndGap w (skip b t)
  | true, [] => .inl ⟨[], by simp, rfl, rfl⟩
  | false, [] => ⟨[], rfl, endGap_of .nil _⟩
  | true, c :: t => by
    simp only [skip, if_true]
    by_cases hc : c = '\n'
    · have := skip_split false t
      simp only [Bool.false_eq_true, if_false] at this
      obtain ⟨w, h1, h2⟩ := this
      right
      rw [if_pos hc]
      refine ⟨[], w, by simp, ?_, h2⟩
      rw [← h1, hc]; rfl
    · have := skip_split true t
      simp only [if_true] at this
      rw [if_neg hc]
      have hl : ∀ {l : Text}, '\n' ∉ l → '\n' ∉ c :: l := by
        intro l hl hm
        rcases List.mem_cons.mp hm with hm | hm
        · exact hc hm.symm
        · exact hl hm
      rcases this with ⟨l, h1, h2, h3⟩ | ⟨l, w, h1, h2, h3⟩
      · exact .inl ⟨c :: l, hl h1, by rw [h2], h3⟩
      · exact .inr ⟨c :: l, w, hl h1, by rw [List.cons_append, ← h2], h3⟩
  | false, c :: t => by
    simp only [skip, Bool.false_eq_true, if_false]
    by_cases hc : isSpace c = true
    · have := skip_split false t
      simp only [Bool.false_eq_true, if_false] at this
      obtain ⟨w, h1, h2⟩ := this
      rw [if_pos hc]
      refine ⟨c :: w, by rw [List.cons_append, ← h1], ?_⟩
      have hg : Gap [c] := .space (isSpace_iff.mp hc) .nil
      exact endGap_append (r := t) (endGap_of hg _) h1 h2
    · rw [if_neg hc]
      by_cases hh : c = '#'
      · have := skip_split true t
        simp only [if_true] at this
        rw [if_pos hh]
        rcases this with ⟨l, h1, h2, h3⟩ | ⟨l, w, h1, h2, h3⟩
        · rw [h3]
          refine ⟨c :: t, by simp, .inr ⟨[], l, .nil, h1, by rw [hh, h2]; rfl⟩, by simp⟩
        · have hg : Gap ('#' :: l ++ '\n' :: []) := .comment h1 .nil
          refine ⟨'#' :: l ++ '\n' :: [] ++ w, ?_, endGap_append (r := w ++ skip true t) (endGap_of hg _) rfl h3⟩
          rw [hh]
          have : '#' :: l ++ ['\n'] ++ w ++ skip true t = '#' :: (l ++ '\n' :: (w ++ skip true t)) := by simp
          rw [this, ← h2]
      · rw [if_neg hh]
        exact ⟨[], rfl, endGap_of .nil _⟩

theorem ws_split (t : Text) : ∃ w, t = w ++ ws t ∧ EndGap w (ws t) := by
  have := skip_split false t
  simp only [Bool.false_eq_true, if_false] at this
  exact this

theorem ws_length (t : Text) : (ws t).length ≤ t.length := by
  obtain ⟨w, h, _⟩ := ws_split t
  have := congrArg List.length h
  rw [List.length_append] at this
  omega

/-! ### Names -/

theorem isAlpha_iff {c : Char} : isAlpha c = true ↔ Letter c := by
  simp only [isAlpha, Letter, Bool.or_eq_true, Bool.and_eq_true, decide_eq_true_eq]

theorem isFirst_iff {c : Char} : isFirst c = true ↔ Letter c ∨ c = '_' := by
  simp only [isFirst, Bool.or_eq_true, isAlpha_iff, beq_iff_eq]

theorem isName_iff {c : Char} : isName c = true ↔ Letter c ∨ c = '_' ∨ ('0' ≤ c ∧ c ≤ '9') := by
  simp only [isName, isDec, Bool.or_eq_true, Bool.and_eq_true, isAlpha_iff, beq_iff_eq, decide_eq_true_eq]
  tauto

theorem isName_of_first {c : Char} (h : isFirst c = true) : isName c = true := by
  rw [isFirst_iff] at h
  rw [isName_iff]
  tauto

theorem isFirst_lt {c : Char} (h : isFirst c = true) : c.toNat < 128 := by
  simp only [isFirst, isAlpha, Bool.or_eq_true, Bool.and_eq_true, decide_eq_true_eq, beq_iff_eq] at h
  rcases h with (h | h) | h
  · have := le_toNat h.2; have e : ('z' : Char).toNat = 122 := rfl; omega
  · have := le_toNat h.2; have e : ('Z' : Char).toNat = 90 := rfl; omega
  · rw [h]; decide

theorem identifier_sound {t n r : Text} (h : identifier t = some (n, r)) : IsIdentifier n ∧ t = n ++ r ∧ ∀ c ∈ r.head?, isName c = false := by
  cases t with
  | nil => simp [identifier] at h
  | cons c t =>
    simp only [identifier] at h
    split at h
    · rename_i hc
      simp only [Option.some.injEq, Prod.mk.injEq] at h
      obtain ⟨rfl, rfl⟩ := h
      refine ⟨⟨c, _, rfl, isFirst_iff.mp hc, fun d hd => isName_iff.mp (span_mem d hd)⟩, ?_, span_head⟩
      rw [List.cons_append, List.takeWhile_append_dropWhile]
    · simp at h

theorem identifier_complete {n r : Text} (h : IsIdentifier n) (hr : ∀ c ∈ r.head?, isName c = false) : identifier (n ++ r) = some (n, r) := by
  obtain ⟨c, n, rfl, hc, hn⟩ := h
  obtain ⟨h1, h2⟩ := span_append (fun d hd => isName_iff.mpr (hn d hd)) hr
  simp only [List.cons_append, identifier, isFirst_iff.mpr hc, if_true, h1, h2]

theorem identifier_none {c : Char} {t : Text} (h : isFirst c = false) : identifier (c :: t) = none := by
  simp [identifier, h]

theorem identifier_length {t n r : Text} (h : identifier t = some (n, r)) : r.length < t.length := by
  obtain ⟨⟨c, n', rfl, _⟩, rfl, _⟩ := identifier_sound h
  simp; omega

/-! ### Strings -/

theorem escape_iff {e c : Char} : escape e = some c ↔ (e, c) ∈ [('\\', '\\'), ('"', '"'), ('n', '\n'), ('t', '\t')] := by
  unfold escape
  simp only [List.mem_cons, Prod.mk.injEq, List.not_mem_nil, or_false]
  constructor
  · intro h
    split at h
    · simp at h; tauto
    · split at h
      · simp at h; tauto
      · split at h
        · simp at h; tauto
        · split at h
          · simp at h; tauto
          · simp at h
  · rintro (⟨rfl, rfl⟩ | ⟨rfl, rfl⟩ | ⟨rfl, rfl⟩ | ⟨rfl, rfl⟩) <;> decide

/-- The string with a further character before. -/
def prepend (c : Char) (o : Outcome (Text × Text)) : Outcome (Text × Text) := do
  let (s, r) ← o
  pure (c :: s, r)

theorem stringBody_quote (t : Text) : stringBody ('"' :: t) = .ok ([], t) := by
  rw [stringBody.eq_def]
  simp

theorem stringBody_plain {c : Char} (h1 : c ≠ '"') (h2 : c ≠ '\\') (t : Text) : stringBody (c :: t) = prepend c (stringBody t) := by
  rw [stringBody.eq_def]
  simp only [if_neg h1, if_neg h2]
  rfl

theorem stringBody_escape {e c : Char} (h : escape e = some c) (t : Text) : stringBody ('\\' :: e :: t) = prepend c (stringBody t) := by
  have : ('\\' : Char) ≠ '"' := by decide
  rw [stringBody.eq_def]
  simp only [if_neg this, if_true, h]
  rfl

theorem stringBody_bad {e : Char} (h : escape e = none) (t : Text) : ∃ m, stringBody ('\\' :: e :: t) = .throw m := by
  have : ('\\' : Char) ≠ '"' := by decide
  rw [stringBody.eq_def]
  simp only [if_neg this, if_true, h]
  exact ⟨_, rfl⟩

theorem stringBody_backslash : ∃ m, stringBody ['\\'] = .throw m := by
  have : ('\\' : Char) ≠ '"' := by decide
  rw [stringBody.eq_def]
  simp only [if_neg this, if_true]
  exact ⟨_, rfl⟩

theorem prepend_ok {c : Char} {o : Outcome (Text × Text)} {s r : Text} (h : prepend c o = .ok (s, r)) : ∃ s', o = .ok (s', r) ∧ s = c :: s' := by
  obtain ⟨⟨s', r'⟩, h3, h4⟩ := Outcome.bind_eq_ok.mp h
  have h4 := Outcome.ok_inj.mp h4
  simp only [Prod.mk.injEq] at h4
  obtain ⟨rfl, rfl⟩ := h4
  exact ⟨s', h3, rfl⟩

theorem stringBody_complete {b s : Text} (h : Escaped b s) (r : Text) : stringBody (b ++ '"' :: r) = .ok (s, r) := by
  induction h with
  | nil => exact stringBody_quote r
  | plain h1 h2 _ ih => rw [List.cons_append, stringBody_plain h1 h2, ih]; rfl
  | escape he _ ih => rw [List.cons_append, List.cons_append, stringBody_escape (escape_iff.mpr he), ih]; rfl

theorem stringBody_sound : ∀ (k : Nat) {t s r : Text}, t.length ≤ k → stringBody t = .ok (s, r) → ∃ b, Escaped b s ∧ t = b ++ '"' :: r := by
  intro k
  induction k with
  | zero =>
    intro t s r hk h
    have : t = [] := List.length_eq_zero_iff.mp (by omega)
    subst this
    simp [stringBody] at h
  | succ k ih =>
    intro t s r hk h
    cases t with
    | nil => simp [stringBody] at h
    | cons c t =>
      rw [List.length_cons] at hk
      by_cases h1 : c = '"'
      · subst h1
        rw [stringBody_quote] at h
        simp only [Outcome.ok.injEq, Prod.mk.injEq] at h
        obtain ⟨rfl, rfl⟩ := h
        exact ⟨[], .nil, rfl⟩
      · by_cases h2 : c = '\\'
        · subst h2
          cases t with
          | nil => obtain ⟨m, hm⟩ := stringBody_backslash; rw [hm] at h; simp at h
          | cons e t =>
            rw [List.length_cons] at hk
            rcases he : escape e with _ | c
            · obtain ⟨m, hm⟩ := stringBody_bad he t; rw [hm] at h; simp at h
            · rw [stringBody_escape he] at h
              obtain ⟨s', h3, rfl⟩ := prepend_ok h
              obtain ⟨b, hb, rfl⟩ := ih (by omega) h3
              exact ⟨'\\' :: e :: b, .escape (escape_iff.mp he) hb, rfl⟩
        · rw [stringBody_plain h1 h2] at h
          obtain ⟨s', h3, rfl⟩ := prepend_ok h
          obtain ⟨b, hb, rfl⟩ := ih (by omega) h3
          exact ⟨c :: b, .plain h1 h2 hb, rfl⟩

theorem stringBody_length {t s r : Text} (h : stringBody t = .ok (s, r)) : r.length < t.length := by
  obtain ⟨b, _, rfl⟩ := stringBody_sound _ le_rfl h
  simp; omega

/-- A normal return or an exception. -/
def Settled {α : Type} (o : Outcome α) : Prop := o ≠ .diverge ∧ o ≠ .ub

theorem settled_ok {α : Type} (a : α) : Settled (.ok a) := ⟨by simp, by simp⟩

theorem settled_throw {α : Type} (m : String) : Settled (.throw m : Outcome α) := ⟨by simp, by simp⟩

theorem settled_bind {α β : Type} {o : Outcome α} {f : α → Outcome β} (ho : Settled o) (hf : ∀ a, o = .ok a → Settled (f a)) : Settled (o >>= f) := by
  cases o with
  | ok a => exact hf a rfl
  | throw m => exact settled_throw m
  | ub => exact absurd rfl ho.2
  | diverge => exact absurd rfl ho.1

theorem stringBody_settled : ∀ (k : Nat) {t : Text}, t.length ≤ k → Settled (stringBody t) := by
  intro k
  induction k with
  | zero =>
    intro t hk
    have : t = [] := List.length_eq_zero_iff.mp (by omega)
    subst this
    exact settled_throw _
  | succ k ih =>
    intro t hk
    have hp : ∀ c {t : Text}, t.length ≤ k → Settled (prepend c (stringBody t)) := fun c t ht => settled_bind (ih ht) fun a _ => settled_ok _
    cases t with
    | nil => exact settled_throw _
    | cons c t =>
      rw [List.length_cons] at hk
      by_cases h1 : c = '"'
      · rw [h1, stringBody_quote]; exact settled_ok _
      · by_cases h2 : c = '\\'
        · subst h2
          cases t with
          | nil => obtain ⟨m, hm⟩ := stringBody_backslash; rw [hm]; exact settled_throw m
          | cons e t =>
            rw [List.length_cons] at hk
            rcases he : escape e with _ | c
            · obtain ⟨m, hm⟩ := stringBody_bad he t; rw [hm]; exact settled_throw m
            · rw [stringBody_escape he]
              exact hp c (by omega)
        · rw [stringBody_plain h1 h2]
          exact hp c (by omega)

end Rampack.Pyon
