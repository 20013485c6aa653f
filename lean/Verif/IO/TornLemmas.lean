import Verif.IO.SnapLemmas
/-
Lemmas about snapshot files of which only a part was written.
-/
namespace Rampack

namespace Ramsnap

open Spec Traj TextIn

/-- Nothing can be read. -/
def Dead (s : TextIn) : Prop := s.good = false

/-- The stream before the first `j` characters of `T`. -/
structure Cut (s : TextIn) (T : Text) (j : Nat) : Prop where
  rest : s.rest = T.take j
  ok : s.fail = false
  eof : s.eof = true → T.take j = []

theorem Cut.dead_or {s : TextIn} {T : Text} {j : Nat} (h : Cut s T j) : Dead s ∨ s = ⟨T.take j, false, false⟩ := by
  cases he : s.eof with
  | true => left; simp [Dead, good, he]
  | false =>
    right
    ext1
    · exact h.rest
    · exact he
    · exact h.ok

theorem Cut.left_take {T : Text} {j : Nat} : Cut (left (T.take j)) T j := ⟨rfl, rfl, fun h => by simpa [left] using h⟩

theorem dead_sentry {s : TextIn} (h : Dead s) : s.sentry = (none, { s with fail := true }) := by
  unfold Dead at h
  simp [sentry, h]

theorem dead_double {s : TextIn} (h : Dead s) (f : Text → Option Word) : (s.double f).2.fail = true := by
  unfold TextIn.double
  rw [dead_sentry h]

theorem dead_nat {s : TextIn} (h : Dead s) : s.nat.2.fail = true := by
  unfold TextIn.nat
  rw [dead_sentry h]

theorem dead_getline {s : TextIn} (h : Dead s) : s.getline.2.fail = true := by
  unfold Dead at h
  simp [getline, h]

theorem dead_ws {s : TextIn} (h : Dead s) : s.ws.fail = true := by
  unfold Dead at h
  simp [ws, h]

theorem dead_word {s : TextIn} (h : Dead s) : s.word.2.fail = true := by
  unfold TextIn.word
  rw [dead_sentry h]

theorem fail_dead {s : TextIn} (h : s.fail = true) : Dead s := by simp [Dead, good, h]

theorem left_nil_dead : Dead (left []) := rfl

theorem scan_prefix {p q x : Text} : ∀ {g m d s : Bool}, scan g m d s (p ++ q) = (x, []) → (scan g m d s p).2 = [] := by
  induction p generalizing x with
  | nil => intro g m d s _; rw [scan]
  | cons c p ih =>
    intro g m d s h
    rw [List.cons_append, scan] at h
    rw [scan]
    split_ifs at h ⊢ with h1 h2 h3 h4 h5 <;>
      simp only [Prod.mk.injEq, reduceCtorEq, and_false] at h ⊢ <;>
      exact ih (Prod.ext rfl h.2)

theorem literal_prefix {l p q : Text} (hl : Literal l) (e : l = p ++ q) : (scanDouble p).2 = [] := by
  have := scan_literal hl Ends.nil
  rw [List.append_nil, e] at this
  exact scan_prefix (p := p) (q := q) this

theorem dropWhile_spaces {a p : Text} (ha : ∀ c ∈ a, isSpace c = true) (hp : ∀ c ∈ p.head?, isSpace c = false) :
    (a ++ p).dropWhile isSpace = p := (takeWhile_ends ha hp).2

theorem sentry_cut {a p : Text} (ha : ∀ c ∈ a, isSpace c = true) (hp : ∀ c ∈ p.head?, isSpace c = false) :
    (⟨a ++ p, false, false⟩ : TextIn).sentry = if p = [] then (none, ⟨[], true, true⟩) else (some p, ⟨p, false, false⟩) := by
  unfold sentry
  rw [if_pos (by simp [good]), dropWhile_spaces ha hp]
  cases p <;> simp

theorem spaces_sentry {a : Text} (ha : ∀ c ∈ a, isSpace c = true) : (⟨a, false, false⟩ : TextIn).sentry = (none, ⟨[], true, true⟩) := by
  have := sentry_cut (p := []) ha (by simp)
  simpa using this

theorem double_part {P : Numbers} {a p q : Text} (ha : ∀ c ∈ a, isSpace c = true) (hl : Literal (p ++ q)) :
    Dead ((⟨a ++ p, false, false⟩ : TextIn).double P.read).2 := by
  obtain ⟨c, t, e, hc⟩ := literal_head hl
  have hp : ∀ x ∈ p.head?, isSpace x = false := by
    intro x hx
    cases p with
    | nil => simp at hx
    | cons y p =>
      simp only [List.head?_cons, Option.mem_some_iff] at hx
      rw [List.cons_append, List.cons.injEq] at e
      rw [← hx, e.1]
      exact hc
  unfold TextIn.double
  rw [sentry_cut ha hp]
  by_cases h : p = []
  · rw [if_pos h]
    rfl
  · rw [if_neg h]
    simp only [literal_prefix hl rfl]
    cases P.read (scanDouble p).1 with
    | none => rfl
    | some w => rfl

/-- A cut text is either cut in the first part or in the second one. -/
theorem take_cases (a T : Text) (j : Nat) : (j ≤ a.length ∧ (a ++ T).take j = a.take j) ∨ ∃ i, j = a.length + i ∧ 0 < i ∧ (a ++ T).take j = a ++ T.take i := by
  by_cases h : j ≤ a.length
  · left
    refine ⟨h, ?_⟩
    rw [List.take_append_of_le_length h]
  · right
    refine ⟨j - a.length, by omega, by omega, ?_⟩
    rw [List.take_append, List.take_of_length_le (by omega)]

theorem Ends.take {T : Text} (h : Ends T) (j : Nat) : Ends (T.take j) := by
  intro c hc
  refine h c ?_
  cases T with
  | nil => simp at hc
  | cons x T =>
    cases j with
    | zero => simp at hc
    | succ j => simpa using hc

theorem double_cut {P : Numbers} {w : Word} {a T : Text} {j : Nat} {s : TextIn} (hw : Printable P w) (ha : ∀ c ∈ a, isSpace c = true) (hT : Ends T)
    (h : Cut s (a ++ P.print w ++ T) j) :
    Dead (s.double P.read).2 ∨ ∃ i, j = (a ++ P.print w).length + i ∧ Cut (s.double P.read).2 T i := by
  rcases h.dead_or with h | rfl
  · exact .inl (fail_dead (dead_double h _))
  · rcases take_cases (a ++ P.print w) T j with ⟨h1, e⟩ | ⟨i, h1, h2, e⟩
    · left
      rw [e]
      rcases take_cases a (P.print w) j with ⟨h3, e'⟩ | ⟨i, h3, h4, e'⟩
      · rw [e']
        have := double_part (P := P) (a := a.take j) (p := []) (q := P.print w) (fun c hc => ha c (List.mem_of_mem_take hc)) hw.literal
        rwa [List.append_nil] at this
      · rw [e']
        exact double_part (q := (P.print w).drop i) ha (by rw [List.take_append_drop]; exact hw.literal)
    · right
      refine ⟨i, h1, ?_⟩
      rw [e, double_ok hw ha (Ends.take hT i)]
      exact .left_take

/-- The stream after reading `n` numbers. -/
def after (f : Text → Option Word) : Nat → TextIn → TextIn
  | 0, s => s
  | n + 1, s => after f n (s.double f).2

theorem after_add (f : Text → Option Word) : ∀ (n m : Nat) (s : TextIn), after f (n + m) s = after f m (after f n s)
  | 0, m, s => by simp [after]
  | n + 1, m, s => by
    rw [Nat.add_right_comm, after, after, after_add]

/-- Numbers with white space after them. -/
def listText (P : Numbers) (L : List (Word × Text)) : Text := L.flatMap fun e => P.print e.1 ++ e.2

/-- Separators are white space, at least one character. -/
def Separated (P : Numbers) (L : List (Word × Text)) : Prop := ∀ e ∈ L, Printable P e.1 ∧ (∀ c ∈ e.2, isSpace c = true) ∧ e.2 ≠ []

theorem Ends.sep {a T : Text} (ha : ∀ c ∈ a, isSpace c = true) (hn : a ≠ []) : Ends (a ++ T) := by
  obtain ⟨c, l, rfl⟩ := List.exists_cons_of_ne_nil hn
  exact Ends.cons _ (ha c (by simp))

theorem after_cut {P : Numbers} {w : Word} {T : Text} : ∀ {L : List (Word × Text)} {a : Text} {j : Nat} {s : TextIn}, Separated P L →
    (∀ c ∈ a, isSpace c = true) → Printable P w → Cut s (a ++ (listText P L ++ (P.print w ++ T))) j → j ≤ (a ++ listText P L).length →
    (after P.read (L.length + 1) s).fail = true
  | [], a, j, s, _, ha, hw, h, hj => by
    rcases h.dead_or with h | rfl
    · exact dead_double h _
    · rw [show listText P [] = [] from rfl, List.append_nil] at hj
      rw [List.take_append_of_le_length hj]
      simp only [List.length_nil, Nat.zero_add, after]
      unfold TextIn.double
      rw [spaces_sentry (fun c hc => ha c (List.mem_of_mem_take hc))]
  | e :: L, a, j, s, hL, ha, hw, h, hj => by
    obtain ⟨h1, h2, h3⟩ := hL e (by simp)
    have hL' : Separated P L := fun x hx => hL x (by simp [hx])
    have et : a ++ (listText P (e :: L) ++ (P.print w ++ T)) = a ++ P.print e.1 ++ (e.2 ++ (listText P L ++ (P.print w ++ T))) := by
      simp [listText]
    rw [et] at h
    rw [List.length_cons, after]
    rcases double_cut h1 ha (Ends.sep h2 h3) h with h4 | ⟨i, hi, h4⟩
    · have hf := dead_double h4 P.read
      clear h hj et
      rw [after]
      generalize ((s.double P.read).2.double P.read).2 = s' at hf
      induction L generalizing s' with
      | nil => exact hf
      | cons x L ih =>
        rw [List.length_cons, after]
        exact ih (fun y hy => hL y (by
          rcases List.mem_cons.mp hy with rfl | hy
          · simp
          · simp [hy])) (fun y hy => hL' y (by simp [hy])) _ (dead_double (fail_dead hf) _)
    · refine after_cut hL' h2 hw h4 ?_
      simp only [listText, List.flatMap_cons, List.length_append] at hj hi ⊢
      omega

theorem dead_after {s : TextIn} (h : Dead s) (f : Text → Option Word) : ∀ {n : Nat}, (after f (n + 1) s).fail = true
  | 0 => dead_double h f
  | n + 1 => by
    rw [after]
    exact dead_after (fail_dead (dead_double h f)) f

/-- The numbers of a shape. -/
def shapeWords (x : ShapeW) : List Word :=
  [x.pos.x, x.pos.y, x.pos.z, x.rot.x.x, x.rot.x.y, x.rot.x.z, x.rot.y.x, x.rot.y.y, x.rot.y.z, x.rot.z.x, x.rot.z.y, x.rot.z.z]

/-- Separators in a line of a shape. -/
def shapeSeps : List Text :=
  [[' '], [' '], List.replicate 8 ' ', [' '], [' '], [' '], [' '], [' '], [' '], [' '], [' '], ['\n']]

theorem shapeText_list (P : Numbers) (x : ShapeW) : shapeText P x = listText P ((shapeWords x).zip shapeSeps) := by
  simp [shapeText, listText, shapeWords, shapeSeps, vecText, matText]

/-- The numbers of shapes. -/
def shapesList (l : List ShapeW) : List (Word × Text) := l.flatMap fun x => (shapeWords x).zip shapeSeps

theorem shapes_list (P : Numbers) (l : List ShapeW) : l.flatMap (shapeText P) = listText P (shapesList l) := by
  unfold shapesList listText
  rw [List.flatMap_assoc]
  congr 1
  funext x
  exact shapeText_list P x

theorem shapesList_length (l : List ShapeW) : (shapesList l).length = 12 * l.length := by
  induction l with
  | nil => rfl
  | cons x l ih =>
    have : shapesList (x :: l) = (shapeWords x).zip shapeSeps ++ shapesList l := rfl
    rw [this, List.length_append, ih]
    simp [shapeWords, shapeSeps]
    omega

theorem shapesList_sep {P : Numbers} {l : List ShapeW} (h : ∀ s ∈ l, PrintableVec P s.pos ∧ PrintableMat P s.rot) : Separated P (shapesList l) := by
  intro e he
  obtain ⟨x, hx, he⟩ := List.mem_flatMap.mp he
  obtain ⟨⟨p1, p2, p3⟩, ⟨q1, q2, q3⟩, ⟨r1, r2, r3⟩, ⟨s1, s2, s3⟩⟩ := h x hx
  simp only [shapeWords, shapeSeps, List.zip_cons_cons, List.zip_nil_right, List.mem_cons, List.not_mem_nil, or_false] at he
  rcases he with rfl | rfl | rfl | rfl | rfl | rfl | rfl | rfl | rfl | rfl | rfl | rfl <;>
    refine ⟨by assumption, ?_, by simp⟩ <;> simp [isSpace]

theorem readShape_after {P : Numbers} {s : TextIn} : (∃ m, readShape P s = .throw m) ∨ ∃ x, readShape P s = .ok (x, after P.read 12 s) := by
  have e : (doubles3 P.read (doubles3 P.read (doubles3 P.read (doubles3 P.read s).2.2.2).2.2.2).2.2.2).2.2.2 = after P.read 12 s := by
    simp only [after, doubles3]
  unfold readShape
  simp only [e]
  cases (after P.read 12 s).fail with
  | true => left; exact ⟨_, rfl⟩
  | false => right; exact ⟨_, rfl⟩

theorem readShape_fail {P : Numbers} {s : TextIn} (h : (after P.read 12 s).fail = true) : ∃ m, readShape P s = .throw m := by
  have e : (doubles3 P.read (doubles3 P.read (doubles3 P.read (doubles3 P.read s).2.2.2).2.2.2).2.2.2).2.2.2 = after P.read 12 s := by
    simp only [after, doubles3]
  unfold readShape
  simp only [e, h]
  exact ⟨_, rfl⟩

theorem readShapeList_fail {P : Numbers} : ∀ {n : Nat} {s : TextIn}, 0 < n → (after P.read (12 * n) s).fail = true → ∃ m, readShapeList P n s = .throw m
  | 0, _, h, _ => by omega
  | n + 1, s, _, h => by
    rw [readShapeList]
    rcases readShape_after (P := P) (s := s) with ⟨m, e⟩ | ⟨x, e⟩
    · exact ⟨m, by rw [e]; rfl⟩
    · rcases Nat.eq_zero_or_pos n with rfl | hn
      · obtain ⟨m, e⟩ := readShape_fail h
        exact ⟨m, by rw [e]; rfl⟩
      · rw [show 12 * (n + 1) = 12 + 12 * n by ring, after_add] at h
        obtain ⟨m, e'⟩ := readShapeList_fail hn h
        exact ⟨m, by rw [e]; simp only [Outcome.ok_bind]; rw [e']; rfl⟩

theorem natText_head {n : Nat} (h : 0 < n) : ∃ c l, natText n = c :: l ∧ 0 < digitVal c := by
  induction n using Nat.strong_induction_on with
  | _ n ih =>
    unfold natText
    split
    · rename_i h1
      exact ⟨_, [], rfl, by rw [digitVal_digitChar h1]; exact h⟩
    · rename_i h1
      obtain ⟨c, l, e, hc⟩ := ih (n / 10) (by omega) (by omega)
      exact ⟨c, l ++ [digitChar (n % 10)], by rw [e]; rfl, hc⟩

theorem foldl_pos : ∀ (l : Text) {n : Nat}, 0 < n → 0 < l.foldl (fun n c => 10 * n + digitVal c) n
  | [], _, h => h
  | c :: l, n, h => foldl_pos l (n := 10 * n + digitVal c) (by omega)

theorem textNat_part {n i : Nat} (hn : 0 < n) (hi : (natText n).take i ≠ []) : 0 < textNat ((natText n).take i) := by
  obtain ⟨c, l, e, hc⟩ := natText_head hn
  rw [e] at hi ⊢
  cases i with
  | zero => simp at hi
  | succ i =>
    rw [List.take_succ_cons]
    unfold textNat
    exact foldl_pos (l.take i) (n := 10 * 0 + digitVal c) (by omega)

theorem nat_cut {a T : Text} {n j : Nat} {s : TextIn} (hn : n < 2 ^ 64) (ha : ∀ c ∈ a, isSpace c = true) (hT : ∀ c ∈ T.head?, isDec c = false)
    (h : Cut s (a ++ natText n ++ T) j) : (Dead s.nat.2 ∧ (s.nat.2.fail = true ∨ (0 < n → 0 < s.nat.1))) ∨
      ∃ i, j = (a ++ natText n).length + i ∧ s.nat = (n, left (T.take i)) := by
  rcases h.dead_or with h | rfl
  · exact .inl ⟨fail_dead (dead_nat h), .inl (dead_nat h)⟩
  · rcases take_cases (a ++ natText n) T j with ⟨h1, e⟩ | ⟨i, h1, h2, e⟩
    · left
      rw [e]
      have key : ∀ b p : Text, (∀ c ∈ b, isSpace c = true) → (∀ c ∈ p, isDec c = true) → (p ≠ [] → 0 < n → 0 < textNat p) →
          Dead (⟨b ++ p, false, false⟩ : TextIn).nat.2 ∧
            ((⟨b ++ p, false, false⟩ : TextIn).nat.2.fail = true ∨ (0 < n → 0 < (⟨b ++ p, false, false⟩ : TextIn).nat.1)) := by
        intro b p hb hp hv
        have hh : ∀ c ∈ p.head?, isSpace c = false := fun c hc => dec_not_space (hp c (List.mem_of_mem_head? hc))
        unfold TextIn.nat
        rw [sentry_cut hb hh]
        by_cases h0 : p = []
        · rw [if_pos h0]
          exact ⟨rfl, .inl rfl⟩
        · rw [if_neg h0]
          have hv := hv h0
          obtain ⟨c, l, rfl⟩ := List.exists_cons_of_ne_nil h0
          have hc : isDec c = true := hp c (by simp)
          have n1 : (some c == some '-') = false := by
            simp only [beq_eq_false_iff_ne, ne_eq, Option.some.injEq]
            rintro rfl
            exact absurd hc (by decide)
          have n2 : (some c == some '+') = false := by
            simp only [beq_eq_false_iff_ne, ne_eq, Option.some.injEq]
            rintro rfl
            exact absurd hc (by decide)
          obtain ⟨t1, t2⟩ := takeWhile_ends (t := []) hp (by simp)
          rw [List.append_nil] at t1 t2
          simp only [List.head?_cons, n1, n2, Bool.or_false, Bool.false_eq_true, if_false, t1, t2]
          split_ifs
          · exact ⟨rfl, .inl rfl⟩
          · exact ⟨rfl, .inl rfl⟩
          · exact ⟨rfl, .inr hv⟩
      rcases take_cases a (natText n) j with ⟨h3, e'⟩ | ⟨i, h3, h4, e'⟩
      · rw [e']
        have := key (a.take j) [] (fun c hc => ha c (List.mem_of_mem_take hc)) (by simp) (by simp)
        rwa [List.append_nil] at this
      · rw [e']
        exact key a _ ha (fun c hc => natText_dec n c (List.mem_of_mem_take hc)) (fun h1 h2 => textNat_part h2 h1)
    · right
      refine ⟨i, h1, ?_⟩
      rw [e]
      refine nat_ok ha hn ?_
      intro c hc
      refine hT c ?_
      cases T with
      | nil => simp at hc
      | cons x T =>
        cases i with
        | zero => simp at hc
        | succ j => simpa using hc

theorem readShapes_cut {P : Numbers} {l : List ShapeW} {x : ShapeW} {s : TextIn} {j : Nat} (hn : (l ++ [x]).length < 2 ^ 64)
    (h : ∀ s ∈ l ++ [x], PrintableVec P s.pos ∧ PrintableMat P s.rot) (hs : Cut s (shapesText P (l ++ [x])) j)
    (hj : j + (P.print x.rot.z.z).length + 1 ≤ (shapesText P (l ++ [x])).length) : ∃ m, readShapes P s = .throw m := by
  unfold readShapes
  obtain ⟨L, eL⟩ : ∃ L, shapesList (l ++ [x]) = L ++ [(x.rot.z.z, ['\n'])] :=
    ⟨shapesList l ++ ((shapeWords x).zip shapeSeps).take 11, by simp [shapesList, shapeWords, shapeSeps]⟩
  have hsep := shapesList_sep h
  have hlen := shapesList_length (l ++ [x])
  have eT : shapesText P (l ++ [x]) = [] ++ natText (l ++ [x]).length ++ ('\n' :: (listText P L ++ (P.print x.rot.z.z ++ ['\n']))) := by
    unfold shapesText
    rw [shapes_list, eL]
    simp [listText]
  rw [eL] at hsep hlen
  rw [eT] at hs hj
  rcases nat_cut (a := []) hn (by simp) (by simp; decide) hs with ⟨hd, hd'⟩ | ⟨i, hi, e⟩
  · rcases hd' with hf | hd'
    · simp only [hf]
      exact ⟨_, rfl⟩
    · have h0 := hd' (by simp)
      by_cases hf : s.nat.2.fail = true
      · simp only [hf]
        exact ⟨_, rfl⟩
      · simp only [Bool.not_eq_true] at hf
        simp only [hf, Bool.not_false, Outcome.require_true, Outcome.ok_bind]
        obtain ⟨n, hn'⟩ : ∃ n, s.nat.1 = n + 1 := ⟨s.nat.1 - 1, by omega⟩
        rw [hn', readShapeList]
        obtain ⟨m, e⟩ := readShape_fail (P := P) (s := s.nat.2) (dead_after hd _ (n := 11))
        exact ⟨m, by rw [e]; rfl⟩
  · rw [e]
    simp only [left, Bool.not_false, Outcome.require_true, Outcome.ok_bind]
    refine readShapeList_fail (by simp) ?_
    rw [← hlen, List.length_append, List.length_singleton]
    refine after_cut (w := x.rot.z.z) (a := ['\n']) (j := i) (T := ['\n']) (fun y hy => hsep y (by simp [hy])) (by simp [isSpace])
      (hsep (x.rot.z.z, ['\n']) (by simp)).1 ?_ ?_
    · exact .left_take
    · simp only [List.length_append, List.length_cons, List.length_nil] at hj hi ⊢
      omega

theorem getline_cut {v T : Text} {j : Nat} {s : TextIn} (hv : '\n' ∉ v) (h : Cut s (v ++ '\n' :: T) j) :
    Dead s.getline.2 ∨ ∃ i, s.getline = (v, ⟨T.take i, false, false⟩) ∧ j = v.length + 1 + i := by
  rcases h.dead_or with h | rfl
  · exact .inl (fail_dead (dead_getline h))
  · rcases take_cases v ('\n' :: T) j with ⟨h1, e⟩ | ⟨i, h1, h2, e⟩
    · left
      rw [e]
      have := (takeWhile_ends (p := fun c => c != '\n') (a := v.take j) (t := [])
        (fun c h => by simp only [bne_iff_ne, ne_eq]; rintro rfl; exact hv (List.mem_of_mem_take h)) (by simp)).2
      rw [List.append_nil] at this
      unfold getline
      rw [if_pos (by simp [good])]
      simp only [this]
      rfl
    · right
      obtain ⟨i, rfl⟩ : ∃ k, i = k + 1 := ⟨i - 1, by omega⟩
      refine ⟨i, ?_, by omega⟩
      rw [e, List.take_succ_cons]
      exact getline_ok hv

theorem parseRows_result (P : Numbers) (r : Vec3 Word) (s : TextIn) : (∃ m, parseRows P r s = .throw m) ∨ ∃ b, parseRows P r s = .ok b := by
  unfold parseRows
  generalize doubles3 P.read s = q
  obtain ⟨d, e, f, s⟩ := q
  simp only
  generalize doubles3 P.read s = q
  obtain ⟨g, h, i, ⟨t, b, f⟩⟩ := q
  cases f with
  | true => exact .inl ⟨_, rfl⟩
  | false => exact .inr ⟨_, rfl⟩

theorem parseBox_result (P : Numbers) (l : Text) : (∃ m, parseBox P l = .throw m) ∨ ∃ b, parseBox P l = .ok b := by
  unfold parseBox
  generalize doubles3 P.read (TextIn.ofText l) = q
  obtain ⟨a, b, c, s⟩ := q
  simp only
  cases s.fail with
  | true => exact .inl ⟨_, rfl⟩
  | false =>
    simp only [Bool.not_false, Outcome.require_true, Outcome.ok_bind]
    generalize s.isAnythingLeft = q
    obtain ⟨b, s⟩ := q
    cases b with
    | false => exact .inr ⟨_, rfl⟩
    | true => exact parseRows_result P _ s

theorem readBox_result (A : Arith) (P : Numbers) (s : TextIn) : (∃ m, readBox A P s = .throw m) ∨ ∃ b, readBox A P s = .ok (b, s.getline.2) := by
  unfold readBox
  generalize s.getline = q
  obtain ⟨line, s⟩ := q
  simp only
  cases s.fail with
  | true => exact .inl ⟨_, rfl⟩
  | false =>
    simp only [Bool.not_false, Outcome.require_true, Outcome.ok_bind]
    rcases parseBox_result P line with ⟨m, e⟩ | ⟨b, e⟩
    · exact .inl ⟨m, by rw [e]; rfl⟩
    · rw [e]
      simp only [Outcome.ok_bind]
      by_cases h : A.boxOk b = true
      · exact .inr ⟨b, by rw [h]; rfl⟩
      · simp only [Bool.not_eq_true] at h
        exact .inl ⟨_, by rw [h]; rfl⟩

theorem readBox_dead {A : Arith} {P : Numbers} {s : TextIn} (h : Dead s) : ∃ m, readBox A P s = .throw m := by
  unfold readBox
  simp only [dead_getline h]
  exact ⟨_, rfl⟩

theorem readShapes_dead {P : Numbers} {s : TextIn} (h : Dead s) : ∃ m, readShapes P s = .throw m := by
  unfold readShapes
  simp only [dead_nat h]
  exact ⟨_, rfl⟩

theorem readEntries_dead : ∀ {n : Nat} {m : Aux} {s : TextIn}, Dead s → (∃ e, readEntries n m s = .throw e) ∨ ∃ m', readEntries n m s = .ok (m', s)
  | 0, m, s, _ => .inr ⟨m, rfl⟩
  | n + 1, m, s, h => by
    rw [readEntries]
    simp only [dead_getline (fail_dead (dead_ws (fail_dead (dead_word h))))]
    exact .inl ⟨_, rfl⟩

theorem word_cut {a k T : Text} {j : Nat} {s : TextIn} (ha : ∀ c ∈ a, isSpace c = true) (hk : Word1 k) (hT : Ends T) (h : Cut s (a ++ k ++ T) j) :
    Dead s.word.2 ∨ ∃ i, s.word = (k, left (T.take i)) ∧ j = (a ++ k).length + i := by
  rcases h.dead_or with h | rfl
  · exact .inl (fail_dead (dead_word h))
  · rcases take_cases (a ++ k) T j with ⟨h1, e⟩ | ⟨i, h1, h2, e⟩
    · left
      rw [e]
      have key : ∀ b p : Text, (∀ c ∈ b, isSpace c = true) → (∀ c ∈ p, isSpace c = false) → Dead (⟨b ++ p, false, false⟩ : TextIn).word.2 := by
        intro b p hb hp
        unfold TextIn.word
        rw [sentry_cut hb (fun c hc => hp c (List.mem_of_mem_head? hc))]
        by_cases h0 : p = []
        · rw [if_pos h0]
          rfl
        · rw [if_neg h0]
          have := (takeWhile_ends (p := fun c => !isSpace c) (a := p) (t := []) (fun c h => by simp [hp c h]) (by simp)).2
          rw [List.append_nil] at this
          simp only [this]
          rfl
      rcases take_cases a k j with ⟨h3, e'⟩ | ⟨i, h3, h4, e'⟩
      · rw [e']
        have := key (a.take j) [] (fun c hc => ha c (List.mem_of_mem_take hc)) (by simp)
        rwa [List.append_nil] at this
      · rw [e']
        exact key a _ ha (fun c hc => hk.2 c (List.mem_of_mem_take hc))
    · right
      refine ⟨i, ?_, h1⟩
      rw [e]
      exact word_ok ha hk (Ends.take hT i)

theorem entry_cut {k v a T : Text} {j : Nat} {s : TextIn} (ha : ∀ c ∈ a, isSpace c = true) (hk : Word1 k) (hv : Line1 v)
    (h : Cut s (a ++ k ++ (' ' :: (v ++ '\n' :: T))) j) :
    Dead s.word.2.ws.getline.2 ∨ ∃ i, s.word.1 = k ∧ s.word.2.ws.getline = (v, ⟨T.take i, false, false⟩) ∧ j = (a ++ k ++ (' ' :: (v ++ ['\n']))).length + i := by
  rcases word_cut ha hk (Ends.cons _ rfl) h with hd | ⟨i, e, hi⟩
  · exact .inl (fail_dead (dead_getline (fail_dead (dead_ws hd))))
  · rw [e]
    cases i with
    | zero => exact .inl (fail_dead (dead_getline (fail_dead (dead_ws (by rfl)))))
    | succ i =>
      rw [List.take_succ_cons, left_cons]
      obtain ⟨⟨c, l, rfl, hc⟩, hn⟩ := hv
      cases i with
      | zero =>
        left
        refine fail_dead (dead_getline ?_)
        rfl
      | succ i =>
        rw [List.cons_append, List.take_succ_cons]
        have e2 := ws_ok (a := [' ']) (t := (l ++ '\n' :: T).take i) (by simp [isSpace]) hc
        simp only [List.cons_append, List.nil_append] at e2
        simp only
        rw [e2]
        rcases getline_cut (s := ⟨c :: (l ++ '\n' :: T).take i, false, false⟩) (v := c :: l) (T := T) (j := i + 1) hn
          ⟨by rw [List.cons_append, List.take_succ_cons], rfl, fun h => by cases h⟩ with hd | ⟨i', e3, hi'⟩
        · exact .inl hd
        · refine .inr ⟨i', trivial, e3, ?_⟩
          simp only [List.length_append, List.length_cons, List.length_nil] at hi hi' ⊢
          omega

theorem readEntries_cut {T : Text} : ∀ {l m : Aux} {a : Text} {j : Nat} {s : TextIn}, (∀ c ∈ a, isSpace c = true) → (∀ e ∈ l, Word1 e.1) →
    (∀ e ∈ l, Line1 e.2) → l ≠ [] → Cut s (a ++ (entriesText l ++ T)) j → (∃ e, readEntries l.length m s = .throw e) ∨
    (∃ m' s', readEntries l.length m s = .ok (m', s') ∧ Dead s') ∨
    ∃ m' i, readEntries l.length m s = .ok (m', ⟨T.take i, false, false⟩) ∧ j = (a ++ entriesText l).length + i
  | [], _, _, _, _, _, _, _, h, _ => absurd rfl h
  | (k, v) :: l, m, a, j, s, ha, hk, hv, _, h => by
    have e0 : a ++ (entriesText ((k, v) :: l) ++ T) = a ++ k ++ (' ' :: (v ++ '\n' :: (entriesText l ++ T))) := by simp [entriesText]
    rw [e0] at h
    rw [List.length_cons, readEntries]
    rcases entry_cut ha (hk (k, v) (by simp)) (hv (k, v) (by simp)) h with hd | ⟨i, e1, e2, hi⟩
    · by_cases hf : s.word.2.ws.getline.2.fail = true
      · simp only [hf]
        exact .inl ⟨_, rfl⟩
      · simp only [Bool.not_eq_true] at hf
        simp only [hf, Bool.not_false, Outcome.require_true, Outcome.ok_bind]
        rcases readEntries_dead (n := l.length) (m := setEntry s.word.1 s.word.2.ws.getline.1 m) hd with ⟨e, h1⟩ | ⟨m', h1⟩
        · exact .inl ⟨e, h1⟩
        · exact .inr (.inl ⟨m', _, h1, hd⟩)
    · simp only [e2]
      simp only [e1, Bool.not_false, Outcome.require_true, Outcome.ok_bind]
      by_cases hl : l = []
      · subst hl
        refine .inr (.inr ⟨setEntry k v m, i, ?_, ?_⟩)
        · simp [readEntries, entriesText]
        · simpa [entriesText] using hi
      · have hc : Cut ⟨(entriesText l ++ T).take i, false, false⟩ ([] ++ (entriesText l ++ T)) i := ⟨rfl, rfl, fun h => by cases h⟩
        rcases readEntries_cut (m := setEntry k v m) (by simp) (fun e he => hk e (by simp [he])) (fun e he => hv e (by simp [he])) hl hc with h1 | h1 | ⟨m', i', h1, h2⟩
        · exact .inl h1
        · exact .inr (.inl h1)
        · refine .inr (.inr ⟨m', i', h1, ?_⟩)
          simp only [entriesText, List.flatMap_cons, List.length_append, List.length_cons, List.length_nil] at hi h2 ⊢
          omega

theorem readAux_cut {m : Aux} {T : Text} {j : Nat} (h : PlainAux m) :
    (∃ e, readAux (.ofText ((natText m.length ++ ['\n'] ++ entriesText m ++ T).take j)) = .throw e) ∨
    (∃ m' s', readAux (.ofText ((natText m.length ++ ['\n'] ++ entriesText m ++ T).take j)) = .ok (m', s') ∧ Dead s') ∨
    ∃ m' i, readAux (.ofText ((natText m.length ++ ['\n'] ++ entriesText m ++ T).take j)) = .ok (m', ⟨T.take i, false, false⟩) ∧
      j = (natText m.length ++ ['\n'] ++ entriesText m).length + i := by
  have e0 : natText m.length ++ ['\n'] ++ entriesText m ++ T = [] ++ natText m.length ++ ('\n' :: (entriesText m ++ T)) := by simp
  rw [e0]
  set s := TextIn.ofText (([] ++ natText m.length ++ ('\n' :: (entriesText m ++ T))).take j) with hs
  have hc : Cut s ([] ++ natText m.length ++ ('\n' :: (entriesText m ++ T))) j := ⟨rfl, rfl, fun h => by cases h⟩
  unfold readAux
  rcases nat_cut (a := []) h.size (by simp) (by simp; decide) hc with ⟨hd, -⟩ | ⟨i, hi, e⟩
  · by_cases hf : s.nat.2.fail = true
    · simp only [hf]
      exact .inl ⟨_, rfl⟩
    · simp only [Bool.not_eq_true] at hf
      simp only [hf, Bool.not_false, Outcome.require_true, Outcome.ok_bind]
      rcases readEntries_dead (n := s.nat.1) (m := []) hd with ⟨e, h1⟩ | ⟨m', h1⟩
      · exact .inl ⟨e, h1⟩
      · exact .inr (.inl ⟨m', _, h1, hd⟩)
  · rw [e]
    have h0 : (left (('\n' :: (entriesText m ++ T)).take i)).fail = false := rfl
    simp only [h0, Bool.not_false, Outcome.require_true, Outcome.ok_bind]
    rcases readEntries_cut (m := []) (a := ['\n']) (T := T) (by simp [isSpace]) h.keys h.values h.ne (s := left (('\n' :: (entriesText m ++ T)).take i)) (j := i)
      .left_take with h1 | h1 | ⟨m', i', h1, h2⟩
    · exact .inl h1
    · exact .inr (.inl h1)
    · refine .inr (.inr ⟨m', i', h1, ?_⟩)
      simp only [List.length_append, List.length_cons, List.length_nil] at hi h2 ⊢
      omega

theorem read_cut {A : Arith} {P : Numbers} {b : MatW} {l : List ShapeW} {x : ShapeW} {m : Aux} {j : Nat} (hm : PlainAux m)
    (hb : PrintableMat P b) (hn : (l ++ [x]).length < 2 ^ 64) (h : ∀ s ∈ l ++ [x], PrintableVec P s.pos ∧ PrintableMat P s.rot)
    (hj : j + (P.print x.rot.z.z).length + 1 ≤
      (natText m.length ++ ['\n'] ++ entriesText m ++ (boxText P b ++ shapesText P (l ++ [x]))).length) :
    ∃ e, read A P ((natText m.length ++ ['\n'] ++ entriesText m ++ (boxText P b ++ shapesText P (l ++ [x]))).take j) = .throw e := by
  unfold read
  rcases readAux_cut (T := boxText P b ++ shapesText P (l ++ [x])) (j := j) hm with ⟨e, h1⟩ | ⟨m', s', h1, hd⟩ | ⟨m', i, h1, hi⟩
  · exact ⟨e, by rw [h1]; rfl⟩
  · rw [h1]
    simp only [Outcome.ok_bind]
    obtain ⟨e, h2⟩ := readBox_dead (A := A) (P := P) hd
    exact ⟨e, by rw [h2]; rfl⟩
  · rw [h1]
    simp only [Outcome.ok_bind]
    rcases readBox_result A P ⟨(boxText P b ++ shapesText P (l ++ [x])).take i, false, false⟩ with ⟨e, h2⟩ | ⟨b', h2⟩
    · exact ⟨e, by rw [h2]; rfl⟩
    · rw [h2]
      simp only [Outcome.ok_bind]
      have eb : boxText P b ++ shapesText P (l ++ [x]) = matText P b ++ '\n' :: shapesText P (l ++ [x]) := by simp [boxText]
      rw [eb]
      rcases getline_cut (s := ⟨(matText P b ++ '\n' :: shapesText P (l ++ [x])).take i, false, false⟩) (T := shapesText P (l ++ [x])) (j := i)
        (matText_line hb) ⟨rfl, rfl, fun h => by cases h⟩ with hd | ⟨i', h3, hi'⟩
      · obtain ⟨e, h4⟩ := readShapes_dead (P := P) hd
        exact ⟨e, by rw [h4]; rfl⟩
      · rw [h3]
        obtain ⟨e, h4⟩ := readShapes_cut (s := ⟨(shapesText P (l ++ [x])).take i', false, false⟩) (j := i') hn h ⟨rfl, rfl, fun h => by cases h⟩ (by
          rw [eb] at hj
          simp only [List.length_append, List.length_cons, List.length_nil] at hj hi ⊢
          omega)
        exact ⟨e, by rw [h4]; rfl⟩

end Ramsnap

end Rampack
