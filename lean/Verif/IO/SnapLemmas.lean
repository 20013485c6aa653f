import Verif.IO.TextLemmas
import Verif.OutcomeLemmas
/-
Lemmas about snapshot files.
-/
namespace Rampack

namespace Ramsnap

open Spec Traj TextIn

theorem setEntry_last {k v : Text} : ∀ {m : Aux}, (∀ e ∈ m, e.1 < k) → setEntry k v m = m ++ [(k, v)]
  | [], _ => rfl
  | (k', v') :: l, h => by
    have h1 : k' < k := h (k', v') (by simp)
    unfold setEntry
    rw [if_neg (lt_asymm h1), if_neg (ne_of_gt h1), setEntry_last (fun e he => h e (by simp [he]))]
    rfl

/-- The text of entries. -/
def entriesText (m : Aux) : Text := m.flatMap fun e => e.1 ++ [' '] ++ e.2 ++ ['\n']

theorem auxEntries_ok : ∀ {m : Aux}, (∀ e ∈ m, Word1 e.1) → auxEntries m = .ok (entriesText m)
  | [], _ => rfl
  | (k, v) :: l, h => by
    have hk : k.all (!isSpace ·) = true := by
      rw [List.all_eq_true]
      intro c hc
      simp [(h (k, v) (by simp)).2 c hc]
    unfold auxEntries
    rw [auxEntries_ok (fun e he => h e (by simp [he]))]
    simp [hk, entriesText]

theorem entry_ok {k v a t : Text} (ha : ∀ c ∈ a, isSpace c = true) (hk : Word1 k) (hv : Line1 v) :
    (⟨a ++ (k ++ (' ' :: (v ++ '\n' :: t))), false, false⟩ : TextIn).word = (k, ⟨' ' :: (v ++ '\n' :: t), false, false⟩) ∧
    (⟨' ' :: (v ++ '\n' :: t), false, false⟩ : TextIn).ws.getline = (v, ⟨t, false, false⟩) := by
  obtain ⟨⟨c, l, rfl, hc⟩, hn⟩ := hv
  constructor
  · have := word_ok (t := ' ' :: ((c :: l) ++ '\n' :: t)) ha hk (Ends.cons _ rfl)
    rw [List.append_assoc] at this
    exact this
  · have e : (⟨' ' :: (c :: l ++ '\n' :: t), false, false⟩ : TextIn).ws = ⟨c :: (l ++ '\n' :: t), false, false⟩ :=
      ws_ok (a := [' ']) (t := l ++ '\n' :: t) (by simp [isSpace]) hc
    rw [e]
    exact getline_ok hn

theorem readEntries_fold {t : Text} : ∀ {l m : Aux} {a : Text}, (∀ c ∈ a, isSpace c = true) → (∀ e ∈ l, Word1 e.1) → (∀ e ∈ l, Line1 e.2) →
    readEntries l.length m ⟨a ++ (entriesText l ++ t), false, false⟩ =
      .ok (l.foldl (fun m e => setEntry e.1 e.2 m) m, ⟨if l = [] then a ++ t else t, false, false⟩)
  | [], m, a, ha, _, _ => by
    simp [readEntries, entriesText]
  | (k, v) :: l, m, a, ha, hk, hv => by
    obtain ⟨e1, e2⟩ := entry_ok (t := entriesText l ++ t) ha (hk (k, v) (by simp)) (hv (k, v) (by simp))
    have e0 : entriesText ((k, v) :: l) ++ t = k ++ (' ' :: (v ++ '\n' :: (entriesText l ++ t))) := by simp [entriesText]
    have ih := readEntries_fold (t := t) (l := l) (m := setEntry k v m) (a := []) (by simp) (fun e he => hk e (by simp [he]))
      (fun e he => hv e (by simp [he]))
    rw [List.length_cons, readEntries, e0, e1]
    simp only [e2, Bool.not_false, Outcome.require_true, Outcome.ok_bind]
    rw [List.nil_append] at ih
    rw [ih]
    simp

theorem fold_sorted : ∀ {l m : Aux}, ((m ++ l).map Prod.fst).Pairwise (· < ·) → l.foldl (fun m e => setEntry e.1 e.2 m) m = m ++ l
  | [], m, _ => by simp
  | (k, v) :: l, m, hs => by
    have hlt : ∀ e ∈ m, e.1 < k := by
      rw [List.map_append, List.pairwise_append] at hs
      intro e he
      exact hs.2.2 e.1 (List.mem_map.mpr ⟨e, he, rfl⟩) k (by simp)
    rw [List.foldl_cons, setEntry_last hlt, fold_sorted (by simpa using hs)]
    simp

theorem readEntries_ok {t : Text} {l m : Aux} {a : Text} (ha : ∀ c ∈ a, isSpace c = true) (hk : ∀ e ∈ l, Word1 e.1) (hv : ∀ e ∈ l, Line1 e.2)
    (hs : ((m ++ l).map Prod.fst).Pairwise (· < ·)) :
    readEntries l.length m ⟨a ++ (entriesText l ++ t), false, false⟩ = .ok (m ++ l, ⟨if l = [] then a ++ t else t, false, false⟩) := by
  rw [readEntries_fold ha hk hv, fold_sorted hs]

theorem readAux_fold {m : Aux} {t : Text} (hne : m ≠ []) (hlen : m.length < 2 ^ 64) (hk : ∀ e ∈ m, Word1 e.1) (hv : ∀ e ∈ m, Line1 e.2) :
    readAux (.ofText (natText m.length ++ ['\n'] ++ entriesText m ++ t)) = .ok (m.foldl (fun m e => setEntry e.1 e.2 m) [], ⟨t, false, false⟩) := by
  unfold readAux
  have e := nat_ok (a := []) (n := m.length) (t := '\n' :: (entriesText m ++ t)) (by simp) hlen (by simp; decide)
  have e' : (TextIn.ofText (natText m.length ++ ['\n'] ++ entriesText m ++ t)).nat = (m.length, left ('\n' :: (entriesText m ++ t))) := by
    rw [← e]
    simp [TextIn.ofText]
  rw [e']
  have ih := readEntries_fold (t := t) (l := m) (m := []) (a := ['\n']) (by simp [isSpace]) hk hv
  simp only [left_cons, Bool.not_false, Outcome.require_true, Outcome.ok_bind]
  simp only [List.cons_append, List.nil_append] at ih
  rw [ih, if_neg hne]

theorem readAux_ok {m : Aux} {t : Text} (h : PlainAux m) :
    readAux (.ofText (natText m.length ++ ['\n'] ++ entriesText m ++ t)) = .ok (m, ⟨t, false, false⟩) := by
  rw [readAux_fold h.ne h.size h.keys h.values, fold_sorted (by simpa using h.sorted)]
  rfl

theorem find_setEntry (k v k' : Text) : ∀ {m : Aux}, (m.map Prod.fst).Pairwise (· < ·) →
    findEntry k' (setEntry k v m) = if k = k' then some v else findEntry k' m
  | [], _ => by
    by_cases h : k = k' <;> simp [findEntry, setEntry, h]
  | (k1, v1) :: l, hs => by
    rw [List.map_cons, List.pairwise_cons] at hs
    have ih := find_setEntry k v k' hs.2
    unfold setEntry
    by_cases h1 : k < k1
    · rw [if_pos h1]
      by_cases h : k = k' <;> simp [findEntry, h]
    · rw [if_neg h1]
      by_cases h2 : k = k1
      · rw [if_pos h2]
        by_cases h : k = k'
        · simp [findEntry, h]
        · have : k1 ≠ k' := by rw [← h2]; exact h
          simp [findEntry, h, this]
      · rw [if_neg h2]
        unfold findEntry at ih ⊢
        by_cases h : k1 = k'
        · have : k ≠ k' := by rw [← h]; exact h2
          simp [h, this]
        · simp only [List.find?_cons, h, decide_false]
          exact ih

theorem setEntry_keys {k v : Text} : ∀ {m : Aux} {x : Text}, x ∈ (setEntry k v m).map Prod.fst → x = k ∨ x ∈ m.map Prod.fst
  | [], x, h => by simpa [setEntry] using h
  | (k1, v1) :: l, x, h => by
    unfold setEntry at h
    split_ifs at h with h1 h2
    · simpa using h
    · rw [List.map_cons, List.mem_cons] at h
      rcases h with h | h
      · exact .inl h
      · exact .inr (by rw [List.map_cons]; exact List.mem_cons_of_mem _ h)
    · rw [List.map_cons, List.mem_cons] at h
      rcases h with h | h
      · exact .inr (by rw [List.map_cons, h]; exact List.mem_cons_self)
      · rcases setEntry_keys h with h | h
        · exact .inl h
        · exact .inr (by rw [List.map_cons]; exact List.mem_cons_of_mem _ h)

theorem setEntry_sorted {k v : Text} : ∀ {m : Aux}, (m.map Prod.fst).Pairwise (· < ·) → ((setEntry k v m).map Prod.fst).Pairwise (· < ·)
  | [], _ => by simp [setEntry]
  | (k1, v1) :: l, hs => by
    have hs' := hs
    rw [List.map_cons, List.pairwise_cons] at hs
    unfold setEntry
    split_ifs with h1 h2
    · rw [List.map_cons, List.pairwise_cons]
      refine ⟨fun x hx => ?_, hs'⟩
      rw [List.map_cons, List.mem_cons] at hx
      rcases hx with rfl | hx
      · exact h1
      · exact h1.trans (hs.1 x hx)
    · rw [List.map_cons, List.pairwise_cons, h2]
      exact hs
    · rw [List.map_cons, List.pairwise_cons]
      refine ⟨fun x hx => ?_, setEntry_sorted hs.2⟩
      rcases setEntry_keys hx with rfl | hx
      · exact lt_of_le_of_ne (not_lt.mp h1) (Ne.symm h2)
      · exact hs.1 x hx

theorem fold_entries : ∀ (l : Aux) {m : Aux}, (m.map Prod.fst).Pairwise (· < ·) →
    ((l.foldl (fun m e => setEntry e.1 e.2 m) m).map Prod.fst).Pairwise (· < ·) ∧
    ∀ k, findEntry k (l.foldl (fun m e => setEntry e.1 e.2 m) m) = findEntry k (l.reverse ++ m)
  | [], m, h => ⟨h, fun _ => rfl⟩
  | (k1, v1) :: l, m, h => by
    obtain ⟨h1, h2⟩ := fold_entries l (setEntry_sorted (k := k1) (v := v1) h)
    refine ⟨h1, fun k => ?_⟩
    rw [List.foldl_cons, h2]
    have hf := find_setEntry k1 v1 k h
    unfold findEntry at hf ⊢
    rw [List.reverse_cons, List.append_assoc, List.find?_append, List.find?_append]
    cases hl : l.reverse.find? (fun e => decide (e.1 = k)) with
    | some e => rfl
    | none =>
      rw [Option.none_or, Option.none_or, hf]
      by_cases hk : k1 = k <;> simp [hk]

theorem matText_eq (P : Numbers) (m : MatW) : matText P m = vecText P m.x ++ (' ' :: (vecText P m.y ++ (' ' :: vecText P m.z))) := by
  simp [matText]

theorem vecText_head {P : Numbers} {v : Vec3 Word} (h : PrintableVec P v) : ∃ c t, vecText P v = c :: t ∧ isSpace c = false := by
  obtain ⟨c, t, e, hc⟩ := literal_head h.1.literal
  exact ⟨c, t ++ [' '] ++ P.print v.y ++ [' '] ++ P.print v.z, by simp [vecText, e], hc⟩

theorem parseRows_ok {P : Numbers} {v : Vec3 Word} {m : MatW} {a : Text} (ha : ∀ c ∈ a, isSpace c = true) (hy : PrintableVec P m.y)
    (hz : PrintableVec P m.z) : parseRows P v ⟨a ++ vecText P m.y ++ ' ' :: vecText P m.z, false, false⟩ = .ok ⟨v, m.y, m.z⟩ := by
  have e2 := doubles3_ok (a := a) (t := ' ' :: vecText P m.z) hy ha (Ends.cons _ rfl)
  have e3 := doubles3_ok (a := [' ']) (t := []) hz (by simp [isSpace]) Ends.nil
  simp only [List.append_nil, List.cons_append, List.nil_append] at e3
  unfold parseRows
  rw [e2, left_cons]
  simp only [e3]
  simp [left]

theorem anythingLeft_ok {a t : Text} {c : Char} (ha : ∀ c ∈ a, isSpace c = true) (hc : isSpace c = false) :
    (⟨a ++ c :: t, false, false⟩ : TextIn).isAnythingLeft = (true, ⟨c :: t, false, false⟩) := by
  unfold isAnythingLeft
  rw [ws_ok ha hc]
  simp [good]

theorem parseBox_ok {P : Numbers} {m : MatW} (h : PrintableMat P m) : parseBox P (matText P m) = .ok m := by
  unfold parseBox
  have e1 := doubles3_ok (a := []) (t := ' ' :: (vecText P m.y ++ (' ' :: vecText P m.z))) h.1 (by simp) (Ends.cons _ rfl)
  obtain ⟨c, t, e4, hc⟩ := vecText_head h.2.1
  have e5 := anythingLeft_ok (a := [' ']) (t := t ++ (' ' :: vecText P m.z)) (by simp [isSpace]) hc
  have e6 := parseRows_ok (v := m.x) (a := []) (by simp) h.2.1 h.2.2
  rw [List.nil_append] at e1 e6
  rw [← List.cons_append, ← e4, List.cons_append, List.nil_append] at e5
  rw [matText_eq, TextIn.ofText, e1, left_cons]
  simp only [Bool.not_false, Outcome.require_true, Outcome.ok_bind, e5, parseFormat]
  exact e6

theorem literal_line {l : Text} (h : Literal l) : '\n' ∉ l := by
  obtain ⟨s, w, f, e, hs, hw, hf, he⟩ := h
  have hd : ∀ t, Digits t → '\n' ∉ t := fun t ht hc => absurd (dec_iff.mpr (ht.2 _ hc)) (by decide)
  simp only [List.mem_append, not_or]
  refine ⟨⟨⟨?_, hd w hw⟩, ?_⟩, ?_⟩
  · rcases hs with rfl | rfl <;> simp
  · rcases hf with rfl | ⟨x, hx, rfl⟩
    · simp
    · simp [hd x hx]
  · rcases he with rfl | ⟨s, x, hs, hx, rfl⟩
    · simp
    · have : '\n' ≠ s := by rcases hs with rfl | rfl <;> decide
      simp [hd x hx, this]

theorem vecText_line {P : Numbers} {v : Vec3 Word} (h : PrintableVec P v) : '\n' ∉ vecText P v := by
  simp [vecText, literal_line h.1.literal, literal_line h.2.1.literal, literal_line h.2.2.literal]

theorem matText_line {P : Numbers} {m : MatW} (h : PrintableMat P m) : '\n' ∉ matText P m := by
  simp [matText, vecText_line h.1, vecText_line h.2.1, vecText_line h.2.2]

theorem readBox_ok {A : Arith} {P : Numbers} {m : MatW} {t : Text} (h : PrintableMat P m) (hb : A.boxOk m = true) :
    readBox A P ⟨boxText P m ++ t, false, false⟩ = .ok (m, ⟨t, false, false⟩) := by
  unfold readBox
  have e := getline_ok (t := t) (matText_line h)
  have e' : boxText P m ++ t = matText P m ++ '\n' :: t := by simp [boxText]
  rw [e', e]
  simp [parseBox_ok h, hb]

theorem readShape_ok {P : Numbers} {s : ShapeW} {a t : Text} (ha : ∀ c ∈ a, isSpace c = true) (hp : PrintableVec P s.pos) (hr : PrintableMat P s.rot)
    (ht : Ends t) : readShape P ⟨a ++ (vecText P s.pos ++ List.replicate 8 ' ' ++ matText P s.rot) ++ t, false, false⟩ = .ok (s, left t) := by
  have h1 : ∀ c ∈ [' '], isSpace c = true := by simp [isSpace]
  have h8 : ∀ c ∈ List.replicate 8 ' ', isSpace c = true := by simp [isSpace]
  have e1 := doubles3_ok (a := a) (t := List.replicate 8 ' ' ++ (vecText P s.rot.x ++ ' ' :: (vecText P s.rot.y ++ ' ' :: (vecText P s.rot.z ++ t)))) hp ha
    (Ends.cons _ rfl)
  have e2 := doubles3_ok (a := List.replicate 8 ' ') (t := ' ' :: (vecText P s.rot.y ++ ' ' :: (vecText P s.rot.z ++ t))) hr.1 h8 (Ends.cons _ rfl)
  have e3 := doubles3_ok (a := [' ']) (t := ' ' :: (vecText P s.rot.z ++ t)) hr.2.1 h1 (Ends.cons _ rfl)
  have e4 := doubles3_ok (a := [' ']) (t := t) hr.2.2 h1 ht
  rw [matText_eq]
  unfold readShape
  simp only [List.append_assoc, List.cons_append, List.nil_append] at e1 e2 e3 e4 ⊢
  rw [e1]
  rw [show left (List.replicate 8 ' ' ++ (vecText P s.rot.x ++ ' ' :: (vecText P s.rot.y ++ ' ' :: (vecText P s.rot.z ++ t)))) =
    ⟨List.replicate 8 ' ' ++ (vecText P s.rot.x ++ ' ' :: (vecText P s.rot.y ++ ' ' :: (vecText P s.rot.z ++ t))), false, false⟩ from rfl]
  simp only [e2, left_cons, e3, e4]
  simp [left]

theorem readShapeList_ok {P : Numbers} : ∀ {l : List ShapeW} {a t : Text}, (∀ c ∈ a, isSpace c = true) → (∀ s ∈ l, PrintableVec P s.pos ∧ PrintableMat P s.rot) →
    Ends t → ∃ s, readShapeList P l.length ⟨a ++ (l.flatMap (shapeText P) ++ t), false, false⟩ = .ok (l, s)
  | [], a, t, _, _, _ => ⟨_, rfl⟩
  | x :: l, a, t, ha, h, ht => by
    have e0 : a ++ ((x :: l).flatMap (shapeText P) ++ t) = a ++ (vecText P x.pos ++ List.replicate 8 ' ' ++ matText P x.rot) ++
        '\n' :: (l.flatMap (shapeText P) ++ t) := by
      simp [shapeText]
    have e1 := readShape_ok (t := '\n' :: (l.flatMap (shapeText P) ++ t)) ha (h x (by simp)).1 (h x (by simp)).2 (Ends.cons _ rfl)
    obtain ⟨s, ih⟩ := readShapeList_ok (l := l) (a := ['\n']) (t := t) (by simp [isSpace]) (fun s hs => h s (by simp [hs])) ht
    refine ⟨s, ?_⟩
    rw [List.length_cons, readShapeList, e0, e1]
    simp only [left_cons, Outcome.ok_bind]
    simp only [List.cons_append, List.nil_append] at ih
    rw [ih]
    rfl

theorem readShapes_ok {P : Numbers} {l : List ShapeW} (hn : l.length < 2 ^ 64) (h : ∀ s ∈ l, PrintableVec P s.pos ∧ PrintableMat P s.rot) :
    ∃ s, readShapes P ⟨shapesText P l, false, false⟩ = .ok (l, s) := by
  have e := nat_ok (a := []) (n := l.length) (t := '\n' :: l.flatMap (shapeText P)) (by simp) hn (by simp; decide)
  obtain ⟨s, ih⟩ := readShapeList_ok (P := P) (l := l) (a := ['\n']) (t := []) (by simp [isSpace]) h Ends.nil
  refine ⟨s, ?_⟩
  unfold readShapes shapesText
  simp only [List.nil_append] at e
  simp only [List.append_assoc, List.cons_append, List.nil_append, List.append_nil] at ih ⊢
  rw [e]
  simp only [left_cons, Bool.not_false, Outcome.require_true, Outcome.ok_bind]
  exact ih

theorem write_ok {P : Numbers} {x : Snapshot} {m : Aux} (hm : PlainAux m) :
    write P x m = .ok (natText m.length ++ ['\n'] ++ entriesText m ++ (boxText P x.box ++ shapesText P x.shapes)) := by
  unfold write auxText
  rw [auxEntries_ok hm.keys]
  simp

theorem read_ok {A : Arith} {P : Numbers} {x : Snapshot} {m : Aux} (hm : PlainAux m) (hx : Storable A P x) :
    read A P (natText m.length ++ ['\n'] ++ entriesText m ++ (boxText P x.box ++ shapesText P x.shapes)) = .ok (m, x) := by
  unfold read
  rw [readAux_ok hm]
  simp only [Outcome.ok_bind]
  rw [readBox_ok hx.box hx.boxOk]
  simp only [Outcome.ok_bind]
  obtain ⟨s, e⟩ := readShapes_ok hx.size hx.shapes
  rw [e]
  simp only [Outcome.ok_bind, hx.reset, Outcome.require_true]
  rfl

theorem read_fold {A : Arith} {P : Numbers} {x : Snapshot} {m : Aux} (hne : m ≠ []) (hlen : m.length < 2 ^ 64) (hk : ∀ e ∈ m, Word1 e.1)
    (hv : ∀ e ∈ m, Line1 e.2) (hx : Storable A P x) :
    read A P (natText m.length ++ ['\n'] ++ entriesText m ++ (boxText P x.box ++ shapesText P x.shapes)) =
      .ok (m.foldl (fun m e => setEntry e.1 e.2 m) [], x) := by
  unfold read
  rw [readAux_fold hne hlen hk hv]
  simp only [Outcome.ok_bind]
  rw [readBox_ok hx.box hx.boxOk]
  simp only [Outcome.ok_bind]
  obtain ⟨s, e⟩ := readShapes_ok hx.size hx.shapes
  rw [e]
  simp only [Outcome.ok_bind, hx.reset, Outcome.require_true]
  rfl

end Ramsnap

end Rampack
