import Verif.IO.TornLemmas
import Verif.IO.TrajProps
/-
Theorems about snapshot files: C34 and C66.
-/
namespace Rampack

open Rampack.Spec Rampack.Traj Rampack.Ramsnap Rampack.TextIn

/-- C34: a snapshot with auxiliary information, at least one entry of it, whose keys are words and whose values are non-empty lines not
beginning with white space, is read back: the same bits of all numbers and the same entries.

Missing from the full statement: all other maps. Those with white space in keys are refused when writing. For the remaining ones the
statement is false, see below. -/
theorem C34_round_trip_partial {A : Arith} {P : Numbers} {x : Snapshot} {m : Aux} (hm : PlainAux m) (hx : Storable A P x) :
    ∃ t, Ramsnap.write P x m = .ok t ∧ Ramsnap.read A P t = .ok (m, x) :=
  ⟨_, write_ok hm, read_ok hm hx⟩

/-- Printing of natural numbers, for examples. -/
def demoNumbers : Numbers :=
  ⟨fun w => natText w.toNat, fun t => if t ≠ [] ∧ t.all isDec = true then some (BitVec.ofNat 64 (textNat t)) else none⟩

theorem demo_printable (w : Word) : Printable demoNumbers w := by
  have h := natText_dec w.toNat
  constructor
  · have := Literal.intro [] (natText w.toNat) [] [] (.inl rfl) ⟨natText_ne _, fun c hc => dec_iff.mp (h c hc)⟩ (.inl rfl) (.inl rfl)
    simp only [List.nil_append, List.append_nil] at this
    exact this
  · unfold demoNumbers
    simp only
    rw [if_pos ⟨natText_ne _, List.all_eq_true.mpr h⟩, textNat_natText]
    simp

theorem demo_storable (w : Word) : Storable demoArith demoNumbers (demoSnapshot w) where
  box := ⟨⟨demo_printable _, demo_printable _, demo_printable _⟩, ⟨demo_printable _, demo_printable _, demo_printable _⟩,
    demo_printable _, demo_printable _, demo_printable _⟩
  shapes := fun _ _ => ⟨⟨demo_printable _, demo_printable _, demo_printable _⟩, ⟨demo_printable _, demo_printable _, demo_printable _⟩,
    ⟨demo_printable _, demo_printable _, demo_printable _⟩, demo_printable _, demo_printable _, demo_printable _⟩
  size := by simp [demoSnapshot]
  boxOk := rfl
  reset := rfl

/-- The entries of a real run. -/
def demoAux : Aux := [("cycles".toList, "1000".toList), ("step.translation".toList, "0.1 0.2".toList)]

theorem demo_plain : PlainAux demoAux where
  sorted := by simp [demoAux]; decide
  ne := by simp [demoAux]
  size := by simp [demoAux]
  keys := by simp [demoAux, Word1, isSpace]
  values := by simp [demoAux, Line1, isSpace]

example : PlainAux demoAux ∧ Storable demoArith demoNumbers (demoSnapshot 7) := ⟨demo_plain, demo_storable 7⟩

/-- C34: with no auxiliary information a snapshot cannot be read back at all. -/
theorem C34_no_entries_violated {A : Arith} {P : Numbers} (x : Snapshot) :
    ∃ t, Ramsnap.write P x [] = .ok t ∧ ∃ e, Ramsnap.read A P t = .throw e := by
  refine ⟨natText 0 ++ ['\n'] ++ (boxText P x.box ++ shapesText P x.shapes), by simp [Ramsnap.write, auxText, auxEntries], ?_⟩
  unfold Ramsnap.read readAux
  have e := nat_ok (a := []) (n := 0) (t := '\n' :: (boxText P x.box ++ shapesText P x.shapes)) (by simp) (by norm_num) (by simp; decide)
  have e' : (TextIn.ofText (natText 0 ++ ['\n'] ++ (boxText P x.box ++ shapesText P x.shapes))).nat =
      (0, left ('\n' :: (boxText P x.box ++ shapesText P x.shapes))) := by
    rw [← e]
    simp [TextIn.ofText]
  rw [e', left_cons]
  simp only [Bool.not_false, Outcome.require_true, Outcome.ok_bind, readEntries]
  unfold Ramsnap.readBox
  have g := getline_ok (v := []) (t := boxText P x.box ++ shapesText P x.shapes) (by simp)
  rw [List.nil_append] at g
  rw [g]
  simp only [Bool.not_false, Outcome.require_true, Outcome.ok_bind]
  have p : ∃ e, parseBox P [] = .throw e := by
    have hd : ((TextIn.ofText []).double P.read).2.fail = true := rfl
    have hf := dead_double (fail_dead (dead_double (fail_dead hd) P.read)) P.read
    unfold parseBox
    rw [show doubles3 P.read (TextIn.ofText []) = (((TextIn.ofText []).double P.read).1, (((TextIn.ofText []).double P.read).2.double P.read).1,
      ((((TextIn.ofText []).double P.read).2.double P.read).2.double P.read).1,
      ((((TextIn.ofText []).double P.read).2.double P.read).2.double P.read).2) from rfl]
    simp only [hf]
    exact ⟨_, rfl⟩
  obtain ⟨e, p⟩ := p
  exact ⟨e, by rw [p]; rfl⟩

/-- C34: white space at the beginning of a value is lost. -/
theorem C34_leading_space_violated {A : Arith} {P : Numbers} {x : Snapshot} (hx : Storable A P x) :
    ∃ t, Ramsnap.write P x [("a".toList, " b".toList)] = .ok t ∧ Ramsnap.read A P t = .ok ([("a".toList, "b".toList)], x) := by
  refine ⟨natText 1 ++ "\na  b\n".toList ++ (boxText P x.box ++ shapesText P x.shapes), by simp [Ramsnap.write, auxText, auxEntries, isSpace], ?_⟩
  have h1 : ∀ c ∈ ['\n'], isSpace c = true := by simp [isSpace]
  have h2 : ∀ c ∈ [' ', ' '], isSpace c = true := by simp [isSpace]
  have e := nat_ok (a := []) (n := 1) (t := '\n' :: ('a' :: ' ' :: ' ' :: 'b' :: '\n' :: (boxText P x.box ++ shapesText P x.shapes))) (by simp) (by norm_num)
    (by simp; decide)
  have ew := word_ok (a := ['\n']) (k := ['a']) (t := ' ' :: ' ' :: 'b' :: '\n' :: (boxText P x.box ++ shapesText P x.shapes)) h1
    ⟨by simp, by simp [isSpace]⟩ (Ends.cons _ rfl)
  have es := ws_ok (a := [' ', ' ']) (c := 'b') (t := '\n' :: (boxText P x.box ++ shapesText P x.shapes)) h2 rfl
  have eg := getline_ok (v := ['b']) (t := boxText P x.box ++ shapesText P x.shapes) (by simp)
  have e' : (TextIn.ofText (natText 1 ++ "\na  b\n".toList ++ (boxText P x.box ++ shapesText P x.shapes))).nat =
      (1, left ('\n' :: ('a' :: ' ' :: ' ' :: 'b' :: '\n' :: (boxText P x.box ++ shapesText P x.shapes)))) := by
    rw [← e]
    simp [TextIn.ofText]
  simp only [List.cons_append, List.nil_append] at ew es eg
  have ea : readAux (TextIn.ofText (natText 1 ++ "\na  b\n".toList ++ (boxText P x.box ++ shapesText P x.shapes))) =
      .ok ([("a".toList, "b".toList)], ⟨boxText P x.box ++ shapesText P x.shapes, false, false⟩) := by
    unfold readAux
    rw [e', left_cons]
    simp only [Bool.not_false, Outcome.require_true, Outcome.ok_bind, readEntries]
    simp only [ew, left_cons, es, eg, Bool.not_false, Outcome.require_true, Outcome.ok_bind]
    rfl
  unfold Ramsnap.read
  rw [ea]
  simp only [Outcome.ok_bind]
  rw [readBox_ok hx.box hx.boxOk]
  simp only [Outcome.ok_bind]
  obtain ⟨s, e⟩ := readShapes_ok hx.size hx.shapes
  rw [e]
  simp only [Outcome.ok_bind, hx.reset, Outcome.require_true]
  rfl

/-- C34: a map with an empty value at the end is written, but cannot be read back: the line of the box is taken as the value. -/
theorem C34_empty_value_violated {A : Arith} {P : Numbers} {x : Snapshot} (hx : Storable A P x) :
    ∃ t, Ramsnap.write P x [("a".toList, [])] = .ok t ∧ ∃ e, Ramsnap.read A P t = .throw e := by
  refine ⟨natText 1 ++ "\na \n".toList ++ (boxText P x.box ++ shapesText P x.shapes), by simp [Ramsnap.write, auxText, auxEntries, isSpace], ?_⟩
  have h1 : ∀ c ∈ ['\n'], isSpace c = true := by simp [isSpace]
  have h2 : ∀ c ∈ [' ', '\n'], isSpace c = true := by simp [isSpace]
  obtain ⟨c, l, hb, hc⟩ := vecText_head hx.box.1
  have hb' : boxText P x.box ++ shapesText P x.shapes = matText P x.box ++ '\n' :: shapesText P x.shapes := by simp [boxText]
  have hm : matText P x.box = c :: (l ++ [' '] ++ vecText P x.box.y ++ [' '] ++ vecText P x.box.z) := by simp [matText, hb]
  have e := nat_ok (a := []) (n := 1) (t := '\n' :: ('a' :: ' ' :: '\n' :: (boxText P x.box ++ shapesText P x.shapes))) (by simp) (by norm_num)
    (by simp; decide)
  have ew := word_ok (a := ['\n']) (k := ['a']) (t := ' ' :: '\n' :: (boxText P x.box ++ shapesText P x.shapes)) h1
    ⟨by simp, by simp [isSpace]⟩ (Ends.cons _ rfl)
  have es := ws_ok (a := [' ', '\n']) (c := c) (t := l ++ [' '] ++ vecText P x.box.y ++ [' '] ++ vecText P x.box.z ++ '\n' :: shapesText P x.shapes) h2 hc
  have eg := getline_ok (t := shapesText P x.shapes) (matText_line hx.box)
  have e' : (TextIn.ofText (natText 1 ++ "\na \n".toList ++ (boxText P x.box ++ shapesText P x.shapes))).nat =
      (1, left ('\n' :: ('a' :: ' ' :: '\n' :: (boxText P x.box ++ shapesText P x.shapes)))) := by
    rw [← e]
    simp [TextIn.ofText]
  rw [← List.cons_append, ← hm, ← hb'] at es
  rw [← hb'] at eg
  simp only [List.cons_append, List.nil_append] at ew es
  have ea : readAux (TextIn.ofText (natText 1 ++ "\na \n".toList ++ (boxText P x.box ++ shapesText P x.shapes))) =
      .ok ([("a".toList, matText P x.box)], ⟨shapesText P x.shapes, false, false⟩) := by
    unfold readAux
    rw [e', left_cons]
    simp only [Bool.not_false, Outcome.require_true, Outcome.ok_bind, readEntries]
    simp only [ew, left_cons, es, eg, Bool.not_false, Outcome.require_true, Outcome.ok_bind]
    rfl
  unfold Ramsnap.read
  rw [ea]
  simp only [Outcome.ok_bind]
  have hdig : Digits (natText x.shapes.length) := ⟨natText_ne _, fun c hc => dec_iff.mp (natText_dec _ c hc)⟩
  have hline : '\n' ∉ natText x.shapes.length := fun h => absurd (natText_dec _ _ h) (by decide)
  have eg2 := getline_ok (t := x.shapes.flatMap (shapeText P)) hline
  unfold Ramsnap.readBox
  rw [show shapesText P x.shapes = natText x.shapes.length ++ '\n' :: x.shapes.flatMap (shapeText P) by simp [shapesText], eg2]
  simp only [Bool.not_false, Outcome.require_true, Outcome.ok_bind]
  have p : ∃ e, parseBox P (natText x.shapes.length) = .throw e := by
    have hl : Literal (natText x.shapes.length ++ []) := by
      have := Literal.intro [] _ [] [] (.inl rfl) hdig (.inl rfl) (.inl rfl)
      simpa using this
    have hd : Dead ((TextIn.ofText (natText x.shapes.length)).double P.read).2 := by
      have := double_part (P := P) (a := []) (by simp) hl
      rwa [List.nil_append] at this
    have hf := dead_double (fail_dead (dead_double hd P.read)) P.read
    unfold parseBox doubles3
    simp only [hf]
    exact ⟨_, rfl⟩
  obtain ⟨e, p⟩ := p
  exact ⟨e, by rw [p]; rfl⟩

example : Storable demoArith demoNumbers (demoSnapshot 7) := demo_storable 7

/-- C34: files may have the auxiliary information in any order, with keys repeated: the last value of each key counts. -/
theorem C34_any_order {A : Arith} {P : Numbers} {x : Snapshot} {l : Aux} (hne : l ≠ []) (hlen : l.length < 2 ^ 64) (hk : ∀ e ∈ l, Word1 e.1)
    (hv : ∀ e ∈ l, Line1 e.2) (hx : Storable A P x) :
    ∃ m, Ramsnap.read A P (natText l.length ++ ['\n'] ++ (l.flatMap fun e => e.1 ++ [' '] ++ e.2 ++ ['\n']) ++
        (boxText P x.box ++ shapesText P x.shapes)) = .ok (m, x) ∧ (m.map Prod.fst).Pairwise (· < ·) ∧
      ∀ k v, (k, v) ∈ m ↔ ∃ before after, l = before ++ (k, v) :: after ∧ ∀ e ∈ after, e.1 ≠ k := by
  obtain ⟨h1, h2⟩ := fold_entries l (m := []) (by simp)
  refine ⟨_, read_fold hne hlen hk hv hx, h1, fun k v => ?_⟩
  have hnd : ∀ {m : Aux}, (m.map Prod.fst).Pairwise (· < ·) → ((k, v) ∈ m ↔ findEntry k m = some v) := by
    intro m hm
    induction m with
    | nil => simp [findEntry]
    | cons e m ih =>
      rw [List.map_cons, List.pairwise_cons] at hm
      have ih := ih hm.2
      unfold findEntry at ih ⊢
      by_cases he : e.1 = k
      · rw [List.find?_cons_of_pos (by simpa using he)]
        have : (k, v) ∉ m := fun hc => by
          have := hm.1 k (List.mem_map.mpr ⟨_, hc, rfl⟩)
          rw [he] at this
          exact lt_irrefl _ this
        simp only [List.mem_cons, this, or_false, Option.map_some, Option.some.injEq]
        constructor
        · intro h; rw [← h]
        · intro h; rw [← h, ← he]
      · rw [List.find?_cons_of_neg (by simpa using he), ← ih, List.mem_cons]
        constructor
        · rintro (h | h)
          · rw [← h] at he; exact absurd rfl he
          · exact h
        · exact .inr
  rw [hnd h1, h2, List.append_nil]
  unfold findEntry
  constructor
  · intro h
    obtain ⟨e, he, hev⟩ := Option.map_eq_some_iff.mp h
    obtain ⟨h3, as, bs, h4, h5⟩ := List.find?_eq_some_iff_append.mp he
    have hek : e = (k, v) := by rw [← hev, ← of_decide_eq_true h3]
    refine ⟨bs.reverse, as.reverse, ?_, fun e' he' => ?_⟩
    · rw [← List.reverse_reverse l, h4, hek]; simp
    · have := h5 e' (List.mem_reverse.mp he'); simpa using this
  · rintro ⟨before, after, rfl, h⟩
    have : (before ++ (k, v) :: after).reverse = after.reverse ++ (k, v) :: before.reverse := by simp
    rw [this, List.find?_append]
    have hn : after.reverse.find? (fun e => decide (e.1 = k)) = none := by
      rw [List.find?_eq_none]
      intro e he
      simpa using h e (List.mem_reverse.mp he)
    rw [hn]
    simp

/-- The key `a` twice. -/
example {A : Arith} {x : Snapshot} (hx : Storable A demoNumbers x) : ∃ t, Ramsnap.read A demoNumbers t = .ok ([("a".toList, "2".toList), ("b".toList, "1".toList)], x) := by
  refine ⟨_, read_fold (m := [("a".toList, "1".toList), ("b".toList, "1".toList), ("a".toList, "2".toList)]) (by simp) (by simp) ?_ ?_ hx⟩
  · intro e he
    simp only [List.mem_cons, List.not_mem_nil, or_false] at he
    rcases he with rfl | rfl | rfl <;> exact ⟨by decide, by decide⟩
  · intro e he
    simp only [List.mem_cons, List.not_mem_nil, or_false] at he
    rcases he with rfl | rfl | rfl
    · exact ⟨⟨'1', [], rfl, by decide⟩, by decide⟩
    · exact ⟨⟨'1', [], rfl, by decide⟩, by decide⟩
    · exact ⟨⟨'2', [], rfl, by decide⟩, by decide⟩

/-- C34: files in the old format, with three lengths instead of the matrix of the box, are read as cuboidal boxes. -/
theorem C34_old_format {A : Arith} {P : Numbers} {v : Vec3 Word} {l : List ShapeW} {m : Aux} (hm : PlainAux m) (hv : PrintableVec P v)
    (hb : A.boxOk ⟨⟨v.x, 0, 0⟩, ⟨0, v.y, 0⟩, ⟨0, 0, v.z⟩⟩ = true) (hl : l.length < 2 ^ 64)
    (hs : ∀ s ∈ l, PrintableVec P s.pos ∧ PrintableMat P s.rot)
    (hr : A.resetOk ⟨⟨v.x, 0, 0⟩, ⟨0, v.y, 0⟩, ⟨0, 0, v.z⟩⟩ (l.map ShapeW.pos) = true) :
    ∃ t, auxText m = .ok t ∧ Ramsnap.read A P (t ++ (P.print v.x ++ [' '] ++ P.print v.y ++ [' '] ++ P.print v.z ++ ['\n']) ++ shapesText P l) =
      .ok (m, ⟨⟨⟨v.x, 0, 0⟩, ⟨0, v.y, 0⟩, ⟨0, 0, v.z⟩⟩, l⟩) := by
  refine ⟨natText m.length ++ ['\n'] ++ entriesText m, by simp [auxText, auxEntries_ok hm.keys], ?_⟩
  have ev : P.print v.x ++ [' '] ++ P.print v.y ++ [' '] ++ P.print v.z ++ ['\n'] = vecText P v ++ ['\n'] := by simp [vecText]
  have ep : parseBox P (vecText P v) = .ok ⟨⟨v.x, 0, 0⟩, ⟨0, v.y, 0⟩, ⟨0, 0, v.z⟩⟩ := by
    have e1 := doubles3_ok (a := []) (t := []) hv (by simp) Ends.nil
    rw [List.nil_append, List.append_nil] at e1
    unfold parseBox TextIn.ofText
    rw [e1]
    simp [left, isAnythingLeft, good, parseFormat]
  have eg := getline_ok (t := shapesText P l) (vecText_line hv)
  have eb : Ramsnap.readBox A P ⟨vecText P v ++ '\n' :: shapesText P l, false, false⟩ = .ok (⟨⟨v.x, 0, 0⟩, ⟨0, v.y, 0⟩, ⟨0, 0, v.z⟩⟩, ⟨shapesText P l, false, false⟩) := by
    unfold Ramsnap.readBox
    rw [eg]
    simp only [ep, hb, Bool.not_false, Outcome.require_true, Outcome.ok_bind]
    rfl
  unfold Ramsnap.read
  rw [ev, List.append_assoc, readAux_ok hm]
  simp only [Outcome.ok_bind]
  rw [show vecText P v ++ ['\n'] ++ shapesText P l = vecText P v ++ '\n' :: shapesText P l by simp, eb]
  simp only [Outcome.ok_bind]
  obtain ⟨s, e⟩ := readShapes_ok hl hs
  rw [e]
  simp only [Outcome.ok_bind, hr, Outcome.require_true]
  rfl

example : PrintableVec demoNumbers ⟨1, 2, 3⟩ ∧ ∀ s ∈ (demoSnapshot 7).shapes, PrintableVec demoNumbers s.pos ∧ PrintableMat demoNumbers s.rot :=
  ⟨⟨demo_printable _, demo_printable _, demo_printable _⟩, (demo_storable 7).shapes⟩

theorem readShapeList_unended {P : Numbers} {x : ShapeW} (hx : PrintableVec P x.pos ∧ PrintableMat P x.rot) : ∀ {l : List ShapeW} {a : Text},
    (∀ c ∈ a, isSpace c = true) → (∀ s ∈ l, PrintableVec P s.pos ∧ PrintableMat P s.rot) →
    ∃ s, readShapeList P (l.length + 1) ⟨a ++ (l.flatMap (shapeText P) ++ (vecText P x.pos ++ List.replicate 8 ' ' ++ matText P x.rot)), false, false⟩ = .ok (l ++ [x], s)
  | [], a, ha, _ => by
    have e1 := readShape_ok (t := []) ha hx.1 hx.2 Ends.nil
    rw [List.append_nil] at e1
    refine ⟨left [], ?_⟩
    rw [List.length_nil, Nat.zero_add, readShapeList]
    simp only [List.flatMap_nil, List.nil_append]
    rw [e1]
    simp [readShapeList]
  | y :: l, a, ha, h => by
    have e0 : a ++ ((y :: l).flatMap (shapeText P) ++ (vecText P x.pos ++ List.replicate 8 ' ' ++ matText P x.rot)) =
        a ++ (vecText P y.pos ++ List.replicate 8 ' ' ++ matText P y.rot) ++
        '\n' :: (l.flatMap (shapeText P) ++ (vecText P x.pos ++ List.replicate 8 ' ' ++ matText P x.rot)) := by
      simp [shapeText]
    have e1 := readShape_ok (t := '\n' :: (l.flatMap (shapeText P) ++ (vecText P x.pos ++ List.replicate 8 ' ' ++ matText P x.rot))) ha
      (h y (by simp)).1 (h y (by simp)).2 (Ends.cons _ rfl)
    obtain ⟨s, ih⟩ := readShapeList_unended hx (l := l) (a := ['\n']) (by simp [isSpace]) (fun s hs => h s (by simp [hs]))
    refine ⟨s, ?_⟩
    rw [List.length_cons, readShapeList, e0, e1]
    simp only [left_cons, Outcome.ok_bind]
    simp only [List.cons_append, List.nil_append] at ih
    rw [ih]
    rfl

/-- The text of a snapshot up to its last number. -/
def snapFront (P : Numbers) (b : MatW) (l : List ShapeW) (x : ShapeW) (m : Aux) : Text :=
  natText m.length ++ ['\n'] ++ entriesText m ++ (boxText P b ++ (natText (l.length + 1) ++ ['\n'] ++ l.flatMap (shapeText P) ++
    (vecText P x.pos ++ List.replicate 8 ' ' ++ (vecText P x.rot.x ++ [' '] ++ vecText P x.rot.y ++ [' '] ++
      (P.print x.rot.z.x ++ [' '] ++ P.print x.rot.z.y ++ [' '])))))

theorem snapFront_eq (P : Numbers) (b : MatW) (l : List ShapeW) (x : ShapeW) (m : Aux) :
    natText m.length ++ ['\n'] ++ entriesText m ++ (boxText P b ++ shapesText P (l ++ [x])) = snapFront P b l x m ++ (P.print x.rot.z.z ++ ['\n']) := by
  simp [snapFront, shapesText, shapeText, matText, vecText]

theorem read_unended {A : Arith} {P : Numbers} {b : MatW} {l : List ShapeW} {x : ShapeW} {m : Aux} (hm : PlainAux m) (hx : Storable A P ⟨b, l ++ [x]⟩) :
    Ramsnap.read A P (snapFront P b l x m ++ P.print x.rot.z.z) = .ok (m, ⟨b, l ++ [x]⟩) := by
  have e0 : snapFront P b l x m ++ P.print x.rot.z.z = natText m.length ++ ['\n'] ++ entriesText m ++ (boxText P b ++ ([] ++ natText (l.length + 1) ++
      ('\n' :: (l.flatMap (shapeText P) ++ (vecText P x.pos ++ List.replicate 8 ' ' ++ matText P x.rot))))) := by
    simp [snapFront, matText, vecText]
  unfold Ramsnap.read
  rw [e0, readAux_ok hm]
  simp only [Outcome.ok_bind]
  rw [readBox_ok hx.box hx.boxOk]
  simp only [Outcome.ok_bind]
  have hn : l.length + 1 < 2 ^ 64 := by
    have := hx.size
    simpa using this
  have e := nat_ok (a := []) (n := l.length + 1) (t := '\n' :: (l.flatMap (shapeText P) ++ (vecText P x.pos ++ List.replicate 8 ' ' ++ matText P x.rot)))
    (by simp) hn (by simp; decide)
  obtain ⟨s, e2⟩ := readShapeList_unended (hx.shapes x (by simp)) (l := l) (a := ['\n']) (by simp [isSpace])
    (fun y hy => hx.shapes y (by simp [hy]))
  unfold readShapes
  rw [e, left_cons]
  simp only [Bool.not_false, Outcome.require_true, Outcome.ok_bind]
  simp only [List.cons_append, List.nil_append] at e2
  rw [e2]
  simp only [Outcome.ok_bind, hx.reset, Outcome.require_true]
  rfl

/-- C66: a snapshot file of which only some first characters were written is refused, unless some of its last number was written; a file
which lacks only the last line end is read correctly.

Missing from the full statement: a cut inside the last number, for which the statement is false, see below. -/
theorem C66_torn_partial {A : Arith} {P : Numbers} {b : MatW} {l : List ShapeW} {x : ShapeW} {m : Aux} (hm : PlainAux m) (hx : Storable A P ⟨b, l ++ [x]⟩) :
    ∃ front, Ramsnap.write P ⟨b, l ++ [x]⟩ m = .ok (front ++ P.print x.rot.z.z ++ ['\n']) ∧
      (∀ k ≤ front.length, ∃ e, Ramsnap.read A P ((front ++ P.print x.rot.z.z ++ ['\n']).take k) = .throw e) ∧
      Ramsnap.read A P (front ++ P.print x.rot.z.z) = .ok (m, ⟨b, l ++ [x]⟩) := by
  refine ⟨snapFront P b l x m, ?_, fun k hk => ?_, read_unended hm hx⟩
  · rw [write_ok hm, snapFront_eq, List.append_assoc]
  · have := read_cut (A := A) (j := k) hm hx.box hx.size hx.shapes (by
      rw [snapFront_eq]
      simp only [List.length_append, List.length_cons, List.length_nil]
      omega)
    rw [snapFront_eq] at this
    rw [List.append_assoc]
    exact this

example : PlainAux demoAux ∧ ∃ b l x, Storable demoArith demoNumbers ⟨b, l ++ [x]⟩ ∧ l ≠ [] :=
  ⟨demo_plain, (demoSnapshot 7).box, [⟨⟨1, 2, 7⟩, ⟨⟨7, 1, 2⟩, ⟨7, 1, 2⟩, ⟨7, 1, 2⟩⟩⟩], ⟨⟨3, 4, 5⟩, ⟨⟨6, 7, 7⟩, ⟨6, 7, 7⟩, ⟨6, 7, 7⟩⟩⟩, demo_storable 7, by simp⟩

/-- C66: if a part of the last number is a number itself, a cut there goes unnoticed and another snapshot is read. -/
theorem C66_torn_violated : ∃ t k x, Ramsnap.write demoNumbers (demoSnapshot 12) demoAux = .ok t ∧ k < t.length ∧
    Ramsnap.read demoArith demoNumbers (t.take k) = .ok (demoAux, x) ∧ x ≠ demoSnapshot 12 := by
  have hx := demo_storable 12
  set b := (demoSnapshot 12).box with hb
  set y : ShapeW := ⟨⟨1, 2, 12⟩, ⟨⟨12, 1, 2⟩, ⟨12, 1, 2⟩, ⟨12, 1, 2⟩⟩⟩ with hy
  set z : ShapeW := ⟨⟨3, 4, 5⟩, ⟨⟨6, 7, 12⟩, ⟨6, 7, 12⟩, ⟨6, 7, 12⟩⟩⟩ with hz
  set z' : ShapeW := ⟨⟨3, 4, 5⟩, ⟨⟨6, 7, 12⟩, ⟨6, 7, 12⟩, ⟨6, 7, 1⟩⟩⟩ with hz'
  have hp : ∀ v : Vec3 Word, PrintableVec demoNumbers v := fun v => ⟨demo_printable _, demo_printable _, demo_printable _⟩
  have hs : Storable demoArith demoNumbers ⟨b, [y] ++ [z']⟩ :=
    ⟨⟨hp _, hp _, hp _⟩, fun s _ => ⟨hp _, hp _, hp _, hp _⟩, by simp, rfl, rfl⟩
  have hw : Ramsnap.write demoNumbers (demoSnapshot 12) demoAux = .ok (snapFront demoNumbers b [y] z demoAux ++ (demoNumbers.print 12 ++ ['\n'])) := by
    rw [write_ok demo_plain]
    exact congrArg _ (snapFront_eq demoNumbers b [y] z demoAux)
  have h12 : demoNumbers.print 12 = ['1', '2'] := by
    show natText 12 = ['1', '2']
    rw [natText, natText]
    rfl
  have h1 : demoNumbers.print 1 = ['1'] := by
    show natText 1 = ['1']
    rw [natText]
    rfl
  refine ⟨_, (snapFront demoNumbers b [y] z demoAux).length + 1, ⟨b, [y] ++ [z']⟩, hw, ?_, ?_, ?_⟩
  · rw [h12]
    simp
  · have hr := read_unended demo_plain hs
    rw [List.take_length_add_append, h12]
    have : z'.rot.z.z = 1 := rfl
    rw [this, h1] at hr
    exact hr
  · intro h
    have h2 : ([y] ++ [z'] : List ShapeW) = (demoSnapshot 12).shapes := congrArg Snapshot.shapes h
    simp [demoSnapshot, hy, hz'] at h2

end Rampack
