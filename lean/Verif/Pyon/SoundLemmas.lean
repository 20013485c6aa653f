import Verif.Pyon.StepLemmas
/-
What the parser takes belongs to the grammar, and it always ends.
-/
namespace Rampack.Pyon

open Rampack Spec

variable {F : Type} {conv : ℚ → Option F}

/-- The texts of numbers which the parser takes. -/
def Taken (conv : ℚ → Option F) (t : Text) (v : Node F) : Prop := Numeral conv t v ∨ OddBinary t v

/-- The rest of a list: the end, or further elements, with the comma before them unless they are the first ones. -/
def Items {α : Type} (R : Text → α → Prop) (close : Char) (first : Bool) (t : Text) (xs : List α) (r : Text) : Prop :=
  (xs = [] ∧ t = close :: r) ∨ ∃ ts, CommaList R ts xs ∧ t = (if first then [] else [',']) ++ ts ++ close :: r

/-- An element with what is around it. -/
def Item {α : Type} (R : Text → α → Prop) (t : Text) (x : α) (r : Text) : Prop := ∃ g u w, Gap g ∧ R u x ∧ EndGap w r ∧ t = g ++ u ++ w ++ r

theorem separated_gap {α : Type} {R : Text → α → Prop} {g ts : Text} {xs : List α} (hg : Gap g) (h : CommaList R ts xs) : CommaList R (g ++ ts) xs := by
  cases h with
  | @one g0 g' t a h1 h2 h3 =>
    have := CommaList.one (gap_append hg h1) h2 h3
    simpa using this
  | @more g0 g' t ts a as h1 h2 h3 h4 =>
    have := CommaList.more (gap_append hg h1) h2 h3 h4
    simpa using this

theorem items_ne {α : Type} {R : Text → α → Prop} {close : Char} {first : Bool} {t r : Text} {xs : List α} (h : Items R close first t xs r) : t ≠ [] := by
  rcases h with ⟨_, rfl⟩ | ⟨ts, _, rfl⟩ <;> simp

theorem items_step {α : Type} {R : Text → α → Prop} {close : Char} {first : Bool} {t t1 t2 r : Text} {m : String} {x : α} {xs : List α}
    (hc : comma first t m = .ok t1) (hi : Item R t1 x t2) (hs : Items R close false t2 xs r) : Items R close first t (x :: xs) r := by
  have hne := items_ne hs
  obtain ⟨g, u, w, hg, hu, hw, rfl⟩ := hi
  replace hw := hw.2 hne
  -- the elements without the comma
  have key : ∃ ts, CommaList R ts (x :: xs) ∧ g ++ u ++ w ++ t2 = ts ++ close :: r := by
    rcases hs with ⟨rfl, rfl⟩ | ⟨ts, hts, rfl⟩
    · exact ⟨_, .one hg hu hw, rfl⟩
    · refine ⟨_, .more hg hu hw hts, ?_⟩
      simp
  obtain ⟨ts, hts, he⟩ := key
  right
  rcases comma_ok hc with ⟨rfl, ht⟩ | ⟨rfl, r0, rfl, ht⟩
  · exact ⟨ts, hts, by rw [← ht, he]; simp⟩
  · obtain ⟨g0, h0, hg0⟩ := ws_split r0
    rw [← ht] at h0 hg0
    refine ⟨g0 ++ ts, separated_gap (hg0.2 (by simp [hne])) hts, ?_⟩
    rw [h0, he]; simp

theorem item_ws {α : Type} {R : Text → α → Prop} {t r : Text} {x : α} (h : Item R t x r) : Item R t x (ws r) := by
  obtain ⟨g, u, w, hg, hu, hw, rfl⟩ := h
  obtain ⟨w', h', hw'⟩ := ws_split r
  refine ⟨g, u, w ++ w', hg, hu, endGap_append hw h' hw', ?_⟩
  conv_lhs => rw [h']
  simp

theorem item_of {α : Type} {R : Text → α → Prop} {t u r : Text} {x : α} (h : ws t = u ++ r) (hu : R u x) (hne : u ≠ []) : Item R t x r := by
  obtain ⟨g, hg, hgap⟩ := ws_split t
  refine ⟨g, u, [], hgap.2 (by rw [h]; simp [hne]), hu, endGap_of .nil _, ?_⟩
  rw [h] at hg
  simpa using hg

theorem list_of_items {α : Type} {R : Text → α → Prop} {close : Char} {t r : Text} {xs : List α} (h : Items R close true (ws t) xs r) :
    (xs = [] ∧ ∃ g, Gap g ∧ t = g ++ close :: r) ∨ ∃ ts, CommaList R ts xs ∧ t = ts ++ close :: r := by
  have hne := items_ne h
  obtain ⟨g, hg, hgap⟩ := ws_split t
  have hgap := hgap.2 hne
  rcases h with ⟨rfl, ht⟩ | ⟨ts, hts, ht⟩
  · exact .inl ⟨rfl, g, hgap, by rw [← ht]; exact hg⟩
  · refine .inr ⟨g ++ ts, separated_gap hgap hts, ?_⟩
    rw [hg, ht]; simp

theorem isEmpty_snoc {α : Type} (l : List α) (a : α) : (l ++ [a]).isEmpty = false := by cases l <;> rfl

theorem keys_step {k : Text} {v : Node F} {es : List (Text × Node F)} (h : (es.map Prod.fst).Nodup) (hk : k ∉ es.map Prod.fst) :
    ((es ++ [(k, v)]).map Prod.fst).Nodup := by
  rw [List.map_append]
  refine List.nodup_append.mpr ⟨h, by simp, ?_⟩
  intro a ha b hb
  simp only [List.map_cons, List.map_nil, List.mem_cons, List.not_mem_nil, or_false] at hb
  rintro rfl
  rw [hb] at ha
  exact hk ha

theorem all_sound (f : Nat) :
    (∀ t v r, expression conv f t = .ok (v, r) → Item (Means (Taken conv)) t v r) ∧
    (∀ es t vs r, elements conv f es t = .ok (vs, r) → ∃ vs', vs = es ++ vs' ∧ Items (Means (Taken conv)) ']' es.isEmpty t vs' r) ∧
    (∀ es t vs r, entries conv f es t = .ok (vs, r) → (es.map Prod.fst).Nodup →
      (vs.map Prod.fst).Nodup ∧ ∃ vs', vs = es ++ vs' ∧ Items (EntryOf (Means (Taken conv))) '}' es.isEmpty t vs' r) ∧
    (∀ ps ks t ps' ks' r, arguments conv f ps ks t = .ok ((ps', ks'), r) → (ks.map Prod.fst).Nodup →
      (ks'.map Prod.fst).Nodup ∧ ∃ p k, ps' = ps ++ p ∧ ks' = ks ++ k ∧ (ks ≠ [] → p = []) ∧
        Items (ArgumentOf (Means (Taken conv))) ')' (ps.isEmpty && ks.isEmpty) t (p.map (fun v => (none, v)) ++ k.map (fun e => (some e.1, e.2))) r) := by
  induction f with
  | zero =>
    refine ⟨?_, ?_, ?_, ?_⟩
    · intro t v r h; simp [expression] at h
    · intro es t vs r h; simp [elements] at h
    · intro es t vs r h; simp [entries] at h
    · intro ps ks t ps' ks' r h; simp [arguments] at h
  | succ f ih =>
    obtain ⟨ihX, ihE, ihD, ihA⟩ := ih
    refine ⟨?_, ?_, ?_, ?_⟩
    · intro t v r h
      rcases hw : ws t with _ | ⟨c, r0⟩
      · obtain ⟨m, hm⟩ := expression_eof (conv := conv) (f := f) hw
        rw [hm] at h; simp at h
      by_cases h1 : c = '['
      · subst h1
        rw [expression_array hw] at h
        obtain ⟨⟨es, r'⟩, he, h⟩ := Outcome.bind_eq_ok.mp h
        have h := Outcome.ok_inj.mp h
        simp only [Prod.mk.injEq] at h
        obtain ⟨rfl, rfl⟩ := h
        obtain ⟨vs, hvs, hi⟩ := ihE _ _ _ _ he
        rw [List.nil_append] at hvs
        subst hvs
        rcases list_of_items hi with ⟨rfl, g, hg, rfl⟩ | ⟨ts, hts, rfl⟩
        · exact item_of (u := '[' :: g ++ [']']) (by rw [hw]; simp) (.emptyArray hg) (by simp)
        · exact item_of (u := '[' :: ts ++ [']']) (by rw [hw]; simp) (.array hts) (by simp)
      by_cases h2 : c = '{'
      · subst h2
        rw [expression_dictionary hw] at h
        obtain ⟨⟨es, r'⟩, he, h⟩ := Outcome.bind_eq_ok.mp h
        have h := Outcome.ok_inj.mp h
        simp only [Prod.mk.injEq] at h
        obtain ⟨rfl, rfl⟩ := h
        obtain ⟨hn, vs, hvs, hi⟩ := ihD _ _ _ _ he (by simp)
        rw [List.nil_append] at hvs
        subst hvs
        rcases list_of_items hi with ⟨rfl, g, hg, rfl⟩ | ⟨ts, hts, rfl⟩
        · exact item_of (u := '{' :: g ++ ['}']) (by rw [hw]; simp) (.emptyDictionary hg) (by simp)
        · exact item_of (u := '{' :: ts ++ ['}']) (by rw [hw]; simp) (.dictionary hts hn) (by simp)
      by_cases h3 : c = '"'
      · subst h3
        rw [expression_string hw] at h
        obtain ⟨⟨s, r'⟩, he, h⟩ := Outcome.bind_eq_ok.mp h
        have h := Outcome.ok_inj.mp h
        simp only [Prod.mk.injEq] at h
        obtain ⟨rfl, rfl⟩ := h
        obtain ⟨b, hb, rfl⟩ := stringBody_sound _ le_rfl he
        exact item_of (u := '"' :: b ++ ['"']) (by rw [hw]; simp) (.string ⟨b, hb, rfl⟩) (by simp)
      rcases hi : identifier (c :: r0) with _ | ⟨n, r1⟩
      · rw [expression_numeral hw h1 h2 h3 hi] at h
        obtain ⟨o, ho, h⟩ := Outcome.bind_eq_ok.mp h
        cases o with
        | none => simp at h
        | some p =>
          obtain ⟨v', r'⟩ := p
          simp only [Outcome.ok.injEq, Prod.mk.injEq] at h
          obtain ⟨rfl, rfl⟩ := h
          have hns : NoSpace (c :: r0) := by
            intro c' hc'
            have := ws_noBlank t c' (by rw [hw]; exact hc')
            exact this.1
          obtain ⟨u, hu, hne, hur⟩ := numeral_sound hns ho
          exact item_of (by rw [hw]; exact hur) (.number hu) hne
      · have hi' : identifier (ws t) = some (n, r1) := by rw [hw]; exact hi
        obtain ⟨hid, hsp, hstop⟩ := identifier_sound hi'
        have hne : n ≠ [] := by obtain ⟨c, n', rfl, _⟩ := hid; simp
        rcases hb : builtin (F := F) n with _ | b
        · have hres := builtin_none.mp hb
          by_cases hp : ∃ r', ws r1 = '(' :: r'
          · obtain ⟨r', hp⟩ := hp
            rw [expression_call hi' hb hp] at h
            obtain ⟨⟨⟨ps, ks⟩, r''⟩, he, h⟩ := Outcome.bind_eq_ok.mp h
            have h := Outcome.ok_inj.mp h
            simp only [Prod.mk.injEq] at h
            obtain ⟨rfl, rfl⟩ := h
            obtain ⟨hn, p, k, hps, hks, -, hit⟩ := ihA _ _ _ _ _ _ he (by simp)
            rw [List.nil_append] at hps hks
            subst hps hks
            obtain ⟨g, hg, hgap⟩ := ws_split r1
            rw [hp] at hg hgap
            replace hgap := hgap.2 (by simp)
            show Item _ _ (Node.dataclass n ps ks) _
            rcases list_of_items hit with ⟨hnil, g', hg', rfl⟩ | ⟨ts, hts, rfl⟩
            · obtain ⟨e1, e2⟩ := List.append_eq_nil_iff.mp hnil
              have e1 : ps = [] := by simpa using e1
              have e2 : ks = [] := by simpa using e2
              rw [e1, e2]
              exact item_of (u := n ++ g ++ '(' :: g' ++ [')']) (by rw [hsp, hg]; simp) (.emptyCall hid hres hgap hg') (by simp)
            · exact item_of (u := n ++ g ++ '(' :: ts ++ [')']) (by rw [hsp, hg]; simp) (.call hid hres hgap hts rfl hn) (by simp)
          · rw [expression_name hi' hb (by
              intro c hc hcp
              subst hcp
              cases hwr : ws r1 with
              | nil => rw [hwr] at hc; simp at hc
              | cons d r' =>
                rw [hwr] at hc
                have : d = '(' := by simpa using hc
                exact hp ⟨r', by rw [hwr, this]⟩)] at h
            simp only [Outcome.ok.injEq, Prod.mk.injEq] at h
            obtain ⟨rfl, rfl⟩ := h
            exact item_ws (item_of hsp (.name hid hres) hne)
        · rw [expression_builtin hi' hb] at h
          simp only [Outcome.ok.injEq, Prod.mk.injEq] at h
          obtain ⟨rfl, rfl⟩ := h
          refine item_of hsp ?_ hne
          rcases builtin_some hb with ⟨rfl, rfl⟩ | ⟨rfl, rfl⟩ | ⟨rfl, rfl⟩
          · exact .true
          · exact .false
          · exact .none
    · intro es t vs r h
      cases t with
      | nil => simp [elements] at h
      | cons c r0 =>
        by_cases hc : c = ']'
        · subst hc
          rw [elements_end] at h
          simp only [Outcome.ok.injEq, Prod.mk.injEq] at h
          obtain ⟨rfl, rfl⟩ := h
          exact ⟨[], by simp, .inl ⟨rfl, rfl⟩⟩
        · rw [elements_step hc] at h
          obtain ⟨t1, h1, h⟩ := Outcome.bind_eq_ok.mp h
          obtain ⟨⟨e, t2⟩, h2, h⟩ := Outcome.bind_eq_ok.mp h
          obtain ⟨vs', hvs, hi⟩ := ihE _ _ _ _ h
          refine ⟨e :: vs', by rw [hvs]; simp, items_step h1 (item_ws (ihX _ _ _ h2)) ?_⟩
          rwa [isEmpty_snoc] at hi
    · intro es t vs r h hn
      cases t with
      | nil => simp [entries] at h
      | cons c r0 =>
        by_cases hc : c = '}'
        · subst hc
          rw [entries_end] at h
          simp only [Outcome.ok.injEq, Prod.mk.injEq] at h
          obtain ⟨rfl, rfl⟩ := h
          exact ⟨hn, [], by simp, .inl ⟨rfl, rfl⟩⟩
        · rw [entries_step hc] at h
          obtain ⟨t1, h1, h⟩ := Outcome.bind_eq_ok.mp h
          obtain ⟨⟨k, t2⟩, h2, h⟩ := Outcome.bind_eq_ok.mp h
          obtain ⟨⟨e, t3⟩, h3, h⟩ := Outcome.bind_eq_ok.mp h
          split at h
          · simp at h
          · rename_i hk
            obtain ⟨hn', vs', hvs, hi⟩ := ihD _ _ _ _ h (keys_step hn hk)
            refine ⟨hn', (k, e) :: vs', by rw [hvs]; simp, items_step h1 ?_ (by rwa [isEmpty_snoc] at hi)⟩
            obtain ⟨q, g, hq, hg, rfl⟩ := dictionaryKey_ok h2
            obtain ⟨g', u, w, hg', hu, hw, heq⟩ := item_ws (ihX _ _ _ h3)
            simp only at heq
            refine ⟨[], q ++ g ++ ':' :: g' ++ u, w, .nil, .mk hq hg hg' hu, hw, ?_⟩
            rw [heq]; simp
    · intro ps ks t ps' ks' r h hn
      cases t with
      | nil => simp [arguments] at h
      | cons c r0 =>
        by_cases hc : c = ')'
        · subst hc
          rw [arguments_end] at h
          simp only [Outcome.ok.injEq, Prod.mk.injEq] at h
          obtain ⟨⟨rfl, rfl⟩, rfl⟩ := h
          exact ⟨hn, [], [], by simp, by simp, fun _ => rfl, .inl ⟨rfl, rfl⟩⟩
        · rw [arguments_step hc] at h
          obtain ⟨t1, h1, h⟩ := Outcome.bind_eq_ok.mp h
          rcases hkw : keywordName t1 with _ | ⟨name, t2⟩
          · simp only [hkw] at h
            obtain ⟨⟨e, t3⟩, h3, h⟩ := Outcome.bind_eq_ok.mp h
            split at h
            · rename_i hke
              have hke : ks = [] := by simpa using hke
              obtain ⟨hn', p, k, rfl, rfl, -, hi⟩ := ihA _ _ _ _ _ _ h hn
              refine ⟨hn', e :: p, k, by simp, rfl, fun hne => absurd hke hne, ?_⟩
              refine items_step h1 ?_ (by rwa [isEmpty_snoc, Bool.false_and] at hi)
              obtain ⟨g', u, w, hg', hu, hw, heq⟩ := item_ws (ihX _ _ _ h3)
              exact ⟨g', u, w, hg', .positional hu, hw, heq⟩
            · simp at h
          · simp only [hkw] at h
            obtain ⟨⟨e, t3⟩, h3, h⟩ := Outcome.bind_eq_ok.mp h
            split at h
            · simp at h
            · rename_i hk
              obtain ⟨hn', p, k, rfl, rfl, hp, hi⟩ := ihA _ _ _ _ _ _ h (keys_step hn hk)
              have hp : p = [] := hp (by simp)
              subst hp
              refine ⟨hn', [], (name, e) :: k, by simp, by simp, fun _ => rfl, ?_⟩
              refine items_step h1 ?_ (by rwa [isEmpty_snoc, Bool.and_false] at hi)
              obtain ⟨hid, g, r', hg, rfl, rfl⟩ := keywordName_some hkw
              obtain ⟨g', u, w, hg', hu, hw, heq⟩ := item_ws (ihX _ _ _ h3)
              obtain ⟨g0, h0, hg0⟩ := ws_split r'
              have hune : ws r' ≠ [] := by
                intro hnil
                obtain ⟨m, hm⟩ : ∃ m, expression conv f (ws r') = .throw m ∨ expression conv f (ws r') = .diverge := by
                  cases f with
                  | zero => exact ⟨"", .inr (by simp [expression])⟩
                  | succ f =>
                    obtain ⟨m, hm⟩ := expression_eof (conv := conv) (f := f) (t := ws r') (by rw [ws_ws]; exact hnil)
                    exact ⟨m, .inl hm⟩
                rcases hm with hm | hm <;> (rw [hm] at h3; simp at h3)
              refine ⟨[], name ++ g ++ '=' :: (g0 ++ g') ++ u, w, .nil, .keyword hid hg (gap_append (hg0.2 hune) hg') hu, hw, ?_⟩
              rw [h0, heq]; simp

/-! ### The end -/

theorem item_length {t r : Text} {v : Node F} (h : Item (Means (Taken conv)) t v r) : r.length ≤ t.length := by
  obtain ⟨g, u, w, _, _, _, rfl⟩ := h
  simp; omega

theorem oddBinary_ne {u : Text} {v : Node F} (h : OddBinary u v) : u ≠ [] := by
  obtain ⟨g, s, neg, d, n, _, _, _, _, _, rfl, _⟩ := h
  simp

theorem numeral_ne {u : Text} {v : Node F} (h : Numeral conv u v) : u ≠ [] := by
  cases h with
  | int h _ => exact intForm_ne_nil h
  | binary h _ => obtain ⟨d, n, _, _, rfl, _⟩ := h; simp
  | float h _ _ => exact (floatForm_numeric h).1

theorem means_ne {N : Text → Node F → Prop} (hN : ∀ u v, N u v → u ≠ []) {u : Text} {v : Node F} (h : Means N u v) : u ≠ [] := by
  cases h with
  | number h => exact hN _ _ h
  | string h => obtain ⟨b, _, rfl⟩ := h; simp
  | name h _ => obtain ⟨c, r, rfl, _⟩ := h; simp
  | _ => simp

theorem taken_ne (u : Text) (v : Node F) (h : Taken conv u v) : u ≠ [] := h.elim numeral_ne oddBinary_ne

theorem expression_length {f : Nat} {t r : Text} {v : Node F} (h : expression conv f t = .ok (v, r)) : r.length < t.length := by
  obtain ⟨g, u, w, _, hu, _, rfl⟩ := (all_sound f).1 t v r h
  have := List.length_pos_of_ne_nil (means_ne taken_ne hu)
  simp; omega

theorem comma_length {first : Bool} {t t' : Text} {m : String} (h : comma first t m = .ok t') : t'.length ≤ t.length := by
  rcases comma_ok h with ⟨_, rfl⟩ | ⟨_, r, rfl, rfl⟩
  · exact le_rfl
  · have := ws_length r
    simp; omega

theorem checkInt_settled (t : Text) (o : Option (Int × Text)) : Settled (checkInt t o) := by
  unfold checkInt
  split
  · exact settled_ok _
  · split
    · exact settled_ok _
    · exact settled_throw _

theorem numeral_settled (t : Text) : Settled (numeral conv t) := by
  unfold numeral
  refine settled_bind ?_ fun _ _ => settled_bind ?_ fun _ _ => settled_ok _
  · unfold parseFloat
    split
    · exact settled_ok _
    · exact settled_throw _
    · split
      · exact settled_throw _
      · exact settled_ok _
  · unfold parseInt
    split <;> exact checkInt_settled _ _

theorem all_settled (f : Nat) :
    (∀ t, 2 * t.length + 1 ≤ f → Settled (expression conv f t)) ∧
    (∀ es t, 2 * t.length + 2 ≤ f → Settled (elements conv f es t)) ∧
    (∀ es t, 2 * t.length + 2 ≤ f → Settled (entries conv f es t)) ∧
    (∀ ps ks t, 2 * t.length + 2 ≤ f → Settled (arguments conv f ps ks t)) := by
  induction f with
  | zero =>
    refine ⟨?_, ?_, ?_, ?_⟩
    · intro t h; omega
    · intro es t h; omega
    · intro es t h; omega
    · intro ps ks t h; omega
  | succ f ih =>
    obtain ⟨ihX, ihE, ihD, ihA⟩ := ih
    refine ⟨?_, ?_, ?_, ?_⟩
    · intro t hf
      have hlen := ws_length t
      rcases hw : ws t with _ | ⟨c, r0⟩
      · obtain ⟨m, hm⟩ := expression_eof (conv := conv) (f := f) hw
        rw [hm]; exact settled_throw _
      have hr0 := ws_length r0
      rw [hw, List.length_cons] at hlen
      by_cases h1 : c = '['
      · subst h1
        rw [expression_array hw]
        exact settled_bind (ihE _ _ (by omega)) fun _ _ => settled_ok _
      by_cases h2 : c = '{'
      · subst h2
        rw [expression_dictionary hw]
        exact settled_bind (ihD _ _ (by omega)) fun _ _ => settled_ok _
      by_cases h3 : c = '"'
      · subst h3
        rw [expression_string hw]
        exact settled_bind (stringBody_settled _ le_rfl) fun _ _ => settled_ok _
      rcases hi : identifier (c :: r0) with _ | ⟨n, r1⟩
      · rw [expression_numeral hw h1 h2 h3 hi]
        refine settled_bind (numeral_settled _) fun o _ => ?_
        cases o with
        | none => exact settled_throw _
        | some p => exact settled_ok _
      · have hi' : identifier (ws t) = some (n, r1) := by rw [hw]; exact hi
        have hl1 := identifier_length hi
        rw [List.length_cons] at hl1
        rcases hb : builtin (F := F) n with _ | b
        · by_cases hp : ∃ r', ws r1 = '(' :: r'
          · obtain ⟨r', hp⟩ := hp
            rw [expression_call hi' hb hp]
            have h4 := ws_length r1
            have h5 := ws_length r'
            rw [hp, List.length_cons] at h4
            exact settled_bind (ihA _ _ _ (by omega)) fun _ _ => settled_ok _
          · rw [expression_name hi' hb (by
              intro c hc hcp
              subst hcp
              cases hwr : ws r1 with
              | nil => rw [hwr] at hc; simp at hc
              | cons d r' =>
                rw [hwr] at hc
                have : d = '(' := by simpa using hc
                exact hp ⟨r', by rw [hwr, this]⟩)]
            exact settled_ok _
        · rw [expression_builtin hi' hb]
          exact settled_ok _
    · intro es t hf
      cases t with
      | nil => simp only [elements]; exact settled_throw _
      | cons c r0 =>
        by_cases hc : c = ']'
        · rw [hc, elements_end]; exact settled_ok _
        · rw [elements_step hc]
          refine settled_bind (comma_settled _ _ _) fun t1 h1 => ?_
          have hl1 := comma_length h1
          refine settled_bind (ihX _ (by omega)) fun p hp => ?_
          have hl2 := expression_length (v := p.1) (r := p.2) hp
          have hl3 := ws_length p.2
          exact ihE _ _ (by omega)
    · intro es t hf
      cases t with
      | nil => simp only [entries]; exact settled_throw _
      | cons c r0 =>
        by_cases hc : c = '}'
        · rw [hc, entries_end]; exact settled_ok _
        · rw [entries_step hc]
          refine settled_bind (comma_settled _ _ _) fun t1 h1 => ?_
          have hl1 := comma_length h1
          refine settled_bind (dictionaryKey_settled _) fun q hq => ?_
          have hl4 : q.2.length ≤ t1.length := by
            obtain ⟨a, g, _, _, ht⟩ := dictionaryKey_ok (k := q.1) (r := q.2) hq
            rw [ht]; simp; omega
          refine settled_bind (ihX _ (by omega)) fun p hp => ?_
          have hl2 := expression_length (v := p.1) (r := p.2) hp
          have hl3 := ws_length p.2
          split
          · exact settled_throw _
          · exact ihD _ _ (by omega)
    · intro ps ks t hf
      cases t with
      | nil => simp only [arguments]; exact settled_throw _
      | cons c r0 =>
        by_cases hc : c = ')'
        · rw [hc, arguments_end]; exact settled_ok _
        · rw [arguments_step hc]
          refine settled_bind (comma_settled _ _ _) fun t1 h1 => ?_
          have hl1 := comma_length h1
          rcases hkw : keywordName t1 with _ | ⟨name, t2⟩
          · refine settled_bind (ihX _ (by omega)) fun p hp => ?_
            have hl2 := expression_length (v := p.1) (r := p.2) hp
            have hl3 := ws_length p.2
            split
            · exact ihA _ _ _ (by omega)
            · exact settled_throw _
          · have hl4 : t2.length ≤ t1.length := by
              obtain ⟨_, g, r', _, rfl, rfl⟩ := keywordName_some hkw
              have := ws_length r'
              simp; omega
            refine settled_bind (ihX _ (by omega)) fun p hp => ?_
            have hl2 := expression_length (v := p.1) (r := p.2) hp
            have hl3 := ws_length p.2
            split
            · exact settled_throw _
            · exact ihA _ _ _ (by omega)

end Rampack.Pyon
