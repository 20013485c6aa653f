import Verif.Utils.ConfigSpec
import Verif.Utils.StringsProps
/-
Lemmas about configurations.
-/
namespace Rampack

open Spec Utils

theorem lookup_assign (k k' v : Text) : ∀ m, lookup k (assign k' v m) = if k = k' then some v else lookup k m
  | [] => by
    unfold assign lookup
    by_cases h : k = k'
    · simp [h]
    · simp [h, Ne.symm h]
  | e :: m => by
    have ih := lookup_assign k k' v m
    unfold lookup at ih
    unfold assign lookup
    by_cases h1 : e.1 = k'
    · rw [if_pos h1]
      by_cases h2 : k = k'
      · simp [h2]
      · rw [if_neg h2, List.find?_cons_of_neg (by simpa using Ne.symm h2), List.find?_cons_of_neg (by rw [h1]; simpa using Ne.symm h2)]
    · rw [if_neg h1]
      by_cases h3 : e.1 = k
      · rw [List.find?_cons_of_pos (by simpa using h3), List.find?_cons_of_pos (by simpa using h3), if_neg (by rw [← h3]; exact h1)]
      · rw [List.find?_cons_of_neg (by simpa using h3), List.find?_cons_of_neg (by simpa using h3), ih]

theorem getlines_ok : ∀ (n : Nat) (text : Text), text.length ≤ n → IsLines text (getlines '\n' text)
  | n, text, hn => by
    by_cases h : text = []
    · rw [h, getlines, dif_pos rfl]
      exact ⟨by simp, Or.inl rfl⟩
    · rcases break_at '\n' text with hd | ⟨a, b, hd, rfl⟩
      · rw [getlines, dif_neg h, takeWhile_ne hd, List.dropWhile_eq_nil_iff.mpr, List.drop_nil, getlines, dif_pos rfl]
        · exact ⟨by simpa using hd, Or.inr ⟨by simp, by simpa using h⟩⟩
        · intro c hc
          simpa using fun e : c = '\n' => hd (e ▸ hc)
      · cases n with
        | zero => simp at hn
        | succ n =>
          have ih := getlines_ok n b (by simp at hn; omega)
          rw [getlines, dif_neg h, (take_drop hd b).1, (take_drop hd b).2, List.drop_one, List.tail_cons]
          refine ⟨?_, ?_⟩
          · intro l hl
            rcases List.mem_cons.mp hl with rfl | hl
            · exact hd
            · exact ih.1 l hl
          · rcases ih.2 with e | ⟨e, e'⟩
            · left
              rw [List.flatMap_cons, e]
              simp
            · right
              refine ⟨by rw [List.flatMap_cons, e]; simp, ?_⟩
              cases hg : getlines '\n' b with
              | nil => rw [hg] at e; simp at e
              | cons x l => rw [List.getLast?_cons_cons, ← hg]; exact e'

theorem append_break {x y a b : Text} (hx : '\n' ∉ x) (hy : '\n' ∉ y) (e : x ++ '\n' :: a = y ++ '\n' :: b) : x = y ∧ a = b := by
  rcases List.append_eq_append_iff.mp e with ⟨z, hz1, hz2⟩ | ⟨z, hz1, hz2⟩
  · cases z with
    | nil => simp at hz1 hz2; exact ⟨hz1.symm, hz2⟩
    | cons c z =>
      obtain ⟨rfl, -⟩ := List.cons.inj hz2
      exact absurd (by rw [hz1]; simp) hy
  · cases z with
    | nil => simp at hz1 hz2; exact ⟨hz1, hz2.symm⟩
    | cons c z =>
      obtain ⟨rfl, -⟩ := List.cons.inj hz2
      exact absurd (by rw [hz1]; simp) hx

theorem flat_inj : ∀ {l m : List Text}, (∀ x ∈ l, '\n' ∉ x) → (∀ x ∈ m, '\n' ∉ x) → l.flatMap (· ++ ['\n']) = m.flatMap (· ++ ['\n']) → l = m
  | [], [], _, _, _ => rfl
  | [], y :: m, _, _, e => by simp at e
  | x :: l, [], _, _, e => by simp at e
  | x :: l, y :: m, hl, hm, e => by
    rw [List.flatMap_cons, List.flatMap_cons, List.append_assoc, List.append_assoc, List.singleton_append, List.singleton_append] at e
    obtain ⟨rfl, e'⟩ := append_break (hl x (by simp)) (hm y (by simp)) e
    rw [flat_inj (fun z hz => hl z (by simp [hz])) (fun z hz => hm z (by simp [hz])) e']

theorem flat_ends {l : List Text} {t : Text} (e : l.flatMap (· ++ ['\n']) = t) (h : t ≠ []) : t.getLast? = some '\n' := by
  cases l using List.reverseRecOn with
  | nil => exact absurd e.symm h
  | append_singleton l x => rw [← e]; simp

theorem lines_unique {text : Text} {l m : List Text} (hl : IsLines text l) (hm : IsLines text m) : l = m := by
  obtain ⟨l1, l2⟩ := hl
  obtain ⟨m1, m2⟩ := hm
  have key : ∀ {l m : List Text}, (∀ x ∈ l, '\n' ∉ x) → (∀ x ∈ m, '\n' ∉ x) → l.flatMap (· ++ ['\n']) = text → m.flatMap (· ++ ['\n']) = text ++ ['\n'] → m.getLast? ≠ some [] → False := by
    intro l m hl hm e1 e2 hlast
    have : (l ++ [[]]).flatMap (· ++ ['\n']) = m.flatMap (· ++ ['\n']) := by
      rw [List.flatMap_append, e1, e2]
      simp
    have := flat_inj (l := l ++ [[]]) (fun x hx => by
      rcases List.mem_append.mp hx with hx | hx
      · exact hl x hx
      · simp at hx
        simp [hx]) hm this
    rw [← this] at hlast
    simp at hlast
  rcases l2 with e1 | ⟨e1, e1'⟩ <;> rcases m2 with e2 | ⟨e2, e2'⟩
  · exact flat_inj l1 m1 (by rw [e1, e2])
  · exact (key l1 m1 e1 e2 e2').elim
  · exact (key m1 l1 e2 e1 e1').elim
  · exact flat_inj l1 m1 (by rw [e1, e2])

theorem trimmed_iff (p q : Text) : Trimmed p q ↔ trim p = q := (C50_trim p q).symm

theorem content_iff (l c : Text) : ContentOf l c ↔ trim (Config.stripComment l) = c := by
  constructor
  · rintro ⟨body, comment, rfl, h1, h2, h3⟩
    rw [trimmed_iff] at h3
    rw [← h3]
    congr 1
    unfold Config.stripComment
    rw [List.takeWhile_append_of_pos fun x hx => by simpa using h1 x hx]
    cases comment with
    | nil => simp
    | cons x t =>
      have := h2 x (by simp)
      rw [List.takeWhile_cons_of_neg (by rcases this with rfl | rfl <;> decide)]
      simp
  · rintro rfl
    refine ⟨Config.stripComment l, l.dropWhile fun c => !(c == ';' || c == '#'), (List.takeWhile_append_dropWhile).symm, ?_, ?_, (trimmed_iff _ _).mpr rfl⟩
    · intro x hx
      have := List.mem_takeWhile_imp hx
      simpa using this
    · intro x hx
      have := List.head?_dropWhile_not (fun c => !(c == ';' || c == '#')) l
      rw [Option.mem_def.mp hx] at this
      by_cases h : x = ';'
      · exact Or.inl h
      · simp [h] at this
        exact Or.inr this

namespace Config

/-- All entries, one after another. -/
def runEntries (delim : Char) (allow : Bool) (P : Parsed) (es : List Text) : Outcome Parsed := es.foldlM (entry delim allow) P

/-- The entry which has been begun, put before the next one. -/
def pend (line : Text) (cont : Bool) (es : List Text) : Option (List Text) :=
  if cont then match es with
    | [] => none
    | e :: es => some ((line ++ '\n' :: e) :: es)
  else some es

theorem parseLoop_iff {delim : Char} {allow : Bool} : ∀ {ls : List Text} {line : Text} {cont : Bool} {P P' : Parsed},
    parseLoop delim allow line cont P ls = .ok P' ↔ ∃ es es', Entries ls es ∧ pend line cont es = some es' ∧ runEntries delim allow P es' = .ok P'
  | [], line, cont, P, P' => by
    rw [parseLoop]
    cases cont with
    | false =>
      simp only [Bool.false_eq_true, if_false]
      constructor
      · intro h
        exact ⟨[], [], .nil, rfl, h⟩
      · rintro ⟨es, es', h1, h2, h3⟩
        cases h1
        simp only [pend, Bool.false_eq_true, if_false, Option.some.injEq] at h2
        subst h2
        exact h3
    | true =>
      simp only [if_true]
      constructor
      · intro h; cases h
      · rintro ⟨es, es', h1, h2, h3⟩
        cases h1
        cases h2
  | l :: ls, line, cont, P, P' => by
    rw [parseLoop]
    obtain ⟨c, hc⟩ : ∃ c, c = trim (stripComment l) := ⟨_, rfl⟩
    have hcon : ContentOf l c := (content_iff l c).mpr hc.symm
    have hu : ∀ {c'}, ContentOf l c' → c' = c := fun h => by rw [hc]; exact ((content_iff _ _).mp h).symm
    rw [← hc]
    by_cases h0 : c = []
    · rw [if_pos h0, parseLoop_iff]
      constructor
      · rintro ⟨es, es', h1, h2, h3⟩
        exact ⟨es, es', .skip (h0 ▸ hcon) h1, h2, h3⟩
      · rintro ⟨es, es', h1, h2, h3⟩
        cases h1 with
        | skip hl h => exact ⟨es, es', h, h2, h3⟩
        | whole hl h0' hc' h => exact absurd ((hu hl).trans h0) h0'
        | continued hl hp h => exact absurd ((hu hl).trans h0) (by simp)
    · rw [if_neg h0]
      by_cases hb : c.getLast? = some '\\'
      · rw [if_pos hb, parseLoop_iff]
        obtain ⟨p, hp⟩ := List.getLast?_eq_some_iff.mp hb
        have htake : c.take (c.length - 1) = p := by rw [hp]; simp
        rw [htake]
        constructor
        · rintro ⟨es, es', h1, h2, h3⟩
          cases es with
          | nil => cases h2
          | cons e es =>
            simp only [pend, if_true, Option.some.injEq] at h2
            refine ⟨_, es', .continued (hp ▸ hcon) ((trimmed_iff p (trim p)).mpr rfl) h1, ?_, h3⟩
            rw [← h2]
            cases cont <;> simp [pend]
        · rintro ⟨es, es', h1, h2, h3⟩
          cases h1 with
          | skip hl h => exact absurd (hu hl).symm h0
          | whole hl h0' hc' h => exact absurd (by rw [hu hl]; exact hb) hc'
          | @continued _ p' q e _ es hl hp' h =>
            have := hu hl
            rw [hp] at this
            obtain rfl := List.append_cancel_right this
            rw [trimmed_iff] at hp'
            refine ⟨e :: es, es', h, ?_, h3⟩
            rw [← h2, ← hp']
            cases cont <;> simp [pend]
      · rw [if_neg hb]
        constructor
        · intro h
          obtain ⟨P1, h1, h2⟩ := Outcome.bind_eq_ok.mp h
          obtain ⟨es, es', k1, k2, k3⟩ := parseLoop_iff.mp h2
          simp only [pend, Bool.false_eq_true, if_false, Option.some.injEq] at k2
          subst k2
          refine ⟨c :: es, ((if cont then line ++ ['\n'] else []) ++ c) :: es, .whole hcon h0 hb k1, ?_, ?_⟩
          · cases cont <;> simp [pend]
          · unfold runEntries
            rw [List.foldlM_cons, h1, Outcome.ok_bind]
            exact k3
        · rintro ⟨es, es', h1, h2, h3⟩
          cases h1 with
          | skip hl h => exact absurd (hu hl).symm h0
          | continued hl hp h => exact absurd (by rw [← hu hl]; simp) hb
          | @whole _ c' _ es hl h0' hc' h =>
            obtain rfl := hu hl
            have h2' : es' = ((if cont then line ++ ['\n'] else []) ++ c') :: es := by
              cases cont
              · simpa [pend] using h2.symm
              · simpa [pend] using h2.symm
            subst h2'
            unfold runEntries at h3
            rw [List.foldlM_cons] at h3
            obtain ⟨P1, k1, k2⟩ := Outcome.bind_eq_ok.mp h3
            rw [k1, Outcome.ok_bind]
            exact parseLoop_iff.mpr ⟨es, es, h, rfl, k2⟩

theorem not_ub {α : Type} {x : Outcome α} (h : (∃ a, x = .ok a) ∨ ∃ m, x = .throw m) {β : Type} {f : α → Outcome β} (hf : ∀ a, (∃ b, f a = .ok b) ∨ ∃ m, f a = .throw m) :
    (∃ b, (x >>= f) = .ok b) ∨ ∃ m, (x >>= f) = .throw m := by
  rcases h with ⟨a, rfl⟩ | ⟨m, rfl⟩
  · exact hf a
  · exact Or.inr ⟨m, rfl⟩

theorem entry_total (delim : Char) (allow : Bool) (P : Parsed) (line : Text) : (∃ Q, entry delim allow P line = .ok Q) ∨ ∃ m, entry delim allow P line = .throw m := by
  unfold entry
  refine not_ub ?_ fun b => ?_
  · unfold isItSectionEntry
    split_ifs <;> simp
  · cases b with
    | true => exact Or.inl ⟨_, rfl⟩
    | false =>
      simp only [Bool.false_eq_true, if_false]
      refine not_ub ?_ fun f => not_ub ?_ fun C => Or.inl ⟨_, rfl⟩
      · unfold splitField
        cases line.findIdx? (· == delim) with
        | none => exact Or.inr ⟨_, rfl⟩
        | some pos =>
          simp only
          split_ifs <;> simp
      · unfold addField
        split_ifs <;> simp

theorem parseLoop_total {delim : Char} {allow : Bool} : ∀ {ls : List Text} {line : Text} {cont : Bool} {P : Parsed},
    (∃ Q, parseLoop delim allow line cont P ls = .ok Q) ∨ ∃ m, parseLoop delim allow line cont P ls = .throw m
  | [], line, cont, P => by
    rw [parseLoop]
    split_ifs <;> simp
  | l :: ls, line, cont, P => by
    rw [parseLoop]
    split_ifs
    all_goals first
      | exact parseLoop_total
      | exact not_ub (entry_total _ _ _ _) fun a => parseLoop_total

/-- One entry is a section or a field. -/
theorem entry_iff {delim : Char} {allow : Bool} {P Q : Parsed} {e : Text} : entry delim allow P e = .ok Q ↔
    (∃ name, e = '[' :: name ++ [']'] ∧ Q = { P with section' := name ++ ['.'] }) ∨
    ∃ k v C, e.head? ≠ some '[' ∧ e = k ++ delim :: v ∧ delim ∉ k ∧ '.' ∉ k ∧ addField allow P.config (P.section' ++ trim k, trim v) = .ok C ∧ Q = { P with config := C } := by
  unfold entry isItSectionEntry
  by_cases h1 : e.head? = some '['
  · have hno : ¬ (e.head? ≠ some '[') := fun h => h h1
    rw [if_neg hno]
    obtain ⟨t, rfl⟩ : ∃ t, e = '[' :: t := by
      cases e with
      | nil => cases h1
      | cons c t => simp at h1; exact ⟨t, by rw [h1]⟩
    by_cases h2 : ('[' :: t).getLast? = some ']'
    · rw [if_neg (fun h => h h2), Outcome.ok_bind, if_pos rfl]
      obtain ⟨x, hx⟩ := List.getLast?_eq_some_iff.mp h2
      obtain ⟨name, rfl⟩ : ∃ name, t = name ++ [']'] := by
        cases x with
        | nil => simp at hx
        | cons y x => obtain ⟨rfl, rfl⟩ := List.cons.inj hx; exact ⟨x, rfl⟩
      have hcut : (('[' :: (name ++ [']'])).drop 1).take (('[' :: (name ++ [']'])).length - 2) = name := by simp
      rw [hcut]
      constructor
      · intro h
        left
        exact ⟨name, rfl, (Outcome.ok_inj.mp h).symm⟩
      · rintro (⟨name', h, rfl⟩ | ⟨k, v, C, h, -⟩)
        · have : name = name' := List.append_cancel_right ((List.cons.inj h).2)
          rw [this]
          rfl
        · exact absurd h1 h
    · rw [if_pos h2]
      constructor
      · intro h; cases h
      · rintro (⟨name', h, -⟩ | ⟨k, v, C, h, -⟩)
        · rw [h] at h2; exact absurd (by rw [List.getLast?_append]; rfl) h2
        · exact absurd h1 h
  · rw [if_pos h1, Outcome.ok_bind, if_neg (by simp)]
    unfold splitField
    have key : ∀ {k v : Text}, e = k ++ delim :: v → delim ∉ k → e.findIdx? (· == delim) = some k.length ∧ e.take k.length = k ∧
        trim (if k.length = e.length - 1 then [] else e.drop (k.length + 1)) = trim v := by
      rintro k v rfl hk
      refine ⟨?_, by simp, ?_⟩
      · rw [List.findIdx?_append, List.findIdx?_eq_none_iff.mpr]
        · simp [List.findIdx?_cons]
        · intro x hx
          simpa using fun e : x = delim => hk (e ▸ hx)
      · split_ifs with hv
        · rw [List.length_append, List.length_cons] at hv
          rw [show v = [] from List.length_eq_zero_iff.mp (by omega)]
        · rw [← List.drop_drop]
          simp
    rcases break_at delim e with hd | ⟨k, v, hd, he⟩
    · rw [List.findIdx?_eq_none_iff.mpr (by intro x hx; simpa using fun e : x = delim => hd (e ▸ hx))]
      constructor
      · intro h; cases h
      · rintro (⟨name', h, -⟩ | ⟨k, v, C, -, rfl, -⟩)
        · rw [h] at h1; simp at h1
        · simp at hd
    · obtain ⟨k1, k2, k3⟩ := key he hd
      rw [k1]
      simp only
      rw [k2, k3]
      have huniq : ∀ {k' v' : Text}, e = k' ++ delim :: v' → delim ∉ k' → k' = k ∧ v' = v := by
        intro k' v' he' hd'
        obtain ⟨k1', k2', -⟩ := key he' hd'
        rw [k1] at k1'
        have hlen : k.length = k'.length := by simpa using k1'
        rw [he] at he'
        obtain ⟨h1, h2⟩ := List.append_inj he' hlen
        exact ⟨h1.symm, (List.cons.inj h2).2.symm⟩
      by_cases hp : '.' ∈ k
      · rw [if_pos hp]
        constructor
        · intro h; cases h
        · rintro (⟨name', h, -⟩ | ⟨k', v', C, -, h, h2, h3, -⟩)
          · rw [h] at h1; simp at h1
          · obtain ⟨rfl, rfl⟩ := huniq h h2
            exact absurd hp h3
      · rw [if_neg hp, Outcome.ok_bind]
        constructor
        · intro h
          obtain ⟨C, h2, h3⟩ := Outcome.bind_eq_ok.mp h
          exact Or.inr ⟨k, v, C, h1, he, hd, hp, h2, (Outcome.ok_inj.mp h3).symm⟩
        · rintro (⟨name', h, -⟩ | ⟨k', v', C, -, h, h2, h3, h4, rfl⟩)
          · rw [h] at h1; simp at h1
          · obtain ⟨rfl, rfl⟩ := huniq h h2
            rw [h4]
            rfl

/-- Adding all fields. -/
def addAll (allow : Bool) (C : Config) (fs : List (Text × Text)) : Outcome Config := fs.foldlM (addField allow) C

theorem runEntries_iff {delim : Char} {allow : Bool} : ∀ {es : List Text} {P : Parsed} {C : Config}, (∃ Q, runEntries delim allow P es = .ok Q ∧ Q.config = C) ↔
    ∃ fs, Fields delim P.section' es fs ∧ addAll allow P.config fs = .ok C
  | [], P, C => by
    constructor
    · rintro ⟨Q, h, rfl⟩
      obtain rfl := Outcome.ok_inj.mp h
      exact ⟨[], .nil, rfl⟩
    · rintro ⟨fs, h1, h2⟩
      cases h1
      exact ⟨P, rfl, Outcome.ok_inj.mp h2⟩
  | e :: es, P, C => by
    unfold runEntries
    rw [List.foldlM_cons]
    constructor
    · rintro ⟨Q, h, hC⟩
      obtain ⟨P1, h1, h2⟩ := Outcome.bind_eq_ok.mp h
      obtain ⟨fs, k1, k2⟩ := runEntries_iff.mp ⟨Q, h2, hC⟩
      rcases entry_iff.mp h1 with ⟨name, rfl, rfl⟩ | ⟨k, v, C1, a1, rfl, a2, a3, a4, rfl⟩
      · exact ⟨fs, .section' k1, k2⟩
      · refine ⟨_, .field a1 a2 a3 ((trimmed_iff _ _).mpr rfl) ((trimmed_iff _ _).mpr rfl) k1, ?_⟩
        unfold addAll
        rw [List.foldlM_cons, a4, Outcome.ok_bind]
        exact k2
    · rintro ⟨fs, h1, h2⟩
      cases h1 with
      | @section' _ name _ _ h =>
        obtain ⟨Q, q1, q2⟩ := (runEntries_iff (P := { P with section' := name ++ ['.'] })).mpr ⟨fs, h, h2⟩
        refine ⟨Q, ?_, q2⟩
        rw [entry_iff.mpr (Or.inl ⟨name, rfl, rfl⟩), Outcome.ok_bind]
        exact q1
      | @field _ k v k' v' _ fs hb hd hp hk hv h =>
        rw [trimmed_iff] at hk hv
        subst hk hv
        unfold addAll at h2
        rw [List.foldlM_cons] at h2
        obtain ⟨C1, h3, h4⟩ := Outcome.bind_eq_ok.mp h2
        obtain ⟨Q, q1, q2⟩ := (runEntries_iff (P := { P with config := C1 })).mpr ⟨fs, h, h4⟩
        refine ⟨Q, ?_, q2⟩
        rw [entry_iff.mpr (Or.inr ⟨k, v, C1, hb, rfl, hd, hp, h3, rfl⟩), Outcome.ok_bind]
        exact q1

theorem firsts_mem {k : Text} : ∀ {l : List Text}, k ∈ firsts l ↔ k ∈ l
  | [] => Iff.rfl
  | x :: l => by
    rw [firsts, List.mem_cons, List.mem_cons, List.mem_filter, firsts_mem (l := l)]
    by_cases h : k = x <;> simp [h]

theorem firsts_nodup : ∀ (l : List Text), (firsts l).Nodup
  | [] => List.nodup_nil
  | x :: l => by
    rw [firsts, List.nodup_cons]
    exact ⟨by simp, (firsts_nodup l).filter _⟩

theorem firsts_snoc (k : Text) : ∀ (l : List Text), firsts (l ++ [k]) = if k ∈ l then firsts l else firsts l ++ [k]
  | [] => rfl
  | x :: l => by
    rw [List.cons_append, firsts, firsts_snoc k l, firsts]
    by_cases hx : k = x
    · subst hx
      rw [if_pos (List.mem_cons_self)]
      by_cases hl : k ∈ l
      · rw [if_pos hl]
      · rw [if_neg hl, List.filter_append]
        simp
    · by_cases hl : k ∈ l
      · rw [if_pos hl, if_pos (by simp [hl])]
      · rw [if_neg hl, if_neg (by simp [hl, hx]), List.filter_append, List.filter_cons_of_pos (by simpa using hx)]
        rfl

/-- A configuration with the given fields. -/
structure Has (C : Config) (fs : List (Text × Text)) : Prop where
  keys : C.keys = firsts (fs.map Prod.fst)
  vals : ∀ k, lookup k C.fieldMap = lastValue fs k

theorem lastValue_snoc (fs : List (Text × Text)) (f : Text × Text) (k : Text) : lastValue (fs ++ [f]) k = if k = f.1 then some f.2 else lastValue fs k := by
  unfold lastValue
  rw [List.filter_append]
  by_cases h : k = f.1
  · subst h
    simp
  · rw [List.filter_cons_of_neg (by simpa using Ne.symm h), if_neg h]
    simp

theorem addAll_iff {allow : Bool} : ∀ {fs : List (Text × Text)} {C : Config} {done : List (Text × Text)}, Has C done → (allow = false → (done.map Prod.fst).Nodup) →
    ((∃ C', addAll allow C fs = .ok C') ↔ (allow = true ∨ ((done ++ fs).map Prod.fst).Nodup)) ∧ ∀ C', addAll allow C fs = .ok C' → Has C' (done ++ fs)
  | [], C, done, hC, hn => by
    constructor
    · constructor
      · intro _
        cases allow with
        | true => exact Or.inl rfl
        | false => right; rw [List.append_nil]; exact hn rfl
      · intro _; exact ⟨C, rfl⟩
    · intro C' h
      obtain rfl := Outcome.ok_inj.mp h
      rw [List.append_nil]
      exact hC
  | f :: fs, C, done, hC, hn => by
    have hhas : C.hasField f.1 = decide (f.1 ∈ done.map Prod.fst) := by
      unfold hasField
      rw [hC.keys]
      exact decide_eq_decide.mpr firsts_mem
    unfold addAll
    rw [List.foldlM_cons]
    unfold addField
    rw [hhas]
    by_cases hbad : f.1 ∈ done.map Prod.fst ∧ allow = false
    · obtain ⟨hm, rfl⟩ := hbad
      rw [if_pos (by simpa using hm)]
      constructor
      · constructor
        · rintro ⟨C', h⟩; cases h
        · rintro (h | h)
          · cases h
          · exfalso
            rw [List.map_append, List.nodup_append] at h
            exact h.2.2 f.1 hm f.1 (by simp) rfl
      · intro C' h; cases h
    · have hcond : ¬ ((decide (f.1 ∈ done.map Prod.fst) && !allow) = true) := by
        simp only [Bool.and_eq_true, decide_eq_true_eq, Bool.not_eq_true']
        exact hbad
      rw [if_neg hcond, Outcome.ok_bind]
      have h1 : Has { C with fieldMap := assign f.1 f.2 C.fieldMap, keys := if decide (f.1 ∈ done.map Prod.fst) = true then C.keys else C.keys ++ [f.1] } (done ++ [f]) := by
        constructor
        · simp only
          rw [List.map_append, List.map_singleton, firsts_snoc, hC.keys]
          by_cases hf : f.1 ∈ done.map Prod.fst
          · rw [if_pos hf, if_pos (decide_eq_true hf)]
          · rw [if_neg hf, if_neg (by rw [decide_eq_false hf]; exact Bool.false_ne_true)]
        · intro k
          simp only
          rw [lookup_assign, lastValue_snoc, hC.vals]
      have := addAll_iff (allow := allow) (fs := fs) h1 (by
        intro ha
        rw [List.map_append, List.nodup_append]
        refine ⟨hn ha, by simp, ?_⟩
        intro a ha' b hb
        simp at hb
        rintro rfl
        exact hbad ⟨hb ▸ ha', ha⟩)
      rw [List.append_assoc, List.singleton_append] at this
      exact this

theorem parse_iff {text : Text} {delim : Char} {allow : Bool} {ls : List Text} (hl : IsLines text ls) (hd : delim ≠ '#' ∧ delim ≠ ';') :
    ((∃ C, parse text delim allow = .ok C) ↔ ∃ es fs, Entries ls es ∧ Fields delim [] es fs ∧ (allow = true ∨ (fs.map Prod.fst).Nodup)) ∧
    ((∃ C, parse text delim allow = .ok C) ∨ ∃ m, parse text delim allow = .throw m) ∧
    ∀ C, parse text delim allow = .ok C → ∃ es fs C0, Entries ls es ∧ Fields delim [] es fs ∧ Has C0 fs ∧ C = C0.build := by
  have hg : getlines '\n' text = ls := lines_unique (getlines_ok _ text (le_refl _)) hl
  have h0 : Has {} [] := ⟨rfl, fun _ => rfl⟩
  unfold parse
  rw [decide_eq_true hd, Outcome.require_true, Outcome.ok_bind, hg]
  refine ⟨?_, ?_, ?_⟩
  · constructor
    · rintro ⟨C, h⟩
      obtain ⟨P, h1, h2⟩ := Outcome.bind_eq_ok.mp h
      obtain ⟨es, es', k1, k2, k3⟩ := parseLoop_iff.mp h1
      simp only [pend, Bool.false_eq_true, if_false, Option.some.injEq] at k2
      subst k2
      obtain ⟨fs, m1, m2⟩ := runEntries_iff.mp ⟨P, k3, rfl⟩
      exact ⟨es, fs, k1, m1, by simpa using (addAll_iff h0 (by simp)).1.mp ⟨_, m2⟩⟩
    · rintro ⟨es, fs, k1, m1, m2⟩
      obtain ⟨C', hC'⟩ := (addAll_iff (fs := fs) h0 (by simp)).1.mpr (by simpa using m2)
      obtain ⟨Q, q1, q2⟩ := runEntries_iff.mpr ⟨fs, (show Fields delim (Parsed.mk [] {}).section' es fs from m1), hC'⟩
      rw [parseLoop_iff.mpr ⟨es, es, k1, rfl, q1⟩]
      exact ⟨_, rfl⟩
  · exact not_ub parseLoop_total fun a => Or.inl ⟨_, rfl⟩
  · intro C h
    obtain ⟨P, h1, h2⟩ := Outcome.bind_eq_ok.mp h
    obtain ⟨es, es', k1, k2, k3⟩ := parseLoop_iff.mp h1
    simp only [pend, Bool.false_eq_true, if_false, Option.some.injEq] at k2
    subst k2
    obtain ⟨fs, m1, m2⟩ := runEntries_iff.mp ⟨P, k3, rfl⟩
    have := (addAll_iff h0 (by simp)).2 _ m2
    rw [List.nil_append] at this
    exact ⟨es, fs, P.config, k1, m1, this, (Outcome.ok_inj.mp h2).symm⟩

end Config

end Rampack
