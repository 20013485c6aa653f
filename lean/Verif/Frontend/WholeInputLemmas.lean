import Verif.Frontend.WholeInput
import Verif.Pyon.MatcherProps
/-
A matcher whose type of values has been changed makes what the original one makes.
-/
namespace Rampack.WholeInput

open Pyon Pyon.Spec Rampack.Input

theorem mapResult_bind {α β γ δ : Type} (k : α → β) (q : γ → δ) (x : Result α) (u : α → Result γ) (u' : β → Result δ) (h : ∀ a, u' (k a) = mapResult q (u a)) :
    (mapResult k x >>= u') = mapResult q (x >>= u) := by
  cases x with
  | matched a => exact h a
  | unmatched r => rfl
  | thrown m => rfl

theorem mapResult_inside {α β : Type} (k : α → β) (q : Report → Report) (x : Result α) : (mapResult k x).inside q = mapResult k (x.inside q) := by
  cases x <;> rfl

theorem checkFilters_map {α β : Type} (k : β → α) (fs : List (α → Except String Bool)) (b : β) : checkFilters (fs.map fun p d => p (k d)) b = checkFilters fs (k b) := by
  induction fs with
  | nil => rfl
  | cons p fs ih =>
    simp only [List.map_cons, checkFilters]
    rw [ih]

section

variable {F V W : Type} {f : Any F V → Any F W} {g : Any F W → Any F V} {h : Any F V → Any F W} (hgf : ∀ a, g (f a) = a) (hf : ∀ n, f (.node n) = .node n)

include hf in
theorem convert_map (a : Argument F V) (n : Node F) :
    Argument.convert (⟨a.name, a.matcher.map (retype f), a.default.map f⟩ : Argument F W) n = mapResult f (a.convert n) := by
  unfold Argument.convert
  cases a.matcher with
  | none => simp [mapResult, hf]
  | some m => exact mapResult_inside _ _ _

include hf in
theorem byName_map (a : Argument F V) (ks : List (Text × Node F)) :
    Argument.byName (⟨a.name, a.matcher.map (retype f), a.default.map f⟩ : Argument F W) ks = mapResult f (a.byName ks) := by
  unfold Argument.byName
  cases find a.name ks with
  | some n => exact convert_map hf a n
  | none => cases a.default <;> rfl

include hf in
theorem bindArguments_map (ks : List (Text × Node F)) (as : List (Argument F V)) (ns : List (Node F)) :
    bindArguments ks (as.map fun a => (⟨a.name, a.matcher.map (retype f), a.default.map f⟩ : Argument F W)) ns =
      mapResult (List.map fun e => (e.1, f e.2)) (bindArguments ks as ns) := by
  induction as generalizing ns with
  | nil => cases ns <;> rfl
  | cons a as ih =>
    cases ns with
    | nil =>
      simp only [List.map_cons, bindArguments]
      rw [byName_map hf, ih]
      exact mapResult_bind _ _ _ _ _ fun v => mapResult_bind _ _ _ _ _ fun vs => rfl
    | cons n ns =>
      simp only [List.map_cons, bindArguments]
      rw [convert_map hf, ih]
      exact mapResult_bind _ _ _ _ _ fun v => mapResult_bind _ _ _ _ _ fun vs => rfl

theorem standardArguments_map (vs : List (Text × Any F V)) :
    standardArguments (vs.map fun e => (e.1, f e.2)) = mapResult (List.map fun e => (e.1, f e.2)) (standardArguments vs) := by
  unfold standardArguments
  rw [List.map_map]
  change (if (vs.map Prod.fst).Nodup then _ else _) = _
  split <;> rfl

theorem validate_map (c : ClassMatcher F V) (ps : List (Node F)) (ks : List (Text × Node F)) : (retypeClass f g h c).validate ps ks = c.validate ps ks := by
  have h1 : (retypeClass f g h c).excessive ps = c.excessive ps := by simp [ClassMatcher.excessive, retypeClass]
  have h2 : (retypeClass f g h c).missing ps ks = c.missing ps ks := by
    simp only [ClassMatcher.missing, retypeClass, ← List.map_drop, List.filter_map, List.map_map]
    congr 1
    · congr 1
      funext a
      cases hd : a.default <;> simp [hd]
  have h3 : (retypeClass f g h c).redefined ps ks = c.redefined ps ks := by
    simp only [ClassMatcher.redefined, retypeClass, ← List.map_take, List.find?_map, Option.map_map]
    rfl
  have h4 : (retypeClass f g h c).unknown ks = c.unknown ks := by
    have : ∀ k, (retypeClass f g h c).isStandard k = c.isStandard k := by
      intro k
      simp only [ClassMatcher.isStandard, retypeClass, List.any_map]
      rfl
    simp only [ClassMatcher.unknown, this]
    simp [retypeClass]
  unfold ClassMatcher.validate
  rw [h1, h2, h3, h4]

include hf in
theorem matchStandard_map (c : ClassMatcher F V) (ps : List (Node F)) (ks : List (Text × Node F)) :
    (retypeClass f g h c).matchStandard ps ks = mapResult (List.map fun e => (e.1, f e.2)) (c.matchStandard ps ks) := by
  unfold ClassMatcher.matchStandard
  rw [validate_map]
  cases c.validate ps ks with
  | some r => rfl
  | none =>
    have e := bindArguments_map hf ks c.arguments ps
    simp only
    rw [show (retypeClass f g h c).arguments = c.arguments.map fun a => ⟨a.name, a.matcher.map (retype f), a.default.map f⟩ from rfl, e]
    exact mapResult_bind _ _ _ _ _ fun vs => standardArguments_map vs

theorem elements_map (m : Matcher F V) (i : Nat) (ns : List (Node F)) : matchElements (retype f m) i ns = mapResult (List.map f) (matchElements m i ns) := by
  induction ns generalizing i with
  | nil => rfl
  | cons n ns ih =>
    simp only [matchElements]
    rw [ih, show (retype f m).run n = mapResult f (m.run n) from rfl, mapResult_inside]
    exact mapResult_bind _ _ _ _ _ fun v => mapResult_bind _ _ _ _ _ fun vs => rfl

/-- Filters of variadic arguments and their conversion, which only keeps them. -/
theorem array_map (hgf : ∀ a, g (f a) = a) (fs : List (List (Any F V) → Except String Bool)) (as : List (Any F V)) :
    (finish (fs.map fun p l => p (l.map g)) (fun as => .ok (Any.array as)) (as.map f) : Result (Any F W)).inside .variadic >>= Any.asArray =
      mapResult (List.map f) ((finish fs (fun as => .ok (Any.array as)) as).inside .variadic >>= Any.asArray) := by
  unfold finish
  rw [checkFilters_map, List.map_map, show g ∘ f = id from funext hgf, List.map_id]
  cases checkFilters fs as <;> rfl

theorem dictionary_map (hgf : ∀ a, g (f a) = a) (fs : List (List (Text × Any F V) → Except String Bool)) (as : List (Text × Any F V)) :
    (finish (fs.map fun p l => p (l.map fun e => (e.1, g e.2))) (fun as => .ok (Any.dictionary as)) (as.map fun e => (e.1, f e.2)) : Result (Any F W)).inside .keyword >>= Any.asDictionary =
      mapResult (List.map fun e => (e.1, f e.2)) ((finish fs (fun as => .ok (Any.dictionary as)) as).inside .keyword >>= Any.asDictionary) := by
  unfold finish
  rw [checkFilters_map, List.map_map, show (fun e : Text × Any F W => (e.1, g e.2)) ∘ (fun e : Text × Any F V => (e.1, f e.2)) = id from funext fun e => by simp [hgf], List.map_id]
  cases checkFilters fs as <;> rfl

include hf in
theorem arrayElements_map (m : ArrayMatcher F V) (ns : List (Node F)) : (retypeVariadic f g m).elements ns = mapResult (List.map f) (m.elements ns) := by
  unfold ArrayMatcher.elements
  cases hm : m.element with
  | none => simp [retypeVariadic, hm, mapResult, hf]
  | some e => simp only [retypeVariadic, hm, Option.map_some]; exact elements_map e 0 ns

include hf in
theorem matchKey_map (k : Text) (n : Node F) (o : Option (Matcher F V)) (ms : List ((Text → Bool) × Matcher F V)) :
    matchKey k n (o.map (retype f)) (ms.map fun p => (p.1, retype f p.2)) = mapResult f (matchKey k n o ms) := by
  induction ms with
  | nil =>
    cases o with
    | none => simp [matchKey, mapResult, hf]
    | some m => exact mapResult_inside _ _ _
  | cons p ms ih =>
    simp only [List.map_cons, matchKey]
    rw [ih]
    split
    · exact mapResult_inside _ _ _
    · rfl

include hf in
theorem matchEntries_map (m : DictionaryMatcher F V) (es : List (Text × Node F)) :
    matchEntries (retypeKeyword f g m) es = mapResult (List.map fun e => (e.1, f e.2)) (matchEntries m es) := by
  induction es with
  | nil => rfl
  | cons e es ih =>
    simp only [matchEntries]
    rw [ih, show matchKey e.1 e.2 (retypeKeyword f g m).values (retypeKeyword f g m).keys = _ from matchKey_map hf e.1 e.2 m.values m.keys]
    exact mapResult_bind _ _ _ _ _ fun v => mapResult_bind _ _ _ _ _ fun vs => rfl

/-- Variadic arguments as they are gathered by a matcher whose conversion is reset. -/
theorem variadic_run (m : ArrayMatcher F V) (hm : m.mapping = fun as => .ok (.array as)) (ns : List (Node F)) :
    ((m.run (.array ns)).inside .variadic >>= Any.asArray) =
      ((m.elements ns).inside .variadic >>= fun as => (finish m.filters (fun as => .ok (Any.array as)) as).inside .variadic >>= Any.asArray) := by
  rw [ArrayMatcher.run, hm]
  cases m.elements ns <;> rfl

theorem keyword_run (m : DictionaryMatcher F V) (hm : m.mapping = fun as => .ok (.dictionary as)) (es : List (Text × Node F)) :
    ((m.run (.dictionary es)).inside .keyword >>= Any.asDictionary) =
      ((matchEntries m (toMap es)).inside .keyword >>= fun as => (finish m.filters (fun as => .ok (Any.dictionary as)) as).inside .keyword >>= Any.asDictionary) := by
  rw [DictionaryMatcher.run, hm]
  cases matchEntries m (toMap es) <;> rfl

theorem variadicMatcher_map (c : ClassMatcher F V) : (retypeClass f g h c).variadicMatcher = retypeVariadic f g c.variadicMatcher := by
  unfold ClassMatcher.variadicMatcher
  cases hv : c.variadic with
  | none => simp [retypeClass, retypeVariadic, hv]
  | some m => simp [retypeClass, retypeVariadic, hv]

theorem keywordMatcher_map (c : ClassMatcher F V) : (retypeClass f g h c).keywordMatcher = retypeKeyword f g c.keywordMatcher := by
  unfold ClassMatcher.keywordMatcher
  cases hv : c.keyword with
  | none => simp [retypeClass, retypeKeyword, hv]
  | some m => simp [retypeClass, retypeKeyword, hv]

theorem variadicMatcher_mapping (c : ClassMatcher F V) : c.variadicMatcher.mapping = fun as => .ok (.array as) := by
  unfold ClassMatcher.variadicMatcher
  cases c.variadic <;> rfl

theorem keywordMatcher_mapping (c : ClassMatcher F V) : c.keywordMatcher.mapping = fun as => .ok (.dictionary as) := by
  unfold ClassMatcher.keywordMatcher
  cases c.keyword <;> rfl

include hgf hf in
theorem matchVariadic_map (c : ClassMatcher F V) (ps : List (Node F)) : (retypeClass f g h c).matchVariadic ps = mapResult (List.map f) (c.matchVariadic ps) := by
  unfold ClassMatcher.matchVariadic
  rw [variadic_run _ (variadicMatcher_mapping _), variadic_run _ (variadicMatcher_mapping _), variadicMatcher_map, arrayElements_map hf,
    show (retypeClass f g h c).arguments.length = c.arguments.length from List.length_map _, mapResult_inside]
  exact mapResult_bind _ _ _ _ _ fun as => array_map hgf _ as

include hgf hf in
theorem matchKeyword_map (c : ClassMatcher F V) (ks : List (Text × Node F)) :
    (retypeClass f g h c).matchKeyword ks = mapResult (List.map fun e => (e.1, f e.2)) (c.matchKeyword ks) := by
  unfold ClassMatcher.matchKeyword
  have hs : ∀ k, (retypeClass f g h c).isStandard k = c.isStandard k := by
    intro k
    simp only [ClassMatcher.isStandard, retypeClass, List.any_map]
    rfl
  simp only [hs]
  rw [keyword_run _ (keywordMatcher_mapping _), keyword_run _ (keywordMatcher_mapping _), keywordMatcher_map, matchEntries_map hf, mapResult_inside]
  exact mapResult_bind _ _ _ _ _ fun as => dictionary_map hgf _ as

include hgf in
theorem finish_map (c : ClassMatcher F V) (s : List (Text × Any F V)) (v : List (Any F V)) (k : List (Text × Any F V)) :
    finish (retypeClass f g h c).filters (retypeClass f g h c).mapping ⟨s.map fun e => (e.1, f e.2), v.map f, k.map fun e => (e.1, f e.2)⟩ =
      mapResult h (finish c.filters c.mapping ⟨s, v, k⟩) := by
  have e1 : (fun e : Text × Any F W => (e.1, g e.2)) ∘ (fun e : Text × Any F V => (e.1, f e.2)) = id := funext fun e => by simp [hgf]
  have e2 : retypeData g (⟨s.map fun e => (e.1, f e.2), v.map f, k.map fun e => (e.1, f e.2)⟩ : ClassData F W) = ⟨s, v, k⟩ := by
    simp only [retypeData, List.map_map, e1, show g ∘ f = id from funext hgf, List.map_id]
  unfold finish
  simp only [retypeClass, checkFilters_map, e2]
  cases checkFilters c.filters (⟨s, v, k⟩ : ClassData F V) with
  | matched u => cases hm : c.mapping ⟨s, v, k⟩ <;> simp [hm, Except.map, converted, mapResult, bind, Result.bind]
  | unmatched r => rfl
  | thrown m => rfl

include hgf hf in
/-- A class with another type of values makes the same. -/
theorem retypeClass_run (c : ClassMatcher F V) (n : Node F) : (retypeClass f g h c).run n = mapResult h (c.run n) := by
  cases n with
  | dataclass name ps ks =>
    rw [ClassMatcher.run, ClassMatcher.run, show (retypeClass f g h c).name = c.name from rfl]
    split
    · rfl
    · rw [matchStandard_map hf, matchVariadic_map hgf hf, matchKeyword_map hgf hf]
      exact mapResult_bind _ _ _ _ _ fun s => mapResult_bind _ _ _ _ _ fun v => mapResult_bind _ _ _ _ _ fun k => finish_map hgf c s v k
  | _ => rfl

/-- The same operand of `|` with another type of values. -/
def SameVariant (f : Any F V → Any F W) (g : Any F W → Any F V) (h : Any F V → Any F W) : Variant F V → Variant F W → Prop
  | .dataclass c, v => v = .dataclass (retypeClass f g h c)
  | .other m, v => v = .other (retype h m)
  | .alternative a, v => v = .alternative ⟨a.classes.map (retypeClass f g h), a.alternatives.map (retype h)⟩

include hgf hf in
theorem class_toMatcher (c : ClassMatcher F V) : (retypeClass f g h c).toMatcher = retype h c.toMatcher := by
  unfold ClassMatcher.toMatcher retype
  congr 1
  funext n
  exact retypeClass_run hgf hf c n

include hgf hf in
theorem add_map (a : Alternative F V) (v : Variant F V) (v' : Variant F W) (hv : SameVariant f g h v v') :
    Alternative.add ⟨a.classes.map (retypeClass f g h), a.alternatives.map (retype h)⟩ v' =
      ⟨(a.add v).classes.map (retypeClass f g h), (a.add v).alternatives.map (retype h)⟩ := by
  cases v <;> (simp only [SameVariant] at hv; subst hv; simp [Alternative.add, class_toMatcher hgf hf])

include hgf hf in
theorem joined_map (l r : Variant F V) (l' r' : Variant F W) (hl : SameVariant f g h l l') (hr : SameVariant f g h r r') :
    joined l' r' = ⟨(joined l r).classes.map (retypeClass f g h), (joined l r).alternatives.map (retype h)⟩ := by
  unfold joined
  have := add_map hgf hf ⟨[], []⟩ l l' hl
  simp only [List.map_nil] at this
  rw [this, add_map hgf hf _ r r' hr]

include hgf hf in
theorem toVariant_map (c : Choice F V) : SameVariant f g h c.toVariant (retypeChoice f g h c).toVariant := by
  induction c with
  | dataclass c => rfl
  | other m => rfl
  | join l r hl hr =>
    simp only [Choice.toVariant, retypeChoice, SameVariant]
    rw [joined_map hgf hf _ _ _ _ hl hr]

theorem firstMatch_map (n : Node F) (ms : List (Matcher F V)) (rs : List Report) : firstMatch n (ms.map (retype h)) rs = mapResult h (firstMatch n ms rs) := by
  induction ms generalizing rs with
  | nil => rfl
  | cons m ms ih =>
    simp only [List.map_cons, firstMatch]
    rw [show (retype h m).run n = mapResult h (m.run n) from rfl]
    cases m.run n with
    | matched a => rfl
    | unmatched r => exact ih _
    | thrown e => rfl

include hgf hf in
theorem alternative_run (a : Alternative F V) (n : Node F) :
    Alternative.run ⟨a.classes.map (retypeClass f g h), a.alternatives.map (retype h)⟩ n = mapResult h (a.run n) := by
  have hv : Alternative.variants ⟨a.classes.map (retypeClass f g h), a.alternatives.map (retype h)⟩ n = (a.variants n).map (retype h) := by
    cases n with
    | dataclass name ps ks =>
      simp only [Alternative.variants, List.filter_map, List.map_map]
      congr 1
      funext c
      exact class_toMatcher hgf hf c
    | _ => simp only [Alternative.variants, List.filter_map]; rfl
  unfold Alternative.run
  rw [hv]
  cases a.variants n with
  | nil => rfl
  | cons m ms => exact firstMatch_map n (m :: ms) []

include hgf hf in
/-- An alternative with another type of values makes the same. -/
theorem retypeChoice_run (c : Choice F V) (n : Node F) : (retypeChoice f g h c).toMatcher.run n = mapResult h (c.toMatcher.run n) := by
  cases c with
  | dataclass c => exact retypeClass_run hgf hf c n
  | other m => rfl
  | join l r =>
    simp only [Choice.toMatcher, retypeChoice, Alternative.toMatcher]
    rw [joined_map hgf hf _ _ _ _ (toVariant_map hgf hf l) (toVariant_map hgf hf r)]
    exact alternative_run hgf hf _ n

end

end Rampack.WholeInput
