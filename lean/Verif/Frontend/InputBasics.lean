import Verif.Frontend.InputSpec
import Verif.Pyon.MatcherProps
import Verif.Sim.StepProps
import Verif.Sim.ScalerProps
import Verif.Sim.EnvProps
/-
Lemmas about matchers of the input file: classes as signatures, alternatives told apart by the heads of expressions, vectors, default values.
-/
namespace Rampack.Input

open Pyon Pyon.Spec Rampack.Input.Spec

variable {X α : Type}

/-- The matcher reads the relation. -/
def Interprets (m : Matcher ℝ (Value X)) (R : Node ℝ → α → Prop) (wrap : α → Value X) : Prop :=
  ∀ n v, m.run n = .matched v ↔ ∃ x, R n x ∧ v = .value (wrap x)

theorem Interprets.congr {m : Matcher ℝ (Value X)} {R S : Node ℝ → α → Prop} {wrap : α → Value X} (h : Interprets m R wrap) (he : ∀ n x, R n x ↔ S n x) :
    Interprets m S wrap := by
  intro n v
  rw [h]
  simp only [he]

/-! ### Classes -/

/-- The declared arguments have this signature and these matchers. -/
inductive Declares : List (Argument ℝ (Value X)) → List (String × Option (Node ℝ)) → List (Matcher ℝ (Value X)) → Prop where
  | nil : Declares [] [] []
  | required {name : String} {m : Matcher ℝ (Value X)} {as sig ms} : Declares as sig ms → Declares (required name m :: as) ((name, none) :: sig) (m :: ms)
  | optional {name : String} {m : Matcher ℝ (Value X)} {n : Node ℝ} {a : Any ℝ (Value X)} {as sig ms} : m.run n = .matched a → Declares as sig ms →
      Declares (⟨name.toList, some m, some a⟩ :: as) ((name, some n) :: sig) (m :: ms)

/-- The matchers make these values of these expressions. -/
def RunAll : List (Matcher ℝ (Value X)) → List (Node ℝ) → List (Any ℝ (Value X)) → Prop
  | [], [], [] => True
  | m :: ms, n :: ns, v :: vs => m.run n = .matched v ∧ RunAll ms ns vs
  | _, _, _ => False

/-- Names with values. -/
def pairs : List (String × Option (Node ℝ)) → List (Any ℝ (Value X)) → List (Text × Any ℝ (Value X))
  | s :: sig, v :: vs => (s.1.toList, v) :: pairs sig vs
  | _, _ => []

theorem Declares.names {as : List (Argument ℝ (Value X))} {sig ms} (h : Declares as sig ms) : as.map (·.name) = sig.map (fun s => s.1.toList) := by
  induction h with
  | nil => rfl
  | required _ ih => simp only [List.map_cons, ih, Input.required]
  | optional _ _ ih => simp only [List.map_cons, ih]

theorem Declares.length {as : List (Argument ℝ (Value X))} {sig ms} (h : Declares as sig ms) : as.length = sig.length ∧ ms.length = sig.length := by
  induction h with
  | nil => exact ⟨rfl, rfl⟩
  | required _ ih => simp only [List.length_cons, ih, and_self]
  | optional _ _ ih => simp only [List.length_cons, ih, and_self]

theorem Declares.at {as : List (Argument ℝ (Value X))} {sig ms} (h : Declares as sig ms) {i : Nat} {a : Argument ℝ (Value X)} (ha : as[i]? = some a) :
    ∃ k d m, sig[i]? = some (k, d) ∧ ms[i]? = some m ∧ a.name = k.toList ∧ a.matcher = some m ∧
      ((d = none ∧ a.default = none) ∨ ∃ n v, d = some n ∧ a.default = some v ∧ m.run n = .matched v) := by
  induction h generalizing i with
  | nil => simp at ha
  | required _ ih =>
    cases i with
    | zero =>
      simp only [List.getElem?_cons_zero, Option.some.injEq] at ha
      subst ha
      exact ⟨_, _, _, rfl, rfl, rfl, rfl, .inl ⟨rfl, rfl⟩⟩
    | succ i => exact ih (by simpa using ha)
  | optional hm _ ih =>
    cases i with
    | zero =>
      simp only [List.getElem?_cons_zero, Option.some.injEq] at ha
      subst ha
      exact ⟨_, _, _, rfl, rfl, rfl, rfl, .inr ⟨_, _, rfl, rfl, hm⟩⟩
    | succ i => exact ih (by simpa using ha)

theorem runAll_iff {ms : List (Matcher ℝ (Value X))} {ns : List (Node ℝ)} {vs : List (Any ℝ (Value X))} :
    RunAll ms ns vs ↔ ns.length = ms.length ∧ vs.length = ms.length ∧
      ∀ (i : Nat) m, ms[i]? = some m → ∃ n v, ns[i]? = some n ∧ vs[i]? = some v ∧ m.run n = .matched v := by
  induction ms generalizing ns vs with
  | nil =>
    cases ns <;> cases vs <;> simp [RunAll]
  | cons m ms ih =>
    cases ns with
    | nil => simp [RunAll]
    | cons n ns =>
      cases vs with
      | nil => simp [RunAll]
      | cons v vs =>
        simp only [RunAll, ih, List.length_cons, Nat.add_right_cancel_iff]
        constructor
        · rintro ⟨h, h1, h2, h3⟩
          refine ⟨h1, h2, fun i => ?_⟩
          cases i with
          | zero => intro m' hm'; cases hm'; exact ⟨n, v, rfl, rfl, h⟩
          | succ i => intro m' hm'; exact h3 i m' hm'
        · rintro ⟨h1, h2, h3⟩
          refine ⟨?_, h1, h2, fun i m' hm' => h3 (i + 1) m' hm'⟩
          obtain ⟨n', v', hn, hv, h⟩ := h3 0 m rfl
          cases hn
          cases hv
          exact h

theorem pairs_map {sig : List (String × Option (Node ℝ))} {vs : List (Any ℝ (Value X))} (h : vs.length = sig.length) :
    (pairs sig vs).map Prod.fst = sig.map (fun s => s.1.toList) := by
  induction sig generalizing vs with
  | nil => cases vs <;> simp_all [pairs]
  | cons s sig ih =>
    cases vs with
    | nil => simp at h
    | cons v vs => simp only [pairs, List.map_cons, ih (by simpa using h)]

theorem pairs_at {sig : List (String × Option (Node ℝ))} {vs : List (Any ℝ (Value X))} {i : Nat} {k d v} (hs : sig[i]? = some (k, d)) (hv : vs[i]? = some v) :
    (pairs sig vs)[i]? = some (k.toList, v) := by
  induction i generalizing sig vs with
  | zero =>
    cases sig with
    | nil => simp at hs
    | cons s sig =>
      cases vs with
      | nil => simp at hv
      | cons w vs =>
        simp only [List.getElem?_cons_zero, Option.some.injEq] at hs hv
        rw [pairs, hs, hv]
        rfl
  | succ i ih =>
    cases sig with
    | nil => simp at hs
    | cons s sig =>
      cases vs with
      | nil => simp at hv
      | cons w vs => exact ih (by simpa using hs) (by simpa using hv)

theorem arguments_iff {c : ClassMatcher ℝ (Value X)} {sig ms} (hd : Declares c.arguments sig ms) {ps : List (Node ℝ)} {ks : List (Text × Node ℝ)}
    {s : List (Text × Any ℝ (Value X))} :
    (s.map Prod.fst = c.arguments.map (·.name) ∧ ∀ i a, c.arguments[i]? = some a → ∃ v, s[i]? = some (a.name, v) ∧ Bound ps ks i a v) ↔
      ∃ args vals, Arguments ps ks sig args ∧ RunAll ms args vals ∧ s = pairs sig vals := by
  have hl := hd.length
  constructor
  · rintro ⟨hn, hv⟩
    have hsl : s.length = sig.length := by simpa [hl.1] using congrArg List.length hn
    have key : ∀ i, i < sig.length → ∃ k d m n v, sig[i]? = some (k, d) ∧ ms[i]? = some m ∧ s[i]? = some (k.toList, v) ∧ m.run n = .matched v ∧
        ((ps[i]? = some n ∧ NotGiven ks k.toList) ∨ (ps.length ≤ i ∧ Given ks k.toList n) ∨ (ps.length ≤ i ∧ NotGiven ks k.toList ∧ d = some n)) := by
      intro i hi
      obtain ⟨a, ha⟩ : ∃ a, c.arguments[i]? = some a := ⟨c.arguments[i]'(by omega), by simp [hl.1, hi]⟩
      obtain ⟨k, d, m, h1, h2, h3, h4, h5⟩ := hd.at ha
      obtain ⟨v, hv1, hb⟩ := hv i a ha
      rw [h3] at hv1
      rcases hb with ⟨hp, hng, ht⟩ | ⟨hp, hg, ht⟩ | ⟨hp, hng, hdf⟩
      · rw [h4] at ht
        rw [h3] at hng
        exact ⟨k, d, m, _, v, h1, h2, hv1, ht, .inl ⟨hp, hng⟩⟩
      · rw [h4] at ht
        rw [h3] at hg
        exact ⟨k, d, m, _, v, h1, h2, hv1, ht, .inr (.inl ⟨hp, hg⟩)⟩
      · rw [h3] at hng
        rcases h5 with ⟨_, h5⟩ | ⟨n, w, h5, h6, h7⟩
        · rw [h5] at hdf
          cases hdf
        · rw [h6] at hdf
          cases hdf
          exact ⟨k, d, m, n, v, h1, h2, hv1, h7, .inr (.inr ⟨hp, hng, h5⟩)⟩
    have hex : ∀ i : Nat, ∃ n : Node ℝ, ∀ k d m v, i < sig.length → sig[i]? = some (k, d) → ms[i]? = some m → s[i]? = some (k.toList, v) → m.run n = .matched v ∧
        ((ps[i]? = some n ∧ NotGiven ks k.toList) ∨ (ps.length ≤ i ∧ Given ks k.toList n) ∨ (ps.length ≤ i ∧ NotGiven ks k.toList ∧ d = some n)) := by
      intro i
      by_cases hi : i < sig.length
      · obtain ⟨k, d, m, n, v, h1, h2, h3, h4, h5⟩ := key i hi
        refine ⟨n, fun k' d' m' v' _ e1 e2 e3 => ?_⟩
        rw [h1] at e1
        rw [h2] at e2
        rw [h3] at e3
        cases e1
        cases e2
        cases e3
        exact ⟨h4, h5⟩
      · exact ⟨.none, fun k d m v h => absurd h hi⟩
    choose f hf using hex
    have hfl : ((List.range sig.length).map f).length = sig.length := by simp
    have hfat : ∀ i, i < sig.length → ((List.range sig.length).map f)[i]? = some (f i) := by
      intro i hi
      simp [hi]
    have hpairs : s = pairs sig (s.map Prod.snd) := by
      apply List.ext_getElem?
      intro i
      by_cases hi : i < sig.length
      · obtain ⟨k, d, m, n, v, h1, h2, h3, h4, h5⟩ := key i hi
        rw [h3, pairs_at h1 (by rw [List.getElem?_map, h3]; rfl)]
      · have hpl : (pairs sig (s.map Prod.snd)).length = sig.length := by
          simpa using congrArg List.length (pairs_map (sig := sig) (vs := s.map Prod.snd) (by simpa using hsl))
        rw [List.getElem?_eq_none (by omega), List.getElem?_eq_none (by omega)]
    refine ⟨(List.range sig.length).map f, s.map Prod.snd, ⟨hfl, ?_⟩, ?_, hpairs⟩
    · intro i k d a h1 h2
      have hi := (List.getElem?_eq_some_iff.mp h1).1
      obtain ⟨k', d', m, n, v, g1, g2, g3, _, _⟩ := key i hi
      rw [h1] at g1
      cases g1
      rw [hfat i hi] at h2
      cases h2
      exact (hf i k d m v hi h1 g2 g3).2
    · rw [runAll_iff]
      refine ⟨by rw [hfl, hl.2], by rw [List.length_map, hsl, hl.2], fun i m hm => ?_⟩
      have hi : i < sig.length := by have := (List.getElem?_eq_some_iff.mp hm).1; omega
      obtain ⟨k', d', m', n, v, g1, g2, g3, _, _⟩ := key i hi
      rw [hm] at g2
      cases g2
      exact ⟨f i, v, hfat i hi, by rw [List.getElem?_map, g3]; rfl, (hf i k' d' m v hi g1 hm g3).1⟩
  · rintro ⟨args, vals, ⟨hal, ha⟩, hr, rfl⟩
    rw [runAll_iff] at hr
    obtain ⟨r1, r2, hr⟩ := hr
    refine ⟨by rw [pairs_map (by omega), hd.names], fun i a hia => ?_⟩
    obtain ⟨k, d, m, h1, h2, h3, h4, h5⟩ := hd.at hia
    obtain ⟨n, v, hn, hv, hm⟩ := hr i m h2
    refine ⟨v, by rw [pairs_at h1 hv, h3], ?_⟩
    rcases ha i k d n h1 hn with ⟨g1, g2⟩ | ⟨g1, g2⟩ | ⟨g1, g2, g3⟩
    · exact .positional g1 (by rw [h3]; exact g2) (by rw [h4]; exact hm)
    · exact .keyword g1 (by rw [h3]; exact g2) (by rw [h4]; exact hm)
    · refine .default g1 (by rw [h3]; exact g2) ?_
      rcases h5 with ⟨h5, _⟩ | ⟨n', w, h5, h6, h7⟩
      · rw [h5] at g3
        cases g3
      · rw [h5] at g3
        cases g3
        rw [h7] at hm
        cases hm
        exact h6

theorem declared_iff {c : ClassMatcher ℝ (Value X)} {sig ms} (hd : Declares c.arguments sig ms) {k : Text} :
    Declared c k ↔ ∃ s ∈ sig, k = s.1.toList := by
  unfold Declared
  have h1 : (∃ a ∈ c.arguments, a.name = k) ↔ k ∈ c.arguments.map (·.name) := by simp
  rw [h1, hd.names]
  simp [eq_comm]

/-- A class with a signature matches exactly its calls. -/
theorem class_reads {c : ClassMatcher ℝ (Value X)} {name : String} {sig ms} (hd : Declares c.arguments sig ms) (hname : c.name = name.toList)
    (hn : (sig.map Prod.fst).Nodup) (hv : c.variadic = none) (hk : c.keyword = none) {n : Node ℝ} {v : Any ℝ (Value X)} :
    c.run n = .matched v ↔ ∃ args vals, Call n name sig args ∧ RunAll ms args vals ∧ Satisfied c.filters ⟨pairs sig vals, [], []⟩ ∧
      c.mapping ⟨pairs sig vals, [], []⟩ = .ok v := by
  have hnd : (c.arguments.map (·.name)).Nodup := by
    have := hn.map (f := String.toList) (fun a b h => String.toList_inj.mp h)
    rw [List.map_map] at this
    rw [hd.names]
    exact this
  have hl := hd.length
  constructor
  · intro h
    obtain ⟨ps, ks, rfl⟩ := C46_kind h
    obtain ⟨_, ⟨st, va, kw⟩, hb, hf, hm⟩ := (C46_binds hnd).mp h
    have hrest := hb.rest
    have hnamed := hb.named
    unfold Rest at hrest
    unfold NamedRest at hnamed
    rw [hv] at hrest
    rw [hk] at hnamed
    obtain ⟨hr1, rfl⟩ := hrest
    obtain ⟨hn1, rfl⟩ := hnamed
    obtain ⟨args, vals, h1, h2, rfl⟩ := (arguments_iff hd).mp ⟨hb.names, hb.values⟩
    refine ⟨args, vals, ⟨ps, ks, by rw [hname], by rw [← hl.1]; exact hr1, fun e he => (declared_iff hd).mp (hn1 e he), h1⟩, h2, hf, hm⟩
  · rintro ⟨args, vals, ⟨ps, ks, rfl, h1, h2, h3⟩, h4, h5, h6⟩
    rw [C46_binds hnd]
    obtain ⟨g1, g2⟩ := (arguments_iff hd).mpr ⟨args, vals, h3, h4, rfl⟩
    refine ⟨hname.symm, ⟨pairs sig vals, [], []⟩, ⟨g1, g2, ?_, ?_⟩, h5, h6⟩
    · unfold Rest
      rw [hv]
      exact ⟨by rw [hl.1]; exact h1, rfl⟩
    · unfold NamedRest
      rw [hk]
      exact ⟨fun e he => (declared_iff hd).mpr (h2 e he), rfl⟩

theorem find_toList {k s : String} {v : α} {m : List (Text × α)} : find k.toList ((s.toList, v) :: m) = if s = k then some v else find k.toList m := by
  rw [find]
  simp only [String.toList_inj]

theorem get_cons {k s : String} {v : Any ℝ (Value X)} {m kw : List (Text × Any ℝ (Value X))} :
    get ⟨(s.toList, v) :: m, [], kw⟩ k = if s = k then .ok v else get ⟨m, [], kw⟩ k := by
  unfold get ClassData.atName
  simp only [find_toList]
  split_ifs <;> rfl

/-! ### Alternatives -/

/-- What tells options apart. -/
inductive Head where
  | number | boolean | none | string | array | dictionary
  | named (s : Text)

/-- The head of an expression. -/
def headOf : Node ℝ → Head
  | .int _ => .number
  | .float _ => .number
  | .boolean _ => .boolean
  | .none => .none
  | .string _ => .string
  | .array _ => .array
  | .dictionary _ => .dictionary
  | .dataclass s _ _ => .named s

/-- The matcher takes expressions with this head only. -/
def Takes (m : Matcher ℝ (Value X)) (h : Head) : Prop := ∀ n, headOf n ≠ h → Fails n m

theorem first_disjoint {ms : List (Matcher ℝ (Value X))} {hs : List Head} (h : List.Forall₂ Takes ms hs) (hn : hs.Nodup) {n : Node ℝ} {v : Any ℝ (Value X)} :
    First ms n (.matched v) ↔ ∃ m ∈ ms, m.run n = .matched v := by
  induction h with
  | nil => simp [First]
  | @cons m g ms hs hm h ih =>
    rw [first_cons (by simp), ih (List.nodup_cons.mp hn).2]
    constructor
    · rintro (h1 | ⟨_, m', h1, h2⟩)
      · exact ⟨m, List.mem_cons_self, h1⟩
      · exact ⟨m', List.mem_cons_of_mem _ h1, h2⟩
    · rintro ⟨m', h1, h2⟩
      rcases List.mem_cons.mp h1 with rfl | h1
      · exact .inl h2
      · refine .inr ⟨hm n ?_, m', h1, h2⟩
        rintro rfl
        have : ∀ (ms : List (Matcher ℝ (Value X))) (hs : List Head), List.Forall₂ Takes ms hs → m' ∈ ms → headOf n ∉ hs → False := by
          intro ms hs h
          induction h with
          | nil => intro h; simp at h
          | cons ht _ ih =>
            intro hmem hnot
            rcases List.mem_cons.mp hmem with rfl | hmem
            · obtain ⟨r, hr⟩ := ht n (fun e => hnot (by rw [e]; exact List.mem_cons_self))
              rw [hr] at h2
              cases h2
            · exact ih hmem (fun e => hnot (List.mem_cons_of_mem _ e))
        exact this ms hs h h1 (List.nodup_cons.mp hn).1

theorem alternative_reads {l r : Choice ℝ (Value X)} (hs : Sound (.join l r)) {heads : List Head} (h : List.Forall₂ Takes (options (.join l r)) heads)
    (hn : heads.Nodup) {n : Node ℝ} {v : Any ℝ (Value X)} :
    (Choice.join l r).toMatcher.run n = .matched v ↔ ∃ m ∈ options (.join l r), m.run n = .matched v := by
  rw [(C79_first_partial hs).1, first_disjoint h hn]

theorem takes_class {c : ClassMatcher ℝ (Value X)} {name : Text} (h : c.name = name) : Takes c.toMatcher (.named name) := by
  intro n hn
  cases n with
  | dataclass s ps ks =>
    refine class_fails_name ?_
    rintro rfl
    exact hn (by rw [headOf, h])
  | _ => exact ⟨_, rfl⟩

theorem takes_int {fs : List (Int → Except String Bool)} {g : Int → Except String (Any ℝ (Value X))} : Takes (matcherInt fs g) .number := by
  intro n hn
  cases n <;> first | exact ⟨_, rfl⟩ | exact absurd rfl hn

theorem takes_float {f : Int → ℝ} {fs : List (ℝ → Except String Bool)} {g : ℝ → Except String (Any ℝ (Value X))} : Takes (matcherFloat f fs g) .number := by
  intro n hn
  cases n <;> first | exact ⟨_, rfl⟩ | exact absurd rfl hn

theorem takes_string {fs : List (Text → Except String Bool)} {g : Text → Except String (Any ℝ (Value X))} : Takes (matcherString fs g) .string := by
  intro n hn
  cases n <;> first | exact ⟨_, rfl⟩ | exact absurd rfl hn

theorem takes_none {g : Except String (Any ℝ (Value X))} : Takes (matcherNone g) .none := by
  intro n hn
  cases n <;> first | exact ⟨_, rfl⟩ | exact absurd rfl hn

theorem takes_array {a : ArrayMatcher ℝ (Value X)} : Takes a.toMatcher .array := by
  intro n hn
  cases n <;> first | exact ⟨_, rfl⟩ | exact absurd rfl hn

theorem sound_int {fs : List (Int → Except String Bool)} {g : Int → Except String (Any ℝ (Value X))} : Sound (.other (matcherInt fs g)) :=
  ⟨(by intro n hn; cases n <;> first | exact ⟨_, rfl⟩ | cases (show true = false from hn)), rfl⟩

theorem sound_float {f : Int → ℝ} {fs : List (ℝ → Except String Bool)} {g : ℝ → Except String (Any ℝ (Value X))} : Sound (.other (matcherFloat f fs g)) :=
  ⟨(by intro n hn; cases n <;> first | exact ⟨_, rfl⟩ | cases (show true = false from hn)), rfl⟩

theorem sound_string {fs : List (Text → Except String Bool)} {g : Text → Except String (Any ℝ (Value X))} : Sound (.other (matcherString fs g)) :=
  ⟨(by intro n hn; cases n <;> first | exact ⟨_, rfl⟩ | cases (show true = false from hn)), rfl⟩

theorem sound_none {g : Except String (Any ℝ (Value X))} : Sound (.other (matcherNone g)) :=
  ⟨(by intro n hn; cases n <;> first | exact ⟨_, rfl⟩ | cases (show true = false from hn)), rfl⟩

theorem sound_array {a : ArrayMatcher ℝ (Value X)} : Sound (.other a.toMatcher) :=
  ⟨(by intro n hn; cases n <;> first | exact ⟨_, rfl⟩ | cases (show true = false from hn)), rfl⟩

/-! ### Literals -/

theorem satisfied_one {β : Type} {f : β → Except String Bool} {a : β} : Satisfied [f] a ↔ f a = .ok true := by simp [Satisfied]

theorem float_run {fs : List (ℝ → Except String Bool)} {g : ℝ → Except String (Any ℝ (Value X))} {n : Node ℝ} {v : Any ℝ (Value X)} :
    (matcherFloat (fun i => (i : ℝ)) fs g).run n = .matched v ↔ ∃ x, IsNumber n x ∧ Satisfied fs x ∧ g x = .ok v := by
  cases n <;> simp [matcherFloat, finish_iff, IsNumber]

theorem int_run {fs : List (Int → Except String Bool)} {g : Int → Except String (Any ℝ (Value X))} {n : Node ℝ} {v : Any ℝ (Value X)} :
    (matcherInt fs g).run n = .matched v ↔ ∃ i, n = .int i ∧ Satisfied fs i ∧ g i = .ok v := by
  cases n <;> simp [matcherInt, finish_iff]

theorem string_run {fs : List (Text → Except String Bool)} {g : Text → Except String (Any ℝ (Value X))} {n : Node ℝ} {v : Any ℝ (Value X)} :
    (matcherString fs g).run n = .matched v ↔ ∃ s, n = .string s ∧ Satisfied fs s ∧ g s = .ok v := by
  cases n <;> simp [matcherString, finish_iff]

theorem none_run {g : Except String (Any ℝ (Value X))} {n : Node ℝ} {v : Any ℝ (Value X)} :
    (matcherNone g).run n = .matched v ↔ n = .none ∧ g = .ok v := by
  cases n <;> simp [matcherNone, converted_iff]

theorem float_reads : Interprets (X := X) float IsNumber .real := by
  intro n v
  unfold float
  rw [float_run]
  simp [Satisfied, eq_comm]

theorem positiveFloat_reads : Interprets (X := X) positiveFloat IsPositive .real := by
  intro n v
  unfold positiveFloat
  rw [float_run]
  simp only [satisfied_one, isPositive, Except.ok.injEq, decide_eq_true_eq, IsPositive, gt_iff_lt]
  simp only [eq_comm, and_assoc]

theorem boolean_reads : Interprets (X := X) boolean (fun n b => n = .boolean b) .flag := by
  intro n v
  unfold boolean
  cases n <;> simp [matcherBoolean, converted_iff, eq_comm]

theorem toSize_of_nonneg {i : Int} (h : 0 ≤ i) : ((toSize i : Nat) : Int) = i := by
  unfold toSize
  rw [if_pos h]
  omega

theorem count_run {g : Nat → Value X} {n : Node ℝ} {v : Any ℝ (Value X)} :
    (matcherInt [intPositive] (fun i => .ok (.value (g (toSize i))))).run n = .matched v ↔ ∃ k, IsCount n k ∧ v = .value (g k) := by
  rw [int_run]
  simp only [satisfied_one, intPositive, Except.ok.injEq, decide_eq_true_eq, IsCount]
  constructor
  · rintro ⟨i, rfl, hi, rfl⟩
    have := toSize_of_nonneg (i := i) (by omega)
    exact ⟨toSize i, ⟨by rw [this], by omega⟩, rfl⟩
  · rintro ⟨k, ⟨rfl, hk⟩, rfl⟩
    refine ⟨k, rfl, by omega, ?_⟩
    have := toSize_of_nonneg (i := (k : Int)) (by omega)
    rw [show toSize (k : Int) = k by omega]

theorem count_reads : Interprets (X := X) (size [intPositive]) IsCount .size := fun _ _ => count_run

theorem size_reads : Interprets (X := X) (size [intNonNegative]) IsSize .size := by
  intro n v
  unfold size
  rw [int_run]
  simp only [satisfied_one, intNonNegative, Except.ok.injEq, decide_eq_true_eq, IsSize]
  constructor
  · rintro ⟨i, rfl, hi, rfl⟩
    have := toSize_of_nonneg (i := i) (by omega)
    exact ⟨toSize i, by rw [this], rfl⟩
  · rintro ⟨k, rfl, rfl⟩
    refine ⟨k, rfl, by omega, ?_⟩
    have := toSize_of_nonneg (i := (k : Int)) (by omega)
    rw [show toSize (k : Int) = k by omega]

theorem wrapped_reads : Interprets (X := X) (size []) IsWrapped .size := by
  intro n v
  unfold size
  rw [int_run]
  simp only [Satisfied, List.not_mem_nil, false_imp_iff, implies_true, true_and, Except.ok.injEq, IsWrapped, IsSize]
  constructor
  · rintro ⟨i, rfl, rfl⟩
    refine ⟨toSize i, ?_, rfl⟩
    by_cases h : 0 ≤ i
    · exact .inl (by rw [toSize_of_nonneg h])
    · exact .inr ⟨i, rfl, by omega, by rw [toSize, if_neg h]⟩
  · rintro ⟨k, h, rfl⟩
    rcases h with rfl | ⟨i, rfl, hi, rfl⟩
    · refine ⟨k, rfl, ?_⟩
      have := toSize_of_nonneg (i := (k : Int)) (by omega)
      rw [show toSize (k : Int) = k by omega]
    · exact ⟨i, rfl, by rw [toSize, if_neg (by omega)]⟩

theorem text_run {g : Text → Value X} {n : Node ℝ} {v : Any ℝ (Value X)} :
    (matcherString [textNonEmpty] (fun s => .ok (.value (g s)))).run n = .matched v ↔ ∃ s, IsText n s ∧ v = .value (g s) := by
  rw [string_run]
  simp only [satisfied_one, textNonEmpty, Except.ok.injEq, Bool.not_eq_true', List.isEmpty_eq_false_iff, IsText, and_assoc]
  constructor
  · rintro ⟨s, h1, h2, h3⟩
    exact ⟨s, h1, h2, h3.symm⟩
  · rintro ⟨s, h1, h2, h3⟩
    exact ⟨s, h1, h2, h3.symm⟩

theorem filename_reads : Interprets (X := X) filename IsText .text := fun _ _ => text_run

/-! ### Vectors -/

theorem vector_reads {m : Matcher ℝ (Value X)} {R : Node ℝ → α → Prop} {wrap : α → Value X} (hm : Interprets m R wrap)
    {as : Any ℝ (Value X) → Except String α} (has : ∀ x, as (.value (wrap x)) = .ok x) {filters : List (List (Any ℝ (Value X)) → Except String Bool)}
    {P : List α → Prop} (hP : ∀ l, Satisfied filters (l.map fun x => .value (wrap x)) ↔ P l) {w : List α → Value X} :
    Interprets (vector m filters as w) (fun n l => ListOf R n l ∧ P l) w := by
  intro n v
  have hlist : ∀ (ns : List (Node ℝ)) (vs : List (Any ℝ (Value X))), List.Forall₂ (Turns (some m)) ns vs ↔
      ∃ l : List α, List.Forall₂ R ns l ∧ vs = l.map fun x => .value (wrap x) := by
    intro ns vs
    constructor
    · intro h
      induction h with
      | nil => exact ⟨[], .nil, rfl⟩
      | cons h _ ih =>
        obtain ⟨x, hx, rfl⟩ := (hm _ _).mp h
        obtain ⟨l, hl, rfl⟩ := ih
        exact ⟨x :: l, .cons hx hl, rfl⟩
    · rintro ⟨l, h, rfl⟩
      induction h with
      | nil => exact .nil
      | cons h _ ih => exact .cons ((hm _ _).mpr ⟨_, h, rfl⟩) ih
  have hmap : ∀ l : List α, (l.map fun x => Any.value (wrap x)).mapM as = .ok l := by
    intro l
    induction l with
    | nil => rfl
    | cons x l ih => rw [List.map_cons, List.mapM_cons, has, ih]; rfl
  unfold vector
  change (ArrayMatcher.run _ n) = _ ↔ _
  rw [C78_array]
  constructor
  · rintro ⟨ns, vs, rfl, ⟨h1, h2⟩, h3⟩
    obtain ⟨l, hl, rfl⟩ := (hlist ns vs).mp h1
    simp only [hmap] at h3
    injection h3 with h3
    exact ⟨l, ⟨⟨ns, rfl, hl⟩, (hP l).mp h2⟩, h3.symm⟩
  · rintro ⟨l, ⟨⟨ns, rfl, hl⟩, hp⟩, rfl⟩
    refine ⟨ns, _, rfl, ⟨(hlist ns _).mpr ⟨l, hl, rfl⟩, (hP l).mpr hp⟩, ?_⟩
    simp only [hmap]
    rfl

/-! ### Default values -/

theorem optional_ok {conv : ℚ → Option ℝ} {name text : String} {m : Matcher ℝ (Value X)} {n : Node ℝ} {a : Any ℝ (Value X)}
    (hp : Pyon.parse conv text.toList = .ok n) (hm : m.run n = .matched a) : optional conv name m text = .ok ⟨name.toList, some m, some a⟩ := by
  unfold optional Argument.withDefault
  rw [hp]
  simp only [hm]

section

open Rampack.Spec

variable {conv : ℚ → Option ℝ} (hconv : RoundsIntegers conv)

include hconv

theorem parse_none : Pyon.parse conv "None".toList = .ok .none := C45_canonical (lit := fun _ => []) hconv .none

theorem parse_true : Pyon.parse conv "True".toList = .ok (.boolean true) := C45_canonical (lit := fun _ => []) (v := .boolean true) hconv .boolean

theorem parse_int {i : Int} (h : InLong i) {t : Text} (ht : intText i = t) : Pyon.parse conv t = .ok (.int i) := by
  have := C45_canonical (lit := fun _ => []) (v := .int i) hconv (.int h)
  rw [canonical, ht] at this
  exact this

theorem parse_0 : Pyon.parse conv "0".toList = .ok (.int 0) := by
  refine parse_int hconv (by unfold InLong; decide) ?_
  rw [intText, if_neg (by decide), show (0 : Int).natAbs = 0 from rfl, decimalText]; decide

theorem parse_1 : Pyon.parse conv "1".toList = .ok (.int 1) := by
  refine parse_int hconv (by unfold InLong; decide) ?_
  rw [intText, if_neg (by decide), show (1 : Int).natAbs = 1 from rfl, decimalText]; decide

theorem parse_10 : Pyon.parse conv "10".toList = .ok (.int 10) := by
  refine parse_int hconv (by unfold InLong; decide) ?_
  rw [intText, if_neg (by decide), show (10 : Int).natAbs = 10 from rfl, decimalText, decimalText]; decide

theorem parse_100 : Pyon.parse conv "100".toList = .ok (.int 100) := by
  refine parse_int hconv (by unfold InLong; decide) ?_
  rw [intText, if_neg (by decide), show (100 : Int).natAbs = 100 from rfl, decimalText, decimalText, decimalText]; decide

theorem parse_10000 : Pyon.parse conv "10000".toList = .ok (.int 10000) := by
  refine parse_int hconv (by unfold InLong; decide) ?_
  rw [intText, if_neg (by decide), show (10000 : Int).natAbs = 10000 from rfl, decimalText, decimalText, decimalText, decimalText, decimalText]; decide

theorem parse_empty : Pyon.parse conv "[]".toList = .ok (.array []) :=
  C45_canonical (lit := fun _ => []) (v := .array []) hconv (.array (by simp))

theorem parse_auto : Pyon.parse conv "\"auto\"".toList = .ok (.string "auto".toList) :=
  C45_canonical (lit := fun _ => []) (v := .string "auto".toList) hconv .string

theorem parse_standard : Pyon.parse conv "standard".toList = .ok (.dataclass "standard".toList [] []) :=
  C45_parses_partial hconv ⟨[], "standard".toList, [], .nil, .name ⟨'s', "tandard".toList, rfl, by unfold Letter; decide⟩ (by unfold Reserved; decide), .inl .nil, by simp⟩

theorem parse_falses : Pyon.parse conv "[False, False, False]".toList = .ok (.array [.boolean false, .boolean false, .boolean false]) :=
  C45_canonical (lit := fun _ => []) (v := .array [.boolean false, .boolean false, .boolean false]) hconv (.array (by
    intro v hv
    fin_cases hv <;> exact .boolean))

theorem parse_ones : Pyon.parse conv "[1, 1, 1]".toList = .ok (.array [.int 1, .int 1, .int 1]) := by
  have h1 : intText 1 = ['1'] := by rw [intText, if_neg (by decide), show (1 : Int).natAbs = 1 from rfl, decimalText]; decide
  have := C45_canonical (lit := fun _ => []) (v := .array [.int 1, .int 1, .int 1]) hconv (.array (by
    intro v hv
    fin_cases hv <;> exact .int (by unfold InLong; decide)))
  simp only [canonical, canonicals, h1] at this
  exact this

end

end Rampack.Input
