import Verif.Frontend.InputMoves
/-
What the matchers of box scalers, snapshot writers and recorders read.
-/
namespace Rampack.Input

open Pyon Pyon.Spec Rampack.Input.Spec

variable {X α : Type} {conv : ℚ → Option ℝ}

/-! ### Box scalers -/

theorem scaler_make {k : ScalerKind} {x : ℝ} (hx : 0 < x) : Scaler.make k x = .ok ⟨k, x⟩ := by
  rw [Scaler.make, decide_eq_true hx]
  rfl

theorem deltaV_reads : ∃ c, createDeltaV (X := X) = .ok c ∧ c.name = "delta_v".toList ∧
    Interprets c.toMatcher (fun n s => ∃ a x, Call n "delta_v" [("step", none)] [a] ∧ IsPositive a x ∧ s = ⟨.adapter .delta, x⟩) (fun s => .scaler (some s)) := by
  refine ⟨_, rfl, rfl, fun n v => ?_⟩
  rw [class_run (.required .nil) rfl (by decide) rfl rfl]
  simp only [exists_read positiveFloat_reads, exists_unread]
  eval_class
  constructor
  · rintro ⟨a, x, g1, g2, -, g3⟩
    rw [scaler_make g1.2, construct_ok, ok_bind'] at g3
    cases g3
    exact ⟨_, ⟨a, x, g2, g1, rfl⟩, rfl⟩
  · rintro ⟨s, ⟨a, x, g2, g1, rfl⟩, rfl⟩
    refine ⟨a, x, g1, g2, by simp [Satisfied], ?_⟩
    rw [scaler_make g1.2]
    rfl

theorem anisotropic_make {sampler : FactorSampler} {d : Directions} {i : Bool} :
    VolumeScaler.mkAnisotropic sampler d i = if d = [] then .throw "Expects(!scalingDirection.empty())" else .ok (.anisotropic sampler d i) := by
  cases d <;> rfl

theorem anisotropic_reads (hconv : Rampack.Spec.RoundsIntegers conv) (name : String) (hname : name.toList ≠ []) (sampler : FactorSampler) :
    ∃ c, createAnisotropic (X := X) conv name sampler = .ok c ∧ c.name = name.toList ∧
    Interprets c.toMatcher (fun n s => ∃ a b e d x together, Call n name [("spec", none), ("step", none), ("scale_together", some (.boolean true))] [a, b, e] ∧
      IsDirection a d ∧ d ≠ [] ∧ IsPositive b x ∧ e = .boolean together ∧ s = ⟨.adapter (.anisotropic sampler d (!together)), x⟩) (fun s => .scaler (some s)) := by
  have h1 : boolean.run (.boolean true) = .matched (.value (.flag true) : Any ℝ (Value X)) := (boolean_reads _ _).mpr ⟨true, rfl, rfl⟩
  refine ⟨_, by rw [createAnisotropic, optional_ok (parse_true hconv) h1, Outcome.ok_bind, createClass, if_neg hname]; rfl, rfl, fun n v => ?_⟩
  rw [class_run (.required (.required (.optional h1 .nil))) rfl (by decide) rfl rfl]
  simp only [exists_read direction_reads, exists_read positiveFloat_reads, exists_read boolean_reads, exists_unread]
  eval_class
  constructor
  · rintro ⟨a, d, g1, b, x, g2, e, t, g3, g4, -, g5⟩
    rw [anisotropic_make] at g5
    split_ifs at g5 with hd
    · cases g5
    · rw [construct_ok, ok_bind', scaler_make g2.2, construct_ok, ok_bind'] at g5
      cases g5
      exact ⟨_, ⟨a, b, e, d, x, t, g4, g1, hd, g2, g3, rfl⟩, rfl⟩
  · rintro ⟨s, ⟨a, b, e, d, x, t, g4, g1, hd, g2, g3, rfl⟩, rfl⟩
    refine ⟨a, d, g1, b, x, g2, e, t, g3, g4, by simp [Satisfied], ?_⟩
    rw [anisotropic_make, if_neg hd, construct_ok, ok_bind', scaler_make g2.2]
    rfl

theorem triclinic_reads (hconv : Rampack.Spec.RoundsIntegers conv) : ∃ c, createDeltaTriclinic (X := X) conv = .ok c ∧ c.name = "delta_triclinic".toList ∧
    Interprets c.toMatcher (fun n s => ∃ a b x together, Call n "delta_triclinic" [("step", none), ("scale_together", some (.boolean true))] [a, b] ∧
      IsPositive a x ∧ b = .boolean together ∧ s = ⟨.triclinicDelta together, x⟩) (fun s => .scaler (some s)) := by
  have h1 : boolean.run (.boolean true) = .matched (.value (.flag true) : Any ℝ (Value X)) := (boolean_reads _ _).mpr ⟨true, rfl, rfl⟩
  refine ⟨_, by rw [createDeltaTriclinic, optional_ok (parse_true hconv) h1]; rfl, rfl, fun n v => ?_⟩
  rw [class_run (.required (.optional h1 .nil)) rfl (by decide) rfl rfl]
  simp only [exists_read positiveFloat_reads, exists_read boolean_reads, exists_unread]
  eval_class
  constructor
  · rintro ⟨b, x, g2, e, t, g3, g4, -, g5⟩
    rw [scaler_make g2.2, construct_ok, ok_bind'] at g5
    cases g5
    exact ⟨_, ⟨b, e, x, t, g4, g2, g3, rfl⟩, rfl⟩
  · rintro ⟨s, ⟨b, e, x, t, g4, g2, g3, rfl⟩, rfl⟩
    refine ⟨b, x, g2, e, t, g3, g4, by simp [Satisfied], ?_⟩
    rw [scaler_make g2.2]
    rfl

theorem disabled_reads : ∃ c, createDisabled (X := X) = .ok c ∧ c.name = "disabled".toList ∧
    ∀ n v, c.toMatcher.run n = .matched v ↔ Call n "disabled" [] [] ∧ v = .value .scalingDisabled := by
  refine ⟨_, rfl, rfl, fun n v => ?_⟩
  rw [class_run .nil rfl (by decide) rfl rfl]
  simp only [exists_unread]
  eval_class
  constructor
  · rintro ⟨h, -, rfl⟩
    exact ⟨h, rfl⟩
  · rintro ⟨h, rfl⟩
    exact ⟨h, by simp [Satisfied], rfl⟩

/-- The values which stand for what is said about scaling of the box. -/
def scalingValue : ScalerStatus → Value X
  | .unset => .scaler none
  | .disabled => .scalingDisabled
  | .enabled s => .scaler (some s)

/-- The matcher of `box_move_type`. -/
theorem boxScaler_reads (hconv : Rampack.Spec.RoundsIntegers conv) : ∃ c : Choice ℝ (Value X), createBoxScaler conv = .ok c ∧
    Interprets c.toMatcher IsScaling scalingValue := by
  obtain ⟨c1, e1, n1, r1⟩ := deltaV_reads (X := X)
  obtain ⟨c2, e2, n2, r2⟩ := anisotropic_reads (X := X) hconv "linear" (by decide) .linear
  obtain ⟨c3, e3, n3, r3⟩ := anisotropic_reads (X := X) hconv "log" (by decide) .log
  obtain ⟨c4, e4, n4, r4⟩ := triclinic_reads (X := X) hconv
  obtain ⟨c5, e5, n5, r5⟩ := disabled_reads (X := X)
  refine ⟨_, by rw [createBoxScaler, createScaler, e1, e2, e3, e4, e5]; rfl, fun n v => ?_⟩
  refine Iff.trans (alternative_reads (heads := ["delta_v", "linear", "log", "delta_triclinic", "disabled"].map (fun s => Head.named s.toList) ++ [.none])
    (by exact ⟨⟨⟨⟨⟨trivial, trivial⟩, trivial⟩, trivial⟩, trivial⟩, sound_none⟩)
    (by exact .cons (takes_class n1) (.cons (takes_class n2) (.cons (takes_class n3) (.cons (takes_class n4) (.cons (takes_class n5) (.cons takes_none .nil))))))
    (by
      rw [List.nodup_append]
      exact ⟨heads_nodup (by decide), by simp, by simp⟩)) ?_
  simp only [options, List.cons_append, List.nil_append, List.mem_cons, List.not_mem_nil, or_false, exists_eq_or_imp, exists_eq_left, r1 n v, r2 n v, r3 n v, r4 n v,
    r5 n v, none_run, Except.ok.injEq]
  constructor
  · rintro (⟨s, ⟨a, x, h1, h2, rfl⟩, rfl⟩ | ⟨s, ⟨a, b, e, d, x, t, h1, h2, h3, h4, h5, rfl⟩, rfl⟩ | ⟨s, ⟨a, b, e, d, x, t, h1, h2, h3, h4, h5, rfl⟩, rfl⟩ |
      ⟨s, ⟨a, b, x, t, h1, h2, h3, rfl⟩, rfl⟩ | ⟨h1, rfl⟩ | ⟨rfl, rfl⟩)
    · exact ⟨_, .enabled (.deltaV h1 h2), rfl⟩
    · exact ⟨_, .enabled (.anisotropic (by simp) h1 h2 h3 h4 h5), rfl⟩
    · exact ⟨_, .enabled (.anisotropic (by simp) h1 h2 h3 h4 h5), rfl⟩
    · exact ⟨_, .enabled (.triclinic h1 h2 h3), rfl⟩
    · exact ⟨_, .disabled h1, rfl⟩
    · exact ⟨_, .unset, rfl⟩
  · rintro ⟨s, h, rfl⟩
    cases h with
    | unset => exact .inr (.inr (.inr (.inr (.inr ⟨rfl, rfl⟩))))
    | disabled h => exact .inr (.inr (.inr (.inr (.inl ⟨h, rfl⟩))))
    | enabled h =>
      cases h with
      | deltaV h1 h2 => exact .inl ⟨_, ⟨_, _, h1, h2, rfl⟩, rfl⟩
      | anisotropic hm h1 h2 h3 h4 h5 =>
        simp only [List.mem_cons, Prod.mk.injEq, List.not_mem_nil, or_false] at hm
        rcases hm with ⟨rfl, rfl⟩ | ⟨rfl, rfl⟩
        · exact .inr (.inl ⟨_, ⟨_, _, _, _, _, _, h1, h2, h3, h4, h5, rfl⟩, rfl⟩)
        · exact .inr (.inr (.inl ⟨_, ⟨_, _, _, _, _, _, h1, h2, h3, h4, h5, rfl⟩, rfl⟩))
      | triclinic h1 h2 h3 => exact .inr (.inr (.inr (.inl ⟨_, ⟨_, _, _, _, h1, h2, h3, rfl⟩, rfl⟩)))

/-! ### Snapshot writers -/

theorem ramsnap_reads : ∃ c, createRamsnap (X := X) = .ok c ∧ c.name = "ramsnap".toList ∧
    Interprets c.toMatcher (fun n w => ∃ a f, Call n "ramsnap" [("filename", none)] [a] ∧ IsText a f ∧ w = ⟨f, .ramsnap⟩) .writer := by
  refine ⟨_, rfl, rfl, fun n v => ?_⟩
  rw [class_run (.required .nil) rfl (by decide) rfl rfl]
  simp only [exists_read filename_reads, exists_unread]
  eval_class
  constructor
  · rintro ⟨a, x, h1, h2, -, rfl⟩
    exact ⟨_, ⟨a, x, h2, h1, rfl⟩, rfl⟩
  · rintro ⟨p, ⟨a, x, h1, h2, rfl⟩, rfl⟩
    exact ⟨a, x, h2, h1, by simp [Satisfied], rfl⟩

theorem xyz_reads : ∃ c, createXyz (X := X) = .ok c ∧ c.name = "xyz".toList ∧
    Interprets c.toMatcher (fun n w => ∃ a f, Call n "xyz" [("filename", none)] [a] ∧ IsText a f ∧ w = ⟨f, .xyz⟩) .writer := by
  refine ⟨_, rfl, rfl, fun n v => ?_⟩
  rw [class_run (.required .nil) rfl (by decide) rfl rfl]
  simp only [exists_read filename_reads, exists_unread]
  eval_class
  constructor
  · rintro ⟨a, x, h1, h2, -, rfl⟩
    exact ⟨_, ⟨a, x, h2, h1, rfl⟩, rfl⟩
  · rintro ⟨p, ⟨a, x, h1, h2, rfl⟩, rfl⟩
    exact ⟨a, x, h2, h1, by simp [Satisfied], rfl⟩

theorem call_empty {n : Node ℝ} {name : String} : Call n name [] [] ↔ n = .dataclass name.toList [] [] := by
  unfold Call
  constructor
  · rintro ⟨ps, ks, rfl, h1, h2, -⟩
    have : ps = [] := by simpa using h1
    subst this
    have : ks = [] := by
      rw [List.eq_nil_iff_forall_not_mem]
      intro e he
      simpa using h2 e he
    rw [this]
  · rintro rfl
    exact ⟨[], [], rfl, by simp, by simp, by simp [Arguments]⟩

theorem style_class_reads (name : String) (hname : name.toList ≠ []) (b : Bool) : ∃ c, createStyle (X := X) name b = .ok c ∧ c.name = name.toList ∧
    ∀ n v, c.toMatcher.run n = .matched v ↔ n = .dataclass name.toList [] [] ∧ v = .value (.style b) := by
  refine ⟨_, by rw [createStyle, createClass, if_neg hname]; rfl, rfl, fun n v => ?_⟩
  rw [class_run .nil rfl (by decide) rfl rfl]
  simp only [exists_unread]
  eval_class
  rw [call_empty]
  constructor
  · rintro ⟨h, -, rfl⟩
    exact ⟨h, rfl⟩
  · rintro ⟨h, rfl⟩
    exact ⟨h, by simp [Satisfied], rfl⟩

/-- Styles of Wolfram output. -/
def IsStyle (n : Node ℝ) (affine : Bool) : Prop :=
  ∃ s, n = .dataclass s [] [] ∧ (s, affine) ∈ [("standard".toList, false), ("affine_transform".toList, true)]

theorem style_reads : ∃ c d, createStyle (X := X) "standard" false = .ok c ∧ createStyle (X := X) "affine_transform" true = .ok d ∧
    Interprets (Choice.join (.dataclass c) (.dataclass d)).toMatcher IsStyle .style := by
  obtain ⟨c1, e1, n1, r1⟩ := style_class_reads (X := X) "standard" (by decide) false
  obtain ⟨c2, e2, n2, r2⟩ := style_class_reads (X := X) "affine_transform" (by decide) true
  refine ⟨c1, c2, e1, e2, fun n v => ?_⟩
  refine Iff.trans (alternative_reads (heads := ["standard", "affine_transform"].map (fun s => Head.named s.toList)) (by exact ⟨trivial, trivial⟩)
    (by exact .cons (takes_class n1) (.cons (takes_class n2) .nil)) (heads_nodup (by decide))) ?_
  simp only [options, List.cons_append, List.nil_append, List.mem_cons, List.not_mem_nil, or_false, exists_eq_or_imp, exists_eq_left, r1 n v, r2 n v]
  unfold IsStyle
  simp only [List.mem_cons, Prod.mk.injEq, List.not_mem_nil, or_false]
  constructor
  · rintro (⟨rfl, rfl⟩ | ⟨rfl, rfl⟩)
    · exact ⟨_, ⟨_, rfl, .inl ⟨rfl, rfl⟩⟩, rfl⟩
    · exact ⟨_, ⟨_, rfl, .inr ⟨rfl, rfl⟩⟩, rfl⟩
  · rintro ⟨b, ⟨s, rfl, ⟨rfl, rfl⟩ | ⟨rfl, rfl⟩⟩, rfl⟩
    · exact .inl ⟨rfl, rfl⟩
    · exact .inr ⟨rfl, rfl⟩

theorem keyword_run {c : ClassMatcher ℝ (Value X)} {name : String} {sig ms} (hd : Declares c.arguments sig ms) (hname : c.name = name.toList)
    (hn : (sig.map Prod.fst).Nodup) (hv : c.variadic = none) {m : DictionaryMatcher ℝ (Value X)} (hk : c.keyword = some m) (hf : c.filters = [])
    {n : Node ℝ} {v : Any ℝ (Value X)} :
    c.toMatcher.run n = .matched v ↔ ∃ args vals, RunAll ms args vals ∧ ∃ ps ks kw, n = .dataclass name.toList ps ks ∧ ps.length ≤ sig.length ∧
      Arguments ps ks sig args ∧ (∃ es, (∀ k n, Given es k n ↔ Given ks k n ∧ ¬ ∃ s ∈ sig, k = s.1.toList) ∧ DictionaryOf m es kw) ∧
      c.mapping ⟨pairs sig vals, [], kw⟩ = .ok v := by
  have hnd : (c.arguments.map (·.name)).Nodup := by
    have := hn.map (f := String.toList) (fun a b h => String.toList_inj.mp h)
    rw [List.map_map] at this
    rw [hd.names]
    exact this
  have hl := hd.length
  change c.run n = _ ↔ _
  constructor
  · intro h
    obtain ⟨ps, ks, rfl⟩ := C46_kind h
    obtain ⟨_, ⟨st, va, kw⟩, hb, -, hm⟩ := (C46_binds hnd).mp h
    have hrest := hb.rest
    have hnamed := hb.named
    unfold Rest at hrest
    unfold NamedRest at hnamed
    rw [hv] at hrest
    rw [hk] at hnamed
    obtain ⟨hr1, rfl⟩ := hrest
    simp only [declared_iff hd] at hnamed
    obtain ⟨args, vals, h1, h2, rfl⟩ := (arguments_iff hd).mp ⟨hb.names, hb.values⟩
    exact ⟨args, vals, h2, ps, ks, kw, by rw [hname], by rw [← hl.1]; exact hr1, h1, hnamed, hm⟩
  · rintro ⟨args, vals, h4, ps, ks, kw, rfl, h1, h3, h2, h6⟩
    rw [C46_binds hnd]
    obtain ⟨g1, g2⟩ := (arguments_iff hd).mpr ⟨args, vals, h3, h4, rfl⟩
    refine ⟨hname.symm, ⟨pairs sig vals, [], kw⟩, ⟨g1, g2, ?_, ?_⟩, by rw [hf]; simp [Satisfied], h6⟩
    · unfold Rest
      rw [hv]
      exact ⟨by rw [hl.1]; exact h1, rfl⟩
    · unfold NamedRest
      rw [hk]
      simp only [declared_iff hd]
      exact h2

theorem entryText_list (l : List (Text × Text)) : (l.map fun e => (e.1, (.value (.text e.2) : Any ℝ (Value X)))).mapM entryText = .ok l := by
  induction l with
  | nil => rfl
  | cons e l ih =>
    rw [List.map_cons, List.mapM_cons, ih]
    rfl

theorem given_unique {β : Type} {es : List (Text × β)} {k : Text} {a b : β} (ha : Given es k a) (hb : Given es k b) : a = b := by
  obtain ⟨p, s, e1, h1⟩ := ha
  obtain ⟨q, t, e2, h2⟩ := hb
  rw [e1] at e2
  rcases List.append_eq_append_iff.mp e2 with ⟨w, hq, hw⟩ | ⟨w, hp, hw⟩
  · cases w with
    | nil =>
      rw [List.nil_append] at hw
      injection hw with hw
      injection hw
    | cons x w =>
      rw [List.cons_append] at hw
      injection hw with _ hw
      exact absurd rfl (h1 (k, b) (by rw [hw]; simp))
  · cases w with
    | nil =>
      rw [List.nil_append] at hw
      injection hw with hw
      injection hw with _ hw
      exact hw.symm
    | cons x w =>
      rw [List.cons_append] at hw
      injection hw with _ hw
      exact absurd rfl (h2 (k, a) (by rw [hw]; simp))

/-- The dictionary of texts. -/
theorem texts_iff {es : List (Text × Node ℝ)} {as : List (Text × Any ℝ (Value X))} :
    DictionaryOf ⟨[], some (matcherString [] (fun s => .ok (.value (.text s)))), [], fun es => .ok (.dictionary es)⟩ es as ↔
      ∃ params : List (Text × Text), as = params.map (fun e => (e.1, .value (.text e.2))) ∧ Ordered params ∧
        ∀ k m, Given es k m ↔ ∃ s, m = .string s ∧ (k, s) ∈ params := by
  have hval : ∀ {k : Text} {n : Node ℝ} {a : Any ℝ (Value X)},
      ValueAt ⟨[], some (matcherString [] (fun s => .ok (.value (.text s)))), [], fun es => .ok (.dictionary es)⟩ k n a ↔
        ∃ s, n = .string s ∧ a = .value (.text s) := by
    intro k n a
    constructor
    · rintro (⟨h, -, -, -⟩ | ⟨-, h⟩)
      · simp at h
      · obtain ⟨s, rfl, -, h⟩ := string_run.mp h
        cases h
        exact ⟨s, rfl, rfl⟩
    · rintro ⟨s, rfl, rfl⟩
      exact .other (by simp) (string_run.mpr ⟨s, rfl, by simp [Satisfied], rfl⟩)
  constructor
  · rintro ⟨h1, h2, h3, -⟩
    obtain ⟨params, hp⟩ : ∃ params : List (Text × Text), as = params.map (fun e => (e.1, .value (.text e.2))) := by
      have : ∀ l : List (Text × Any ℝ (Value X)), (∀ e ∈ l, ∃ s, e.2 = .value (.text s)) →
          ∃ params : List (Text × Text), l = params.map (fun e => (e.1, .value (.text e.2))) := by
        intro l
        induction l with
        | nil => intro _; exact ⟨[], rfl⟩
        | cons e l ih =>
          intro h
          obtain ⟨ps, hps⟩ := ih fun e he => h e (List.mem_cons_of_mem _ he)
          obtain ⟨s, hs⟩ := h e List.mem_cons_self
          exact ⟨(e.1, s) :: ps, by rw [List.map_cons, ← hps, ← hs]⟩
      refine this as fun e he => ?_
      obtain ⟨n, -, hv⟩ := h3 e.1 e.2 he
      obtain ⟨s, -, hs⟩ := hval.mp hv
      exact ⟨s, hs⟩
    subst hp
    refine ⟨params, rfl, ?_, fun k m => ⟨fun hg => ?_, ?_⟩⟩
    · have := h1
      unfold Ordered at this ⊢
      rw [List.pairwise_map] at this
      exact this
    · obtain ⟨a, ha, hv⟩ := h2 k m hg
      obtain ⟨s, rfl, rfl⟩ := hval.mp hv
      obtain ⟨e, he, heq⟩ := List.mem_map.mp ha
      injection heq with h4 h5
      injection h5 with h5
      injection h5 with h5
      exact ⟨s, rfl, by rw [← h4, ← h5]; exact he⟩
    · rintro ⟨s, rfl, hs⟩
      obtain ⟨n, hg, hv⟩ := h3 k (.value (.text s)) (List.mem_map.mpr ⟨(k, s), hs, rfl⟩)
      obtain ⟨s', rfl, h5⟩ := hval.mp hv
      injection h5 with h5
      injection h5 with h5
      rw [h5]
      exact hg
  · rintro ⟨params, rfl, ho, hg⟩
    refine ⟨?_, fun k n h => ?_, fun k a h => ?_, by simp [Satisfied]⟩
    · unfold Ordered at ho ⊢
      rw [List.pairwise_map]
      exact ho
    · obtain ⟨s, rfl, hs⟩ := (hg k n).mp h
      exact ⟨_, List.mem_map.mpr ⟨(k, s), hs, rfl⟩, hval.mpr ⟨s, rfl, rfl⟩⟩
    · obtain ⟨e, he, heq⟩ := List.mem_map.mp h
      cases heq
      exact ⟨.string e.2, (hg e.1 _).mpr ⟨e.2, rfl, he⟩, hval.mpr ⟨_, rfl, rfl⟩⟩

/-- What is expected from an invocation of `wolfram`. -/
def IsWolfram (n : Node ℝ) (w : SnapshotOut) : Prop :=
  ∃ (ps : List (Node ℝ)) (ks : List (Text × Node ℝ)) (a b : Node ℝ) (f : Text) (affine : Bool) (params : List (Text × Text)),
    n = .dataclass "wolfram".toList ps ks ∧ ps.length ≤ 2 ∧ Arguments ps ks [("filename", none), ("style", some (.dataclass "standard".toList [] []))] [a, b] ∧
      IsText a f ∧ IsStyle b affine ∧ Ordered params ∧
      (∀ k m, (Given ks k m ∧ k ≠ "filename".toList ∧ k ≠ "style".toList) ↔ ∃ s, m = .string s ∧ (k, s) ∈ params) ∧ w = ⟨f, .wolfram affine params⟩

/-- Entries restricted to some keys. -/
theorem given_filter {β : Type} {ks : List (Text × β)} {p : Text → Bool} {k : Text} {a : β} :
    Given (ks.filter fun e => p e.1) k a ↔ Given ks k a ∧ p k = true := by
  constructor
  · rintro ⟨q, s, h, hs⟩
    have hm : p k = true := by
      have : (k, a) ∈ ks.filter fun e => p e.1 := by rw [h]; simp
      exact (List.mem_filter.mp this).2
    refine ⟨?_, hm⟩
    induction ks generalizing q with
    | nil => simp at h
    | cons e ks ih =>
      rw [List.filter_cons] at h
      by_cases he : p e.1 = true
      · rw [if_pos he] at h
        cases q with
        | nil =>
          rw [List.nil_append] at h
          injection h with h1 h2
          refine ⟨[], ks, by rw [h1]; rfl, fun x hx hxk => ?_⟩
          have : x ∈ ks.filter fun e => p e.1 := List.mem_filter.mpr ⟨hx, by rw [hxk]; exact hm⟩
          rw [h2] at this
          exact hs x this hxk
        | cons y q =>
          rw [List.cons_append] at h
          injection h with h1 h2
          obtain ⟨q', s', h3, h4⟩ := ih q h2
          exact ⟨e :: q', s', by rw [h3]; rfl, h4⟩
      · rw [if_neg he] at h
        obtain ⟨q', s', h3, h4⟩ := ih q h
        exact ⟨e :: q', s', by rw [h3]; rfl, h4⟩
  · rintro ⟨⟨q, s, rfl, hs⟩, hm⟩
    refine ⟨q.filter fun e => p e.1, s.filter fun e => p e.1, by simp [List.filter_cons, hm], fun e he => hs e (List.mem_filter.mp he).1⟩

theorem wolfram_reads (hconv : Rampack.Spec.RoundsIntegers conv) : ∃ c, createWolfram (X := X) conv = .ok c ∧ c.name = "wolfram".toList ∧
    Interprets c.toMatcher IsWolfram .writer := by
  obtain ⟨c, d, ec, ed, hs⟩ := style_reads (X := X)
  have h1 : (Choice.join (.dataclass c) (.dataclass d)).toMatcher.run (.dataclass "standard".toList [] []) = .matched (.value (.style false) : Any ℝ (Value X)) :=
    (hs _ _).mpr ⟨false, ⟨_, rfl, by simp⟩, rfl⟩
  refine ⟨_, by rw [createWolfram, ec, Outcome.ok_bind, ed, Outcome.ok_bind, optional_ok (parse_standard hconv) h1]; rfl, rfl, fun n v => ?_⟩
  rw [keyword_run (.required (.optional h1 .nil)) rfl (by decide) rfl rfl rfl]
  simp only [exists_read filename_reads, exists_read hs, exists_unread, ClassMatcher.mapTo]
  eval_class
  simp only [texts_iff]
  have hdecl : ∀ k : Text, (¬ ∃ s ∈ [("filename", (none : Option (Node ℝ))), ("style", some (.dataclass "standard".toList [] []))], k = s.1.toList) ↔
      k ≠ "filename".toList ∧ k ≠ "style".toList := by
    intro k
    simp only [List.mem_cons, List.not_mem_nil, or_false, exists_eq_or_imp, exists_eq_left, not_or, ne_eq]
  simp only [hdecl]
  constructor
  · rintro ⟨a, f, g1, b, st, g2, ps, ks, kw, rfl, g3, g4, ⟨es, g5, params, rfl, g6, g7⟩, g8⟩
    rw [entryText_list, ok_bind'] at g8
    cases g8
    refine ⟨_, ⟨ps, ks, a, b, f, st, params, rfl, g3, g4, g1, g2, g6, fun k m => ?_, rfl⟩, rfl⟩
    rw [← g7, g5]
  · rintro ⟨w, ⟨ps, ks, a, b, f, st, params, rfl, g3, g4, g1, g2, g6, g7, rfl⟩, rfl⟩
    refine ⟨a, f, g1, b, st, g2, ps, ks, _, rfl, g3, g4,
      ⟨ks.filter fun e => decide (e.1 ≠ "filename".toList ∧ e.1 ≠ "style".toList), ?_, params, rfl, g6, ?_⟩, ?_⟩
    · intro k m
      rw [given_filter (p := fun k => decide (k ≠ "filename".toList ∧ k ≠ "style".toList)), decide_eq_true_eq]
    · intro k m
      rw [given_filter (p := fun k => decide (k ≠ "filename".toList ∧ k ≠ "style".toList)), decide_eq_true_eq, g7]
    · rw [entryText_list]
      rfl

theorem isWriter_iff {n : Node ℝ} {w : SnapshotOut} : IsWriter n w ↔ (∃ a f, Call n "ramsnap" [("filename", none)] [a] ∧ IsText a f ∧ w = ⟨f, .ramsnap⟩) ∨
    IsWolfram n w ∨ ∃ a f, Call n "xyz" [("filename", none)] [a] ∧ IsText a f ∧ w = ⟨f, .xyz⟩ := by
  constructor
  · intro h
    cases h with
    | ramsnap h1 h2 => exact .inl ⟨_, _, h1, h2, rfl⟩
    | xyz h1 h2 => exact .inr (.inr ⟨_, _, h1, h2, rfl⟩)
    | wolfram h1 h2 h3 h4 h5 h6 h7 => exact .inr (.inl ⟨_, _, _, _, _, _, _, rfl, h1, h2, h3, ⟨_, h4, h5⟩, h6, h7, rfl⟩)
  · rintro (⟨a, f, h1, h2, rfl⟩ | ⟨ps, ks, a, b, f, st, params, rfl, h1, h2, h3, ⟨s, h4, h5⟩, h6, h7, rfl⟩ | ⟨a, f, h1, h2, rfl⟩)
    · exact .ramsnap h1 h2
    · exact .wolfram h1 h2 h3 h4 h5 h6 h7
    · exact .xyz h1 h2

/-- The matcher of `output_last_snapshot`. -/
theorem lastSnapshot_reads (hconv : Rampack.Spec.RoundsIntegers conv) : ∃ m : Matcher ℝ (Value X), createLastSnapshot conv = .ok m ∧
    Interprets m (ListOf IsWriter) .writers := by
  obtain ⟨c1, e1, n1, r1⟩ := ramsnap_reads (X := X)
  obtain ⟨c2, e2, n2, r2⟩ := wolfram_reads (X := X) hconv
  obtain ⟨c3, e3, n3, r3⟩ := xyz_reads (X := X)
  have hw : Interprets (Choice.join (.join (.dataclass c1) (.dataclass c2)) (.dataclass c3)).toMatcher IsWriter .writer := by
    intro n v
    refine Iff.trans (alternative_reads (heads := ["ramsnap", "wolfram", "xyz"].map (fun s => Head.named s.toList)) (by exact ⟨⟨trivial, trivial⟩, trivial⟩)
      (by exact .cons (takes_class n1) (.cons (takes_class n2) (.cons (takes_class n3) .nil))) (heads_nodup (by decide))) ?_
    simp only [options, List.cons_append, List.nil_append, List.mem_cons, List.not_mem_nil, or_false, exists_eq_or_imp, exists_eq_left, r1 n v, r2 n v, r3 n v,
      isWriter_iff, or_and_right, exists_or]
  refine ⟨_, by rw [createLastSnapshot, createWriter, e1, e2, e3]; rfl, ?_⟩
  exact (vector_reads hw (as := asWriter) (fun x => rfl) (filters := []) (P := fun _ => True) (by simp [Satisfied])).congr (by simp)

/-! ### Recorders -/

theorem recorderClass_reads (name : String) (hname : name.toList ≠ []) (b : Bool) : ∃ c, createRecorderClass (X := X) name b = .ok c ∧ c.name = name.toList ∧
    Interprets c.toMatcher (fun n r => ∃ a f, Call n name [("filename", none)] [a] ∧ IsText a f ∧ r = ⟨f, b⟩) .recorder := by
  refine ⟨_, by rw [createRecorderClass, createClass, if_neg hname]; rfl, rfl, fun n v => ?_⟩
  rw [class_run (.required .nil) rfl (by decide) rfl rfl]
  simp only [exists_read filename_reads, exists_unread]
  eval_class
  constructor
  · rintro ⟨a, x, h1, h2, -, rfl⟩
    exact ⟨_, ⟨a, x, h2, h1, rfl⟩, rfl⟩
  · rintro ⟨p, ⟨a, x, h1, h2, rfl⟩, rfl⟩
    exact ⟨a, x, h2, h1, by simp [Satisfied], rfl⟩

/-- The matcher of `record_trajectory`. -/
theorem recordTrajectory_reads : ∃ m : Matcher ℝ (Value X), createRecordTrajectory = .ok m ∧ Interprets m (ListOf IsRecorder) .recorders := by
  obtain ⟨c1, e1, n1, r1⟩ := recorderClass_reads (X := X) "ramtrj" (by decide) true
  obtain ⟨c2, e2, n2, r2⟩ := recorderClass_reads (X := X) "xyz" (by decide) false
  have hw : Interprets (Choice.join (.dataclass c1) (.dataclass c2)).toMatcher IsRecorder .recorder := by
    intro n v
    refine Iff.trans (alternative_reads (heads := ["ramtrj", "xyz"].map (fun s => Head.named s.toList)) (by exact ⟨trivial, trivial⟩)
      (by exact .cons (takes_class n1) (.cons (takes_class n2) .nil)) (heads_nodup (by decide))) ?_
    simp only [options, List.cons_append, List.nil_append, List.mem_cons, List.not_mem_nil, or_false, exists_eq_or_imp, exists_eq_left, r1 n v, r2 n v]
    constructor
    · rintro (⟨s, ⟨a, f, h1, h2, rfl⟩, rfl⟩ | ⟨s, ⟨a, f, h1, h2, rfl⟩, rfl⟩)
      · exact ⟨_, .ramtrj h1 h2, rfl⟩
      · exact ⟨_, .xyz h1 h2, rfl⟩
    · rintro ⟨s, h, rfl⟩
      cases h with
      | ramtrj h1 h2 => exact .inl ⟨_, ⟨_, _, h1, h2, rfl⟩, rfl⟩
      | xyz h1 h2 => exact .inr ⟨_, ⟨_, _, h1, h2, rfl⟩, rfl⟩
  refine ⟨_, by rw [createRecordTrajectory, createRecorder, e1, e2]; rfl, ?_⟩
  exact (vector_reads hw (as := asRecorder) (fun x => rfl) (filters := []) (P := fun _ => True) (by simp [Satisfied])).congr (by simp)

end Rampack.Input
