import Verif.Frontend.ShapeClassesReads
/-
What the matchers of shapes read: the classes made of parts.
-/
namespace Rampack.ShapeExpr

open Pyon Pyon.Spec Rampack.Input Rampack.Input.Spec Rampack.ShapeExpr.Spec Rampack.Shapes

variable {conv : ℚ → Option ℝ}

/-! ### Places of spheres -/

/-- The first element of an array is a number. -/
def BeginsNumber (n : Node ℝ) : Prop := ∃ x xs q, n = .array (x :: xs) ∧ IsNumber x q

/-- The first element of an array is an array. -/
def BeginsArray (n : Node ℝ) : Prop := ∃ ys xs, n = .array (.array ys :: xs)

theorem onePlace_reads : Interprets onePlace (fun n l => ∃ v, IsVec n v ∧ l = [v]) (fun l => .object (.vecs l)) := by
  intro n v
  unfold onePlace
  change (ArrayMatcher.run _ n) = _ ↔ _
  rw [C78_array]
  constructor
  · rintro ⟨ns, vs, rfl, ⟨h1, h2⟩, h3⟩
    rw [satisfied_one] at h2
    simp only [arraySize, Except.ok.injEq, decide_eq_true_eq] at h2
    obtain ⟨a, b, c, x, y, z, rfl, rfl, hx, hy, hz⟩ := three_floats h1 h2
    simp only [asVector, asReal, ok_bind', ok_pure', ok_map', Except.ok.injEq] at h3
    exact ⟨_, ⟨⟨x, y, z⟩, ⟨_, _, _, rfl, hx, hy, hz⟩, rfl⟩, h3.symm⟩
  · rintro ⟨_, ⟨⟨x, y, z⟩, ⟨a, b, c, rfl, hx, hy, hz⟩, rfl⟩, rfl⟩
    exact ⟨[a, b, c], [.value (.real x), .value (.real y), .value (.real z)], rfl, ⟨.cons ((float_reads _ _).mpr ⟨x, hx, rfl⟩)
      (.cons ((float_reads _ _).mpr ⟨y, hy, rfl⟩) (.cons ((float_reads _ _).mpr ⟨z, hz, rfl⟩) .nil)), satisfied_one.mpr rfl⟩, rfl⟩

theorem onePlace_fails (n : Node ℝ) (h : ¬ BeginsNumber n) : Fails n onePlace := by
  cases n with
  | array l =>
    cases l with
    | nil => exact ⟨_, rfl⟩
    | cons x xs =>
      cases x with
      | int i => exact absurd ⟨_, _, _, rfl, .inr ⟨i, rfl, rfl⟩⟩ h
      | float q => exact absurd ⟨_, _, q, rfl, .inl rfl⟩ h
      | _ => exact ⟨_, rfl⟩
  | _ => exact ⟨_, rfl⟩

theorem manyPlaces_fails (n : Node ℝ) (h : ¬ BeginsArray n) : Fails n (vector vec [arrayNonEmpty] asVec (fun l => .object (.vecs l))) := by
  cases n with
  | array l =>
    cases l with
    | nil => exact ⟨_, rfl⟩
    | cons x xs =>
      cases x with
      | array ys => exact absurd ⟨_, _, rfl⟩ h
      | _ => exact ⟨_, rfl⟩
  | _ => exact ⟨_, rfl⟩

theorem places_reads : Interprets places.toMatcher IsPlaces (fun l => .object (.vecs l)) := by
  intro n v
  have hs : Sound (V := V) (F := ℝ) places := ⟨sound_array, sound_array⟩
  unfold places at hs ⊢
  have hmany := vector_reads vec_reads (as := asVec) (fun x => rfl) (filters := [arrayNonEmpty]) (P := fun l => l ≠ []) (fun l => by
    rw [satisfied_one]; cases l <;> simp [arrayNonEmpty]) (w := fun l => .object (.vecs l))
  rw [(C79_first_partial hs).1, first_apart (ts := [BeginsNumber, BeginsArray])
    (by exact .cons onePlace_fails (.cons manyPlaces_fails .nil))
    (by
      simp only [List.pairwise_cons, List.mem_cons, List.not_mem_nil, or_false, forall_eq, false_imp_iff, implies_true, List.Pairwise.nil, and_true]
      rintro n ⟨x, xs, q, rfl, hx⟩ ⟨ys, zs, h⟩
      injection h with h
      injection h with h _
      subst h
      rcases hx with hx | ⟨i, hx, -⟩ <;> cases hx)]
  simp only [options, List.cons_append, List.nil_append, List.mem_cons, List.not_mem_nil, or_false, exists_eq_or_imp, exists_eq_left, onePlace_reads n v, hmany n v]
  constructor
  · rintro (⟨_, ⟨x, h, rfl⟩, rfl⟩ | ⟨l, ⟨⟨ns, rfl, h⟩, h2⟩, rfl⟩)
    · exact ⟨_, .one h, rfl⟩
    · exact ⟨_, .many h h2, rfl⟩
  · rintro ⟨_, (h | ⟨h1, h2⟩), rfl⟩
    · exact .inl ⟨_, ⟨_, h, rfl⟩, rfl⟩
    · exact .inr ⟨_, ⟨⟨_, rfl, h1⟩, h2⟩, rfl⟩

theorem balls_made {r : ℝ} (hr : 0 < r) (ps : List (Vec3 ℝ)) : ps.mapM (fun p => SphereData.make p r) = .ok (ps.map fun p => ⟨p, r⟩) := by
  induction ps with
  | nil => rfl
  | cons p ps ih =>
    have : SphereData.make p r = .ok ⟨p, r⟩ := by unfold SphereData.make; rw [decide_eq_true (show r > 0 from hr)]; rfl
    rw [List.mapM_cons, this, ih]
    rfl

theorem balls_reads : ∃ c, createBalls = .ok c ∧ c.name = "sphere".toList ∧ Interprets c.toMatcher IsBalls (fun l => .object (.spheres l)) := by
  refine ⟨_, rfl, rfl, fun n v => ?_⟩
  rw [class_run (.required (.required .nil)) rfl (by decide) rfl rfl]
  simp only [exists_read positiveFloat_reads, exists_read places_reads, exists_unread]
  eval_shape
  constructor
  · rintro ⟨a, ps, g1, b, r, g2, g3, -, h⟩
    rw [balls_made g2.2] at h
    simp only [construct, ok_bind', ok_pure', ok_map', Except.ok.injEq] at h
    exact ⟨_, ⟨g3, g1, g2⟩, h.symm⟩
  · rintro ⟨_, ⟨g3, g1, g2⟩, rfl⟩
    refine ⟨_, _, g1, _, _, g2, g3, by simp [Satisfied], ?_⟩
    rw [balls_made g2.2]
    rfl

theorem spheres_reads {c : ClassMatcher ℝ V} (hn : c.name = "sphere".toList) (hc : Interprets c.toMatcher IsBalls (fun l => .object (.spheres l))) :
    Interprets (Choice.join (.dataclass c) (.other (vector c.toMatcher [arrayNonEmpty] asSpheres (fun ls => .object (.spheres ls.flatten))))).toMatcher IsSpheres
      (fun l => .object (.spheres l)) := by
  intro n v
  have hmany := vector_reads hc (as := asSpheres) (fun x => rfl) (filters := [arrayNonEmpty]) (P := fun l => l ≠ []) (fun l => by
    rw [satisfied_one]; cases l <;> simp [arrayNonEmpty]) (w := fun ls => .object (.spheres ls.flatten))
  refine Iff.trans (alternative_reads (heads := [.named "sphere".toList, .array]) (by exact ⟨trivial, sound_array⟩)
    (by exact .cons (takes_class hn) (.cons takes_array .nil)) (by simp)) ?_
  simp only [options, List.cons_append, List.nil_append, List.mem_cons, List.not_mem_nil, or_false, exists_eq_or_imp, exists_eq_left, hc n v, hmany n v]
  constructor
  · rintro (⟨l, h, rfl⟩ | ⟨l, ⟨⟨ns, rfl, h⟩, h2⟩, rfl⟩)
    · exact ⟨_, .one h, rfl⟩
    · exact ⟨_, .many h h2, rfl⟩
  · rintro ⟨_, (h | ⟨h1, h2⟩), rfl⟩
    · exact .inl ⟨_, h, rfl⟩
    · exact .inr ⟨_, ⟨⟨_, rfl, h1⟩, h2⟩, rfl⟩

/-! ### Chains of rods -/

theorem chain_made {r : ℝ} (hr : 0 < r) : ∀ ps : List (Vec3 ℝ), chainRods r ps = .ok (List.zipWith (rodBetween r) ps ps.tail)
  | [] => rfl
  | [_] => rfl
  | a :: b :: rest => by
    have : ∀ p h, RodData.make p h r = .ok ⟨p, h, h.norm, r, r + h.norm⟩ := fun p h => by unfold RodData.make; rw [decide_eq_true (show r > 0 from hr)]; rfl
    rw [chainRods, this, chain_made hr (b :: rest)]
    rfl

theorem chain_reads : ∃ c, createChain = .ok c ∧ c.name = "sc".toList ∧ Interprets c.toMatcher IsChain (fun l => .object (.rods l)) := by
  have hmany := vector_reads vec_reads (as := asVec) (fun x => rfl) (filters := [arraySizeAtLeast 2]) (P := fun l => 2 ≤ l.length) (fun l => by
    rw [satisfied_one]; simp [arraySizeAtLeast]) (w := fun l => .object (.vecs l))
  refine ⟨_, rfl, rfl, fun n v => ?_⟩
  rw [class_run (.required (.required .nil)) rfl (by decide) rfl rfl]
  simp only [exists_read positiveFloat_reads, exists_read hmany, exists_unread]
  eval_shape
  constructor
  · rintro ⟨a, ps, ⟨⟨ns, rfl, g1⟩, g4⟩, b, r, g2, g3, -, h⟩
    rw [chain_made g2.2] at h
    simp only [construct, ok_bind', ok_pure', ok_map', Except.ok.injEq] at h
    exact ⟨_, ⟨g3, g1, g4, g2⟩, h.symm⟩
  · rintro ⟨_, ⟨g3, g1, g4, g2⟩, rfl⟩
    refine ⟨_, _, ⟨⟨_, rfl, g1⟩, g4⟩, _, _, g2, g3, by simp [Satisfied], ?_⟩
    rw [chain_made g2.2]
    rfl

theorem rods_reads {c : ClassMatcher ℝ V} (hn : c.name = "sc".toList) (hc : Interprets c.toMatcher IsChain (fun l => .object (.rods l))) :
    Interprets (Choice.join (.dataclass c) (.other (vector c.toMatcher [arrayNonEmpty] asRods (fun ls => .object (.rods ls.flatten))))).toMatcher IsRods
      (fun l => .object (.rods l)) := by
  intro n v
  have hmany := vector_reads hc (as := asRods) (fun x => rfl) (filters := [arrayNonEmpty]) (P := fun l => l ≠ []) (fun l => by
    rw [satisfied_one]; cases l <;> simp [arrayNonEmpty]) (w := fun ls => .object (.rods ls.flatten))
  refine Iff.trans (alternative_reads (heads := [.named "sc".toList, .array]) (by exact ⟨trivial, sound_array⟩)
    (by exact .cons (takes_class hn) (.cons takes_array .nil)) (by simp)) ?_
  simp only [options, List.cons_append, List.nil_append, List.mem_cons, List.not_mem_nil, or_false, exists_eq_or_imp, exists_eq_left, hc n v, hmany n v]
  constructor
  · rintro (⟨l, h, rfl⟩ | ⟨l, ⟨⟨ns, rfl, h⟩, h2⟩, rfl⟩)
    · exact ⟨_, .one h, rfl⟩
    · exact ⟨_, .many h h2, rfl⟩
  · rintro ⟨_, (h | ⟨h1, h2⟩), rfl⟩
    · exact .inl ⟨_, h, rfl⟩
    · exact .inr ⟨_, ⟨⟨_, rfl, h1⟩, h2⟩, rfl⟩

theorem spheres_some {n : Node ℝ} {l : List SphereData} (h : IsSpheres n l) : l ≠ [] := by
  have key : ∀ {n : Node ℝ} {l : List SphereData}, IsBalls n l → l ≠ [] := by
    rintro n l ⟨-, h, -⟩
    cases h with
    | one => simp
    | many _ h => simpa using h
  cases h with
  | one h => exact key h
  | many h h2 =>
    cases h with
    | nil => exact absurd rfl h2
    | cons h _ =>
      intro h3
      rw [List.flatten_cons, List.append_eq_nil_iff] at h3
      exact key h h3.1

theorem rods_some {n : Node ℝ} {l : List RodData} (h : IsRods n l) : l ≠ [] := by
  have key : ∀ {n : Node ℝ} {l : List RodData}, IsChain n l → l ≠ [] := by
    rintro n l ⟨-, -, h, -⟩ h2
    have h3 := congrArg List.length h2
    rw [List.length_zipWith, List.length_tail, List.length_nil] at h3
    omega
  cases h with
  | one h => exact key h
  | many h h2 =>
    cases h with
    | nil => exact absurd rfl h2
    | cons h _ =>
      intro h3
      rw [List.flatten_cons, List.append_eq_nil_iff] at h3
      exact key h h3.1

/-! ### Registration of points -/

theorem letter_name {s t : String} (hs : s.toList.length = 1) (ht : t.toList.length = 1) {i j : Nat} (h : s ++ toString i = t ++ toString j) : s = t ∧ i = j := by
  have h : (s ++ toString i).toList = (t ++ toString j).toList := by rw [h]
  rw [String.toList_append, String.toList_append] at h
  obtain ⟨h1, h2⟩ := List.append_inj h (by rw [hs, ht])
  exact ⟨String.toList_injective h1, Nat.repr_injective (String.toList_injective h2)⟩

theorem spherePoint_names {l : List SphereData} {x : String} : x ∈ (Composite.spherePoints l).map Prod.fst ↔ ∃ i < l.length, x = "s" ++ toString i := by
  unfold Composite.spherePoints
  rw [List.map_map]
  have : (Prod.fst ∘ fun d : SphereData × Nat => ("s" ++ toString d.2, d.1.position)) = (fun k => "s" ++ toString k) ∘ Prod.snd := rfl
  rw [this, ← List.map_map, List.zipIdx_map_snd]
  simp [List.mem_range'_1, eq_comm]

theorem rodPoint_list (l : List RodData) : (rodPoints l).map Prod.fst = (List.range' 0 l.length).flatMap fun k => ["o" ++ toString k, "b" ++ toString k, "e" ++ toString k] := by
  unfold rodPoints
  rw [List.map_flatMap, ← List.zipIdx_map_snd 0 l, List.flatMap_map]
  rfl

theorem rodPoint_names {l : List RodData} {x : String} : x ∈ (rodPoints l).map Prod.fst ↔ ∃ s ∈ ["o", "b", "e"], ∃ i < l.length, x = s ++ toString i := by
  rw [rodPoint_list]
  simp only [List.mem_flatMap, List.mem_range'_1, List.mem_cons, List.not_mem_nil, or_false, exists_eq_or_imp, exists_eq_left, Nat.zero_le, true_and, Nat.zero_add]
  constructor
  · rintro ⟨i, hi, (h | h | h)⟩
    · exact .inl ⟨i, hi, h⟩
    · exact .inr (.inl ⟨i, hi, h⟩)
    · exact .inr (.inr ⟨i, hi, h⟩)
  · rintro (⟨i, hi, h⟩ | ⟨i, hi, h⟩ | ⟨i, hi, h⟩)
    · exact ⟨i, hi, .inl h⟩
    · exact ⟨i, hi, .inr (.inl h)⟩
    · exact ⟨i, hi, .inr (.inr h)⟩

theorem rodPoint_nodup (l : List RodData) : ((rodPoints l).map Prod.fst).Nodup := by
  rw [rodPoint_list, List.nodup_flatMap]
  have one : ∀ s ∈ ["o", "b", "e"], s.toList.length = 1 := by decide
  refine ⟨fun k _ => ?_, ?_⟩
  · simp only [List.nodup_cons, List.mem_cons, List.not_mem_nil, or_false, not_or, not_false_eq_true, List.nodup_nil, and_true]
    refine ⟨⟨fun h => ?_, fun h => ?_⟩, fun h => ?_⟩
    · exact absurd (letter_name (by decide) (by decide) h).1 (by decide)
    · exact absurd (letter_name (by decide) (by decide) h).1 (by decide)
    · exact absurd (letter_name (by decide) (by decide) h).1 (by decide)
  · refine List.Pairwise.imp ?_ (List.nodup_range' (s := 0) (n := l.length))
    intro a b hab x hx hy
    have key : ∀ k : Nat, x ∈ ["o" ++ toString k, "b" ++ toString k, "e" ++ toString k] → ∃ s, s.toList.length = 1 ∧ x = s ++ toString k := by
      intro k hk
      simp only [List.mem_cons, List.not_mem_nil, or_false] at hk
      rcases hk with h | h | h <;> exact ⟨_, by decide, h⟩
    obtain ⟨s, h1, h2⟩ := key a hx
    obtain ⟨t, h3, h4⟩ := key b hy
    exact hab (letter_name h1 h3 (h2.symm.trans h4)).2

theorem custom_nodup {f : Frame} (h : Ordered f.points) : (f.custom.map Prod.fst).Nodup := by
  unfold Frame.custom
  rw [List.map_map, List.nodup_iff_pairwise_ne, List.pairwise_map]
  refine List.Pairwise.imp ?_ h
  intro a b hab heq
  have : a.1 = b.1 := String.ofList_injective heq
  rw [this] at hab
  exact List.lt_irrefl _ hab

theorem axis_positive {n : Node ℝ} {a : Vec3 ℝ} (h : IsAxis n (some a)) : 0 < a.norm2 := by
  cases h with
  | some h1 h2 h3 =>
    have := Rampack.normalize_ok (normalize_axis (norm_ne h2))
    rw [← h3] at this
    rw [this]
    norm_num

theorem normalizeAxis_ok {n : Node ℝ} {p : Option (Vec3 ℝ)} (h : IsAxis n p) : ∃ q, Geometry.normalizeAxis p = .ok q := by
  cases p with
  | none => exact ⟨_, rfl⟩
  | some a =>
    obtain ⟨m, hm⟩ := normalize_some (axis_positive h)
    exact ⟨some m, by rw [Geometry.normalizeAxis, hm]; rfl⟩

theorem register_iff {p q : Option (Vec3 ℝ)} {o : Vec3 ℝ} {c : Bool} {own custom : List (String × Vec3 ℝ)} (h1 : (own.map Prod.fst).Nodup)
    (h2 : (custom.map Prod.fst).Nodup) :
    (∃ G, (do let G ← Geometry.registerPoints ⟨p, q, o, [], c⟩ own; Geometry.registerPoints G custom) = .ok G) ↔ ∀ x ∈ custom, x.1 ∉ own.map Prod.fst := by
  obtain ⟨G, hG⟩ := (C85_registered ⟨p, q, o, [], c⟩ List.nodup_nil own).mpr (by simpa using h1)
  obtain ⟨e1, e2⟩ := registerPoints_spec hG List.nodup_nil
  rw [hG, Outcome.ok_bind, C85_registered G e2 custom, e1, List.nil_append, List.map_append, List.nodup_append]
  constructor
  · rintro ⟨-, -, h⟩ x hx hy
    exact h _ hy _ (List.mem_map_of_mem hx) rfl
  · intro h
    refine ⟨h1, h2, fun a ha b hb hab => ?_⟩
    obtain ⟨x, hx, rfl⟩ := List.mem_map.mp hb
    exact h x hx (hab ▸ ha)

/-- The constructors of shapes made of parts refuse only points with names which are already taken. -/
theorem mkPoly_iff {a b c d e : Node ℝ} {f : Frame} (hf : IsFrame a b c d e f) {ck : Bool} {own : List (String × Vec3 ℝ)} (h1 : (own.map Prod.fst).Nodup) :
    (∃ G, Geometry.mkPoly ck f.primary f.secondary f.center own f.custom = .ok G) ↔ ∀ k v, (k, v) ∈ f.points → String.ofList k ∉ own.map Prod.fst := by
  obtain ⟨_, -, ho, -, -⟩ := hf.points
  obtain ⟨p, hp⟩ := normalizeAxis_ok hf.primary
  obtain ⟨q, hq⟩ := normalizeAxis_ok hf.secondary
  have hb : (f.primary.isSome || f.secondary.isNone) = true := by
    have := hf.both
    cases h : f.secondary with
    | none => simp
    | some x => rw [h] at this; simp [this rfl]
  unfold Geometry.mkPoly
  rw [hb, Outcome.require_true, Outcome.ok_bind, hp, Outcome.ok_bind, hq, Outcome.ok_bind, register_iff h1 (custom_nodup ho)]
  unfold Frame.custom
  constructor
  · intro h k v hk
    exact h (String.ofList k, v) (List.mem_map.mpr ⟨(k, v), hk, rfl⟩)
  · intro h x hx
    obtain ⟨⟨k, v⟩, hk, rfl⟩ := List.mem_map.mp hx
    exact h k v hk

end Rampack.ShapeExpr
