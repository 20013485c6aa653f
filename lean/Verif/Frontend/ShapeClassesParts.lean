import Verif.Frontend.ShapeClassesCustom
import Verif.Frontend.ShapeExprProps
/-
What the matchers of shapes read: the classes with axes and points given by the user.
-/
namespace Rampack.ShapeExpr

open Pyon Pyon.Spec Rampack.Input Rampack.Input.Spec Rampack.ShapeExpr.Spec Rampack.Shapes

variable {conv : ℚ → Option ℝ}

theorem frameArguments_ok (hconv : Rampack.Spec.RoundsIntegers conv) : frameArguments conv = .ok [required "volume" positiveFloat,
    ⟨"geometric_center".toList, vec, some (.value (.object (.vec ⟨((0 : Int) : ℝ), ((0 : Int) : ℝ), ((0 : Int) : ℝ)⟩)))⟩, ⟨"primary_axis".toList, axis.toMatcher, some (.value (.object (.axis none)))⟩,
    ⟨"secondary_axis".toList, axis.toMatcher, some (.value (.object (.axis none)))⟩, ⟨"named_points".toList, pointsDictionary.toMatcher, some (.value (.object (.points [])))⟩] := by
  rw [frameArguments, optional_ok (parse_zeros hconv) zero_run, Outcome.ok_bind, optional_ok (parse_none hconv) no_axis, Outcome.ok_bind,
    optional_ok (parse_none hconv) no_axis, Outcome.ok_bind, optional_ok (parse_braces hconv) no_points]
  rfl

theorem frame_valid {a b c d e : Node ℝ} {v : ℝ} {o : Vec3 ℝ} {p q : Option (Vec3 ℝ)} {l : List (Text × Vec3 ℝ)} (h1 : IsPositive a v) (h2 : IsVec b o) (h3 : IsAxis c p)
    (h4 : IsAxis d q) (h5 : IsPoints e l) : Geometry.validateAxes p q = true ↔ IsFrame a b c d e ⟨v, o, p, q, l⟩ := by
  constructor
  · intro h
    refine ⟨h1, h2, h3, h4, ?_, ?_, h5⟩
    · intro hq
      cases p with
      | some _ => rfl
      | none =>
        cases q with
        | none => cases hq
        | some _ => cases h
    · rintro x y hx hy
      subst hx hy
      simpa [Geometry.validateAxes] using h
  · rintro ⟨-, -, -, -, h6, h7, -⟩
    cases p with
    | none =>
      cases q with
      | none => rfl
      | some _ => cases h6 rfl
    | some x =>
      cases q with
      | none => rfl
      | some y => simpa [Geometry.validateAxes] using h7 x y rfl rfl

theorem sphere_free {a b c d e : Node ℝ} {f : Frame} (hf : IsFrame a b c d e f) {l : List SphereData} {ck : Bool} :
    (∃ G, Geometry.mkPoly ck f.primary f.secondary f.center (Composite.spherePoints l) f.custom = .ok G) ↔ Free ["s"] l.length f := by
  rw [mkPoly_iff hf (Composite.sphere_names l)]
  unfold Free
  simp only [spherePoint_names, List.mem_cons, List.not_mem_nil, or_false, forall_eq, not_exists, not_and]
  refine forall_congr' fun k => forall_congr' fun v => forall_congr' fun _ => forall_congr' fun i => forall_congr' fun _ => not_congr ?_
  constructor
  · intro h
    rw [← h, String.toList_ofList]
  · rintro rfl
    exact String.ofList_toList

theorem rod_free {a b c d e : Node ℝ} {f : Frame} (hf : IsFrame a b c d e f) {l : List RodData} {ck : Bool} :
    (∃ G, Geometry.mkPoly ck f.primary f.secondary f.center (rodPoints l) f.custom = .ok G) ↔ Free ["o", "b", "e"] l.length f := by
  rw [mkPoly_iff hf (rodPoint_nodup l)]
  unfold Free
  simp only [rodPoint_names, not_exists, not_and]
  refine forall_congr' fun k => forall_congr' fun v => forall_congr' fun _ => forall_congr' fun s => forall_congr' fun _ => forall_congr' fun i => forall_congr' fun _ => not_congr ?_
  constructor
  · intro h
    rw [← h, String.toList_ofList]
  · rintro rfl
    exact String.ofList_toList

theorem xeno_ok {a b c d e : Node ℝ} {f : Frame} (hf : IsFrame a b c d e f) : ∃ G, Geometry.mkXeno f.primary f.secondary f.center f.custom = .ok G := by
  obtain ⟨_, -, ho, -, -⟩ := hf.points
  exact (C85_registered ⟨f.primary, f.secondary, f.center, [], false⟩ List.nodup_nil f.custom).mpr (by simpa using custom_nodup ho)

theorem polysphere_class (hconv : Rampack.Spec.RoundsIntegers conv) : ∃ c, createPolysphere conv = .ok c ∧ c.name = "polysphere".toList ∧
    Interprets c.toMatcher (fun n s => ∃ sn a b c d e i l f I, Call n "polysphere" ([("spheres", none)] ++ frameSignature ++ [("interaction", hardNode)]) [sn, a, b, c, d, e, i] ∧
      IsSpheres sn l ∧ IsFrame a b c d e f ∧ Free ["s"] l.length f ∧ IsInteraction i I ∧ s = .polysphere l f I) (fun s => .object (.species s)) := by
  obtain ⟨i, ei, ri⟩ := interaction_reads
  obtain ⟨b, eb, nb, rb⟩ := balls_reads
  have rs := spheres_reads nb rb
  refine ⟨_, by rw [createPolysphere, ei, Outcome.ok_bind, optional_ok (parse_hard hconv) (hard_run ri), Outcome.ok_bind, eb, Outcome.ok_bind, frameArguments_ok hconv]; rfl,
    rfl, fun n v => ?_⟩
  rw [class_run (.required (.required (.optional zero_run (.optional no_axis (.optional no_axis (.optional no_points (.optional (hard_run ri) .nil))))))) rfl (by decide) rfl rfl]
  simp only [exists_read positiveFloat_reads, exists_read rs, exists_read vec_reads, exists_read axis_reads, exists_read points_reads, exists_read ri, exists_unread]
  eval_shape
  simp only [made_ok, getFrame, axesFilter]
  eval_shape
  simp only [made_ok]
  constructor
  · rintro ⟨sn, l, g1, a, x, g2, b, o, g3, c, p, g4, d, q, g5, e, ps, g6, i, I, g7, g8, g9, g10, rfl⟩
    have hf := (frame_valid g2 g3 g4 g5 g6).mp g9
    obtain ⟨_, -, h⟩ := Outcome.bind_eq_ok.mp g10
    exact ⟨_, ⟨sn, a, b, c, d, e, i, l, _, I, g8, g1, hf, (sphere_free hf).mp (discard.mp h), g7, rfl⟩, rfl⟩
  · rintro ⟨_, ⟨sn, a, b, c, d, e, i, l, ⟨x, o, p, q, ps⟩, I, g8, g1, hf, h, g7, rfl⟩, rfl⟩
    refine ⟨sn, l, g1, a, x, hf.volume, b, o, hf.center, c, p, hf.primary, d, q, hf.secondary, e, ps, hf.points, i, I, g7, g8,
      (frame_valid hf.volume hf.center hf.primary hf.secondary hf.points).mpr hf, ?_, rfl⟩
    have hl : (!l.isEmpty) = true := by
      have := spheres_some g1
      cases l <;> simp at this ⊢
    rw [Species.check, hl, Outcome.require_true, Outcome.ok_bind]
    exact discard.mpr ((sphere_free hf).mpr h)

theorem polyspherocylinder_class (hconv : Rampack.Spec.RoundsIntegers conv) : ∃ c, createPolyspherocylinder conv = .ok c ∧ c.name = "polyspherocylinder".toList ∧
    Interprets c.toMatcher (fun n s => ∃ sn a b c d e l f, Call n "polyspherocylinder" ([("scs", none)] ++ frameSignature) [sn, a, b, c, d, e] ∧
      IsRods sn l ∧ IsFrame a b c d e f ∧ Free ["o", "b", "e"] l.length f ∧ s = .polyspherocylinder l f) (fun s => .object (.species s)) := by
  obtain ⟨b, eb, nb, rb⟩ := chain_reads
  have rs := rods_reads nb rb
  refine ⟨_, by rw [createPolyspherocylinder, eb, Outcome.ok_bind, frameArguments_ok hconv]; rfl, rfl, fun n v => ?_⟩
  rw [class_run (.required (.required (.optional zero_run (.optional no_axis (.optional no_axis (.optional no_points .nil)))))) rfl (by decide) rfl rfl]
  simp only [exists_read positiveFloat_reads, exists_read rs, exists_read vec_reads, exists_read axis_reads, exists_read points_reads, exists_unread]
  eval_shape
  simp only [made_ok, getFrame, axesFilter]
  eval_shape
  simp only [made_ok]
  constructor
  · rintro ⟨sn, l, g1, a, x, g2, b, o, g3, c, p, g4, d, q, g5, e, ps, g6, g8, g9, g10, rfl⟩
    have hf := (frame_valid g2 g3 g4 g5 g6).mp g9
    obtain ⟨_, -, h⟩ := Outcome.bind_eq_ok.mp g10
    exact ⟨_, ⟨sn, a, b, c, d, e, l, _, g8, g1, hf, (rod_free hf).mp (discard.mp h), rfl⟩, rfl⟩
  · rintro ⟨_, ⟨sn, a, b, c, d, e, l, ⟨x, o, p, q, ps⟩, g8, g1, hf, h, rfl⟩, rfl⟩
    refine ⟨sn, l, g1, a, x, hf.volume, b, o, hf.center, c, p, hf.primary, d, q, hf.secondary, e, ps, hf.points, g8,
      (frame_valid hf.volume hf.center hf.primary hf.secondary hf.points).mpr hf, ?_, rfl⟩
    have hl : (!l.isEmpty) = true := by
      have := rods_some g1
      cases l <;> simp at this ⊢
    rw [Species.check, hl, Outcome.require_true, Outcome.ok_bind]
    exact discard.mpr ((rod_free hf).mpr h)

theorem generic_class (hconv : Rampack.Spec.RoundsIntegers conv) : ∃ c, createGenericConvex conv = .ok c ∧ c.name = "generic_convex".toList ∧
    Interprets c.toMatcher (fun n s => ∃ sn a b c d e g f, Call n "generic_convex" ([("geometry", none)] ++ frameSignature) [sn, a, b, c, d, e] ∧
      IsConvex sn g ∧ IsFrame a b c d e f ∧ s = .genericConvex g f) (fun s => .object (.species s)) := by
  refine ⟨_, by rw [createGenericConvex, frameArguments_ok hconv]; rfl, rfl, fun n v => ?_⟩
  rw [class_run (.required (.required (.optional zero_run (.optional no_axis (.optional no_axis (.optional no_points .nil)))))) rfl (by decide) rfl rfl]
  simp only [exists_read positiveFloat_reads, exists_read (scriptMatcher_reads hconv), exists_read vec_reads, exists_read axis_reads, exists_read points_reads, exists_unread]
  eval_shape
  simp only [made_ok, getFrame, axesFilter]
  eval_shape
  simp only [made_ok]
  constructor
  · rintro ⟨sn, g, g1, a, x, g2, b, o, g3, c, p, g4, d, q, g5, e, ps, g6, g8, g9, g10, rfl⟩
    exact ⟨_, ⟨sn, a, b, c, d, e, g, _, g8, g1, (frame_valid g2 g3 g4 g5 g6).mp g9, rfl⟩, rfl⟩
  · rintro ⟨_, ⟨sn, a, b, c, d, e, g, ⟨x, o, p, q, ps⟩, g8, g1, hf, rfl⟩, rfl⟩
    refine ⟨sn, g, g1, a, x, hf.volume, b, o, hf.center, c, p, hf.primary, d, q, hf.secondary, e, ps, hf.points, g8,
      (frame_valid hf.volume hf.center hf.primary hf.secondary hf.points).mpr hf, ?_, rfl⟩
    obtain ⟨x, hx⟩ := (C77_accepted g).mpr (allowed_at _ le_rfl g1)
    rw [Species.check, hx, Outcome.ok_bind]
    exact discard.mpr (xeno_ok hf)

end Rampack.ShapeExpr
