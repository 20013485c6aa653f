import Verif.Shapes.AxesSpec
import Verif.Sim.MirrorProps
import Verif.OutcomeLemmas
import Mathlib.Tactic.IntervalCases
/-
Theorems on axes and points of shapes (C85).
-/
namespace Rampack

open Spec Geometry

theorem given_ok {α : Type} (a : α) : given (.ok a) = .ok true := rfl

theorem hasPrimary_some {G : Geometry} {a : Vec3 ℝ} (h : G.primary = some a) : G.hasPrimaryAxis = .ok true := by
  rw [hasPrimaryAxis, getPrimaryAxis, h]
  rfl

theorem dot_rot {R : Mat3} (h : IsRotation R) (v w : Vec3 ℝ) : (R.mulVec v).dot (R.mulVec w) = v.dot w := by
  have h1 : R.transpose * R = 1 := h.1
  have h2 : (R.mulVec v).dot (R.mulVec w) = v.dot ((R.transpose * R).mulVec w) := by
    simp [Mat3.mulVec, Mat3.transpose, Mat3.mul_def, Mat3.mul, Mat3.c0, Mat3.c1, Mat3.c2, Vec3.dot]
    ring
  rw [h2, h1, Mat3.one_mulVec]

theorem reverses_perpendicular {n v : Vec3 ℝ} (h : n.dot v = 0) : Reverses n v := by
  intro R hR
  rw [hR.2 v h]
  ext <;> simp

theorem cross_reference_pos {a : Vec3 ℝ} (h : a.norm2 = 1) : 0 < (a.cross (reference (smallest a))).norm2 := by
  have h0 : a.x ^ 2 + a.y ^ 2 + a.z ^ 2 = 1 := by rw [← h]; simp only [Vec3.norm2, Vec3.dot]; ring
  unfold smallest
  split_ifs with h1 h2 h2
  · have e : (a.cross (reference 2)).norm2 = a.x ^ 2 + a.y ^ 2 := by simp [Vec3.norm2, Vec3.dot, Vec3.cross, reference, Vec3.ofFn]; ring
    have := sq_lt_sq.mpr h1
    have := sq_lt_sq.mpr h2
    rw [e]; nlinarith [sq_nonneg a.z]
  · have e : (a.cross (reference 1)).norm2 = a.x ^ 2 + a.z ^ 2 := by simp [Vec3.norm2, Vec3.dot, Vec3.cross, reference, Vec3.ofFn]; ring
    have := sq_lt_sq.mpr h1
    rw [e]; nlinarith [sq_nonneg a.z, sq_nonneg a.y]
  · have e : (a.cross (reference 2)).norm2 = a.x ^ 2 + a.y ^ 2 := by simp [Vec3.norm2, Vec3.dot, Vec3.cross, reference, Vec3.ofFn]; ring
    have := sq_lt_sq.mpr h2
    rw [e]; nlinarith [sq_nonneg a.z, sq_nonneg a.y]
  · have e : (a.cross (reference 0)).norm2 = a.y ^ 2 + a.z ^ 2 := by simp [Vec3.norm2, Vec3.dot, Vec3.cross, reference, Vec3.ofFn]; ring
    have := sq_le_sq.mpr (not_lt.mp h1)
    rw [e]; nlinarith [sq_nonneg a.z, sq_nonneg a.x]

theorem normalize_some {v : Vec3 ℝ} (h : 0 < v.norm2) : ∃ n, normalize v = .ok n := by
  unfold normalize
  have : v.norm ≠ 0 := by
    unfold Vec3.norm
    exact (Real.sqrt_pos.mpr h).ne'
  split_ifs with h1
  · exact absurd h1 this
  · exact ⟨_, rfl⟩

/-- C85: the flip axis of a shape with the primary axis is a unit vector perpendicular to it, so that a half-turn about the flip axis reverses the primary
axis. For polyspherocylinders it needs the secondary axis. -/
theorem C85_flip {G : Geometry} {s : Shape} {a : Vec3 ℝ} (hg : GoodAxes G) (ha : G.primary = some a) (hc : G.checksPrimary = false ∨ G.secondary ≠ none)
    (hs : IsRotation s.rot) :
    ∃ n p, G.findFlipAxis s = .ok n ∧ G.getPrimaryAxis s = .ok p ∧ n.norm2 = 1 ∧ n.dot p = 0 ∧ Reverses n p ∧ ∀ b, G.secondary = some b → n = s.rot.mulVec b := by
  have h1 : G.findFlipAxis s = (do let q ← G.hasSecondaryAxis; if q then G.getSecondaryAxis s else G.perpendicular s) := by
    rw [findFlipAxis, hasPrimary_some ha]
    rfl
  have hp : G.getPrimaryAxis s = .ok (s.rot.mulVec a) := by rw [getPrimaryAxis, ha]
  have hn2 : ∀ v, (s.rot.mulVec v).norm2 = v.norm2 := fun v => dot_rot hs v v
  cases hb : G.secondary with
  | some b =>
    obtain ⟨g1, a', g2, g3⟩ := hg.2 b hb
    rw [ha] at g2
    injection g2 with g2
    subst g2
    have hk : ∃ c, G.checkedAxis = some c := by
      unfold checkedAxis
      split_ifs
      · exact ⟨a, ha⟩
      · exact ⟨b, hb⟩
    obtain ⟨c, hk⟩ := hk
    have e : ∀ t : Shape, G.getSecondaryAxis t = .ok (t.rot.mulVec b) := by
      intro t
      rw [getSecondaryAxis, hk, hb]
    have e2 : G.findFlipAxis s = .ok (s.rot.mulVec b) := by
      rw [h1, hasSecondaryAxis, e, given_ok, Outcome.ok_bind, if_pos rfl, e]
    have e3 : (s.rot.mulVec b).dot (s.rot.mulVec a) = 0 := by
      rw [dot_rot hs, ← g3]
      simp only [Vec3.dot]; ring
    refine ⟨_, _, e2, hp, by rw [hn2, g1], e3, reverses_perpendicular e3, ?_⟩
    intro b' hb'
    injection hb' with hb'
    rw [hb']
  | none =>
    have hk : G.checkedAxis = none := by
      rcases hc with hc | hc
      · rw [checkedAxis, hc]
        exact hb
      · exact absurd hb hc
    have e2 : G.findFlipAxis s = G.perpendicular s := by
      rw [h1, hasSecondaryAxis, getSecondaryAxis, hk]
      rfl
    have e4 : G.perpendicular s = normalize (s.rot.mulVec (a.cross (reference (smallest a)))) := by
      rw [perpendicular, getPrimaryAxis, ha]
      show normalize (s.rot.mulVec (((1 : Mat3).mulVec a).cross (reference (smallest ((1 : Mat3).mulVec a))))) = _
      rw [Mat3.one_mulVec]
    obtain ⟨n, hn⟩ := normalize_some (v := s.rot.mulVec (a.cross (reference (smallest a)))) (by rw [hn2]; exact cross_reference_pos (hg.1 a ha))
    have e3 : n.dot (s.rot.mulVec a) = 0 := by
      have e5 := normalize_eq hn
      have e6 : (s.rot.mulVec (a.cross (reference (smallest a)))).dot (s.rot.mulVec a) = 0 := by
        rw [dot_rot hs]
        simp only [Vec3.dot, Vec3.cross]; ring
      have e7 : (s.rot.mulVec (a.cross (reference (smallest a)))).norm * n.dot (s.rot.mulVec a) = 0 := by
        rw [← e6]
        conv => rhs; rw [e5]
        simp [Vec3.dot]; ring
      have e8 : (s.rot.mulVec (a.cross (reference (smallest a)))).norm ≠ 0 := by
        unfold Vec3.norm
        rw [hn2]
        exact (Real.sqrt_pos.mpr (cross_reference_pos (hg.1 a ha))).ne'
      exact (mul_eq_zero.mp e7).resolve_left e8
    exact ⟨n, _, by rw [e2, e4, hn], hp, normalize_ok hn, e3, reverses_perpendicular e3, fun b hb' => by cases hb'⟩

/-- C85: the three axes of a shape are perpendicular unit vectors, the third one being the vector product of the other ones. -/
theorem C85_auxiliary {G : Geometry} {s : Shape} {a b : Vec3 ℝ} (hg : GoodAxes G) (ha : G.primary = some a) (hb : G.secondary = some b) (hs : IsRotation s.rot) :
    ∃ p q r, G.getPrimaryAxis s = .ok p ∧ G.getSecondaryAxis s = .ok q ∧ G.getAuxiliaryAxis s = .ok r ∧ p.norm2 = 1 ∧ q.norm2 = 1 ∧ r.norm2 = 1 ∧ p.dot q = 0 ∧
      r = p.cross q := by
  obtain ⟨g1, a', g2, g3⟩ := hg.2 b hb
  rw [ha] at g2
  injection g2 with g2
  subst g2
  have hn2 : ∀ v, (s.rot.mulVec v).norm2 = v.norm2 := fun v => dot_rot hs v v
  have hk : ∃ c, G.checkedAxis = some c := by
    unfold checkedAxis
    split_ifs
    · exact ⟨a, ha⟩
    · exact ⟨b, hb⟩
  obtain ⟨c, hk⟩ := hk
  have e1 : G.getPrimaryAxis s = .ok (s.rot.mulVec a) := by rw [getPrimaryAxis, ha]
  have e2 : G.getSecondaryAxis s = .ok (s.rot.mulVec b) := by rw [getSecondaryAxis, hk, hb]
  have e3 : (s.rot.mulVec a).dot (s.rot.mulVec b) = 0 := by rw [dot_rot hs, g3]
  have hpa : (s.rot.mulVec a).norm2 = 1 := by rw [hn2, hg.1 a ha]
  have hpb : (s.rot.mulVec b).norm2 = 1 := by rw [hn2, g1]
  have e4 : ((s.rot.mulVec a).cross (s.rot.mulVec b)).norm2 = 1 := by
    have l : ∀ u v : Vec3 ℝ, (u.cross v).norm2 = u.norm2 * v.norm2 - u.dot v ^ 2 := by
      intro u v
      simp only [Vec3.norm2, Vec3.dot, Vec3.cross]; ring
    rw [l, hpa, hpb, e3]; norm_num
  have e5 : normalize ((s.rot.mulVec a).cross (s.rot.mulVec b)) = .ok ((s.rot.mulVec a).cross (s.rot.mulVec b)) := by
    have : ((s.rot.mulVec a).cross (s.rot.mulVec b)).norm = 1 := by rw [Vec3.norm, e4, Real.sqrt_one]
    unfold normalize
    rw [this, if_neg one_ne_zero]
    congr 1
    ext <;> simp
  refine ⟨_, _, _, e1, e2, ?_, hpa, hpb, e4, e3, rfl⟩
  rw [getAuxiliaryAxis, e1, Outcome.ok_bind, e2, Outcome.ok_bind, e5]

/-- C85: which axes there are, for shapes which are not polyspherocylinders. -/
theorem C85_has_partial {G : Geometry} (hc : G.checksPrimary = false) :
    G.hasPrimaryAxis = .ok G.primary.isSome ∧ G.hasSecondaryAxis = .ok G.secondary.isSome ∧
    ∀ s, (G.primary = none → ∃ m, G.getPrimaryAxis s = .throw m) ∧ (G.secondary = none → ∃ m, G.getSecondaryAxis s = .throw m) := by
  refine ⟨?_, ?_, fun s => ⟨fun h => ⟨_, by rw [getPrimaryAxis, h]⟩, fun h => ⟨_, by rw [getSecondaryAxis, checkedAxis, hc, h]; rfl⟩⟩⟩
  · unfold hasPrimaryAxis getPrimaryAxis
    cases G.primary <;> rfl
  · unfold hasSecondaryAxis getSecondaryAxis checkedAxis
    rw [hc]
    cases G.secondary <;> rfl

/-- C85: axes and points move and turn together with the shape. -/
theorem C85_moved (G : Geometry) (s : Shape) (t : Vec3 ℝ) (R : Mat3) :
    (∀ a, G.getPrimaryAxis s = .ok a → G.getPrimaryAxis (Moved t R s) = .ok (R.mulVec a)) ∧
    (∀ a, G.getSecondaryAxis s = .ok a → G.getSecondaryAxis (Moved t R s) = .ok (R.mulVec a)) ∧
    (∀ name p, G.getNamedPointFor name s = .ok p → G.getNamedPointFor name (Moved t R s) = .ok (t + R.mulVec p)) ∧
    (∀ p, G.getNamedPointFor "o" s = .ok p → p = s.pos + G.getGeometricOrigin s) := by
  refine ⟨?_, ?_, ?_, ?_⟩
  · intro a h
    unfold getPrimaryAxis at *
    cases hp : G.primary with
    | none => rw [hp] at h; cases h
    | some v =>
      rw [hp] at h
      injection h with h
      subst h
      exact congrArg Outcome.ok (Mat3.mulVec_mulVec _ _ _).symm
  · intro a h
    unfold getSecondaryAxis at *
    cases hk : G.checkedAxis with
    | none => rw [hk] at h; cases h
    | some c =>
      cases hp : G.secondary with
      | none => rw [hk, hp] at h; cases h
      | some v =>
        rw [hk, hp] at h
        injection h with h
        subst h
        exact congrArg Outcome.ok (Mat3.mulVec_mulVec _ _ _).symm
  · intro name p h
    unfold getNamedPointFor at *
    obtain ⟨q, hq, h⟩ := Outcome.bind_eq_ok.mp h
    injection h with h
    subst h
    rw [hq, Outcome.ok_bind]
    refine congrArg Outcome.ok ?_
    show t + R.mulVec s.pos + (R * s.rot).mulVec q = _
    rw [← Mat3.mulVec_mulVec, Mat3.mulVec_add]
    ext <;> simp <;> ring
  · intro p h
    unfold getNamedPointFor getNamedPoint at h
    rw [if_pos rfl] at h
    injection h with h
    rw [← h]
    show s.pos + s.rot.mulVec ((1 : Mat3).mulVec G.origin) = _
    rw [Mat3.one_mulVec]
    rfl

theorem registerPoints_spec : ∀ {l : List (String × Vec3 ℝ)} {G G' : Geometry}, G.registerPoints l = .ok G' → (G.points.map Prod.fst).Nodup →
    G' = { G with points := G.points ++ l } ∧ (G'.points.map Prod.fst).Nodup
  | [], G, G', h, hn => by
    have h : Outcome.ok G = .ok G' := h
    injection h with h
    subst h
    exact ⟨by simp, hn⟩
  | p :: l, G, G', h, hn => by
    unfold registerPoints at h
    rw [List.foldlM_cons] at h
    obtain ⟨G1, h1, h2⟩ := Outcome.bind_eq_ok.mp h
    unfold registerPoint at h1
    obtain ⟨_, h3, h1⟩ := Outcome.bind_eq_ok.mp h1
    injection h1 with h1
    subst h1
    have h4 : ∀ q ∈ G.points, q.1 ≠ p.1 := by
      cases hb : G.points.any fun q => q.1 == p.1 with
      | true => rw [hb] at h3; cases h3
      | false => simpa using hb
    obtain ⟨e1, e2⟩ := registerPoints_spec (l := l) h2 (by
      rw [List.map_append, List.nodup_append]
      refine ⟨hn, by simp, ?_⟩
      intro a ha b hb
      obtain ⟨q, hq, rfl⟩ := List.mem_map.mp ha
      simp only [List.map_cons, List.map_nil, List.mem_singleton] at hb
      rw [hb]
      exact h4 q hq)
    refine ⟨?_, e2⟩
    rw [e1]
    simp

theorem find_named : ∀ {l : List (String × Vec3 ℝ)} {p : String × Vec3 ℝ}, (l.map Prod.fst).Nodup → p ∈ l → l.find? (fun q => q.1 == p.1) = some p
  | [], p, _, h => absurd h (by simp)
  | q :: l, p, hn, h => by
    rw [List.map_cons, List.nodup_cons] at hn
    rcases List.mem_cons.mp h with h | h
    · subst h
      simp
    · have : q.1 ≠ p.1 := fun e => hn.1 (by rw [e]; exact List.mem_map_of_mem h)
      rw [List.find?_cons_of_neg (by simpa using this)]
      exact find_named hn.2 h

/-- C85: all points which have been registered can be found under their names, which are different, and nothing else can, except for the geometric origin,
which is called "o". -/
theorem C85_points {G G' : Geometry} {l : List (String × Vec3 ℝ)} (h : G.registerPoints l = .ok G') (h0 : G.points = []) (ho : ∀ p ∈ l, p.1 ≠ "o") :
    (l.map Prod.fst).Nodup ∧ (∀ name p, (name, p) ∈ l ↔ name ≠ "o" ∧ G'.getNamedPoint name = .ok p) ∧ G'.getNamedPoint "o" = .ok G.origin ∧
    (∀ name, G'.hasNamedPoint name = true ↔ ∃ p, G'.getNamedPoint name = .ok p) ∧ G'.getNamedPoints = ("o", G.origin) :: l := by
  obtain ⟨e1, e2⟩ := registerPoints_spec h (by rw [h0]; exact List.nodup_nil)
  have e3 : G'.points = l := by rw [e1, h0]; rfl
  have e4 : G'.origin = G.origin := by rw [e1]
  have e5 : G'.getGeometricOrigin Shape.default = G.origin := by
    show (1 : Mat3).mulVec G'.origin = _
    rw [Mat3.one_mulVec, e4]
  rw [e3] at e2
  have key : ∀ name p, (name, p) ∈ l ↔ name ≠ "o" ∧ G'.getNamedPoint name = .ok p := by
    intro name p
    constructor
    · intro hp
      have hne : name ≠ "o" := ho _ hp
      refine ⟨hne, ?_⟩
      have := find_named e2 hp
      simp only at this
      rw [getNamedPoint, if_neg hne, e3, this]
    · rintro ⟨hne, hp⟩
      rw [getNamedPoint, if_neg hne, e3] at hp
      cases hf : l.find? (fun q => q.1 == name) with
      | none => rw [hf] at hp; cases hp
      | some q =>
        rw [hf] at hp
        injection hp with hp
        have h1 := List.find?_some hf
        have h2 := List.mem_of_find?_eq_some hf
        simp only [beq_iff_eq] at h1
        rw [← h1, ← hp]
        exact h2
  refine ⟨e2, key, by rw [getNamedPoint, if_pos rfl, e5], ?_, by rw [getNamedPoints, e5, e3]⟩
  intro name
  rw [hasNamedPoint, e3]
  by_cases hne : name = "o"
  · simp [hne, getNamedPoint]
  · simp only [Bool.or_eq_true, beq_iff_eq, hne, false_or, List.any_eq_true]
    constructor
    · rintro ⟨q, hq, h1⟩
      exact ⟨q.2, ((key name q.2).mp (by rw [← h1]; exact hq)).2⟩
    · rintro ⟨p, hp⟩
      exact ⟨(name, p), (key name p).mpr ⟨hne, hp⟩, rfl⟩

theorem registerPoints_some : ∀ {l : List (String × Vec3 ℝ)} {G : Geometry}, (l.map Prod.fst).Nodup → (∀ p ∈ l, ∀ q ∈ G.points, q.1 ≠ p.1) →
    ∃ G', G.registerPoints l = .ok G'
  | [], G, _, _ => ⟨G, rfl⟩
  | p :: l, G, hn, hd => by
    have hb : (G.points.any fun q => q.1 == p.1) = false := by
      simpa using hd p (by simp)
    rw [List.map_cons, List.nodup_cons] at hn
    obtain ⟨G', h⟩ := registerPoints_some (l := l) (G := { G with points := G.points ++ [p] }) hn.2 (by
      intro q hq r hr
      rcases List.mem_append.mp hr with hr | hr
      · exact hd q (by simp [hq]) r hr
      · rw [List.mem_singleton.mp hr]
        exact fun e => hn.1 (by rw [e]; exact List.mem_map_of_mem hq))
    refine ⟨G', ?_⟩
    unfold registerPoints at *
    rw [List.foldlM_cons, registerPoint, hb]
    exact h

/-- C85: points are registered exactly if their names are different, also from names of points which were there. -/
theorem C85_registered (G : Geometry) (hG : (G.points.map Prod.fst).Nodup) (l : List (String × Vec3 ℝ)) :
    (∃ G', G.registerPoints l = .ok G') ↔ ((G.points ++ l).map Prod.fst).Nodup := by
  constructor
  · rintro ⟨G', h⟩
    obtain ⟨e1, e2⟩ := registerPoints_spec h hG
    rw [e1] at e2
    exact e2
  · intro h
    rw [List.map_append, List.nodup_append] at h
    exact registerPoints_some h.2.1 fun p hp q hq => h.2.2 _ (List.mem_map_of_mem hq) _ (List.mem_map_of_mem hp)

theorem normalizeAxis_ok {o o' : Option (Vec3 ℝ)} (h : normalizeAxis o = .ok o') : (o = none ∧ o' = none) ∨ ∃ a n, o = some a ∧ o' = some n ∧ normalize a = .ok n := by
  cases o with
  | none =>
    injection h with h
    exact .inl ⟨rfl, h.symm⟩
  | some a =>
    unfold normalizeAxis at h
    obtain ⟨n, h1, h⟩ := Outcome.bind_eq_ok.mp h
    injection h with h
    exact .inr ⟨a, n, rfl, h.symm, h1⟩

/-- C85: polyspheres and polyspherocylinders made with perpendicular axes have perpendicular unit axes, whatever the lengths were. -/
theorem C85_made_partial {c : Bool} {p q : Option (Vec3 ℝ)} {o : Vec3 ℝ} {own custom : List (String × Vec3 ℝ)} {G : Geometry}
    (h : mkPoly c p q o own custom = .ok G) (hd : ∀ a b, p = some a → q = some b → a.dot b = 0) :
    GoodAxes G ∧ (G.primary = none ↔ p = none) ∧ (G.secondary = none ↔ q = none) ∧ G.origin = o ∧ G.points = own ++ custom ∧ ((own ++ custom).map Prod.fst).Nodup := by
  unfold mkPoly at h
  obtain ⟨_, h1, h⟩ := Outcome.bind_eq_ok.mp h
  obtain ⟨p', h2, h⟩ := Outcome.bind_eq_ok.mp h
  obtain ⟨q', h3, h⟩ := Outcome.bind_eq_ok.mp h
  obtain ⟨G1, h4, h⟩ := Outcome.bind_eq_ok.mp h
  obtain ⟨e1, e2⟩ := registerPoints_spec h4 List.nodup_nil
  obtain ⟨e3, e4⟩ := registerPoints_spec h e2
  have e5 : G.points = own ++ custom := by rw [e3, e1]; rfl
  have e6 : G.primary = p' := by rw [e3, e1]
  have e7 : G.secondary = q' := by rw [e3, e1]
  have h1 : p.isSome = true ∨ q.isNone = true := by
    cases hb : p.isSome || q.isNone with
    | false => rw [hb] at h1; cases h1
    | true => simpa using hb
  have h2 := normalizeAxis_ok h2
  have h3 := normalizeAxis_ok h3
  refine ⟨⟨?_, ?_⟩, ?_, ?_, by rw [e3, e1], e5, by rw [← e5]; exact e4⟩
  · intro a ha
    rw [e6] at ha
    rcases h2 with ⟨-, g⟩ | ⟨b, n, -, g, hn⟩
    · rw [g] at ha; cases ha
    · rw [g] at ha
      injection ha with ha
      rw [← ha]
      exact normalize_ok hn
  · intro b hb
    rw [e7] at hb
    rcases h3 with ⟨-, g⟩ | ⟨b0, n, g0, g, hn⟩
    · rw [g] at hb; cases hb
    · rw [g] at hb
      injection hb with hb
      subst hb
      refine ⟨normalize_ok hn, ?_⟩
      rcases h2 with ⟨f, -⟩ | ⟨a0, m, f0, f, hm⟩
      · rw [f, g0] at h1
        simp at h1
      · refine ⟨m, by rw [e6, f], ?_⟩
        have d := hd a0 b0 f0 g0
        have na := normalize_eq hm
        have nb := normalize_eq hn
        have pa : a0.norm ≠ 0 := by
          intro h0
          unfold normalize at hm
          rw [if_pos h0] at hm
          cases hm
        have pb : b0.norm ≠ 0 := by
          intro h0
          unfold normalize at hn
          rw [if_pos h0] at hn
          cases hn
        have : a0.norm * b0.norm * m.dot n = 0 := by
          rw [← d]
          conv => rhs; rw [na, nb]
          simp [Vec3.dot]; ring
        exact (mul_eq_zero.mp this).resolve_left (mul_ne_zero pa pb)
  · rw [e6]
    rcases h2 with ⟨f, g⟩ | ⟨a0, m, f0, f, hm⟩
    · simp [f, g]
    · simp [f0, f]
  · rw [e7]
    rcases h3 with ⟨f, g⟩ | ⟨a0, m, f0, f, hm⟩
    · simp [f, g]
    · simp [f0, f]

theorem normalizeAxis_some {a n : Vec3 ℝ} (h : normalize a = .ok n) : normalizeAxis (some a) = .ok (some n) := by
  show (normalize a >>= fun n => Outcome.ok (some n)) = _
  rw [h]
  rfl

theorem normalize_unit {v : Vec3 ℝ} (h : v.norm2 = 1) : normalize v = .ok v := by
  have : v.norm = 1 := by rw [Vec3.norm, h, Real.sqrt_one]
  unfold normalize
  rw [this, if_neg one_ne_zero]
  congr 1
  ext <;> simp

/-- C85: axes given in the input are accepted exactly when the secondary one is given together with the primary one only, and the angle between them is not acute. -/
theorem C85_accepted_partial (p q : Option (Vec3 ℝ)) :
    validateAxes p q = true ↔ (q.isSome → p.isSome) ∧ ∀ a b, p = some a → q = some b → a.dot b < 1 / 10 ^ 12 := by
  cases p <;> cases q <;> simp [validateAxes]

/-- Perpendicular axes are accepted, the secondary axis alone is not. -/
example : validateAxes (some ⟨0, 0, 1⟩) (some ⟨1, 0, 0⟩) = true ∧ validateAxes none (some ⟨1, 0, 0⟩) = false := by
  refine ⟨?_, rfl⟩
  rw [C85_accepted_partial]
  refine ⟨fun _ => rfl, fun a b ha hb => ?_⟩
  injection ha with ha; injection hb with hb
  subst ha; subst hb
  norm_num [Vec3.dot]

/-- C85: for a polyspherocylinder with the primary axis only, asking whether there is the secondary axis ends with an exception, and so does looking for the
flip axis, which there is. -/
theorem C85_secondary_violated : ∃ G, mkPoly true (some ⟨0, 0, 1⟩) none 0 [("o0", 0), ("b0", ⟨0, 0, -1⟩), ("e0", ⟨0, 0, 1⟩)] [] = .ok G ∧
    validateAxes (some ⟨0, 0, 1⟩) none = true ∧ GoodAxes G ∧ G.hasPrimaryAxis = .ok true ∧
    G.hasSecondaryAxis = .throw "std::bad_optional_access" ∧ G.findFlipAxis Shape.default = .throw "std::bad_optional_access" ∧
    G.hasAuxiliaryAxis = .throw "std::bad_optional_access" ∧ ∃ n : Vec3 ℝ, n.norm2 = 1 ∧ Reverses n ⟨0, 0, 1⟩ := by
  have hn : normalizeAxis (some ⟨0, 0, 1⟩) = .ok (some ⟨0, 0, 1⟩) := normalizeAxis_some (normalize_unit (by norm_num [Vec3.norm2, Vec3.dot]))
  have hG : mkPoly true (some ⟨0, 0, 1⟩) none 0 [("o0", 0), ("b0", ⟨0, 0, -1⟩), ("e0", ⟨0, 0, 1⟩)] [] =
      .ok ⟨some ⟨0, 0, 1⟩, none, 0, [("o0", 0), ("b0", ⟨0, 0, -1⟩), ("e0", ⟨0, 0, 1⟩)], true⟩ := by
    unfold mkPoly
    rw [hn]
    rfl
  refine ⟨_, hG, rfl, (C85_made_partial hG (by intro a b _ hb; cases hb)).1, rfl, rfl, rfl, rfl, ⟨1, 0, 0⟩, by norm_num [Vec3.norm2, Vec3.dot],
    reverses_perpendicular (by simp [Vec3.dot])⟩

/-- C85: axes at an obtuse angle are accepted in the input, and then the half-turn about the flip axis does not reverse the primary axis. -/
theorem C85_obtuse_violated : matchAxis ⟨1, 0, 0⟩ = .ok ⟨1, 0, 0⟩ ∧ matchAxis ⟨-3 / 5, 4 / 5, 0⟩ = .ok ⟨-3 / 5, 4 / 5, 0⟩ ∧
    validateAxes (some ⟨1, 0, 0⟩) (some ⟨-3 / 5, 4 / 5, 0⟩) = true ∧
    ∃ G n, mkPoly false (some ⟨1, 0, 0⟩) (some ⟨-3 / 5, 4 / 5, 0⟩) 0 [("s0", 0)] [] = .ok G ∧ G.getPrimaryAxis Shape.default = .ok ⟨1, 0, 0⟩ ∧
      G.findFlipAxis Shape.default = .ok n ∧ ¬ Reverses n ⟨1, 0, 0⟩ := by
  have n1 : (⟨1, 0, 0⟩ : Vec3 ℝ).norm2 = 1 := by norm_num [Vec3.norm2, Vec3.dot]
  have n2 : (⟨-3 / 5, 4 / 5, 0⟩ : Vec3 ℝ).norm2 = 1 := by norm_num [Vec3.norm2, Vec3.dot]
  have h1 : normalizeAxis (some ⟨1, 0, 0⟩) = .ok (some ⟨1, 0, 0⟩) := normalizeAxis_some (normalize_unit n1)
  have h2 : normalizeAxis (some ⟨-3 / 5, 4 / 5, 0⟩) = .ok (some ⟨-3 / 5, 4 / 5, 0⟩) := normalizeAxis_some (normalize_unit n2)
  refine ⟨?_, ?_, ?_, ⟨some ⟨1, 0, 0⟩, some ⟨-3 / 5, 4 / 5, 0⟩, 0, [("s0", 0)], false⟩, ⟨-3 / 5, 4 / 5, 0⟩, ?_, ?_, ?_, ?_⟩
  · unfold matchAxis
    rw [if_pos (by norm_num), normalize_unit n1]
  · unfold matchAxis
    rw [if_pos (by norm_num), normalize_unit n2]
  · norm_num [validateAxes, Vec3.dot]
  · unfold mkPoly
    rw [h1, h2]
    rfl
  · show Outcome.ok ((1 : Mat3).mulVec ⟨1, 0, 0⟩) = _
    rw [Mat3.one_mulVec]
  · show Outcome.ok ((1 : Mat3).mulVec ⟨-3 / 5, 4 / 5, 0⟩) = _
    rw [Mat3.one_mulVec]
  · intro h
    have h3 := h _ (axisRotation_about n2 Real.pi)
    have h4 := congrArg Vec3.y h3
    rw [axisRotation_entries] at h4
    norm_num [Mat3.mulVec, Vec3.dot] at h4

/-- A rod has the flip axis. -/
example : GoodAxes (rod []) ∧ (rod []).primary = some ⟨0, 0, 1⟩ ∧ (rod []).checksPrimary = false ∧ IsRotation Shape.default.rot := by
  refine ⟨⟨?_, fun b hb => by cases hb⟩, rfl, rfl, ?_⟩
  · intro a ha
    injection ha with ha
    rw [← ha]
    norm_num [Vec3.norm2, Vec3.dot]
  · refine ⟨?_, ?_⟩
    · show (1 : Mat3).transpose * 1 = 1
      simp [Mat3.one_def, Mat3.one, Mat3.transpose, Mat3.mul_def, Mat3.mul, Mat3.c0, Mat3.c1, Mat3.c2, Vec3.dot]
    · show (1 : Mat3).det = 1
      simp [Mat3.det, Mat3.one_def, Mat3.one]

/-- A polysphere with both axes. -/
example : ∃ G, mkPoly false (some ⟨0, 0, 2⟩) (some ⟨3, 0, 0⟩) 0 [("s0", 0), ("s1", ⟨0, 0, 1⟩)] [("tip", ⟨0, 0, 2⟩)] = .ok G ∧
    (⟨0, 0, 2⟩ : Vec3 ℝ).dot ⟨3, 0, 0⟩ = 0 := by
  obtain ⟨n, hn⟩ := normalize_some (v := ⟨0, 0, 2⟩) (by norm_num [Vec3.norm2, Vec3.dot])
  obtain ⟨m, hm⟩ := normalize_some (v := ⟨3, 0, 0⟩) (by norm_num [Vec3.norm2, Vec3.dot])
  refine ⟨⟨some n, some m, 0, [("s0", 0), ("s1", ⟨0, 0, 1⟩), ("tip", ⟨0, 0, 2⟩)], false⟩, ?_, by simp [Vec3.dot]⟩
  unfold mkPoly
  rw [normalizeAxis_some hn, normalizeAxis_some hm]
  rfl

end Rampack
