import Verif.Frontend.ShapeExprLemmas
import Verif.Frontend.ObservProps
import Verif.Geometry.XenoBuilderProps
/-
Property C111: convex bodies given as expressions are what the documentation says, and no other expressions are taken.
-/
namespace Rampack.ShapeExpr

open Pyon Pyon.Spec Rampack.Input Rampack.Input.Spec Rampack.ShapeExpr.Spec
open Rampack.Observ (parse_text decimals_eq call_args)

variable {conv : ℚ → Option ℝ}

/-- **C111** A text is accepted as the geometry of a convex body exactly if it is an expression which means one, and then it is that body. Expressions may be
nested to any depth. -/
theorem C111_geometry (hconv : Rampack.Spec.RoundsIntegers conv) {t : Text} {g : Convex} :
    matchConvex conv t = .ok g ↔ ∃ n, parse conv t = .ok n ∧ IsConvex n g := by
  have rc := scriptMatcher_reads hconv
  unfold matchConvex
  cases hn : parse conv t with
  | ok n =>
    rw [Outcome.ok_bind]
    constructor
    · intro h
      cases hr : (scriptMatcher conv).run n with
      | matched a =>
        rw [hr] at h
        obtain ⟨q, hq, rfl⟩ := (rc n a).mp hr
        cases h
        exact ⟨n, rfl, hq⟩
      | unmatched r => rw [hr] at h; cases h
      | thrown m => rw [hr] at h; cases h
    · rintro ⟨n', h1, h2⟩
      cases h1
      rw [(rc n _).mpr ⟨g, h2, rfl⟩]
  | throw m => exact ⟨fun h => (by cases h), fun ⟨_, h, _⟩ => (by cases h)⟩
  | ub => exact ⟨fun h => (by cases h), fun ⟨_, h, _⟩ => (by cases h)⟩
  | diverge => exact ⟨fun h => (by cases h), fun ⟨_, h, _⟩ => (by cases h)⟩

/-- **C111** An expression means at most one body. -/
theorem C111_unique {n : Node ℝ} {g g' : Convex} (h : IsConvex n g) (h' : IsConvex n g') : g = g' := by
  have rc := scriptMatcher_reads Observ.exact_rounds
  have h1 := (rc n _).mpr ⟨g, h, rfl⟩
  have h2 := (rc n _).mpr ⟨g', h', rfl⟩
  rw [h1] at h2
  injection h2 with h2
  injection h2 with h2
  injection h2 with h2
  injection h2

/-- How deep compositions are nested does not matter: the matcher which is unrolled further reads the same. -/
theorem C111_depth (hconv : Rampack.Spec.RoundsIntegers conv) {n : Node ℝ} {k : Nat} (hk : sizeOf n ≤ k) {g : Convex} :
    (∃ c, script conv k = .ok c ∧ c.toMatcher.run n = .matched (.value (.object (.convex g)))) ↔ IsConvex n g := by
  obtain ⟨c, e, r⟩ := script_reads hconv k
  constructor
  · rintro ⟨c', e', h⟩
    rw [e] at e'
    cases e'
    obtain ⟨g', h1, h2⟩ := (r n _).mp h
    cases h2
    exact convexAt_sound k h1
  · intro h
    exact ⟨c, e, (r n _).mpr ⟨g, convexAt_complete k hk h, rfl⟩⟩

theorem allowed_all {gs : List Convex} : Rampack.Spec.AllAllowed gs ↔ ∀ g ∈ gs, Rampack.Spec.Allowed g := by
  induction gs with
  | nil => simp [Rampack.Spec.AllAllowed]
  | cons g gs ih => simp [Rampack.Spec.AllAllowed, ih]

theorem allowed_at (k : Nat) {n : Node ℝ} {g : Convex} (hk : sizeOf n ≤ k) (h : IsConvex n g) : Rampack.Spec.Allowed g := by
  induction k generalizing n g with
  | zero => cases n <;> simp at hk
  | succ k ih =>
    obtain ⟨h⟩ := h
    have key := IsConvexOf.mono (R' := fun _ g => Rampack.Spec.Allowed g) h (fun n' g' h1 h2 => ih (by omega) h2)
    have many : ∀ {ns : List (Node ℝ)} {gs : List Convex}, List.Forall₂ (fun _ g => Rampack.Spec.Allowed g) ns gs → 2 ≤ ns.length →
        2 ≤ gs.length ∧ Rampack.Spec.AllAllowed gs := by
      intro ns gs h1 h2
      refine ⟨by rw [← h1.length_eq]; exact h2, allowed_all.mpr ?_⟩
      clear h2
      induction h1 with
      | nil => simp
      | cons h _ ih => simpa using ⟨h, ih⟩
    clear h hk
    cases key with
    | point h1 h2 => simp [Rampack.Spec.Allowed]
    | segment h => obtain ⟨-, h1, -, -⟩ := h; exact h1.2
    | rectangle h => obtain ⟨-, h1, h2, -, -, -⟩ := h; exact ⟨h1.2, h2.2⟩
    | cuboid h => obtain ⟨-, h1, h2, h3, -, -⟩ := h; exact ⟨h1.2, h2.2, h3.2⟩
    | disk h => obtain ⟨-, h1, -, -⟩ := h; exact h1.2
    | sphere _ h1 _ => exact h1.2
    | ellipse h => obtain ⟨-, h1, h2, -, -, -⟩ := h; exact ⟨h1.2, h2.2⟩
    | ellipsoid h => obtain ⟨-, h1, h2, h3, -, -⟩ := h; exact ⟨h1.2, h2.2, h3.2⟩
    | saucer h => obtain ⟨-, h1, h2, h3, -, -⟩ := h; exact ⟨h1.2, h2.2, h3⟩
    | football h => obtain ⟨-, h1, h2, h3, -, -⟩ := h; exact ⟨h1.2, h2.2, h3⟩
    | sum h1 h2 => simpa only [Rampack.Spec.Allowed] using many h1 h2
    | diff _ h1 h2 => exact ⟨h1, h2⟩
    | wrap h1 h2 => simpa only [Rampack.Spec.Allowed] using many h1 h2

/-- **C111** Whatever is accepted is built: the builder throws for no text which is accepted. -/
theorem C111_builds (hconv : Rampack.Spec.RoundsIntegers conv) {t : Text} {g : Convex} (h : matchConvex conv t = .ok g) : ∃ x, XCBuilder.build g = .ok x := by
  obtain ⟨n, -, hn⟩ := (C111_geometry hconv).mp h
  exact (C77_accepted g).mpr (allowed_at _ le_rfl hn)

/-- **C111** What is built from a text whose outermost block is not moved is the body which the text means: its center is in the body and its support function gives
furthest points of the body. -/
theorem C111_body_partial (hconv : Rampack.Spec.RoundsIntegers conv) {t : Text} {g : Convex} (h : matchConvex conv t = .ok g) (hd : Rampack.Spec.AtDefault g) :
    ∃ x, XCBuilder.build g = .ok x ∧ Rampack.Spec.ConvexMeans g x.center ∧
      ∀ n, n ≠ 0 → Rampack.Spec.Fine g n → Rampack.Spec.ConvexMeans g (x.support n) ∧ ∀ p, Rampack.Spec.ConvexMeans g p → p.dot n ≤ (x.support n).dot n := by
  obtain ⟨x, hx⟩ := C111_builds hconv h
  obtain ⟨-, h1, h2⟩ := C77_furthest hx hd
  exact ⟨x, hx, h1, h2⟩

/-- An expression for a vector. -/
noncomputable def vecNode (v : Vec3 ℝ) : Node ℝ := .array [.float v.x, .float v.y, .float v.z]

theorem vecNode_means (v : Vec3 ℝ) : IsVec (vecNode v) v := ⟨_, _, _, rfl, .inl rfl, .inl rfl, .inl rfl⟩

mutual

/-- **C111** Nothing which the documentation allows is missing: each allowed body, whose spheres are not rotated, is written by an expression. -/
theorem C111_every : ∀ g : Convex, Rampack.Spec.Allowed g → PlainSpheres g → ∃ n, IsConvex n g
  | .point pos, _, _ => ⟨.dataclass "point".toList [vecNode pos] [], .mk (.point (call_positional (ds := []) rfl rfl) (vecNode_means pos))⟩
  | .block (.segment l) pos rot, h, _ => ⟨_, .mk (.segment (.mk (call_positional (ps := [.float l, vecNode pos, vecNode rot]) (ds := []) rfl rfl) ⟨.inl rfl, h⟩
      (vecNode_means pos) (vecNode_means rot)))⟩
  | .block (.rectangle ax ay) pos rot, h, _ => ⟨_, .mk (.rectangle (.mk (call_positional (ps := [.float ax, .float ay, vecNode pos, vecNode rot]) (ds := []) rfl rfl)
      ⟨.inl rfl, h.1⟩ ⟨.inl rfl, h.2⟩ trivial (vecNode_means pos) (vecNode_means rot)))⟩
  | .block (.cuboid ax ay az) pos rot, h, _ => ⟨_, .mk (.cuboid (.mk (call_positional (ps := [.float ax, .float ay, .float az, vecNode pos, vecNode rot]) (ds := []) rfl rfl)
      ⟨.inl rfl, h.1⟩ ⟨.inl rfl, h.2.1⟩ ⟨.inl rfl, h.2.2⟩ (vecNode_means pos) (vecNode_means rot)))⟩
  | .block (.disk r) pos rot, h, _ => ⟨_, .mk (.disk (.mk (call_positional (ps := [.float r, vecNode pos, vecNode rot]) (ds := []) rfl rfl) ⟨.inl rfl, h⟩
      (vecNode_means pos) (vecNode_means rot)))⟩
  | .block (.sphere r) pos rot, h, hp => by
    have hp : rot = 0 := hp
    subst hp
    exact ⟨_, .mk (.sphere (call_positional (ps := [.float r, vecNode pos]) (ds := []) rfl rfl) ⟨.inl rfl, h⟩ (vecNode_means pos))⟩
  | .block (.ellipse rx ry) pos rot, h, _ => ⟨_, .mk (.ellipse (.mk (call_positional (ps := [.float rx, .float ry, vecNode pos, vecNode rot]) (ds := []) rfl rfl)
      ⟨.inl rfl, h.1⟩ ⟨.inl rfl, h.2⟩ trivial (vecNode_means pos) (vecNode_means rot)))⟩
  | .block (.ellipsoid rx ry rz) pos rot, h, _ => ⟨_, .mk (.ellipsoid (.mk (call_positional (ps := [.float rx, .float ry, .float rz, vecNode pos, vecNode rot]) (ds := []) rfl rfl)
      ⟨.inl rfl, h.1⟩ ⟨.inl rfl, h.2.1⟩ ⟨.inl rfl, h.2.2⟩ (vecNode_means pos) (vecNode_means rot)))⟩
  | .block (.saucer r l) pos rot, h, _ => ⟨_, .mk (.saucer (.mk (call_positional (ps := [.float r, .float l, vecNode pos, vecNode rot]) (ds := []) rfl rfl)
      ⟨.inl rfl, h.1⟩ ⟨.inl rfl, h.2.1⟩ h.2.2 (vecNode_means pos) (vecNode_means rot)))⟩
  | .block (.football r l) pos rot, h, _ => ⟨_, .mk (.football (.mk (call_positional (ps := [.float r, .float l, vecNode pos, vecNode rot]) (ds := []) rfl rfl)
      ⟨.inl rfl, h.1⟩ ⟨.inl rfl, h.2.1⟩ h.2.2 (vecNode_means pos) (vecNode_means rot)))⟩
  | .sum gs, h, hp => by
    obtain ⟨ns, hns⟩ := every_all gs h.2 hp
    exact ⟨_, .mk (.sum hns (by rw [hns.length_eq]; exact h.1))⟩
  | .diff g1 g2, h, hp => by
    obtain ⟨n1, h1⟩ := C111_every g1 h.1 hp.1
    obtain ⟨n2, h2⟩ := C111_every g2 h.2 hp.2
    exact ⟨_, .mk (.diff (call_positional (ps := [n1, n2]) (ds := []) rfl rfl) h1 h2)⟩
  | .wrap gs, h, hp => by
    obtain ⟨ns, hns⟩ := every_all gs h.2 hp
    exact ⟨_, .mk (.wrap hns (by rw [hns.length_eq]; exact h.1))⟩

theorem every_all : ∀ gs : List Convex, Rampack.Spec.AllAllowed gs → AllPlainSpheres gs → ∃ ns, List.Forall₂ IsConvex ns gs
  | [], _, _ => ⟨[], .nil⟩
  | g :: gs, h, hp => by
    obtain ⟨n, hn⟩ := C111_every g h.1 hp.1
    obtain ⟨ns, hns⟩ := every_all gs h.2 hp.2
    exact ⟨n :: ns, .cons hn hns⟩

end

/-! ### Cases -/

/-- The example of the documentation: `wrap(sphere(r=0.5, pos=[0, 0, -0.5]), cuboid(ax=1, ay=1, az=1, pos=[0, 0, 0.5], rot=[45, 0, 0]))` -/
example : IsConvex (.dataclass "wrap".toList [
    .dataclass "sphere".toList [] [("r".toList, .float (1 / 2)), ("pos".toList, .array [.int 0, .int 0, .float (-1 / 2)])],
    .dataclass "cuboid".toList [.int 1, .int 1, .int 1, .array [.int 0, .int 0, .float (1 / 2)], .array [.int 45, .int 0, .int 0]] []] [])
    (.wrap [.block (.sphere (1 / 2)) ⟨0, 0, -1 / 2⟩ 0, .block (.cuboid 1 1 1) ⟨0, 0, 1 / 2⟩ ⟨45, 0, 0⟩]) := by
  have i : ∀ k : Int, IsNumber (.int k) (k : ℝ) := fun k => .inr ⟨k, rfl, rfl⟩
  have i0 : IsNumber (.int 0) 0 := by simpa using i 0
  have i1 : IsNumber (.int 1) 1 := by simpa using i 1
  have i45 : IsNumber (.int 45) 45 := by simpa using i 45
  refine .mk (.wrap (.cons (.mk (.sphere (a := .float (1 / 2)) (b := .array [.int 0, .int 0, .float (-1 / 2)]) ?_ ⟨.inl rfl, by norm_num⟩ ⟨_, _, _, rfl, i0, i0, .inl rfl⟩))
    (.cons (.mk (.cuboid (.mk (call_positional (ds := []) rfl rfl) ⟨i1, by norm_num⟩ ⟨i1, by norm_num⟩ ⟨i1, by norm_num⟩ ⟨_, _, _, rfl, i0, i0, .inl rfl⟩
      ⟨_, _, _, rfl, i45, i0, i0⟩))) .nil)) (by decide))
  refine ⟨[], _, rfl, by decide, ?_, rfl, ?_⟩
  · intro e he
    simp only [List.mem_cons, List.not_mem_nil, or_false] at he
    rcases he with rfl | rfl
    · exact ⟨("r", none), by simp, rfl⟩
    · exact ⟨("pos", zeros), by simp, rfl⟩
  · intro j k dflt a hj ha
    match j, hj, ha with
    | 0, hj, ha =>
      cases hj
      cases ha
      exact .inr (.inl ⟨by simp, [], _, rfl, by simp⟩)
    | 1, hj, ha =>
      cases hj
      cases ha
      exact .inr (.inl ⟨by simp, [_], [], rfl, by simp⟩)
    | j + 2, hj, _ => simp at hj

/-- A text: a rounded cube, `sum(cuboid(2, 2, 2), sphere(1))` -/
theorem rounded_cube (hconv : Rampack.Spec.RoundsIntegers conv) : matchConvex conv "sum(cuboid(2, 2, 2), sphere(1))".toList =
    .ok (.sum [.block (.cuboid 2 2 2) 0 0, .block (.sphere 1) 0 0]) := by
  have i : ∀ k : Int, IsNumber (.int k) (k : ℝ) := fun k => .inr ⟨k, rfl, rfl⟩
  have i0 : IsNumber (.int 0) 0 := by simpa using i 0
  have i1 : IsNumber (.int 1) 1 := by simpa using i 1
  have i2 : IsNumber (.int 2) 2 := by simpa using i 2
  have z : IsVec (.array [.int 0, .int 0, .int 0]) 0 := ⟨_, _, _, rfl, i0, i0, i0⟩
  have ex : ∀ k : Int, Rampack.Spec.InLong k → Rampack.Spec.Expressible conv (fun _ => []) (.int k : Node ℝ) := fun k h => .int h
  refine (C111_geometry hconv).mpr ⟨.dataclass "sum".toList [.dataclass "cuboid".toList [.int 2, .int 2, .int 2] [], .dataclass "sphere".toList [.int 1] []] [],
    parse_text hconv ?_ (by simp only [Rampack.Spec.canonical, Rampack.Spec.canonicals, Rampack.Spec.canonicalEntries, Rampack.Spec.joinText, Rampack.Spec.intText,
      decimals_eq 12, List.append_nil]; rfl), ?_⟩
  · refine .dataclass ⟨'s', "um".toList, rfl, by unfold Rampack.Spec.Letter; decide⟩ (by unfold Rampack.Spec.Reserved; decide) ?_ (by simp) (by simp) (by simp)
    simp only [List.mem_cons, List.not_mem_nil, or_false, forall_eq_or_imp, forall_eq]
    refine ⟨.dataclass ⟨'c', "uboid".toList, rfl, by unfold Rampack.Spec.Letter; decide⟩ (by unfold Rampack.Spec.Reserved; decide) ?_ (by simp) (by simp) (by simp),
      .dataclass ⟨'s', "phere".toList, rfl, by unfold Rampack.Spec.Letter; decide⟩ (by unfold Rampack.Spec.Reserved; decide) ?_ (by simp) (by simp) (by simp)⟩
    all_goals
      simp only [List.mem_cons, List.not_mem_nil, or_false, forall_eq_or_imp, forall_eq]
    · exact ⟨ex _ (by unfold Rampack.Spec.InLong; decide), ex _ (by unfold Rampack.Spec.InLong; decide), ex _ (by unfold Rampack.Spec.InLong; decide)⟩
    · exact ex _ (by unfold Rampack.Spec.InLong; decide)
  · exact .mk (.sum (.cons (.mk (.cuboid (.mk (call_positional (ds := [.array [.int 0, .int 0, .int 0], .array [.int 0, .int 0, .int 0]]) rfl rfl) ⟨i2, by norm_num⟩
      ⟨i2, by norm_num⟩ ⟨i2, by norm_num⟩ z z))) (.cons (.mk (.sphere (call_positional (ds := [.array [.int 0, .int 0, .int 0]]) rfl rfl) ⟨i1, by norm_num⟩ z)) .nil))
      (by decide))

example (hconv : Rampack.Spec.RoundsIntegers conv) : ∃ x, XCBuilder.build (.sum [.block (.cuboid 2 2 2) 0 0, .block (.sphere 1) 0 0]) = .ok x :=
  C111_builds hconv (rounded_cube hconv)

/-- The hypotheses of `C111_body_partial` are met. -/
example : Rampack.Spec.AtDefault (.sum [.block (.cuboid 2 2 2) 0 0, .block (.sphere 1) 0 0]) ∧
    ∀ n, Rampack.Spec.Fine (.sum [.block (.cuboid 2 2 2) 0 0, .block (.sphere 1) 0 0]) n := by
  simp [Rampack.Spec.AtDefault, Rampack.Spec.Fine, Rampack.Spec.AllFine, Rampack.Spec.BlockFine]

example : Rampack.Spec.Allowed (.diff (.block (.saucer 1 1) 0 0) (.point 0)) ∧ PlainSpheres (.diff (.block (.saucer 1 1) 0 0) (.point 0)) := by
  simp [Rampack.Spec.Allowed, Rampack.Spec.BlockSizes, PlainSpheres]

end Rampack.ShapeExpr
