import Verif.Frontend.ShapeClassesParts
/-
Property C112: shapes given as expressions are what the documentation says, no other expressions are taken, and constructors refuse none of those which mean a shape.
-/
namespace Rampack.ShapeExpr

open Pyon Pyon.Spec Rampack.Input Rampack.Input.Spec Rampack.ShapeExpr.Spec Rampack.Shapes
open Rampack.Observ (parse_text decimals_eq call_args)

variable {conv : ℚ → Option ℝ}

theorem shape_reads (hconv : Rampack.Spec.RoundsIntegers conv) : ∃ c, createShape conv = .ok c ∧ Interprets c.toMatcher IsSpecies (fun s => .object (.species s)) := by
  obtain ⟨c1, e1, n1, r1⟩ := sphere_class hconv
  obtain ⟨c2, e2, n2, r2⟩ := kmer_class hconv
  obtain ⟨c3, e3, n3, r3⟩ := banana_class hconv
  obtain ⟨c4, e4, n4, r4⟩ := lollipop_class hconv
  obtain ⟨c5, e5, n5, r5⟩ := wedge_class hconv
  obtain ⟨c6, e6, n6, r6⟩ := spherocylinder_class
  obtain ⟨c7, e7, n7, r7⟩ := rod_banana_class hconv
  obtain ⟨c8, e8, n8, r8⟩ := smooth_class hconv
  obtain ⟨c9, e9, n9, r9⟩ := polysphere_class hconv
  obtain ⟨c10, e10, n10, r10⟩ := polyspherocylinder_class hconv
  obtain ⟨c11, e11, n11, r11⟩ := generic_class hconv
  obtain ⟨c12, e12, n12, r12⟩ := polyhedral_class hconv
  refine ⟨_, by rw [createShape, e1, e2, e3, e4, e5, e6, e7, e8, e9, e10, e11, e12]; rfl, fun n v => ?_⟩
  refine Iff.trans (alternative_reads (heads := ["sphere", "kmer", "polysphere_banana", "polysphere_lollipop", "polysphere_wedge", "spherocylinder",
    "polyspherocylinder_banana", "smooth_wedge", "polysphere", "polyspherocylinder", "generic_convex", "polyhedral_wedge"].map fun s => Head.named s.toList)
    (by exact ⟨⟨⟨⟨⟨⟨⟨⟨⟨⟨⟨trivial, trivial⟩, trivial⟩, trivial⟩, trivial⟩, trivial⟩, trivial⟩, trivial⟩, trivial⟩, trivial⟩, trivial⟩, trivial⟩)
    (by exact .cons (takes_class n1) (.cons (takes_class n2) (.cons (takes_class n3) (.cons (takes_class n4) (.cons (takes_class n5) (.cons (takes_class n6)
      (.cons (takes_class n7) (.cons (takes_class n8) (.cons (takes_class n9) (.cons (takes_class n10) (.cons (takes_class n11) (.cons (takes_class n12)
      .nil)))))))))))) (heads_nodup (by decide))) ?_
  simp only [options, List.cons_append, List.nil_append, List.mem_cons, List.not_mem_nil, or_false, exists_eq_or_imp, exists_eq_left, r1 n v, r2 n v, r3 n v, r4 n v,
    r5 n v, r6 n v, r7 n v, r8 n v, r9 n v, r10 n v, r11 n v, r12 n v]
  constructor
  · rintro (⟨s, h, rfl⟩ | ⟨s, h, rfl⟩ | ⟨s, h, rfl⟩ | ⟨s, h, rfl⟩ | ⟨s, h, rfl⟩ | ⟨s, h, rfl⟩ | ⟨s, h, rfl⟩ | ⟨s, h, rfl⟩ | ⟨s, h, rfl⟩ | ⟨s, h, rfl⟩ | ⟨s, h, rfl⟩ | ⟨s, h, rfl⟩)
    · obtain ⟨a, b, r, i, h1, h2, h3, rfl⟩ := h; exact ⟨_, .sphere h1 h2 h3, rfl⟩
    · obtain ⟨a, b, c, d, k, r, di, i, h1, h2, h3, h4, h5, rfl⟩ := h; exact ⟨_, .kmer h1 h2 h3 h4 h5, rfl⟩
    · obtain ⟨a, b, c, d, e, k, r, R, A, i, h1, h2, h3, h4, h5, h6, h7, h8, rfl⟩ := h; exact ⟨_, .polysphereBanana h1 h2 h3 h4 h5 h6 h7 h8, rfl⟩
    · obtain ⟨a, b, c, d, e, k, r, R, p, q, h1, h2, h3, h4, h5, h6, h7, h8, h9, rfl⟩ := h; exact ⟨_, .polysphereLollipop h1 h2 h3 h4 h5 h6 h7 h8 h9, rfl⟩
    · obtain ⟨a, b, c, d, k, r, R, p, h1, h2, h3, h4, h5, h6, h7, rfl⟩ := h; exact ⟨_, .polysphereWedge h1 h2 h3 h4 h5 h6 h7, rfl⟩
    · obtain ⟨a, b, l, r, h1, h2, h3, rfl⟩ := h; exact ⟨_, .spherocylinder h1 h2 h3, rfl⟩
    · obtain ⟨a, b, c, d, e, k, parts, r, R, A, h1, h2, h3, h4, h5, h6, h7, h8, rfl⟩ := h; exact ⟨_, .polyspherocylinderBanana h1 h2 h3 h4 h5 h6 h7 h8, rfl⟩
    · obtain ⟨a, b, c, d, parts, l, R, r, h1, h2, h3, h4, h5, h6, h7, rfl⟩ := h; exact ⟨_, .smoothWedge h1 h2 h3 h4 h5 h6 h7, rfl⟩
    · obtain ⟨sn, a, b, c, d, e, i, l, f, I, h1, h2, h3, h4, h5, rfl⟩ := h; exact ⟨_, .polysphere h1 h2 h3 h4 h5, rfl⟩
    · obtain ⟨sn, a, b, c, d, e, l, f, h1, h2, h3, h4, rfl⟩ := h; exact ⟨_, .polyspherocylinder h1 h2 h3 h4, rfl⟩
    · obtain ⟨sn, a, b, c, d, e, g, f, h1, h2, h3, rfl⟩ := h; exact ⟨_, .genericConvex h1 h2 h3, rfl⟩
    · obtain ⟨a, b, c, d, e, g, parts, bx, bz, tx, ty, l, h1, h2, h3, h4, h5, h6, h7, h8, rfl⟩ := h; exact ⟨_, .polyhedralWedge h1 h2 h3 h4 h5 h6 h7 h8, rfl⟩
  · rintro ⟨s, h, rfl⟩
    cases h with
    | sphere h1 h2 h3 => exact .inl ⟨_, ⟨_, _, _, _, h1, h2, h3, rfl⟩, rfl⟩
    | kmer h1 h2 h3 h4 h5 => exact .inr (.inl ⟨_, ⟨_, _, _, _, _, _, _, _, h1, h2, h3, h4, h5, rfl⟩, rfl⟩)
    | polysphereBanana h1 h2 h3 h4 h5 h6 h7 h8 => exact .inr (.inr (.inl ⟨_, ⟨_, _, _, _, _, _, _, _, _, _, h1, h2, h3, h4, h5, h6, h7, h8, rfl⟩, rfl⟩))
    | polysphereLollipop h1 h2 h3 h4 h5 h6 h7 h8 h9 => exact .inr (.inr (.inr (.inl ⟨_, ⟨_, _, _, _, _, _, _, _, _, _, h1, h2, h3, h4, h5, h6, h7, h8, h9, rfl⟩, rfl⟩)))
    | polysphereWedge h1 h2 h3 h4 h5 h6 h7 => exact .inr (.inr (.inr (.inr (.inl ⟨_, ⟨_, _, _, _, _, _, _, _, h1, h2, h3, h4, h5, h6, h7, rfl⟩, rfl⟩))))
    | spherocylinder h1 h2 h3 => exact .inr (.inr (.inr (.inr (.inr (.inl ⟨_, ⟨_, _, _, _, h1, h2, h3, rfl⟩, rfl⟩)))))
    | polyspherocylinderBanana h1 h2 h3 h4 h5 h6 h7 h8 =>
      exact .inr (.inr (.inr (.inr (.inr (.inr (.inl ⟨_, ⟨_, _, _, _, _, _, _, _, _, _, h1, h2, h3, h4, h5, h6, h7, h8, rfl⟩, rfl⟩))))))
    | smoothWedge h1 h2 h3 h4 h5 h6 h7 => exact .inr (.inr (.inr (.inr (.inr (.inr (.inr (.inl ⟨_, ⟨_, _, _, _, _, _, _, _, h1, h2, h3, h4, h5, h6, h7, rfl⟩, rfl⟩)))))))
    | polysphere h1 h2 h3 h4 h5 =>
      exact .inr (.inr (.inr (.inr (.inr (.inr (.inr (.inr (.inl ⟨_, ⟨_, _, _, _, _, _, _, _, _, _, h1, h2, h3, h4, h5, rfl⟩, rfl⟩))))))))
    | polyspherocylinder h1 h2 h3 h4 =>
      exact .inr (.inr (.inr (.inr (.inr (.inr (.inr (.inr (.inr (.inl ⟨_, ⟨_, _, _, _, _, _, _, _, h1, h2, h3, h4, rfl⟩, rfl⟩)))))))))
    | genericConvex h1 h2 h3 =>
      exact .inr (.inr (.inr (.inr (.inr (.inr (.inr (.inr (.inr (.inr (.inl ⟨_, ⟨_, _, _, _, _, _, _, _, h1, h2, h3, rfl⟩, rfl⟩))))))))))
    | polyhedralWedge h1 h2 h3 h4 h5 h6 h7 h8 =>
      exact .inr (.inr (.inr (.inr (.inr (.inr (.inr (.inr (.inr (.inr (.inr ⟨_, ⟨_, _, _, _, _, _, _, _, _, _, _, _, h1, h2, h3, h4, h5, h6, h7, h8, rfl⟩, rfl⟩))))))))))

/-- **C112** A text is accepted as a shape exactly if it is an expression which means one, and then the class of the shape and the arguments of its constructor are
those which the expression means. -/
theorem C112_shape (hconv : Rampack.Spec.RoundsIntegers conv) {t : Text} {s : Species} : matchShape conv t = .ok s ↔ ∃ n, parse conv t = .ok n ∧ IsSpecies n s := by
  obtain ⟨c, ec, rc⟩ := shape_reads hconv
  unfold matchShape
  cases hn : parse conv t with
  | ok n =>
    rw [Outcome.ok_bind, ec, Outcome.ok_bind]
    constructor
    · intro h
      cases hr : c.toMatcher.run n with
      | matched a =>
        rw [hr] at h
        obtain ⟨q, hq, rfl⟩ := (rc n a).mp hr
        cases h
        exact ⟨n, rfl, hq⟩
      | unmatched r => rw [hr] at h; cases h
      | thrown m => rw [hr] at h; cases h
    · rintro ⟨n', h1, h2⟩
      cases h1
      rw [(rc n _).mpr ⟨s, h2, rfl⟩]
  | throw m => exact ⟨fun h => (by cases h), fun ⟨_, h, _⟩ => (by cases h)⟩
  | ub => exact ⟨fun h => (by cases h), fun ⟨_, h, _⟩ => (by cases h)⟩
  | diverge => exact ⟨fun h => (by cases h), fun ⟨_, h, _⟩ => (by cases h)⟩

/-- **C112** An expression means at most one shape. -/
theorem C112_unique {n : Node ℝ} {s s' : Species} (h : IsSpecies n s) (h' : IsSpecies n s') : s = s' := by
  obtain ⟨c, -, rc⟩ := shape_reads Observ.exact_rounds
  have h1 := (rc n _).mpr ⟨s, h, rfl⟩
  have h2 := (rc n _).mpr ⟨s', h', rfl⟩
  rw [h1] at h2
  injection h2 with h2
  injection h2 with h2
  injection h2 with h2
  injection h2

/-- **C112** Whatever means a shape is made: the constructor with these arguments does not throw. -/
theorem C112_made {n : Node ℝ} {s : Species} (h : IsSpecies n s) : s.check = .ok () := by
  have hpi := Real.pi_pos
  cases h with
  | sphere h1 h2 h3 =>
    refine discard.mpr ?_
    unfold Shapes.sphere
    rw [decide_eq_true (show _ > (0 : ℝ) from h2.2)]
    exact ⟨_, rfl⟩
  | kmer h1 h2 h3 h4 h5 => exact discard.mpr ((C103_kmer _ _ _).1.mpr ⟨h2.2, h3.2, h4.2⟩)
  | polysphereBanana h1 h2 h3 h4 h5 h6 h7 h8 => exact discard.mpr ((C106_spheres _ _ _ _).1.mpr ⟨h6.2, h7, h2.2, h3.2, h5⟩)
  | polysphereLollipop h1 h2 h3 h4 h5 h6 h7 h8 h9 => exact discard.mpr ((C103_lollipop _ _ _ _ _).1.mpr ⟨h2.2, h3.2, h4.2, h6, h8, h9⟩)
  | polysphereWedge h1 h2 h3 h4 h5 h6 h7 => exact discard.mpr ((C103_wedge _ _ _ _).1.mpr ⟨h2.2, h3.2, h4.2, h6, h7⟩)
  | spherocylinder h1 h2 h3 =>
    refine discard.mpr ?_
    unfold Shapes.spherocylinder
    rw [decide_eq_true (show _ ≥ (0 : ℝ) from h2.2.le), decide_eq_true (show _ > (0 : ℝ) from h3.2)]
    exact ⟨_, rfl⟩
  | polyspherocylinderBanana h1 h2 h3 h4 h5 h6 h7 h8 =>
    exact discard.mpr ((C106_rods_partial _ _ _ _ _).1.mpr ⟨⟨h4.2, h5.2, by linarith, h2.2, h3.2⟩, h8, .inl h6.le, h7.2⟩)
  | smoothWedge h1 h2 h3 h4 h5 h6 h7 => exact discard.mpr ((C104_smooth _ _ _ _).1.mpr ⟨h3.2, h4.2, h2.2, h6, h7⟩)
  | @polysphere _ _ _ _ _ _ _ l _ _ h1 h2 h3 h4 h5 =>
    have hl : (!l.isEmpty) = true := by
      have := spheres_some h2
      cases l <;> simp at this ⊢
    rw [Species.check, hl, Outcome.require_true, Outcome.ok_bind]
    exact discard.mpr ((sphere_free h3).mpr h4)
  | @polyspherocylinder _ _ _ _ _ _ l _ h1 h2 h3 h4 =>
    have hl : (!l.isEmpty) = true := by
      have := rods_some h2
      cases l <;> simp at this ⊢
    rw [Species.check, hl, Outcome.require_true, Outcome.ok_bind]
    exact discard.mpr ((rod_free h3).mpr h4)
  | @genericConvex _ _ _ _ _ _ g _ h1 h2 h3 =>
    obtain ⟨x, hx⟩ := (C77_accepted g).mpr (allowed_at _ le_rfl h2)
    rw [Species.check, hx, Outcome.ok_bind]
    exact discard.mpr (xeno_ok h3)
  | polyhedralWedge h1 h2 h3 h4 h5 h6 h7 h8 => exact discard.mpr ((C104_polyhedral h2.2 h3.2 h4.2 h5.2 _ _).1.mpr ⟨h7.2, h6⟩)

/-! ### Cases -/

theorem hard_means : IsInteraction (.dataclass "hard".toList [] []) .hard := .hard (call_positional (ps := []) (ds := []) rfl rfl)

/-- Three touching spheres in a row. -/
theorem trimer (hconv : Rampack.Spec.RoundsIntegers conv) : matchShape conv "kmer(3, 1, 2)".toList = .ok (.kmer 3 1 2 .hard) := by
  have i : ∀ k : Int, IsNumber (.int k) (k : ℝ) := fun k => .inr ⟨k, rfl, rfl⟩
  have i1 : IsNumber (.int 1) 1 := by simpa using i 1
  have i2 : IsNumber (.int 2) 2 := by simpa using i 2
  refine (C112_shape hconv).mpr ⟨.dataclass "kmer".toList [.int 3, .int 1, .int 2] [], parse_text hconv ?_ (by eval_text), ?_⟩
  · refine .dataclass ⟨'k', "mer".toList, rfl, by unfold Rampack.Spec.Letter; decide⟩ (by unfold Rampack.Spec.Reserved; decide) ?_ (by simp) (by simp) (by simp)
    simp only [List.mem_cons, List.not_mem_nil, or_false, forall_eq_or_imp, forall_eq]
    exact ⟨.int (by unfold Rampack.Spec.InLong; decide), .int (by unfold Rampack.Spec.InLong; decide), .int (by unfold Rampack.Spec.InLong; decide)⟩
  · exact .kmer (call_positional (ds := [.dataclass "hard".toList [] []]) rfl rfl) ⟨rfl, by decide⟩ ⟨i1, by norm_num⟩ ⟨i2, by norm_num⟩ hard_means

/-- A polysphere of a single ball with the primary axis z, the secondary axis as given and a point of the given name. -/
noncomputable def ballNode (v : Vec3 ℝ) (name : String) : Node ℝ :=
  .dataclass "polysphere".toList [.dataclass "sphere".toList [vecNode 0, .float 1] [], .float 4, vecNode 0, vecNode ⟨0, 0, 1⟩, vecNode v,
    .dictionary [(name.toList, vecNode ⟨0, 0, 1⟩)]] []

theorem ball_means : IsSpheres (.dataclass "sphere".toList [vecNode 0, .float 1] []) [⟨0, 1⟩] :=
  .one (.mk (ps := [0]) (call_positional (ds := []) rfl rfl) (.one (vecNode_means 0)) ⟨.inl rfl, one_pos⟩)

theorem point_means (name : String) (v : Vec3 ℝ) : IsPoints (.dictionary [(name.toList, vecNode v)]) [(name.toList, v)] := by
  refine ⟨_, rfl, by simp [Ordered], ?_, ?_⟩
  · rintro k m ⟨p, s, h, -⟩
    cases p with
    | nil => cases h; exact ⟨v, vecNode_means v, by simp⟩
    | cons _ p => simp at h
  · intro k w h
    simp only [List.mem_cons, List.not_mem_nil, or_false, Prod.mk.injEq] at h
    obtain ⟨rfl, rfl⟩ := h
    exact ⟨_, ⟨[], [], rfl, by simp⟩, vecNode_means _⟩

theorem unit_means {v : Vec3 ℝ} (hv : v.norm2 = 1) (h : 1 / 10 ^ 10 < |v.x| ∨ 1 / 10 ^ 10 < |v.y| ∨ 1 / 10 ^ 10 < |v.z|) : IsAxis (vecNode v) (some v) := by
  refine .some (vecNode_means v) h ?_
  have : v.norm = 1 := by unfold Vec3.norm; rw [hv, Real.sqrt_one]
  rw [this]
  apply Vec3.ext <;> simp

theorem ballNode_means {v : Vec3 ℝ} (hv : v.norm2 = 1) (h : 1 / 10 ^ 10 < |v.x| ∨ 1 / 10 ^ 10 < |v.y| ∨ 1 / 10 ^ 10 < |v.z|) (hz : v.z < 1 / 10 ^ 12) {name : String}
    (hn : name ≠ "s0") : IsSpecies (ballNode v name) (.polysphere [⟨0, 1⟩] ⟨4, 0, some ⟨0, 0, 1⟩, some v, [(name.toList, ⟨0, 0, 1⟩)]⟩ .hard) := by
  refine .polysphere (call_positional (ds := [.dataclass "hard".toList [] []]) rfl rfl) ball_means ⟨⟨.inl rfl, by norm_num⟩, vecNode_means 0,
    unit_means (by norm_num [Vec3.norm2, Vec3.dot]) (.inr (.inr (by norm_num))), unit_means hv h, fun _ => rfl, ?_, point_means _ _⟩ ?_ hard_means
  · rintro p q hp hq
    cases hp
    cases hq
    simpa [Vec3.dot] using hz
  · intro k w hk s hs i hi
    simp only [List.mem_cons, List.not_mem_nil, or_false, Prod.mk.injEq, List.length_cons, List.length_nil, Nat.zero_add] at hk hs hi
    obtain ⟨rfl, -⟩ := hk
    obtain rfl : i = 0 := by omega
    subst hs
    intro h
    exact hn (String.toList_injective h)

/-- The conditions are met: a ball whose point is called `tip` and whose axes are z and x. -/
example : IsSpecies (ballNode ⟨1, 0, 0⟩ "tip") (.polysphere [⟨0, 1⟩] ⟨4, 0, some ⟨0, 0, 1⟩, some ⟨1, 0, 0⟩, [("tip".toList, ⟨0, 0, 1⟩)]⟩ .hard) :=
  ballNode_means (by norm_num [Vec3.norm2, Vec3.dot]) (.inl (by norm_num)) (by norm_num) (by decide)

/-- **C112** The axes are said to be perpendicular, but the secondary axis may be opposite to the primary one. -/
theorem C112_axes_violated : ∃ n l f i p q, IsSpecies n (.polysphere l f i) ∧ f.primary = some p ∧ f.secondary = some q ∧ q = -p :=
  ⟨ballNode ⟨0, 0, -1⟩ "tip", _, _, _, ⟨0, 0, 1⟩, ⟨0, 0, -1⟩, ballNode_means (by norm_num [Vec3.norm2, Vec3.dot]) (.inr (.inr (by norm_num))) (by norm_num) (by decide),
    rfl, rfl, by apply Vec3.ext <;> simp⟩

/-- **C112** Names of points are said to be arbitrary, but a name which the shape gives to its own points is refused: the same expression is taken with any other name. -/
theorem C112_names_violated : (∀ s, ¬ IsSpecies (ballNode ⟨1, 0, 0⟩ "s0") s) ∧ ∀ name, name ≠ "s0" → ∃ s, IsSpecies (ballNode ⟨1, 0, 0⟩ name) s := by
  constructor
  · intro s h
    have no : ∀ {name : String} {g : List (String × Option (Node ℝ))} {args : List (Node ℝ)}, name.toList ≠ "polysphere".toList →
        ¬ Call (ballNode ⟨1, 0, 0⟩ "s0") name g args := by
      rintro name g args hne ⟨ps, ks, e, -⟩
      injection e with e
      exact hne e.symm
    cases h with
    | sphere h => exact no (name := "sphere") (by decide) h
    | kmer h => exact no (name := "kmer") (by decide) h
    | polysphereBanana h => exact no (name := "polysphere_banana") (by decide) h
    | polysphereLollipop h => exact no (name := "polysphere_lollipop") (by decide) h
    | polysphereWedge h => exact no (name := "polysphere_wedge") (by decide) h
    | spherocylinder h => exact no (name := "spherocylinder") (by decide) h
    | polyspherocylinderBanana h => exact no (name := "polyspherocylinder_banana") (by decide) h
    | smoothWedge h => exact no (name := "smooth_wedge") (by decide) h
    | polyspherocylinder h => exact no (name := "polyspherocylinder") (by decide) h
    | genericConvex h => exact no (name := "generic_convex") (by decide) h
    | polyhedralWedge h => exact no (name := "polyhedral_wedge") (by decide) h
    | @polysphere _ _ _ _ _ e _ l f _ h1 h2 h3 h4 _ =>
      have he := call_args (i := 5) h1 rfl rfl
      simp only [List.getElem?_cons_succ, List.getElem?_cons_zero, Option.some.injEq] at he
      obtain ⟨es, h5, -, h6, -⟩ := h3.points
      rw [he] at h5
      cases h5
      obtain ⟨v, -, hv⟩ := h6 _ _ ⟨[], [], rfl, by simp⟩
      have hl := spheres_some h2
      exact h4 _ _ hv "s" (by simp) 0 (List.length_pos_iff.mpr hl) rfl
  · intro name hn
    exact ⟨_, ballNode_means (by norm_num [Vec3.norm2, Vec3.dot]) (.inl (by norm_num)) (by norm_num) hn⟩

/-- The hypothesis of `C112_made` is met, so the constructor takes it. -/
example : Species.check (.polysphere [⟨0, 1⟩] ⟨4, 0, some ⟨0, 0, 1⟩, some ⟨1, 0, 0⟩, [("tip".toList, ⟨0, 0, 1⟩)]⟩ .hard) = .ok () :=
  C112_made (ballNode_means (v := ⟨1, 0, 0⟩) (by norm_num [Vec3.norm2, Vec3.dot]) (.inl (by norm_num)) (by norm_num) (by decide))

end Rampack.ShapeExpr
