import Verif.Frontend.ObservLemmas
import Mathlib.Data.List.Sort
/-
What the matchers of observables and bulk observables read.
-/
namespace Rampack.Observ

open Pyon Pyon.Spec Rampack.Input Rampack.Input.Spec Rampack.Observ.Spec

variable {conv : ℚ → Option ℝ}

/-- An observable without a scope. -/
def whole (o : Observable) : V := .object (.observable ⟨fullScope, o⟩)

theorem false_run : boolean.run (.boolean false) = .matched (.value (.flag false) : Any ℝ V) := (boolean_reads _ _).mpr ⟨_, rfl, rfl⟩

theorem true_run : boolean.run (.boolean true) = .matched (.value (.flag true) : Any ℝ V) := (boolean_reads _ _).mpr ⟨_, rfl, rfl⟩

theorem plain_reads {name : String} (hname : name.toList ≠ []) {o : Observable} : ∃ c, createPlain name o = .ok c ∧ c.name = name.toList ∧
    Interprets c.toMatcher (fun n p => Call n name [] [] ∧ p = o) whole := by
  refine ⟨_, by rw [createPlain, createClass, if_neg hname]; rfl, rfl, fun n v => ?_⟩
  rw [class_run .nil rfl (by decide) rfl rfl]
  simp only [exists_unread]
  eval_obs
  constructor
  · rintro ⟨g1, -, rfl⟩
    exact ⟨_, ⟨g1, rfl⟩, rfl⟩
  · rintro ⟨s, ⟨g1, rfl⟩, rfl⟩
    exact ⟨g1, by simp [Satisfied], rfl⟩

theorem nematic_reads (hconv : Rampack.Spec.RoundsIntegers conv) : ∃ c, createNematic conv = .ok c ∧ c.name = "nematic_order".toList ∧
    Interprets c.toMatcher (fun n o => ∃ a dump, Call n "nematic_order" [("dump_qtensor", some (.boolean false))] [a] ∧ a = .boolean dump ∧ o = .nematicOrder dump)
      whole := by
  refine ⟨_, by rw [createNematic, optional_ok (parse_false hconv) false_run]; rfl, rfl, fun n v => ?_⟩
  rw [class_run (.optional false_run .nil) rfl (by decide) rfl rfl]
  simp only [exists_read boolean_reads, exists_unread]
  eval_obs
  constructor
  · rintro ⟨a, x, g1, g2, -, rfl⟩
    exact ⟨_, ⟨a, x, g2, g1, rfl⟩, rfl⟩
  · rintro ⟨s, ⟨a, x, g2, g1, rfl⟩, rfl⟩
    exact ⟨a, x, g1, g2, by simp [Satisfied], rfl⟩

theorem mkSmectic_iff {l : List Nat} {dump : Bool} {p : Text} {f : ShapeFn} (hf : SingleValued f) {o : Observable} :
    construct (mkSmectic l dump p f) = .ok o ↔ ∃ r, Fits l r ∧ o = .smecticOrder r dump p f := by
  have hany : (l.any fun i => toInt i != 0) = true ↔ ∃ k ∈ l.map (fun k : Nat => Int.bmod (k : Int) (2 ^ 32)), k ≠ 0 := by
    simp [toInt]
  have hall : (l.all fun i => decide (toInt i ≥ 0)) = true ↔ ∀ k ∈ l.map (fun k : Nat => Int.bmod (k : Int) (2 ^ 32)), 0 ≤ k := by
    simp [toInt]
  unfold mkSmectic Fits
  rw [single_iff.mpr hf]
  by_cases h1 : (l.any fun i => toInt i != 0) = true
  · by_cases h2 : (l.all fun i => decide (toInt i ≥ 0)) = true
    · rw [h1, h2]
      constructor
      · intro h
        cases h
        exact ⟨_, ⟨rfl, hall.mp h2, hany.mp h1⟩, rfl⟩
      · rintro ⟨r, ⟨rfl, -, -⟩, rfl⟩
        rfl
    · have h2' := h2
      rw [Bool.not_eq_true] at h2
      rw [h1, h2]
      constructor
      · intro h
        cases h
      · rintro ⟨r, ⟨rfl, h, -⟩, -⟩
        exact absurd (hall.mpr h) h2'
  · have h1' := h1
    rw [Bool.not_eq_true] at h1
    rw [h1]
    constructor
    · intro h
      cases h
    · rintro ⟨r, ⟨rfl, -, h⟩, -⟩
      exact absurd (hany.mpr h) h1'

/-- A conversion which ends with a constructor. -/
theorem construct_bind {α β : Type} {x : Outcome α} {f : α → β} {v : β} :
    (construct x >>= fun a => (.ok (f a) : Except String β)) = .ok v ↔ ∃ a, construct x = .ok a ∧ f a = v := by
  cases x with
  | ok a =>
    constructor
    · intro h
      cases h
      exact ⟨a, rfl, rfl⟩
    · rintro ⟨b, h1, rfl⟩
      cases h1
      rfl
  | _ =>
    constructor
    · intro h
      cases h
    · rintro ⟨b, h1, -⟩
      cases h1

theorem map_ok_iff {α β : Type} {x : Except String α} {f : α → β} {v : β} : x.map f = .ok v ↔ ∃ a, x = .ok a ∧ f a = v := by
  cases x with
  | ok a =>
    constructor
    · intro h
      cases h
      exact ⟨a, rfl, rfl⟩
    · rintro ⟨b, h1, rfl⟩
      cases h1
      rfl
  | error m =>
    constructor
    · intro h
      cases h
    · rintro ⟨b, h1, -⟩
      cases h1

theorem smectic_reads (hconv : Rampack.Spec.RoundsIntegers conv) : ∃ c, createSmectic conv = .ok c ∧ c.name = "smectic_order".toList ∧
    Interprets c.toMatcher (fun n o => ∃ a b c d l r dump p f, Call n "smectic_order" [("max_hkl", none), ("dump_tau_vector", some (.boolean false)),
      ("focal_point", center), ("function", some (.dataclass "const".toList [] []))] [a, b, c, d] ∧ IsMaxHkl a l ∧ Fits l r ∧ b = .boolean dump ∧ IsText c p ∧
      IsFunction d f ∧ SingleValued f ∧ o = .smecticOrder r dump p f) whole := by
  obtain ⟨cf, ef, rf⟩ := function_reads hconv
  have h4 : cf.toMatcher.run (.dataclass "const".toList [] []) = .matched (.value (.object (.function (.const ((1 : Int) : ℝ)))) : Any ℝ V) := by
    refine (rf _ _).mpr ⟨_, .const (a := .int 1) ⟨[], [], rfl, by simp, by simp, rfl, ?_⟩ (.inr ⟨1, rfl, rfl⟩), rfl⟩
    intro i k d a h1 h2
    match i with
    | 0 =>
      simp only [List.getElem?_cons_zero, Option.some.injEq, Prod.mk.injEq] at h1 h2
      obtain ⟨rfl, rfl⟩ := h1
      subst h2
      exact .inr (.inr ⟨by simp, by simp [NotGiven], rfl⟩)
  refine ⟨_, by rw [createSmectic, ef, Outcome.ok_bind, optional_ok (parse_false hconv) false_run, Outcome.ok_bind, optional_ok (parse_center hconv) center_run,
    Outcome.ok_bind, optional_ok (parse_const hconv) h4]; rfl, rfl, fun n v => ?_⟩
  rw [class_run (.required (.optional false_run (.optional center_run (.optional h4 .nil)))) rfl (by decide) rfl rfl]
  simp only [exists_read maxHkl_reads, exists_read boolean_reads, exists_read point_reads, exists_read rf, exists_unread]
  simp only [ClassMatcher.mapTo, satisfied_one, singleValue]
  eval_obs
  constructor
  · rintro ⟨a, l, g1, b, dump, g2, c, p, g3, d, f, g4, g5, g6, g7⟩
    rw [single_iff] at g6
    obtain ⟨w, h7, rfl⟩ := map_ok_iff.mp g7
    obtain ⟨o, h8, rfl⟩ := construct_bind.mp h7
    obtain ⟨r, h9, rfl⟩ := (mkSmectic_iff g6).mp h8
    exact ⟨_, ⟨a, b, c, d, l, r, dump, p, f, g5, g1, h9, g2, g3, g4, g6, rfl⟩, rfl⟩
  · rintro ⟨o, ⟨a, b, c, d, l, r, dump, p, f, g5, g1, g7, g2, g3, g4, g6, rfl⟩, rfl⟩
    refine ⟨a, l, g1, b, dump, g2, c, p, g3, d, f, g4, g5, single_iff.mpr g6, ?_⟩
    rw [(mkSmectic_iff g6).mpr ⟨r, g7, rfl⟩]
    rfl

theorem sort_perm (l : List Nat) : (l.mergeSort (fun a b => decide (a ≤ b))).Perm l := List.mergeSort_perm _ _

theorem sort_sorted (l : List Nat) : (l.mergeSort (fun a b => decide (a ≤ b))).Pairwise (· ≤ ·) := by
  have := List.pairwise_mergeSort (le := fun a b : Nat => decide (a ≤ b)) (by intro a b c; simp only [decide_eq_true_eq]; omega)
    (by intro a b; simp only [Bool.or_eq_true, decide_eq_true_eq]; omega) l
  simpa using this

theorem bond_reads (hconv : Rampack.Spec.RoundsIntegers conv) : ∃ c, createBond conv = .ok c ∧ c.name = "bond_order".toList ∧
    Interprets c.toMatcher (fun n o => ∃ a b c d e hkl ranks sorted p q isLocal, Call n "bond_order" [("hkl", none), ("ranks", none), ("layering_point", center),
      ("focal_point", center), ("local", some (.boolean true))] [a, b, c, d, e] ∧ IsHkl a hkl ∧ IsRanks b ranks ∧ List.Perm sorted ranks ∧
      List.Pairwise (· ≤ ·) sorted ∧ IsText c p ∧ IsText d q ∧ e = .boolean isLocal ∧ o = .bondOrder sorted hkl p q isLocal) whole := by
  have hmk : ∀ {b : Node ℝ} {ranks : List Nat} {hkl : List Int} {p q : Text} {isLocal : Bool}, IsRanks b ranks → (∃ k ∈ hkl, k ≠ 0) →
      mkBond ranks hkl p q isLocal = .ok (.bondOrder (ranks.mergeSort (fun a b => decide (a ≤ b))) hkl p q isLocal) := by
    intro b ranks hkl p q isLocal hr hh
    have h1 : (!ranks.isEmpty) = true := by
      cases hr with
      | single => rfl
      | all _ h => simpa using h
    have h2 : (ranks.all fun r => decide (r ≥ 2)) = true := by
      rw [List.all_eq_true]
      intro x hx
      cases hr with
      | single h =>
        rw [List.mem_singleton.mp hx, decide_eq_true_eq]
        have := h.2
        omega
      | all h _ =>
        obtain ⟨ns, -, h⟩ := h
        have hm : ∃ m ∈ ns, IsRank m x := by
          clear * - h hx
          induction h with
          | nil => simp at hx
          | cons h _ ih =>
            rcases List.mem_cons.mp hx with rfl | hx
            · exact ⟨_, List.mem_cons_self, h⟩
            · obtain ⟨m, h1, h2⟩ := ih hx
              exact ⟨m, List.mem_cons_of_mem _ h1, h2⟩
        obtain ⟨m, -, hm⟩ := hm
        rw [decide_eq_true_eq]
        have := hm.2
        omega
    rw [mkBond, h1, h2, any_nonzero hh]
    rfl
  refine ⟨_, by rw [createBond, optional_ok (parse_center hconv) center_run, Outcome.ok_bind, optional_ok (parse_center hconv) center_run, Outcome.ok_bind,
    optional_ok (parse_true hconv) true_run]; rfl, rfl, fun n v => ?_⟩
  rw [class_run (.required (.required (.optional center_run (.optional center_run (.optional true_run .nil))))) rfl (by decide) rfl rfl]
  simp only [exists_read hkl_reads, exists_read ranks_reads, exists_read boolean_reads, exists_read point_reads, exists_unread]
  eval_obs
  constructor
  · rintro ⟨a, hkl, g1, b, ranks, g2, c, p, g3, d, q, g4, e, isLocal, g5, g6, -, g7⟩
    rw [hmk g2 g1.2.2, construct_ok, ok_bind'] at g7
    cases g7
    exact ⟨_, ⟨a, b, c, d, e, hkl, ranks, _, p, q, isLocal, g6, g1, g2, sort_perm _, sort_sorted _, g3, g4, g5, rfl⟩, rfl⟩
  · rintro ⟨o, ⟨a, b, c, d, e, hkl, ranks, sorted, p, q, isLocal, g6, g1, g2, s1, s2, g3, g4, g5, rfl⟩, rfl⟩
    refine ⟨a, hkl, g1, b, ranks, g2, c, p, g3, d, q, g4, e, isLocal, g5, g6, by simp [Satisfied], ?_⟩
    rw [hmk g2 g1.2.2, construct_ok, ok_bind']
    have : sorted = ranks.mergeSort (fun a b => decide (a ≤ b)) :=
      (s1.trans (sort_perm ranks).symm).eq_of_pairwise (fun a b _ _ h1 h2 => le_antisymm h1 h2) s2 (sort_sorted ranks)
    rw [this]
    rfl

/-- The names of observables. -/
def names : List String :=
  ["number_density", "box_dimensions", "packing_fraction", "compressibility_factor", "energy_per_particle", "energy_fluctuations_per_particle", "nematic_order",
    "smectic_order", "bond_order", "rotation_matrix_drift", "temperature", "pressure", "fourier_tracker"]

theorem observable_reads (hconv : Rampack.Spec.RoundsIntegers conv) : ∃ c, createObservable conv = .ok c ∧ Sound c ∧
    List.Forall₂ Input.Takes (options c) (names.map fun s => Head.named s.toList) ∧
    (∀ n v, (∃ m ∈ options c, m.run n = .matched v) ↔ ∃ o, IsObservable n o ∧ v = .value (whole o)) ∧
    Interprets c.toMatcher IsObservable whole := by
  obtain ⟨c1, e1, n1, r1⟩ := plain_reads (name := "number_density") (by decide) (o := .numberDensity)
  obtain ⟨c2, e2, n2, r2⟩ := plain_reads (name := "box_dimensions") (by decide) (o := .boxDimensions)
  obtain ⟨c3, e3, n3, r3⟩ := plain_reads (name := "packing_fraction") (by decide) (o := .packingFraction)
  obtain ⟨c4, e4, n4, r4⟩ := plain_reads (name := "compressibility_factor") (by decide) (o := .compressibilityFactor)
  obtain ⟨c5, e5, n5, r5⟩ := plain_reads (name := "energy_per_particle") (by decide) (o := .energyPerParticle)
  obtain ⟨c6, e6, n6, r6⟩ := plain_reads (name := "energy_fluctuations_per_particle") (by decide) (o := .energyFluctuationsPerParticle)
  obtain ⟨c7, e7, n7, r7⟩ := nematic_reads hconv
  obtain ⟨c8, e8, n8, r8⟩ := smectic_reads hconv
  obtain ⟨c9, e9, n9, r9⟩ := bond_reads hconv
  obtain ⟨c10, e10, n10, r10⟩ := plain_reads (name := "rotation_matrix_drift") (by decide) (o := .rotationMatrixDrift)
  obtain ⟨c11, e11, n11, r11⟩ := plain_reads (name := "temperature") (by decide) (o := .temperature)
  obtain ⟨c12, e12, n12, r12⟩ := plain_reads (name := "pressure") (by decide) (o := .pressure)
  obtain ⟨c13, e13, n13, r13⟩ := fourier_run hconv (make := fun p => whole (.fourier p.1 p.2))
  have e13' : createFourierObservable conv = .ok (ClassMatcher.mapTo c13 fun d => do let p ← makeFourier d; return whole (.fourier p.1 p.2)) := by
    rw [createFourierObservable, e13]
    rfl
  have n13' : (ClassMatcher.mapTo c13 fun d => do let p ← makeFourier d; return whole (.fourier p.1 p.2)).name = "fourier_tracker".toList := n13
  generalize (ClassMatcher.mapTo c13 fun d => do let p ← makeFourier d; return whole (.fourier p.1 p.2)) = c14 at *
  have hs : Sound (.join (.join (.join (.join (.join (.join (.join (.join (.join (.join (.join (.join (.dataclass c1) (.dataclass c2)) (.dataclass c3)) (.dataclass c4))
      (.dataclass c5)) (.dataclass c6)) (.dataclass c7)) (.dataclass c8)) (.dataclass c9)) (.dataclass c10)) (.dataclass c11)) (.dataclass c12)) (.dataclass c14)) :=
    ⟨⟨⟨⟨⟨⟨⟨⟨⟨⟨⟨⟨trivial, trivial⟩, trivial⟩, trivial⟩, trivial⟩, trivial⟩, trivial⟩, trivial⟩, trivial⟩, trivial⟩, trivial⟩, trivial⟩, trivial⟩
  have ht : List.Forall₂ Input.Takes (options (.join (.join (.join (.join (.join (.join (.join (.join (.join (.join (.join (.join (.dataclass c1) (.dataclass c2))
      (.dataclass c3)) (.dataclass c4)) (.dataclass c5)) (.dataclass c6)) (.dataclass c7)) (.dataclass c8)) (.dataclass c9)) (.dataclass c10)) (.dataclass c11))
      (.dataclass c12)) (.dataclass c14))) (names.map fun s => Head.named s.toList) :=
    .cons (takes_class n1) (.cons (takes_class n2) (.cons (takes_class n3) (.cons (takes_class n4) (.cons (takes_class n5) (.cons (takes_class n6)
      (.cons (takes_class n7) (.cons (takes_class n8) (.cons (takes_class n9) (.cons (takes_class n10) (.cons (takes_class n11) (.cons (takes_class n12)
      (.cons (takes_class n13') .nil))))))))))))
  have ho : ∀ n v, (∃ m ∈ options (.join (.join (.join (.join (.join (.join (.join (.join (.join (.join (.join (.join (.dataclass c1) (.dataclass c2))
      (.dataclass c3)) (.dataclass c4)) (.dataclass c5)) (.dataclass c6)) (.dataclass c7)) (.dataclass c8)) (.dataclass c9)) (.dataclass c10)) (.dataclass c11))
      (.dataclass c12)) (.dataclass c14)), m.run n = .matched v) ↔ ∃ o, IsObservable n o ∧ v = .value (whole o) := by
    intro n v
    simp only [options, List.cons_append, List.nil_append, List.mem_cons, List.not_mem_nil, or_false, exists_eq_or_imp, exists_eq_left, r1 n v, r2 n v, r3 n v, r4 n v,
      r5 n v, r6 n v, r7 n v, r8 n v, r9 n v, r10 n v, r11 n v, r12 n v, r13 n v]
    constructor
    · rintro (⟨o, ⟨h1, rfl⟩, rfl⟩ | ⟨o, ⟨h1, rfl⟩, rfl⟩ | ⟨o, ⟨h1, rfl⟩, rfl⟩ | ⟨o, ⟨h1, rfl⟩, rfl⟩ | ⟨o, ⟨h1, rfl⟩, rfl⟩ | ⟨o, ⟨h1, rfl⟩, rfl⟩ |
        ⟨o, ⟨a, x, h1, h2, rfl⟩, rfl⟩ | ⟨o, ⟨a, b, c, d, l, r, dump, p, f, g1, g2, g3, g4, g5, g6, g7, rfl⟩, rfl⟩ |
        ⟨o, ⟨a, b, c, d, e, hkl, ranks, sorted, p, q, isLocal, g1, g2, g3, g4, g5, g6, g7, g8, rfl⟩, rfl⟩ |
        ⟨o, ⟨h1, rfl⟩, rfl⟩ | ⟨o, ⟨h1, rfl⟩, rfl⟩ | ⟨o, ⟨h1, rfl⟩, rfl⟩ | ⟨⟨w, f⟩, h1, rfl⟩)
      · exact ⟨_, .plain (by simp [Simple]) h1, rfl⟩
      · exact ⟨_, .plain (by simp [Simple]) h1, rfl⟩
      · exact ⟨_, .plain (by simp [Simple]) h1, rfl⟩
      · exact ⟨_, .plain (by simp [Simple]) h1, rfl⟩
      · exact ⟨_, .plain (by simp [Simple]) h1, rfl⟩
      · exact ⟨_, .plain (by simp [Simple]) h1, rfl⟩
      · exact ⟨_, .nematic h1 h2, rfl⟩
      · exact ⟨_, .smectic g1 g2 g3 g4 g5 g6 g7, rfl⟩
      · exact ⟨_, .bond g1 g2 g3 g4 g5 g6 g7 g8, rfl⟩
      · exact ⟨_, .plain (by simp [Simple]) h1, rfl⟩
      · exact ⟨_, .plain (by simp [Simple]) h1, rfl⟩
      · exact ⟨_, .plain (by simp [Simple]) h1, rfl⟩
      · exact ⟨_, .fourier h1, rfl⟩
    · rintro ⟨o, (⟨hp, h1⟩ | ⟨h1, h2⟩ | ⟨g1, g2, g3, g4, g5, g6, g7⟩ | ⟨g1, g2, g3, g4, g5, g6, g7, g8⟩ | h1), rfl⟩
      · simp only [Simple, List.mem_cons, Prod.mk.injEq, List.not_mem_nil, or_false] at hp
        rcases hp with ⟨rfl, rfl⟩ | ⟨rfl, rfl⟩ | ⟨rfl, rfl⟩ | ⟨rfl, rfl⟩ | ⟨rfl, rfl⟩ | ⟨rfl, rfl⟩ | ⟨rfl, rfl⟩ | ⟨rfl, rfl⟩ | ⟨rfl, rfl⟩
        · exact .inl ⟨_, ⟨h1, rfl⟩, rfl⟩
        · exact .inr (.inl ⟨_, ⟨h1, rfl⟩, rfl⟩)
        · exact .inr (.inr (.inl ⟨_, ⟨h1, rfl⟩, rfl⟩))
        · exact .inr (.inr (.inr (.inl ⟨_, ⟨h1, rfl⟩, rfl⟩)))
        · exact .inr (.inr (.inr (.inr (.inl ⟨_, ⟨h1, rfl⟩, rfl⟩))))
        · exact .inr (.inr (.inr (.inr (.inr (.inl ⟨_, ⟨h1, rfl⟩, rfl⟩)))))
        · exact .inr (.inr (.inr (.inr (.inr (.inr (.inr (.inr (.inr (.inl ⟨_, ⟨h1, rfl⟩, rfl⟩)))))))))
        · exact .inr (.inr (.inr (.inr (.inr (.inr (.inr (.inr (.inr (.inr (.inl ⟨_, ⟨h1, rfl⟩, rfl⟩))))))))))
        · exact .inr (.inr (.inr (.inr (.inr (.inr (.inr (.inr (.inr (.inr (.inr (.inl ⟨_, ⟨h1, rfl⟩, rfl⟩)))))))))))
      · exact .inr (.inr (.inr (.inr (.inr (.inr (.inl ⟨_, ⟨_, _, h1, h2, rfl⟩, rfl⟩))))))
      · exact .inr (.inr (.inr (.inr (.inr (.inr (.inr (.inl ⟨_, ⟨_, _, _, _, _, _, _, _, _, g1, g2, g3, g4, g5, g6, g7, rfl⟩, rfl⟩)))))))
      · exact .inr (.inr (.inr (.inr (.inr (.inr (.inr (.inr (.inl ⟨_, ⟨_, _, _, _, _, _, _, _, _, _, _, g1, g2, g3, g4, g5, g6, g7, g8, rfl⟩, rfl⟩))))))))
      · exact .inr (.inr (.inr (.inr (.inr (.inr (.inr (.inr (.inr (.inr (.inr (.inr ⟨(_, _), h1, rfl⟩)))))))))))
  refine ⟨_, by rw [createObservable, e1, e2, e3, e4, e5, e6, e7, e8, e9, e10, e11, e12, e13']; rfl, hs, ht, ho, fun n v => ?_⟩
  rw [alternative_reads hs ht (heads_nodup (by decide)), ho]

/-! ### Scopes -/

theorem scopeBit_reads {bit : Nat} : Interprets (scopeBit bit) (fun n k => ∃ b, n = .boolean b ∧ k = if b then bit else 0) .size := by
  intro n v
  unfold scopeBit
  cases n <;> simp [matcherBoolean, converted_iff, eq_comm]

theorem scopeBit_false {bit : Nat} : (scopeBit bit).run (.boolean false) = .matched (.value (.size 0) : Any ℝ V) :=
  (scopeBit_reads _ _).mpr ⟨_, ⟨false, rfl, rfl⟩, rfl⟩

theorem scope_bits (s a i : Bool) : ((if s then 1 else 0) ||| (if a then 2 else 0) ||| (if i then 4 else 0) : Nat) = scopeOf s a i := by
  cases s <;> cases a <;> cases i <;> rfl

theorem scope_some (s a i : Bool) : ((if s then 1 else 0 : Nat) != 0 || (if a then 2 else 0 : Nat) != 0 || (if i then 4 else 0 : Nat) != 0) = true ↔
    (s = true ∨ a = true ∨ i = true) := by
  cases s <;> cases a <;> cases i <;> decide

theorem scopedClass_reads (hconv : Rampack.Spec.RoundsIntegers conv) {co : Choice ℝ V} (hr : Interprets co.toMatcher IsObservable whole) :
    ∃ c, createScoped conv co = .ok c ∧ c.name = "scoped".toList ∧
    Interprets c.toMatcher (fun n o => ∃ a b c d p s av i, Call n "scoped" [("obs", none), ("snapshot", some (.boolean false)), ("averaging", some (.boolean false)),
      ("inline", some (.boolean false))] [a, b, c, d] ∧ IsObservable a p ∧ b = .boolean s ∧ c = .boolean av ∧ d = .boolean i ∧
      (s = true ∨ av = true ∨ i = true) ∧ o = ⟨scopeOf s av i, p⟩) (fun o => .object (.observable o)) := by
  refine ⟨_, by rw [createScoped, optional_ok (parse_false hconv) scopeBit_false, Outcome.ok_bind, optional_ok (parse_false hconv) scopeBit_false, Outcome.ok_bind,
    optional_ok (parse_false hconv) scopeBit_false]; rfl, rfl, fun n v => ?_⟩
  rw [class_run (.required (.optional scopeBit_false (.optional scopeBit_false (.optional scopeBit_false .nil)))) rfl (by decide) rfl rfl]
  simp only [exists_read hr, exists_read scopeBit_reads, exists_unread]
  simp only [ClassMatcher.mapTo, satisfied_one, someScope, whole]
  eval_obs
  constructor
  · rintro ⟨a, p, g1, b, k1, ⟨s, g2, rfl⟩, c, k2, ⟨av, g3, rfl⟩, d, k3, ⟨i, g4, rfl⟩, g5, g6, rfl⟩
    rw [scope_some] at g6
    exact ⟨_, ⟨a, b, c, d, p, s, av, i, g5, g1, g2, g3, g4, g6, rfl⟩, by rw [scope_bits]⟩
  · rintro ⟨o, ⟨a, b, c, d, p, s, av, i, g5, g1, g2, g3, g4, g6, rfl⟩, rfl⟩
    exact ⟨a, p, g1, b, _, ⟨s, g2, rfl⟩, c, _, ⟨av, g3, rfl⟩, d, _, ⟨i, g4, rfl⟩, g5, (scope_some s av i).mpr g6, by rw [scope_bits]⟩

theorem scoped_reads (hconv : Rampack.Spec.RoundsIntegers conv) : ∃ c, createObservables conv = .ok c ∧
    Interprets c.toMatcher IsScoped (fun o => .object (.observable o)) := by
  obtain ⟨co, eo, so, ht0, oo, ro⟩ := observable_reads hconv
  obtain ⟨c, e, hn, hr⟩ := scopedClass_reads hconv ro
  refine ⟨_, by rw [createObservables, eo, Outcome.ok_bind, e]; rfl, fun n v => ?_⟩
  have ht : List.Forall₂ Input.Takes (options (.join co (.dataclass c))) ((names ++ ["scoped"]).map fun s => Head.named s.toList) := by
    rw [List.map_append]
    exact List.rel_append ht0 (.cons (takes_class hn) .nil)
  rw [alternative_reads (by exact ⟨so, trivial⟩) ht (heads_nodup (by decide))]
  have : (∃ m ∈ options (.join co (.dataclass c)), m.run n = .matched v) ↔ (∃ m ∈ options co, m.run n = .matched v) ∨ c.toMatcher.run n = .matched v := by
    rw [options]
    simp only [List.mem_append, or_and_right, exists_or, options, List.mem_singleton, exists_eq_left]
  rw [this, oo, hr n v]
  constructor
  · rintro (⟨o, h, rfl⟩ | ⟨o, ⟨a, b, c, d, p, s, av, i, g5, g1, g2, g3, g4, g6, rfl⟩, rfl⟩)
    · exact ⟨_, .full h, rfl⟩
    · exact ⟨_, .given g5 g1 g2 g3 g4 g6, rfl⟩
  · rintro ⟨o, (h | ⟨g5, g1, g2, g3, g4, g6⟩), rfl⟩
    · exact .inl ⟨_, h, rfl⟩
    · exact .inr ⟨_, ⟨_, _, _, _, _, _, _, _, g5, g1, g2, g3, g4, g6, rfl⟩, rfl⟩

/-! ### Bulk observables -/

theorem noBins_run : maybeBins.toMatcher.run .none = .matched (.value (.size 1) : Any ℝ V) := (maybeBins_reads _ _).mpr ⟨_, .none, rfl⟩

theorem checkHistogram_eq {low high : ℝ} {k : Nat} (h : low < high) (hk : 2 ≤ k) : checkHistogram low high k = .ok () := by
  have h1 : decide (k ≥ 1) = true := decide_eq_true (by omega)
  rw [checkHistogram, decide_eq_true (show high > low from h), h1]
  rfl

theorem pairDensity_reads (hconv : Rampack.Spec.RoundsIntegers conv) : ∃ c, createPairDensity conv = .ok c ∧ c.name = "pair_density_correlation".toList ∧
    Interprets c.toMatcher (fun n o => ∃ a b c d r k e print, Call n "pair_density_correlation" [("max_r", none), ("n_bins", none), ("binning", none),
      ("print_count", off)] [a, b, c, d] ∧ IsPositive a r ∧ IsBins b k ∧ IsBinning c e ∧ d = .boolean print ∧ o = .pairDensity e r k print)
      (fun b => .object (.bulk b)) := by
  obtain ⟨cb, eb, rb⟩ := binning_reads hconv
  have hmk : ∀ {b : Node ℝ} {r : ℝ} {k : Nat} {e : Binning} {print : Bool}, 0 < r → IsBins b k → mkPairDensity e r k print = .ok (.pairDensity e r k print) := by
    intro b r k e print hr hk
    rw [mkPairDensity, checkHistogram_eq hr hk.2]
    rfl
  refine ⟨_, by rw [createPairDensity, eb, Outcome.ok_bind, optional_ok (parse_false hconv) false_run]; rfl, rfl, fun n v => ?_⟩
  rw [class_run (.required (.required (.required (.optional false_run .nil)))) rfl (by decide) rfl rfl]
  simp only [exists_read positiveFloat_reads, exists_read bins_reads, exists_read rb, exists_read boolean_reads, exists_unread]
  eval_obs
  constructor
  · rintro ⟨a, r, g1, b, k, g2, c, e, g3, d, print, g4, g5, -, g6⟩
    rw [hmk g1.2 g2, construct_ok, ok_bind'] at g6
    cases g6
    exact ⟨_, ⟨a, b, c, d, r, k, e, print, g5, g1, g2, g3, g4, rfl⟩, rfl⟩
  · rintro ⟨o, ⟨a, b, c, d, r, k, e, print, g5, g1, g2, g3, g4, rfl⟩, rfl⟩
    refine ⟨a, r, g1, b, k, g2, c, e, g3, d, print, g4, g5, by simp [Satisfied], ?_⟩
    rw [hmk g1.2 g2]
    rfl

theorem pairAveraged_reads (hconv : Rampack.Spec.RoundsIntegers conv) : ∃ c, createPairAveraged conv = .ok c ∧ c.name = "pair_averaged_correlation".toList ∧
    Interprets c.toMatcher (fun n o => ∃ a b c d e r k w f print, Call n "pair_averaged_correlation" [("max_r", none), ("n_bins", none), ("binning", none),
      ("function", none), ("print_count", off)] [a, b, c, d, e] ∧ IsPositive a r ∧ IsBins b k ∧ IsBinning c w ∧ IsPairFn d f ∧ e = .boolean print ∧
      o = .pairAveraged w f r k print) (fun b => .object (.bulk b)) := by
  obtain ⟨cb, eb, rb⟩ := binning_reads hconv
  obtain ⟨cf, ef, rf⟩ := pairFn_reads
  have hmk : ∀ {b : Node ℝ} {r : ℝ} {k : Nat} {w : Binning} {f : PairFn} {print : Bool}, 0 < r → IsBins b k →
      mkPairAveraged w f r k print = .ok (.pairAveraged w f r k print) := by
    intro b r k w f print hr hk
    rw [mkPairAveraged, checkHistogram_eq hr hk.2]
    rfl
  refine ⟨_, by rw [createPairAveraged, eb, Outcome.ok_bind, ef, Outcome.ok_bind, optional_ok (parse_false hconv) false_run]; rfl, rfl, fun n v => ?_⟩
  rw [class_run (.required (.required (.required (.required (.optional false_run .nil))))) rfl (by decide) rfl rfl]
  simp only [exists_read positiveFloat_reads, exists_read bins_reads, exists_read rb, exists_read rf, exists_read boolean_reads, exists_unread]
  eval_obs
  constructor
  · rintro ⟨a, r, g1, b, k, g2, c, w, g3, d, f, g4, e, print, g5, g6, -, g7⟩
    rw [hmk g1.2 g2, construct_ok, ok_bind'] at g7
    cases g7
    exact ⟨_, ⟨a, b, c, d, e, r, k, w, f, print, g6, g1, g2, g3, g4, g5, rfl⟩, rfl⟩
  · rintro ⟨o, ⟨a, b, c, d, e, r, k, w, f, print, g6, g1, g2, g3, g4, g5, rfl⟩, rfl⟩
    refine ⟨a, r, g1, b, k, g2, c, w, g3, d, f, g4, e, print, g5, g6, by simp [Satisfied], ?_⟩
    rw [hmk g1.2 g2]
    rfl

theorem bins_iff {x y z : Nat} : (x != 1 || y != 1 || z != 1) = true ↔ (x ≠ 1 ∨ y ≠ 1 ∨ z ≠ 1) := by
  simp [or_assoc]

theorem bins_pos {n : Node ℝ} {k : Nat} (h : IsMaybeBins n k) : 1 ≤ k := by
  cases h with
  | none => exact le_rfl
  | some h => have := h.2; omega

theorem any_bins {a b c : Node ℝ} {x y z : Nat} (hx : IsMaybeBins a x) (hy : IsMaybeBins b y) (hz : IsMaybeBins c z) (h : x ≠ 1 ∨ y ≠ 1 ∨ z ≠ 1) :
    ([x, y, z].any fun n => decide (n > 1)) = true := by
  have h1 := bins_pos hx
  have h2 := bins_pos hy
  have h3 := bins_pos hz
  simp only [List.any_cons, List.any_nil, Bool.or_false, Bool.or_eq_true, decide_eq_true_eq]
  omega

theorem density_reads (hconv : Rampack.Spec.RoundsIntegers conv) : ∃ c, createDensity conv = .ok c ∧ c.name = "density_histogram".toList ∧
    Interprets c.toMatcher (fun n o => ∃ a b c d e f x y z t u print, Call n "density_histogram" [("n_bins_x", some .none), ("n_bins_y", some .none),
      ("n_bins_z", some .none), ("tracker", some .none), ("normalization", some (.string "unit".toList)), ("print_count", off)] [a, b, c, d, e, f] ∧
      IsMaybeBins a x ∧ IsMaybeBins b y ∧ IsMaybeBins c z ∧ (x ≠ 1 ∨ y ≠ 1 ∨ z ≠ 1) ∧ IsTracker d t ∧ IsDensityNorm e u ∧ f = .boolean print ∧
      o = .density [x, y, z] t u print) (fun b => .object (.bulk b)) := by
  obtain ⟨ct, et, rt⟩ := tracker_reads hconv
  have h4 : ct.toMatcher.run .none = .matched (.value (.object (.tracker .dummy)) : Any ℝ V) := (rt _ _).mpr ⟨_, .none, rfl⟩
  have h5 : densityNorm.toMatcher.run (.string "unit".toList) = .matched (.value (.object (.norm .unit)) : Any ℝ V) := (densityNorm_reads _ _).mpr ⟨_, .unit, rfl⟩
  have hmk : ∀ {a b c : Node ℝ} {x y z : Nat} {t : Tracker} {u : Norm} {print : Bool}, IsMaybeBins a x → IsMaybeBins b y → IsMaybeBins c z →
      (x ≠ 1 ∨ y ≠ 1 ∨ z ≠ 1) → mkDensity [x, y, z] t u print = .ok (.density [x, y, z] t u print) := by
    intro a b c x y z t u print hx hy hz h
    rw [mkDensity, any_bins hx hy hz h]
    rfl
  refine ⟨_, by rw [createDensity, et, Outcome.ok_bind, optional_ok (parse_none hconv) noBins_run, Outcome.ok_bind, optional_ok (parse_none hconv) noBins_run,
    Outcome.ok_bind, optional_ok (parse_none hconv) noBins_run, Outcome.ok_bind, optional_ok (parse_none hconv) h4, Outcome.ok_bind,
    optional_ok (parse_unit hconv) h5, Outcome.ok_bind, optional_ok (parse_false hconv) false_run]; rfl, rfl, fun n v => ?_⟩
  rw [class_run (.optional noBins_run (.optional noBins_run (.optional noBins_run (.optional h4 (.optional h5 (.optional false_run .nil)))))) rfl (by decide) rfl rfl]
  simp only [exists_read maybeBins_reads, exists_read rt, exists_read densityNorm_reads, exists_read boolean_reads, exists_unread]
  simp only [ClassMatcher.mapTo, satisfied_one, someBins]
  eval_obs
  constructor
  · rintro ⟨a, x, g1, b, y, g2, c, z, g3, d, t, g4, e, u, g5, f, print, g6, g7, g8, g9⟩
    rw [bins_iff] at g8
    rw [hmk g1 g2 g3 g8, construct_ok, ok_bind'] at g9
    cases g9
    exact ⟨_, ⟨a, b, c, d, e, f, x, y, z, t, u, print, g7, g1, g2, g3, g8, g4, g5, g6, rfl⟩, rfl⟩
  · rintro ⟨o, ⟨a, b, c, d, e, f, x, y, z, t, u, print, g7, g1, g2, g3, g8, g4, g5, g6, rfl⟩, rfl⟩
    refine ⟨a, x, g1, b, y, g2, c, z, g3, d, t, g4, e, u, g5, f, print, g6, g7, bins_iff.mpr g8, ?_⟩
    rw [hmk g1 g2 g3 g8]
    rfl

theorem evolution_reads (hconv : Rampack.Spec.RoundsIntegers conv) : ∃ c, createEvolution conv = .ok c ∧ c.name = "probability_evolution".toList ∧
    Interprets c.toMatcher (fun n o => ∃ a b c d e f g h r low high k m w p u print, Call n "probability_evolution" [("max_r", none), ("n_bins_r", none),
      ("binning", none), ("fun_range", none), ("n_bins_fun", none), ("function", none), ("normalization", some (.string "avg_count".toList)), ("print_count", off)]
      [a, b, c, d, e, f, g, h] ∧ IsPositive a r ∧ IsBins b k ∧ IsBinning c w ∧ IsRange d low high ∧ IsBins e m ∧ IsPairFn f p ∧ IsEvolutionNorm g u ∧
      h = .boolean print ∧ o = .evolution r k w low high m p u print) (fun b => .object (.bulk b)) := by
  obtain ⟨cb, eb, rb⟩ := binning_reads hconv
  obtain ⟨cf, ef, rf⟩ := pairFn_reads
  have h7 : evolutionNorm.toMatcher.run (.string "avg_count".toList) = .matched (.value (.object (.norm .avgCount)) : Any ℝ V) :=
    (evolutionNorm_reads _ _).mpr ⟨_, .avgCount, rfl⟩
  have hmk : ∀ {b e : Node ℝ} {r low high : ℝ} {k m : Nat} {w : Binning} {p : PairFn} {u : Norm} {print : Bool}, 0 < r → IsBins b k → low < high → IsBins e m →
      mkEvolution r k w low high m p u print = .ok (.evolution r k w low high m p u print) := by
    intro b e r low high k m w p u print hr hk hl hm
    rw [mkEvolution, checkHistogram_eq hr hk.2, checkHistogram_eq hl hm.2, decide_eq_true (show r > 0 from hr)]
    rfl
  refine ⟨_, by rw [createEvolution, eb, Outcome.ok_bind, ef, Outcome.ok_bind, optional_ok (parse_avg hconv) h7, Outcome.ok_bind,
    optional_ok (parse_false hconv) false_run]; rfl, rfl, fun n v => ?_⟩
  rw [class_run (.required (.required (.required (.required (.required (.required (.optional h7 (.optional false_run .nil)))))))) rfl (by decide) rfl rfl]
  simp only [exists_read positiveFloat_reads, exists_read bins_reads, exists_read rb, exists_read range_reads, exists_read rf, exists_read evolutionNorm_reads,
    exists_read boolean_reads, exists_unread]
  eval_obs
  constructor
  · rintro ⟨a, r, g1, b, k, g2, c, w, g3, d, ⟨low, high⟩, g4, e, m, g5, f, p, g6, g, u, g7, h, print, g8, g9, -, g10⟩
    rw [hmk g1.2 g2 g4.choose_spec.choose_spec.2.2.2 g5, construct_ok, ok_bind'] at g10
    cases g10
    exact ⟨_, ⟨a, b, c, d, e, f, g, h, r, low, high, k, m, w, p, u, print, g9, g1, g2, g3, g4, g5, g6, g7, g8, rfl⟩, rfl⟩
  · rintro ⟨o, ⟨a, b, c, d, e, f, g, h, r, low, high, k, m, w, p, u, print, g9, g1, g2, g3, g4, g5, g6, g7, g8, rfl⟩, rfl⟩
    refine ⟨a, r, g1, b, k, g2, c, w, g3, d, ⟨low, high⟩, g4, e, m, g5, f, p, g6, g, u, g7, h, print, g8, g9, by simp [Satisfied], ?_⟩
    rw [hmk g1.2 g2 g4.choose_spec.choose_spec.2.2.2 g5]
    rfl

theorem binAveraged_reads (hconv : Rampack.Spec.RoundsIntegers conv) : ∃ c, createBinAveraged conv = .ok c ∧ c.name = "bin_averaged_function".toList ∧
    Interprets c.toMatcher (fun n o => ∃ a b c d e f x y z t g print, Call n "bin_averaged_function" [("function", none), ("n_bins_x", some .none),
      ("n_bins_y", some .none), ("n_bins_z", some .none), ("tracker", some .none), ("print_count", off)] [a, b, c, d, e, f] ∧
      IsFunction a g ∧ IsMaybeBins b x ∧ IsMaybeBins c y ∧ IsMaybeBins d z ∧ (x ≠ 1 ∨ y ≠ 1 ∨ z ≠ 1) ∧ IsTracker e t ∧ f = .boolean print ∧
      o = .binAveraged [x, y, z] g t print) (fun b => .object (.bulk b)) := by
  obtain ⟨ct, et, rt⟩ := tracker_reads hconv
  obtain ⟨cf, ef, rf⟩ := function_reads hconv
  have h4 : ct.toMatcher.run .none = .matched (.value (.object (.tracker .dummy)) : Any ℝ V) := (rt _ _).mpr ⟨_, .none, rfl⟩
  have hmk : ∀ {a b c : Node ℝ} {x y z : Nat} {t : Tracker} {g : ShapeFn} {print : Bool}, IsMaybeBins a x → IsMaybeBins b y → IsMaybeBins c z →
      (x ≠ 1 ∨ y ≠ 1 ∨ z ≠ 1) → mkBinAveraged [x, y, z] g t print = .ok (.binAveraged [x, y, z] g t print) := by
    intro a b c x y z t u print hx hy hz h
    rw [mkBinAveraged, any_bins hx hy hz h]
    rfl
  refine ⟨_, by rw [createBinAveraged, et, Outcome.ok_bind, ef, Outcome.ok_bind, optional_ok (parse_none hconv) noBins_run, Outcome.ok_bind,
    optional_ok (parse_none hconv) noBins_run, Outcome.ok_bind, optional_ok (parse_none hconv) noBins_run, Outcome.ok_bind, optional_ok (parse_none hconv) h4,
    Outcome.ok_bind, optional_ok (parse_false hconv) false_run]; rfl, rfl, fun n v => ?_⟩
  rw [class_run (.required (.optional noBins_run (.optional noBins_run (.optional noBins_run (.optional h4 (.optional false_run .nil)))))) rfl (by decide) rfl rfl]
  simp only [exists_read maybeBins_reads, exists_read rt, exists_read rf, exists_read boolean_reads, exists_unread]
  simp only [ClassMatcher.mapTo, satisfied_one, someBins]
  eval_obs
  constructor
  · rintro ⟨a, w, g1, b, x, g2, c, y, g3, d, z, g4, e, t, g5, f, print, g6, g7, g8, g9⟩
    rw [bins_iff] at g8
    rw [hmk g2 g3 g4 g8, construct_ok, ok_bind'] at g9
    cases g9
    exact ⟨_, ⟨a, b, c, d, e, f, x, y, z, t, w, print, g7, g1, g2, g3, g4, g8, g5, g6, rfl⟩, rfl⟩
  · rintro ⟨o, ⟨a, b, c, d, e, f, x, y, z, t, w, print, g7, g1, g2, g3, g4, g8, g5, g6, rfl⟩, rfl⟩
    refine ⟨a, w, g1, b, x, g2, c, y, g3, d, z, g4, e, t, g5, f, print, g6, g7, bins_iff.mpr g8, ?_⟩
    rw [hmk g2 g3 g4 g8]
    rfl

theorem bulk_reads (hconv : Rampack.Spec.RoundsIntegers conv) : ∃ c, createBulk conv = .ok c ∧ Interprets c.toMatcher IsBulk (fun b => .object (.bulk b)) := by
  obtain ⟨c1, e1, n1, r1⟩ := pairDensity_reads hconv
  obtain ⟨c2, e2, n2, r2⟩ := pairAveraged_reads hconv
  obtain ⟨c3, e3, n3, r3⟩ := density_reads hconv
  obtain ⟨c4, e4, n4, r4⟩ := evolution_reads hconv
  obtain ⟨c5, e5, n5, r5⟩ := binAveraged_reads hconv
  refine ⟨_, by rw [createBulk, e1, e2, e3, e4, e5]; rfl, fun n v => ?_⟩
  refine Iff.trans (alternative_reads (heads := ["pair_density_correlation", "pair_averaged_correlation", "density_histogram", "probability_evolution",
    "bin_averaged_function"].map fun s => Head.named s.toList) (by exact ⟨⟨⟨⟨trivial, trivial⟩, trivial⟩, trivial⟩, trivial⟩)
    (by exact .cons (takes_class n1) (.cons (takes_class n2) (.cons (takes_class n3) (.cons (takes_class n4) (.cons (takes_class n5) .nil)))))
    (heads_nodup (by decide))) ?_
  simp only [options, List.cons_append, List.nil_append, List.mem_cons, List.not_mem_nil, or_false, exists_eq_or_imp, exists_eq_left, r1 n v, r2 n v, r3 n v, r4 n v,
    r5 n v]
  constructor
  · rintro (⟨o, ⟨a, b, c, d, r, k, e, print, g5, g1, g2, g3, g4, rfl⟩, rfl⟩ | ⟨o, ⟨a, b, c, d, e, r, k, w, f, print, g6, g1, g2, g3, g4, g5, rfl⟩, rfl⟩ |
      ⟨o, ⟨a, b, c, d, e, f, x, y, z, t, u, print, g7, g1, g2, g3, g8, g4, g5, g6, rfl⟩, rfl⟩ |
      ⟨o, ⟨a, b, c, d, e, f, g, h, r, low, high, k, m, w, p, u, print, g9, g1, g2, g3, g4, g5, g6, g7, g8, rfl⟩, rfl⟩ |
      ⟨o, ⟨a, b, c, d, e, f, x, y, z, t, w, print, g7, g1, g2, g3, g4, g8, g5, g6, rfl⟩, rfl⟩)
    · exact ⟨_, .pairDensity g5 g1 g2 g3 g4, rfl⟩
    · exact ⟨_, .pairAveraged g6 g1 g2 g3 g4 g5, rfl⟩
    · exact ⟨_, .density g7 g1 g2 g3 g8 g4 g5 g6, rfl⟩
    · exact ⟨_, .evolution g9 g1 g2 g3 g4 g5 g6 g7 g8, rfl⟩
    · exact ⟨_, .binAveraged g7 g1 g2 g3 g4 g8 g5 g6, rfl⟩
  · rintro ⟨o, (⟨g5, g1, g2, g3, g4⟩ | ⟨g6, g1, g2, g3, g4, g5⟩ | ⟨g7, g1, g2, g3, g8, g4, g5, g6⟩ | ⟨g9, g1, g2, g3, g4, g5, g6, g7, g8⟩ |
      ⟨g7, g1, g2, g3, g4, g8, g5, g6⟩), rfl⟩
    · exact .inl ⟨_, ⟨_, _, _, _, _, _, _, _, g5, g1, g2, g3, g4, rfl⟩, rfl⟩
    · exact .inr (.inl ⟨_, ⟨_, _, _, _, _, _, _, _, _, _, g6, g1, g2, g3, g4, g5, rfl⟩, rfl⟩)
    · exact .inr (.inr (.inl ⟨_, ⟨_, _, _, _, _, _, _, _, _, _, _, _, g7, g1, g2, g3, g8, g4, g5, g6, rfl⟩, rfl⟩))
    · exact .inr (.inr (.inr (.inl ⟨_, ⟨_, _, _, _, _, _, _, _, _, _, _, _, _, _, _, _, _, g9, g1, g2, g3, g4, g5, g6, g7, g8, rfl⟩, rfl⟩)))
    · exact .inr (.inr (.inr (.inr ⟨_, ⟨_, _, _, _, _, _, _, _, _, _, _, _, g7, g1, g2, g3, g4, g8, g5, g6, rfl⟩, rfl⟩)))

end Rampack.Observ
