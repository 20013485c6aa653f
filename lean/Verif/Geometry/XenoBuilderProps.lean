import Verif.Geometry.XenoBuilderLemmas
/-
C77: the expression for the geometry of a convex shape is built into the body it means.
-/
namespace Rampack

open Packing Spec Xeno XC XCBuilder

namespace XCBuilder

theorem sum_reverse' (es : List Entry) : XC.sum es.reverse = XC.sum es := by
  unfold XC.sum
  simp only [List.map_reverse, List.sum_reverse]

/-! ### Sums -/

theorem all_support {gs : List Convex} {es : List Entry} (h : List.Forall₂ Built gs es) (n : Vec3 ℝ) (hn : n ≠ 0) (hf : AllFine gs n) :
    SumBody (allMean gs) ((es.map fun e => e.support n).sum) ∧
    ∀ p, SumBody (allMean gs) p → p.dot n ≤ ((es.map fun (e : Entry) => e.support n).sum).dot n := by
  induction h with
  | nil =>
    refine ⟨by simp only [allMean]; rfl, fun p hp => ?_⟩
    simp only [allMean] at hp
    rw [show p = 0 from hp]; exact le_refl _
  | @cons g e gs es h hs ih =>
    obtain ⟨f1, f2⟩ : Fine g n ∧ AllFine gs n := hf
    obtain ⟨h1, h2⟩ := h.furthest n hn f1
    obtain ⟨i1, i2⟩ := ih f2
    simp only [allMean]
    refine ⟨⟨_, _, h1, i1, by simp only [List.map_cons, List.sum_cons]⟩, ?_⟩
    rintro p ⟨a, b, ha, hb, rfl⟩
    simp only [List.map_cons, List.sum_cons, dot_add]
    exact add_le_add (h2 a ha) (i2 b hb)

theorem all_convex {gs : List Convex} {es : List Entry} (h : List.Forall₂ Built gs es) : ConvexBody (SumBody (allMean gs)) := by
  induction h with
  | nil =>
    intro p q c hp hq _ _
    simp only [allMean] at *
    rw [show p = 0 from hp, show q = 0 from hq]
    show c • (0 : Vec3 ℝ) + (1 - c) • (0 : Vec3 ℝ) = 0
    ext <;> simp
  | @cons g e gs es h hs ih =>
    simp only [allMean]
    rintro p q c ⟨a, b, ha, hb, rfl⟩ ⟨a', b', ha', hb', rfl⟩ h0 h1
    refine ⟨_, _, h.convex a a' c ha ha' h0 h1, ih b b' c hb hb' h0 h1, ?_⟩
    ext <;> simp only [Vec3.add_x, Vec3.add_y, Vec3.add_z, Vec3.smul_x, Vec3.smul_y, Vec3.smul_z] <;> ring

theorem all_center {gs : List Convex} {es : List Entry} (h : List.Forall₂ Built gs es) : SumBody (allMean gs) (es.map Entry.center).sum := by
  induction h with
  | nil => simp only [allMean]; rfl
  | @cons g e gs es h hs ih => simp only [allMean]; exact ⟨_, _, h.center, ih, by simp only [List.map_cons, List.sum_cons]⟩

theorem all_radii {gs : List Convex} {es : List Entry} (h : List.Forall₂ Built gs es) :
    0 ≤ (es.map fun e => e.geometry.circumsphereRadius).sum ∧ 0 ≤ (es.map fun e => e.geometry.insphereRadius).sum := by
  induction h with
  | nil => simp
  | cons h hs ih =>
    simp only [List.map_cons, List.sum_cons]
    exact ⟨add_nonneg h.circumsphere_nonneg ih.1, add_nonneg h.insphere_nonneg ih.2⟩

theorem all_covered {gs : List Convex} {es : List Entry} (h : List.Forall₂ Built gs es) (ha : AllAtOrigin gs) : ∀ p, SumBody (allMean gs) p →
    (p - (es.map Entry.pos).sum).norm ≤ (es.map fun e => e.geometry.circumsphereRadius).sum := by
  induction h with
  | nil =>
    intro p hp
    simp only [allMean] at hp
    rw [show p = 0 from hp]; simp [Vec3.norm, Vec3.norm2, Vec3.dot]
  | @cons g e gs es h hs ih =>
    obtain ⟨a1, a2⟩ : PointsAtOrigin g ∧ AllAtOrigin gs := ha
    simp only [allMean]
    rintro p ⟨a, b, ha, hb, rfl⟩
    simp only [List.map_cons, List.sum_cons]
    have e1 : a + b - (e.pos + (es.map Entry.pos).sum) = (a - e.pos) + (b - (es.map Entry.pos).sum) := by abel
    rw [e1]
    exact (Domain.norm_add_le' _ _).trans (add_le_add (h.covered a1 a ha) (ih a2 b hb))

theorem all_inscribed {gs : List Convex} {es : List Entry} (h : List.Forall₂ Built gs es) (hc : AllCentred gs) :
    ∀ v : Vec3 ℝ, v.norm ≤ (es.map fun e => e.geometry.insphereRadius).sum → SumBody (allMean gs) (v + (es.map Entry.pos).sum) := by
  induction h with
  | nil =>
    intro v hv
    simp only [allMean]
    have : v = 0 := by
      by_contra hne
      have := Xeno.norm_pos_of_ne hne
      simp at hv; linarith
    rw [this]; show (0 : Vec3 ℝ) + ([] : List (Vec3 ℝ)).sum = 0; simp
  | @cons g e gs es h hs ih =>
    obtain ⟨⟨a1, a2⟩, a3⟩ : (Centred g ∧ ConvexMeans g (ownOrigin g)) ∧ AllCentred gs := hc
    intro v hv
    have ih := ih a3
    simp only [allMean, List.map_cons, List.sum_cons] at hv ⊢
    have hr := h.insphere_nonneg
    have hS := (all_radii hs).2
    have hplaced := fun (w : Vec3 ℝ) (hw : w.norm ≤ e.geometry.insphereRadius) => h.inside a1 a2 hw
    generalize e.geometry.insphereRadius = r at *
    generalize (es.map fun e => e.geometry.insphereRadius).sum = S at *
    rcases (add_nonneg hr hS).lt_or_eq with hp | hp
    · have c1 : 0 ≤ r / (r + S) := div_nonneg hr hp.le
      have c2 : 0 ≤ S / (r + S) := div_nonneg hS hp.le
      have k1 : ((r / (r + S)) • v).norm ≤ r := by
        rw [smul_norm c1]
        calc r / (r + S) * v.norm ≤ r / (r + S) * (r + S) := mul_le_mul_of_nonneg_left hv c1
          _ = r := by field_simp
      have k2 : ((S / (r + S)) • v).norm ≤ S := by
        rw [smul_norm c2]
        calc S / (r + S) * v.norm ≤ S / (r + S) * (r + S) := mul_le_mul_of_nonneg_left hv c2
          _ = S := by field_simp
      refine ⟨_, _, hplaced _ k1, ih _ k2, ?_⟩
      have e1 : r / (r + S) + S / (r + S) = 1 := by field_simp
      have e2 := split_one e1 v
      calc v + (e.pos + (es.map Entry.pos).sum) = ((r / (r + S)) • v + (S / (r + S)) • v) + (e.pos + (es.map Entry.pos).sum) := by rw [← e2]
        _ = _ := by abel
    · have hv0 : v.norm ≤ 0 := by linarith
      refine ⟨_, _, hplaced v (hv0.trans hr), ih 0 ?_, by abel⟩
      have : (0 : Vec3 ℝ).norm = 0 := by simp [Vec3.norm, Vec3.norm2, Vec3.dot]
      rw [this]; exact hS

theorem positive_max {a : ℝ} (h : 0 < max 0 a) : max 0 a = a := by
  rcases max_choice 0 a with h' | h'
  · rw [h'] at h; exact absurd h (lt_irrefl _)
  · exact h'

theorem built_sum {gs : List Convex} {es : List Entry} (h : List.Forall₂ Built gs es) : Built (.sum gs) ⟨XC.sum es.reverse, 0, 1⟩ := by
  rw [sum_reverse']
  have hm : ∀ p, ConvexMeans (.sum gs) p ↔ SumBody (allMean gs) p := by intro p; simp only [ConvexMeans]
  refine ⟨rfl, fun _ => rfl, ?_, ?_, ?_, add_nonneg (Vec3.norm_nonneg _) (all_radii h).1, le_max_left _ _, ?_, ?_⟩
  · intro n hn hf
    have hf : AllFine gs n := hf
    rw [plain_support]
    obtain ⟨h1, h2⟩ := all_support h n hn hf
    exact ⟨(hm _).mpr h1, fun p hp => h2 p ((hm p).mp hp)⟩
  · intro p q c hp hq h0 h1
    exact (hm _).mpr (all_convex h p q c ((hm p).mp hp) ((hm q).mp hq) h0 h1)
  · rw [plain_center]; exact (hm _).mpr (all_center h)
  · intro ha p hp
    have ha : AllAtOrigin gs := ha
    have := all_covered h ha p ((hm p).mp hp)
    have e : p - 0 = (es.map Entry.pos).sum + (p - (es.map Entry.pos).sum) := by abel
    show (p - 0).norm ≤ (es.map Entry.pos).sum.norm + (es.map fun e => e.geometry.circumsphereRadius).sum
    rw [e]
    exact (Domain.norm_add_le' _ _).trans (add_le_add (le_refl _) this)
  · intro hc hpos v hv
    have hc : AllCentred gs := hc
    have hpos : 0 < max 0 ((es.map fun e => e.geometry.insphereRadius).sum - (es.map Entry.pos).sum.norm) := hpos
    have hv : v.norm ≤ max 0 ((es.map fun e => e.geometry.insphereRadius).sum - (es.map Entry.pos).sum.norm) := hv
    rw [positive_max hpos] at hv
    refine (hm _).mpr ?_
    have e : v + 0 = (v - (es.map Entry.pos).sum) + (es.map Entry.pos).sum := by abel
    show SumBody (allMean gs) (v + 0)
    rw [e]
    refine all_inscribed h hc _ ?_
    have := XC.norm_sub_le v (es.map Entry.pos).sum
    linarith

/-! ### Differences -/

theorem built_diff {g1 g2 : Convex} {e1 e2 : Entry} (h1 : Built g1 e1) (h2 : Built g2 e2) : Built (.diff g1 g2) ⟨XC.diff e1 e2, 0, 1⟩ := by
  have hm : ∀ p, ConvexMeans (.diff g1 g2) p ↔ DifferenceBody (ConvexMeans g1) (ConvexMeans g2) p := by intro p; simp only [ConvexMeans]
  refine ⟨rfl, fun _ => rfl, ?_, ?_, ?_, add_nonneg (add_nonneg (Vec3.norm_nonneg _) h1.circumsphere_nonneg) h2.circumsphere_nonneg, le_max_left _ _,
    ?_, ?_⟩
  · intro n hn hf
    obtain ⟨f1, f2⟩ : Fine g1 n ∧ Fine g2 (-n) := hf
    obtain ⟨a1, a2⟩ := h1.furthest n hn f1
    obtain ⟨b1, b2⟩ := h2.furthest (-n) (by simpa using hn) f2
    rw [plain_support]
    refine ⟨(hm _).mpr ⟨_, _, a1, b1, rfl⟩, fun p hp => ?_⟩
    obtain ⟨a, b, ha, hb, rfl⟩ := (hm p).mp hp
    have q1 := a2 a ha
    have q2 := b2 b hb
    have hneg : ∀ v w : Vec3 ℝ, v.dot (-w) = -(v.dot w) := by
      intro v w; simp only [Vec3.dot, Vec3.neg_x, Vec3.neg_y, Vec3.neg_z]; ring
    rw [hneg, hneg] at q2
    show (a - b).dot n ≤ (e1.support n - e2.support (-n)).dot n
    rw [dot_sub, dot_sub]
    linarith
  · intro p q c hp hq h0 hc
    obtain ⟨a, b, ha, hb, rfl⟩ := (hm p).mp hp
    obtain ⟨a', b', ha', hb', rfl⟩ := (hm q).mp hq
    refine (hm _).mpr ⟨_, _, h1.convex a a' c ha ha' h0 hc, h2.convex b b' c hb hb' h0 hc, ?_⟩
    ext <;> simp only [Vec3.add_x, Vec3.add_y, Vec3.add_z, Vec3.smul_x, Vec3.smul_y, Vec3.smul_z, Vec3.sub_x, Vec3.sub_y, Vec3.sub_z] <;> ring
  · rw [plain_center]; exact (hm _).mpr ⟨_, _, h1.center, h2.center, rfl⟩
  · intro ha p hp
    obtain ⟨a1, a2⟩ : PointsAtOrigin g1 ∧ PointsAtOrigin g2 := ha
    obtain ⟨a, b, ha, hb, rfl⟩ := (hm p).mp hp
    have n1 := h1.covered a1 a ha
    have n2 := h2.covered a2 b hb
    have e : a - b - 0 = (e1.pos - e2.pos) + ((a - e1.pos) - (b - e2.pos)) := by abel
    show (a - b - 0).norm ≤ (e1.pos - e2.pos).norm + e1.geometry.circumsphereRadius + e2.geometry.circumsphereRadius
    rw [e]
    have k1 := Domain.norm_add_le' (e1.pos - e2.pos) ((a - e1.pos) - (b - e2.pos))
    have k2 := XC.norm_sub_le (a - e1.pos) (b - e2.pos)
    linarith
  · intro hc hpos p hp
    obtain ⟨⟨c1, o1⟩, ⟨c2, o2⟩⟩ : (Centred g1 ∧ ConvexMeans g1 (ownOrigin g1)) ∧ (Centred g2 ∧ ConvexMeans g2 (ownOrigin g2)) := hc
    have i1 := h1.insphere_nonneg
    have i2 := h2.insphere_nonneg
    have q1 := fun (v : Vec3 ℝ) (hv : v.norm ≤ e1.geometry.insphereRadius) => h1.inside c1 o1 hv
    have q2 := fun (v : Vec3 ℝ) (hv : v.norm ≤ e2.geometry.insphereRadius) => h2.inside c2 o2 hv
    have hpos : 0 < max 0 (e1.geometry.insphereRadius + e2.geometry.insphereRadius - (e1.pos - e2.pos).norm) := hpos
    have hp : p.norm ≤ max 0 (e1.geometry.insphereRadius + e2.geometry.insphereRadius - (e1.pos - e2.pos).norm) := hp
    rw [positive_max hpos] at hp hpos
    generalize e1.geometry.insphereRadius = r at *
    generalize e2.geometry.insphereRadius = S at *
    have hv : (p - (e1.pos - e2.pos)).norm ≤ r + S := by
      have := XC.norm_sub_le p (e1.pos - e2.pos); linarith
    have hp' : 0 < r + S := by have := (e1.pos - e2.pos).norm_nonneg; linarith
    generalize hw : p - (e1.pos - e2.pos) = v at hv
    have c1 : 0 ≤ r / (r + S) := div_nonneg i1 hp'.le
    have c2 : 0 ≤ S / (r + S) := div_nonneg i2 hp'.le
    have k1 : ((r / (r + S)) • v).norm ≤ r := by
      rw [smul_norm c1]
      calc r / (r + S) * v.norm ≤ r / (r + S) * (r + S) := mul_le_mul_of_nonneg_left hv c1
        _ = r := by field_simp
    have k2 : (-((S / (r + S)) • v)).norm ≤ S := by
      rw [norm_neg', smul_norm c2]
      calc S / (r + S) * v.norm ≤ S / (r + S) * (r + S) := mul_le_mul_of_nonneg_left hv c2
        _ = S := by field_simp
    refine (hm _).mpr ⟨_, _, q1 _ k1, q2 _ k2, ?_⟩
    have e1' : r / (r + S) + S / (r + S) = 1 := by field_simp
    have e2' := split_one e1' v
    calc p + 0 = (p - (e1.pos - e2.pos)) + (e1.pos - e2.pos) := by abel
      _ = ((r / (r + S)) • v + (S / (r + S)) • v) + (e1.pos - e2.pos) := by rw [hw, ← e2']
      _ = _ := by abel

/-! ### Hulls -/

theorem all_mem {gs : List Convex} {es : List Entry} (h : List.Forall₂ Built gs es) :
    (∀ e ∈ es, ∃ g ∈ gs, Built g e ∧ ConvexMeans g ∈ allMean gs) ∧ (∀ B ∈ allMean gs, ∃ g ∈ gs, ∃ e ∈ es, Built g e ∧ B = ConvexMeans g) := by
  induction h with
  | nil => simp [allMean]
  | @cons g e gs es h hs ih =>
    simp only [allMean]
    constructor
    · intro e' he'
      rcases List.mem_cons.mp he' with rfl | he'
      · exact ⟨g, List.mem_cons_self, h, List.mem_cons_self⟩
      · obtain ⟨g', hg', k⟩ := ih.1 e' he'
        exact ⟨g', List.mem_cons_of_mem _ hg', k.1, List.mem_cons_of_mem _ k.2⟩
    · intro B hB
      rcases List.mem_cons.mp hB with rfl | hB
      · exact ⟨g, List.mem_cons_self, e, List.mem_cons_self, h, rfl⟩
      · obtain ⟨g', hg', e', he', k⟩ := ih.2 B hB
        exact ⟨g', List.mem_cons_of_mem _ hg', e', List.mem_cons_of_mem _ he', k⟩

theorem allFine_mem {gs : List Convex} {n : Vec3 ℝ} (h : AllFine gs n) : ∀ g ∈ gs, Fine g n := by
  induction gs with
  | nil => simp
  | cons g gs ih =>
    obtain ⟨h1, h2⟩ : Fine g n ∧ AllFine gs n := h
    intro g' hg'
    rcases List.mem_cons.mp hg' with rfl | hg'
    · exact h1
    · exact ih h2 g' hg'

theorem allAtOrigin_mem {gs : List Convex} (h : AllAtOrigin gs) : ∀ g ∈ gs, PointsAtOrigin g := by
  induction gs with
  | nil => simp
  | cons g gs ih =>
    obtain ⟨h1, h2⟩ : PointsAtOrigin g ∧ AllAtOrigin gs := h
    intro g' hg'
    rcases List.mem_cons.mp hg' with rfl | hg'
    · exact h1
    · exact ih h2 g' hg'

theorem allCentred_mem {gs : List Convex} (h : AllCentred gs) : ∀ g ∈ gs, Centred g ∧ ConvexMeans g (ownOrigin g) := by
  induction gs with
  | nil => simp
  | cons g gs ih =>
    obtain ⟨h1, h2⟩ : (Centred g ∧ ConvexMeans g (ownOrigin g)) ∧ AllCentred gs := h
    intro g' hg'
    rcases List.mem_cons.mp hg' with rfl | hg'
    · exact h1
    · exact ih h2 g' hg'

theorem built_halfspace {g : Convex} {e : Entry} (h : Built g e) (hc : Centred g) (ho : ConvexMeans g (ownOrigin g)) {n : Vec3 ℝ} {c : ℝ}
    (hb : ∀ q, ConvexMeans g q → q.dot n ≤ c) : e.pos.dot n + e.geometry.insphereRadius * n.norm ≤ c := by
  by_cases hn : n = 0
  · have := hb _ ho
    have e1 : n.norm = 0 := by rw [hn]; simp [Vec3.norm, Vec3.norm2, Vec3.dot]
    rw [e1, h.pos]; linarith
  · have hu := Xeno.normalized_norm2 hn
    have hun : (normalized n).norm = 1 := by rw [Vec3.norm, hu, Real.sqrt_one]
    have := hb _ (h.inside hc ho (v := e.geometry.insphereRadius • normalized n) (by rw [smul_norm h.insphere_nonneg, hun, mul_one]))
    rw [dot_add, smul_dot, normalized_self hn] at this
    linarith

theorem ball_inside {g : Convex} {e : Entry} (h : Built g e) (hc : Centred g) (ho : ConvexMeans g (ownOrigin g)) : BallInside g e.geometry.insphereRadius := by
  intro v hv
  have := h.inside hc ho (norm_le_of h.insphere_nonneg hv)
  rwa [h.pos, add_comm] at this

theorem well_placed {g1 g2 : Convex} {e1 e2 : Entry} (h1 : Built g1 e1) (h2 : Built g2 e2) (c1 : Centred g1 ∧ ConvexMeans g1 (ownOrigin g1))
    (c2 : Centred g2 ∧ ConvexMeans g2 (ownOrigin g2)) (hw : WellPlaced g1 g2)
    (hlt : (e2.pos - e1.pos).norm < 1 / 10 ^ 14 * max e1.geometry.insphereRadius e2.geometry.insphereRadius) : e1.pos = 0 ∧ e2.pos = 0 := by
  rw [h1.pos, h2.pos] at *
  rcases hw with hw | hw
  · exact hw
  · exfalso
    have hpos : 0 < max e1.geometry.insphereRadius e2.geometry.insphereRadius := by
      have := (ownOrigin g2 - ownOrigin g1).norm_nonneg
      by_contra hcon
      have hcon := not_lt.mp hcon
      have : 1 / 10 ^ 14 * max e1.geometry.insphereRadius e2.geometry.insphereRadius ≤ 0 := mul_nonpos_of_nonneg_of_nonpos (by norm_num) hcon
      linarith
    have := hw _ hpos (by
      rcases max_choice e1.geometry.insphereRadius e2.geometry.insphereRadius with hx | hx <;> rw [hx]
      · exact .inl (ball_inside h1 c1.1 c1.2)
      · exact .inr (ball_inside h2 c2.1 c2.2))
    linarith

theorem sum_center_le (n : Vec3 ℝ) (c : ℝ) {es : List Entry} (h : ∀ e ∈ es, e.center.dot n ≤ c) : (es.map Entry.center).sum.dot n ≤ es.length * c :=
  sum_dot_le n c es h

theorem built_wrap {gs : List Convex} {rs : List Entry} (h : List.Forall₂ Built gs rs) {e : Entry} {es : List Entry} (hr : rs.reverse = e :: es) :
    Built (.wrap gs) ⟨XC.hull e es, 0, 1⟩ := by
  have hm : ∀ p, ConvexMeans (.wrap gs) p ↔ HullBody (allMean gs) p := by intro p; simp only [ConvexMeans]
  obtain ⟨hm1, hm2⟩ := all_mem h
  have hin : ∀ e' ∈ e :: es, ∃ g ∈ gs, Built g e' ∧ ConvexMeans g ∈ allMean gs := by
    intro e' he'
    exact hm1 e' (by rw [← hr] at he'; exact List.mem_reverse.mp he')
  have hout : ∀ B ∈ allMean gs, ∃ g ∈ gs, ∃ e' ∈ e :: es, Built g e' ∧ B = ConvexMeans g := by
    intro B hB
    obtain ⟨g, hg, e', he', k⟩ := hm2 B hB
    exact ⟨g, hg, e', by rw [← hr]; exact List.mem_reverse.mpr he', k⟩
  refine ⟨rfl, fun _ => rfl, ?_, ?_, ?_, ?_, ?_, ?_, ?_⟩
  · intro n hn hf
    have hf := allFine_mem (show AllFine gs n from hf)
    rw [plain_support]
    show ConvexMeans (.wrap gs) (maxSupport n (e.support n) es) ∧ _
    constructor
    · rw [hm]
      have key : ∀ e' ∈ e :: es, HullBody (allMean gs) (e'.support n) := by
        intro e' he'
        obtain ⟨g, hg, hb, hB⟩ := hin e' he'
        exact hull_mem hB (hb.furthest n hn (hf g hg)).1
      rcases maxSupport_mem n es (e.support n) with hx | ⟨e', he', hx⟩
      · rw [hx]; exact key e List.mem_cons_self
      · rw [hx]; exact key e' (List.mem_cons_of_mem _ he')
    · intro p hp
      rw [hm] at hp
      refine hp n _ ?_
      intro P hP q hq
      obtain ⟨g, hg, e', he', hb, rfl⟩ := hout P hP
      refine ((hb.furthest n hn (hf g hg)).2 q hq).trans ?_
      show (e'.support n).dot n ≤ (maxSupport n (e.support n) es).dot n
      obtain ⟨g1, g2⟩ := maxSupport_ge n es (e.support n)
      rcases List.mem_cons.mp he' with rfl | he'
      · exact g1
      · exact g2 e' he'
  · intro p q c hp hq h0 h1
    exact (hm _).mpr (hull_convex _ p q c ((hm p).mp hp) ((hm q).mp hq) h0 h1)
  · rw [plain_center, hm]
    intro n c hc
    have : ∀ e' ∈ e :: es, e'.center.dot n ≤ c := by
      intro e' he'
      obtain ⟨g, hg, hb, hB⟩ := hin e' he'
      exact hc _ hB _ hb.center
    have hs := sum_dot_le n c (e :: es) this
    show ((((e :: es).length : ℝ)⁻¹ • ((e :: es).map Entry.center).sum)).dot n ≤ c
    have hl : (0 : ℝ) < ((e :: es).length : ℝ) := by exact_mod_cast Nat.succ_pos _
    rw [smul_dot]
    generalize ((e :: es).length : ℝ) = L at *
    calc L⁻¹ * _ ≤ L⁻¹ * (L * c) := mul_le_mul_of_nonneg_left hs (inv_nonneg.mpr hl.le)
      _ = c := by field_simp
  · show 0 ≤ ((e :: es).map Entry.reach).foldl max e.reach
    refine le_trans ?_ (foldl_max_ge _ _).1
    obtain ⟨g, hg, hb, hB⟩ := hin e List.mem_cons_self
    exact add_nonneg (Vec3.norm_nonneg _) hb.circumsphere_nonneg
  · show 0 ≤ maxInsphereRadius (e :: es)
    rcases es with _ | ⟨e', _ | ⟨e'', es⟩⟩
    · exact le_max_left _ _
    · show 0 ≤ insphereRadius2 e e'
      obtain ⟨g, hg, hb, hB⟩ := hin e List.mem_cons_self
      obtain ⟨g', hg', hb', hB'⟩ := hin e' (List.mem_cons_of_mem _ List.mem_cons_self)
      unfold insphereRadius2
      simp only
      split_ifs
      · exact le_min hb.insphere_nonneg hb'.insphere_nonneg
      · exact le_refl _
      · exact le_refl _
      · exact le_max_left _ _
    · exact le_refl _
  · intro ha p hp
    have ha := allAtOrigin_mem (show AllAtOrigin gs from ha)
    rw [hm] at hp
    show (p - 0).norm ≤ ((e :: es).map Entry.reach).foldl max e.reach
    rw [sub_zero]
    have hmax := (foldl_max_ge ((e :: es).map Entry.reach) e.reach).2
    generalize ((e :: es).map Entry.reach).foldl max e.reach = R at *
    have hpp : p.dot p ≤ R * p.norm := by
      refine hp p _ ?_
      intro P hP q hq
      obtain ⟨g, hg, e', he', hb, rfl⟩ := hout P hP
      have h1 := hb.covered (ha g hg) q hq
      have h2 : e'.reach ≤ R := hmax _ (List.mem_map_of_mem he')
      have h3 : q.norm ≤ e'.reach := by
        have e1 : q = e'.pos + (q - e'.pos) := by abel
        calc q.norm = (e'.pos + (q - e'.pos)).norm := by rw [← e1]
          _ ≤ _ := Domain.norm_add_le' _ _
          _ ≤ e'.pos.norm + e'.geometry.circumsphereRadius := add_le_add (le_refl _) h1
      exact (dot_le_norm q p).trans (mul_le_mul_of_nonneg_right (h3.trans h2) p.norm_nonneg)
    by_cases h0 : p = 0
    · have : p.norm = 0 := by rw [h0]; simp [Vec3.norm, Vec3.norm2, Vec3.dot]
      rw [this]
      obtain ⟨g, hg, hb, hB⟩ := hin e List.mem_cons_self
      exact (add_nonneg (Vec3.norm_nonneg _) hb.circumsphere_nonneg).trans (hmax _ (List.mem_map_of_mem List.mem_cons_self))
    · have hpos := Xeno.norm_pos_of_ne h0
      have : p.dot p = p.norm ^ 2 := (Vec3.norm_sq p).symm
      rw [this, sq] at hpp
      exact le_of_mul_le_mul_right hpp hpos
  · intro hc hpos p hp
    obtain ⟨hc, hw⟩ : AllCentred gs ∧ ∀ g1 g2, gs = [g1, g2] → WellPlaced g1 g2 := hc
    have hc := allCentred_mem hc
    have hpos : 0 < maxInsphereRadius (e :: es) := hpos
    have hp : p.norm ≤ maxInsphereRadius (e :: es) := hp
    rw [hm]
    show HullBody (allMean gs) (p + 0)
    rw [add_zero]
    rcases es with _ | ⟨e', _ | ⟨e'', es⟩⟩
    · intro n c hcc
      obtain ⟨g, hg, hb, hB⟩ := hin e List.mem_cons_self
      have hh := built_halfspace hb (hc g hg).1 (hc g hg).2 (hcc _ hB)
      have hpos : 0 < max 0 (e.geometry.insphereRadius - e.pos.norm) := hpos
      have hp : p.norm ≤ max 0 (e.geometry.insphereRadius - e.pos.norm) := hp
      rw [positive_max hpos] at hp
      have h1 := dot_le_norm p n
      have h2 := mul_le_mul_of_nonneg_right hp n.norm_nonneg
      have h3 := neg_norm_le_dot e.pos n
      linarith
    · -- the list is the two bodies, in the other order
      have hrs : rs = [e', e] := by
        have := congrArg List.reverse hr
        rwa [List.reverse_reverse] at this
      subst hrs
      obtain ⟨g', gs', hb', hrest, rfl⟩ := List.forall₂_cons_right_iff.mp h
      obtain ⟨g, gs'', hb, hnil, rfl⟩ := List.forall₂_cons_right_iff.mp hrest
      rw [List.forall₂_nil_right_iff.mp hnil] at *
      have cg := hc g (List.mem_cons_of_mem _ List.mem_cons_self)
      have cg' := hc g' List.mem_cons_self
      intro n c hcc
      have m1 : ConvexMeans g ∈ allMean [g', g] := by simp [allMean]
      have m2 : ConvexMeans g' ∈ allMean [g', g] := by simp [allMean]
      have hh := built_halfspace hb cg.1 cg.2 (hcc _ m1)
      have hh' := built_halfspace hb' cg'.1 cg'.2 (hcc _ m2)
      refine hull2_inside hb.insphere_nonneg hb'.insphere_nonneg hh hh' (fun hlt => ?_) hpos hp
      have := well_placed hb' hb cg' cg (hw g' g rfl) (by
        have e1 : (e.pos - e'.pos).norm = (e'.pos - e.pos).norm := by rw [← norm_neg', neg_sub]
        rw [e1, max_comm]; exact hlt)
      exact ⟨this.2, this.1⟩
    · exact absurd hpos (lt_irrefl _)

/-! ### Running scripts -/

mutual

theorem run_ok : ∀ (g : Convex) (st : Stack), Allowed g → ∃ e, run g st = .ok (e :: st) ∧ Built g e
  | .point pos, st, _ => ⟨_, rfl, built_point pos⟩
  | .block b pos a, st, h => by
    have h : BlockSizes b := h
    obtain ⟨g, hg⟩ := create_sizes h
    have hb := built_block (create_facts hg).1 pos a
    refine ⟨⟨g, pos, inDegrees a⟩, ?_, hb⟩
    unfold run
    rw [hg]
    simp only [Outcome.ok_bind, move, push, zero_add]
    split
    · simp only [XCBuilder.rot, inDegrees_eq, Mat3.mul_one]
    · rename_i hz
      have : a = 0 := by simpa [isNonZero] using hz
      rw [this, inDegrees_zero]; rfl
  | .sum gs, st, h => by
    obtain ⟨h2, ha⟩ : 2 ≤ gs.length ∧ AllAllowed gs := h
    obtain ⟨es, hes, hb⟩ := runAll_ok gs st ha
    have hl := hb.length_eq
    refine ⟨_, ?_, built_sum hb⟩
    unfold run
    rw [hes]
    simp only [Outcome.ok_bind, XCBuilder.sum]
    rw [decide_eq_true h2, decide_eq_true (by rw [List.length_append, List.length_reverse]; omega)]
    simp only [Outcome.require_true, Outcome.ok_bind]
    rw [List.take_left' (by rw [List.length_reverse]; exact hl.symm), List.drop_left' (by rw [List.length_reverse]; exact hl.symm)]
    rfl
  | .diff g1 g2, st, h => by
    obtain ⟨h1, h2⟩ : Allowed g1 ∧ Allowed g2 := h
    obtain ⟨e1, he1, b1⟩ := run_ok g1 st h1
    obtain ⟨e2, he2, b2⟩ := run_ok g2 (e1 :: st) h2
    refine ⟨_, ?_, built_diff b1 b2⟩
    unfold run
    rw [he1]
    simp only [Outcome.ok_bind]
    rw [he2]
    rfl
  | .wrap gs, st, h => by
    obtain ⟨h2, ha⟩ : 2 ≤ gs.length ∧ AllAllowed gs := h
    obtain ⟨es, hes, hb⟩ := runAll_ok gs st ha
    have hl := hb.length_eq
    rcases hr : es.reverse with _ | ⟨e, es'⟩
    · have := congrArg List.length hr
      rw [List.length_reverse, List.length_nil] at this; omega
    refine ⟨_, ?_, built_wrap hb hr⟩
    unfold run
    rw [hes]
    simp only [Outcome.ok_bind, XCBuilder.wrap]
    rw [decide_eq_true h2, decide_eq_true (by rw [List.length_append, List.length_reverse]; omega)]
    simp only [Outcome.require_true, Outcome.ok_bind]
    rw [List.take_left' (by rw [List.length_reverse]; exact hl.symm), List.drop_left' (by rw [List.length_reverse]; exact hl.symm), hr]
    rfl

theorem runAll_ok : ∀ (gs : List Convex) (st : Stack), AllAllowed gs → ∃ es, runAll gs st = .ok (es.reverse ++ st) ∧ List.Forall₂ Built gs es
  | [], st, _ => ⟨[], rfl, .nil⟩
  | g :: gs, st, h => by
    obtain ⟨h1, h2⟩ : Allowed g ∧ AllAllowed gs := h
    obtain ⟨e, he, b⟩ := run_ok g st h1
    obtain ⟨es, hes, bs⟩ := runAll_ok gs (e :: st) h2
    refine ⟨e :: es, ?_, .cons b bs⟩
    unfold runAll
    rw [he]
    simp only [Outcome.ok_bind]
    rw [hes, List.reverse_cons, List.append_assoc]
    rfl

end

mutual

theorem allowed_of_run : ∀ (g : Convex) (st st' : Stack), run g st = .ok st' → Allowed g
  | .point _, _, _, _ => trivial
  | .block b pos a, st, st', h => by
    unfold run at h
    obtain ⟨g, hg, _⟩ := Outcome.bind_eq_ok.mp h
    exact (create_facts hg).2
  | .sum gs, st, st', h => by
    unfold run at h
    obtain ⟨st1, h1, h⟩ := Outcome.bind_eq_ok.mp h
    obtain ⟨_, h2, _⟩ := Outcome.bind_eq_ok.mp h
    exact ⟨of_decide_eq_true (Outcome.require_eq_ok.mp h2), allowed_of_runAll gs st st1 h1⟩
  | .diff g1 g2, st, st', h => by
    unfold run at h
    obtain ⟨st1, h1, h⟩ := Outcome.bind_eq_ok.mp h
    obtain ⟨st2, h2, _⟩ := Outcome.bind_eq_ok.mp h
    exact ⟨allowed_of_run g1 st st1 h1, allowed_of_run g2 st1 st2 h2⟩
  | .wrap gs, st, st', h => by
    unfold run at h
    obtain ⟨st1, h1, h⟩ := Outcome.bind_eq_ok.mp h
    obtain ⟨_, h2, _⟩ := Outcome.bind_eq_ok.mp h
    exact ⟨of_decide_eq_true (Outcome.require_eq_ok.mp h2), allowed_of_runAll gs st st1 h1⟩

theorem allowed_of_runAll : ∀ (gs : List Convex) (st st' : Stack), runAll gs st = .ok st' → AllAllowed gs
  | [], _, _, _ => trivial
  | g :: gs, st, st', h => by
    unfold runAll at h
    obtain ⟨st1, h1, h⟩ := Outcome.bind_eq_ok.mp h
    exact ⟨allowed_of_run g st st1 h1, allowed_of_runAll gs st1 st' h⟩

end

end XCBuilder

/-- The geometry is built exactly for the allowed expressions. -/
theorem C77_accepted (g : Convex) : (∃ x, build g = .ok x) ↔ Allowed g := by
  constructor
  · rintro ⟨x, h⟩
    obtain ⟨st, h1, _⟩ := Outcome.bind_eq_ok.mp h
    exact allowed_of_run g [] st h1
  · intro h
    obtain ⟨e, he, _⟩ := run_ok g [] h
    exact ⟨e.geometry, by unfold build; rw [he]; rfl⟩

/-- The script of an expression leaves the shapes which have been on the stack, and puts there one shape more. -/
theorem C77_stack (g : Convex) (st : Stack) (h : Allowed g) : ∃ e, run g st = .ok (e :: st) ∧ e.pos = ownOrigin g := by
  obtain ⟨e, he, hb⟩ := run_ok g st h
  exact ⟨e, he, hb.pos⟩

theorem XCBuilder.build_entry {g : Convex} {x : XCGeometry} (h : build g = .ok x) (hd : AtDefault g) : Built g ⟨x, 0, 1⟩ := by
  have ha := (C77_accepted g).mp ⟨x, h⟩
  obtain ⟨e, he, hb⟩ := run_ok g [] ha
  unfold build at h
  rw [he] at h
  have hx : e.geometry = x := Outcome.ok_inj.mp h
  have hp : e.pos = 0 := by
    rw [hb.pos]
    cases g <;> first | rfl | exact hd.1
  have : e = ⟨x, 0, 1⟩ := by
    cases e
    simp only at hx hp
    have hr := hb.rot hd
    simp only at hr
    rw [hx, hp, hr]
  rwa [this] at hb

/-- The geometry built for an expression gives, in every direction, the furthest point of the body which the expression means, and a centre
inside. A block alone must have the default position and orientation: see `C77_alone_violated`. -/
theorem C77_furthest {g : Convex} {x : XCGeometry} (h : build g = .ok x) (hd : AtDefault g) : ConvexBody (ConvexMeans g) ∧ ConvexMeans g x.center ∧
    ∀ n, n ≠ 0 → Fine g n → ConvexMeans g (x.support n) ∧ ∀ p, ConvexMeans g p → p.dot n ≤ (x.support n).dot n := by
  have hb := build_entry h hd
  refine ⟨hb.convex, ?_, fun n hn hf => ?_⟩
  · have := hb.center; rwa [plain_center] at this
  · have := hb.furthest n hn hf; rwa [plain_support] at this

/-- The body lies in the ball of the circumsphere radius; see `C75_points_violated` for points away from the origin. -/
theorem C77_circumsphere_partial {g : Convex} {x : XCGeometry} (h : build g = .ok x) (hd : AtDefault g) (hp : PointsAtOrigin g) :
    0 ≤ x.circumsphereRadius ∧ CoveredBy (ConvexMeans g) x.circumsphereRadius := by
  have hb := build_entry h hd
  refine ⟨hb.circumsphere_nonneg, fun p hpp => norm2_le_of ?_⟩
  have := hb.covered hp p hpp
  rwa [sub_zero] at this

/-- The ball of the insphere radius lies in the body; see `C75_sum_violated` and `C75_hull_violated`. -/
theorem C77_insphere_partial {g : Convex} {x : XCGeometry} (h : build g = .ok x) (hd : AtDefault g) (hc : Centred g) :
    0 ≤ x.insphereRadius ∧ Inscribed (ConvexMeans g) x.insphereRadius := by
  have hb := build_entry h hd
  refine ⟨hb.insphere_nonneg, fun hpos p hp => ?_⟩
  have := hb.inscribed hc hpos p (norm_le_of hb.insphere_nonneg hp)
  rwa [add_zero] at this

/-- The geometry describes the body for the collision test when all of this is met. -/
theorem C77_describes_partial {g : Convex} {x : XCGeometry} (h : build g = .ok x) (hd : AtDefault g) (hf : ∀ n, n ≠ 0 → Fine g n) (hp : PointsAtOrigin g)
    (hc : Centred g) : Describes x (ConvexMeans g) := by
  obtain ⟨h1, h2, h3⟩ := C77_furthest h hd
  obtain ⟨h4, h5⟩ := C77_circumsphere_partial h hd hp
  obtain ⟨h6, h7⟩ := C77_insphere_partial h hd hc
  exact ⟨⟨fun n hn => (h3 n hn (hf n hn)).1, fun n hn => (h3 n hn (hf n hn)).2⟩, h1, h2, h4, h6, h5, h7⟩

/-- A block alone loses its position (and, likewise, its orientation): the geometry built for the unit sphere at (5, 0, 0) has its
furthest points outside of that sphere. -/
theorem C77_alone_violated : ∃ x, build (.block (.sphere 1) ⟨5, 0, 0⟩ 0) = .ok x ∧ ∀ n, n ≠ 0 → ¬ ConvexMeans (.block (.sphere 1) ⟨5, 0, 0⟩ 0) (x.support n) := by
  have hz : isNonZero (0 : Vec3 ℝ) = false := by simp [isNonZero]
  refine ⟨⟨fun n => (1 : ℝ) • normalized n, 0, 1, 1⟩, ?_, ?_⟩
  · unfold build run
    simp [XCBuilder.create, sphere_ok, Outcome.require, move, push, hz, release]
  · intro n hn h
    simp only [ConvexMeans, BlockBody] at h
    have h1 := placed_near (r := 1) (fun p hp => hp) (inDegrees_orthogonal 0) h
    have h2 := Xeno.normalized_norm2 hn
    rw [norm2_eq] at h1 h2
    simp only [Vec3.sub_x, Vec3.sub_y, Vec3.sub_z, Vec3.smul_x, Vec3.smul_y, Vec3.smul_z, one_mul, sub_zero] at h1
    nlinarith [sq_nonneg (normalized n).y, sq_nonneg (normalized n).z]


/-- The shape from the documentation: the hull of a ball and a rotated cube. -/
noncomputable def XCBuilder.ballAndCube : Convex := .wrap [.block (.sphere (1 / 2)) ⟨0, 0, -(1 / 2)⟩ 0, .block (.cuboid 1 1 1) ⟨0, 0, 1 / 2⟩ ⟨45, 0, 0⟩]

theorem XCBuilder.ball_le {g : Convex} {B : Vec3 ℝ → Prop} {a pos : Vec3 ℝ} (hg : ∀ p, ConvexMeans g p → Placed B (inDegrees a) pos p) (ho : ownOrigin g = pos)
    (hB : ∀ p, B p → p.norm2 ≤ 1 ^ 2) {r : ℝ} (hr : 0 < r) (h : BallInside g r) : r ≤ 1 := by
  have h1 := hg _ (h ⟨r, 0, 0⟩ (by simp [Vec3.norm2, Vec3.dot, sq]))
  have h2 := placed_near hB (inDegrees_orthogonal a) h1
  rw [ho, add_sub_cancel_left, norm2_eq] at h2
  simp only at h2
  nlinarith

example : ∃ x, build ballAndCube = .ok x ∧ Describes x (ConvexMeans ballAndCube) := by
  have ha : Allowed ballAndCube := by
    simp [ballAndCube, Allowed, AllAllowed, BlockSizes]
  obtain ⟨x, hx⟩ := (C77_accepted _).mpr ha
  refine ⟨x, hx, C77_describes_partial hx trivial (fun n _ => ⟨trivial, trivial, trivial⟩) ⟨trivial, trivial, trivial⟩ ?_⟩
  refine ⟨⟨⟨trivial, ?_⟩, ⟨trivial, ?_⟩, trivial⟩, ?_⟩
  · exact ⟨0, by simp [BlockBody, ClosedBall, Vec3.norm2, Vec3.dot], by simp [ownOrigin, Mat3.mulVec_zero]⟩
  · exact ⟨0, by simp [BlockBody, CuboidBody], by simp [ownOrigin, Mat3.mulVec_zero]⟩
  · intro g1 g2 h12
    obtain ⟨rfl, h2⟩ := List.cons.inj h12
    obtain ⟨rfl, -⟩ := List.cons.inj h2
    refine .inr fun r hr hb => ?_
    have hr1 : r ≤ 1 := by
      rcases hb with hb | hb
      · refine ball_le (B := ClosedBall (1 / 2)) (a := 0) (fun p hp => by simpa only [ConvexMeans, BlockBody, ownOrigin] using hp) rfl ?_ hr hb
        intro p hp
        have hp : p.norm2 ≤ (1 / 2) ^ 2 := hp
        linarith
      · refine ball_le (B := CuboidBody ⟨1 / 2, 1 / 2, 1 / 2⟩) (a := ⟨45, 0, 0⟩) (fun p hp => by simpa only [ConvexMeans, BlockBody, ownOrigin] using hp) rfl ?_ hr hb
        intro p hp
        obtain ⟨h1, h2, h3⟩ : |p.x| ≤ 1 / 2 ∧ |p.y| ≤ 1 / 2 ∧ |p.z| ≤ 1 / 2 := hp
        rw [norm2_eq]
        have := sq_le_sq' (abs_le.mp h1).1 (abs_le.mp h1).2
        have := sq_le_sq' (abs_le.mp h2).1 (abs_le.mp h2).2
        have := sq_le_sq' (abs_le.mp h3).1 (abs_le.mp h3).2
        linarith
    have hd : (ownOrigin (.block (.cuboid 1 1 1) ⟨0, 0, 1 / 2⟩ ⟨45, 0, 0⟩) - ownOrigin (.block (.sphere (1 / 2)) ⟨0, 0, -(1 / 2)⟩ 0)).norm = 1 := by
      simp only [ownOrigin, Vec3.norm, norm2_eq, Vec3.sub_x, Vec3.sub_y, Vec3.sub_z]
      norm_num
    rw [hd]
    linarith

end Rampack
