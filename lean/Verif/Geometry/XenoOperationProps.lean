import Verif.Geometry.XenoFlatProps
import Verif.Domain.ApartLemmas
/-
The operations on convex bodies: Minkowski sums and differences and convex hulls.
-/
namespace Rampack

open Packing Spec Xeno XC

namespace XC

theorem dot_add (a b n : Vec3 ℝ) : (a + b).dot n = a.dot n + b.dot n := by
  simp only [Vec3.dot, Vec3.add_x, Vec3.add_y, Vec3.add_z]; ring

theorem dot_sub (a b n : Vec3 ℝ) : (a - b).dot n = a.dot n - b.dot n := by
  simp only [Vec3.dot, Vec3.sub_x, Vec3.sub_y, Vec3.sub_z]; ring

theorem smul_norm2 (c : ℝ) (v : Vec3 ℝ) : (c • v).norm2 = c ^ 2 * v.norm2 := by
  simp only [Vec3.norm2, Vec3.dot, Vec3.smul_x, Vec3.smul_y, Vec3.smul_z]; ring

theorem smul_norm {c : ℝ} (hc : 0 ≤ c) (v : Vec3 ℝ) : (c • v).norm = c * v.norm := by
  rw [Vec3.norm, smul_norm2, Real.sqrt_mul (sq_nonneg c), Real.sqrt_sq hc]; rfl

theorem norm_neg' (v : Vec3 ℝ) : (-v).norm = v.norm := by simp [Vec3.norm, Vec3.norm2, Vec3.dot]

theorem split_one {a b : ℝ} (h : a + b = 1) (v : Vec3 ℝ) : v = a • v + b • v := by
  have hb : b = 1 - a := by linarith
  rw [hb]
  ext <;> simp only [Vec3.add_x, Vec3.add_y, Vec3.add_z, Vec3.smul_x, Vec3.smul_y, Vec3.smul_z] <;> ring

theorem zero_dot (n : Vec3 ℝ) : (0 : Vec3 ℝ).dot n = 0 := by
  simp only [Vec3.dot, Vec3.zero_x, Vec3.zero_y, Vec3.zero_z]; ring

theorem norm_sub_le (a b : Vec3 ℝ) : (a - b).norm ≤ a.norm + b.norm := by
  have := Domain.norm_add_le' a (-b)
  rw [norm_neg', ← sub_eq_add_neg] at this
  exact this

/-- A point within the insphere radius of the position is a point of the placed body, also when the radius is zero, provided
that the body has its origin. -/
theorem placed_near_pos {e : Entry} {B : Vec3 ℝ → Prop} (d : Describes e.geometry B) (ho : Orthogonal e.rot) (h0 : HasOrigin B) {v : Vec3 ℝ}
    (hv : v.norm ≤ e.geometry.insphereRadius) : Placed B e.rot e.pos (v + e.pos) := by
  rcases d.insphere_nonneg.lt_or_eq with h | h
  · refine placed_of_near h d.inscribed ho ?_
    have : v + e.pos - e.pos = v := by abel
    rw [this]; exact norm2_le_of hv
  · rw [← h] at hv
    have : v = 0 := by
      by_contra hne
      have := Xeno.norm_pos_of_ne hne
      linarith
    refine ⟨0, h0, ?_⟩
    rw [this, Mat3.mulVec_zero]

theorem placed_reach {e : Entry} {B : Vec3 ℝ → Prop} (d : Describes e.geometry B) (ho : Orthogonal e.rot) {p : Vec3 ℝ} (hp : Placed B e.rot e.pos p) :
    (p - e.pos).norm ≤ e.geometry.circumsphereRadius := norm_le_of d.circumsphere_nonneg (placed_near d.covered ho hp)

/-! ### Sums -/

theorem sum_support : ∀ {es : List Entry} {Bs : List (Vec3 ℝ → Prop)}, DescribeAll es Bs → ∀ n, n ≠ 0 →
    SumBody (placedAll es Bs) ((es.map fun e => e.support n).sum) ∧
    ∀ p, SumBody (placedAll es Bs) p → p.dot n ≤ ((es.map fun (e : Entry) => e.support n).sum).dot n := by
  intro es Bs h n hn
  induction h with
  | nil => exact ⟨rfl, fun p hp => by rw [show p = 0 from hp]; exact le_refl _⟩
  | @cons e B es Bs h hs ih =>
    have hp := placed_support h.1.support h.2 e.pos
    refine ⟨⟨_, _, hp.mem n hn, ih.1, by simp only [List.map_cons, List.sum_cons]⟩, ?_⟩
    rintro p ⟨a, b, ha, hb, rfl⟩
    have h1 := hp.furthest n hn a ha
    have h2 := ih.2 b hb
    simp only [List.map_cons, List.sum_cons, dot_add]
    exact add_le_add h1 h2

theorem sum_convex {es : List Entry} {Bs : List (Vec3 ℝ → Prop)} (h : DescribeAll es Bs) : ConvexBody (SumBody (placedAll es Bs)) := by
  induction h with
  | nil =>
    intro p q c hp hq _ _
    rw [show p = 0 from hp, show q = 0 from hq]
    show c • (0 : Vec3 ℝ) + (1 - c) • (0 : Vec3 ℝ) = 0
    ext <;> simp
  | @cons e B es Bs h hs ih =>
    rintro p q c ⟨a, b, ha, hb, rfl⟩ ⟨a', b', ha', hb', rfl⟩ h0 h1
    refine ⟨_, _, placed_convex h.1.convex e.rot e.pos a a' c ha ha' h0 h1, ih b b' c hb hb' h0 h1, ?_⟩
    ext <;> simp only [Vec3.add_x, Vec3.add_y, Vec3.add_z, Vec3.smul_x, Vec3.smul_y, Vec3.smul_z] <;> ring

theorem sum_center {es : List Entry} {Bs : List (Vec3 ℝ → Prop)} (h : DescribeAll es Bs) :
    SumBody (placedAll es Bs) (es.map Entry.center).sum := by
  induction h with
  | nil => exact rfl
  | @cons e B es Bs h hs ih => exact ⟨_, _, ⟨_, h.1.center, rfl⟩, ih, by simp only [List.map_cons, List.sum_cons]; rfl⟩

theorem sum_radii {es : List Entry} {Bs : List (Vec3 ℝ → Prop)} (h : DescribeAll es Bs) :
    0 ≤ (es.map fun e => e.geometry.circumsphereRadius).sum ∧ 0 ≤ (es.map fun e => e.geometry.insphereRadius).sum := by
  induction h with
  | nil => simp
  | cons h hs ih =>
    simp only [List.map_cons, List.sum_cons]
    exact ⟨add_nonneg h.1.circumsphere_nonneg ih.1, add_nonneg h.1.insphere_nonneg ih.2⟩

theorem sum_covered {es : List Entry} {Bs : List (Vec3 ℝ → Prop)} (h : DescribeAll es Bs) : ∀ p, SumBody (placedAll es Bs) p →
    (p - (es.map Entry.pos).sum).norm ≤ (es.map fun e => e.geometry.circumsphereRadius).sum := by
  induction h with
  | nil => intro p hp; rw [show p = 0 from hp]; simp [Vec3.norm, Vec3.norm2, Vec3.dot]
  | @cons e B es Bs h hs ih =>
    rintro p ⟨a, b, ha, hb, rfl⟩
    simp only [List.map_cons, List.sum_cons]
    have e1 : a + b - (e.pos + (es.map Entry.pos).sum) = (a - e.pos) + (b - (es.map Entry.pos).sum) := by abel
    rw [e1]
    exact (Domain.norm_add_le' _ _).trans (add_le_add (placed_reach h.1 h.2 ha) (ih b hb))

theorem sum_inscribed {es : List Entry} {Bs : List (Vec3 ℝ → Prop)} (h : DescribeAll es Bs) (ho : ∀ B ∈ Bs, HasOrigin B) :
    ∀ v : Vec3 ℝ, v.norm ≤ (es.map fun e => e.geometry.insphereRadius).sum → SumBody (placedAll es Bs) (v + (es.map Entry.pos).sum) := by
  induction h with
  | nil =>
    intro v hv
    have : v = 0 := by
      by_contra hne
      have := Xeno.norm_pos_of_ne hne
      simp at hv; linarith
    rw [this]; show (0 : Vec3 ℝ) + ([] : List (Vec3 ℝ)).sum = 0; simp
  | @cons e B es Bs h hs ih =>
    intro v hv
    have ih := ih (fun C hC => ho C (List.mem_cons_of_mem _ hC))
    have h0 := ho B List.mem_cons_self
    simp only [List.map_cons, List.sum_cons] at hv ⊢
    have hr := h.1.insphere_nonneg
    have hS := (sum_radii hs).2
    have hplaced := fun (w : Vec3 ℝ) (hw : w.norm ≤ e.geometry.insphereRadius) => placed_near_pos h.1 h.2 h0 hw
    generalize e.geometry.insphereRadius = r at *
    generalize (es.map fun e => e.geometry.insphereRadius).sum = S at *
    rcases (add_nonneg hr hS).lt_or_eq with hp | hp
    · have c1 : 0 ≤ r / (r + S) := div_nonneg hr hp.le
      have c2 : 0 ≤ S / (r + S) := div_nonneg hS hp.le
      have k1 : ((r / (r + S)) • v).norm ≤ r := by
        rw [smul_norm c1]
        calc r / (r + S) * v.norm ≤ r / (r + S) * (r + S) := mul_le_mul_of_nonneg_left hv c1
          _ = r := by field_simp
      have k2 : ((S / (r + S)) • v).norm ≤ S := by
        rw [smul_norm c2]
        calc S / (r + S) * v.norm ≤ S / (r + S) * (r + S) := mul_le_mul_of_nonneg_left hv c2
          _ = S := by field_simp
      refine ⟨_, _, hplaced _ k1, ih _ k2, ?_⟩
      have e1 : r / (r + S) + S / (r + S) = 1 := by field_simp
      have e2 : v = (r / (r + S)) • v + (S / (r + S)) • v := split_one e1 v
      calc v + (e.pos + (es.map Entry.pos).sum) = ((r / (r + S)) • v + (S / (r + S)) • v) + (e.pos + (es.map Entry.pos).sum) := by rw [← e2]
        _ = _ := by abel
    · have hv0 : v.norm ≤ 0 := by linarith
      refine ⟨_, _, hplaced v (hv0.trans hr), ih 0 ?_, by abel⟩
      have : (0 : Vec3 ℝ).norm = 0 := by simp [Vec3.norm, Vec3.norm2, Vec3.dot]
      rw [this]; exact hS

end XC

/-- The sum of rotated and moved bodies. Without the condition that every body has its own origin the claim about the inscribed
ball is false: see `C75_sum_violated`. -/
theorem C75_sum_partial {es : List Entry} {Bs : List (Vec3 ℝ → Prop)} (h : DescribeAll es Bs) (ho : ∀ B ∈ Bs, HasOrigin B) :
    Describes (XC.sum es) (SumBody (placedAll es Bs)) := by
  refine ⟨⟨fun n hn => (sum_support h n hn).1, fun n hn => (sum_support h n hn).2⟩, sum_convex h, sum_center h,
    add_nonneg (Vec3.norm_nonneg _) (sum_radii h).1, le_max_left _ _, ?_, ?_⟩
  · intro p hp
    refine norm2_le_of ?_
    have e : p = (es.map Entry.pos).sum + (p - (es.map Entry.pos).sum) := by abel
    calc p.norm = ((es.map Entry.pos).sum + (p - (es.map Entry.pos).sum)).norm := by rw [← e]
      _ ≤ _ := Domain.norm_add_le' _ _
      _ ≤ _ := add_le_add (le_refl _) (sum_covered h p hp)
  · intro hpos p hp
    have hpos : 0 < max 0 ((es.map fun e => e.geometry.insphereRadius).sum - (es.map Entry.pos).sum.norm) := hpos
    have hp : p.norm2 ≤ (max 0 ((es.map fun e => e.geometry.insphereRadius).sum - (es.map Entry.pos).sum.norm)) ^ 2 := hp
    have hm : max 0 ((es.map fun e => e.geometry.insphereRadius).sum - (es.map Entry.pos).sum.norm)
        = (es.map fun e => e.geometry.insphereRadius).sum - (es.map Entry.pos).sum.norm := by
      rcases max_choice 0 ((es.map fun e => e.geometry.insphereRadius).sum - (es.map Entry.pos).sum.norm) with h' | h'
      · rw [h'] at hpos; exact absurd hpos (lt_irrefl _)
      · exact h'
    rw [hm] at hp hpos
    have hn := norm_le_of hpos.le hp
    have e : p = (p - (es.map Entry.pos).sum) + (es.map Entry.pos).sum := by abel
    rw [e]
    refine sum_inscribed h ho _ ?_
    have := norm_sub_le p (es.map Entry.pos).sum
    linarith

/-! ### Differences -/

/-- The difference of two rotated and moved bodies. -/
theorem C75_difference_partial {e1 e2 : Entry} {A B : Vec3 ℝ → Prop} (d1 : Describes e1.geometry A) (d2 : Describes e2.geometry B)
    (o1 : Orthogonal e1.rot) (o2 : Orthogonal e2.rot) (hA : HasOrigin A) (hB : HasOrigin B) :
    Describes (XC.diff e1 e2) (DifferenceBody (Placed A e1.rot e1.pos) (Placed B e2.rot e2.pos)) := by
  have p1 := placed_support d1.support o1 e1.pos
  have p2 := placed_support d2.support o2 e2.pos
  refine ⟨⟨?_, ?_⟩, ?_, ⟨_, _, ⟨_, d1.center, rfl⟩, ⟨_, d2.center, rfl⟩, rfl⟩,
    add_nonneg (add_nonneg (Vec3.norm_nonneg _) d1.circumsphere_nonneg) d2.circumsphere_nonneg, le_max_left _ _, ?_, ?_⟩
  · intro n hn
    exact ⟨_, _, p1.mem n hn, p2.mem (-n) (by simpa using hn), rfl⟩
  · rintro n hn _ ⟨a, b, ha, hb, rfl⟩
    have h1 := p1.furthest n hn a ha
    have h2 := p2.furthest (-n) (by simpa using hn) b hb
    have hneg : ∀ v w : Vec3 ℝ, v.dot (-w) = -(v.dot w) := by
      intro v w; simp only [Vec3.dot, Vec3.neg_x, Vec3.neg_y, Vec3.neg_z]; ring
    rw [hneg, hneg] at h2
    show (a - b).dot n ≤ (e1.support n - e2.support (-n)).dot n
    rw [dot_sub, dot_sub]
    have h1 : a.dot n ≤ (e1.support n).dot n := h1
    have h2 : -b.dot n ≤ -(e2.support (-n)).dot n := h2
    linarith
  · rintro p q c ⟨a, b, ha, hb, rfl⟩ ⟨a', b', ha', hb', rfl⟩ h0 h1
    refine ⟨_, _, placed_convex d1.convex e1.rot e1.pos a a' c ha ha' h0 h1, placed_convex d2.convex e2.rot e2.pos b b' c hb hb' h0 h1, ?_⟩
    ext <;> simp only [Vec3.add_x, Vec3.add_y, Vec3.add_z, Vec3.smul_x, Vec3.smul_y, Vec3.smul_z, Vec3.sub_x, Vec3.sub_y, Vec3.sub_z] <;> ring
  · rintro _ ⟨a, b, ha, hb, rfl⟩
    refine norm2_le_of ?_
    have n1 := placed_reach d1 o1 ha
    have n2 := placed_reach d2 o2 hb
    have e : a - b = (e1.pos - e2.pos) + ((a - e1.pos) - (b - e2.pos)) := by abel
    calc (a - b).norm = ((e1.pos - e2.pos) + ((a - e1.pos) - (b - e2.pos))).norm := by rw [← e]
      _ ≤ (e1.pos - e2.pos).norm + ((a - e1.pos) - (b - e2.pos)).norm := Domain.norm_add_le' _ _
      _ ≤ (e1.pos - e2.pos).norm + ((a - e1.pos).norm + (b - e2.pos).norm) := add_le_add (le_refl _) (norm_sub_le _ _)
      _ ≤ (e1.pos - e2.pos).norm + e1.geometry.circumsphereRadius + e2.geometry.circumsphereRadius := by linarith
  · intro hpos p hp
    have i1 := d1.insphere_nonneg
    have i2 := d2.insphere_nonneg
    have q1 := fun (v : Vec3 ℝ) (hv : v.norm ≤ e1.geometry.insphereRadius) => placed_near_pos d1 o1 hA hv
    have q2 := fun (v : Vec3 ℝ) (hv : v.norm ≤ e2.geometry.insphereRadius) => placed_near_pos d2 o2 hB hv
    have hpos : 0 < max 0 (e1.geometry.insphereRadius + e2.geometry.insphereRadius - (e1.pos - e2.pos).norm) := hpos
    have hp : p.norm2 ≤ (max 0 (e1.geometry.insphereRadius + e2.geometry.insphereRadius - (e1.pos - e2.pos).norm)) ^ 2 := hp
    generalize e1.geometry.insphereRadius = r at *
    generalize e2.geometry.insphereRadius = S at *
    rcases max_choice 0 (r + S - (e1.pos - e2.pos).norm) with h' | h'
    · rw [h'] at hpos; exact absurd hpos (lt_irrefl _)
    · rw [h'] at hp hpos
      have hn := norm_le_of hpos.le hp
      have hv : (p - (e1.pos - e2.pos)).norm ≤ r + S := by
        have := norm_sub_le p (e1.pos - e2.pos); linarith
      have hp' : 0 < r + S := by have := (e1.pos - e2.pos).norm_nonneg; linarith
      generalize hw : p - (e1.pos - e2.pos) = v at hv
      have c1 : 0 ≤ r / (r + S) := div_nonneg i1 hp'.le
      have c2 : 0 ≤ S / (r + S) := div_nonneg i2 hp'.le
      have k1 : ((r / (r + S)) • v).norm ≤ r := by
        rw [smul_norm c1]
        calc r / (r + S) * v.norm ≤ r / (r + S) * (r + S) := mul_le_mul_of_nonneg_left hv c1
          _ = r := by field_simp
      have k2 : (-((S / (r + S)) • v)).norm ≤ S := by
        rw [norm_neg', smul_norm c2]
        calc S / (r + S) * v.norm ≤ S / (r + S) * (r + S) := mul_le_mul_of_nonneg_left hv c2
          _ = S := by field_simp
      refine ⟨_, _, q1 _ k1, q2 _ k2, ?_⟩
      have e1' : r / (r + S) + S / (r + S) = 1 := by field_simp
      have e2' : v = (r / (r + S)) • v + (S / (r + S)) • v := split_one e1' v
      calc p = (p - (e1.pos - e2.pos)) + (e1.pos - e2.pos) := by abel
        _ = ((r / (r + S)) • v + (S / (r + S)) • v) + (e1.pos - e2.pos) := by rw [hw, ← e2']
        _ = _ := by abel

/-! ### Hulls -/

namespace XC

theorem maxSupport_mem (n : Vec3 ℝ) : ∀ (es : List Entry) (v : Vec3 ℝ), maxSupport n v es = v ∨ ∃ e ∈ es, maxSupport n v es = e.support n
  | [], v => .inl rfl
  | e :: es, v => by
    unfold maxSupport
    rcases maxSupport_mem n es (if (e.support n).dot n > v.dot n then e.support n else v) with h | ⟨e', he', h⟩
    · rw [h]
      split_ifs
      · exact .inr ⟨e, List.mem_cons_self, rfl⟩
      · exact .inl rfl
    · exact .inr ⟨e', List.mem_cons_of_mem _ he', h⟩

theorem maxSupport_ge (n : Vec3 ℝ) : ∀ (es : List Entry) (v : Vec3 ℝ), v.dot n ≤ (maxSupport n v es).dot n ∧
    ∀ e ∈ es, (e.support n).dot n ≤ (maxSupport n v es).dot n
  | [], v => ⟨le_refl _, by simp⟩
  | e :: es, v => by
    unfold maxSupport
    obtain ⟨h1, h2⟩ := maxSupport_ge n es (if (e.support n).dot n > v.dot n then e.support n else v)
    have k : v.dot n ≤ (if (e.support n).dot n > v.dot n then e.support n else v).dot n ∧
        (e.support n).dot n ≤ (if (e.support n).dot n > v.dot n then e.support n else v).dot n := by
      split_ifs with hc
      · exact ⟨le_of_lt hc, le_refl _⟩
      · exact ⟨le_refl _, not_lt.mp hc⟩
    refine ⟨k.1.trans h1, fun e' he' => ?_⟩
    rcases List.mem_cons.mp he' with rfl | he'
    · exact k.2.trans h1
    · exact h2 e' he'

/-- Every entry has its body among the placed ones, and conversely. -/
theorem placedAll_of_mem {es : List Entry} {Bs : List (Vec3 ℝ → Prop)} (h : DescribeAll es Bs) :
    (∀ e ∈ es, ∃ B ∈ Bs, Describes e.geometry B ∧ Orthogonal e.rot ∧ Placed B e.rot e.pos ∈ placedAll es Bs) ∧
    (∀ P ∈ placedAll es Bs, ∃ e ∈ es, ∃ B ∈ Bs, Describes e.geometry B ∧ Orthogonal e.rot ∧ P = Placed B e.rot e.pos) := by
  induction h with
  | nil => simp [placedAll]
  | @cons e B es Bs h hs ih =>
    constructor
    · intro e' he'
      rcases List.mem_cons.mp he' with rfl | he'
      · exact ⟨B, List.mem_cons_self, h.1, h.2, List.mem_cons_self⟩
      · obtain ⟨B', hB', k⟩ := ih.1 e' he'
        exact ⟨B', List.mem_cons_of_mem _ hB', k.1, k.2.1, List.mem_cons_of_mem _ k.2.2⟩
    · intro P hP
      rcases List.mem_cons.mp hP with rfl | hP
      · exact ⟨e, List.mem_cons_self, B, List.mem_cons_self, h.1, h.2, rfl⟩
      · obtain ⟨e', he', B', hB', k⟩ := ih.2 P hP
        exact ⟨e', List.mem_cons_of_mem _ he', B', List.mem_cons_of_mem _ hB', k⟩

theorem hull_mem {Bs : List (Vec3 ℝ → Prop)} {B : Vec3 ℝ → Prop} (h : B ∈ Bs) {p : Vec3 ℝ} (hp : B p) : HullBody Bs p :=
  fun _ _ hc => hc B h p hp

theorem hull_convex (Bs : List (Vec3 ℝ → Prop)) : ConvexBody (HullBody Bs) := by
  intro p q c hp hq h0 h1 n k hk
  have a := mul_le_mul_of_nonneg_left (hp n k hk) h0
  have b := mul_le_mul_of_nonneg_left (hq n k hk) (sub_nonneg.mpr h1)
  rw [dot_add, smul_dot, smul_dot]; linarith

theorem sum_dot_le (n : Vec3 ℝ) (c : ℝ) : ∀ (es : List Entry), (∀ e ∈ es, e.center.dot n ≤ c) → (es.map Entry.center).sum.dot n ≤ es.length * c
  | [], _ => by simp [zero_dot]
  | e :: es, h => by
    have h1 := h e List.mem_cons_self
    have h2 := sum_dot_le n c es (fun e' he' => h e' (List.mem_cons_of_mem _ he'))
    simp only [List.map_cons, List.sum_cons, dot_add, List.length_cons, Nat.cast_add, Nat.cast_one]
    linarith

theorem foldl_max_ge : ∀ (l : List ℝ) (a : ℝ), a ≤ l.foldl max a ∧ ∀ x ∈ l, x ≤ l.foldl max a
  | [], a => ⟨le_refl _, by simp⟩
  | y :: l, a => by
    obtain ⟨i1, i2⟩ := foldl_max_ge l (max a y)
    refine ⟨(le_max_left a y).trans i1, fun x hx => ?_⟩
    rcases List.mem_cons.mp hx with rfl | hx
    · exact (le_max_right a x).trans i1
    · exact i2 x hx

/-- A half-space with the body inside has the ball of the insphere radius about its position inside. -/
theorem halfspace_ball {e : Entry} {B : Vec3 ℝ → Prop} (d : Describes e.geometry B) (ho : Orthogonal e.rot) (h0 : HasOrigin B) {n : Vec3 ℝ} {c : ℝ}
    (hc : ∀ q, Placed B e.rot e.pos q → q.dot n ≤ c) : e.pos.dot n + e.geometry.insphereRadius * n.norm ≤ c := by
  by_cases hn : n = 0
  · have := hc _ ⟨0, h0, rfl⟩
    rw [Mat3.mulVec_zero, zero_add] at this
    have e1 : n.norm = 0 := by rw [hn]; simp [Vec3.norm, Vec3.norm2, Vec3.dot]
    rw [e1]; linarith
  · have hu := Xeno.normalized_norm2 hn
    have hun : (normalized n).norm = 1 := by rw [Vec3.norm, hu, Real.sqrt_one]
    have := hc _ (placed_near_pos d ho h0 (v := e.geometry.insphereRadius • normalized n) (by
      rw [smul_norm d.insphere_nonneg, hun, mul_one]))
    rw [dot_add, smul_dot, normalized_self hn] at this
    linarith

theorem neg_norm_le_dot (a n : Vec3 ℝ) : -(a.norm * n.norm) ≤ a.dot n := (abs_le.mp (Vec3.abs_dot_le a n)).1

/-- The foot of the perpendicular from the origin to the line of the two positions. -/
theorem foot_norm {a d : Vec3 ℝ} (hd : d ≠ 0) : (a + (-(a.dot (normalized d)) / d.norm) • d).norm
    = Real.sqrt (max 0 (a.norm2 - a.dot (normalized d) ^ 2)) := by
  have hp := Xeno.norm_pos_of_ne hd
  have e : (a + (-(a.dot (normalized d)) / d.norm) • d).norm2 = a.norm2 - a.dot (normalized d) ^ 2 := by
    rw [Xeno.normalized_dot]
    have hs := Vec3.norm_sq d
    generalize d.norm = L at *
    have e1 : (a + (-(a.dot d / L) / L) • d).norm2 = a.norm2 + 2 * (-(a.dot d / L) / L) * a.dot d + (-(a.dot d / L) / L) ^ 2 * d.norm2 := by
      simp only [Vec3.norm2, Vec3.dot, Vec3.add_x, Vec3.add_y, Vec3.add_z, Vec3.smul_x, Vec3.smul_y, Vec3.smul_z]; ring
    rw [e1, ← hs]; field_simp; ring
  rw [Vec3.norm, e, max_eq_right]
  rw [← e]; exact Vec3.norm2_nonneg _

/-- A point within the insphere radius of the hull of two bodies is in every half-space with the balls inside. -/
theorem hull2_inside {e e' : Entry} {n p : Vec3 ℝ} {c : ℝ} (i1 : 0 ≤ e.geometry.insphereRadius) (i2 : 0 ≤ e'.geometry.insphereRadius)
    (hb : e.pos.dot n + e.geometry.insphereRadius * n.norm ≤ c) (hb' : e'.pos.dot n + e'.geometry.insphereRadius * n.norm ≤ c)
    (htwo : (e'.pos - e.pos).norm < 1 / 10 ^ 14 * max e.geometry.insphereRadius e'.geometry.insphereRadius → e.pos = 0 ∧ e'.pos = 0)
    (hpos : 0 < insphereRadius2 e e') (hp : p.norm ≤ insphereRadius2 e e') : p.dot n ≤ c := by
  have hnn := n.norm_nonneg
  have h1 := dot_le_norm p n
  have h2 := mul_le_mul_of_nonneg_right hp hnn
  unfold insphereRadius2 at hpos h2
  simp only at hpos h2
  generalize e.geometry.insphereRadius = r at *
  generalize e'.geometry.insphereRadius = r' at *
  have hmx : 0 ≤ max r r' := i1.trans (le_max_left _ _)
  split_ifs at hpos h2 with k1 k2 k3
  · have hmn : 0 < max r r' := hpos.trans_le ((min_le_left _ _).trans (le_max_left _ _))
    obtain ⟨z1, z2⟩ := htwo (by rwa [div_lt_iff₀ hmn] at k1)
    have e0 : e.pos.dot n = 0 := by rw [z1, zero_dot]
    have := mul_le_mul_of_nonneg_right (min_le_left r r') hnn
    linarith
  · exact absurd hpos (lt_irrefl _)
  · exact absurd hpos (lt_irrefl _)
  · have hne : e'.pos - e.pos ≠ 0 := by
      intro h0
      apply k1
      rw [h0]
      have : (0 : Vec3 ℝ).norm = 0 := by simp [Vec3.norm, Vec3.norm2, Vec3.dot]
      rw [this, zero_div]; norm_num
    rw [← foot_norm hne] at hpos h2
    have hfoot := neg_norm_le_dot (e.pos + (-(e.pos.dot (normalized (e'.pos - e.pos))) / (e'.pos - e.pos).norm) • (e'.pos - e.pos)) n
    generalize (-(e.pos.dot (normalized (e'.pos - e.pos))) / (e'.pos - e.pos).norm) = T at *
    have k2 := not_lt.mp k2
    have k3 : T ≤ 1 := not_lt.mp k3
    have ef : (e.pos + T • (e'.pos - e.pos)).dot n = (1 - T) * e.pos.dot n + T * e'.pos.dot n := by
      rw [dot_add, smul_dot, dot_sub]; ring
    rw [ef] at hfoot
    generalize (e.pos + T • (e'.pos - e.pos)).norm = F at *
    have hm : max 0 ((1 - T) * r + T * r' - F) = (1 - T) * r + T * r' - F := by
      rcases max_choice 0 ((1 - T) * r + T * r' - F) with h' | h'
      · rw [h'] at hpos; exact absurd hpos (lt_irrefl _)
      · exact h'
    rw [hm] at h2
    have m1 := mul_le_mul_of_nonneg_left hb (sub_nonneg.mpr k3)
    have m2 := mul_le_mul_of_nonneg_left hb' k2
    nlinarith

end XC

/-- The convex hull of rotated and moved bodies; see `C75_hull_violated` for two bodies at the same position away from the
origin, and `C75_sum_violated` for bodies without their own origin. -/
theorem C75_hull_partial {e : Entry} {es : List Entry} {Bs : List (Vec3 ℝ → Prop)} (h : DescribeAll (e :: es) Bs) (ho : ∀ B ∈ Bs, HasOrigin B)
    (htwo : ∀ e', es = [e'] → (e'.pos - e.pos).norm < 1 / 10 ^ 14 * max e.geometry.insphereRadius e'.geometry.insphereRadius → e.pos = 0 ∧ e'.pos = 0) :
    Describes (XC.hull e es) (HullBody (placedAll (e :: es) Bs)) := by
  obtain ⟨hm1, hm2⟩ := placedAll_of_mem h
  refine ⟨⟨?_, ?_⟩, hull_convex _, ?_, ?_, ?_, ?_, ?_⟩
  · intro n hn
    show HullBody _ (maxSupport n (e.support n) es)
    have key : ∀ e' ∈ e :: es, HullBody (placedAll (e :: es) Bs) (e'.support n) := by
      intro e' he'
      obtain ⟨B, hB, d, o, hP⟩ := hm1 e' he'
      exact hull_mem hP ((placed_support d.support o e'.pos).mem n hn)
    rcases maxSupport_mem n es (e.support n) with hx | ⟨e', he', hx⟩
    · rw [hx]; exact key e List.mem_cons_self
    · rw [hx]; exact key e' (List.mem_cons_of_mem _ he')
  · intro n hn p hp
    refine hp n _ ?_
    intro P hP q hq
    obtain ⟨e', he', B, hB, d, o, rfl⟩ := hm2 P hP
    refine ((placed_support d.support o e'.pos).furthest n hn q hq).trans ?_
    show (e'.support n).dot n ≤ (maxSupport n (e.support n) es).dot n
    obtain ⟨g1, g2⟩ := maxSupport_ge n es (e.support n)
    rcases List.mem_cons.mp he' with rfl | he'
    · exact g1
    · exact g2 e' he'
  · intro n c hc
    have : ∀ e' ∈ e :: es, e'.center.dot n ≤ c := by
      intro e' he'
      obtain ⟨B, hB, d, o, hP⟩ := hm1 e' he'
      exact hc _ hP _ ⟨_, d.center, rfl⟩
    have hs := sum_dot_le n c (e :: es) this
    show ((((e :: es).length : ℝ)⁻¹ • ((e :: es).map Entry.center).sum)).dot n ≤ c
    have hl : (0 : ℝ) < ((e :: es).length : ℝ) := by exact_mod_cast Nat.succ_pos _
    rw [smul_dot]
    generalize ((e :: es).length : ℝ) = L at *
    calc L⁻¹ * _ ≤ L⁻¹ * (L * c) := mul_le_mul_of_nonneg_left hs (inv_nonneg.mpr hl.le)
      _ = c := by field_simp
  · show 0 ≤ ((e :: es).map Entry.reach).foldl max e.reach
    refine le_trans ?_ (foldl_max_ge _ _).1
    obtain ⟨B, hB, d, o, hP⟩ := hm1 e List.mem_cons_self
    exact add_nonneg (Vec3.norm_nonneg _) d.circumsphere_nonneg
  · show 0 ≤ maxInsphereRadius (e :: es)
    rcases es with _ | ⟨e', _ | ⟨e'', es⟩⟩
    · exact le_max_left _ _
    · show 0 ≤ insphereRadius2 e e'
      obtain ⟨B, hB, d, o, hP⟩ := hm1 e List.mem_cons_self
      obtain ⟨B', hB', d', o', hP'⟩ := hm1 e' (List.mem_cons_of_mem _ List.mem_cons_self)
      unfold insphereRadius2
      simp only
      split_ifs
      · exact le_min d.insphere_nonneg d'.insphere_nonneg
      · exact le_refl _
      · exact le_refl _
      · exact le_max_left _ _
    · exact le_refl _
  · intro p hp
    show p.norm2 ≤ (((e :: es).map Entry.reach).foldl max e.reach) ^ 2
    refine norm2_le_of ?_
    have hmax := (foldl_max_ge ((e :: es).map Entry.reach) e.reach).2
    generalize ((e :: es).map Entry.reach).foldl max e.reach = R at *
    have hpp : p.dot p ≤ R * p.norm := by
      refine hp p _ ?_
      intro P hP q hq
      obtain ⟨e', he', B, hB, d, o, rfl⟩ := hm2 P hP
      have h1 := placed_reach d o hq
      have h2 : e'.reach ≤ R := hmax _ (List.mem_map_of_mem he')
      have h3 : q.norm ≤ e'.reach := by
        have e1 : q = e'.pos + (q - e'.pos) := by abel
        calc q.norm = (e'.pos + (q - e'.pos)).norm := by rw [← e1]
          _ ≤ _ := Domain.norm_add_le' _ _
          _ ≤ e'.pos.norm + e'.geometry.circumsphereRadius := add_le_add (le_refl _) h1
      exact (dot_le_norm q p).trans (mul_le_mul_of_nonneg_right (h3.trans h2) p.norm_nonneg)
    by_cases h0 : p = 0
    · have : p.norm = 0 := by rw [h0]; simp [Vec3.norm, Vec3.norm2, Vec3.dot]
      rw [this]
      obtain ⟨B, hB, d, o, hP⟩ := hm1 e List.mem_cons_self
      exact (add_nonneg (Vec3.norm_nonneg _) d.circumsphere_nonneg).trans (hmax _ (List.mem_map_of_mem List.mem_cons_self))
    · have hpos := Xeno.norm_pos_of_ne h0
      have : p.dot p = p.norm ^ 2 := (Vec3.norm_sq p).symm
      rw [this, sq] at hpp
      exact le_of_mul_le_mul_right hpp hpos
  · intro hpos p hp
    have hpos : 0 < maxInsphereRadius (e :: es) := hpos
    have hp : p.norm ≤ maxInsphereRadius (e :: es) := norm_le_of hpos.le hp
    rcases es with _ | ⟨e', _ | ⟨e'', es⟩⟩
    · intro n c hc
      obtain ⟨B, hB, d, o, hP⟩ := hm1 e List.mem_cons_self
      have hb := halfspace_ball d o (ho B hB) (hc _ hP)
      have hm : maxInsphereRadius [e] = e.geometry.insphereRadius - e.pos.norm := by
        rcases max_choice 0 (e.geometry.insphereRadius - e.pos.norm) with h' | h'
        · exact absurd hpos (by show ¬ 0 < max 0 _; rw [h']; exact lt_irrefl _)
        · exact h'
      rw [hm] at hp
      have h1 := dot_le_norm p n
      have h2 := mul_le_mul_of_nonneg_right hp n.norm_nonneg
      have h3 := neg_norm_le_dot e.pos n
      linarith
    · intro n c hc
      obtain ⟨B, hB, d, o, hP⟩ := hm1 e List.mem_cons_self
      obtain ⟨B', hB', d', o', hP'⟩ := hm1 e' (List.mem_cons_of_mem _ List.mem_cons_self)
      have hb := halfspace_ball d o (ho B hB) (hc _ hP)
      have hb' := halfspace_ball d' o' (ho B' hB') (hc _ hP')
      have i1 := d.insphere_nonneg
      have i2 := d'.insphere_nonneg
      have htwo := htwo e' rfl
      exact hull2_inside i1 i2 hb hb' htwo hpos hp
    · exact absurd hpos (lt_irrefl _)

end Rampack
