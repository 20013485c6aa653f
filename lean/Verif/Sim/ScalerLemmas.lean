import Verif.Sim.ScalerSpec
import Verif.Sim.SamplerLemmas
import Verif.OutcomeLemmas
import Verif.Box.Lemmas
import Mathlib.Tactic.LinearCombination
/-
Lemmas on box scalers and scaling directions.
-/
namespace Rampack

open Rampack.Spec

/-! ### Boxes -/

theorem scaleSides_ok {b : Box} (hb : b.WF) {f : Vec3 ℝ} (hf : f.x * f.y * f.z ≠ 0) : ∃ b', Scaler.scaleSides b f = .ok b' ∧ b'.WF ∧
    b'.sides.x = f.x • b.sides.x ∧ b'.sides.y = f.y • b.sides.y ∧ b'.sides.z = f.z • b.sides.z ∧
    b'.volume = |f.x * f.y * f.z| * b.volume := by
  have hdet : (⟨⟨(f.x • b.sides.x).x, (f.y • b.sides.y).x, (f.z • b.sides.z).x⟩, ⟨(f.x • b.sides.x).y, (f.y • b.sides.y).y, (f.z • b.sides.z).y⟩,
      ⟨(f.x • b.sides.x).z, (f.y • b.sides.y).z, (f.z • b.sides.z).z⟩⟩ : Mat3).det = f.x * f.y * f.z * b.dims.det := by
    rw [Box.sides_x, Box.sides_y, Box.sides_z]
    simp only [Mat3.det, Mat3.c0, Mat3.c1, Mat3.c2, Vec3.smul_x, Vec3.smul_y, Vec3.smul_z]
    ring
  have hne : (⟨⟨(f.x • b.sides.x).x, (f.y • b.sides.y).x, (f.z • b.sides.z).x⟩, ⟨(f.x • b.sides.x).y, (f.y • b.sides.y).y, (f.z • b.sides.z).y⟩,
      ⟨(f.x • b.sides.x).z, (f.y • b.sides.y).z, (f.z • b.sides.z).z⟩⟩ : Mat3).det ≠ 0 := by
    rw [hdet]
    exact mul_ne_zero hf hb.det_ne
  obtain ⟨b', e⟩ : ∃ b', Scaler.scaleSides b f = .ok b' := by
    simp only [Scaler.scaleSides, Box.ofSides, Box.make]
    rw [if_neg hne]
    exact ⟨_, rfl⟩
  obtain ⟨hwf, hd⟩ := Box.make_wf e
  refine ⟨_, e, hwf, ?_, ?_, ?_, ?_⟩
  · rw [Box.sides_x, hd]; rfl
  · rw [Box.sides_y, hd]; rfl
  · rw [Box.sides_z, hd]; rfl
  · rw [Box.volume_eq, hd, hdet, abs_mul, Box.volume_eq]

theorem scaleSides_make {b : Box} {f : Vec3 ℝ} {b' : Box} (h : Scaler.scaleSides b f = .ok b') : ∃ M, Box.make M = .ok b' := ⟨_, h⟩

/-! ### Factors -/

theorem sample_ok {fs : FactorSampler} {should : Vec3 Bool} {h f : Vec3 ℝ} {step : ℝ} {t t' : Tape}
    (e : fs.sample should h step t = .ok (f, t')) :
    t' = t.drop 1 ∧ PositiveFactors f ∧ f.x = (if should.x then scaleFactor fs h.x (uniformReal (-step) step (t 0)) else 1) ∧
      f.y = (if should.y then scaleFactor fs h.y (uniformReal (-step) step (t 0)) else 1) ∧
      f.z = (if should.z then scaleFactor fs h.z (uniformReal (-step) step (t 0)) else 1) := by
  cases fs with
  | log =>
    simp only [FactorSampler.sample] at e
    cases e
    refine ⟨rfl, ⟨?_, ?_, ?_⟩, rfl, rfl, rfl⟩ <;> simp only <;> split_ifs <;> first | exact Real.exp_pos _ | norm_num
  | linear =>
    simp only [FactorSampler.sample] at e
    obtain ⟨x, ex, e⟩ := Outcome.bind_eq_ok.mp e
    obtain ⟨y, ey, e⟩ := Outcome.bind_eq_ok.mp e
    obtain ⟨z, ez, e⟩ := Outcome.bind_eq_ok.mp e
    cases e
    have key : ∀ {b : Bool} {l s v : ℝ}, linearFactor b l s = .ok v → 0 < v ∧ v = (if b then scaleFactor FactorSampler.linear l s else 1) := by
      intro b l s v hv
      unfold linearFactor at hv
      split_ifs at hv with hb
      · obtain ⟨u, h1, hv⟩ := Outcome.bind_eq_ok.mp hv
        rw [Outcome.require_eq_ok] at h1
        cases hv
        refine ⟨by simpa using h1, ?_⟩
        rw [if_pos hb]
        rfl
      · cases hv
        exact ⟨by norm_num, by simp [hb]⟩
    exact ⟨rfl, ⟨(key ex).1, (key ey).1, (key ez).1⟩, (key ex).2, (key ey).2, (key ez).2⟩

theorem sampleAll_ok {fs : FactorSampler} {h : Vec3 ℝ} {step : ℝ} : ∀ {dirs : Directions} {g f : Vec3 ℝ} {t t' : Tape}, PositiveFactors g →
    sampleAllFactors fs h step dirs g t = .ok (f, t') → PositiveFactors f ∧ t' = t.drop dirs.length ∧
      f.x = g.x * productFactor fs (·.x) h.x step dirs t ∧ f.y = g.y * productFactor fs (·.y) h.y step dirs t ∧
      f.z = g.z * productFactor fs (·.z) h.z step dirs t
  | [], g, f, t, t', hg, e => by
    simp only [sampleAllFactors] at e
    cases e
    refine ⟨hg, ?_, by simp [productFactor], by simp [productFactor], by simp [productFactor]⟩
    funext k
    simp [Tape.drop]
  | d :: dirs, g, f, t, t', hg, e => by
    simp only [sampleAllFactors] at e
    obtain ⟨⟨g', t1⟩, e1, e⟩ := Outcome.bind_eq_ok.mp e
    simp only at e
    obtain ⟨rfl, hp, hx, hy, hz⟩ := sample_ok e1
    obtain ⟨h1, h2, h3, h4, h5⟩ := sampleAll_ok (g := ⟨g.x * g'.x, g.y * g'.y, g.z * g'.z⟩)
      ⟨mul_pos hg.1 hp.1, mul_pos hg.2.1 hp.2.1, mul_pos hg.2.2 hp.2.2⟩ e
    refine ⟨h1, ?_, ?_, ?_, ?_⟩
    · rw [h2, Tape.drop_drop, List.length_cons, Nat.add_comm]
    · rw [h3, hx]; simp only [productFactor]; ring
    · rw [h4, hy]; simp only [productFactor]; ring
    · rw [h5, hz]; simp only [productFactor]; ring

theorem sampleAll_log {h : Vec3 ℝ} {step : ℝ} : ∀ (dirs : Directions) (g : Vec3 ℝ) (t : Tape),
    ∃ f t', sampleAllFactors .log h step dirs g t = .ok (f, t')
  | [], g, t => ⟨g, t, rfl⟩
  | d :: dirs, g, t => by
    simp only [sampleAllFactors, FactorSampler.sample, Outcome.ok_bind]
    exact sampleAll_log dirs _ _

theorem drop_apply (t : Tape) (n k : Nat) : t.drop n k = t (n + k) := rfl

/-- The logarithmic scaler always finds a new box. -/
theorem log_total {dirs : Directions} (hd : dirs ≠ []) (ind : Bool) (heights : Vec3 ℝ) (step : ℝ) {t : Tape} (ht : t.Ok) :
    ∃ f t', (VolumeScaler.anisotropic .log dirs ind).sample heights step t = .ok (f, t') := by
  simp only [VolumeScaler.sample]
  split_ifs with hi
  · have hlen : 0 < dirs.length := List.length_pos_iff.mpr hd
    have hk : ⌊t 0 * dirs.length⌋₊ < dirs.length := by
      obtain ⟨h0, h1⟩ := ht 0
      have hpos : (0 : ℝ) < dirs.length := by exact_mod_cast hlen
      rw [Nat.floor_lt (by positivity)]
      nlinarith
    have e1 : uniformInt dirs.length t = .ok (⌊t 0 * dirs.length⌋₊, t.drop 1) := by
      unfold uniformInt
      rw [if_neg (by omega)]
    rw [e1, Outcome.ok_bind]
    simp only
    rw [vget_ok hk, Outcome.ok_bind]
    exact ⟨_, _, rfl⟩
  · exact sampleAll_log _ _ _

theorem anisotropic_ok {fs : FactorSampler} {dirs : Directions} {ind : Bool} {h f : Vec3 ℝ} {step : ℝ} {t t' : Tape}
    (e : (VolumeScaler.anisotropic fs dirs ind).sample h step t = .ok (f, t')) :
    (ind = true ∧ 1 < dirs.length ∧ ∃ d, dirs[⌊t 0 * dirs.length⌋₊]? = some d ∧
      fs.sample d h step (t.drop 1) = .ok (f, t')) ∨
    ((ind = false ∨ dirs.length ≤ 1) ∧ sampleAllFactors fs h step dirs ⟨1, 1, 1⟩ t = .ok (f, t')) := by
  simp only [VolumeScaler.sample] at e
  split_ifs at e with hi
  · left
    simp only [Bool.and_eq_true, decide_eq_true_eq] at hi
    obtain ⟨⟨k, t1⟩, e1, e⟩ := Outcome.bind_eq_ok.mp e
    simp only at e
    obtain ⟨d, e2, e3⟩ := Outcome.bind_eq_ok.mp e
    obtain ⟨-, rfl, rfl⟩ := Sampler.uniformInt_ok e1
    exact ⟨hi.1, hi.2, d, vget_eq_ok.mp e2, e3⟩
  · right
    simp only [Bool.and_eq_true, decide_eq_true_eq, not_and_or, Bool.not_eq_true, not_lt] at hi
    exact ⟨hi, e⟩

theorem cbrt_cube (x : ℝ) : cbrt x * cbrt x * cbrt x = x := by
  have key : ∀ y : ℝ, 0 ≤ y → y ^ (1 / 3 : ℝ) * y ^ (1 / 3 : ℝ) * y ^ (1 / 3 : ℝ) = y := by
    intro y hy
    have : (y ^ (1 / 3 : ℝ)) ^ 3 = y := by
      rw [← Real.rpow_natCast, ← Real.rpow_mul hy]; norm_num
    calc _ = (y ^ (1 / 3 : ℝ)) ^ 3 := by ring
      _ = y := this
  unfold cbrt
  split_ifs with h
  · exact key x h
  · have := key (-x) (by linarith)
    linear_combination -this

theorem cbrt_pos {x : ℝ} (h : 0 < x) : 0 < cbrt x := by
  unfold cbrt
  rw [if_pos h.le]
  exact Real.rpow_pos_of_pos h _

/-! ### Scaling directions -/

namespace Direction

theorem split_some {closing : Char} : ∀ {l a b : List Char}, splitAtChar closing l = some (a, b) → l = a ++ closing :: b ∧ closing ∉ a
  | [], a, b, h => by simp [splitAtChar] at h
  | c :: l, a, b, h => by
    unfold splitAtChar at h
    split_ifs at h with hc
    · cases h; simp [hc]
    · cases h' : splitAtChar closing l with
      | none => rw [h'] at h; cases h
      | some p =>
        rw [h'] at h
        cases h
        obtain ⟨h1, h2⟩ := split_some h'
        refine ⟨by rw [List.cons_append, ← h1], ?_⟩
        simp only [List.mem_cons, not_or]
        exact ⟨fun h => hc h.symm, h2⟩

theorem split_append {closing : Char} : ∀ {a : List Char} (b : List Char), closing ∉ a → splitAtChar closing (a ++ closing :: b) = some (a, b)
  | [], b, _ => by simp [splitAtChar]
  | c :: a, b, h => by
    simp only [List.mem_cons, not_or] at h
    simp only [List.cons_append, splitAtChar]
    rw [if_neg (fun e => h.1 e.symm), split_append b h.2]
    rfl

/-- A letter of an axis. -/
def Letter (c : Char) : Prop := c = 'x' ∨ c = 'y' ∨ c = 'z'

theorem between {c : Char} (h : ¬ (c < 'x' ∨ c > 'z')) : Letter c := by
  simp only [not_or, Char.not_lt] at h
  obtain ⟨h1, h2⟩ := h
  have h1' : 120 ≤ c.toNat := h1
  have h2' : c.toNat ≤ 122 := by
    have h2 : c ≤ 'z' := by simpa using h2
    exact h2
  have e : ∀ d : Char, c.toNat = d.toNat → c = d := fun d h => Char.ext (UInt32.toNat_inj.mp h)
  have h3 : c.toNat = 120 ∨ c.toNat = 121 ∨ c.toNat = 122 := by omega
  rcases h3 with h | h | h
  · exact .inl (e 'x' h)
  · exact .inr (.inl (e 'y' h))
  · exact .inr (.inr (e 'z' h))

/-- The used directions are those of the letters. -/
def Uses (used : Vec3 Bool) (l : List Char) : Prop := used = ⟨l.contains 'x', l.contains 'y', l.contains 'z'⟩

theorem register_iff {c : Char} {used used' : Vec3 Bool} {l : List Char} (hu : Uses used l) :
    register c used = .ok used' ↔ Letter c ∧ c ∉ l ∧ Uses used' (l ++ [c]) := by
  unfold register
  by_cases hc : c < 'x' ∨ c > 'z'
  · rw [if_pos hc]
    constructor
    · intro h; cases h
    · rintro ⟨h | h | h, -⟩ <;> subst h <;> exact absurd hc (by decide)
  · rw [if_neg hc]
    unfold Uses at hu ⊢
    rcases between hc with rfl | rfl | rfl
    · by_cases h : 'x' ∈ l <;> simp [isUsed, setUsed, hu, h, Letter, eq_comm]
    · by_cases h : 'y' ∈ l <;> simp [isUsed, setUsed, hu, h, Letter, eq_comm]
    · by_cases h : 'z' ∈ l <;> simp [isUsed, setUsed, hu, h, Letter, eq_comm]

theorem Letter.directions {c : Char} (h : Letter c) : charDirections c = .ok [⟨c == 'x', c == 'y', c == 'z'⟩] := by
  rcases h with rfl | rfl | rfl <;> decide

theorem frozen_iff : ∀ {cs l : List Char} {used used' : Vec3 Bool}, Uses used l →
    (frozen cs used = .ok used' ↔ (∀ c ∈ cs, Letter c) ∧ cs.Nodup ∧ (∀ c ∈ cs, c ∉ l) ∧ Uses used' (l ++ cs))
  | [], l, used, used', hu => by
    simp only [frozen, Outcome.ok_inj]
    unfold Uses at hu ⊢
    simp only [List.not_mem_nil, false_implies, implies_true, List.nodup_nil, List.append_nil, true_and]
    rw [hu, eq_comm]
  | c :: cs, l, used, used', hu => by
    simp only [frozen]
    rw [Outcome.bind_eq_ok]
    constructor
    · rintro ⟨u1, e1, e2⟩
      obtain ⟨h1, h2, h3⟩ := (register_iff hu).mp e1
      obtain ⟨g1, g2, g3, g4⟩ := (frozen_iff h3).mp e2
      refine ⟨?_, ?_, ?_, by simpa using g4⟩
      · intro d hd; rcases List.mem_cons.mp hd with rfl | hd <;> [exact h1; exact g1 d hd]
      · rw [List.nodup_cons]
        refine ⟨fun hm => ?_, g2⟩
        exact g3 c hm (by simp)
      · intro d hd
        rcases List.mem_cons.mp hd with rfl | hd
        · exact h2
        · exact fun hm => g3 d hd (by simp [hm])
    · rintro ⟨g1, g2, g3, g4⟩
      rw [List.nodup_cons] at g2
      have hU : Uses ⟨(l ++ [c]).contains 'x', (l ++ [c]).contains 'y', (l ++ [c]).contains 'z'⟩ (l ++ [c]) := rfl
      refine ⟨_, (register_iff hu).mpr ⟨g1 c (by simp), g3 c (by simp), hU⟩, ?_⟩
      refine (frozen_iff hU).mpr ⟨fun d hd => g1 d (by simp [hd]), g2.2, ?_, by simpa using g4⟩
      intro d hd hm
      simp only [List.mem_append, List.mem_singleton] at hm
      rcases hm with hm | rfl
      · exact g3 d (by simp [hd]) hm
      · exact g2.1 hd

/-- What has been collected in round brackets. -/
def grouped (cs : List Char) : Directions := (Piece.together cs).directions

theorem grouped_and (cs : List Char) (c : Char) (hc : Letter c) :
    (grouped cs).and [⟨c == 'x', c == 'y', c == 'z'⟩] = .ok (grouped (cs ++ [c])) := by
  cases cs with
  | nil => rcases hc with rfl | rfl | rfl <;> simp [grouped, Piece.directions, Directions.and]
  | cons d cs =>
    simp only [grouped, Piece.directions, Directions.and, List.cons_append]
    rcases hc with rfl | rfl | rfl <;> simp [vget, Outcome.require]

theorem group_iff : ∀ {cs l pre : List Char} {used used' : Vec3 Bool} {d' : Directions}, Uses used l →
    (group cs (grouped pre) used = .ok (d', used') ↔ (∀ c ∈ cs, Letter c) ∧ cs.Nodup ∧ (∀ c ∈ cs, c ∉ l) ∧ Uses used' (l ++ cs) ∧
      d' = grouped (pre ++ cs))
  | [], l, pre, used, used', d', hu => by
    simp only [group, Outcome.ok_inj, Prod.mk.injEq]
    unfold Uses at hu ⊢
    simp only [List.not_mem_nil, false_implies, implies_true, List.nodup_nil, List.append_nil, true_and]
    rw [hu, eq_comm, and_comm, eq_comm (a := used')]
  | c :: cs, l, pre, used, used', d', hu => by
    simp only [group]
    rw [Outcome.bind_eq_ok]
    constructor
    · rintro ⟨u1, e1, e2⟩
      obtain ⟨h1, h2, h3⟩ := (register_iff hu).mp e1
      rw [h1.directions, Outcome.ok_bind, grouped_and pre c h1, Outcome.ok_bind] at e2
      obtain ⟨g1, g2, g3, g4, g5⟩ := (group_iff h3).mp e2
      refine ⟨?_, ?_, ?_, by simpa using g4, by simpa using g5⟩
      · intro d hd; rcases List.mem_cons.mp hd with rfl | hd <;> [exact h1; exact g1 d hd]
      · rw [List.nodup_cons]
        refine ⟨fun hm => ?_, g2⟩
        exact g3 c hm (by simp)
      · intro d hd
        rcases List.mem_cons.mp hd with rfl | hd
        · exact h2
        · exact fun hm => g3 d hd (by simp [hm])
    · rintro ⟨g1, g2, g3, g4, g5⟩
      rw [List.nodup_cons] at g2
      have hU : Uses ⟨(l ++ [c]).contains 'x', (l ++ [c]).contains 'y', (l ++ [c]).contains 'z'⟩ (l ++ [c]) := rfl
      refine ⟨_, (register_iff hu).mpr ⟨g1 c (by simp), g3 c (by simp), hU⟩, ?_⟩
      have h1 := g1 c (by simp)
      rw [h1.directions, Outcome.ok_bind, grouped_and pre c h1, Outcome.ok_bind]
      refine (group_iff hU).mpr ⟨fun d hd => g1 d (by simp [hd]), g2.2, ?_, by simpa using g4, by simpa using g5⟩
      intro d hd hm
      simp only [List.mem_append, List.mem_singleton] at hm
      rcases hm with hm | rfl
      · exact g3 d (by simp [hd]) hm
      · exact g2.1 hd

/-- All sets of axes are made of the letters and none is empty. -/
def Within (d : Directions) (l : List Char) : Prop := ∀ e ∈ d, (e.x = true ∨ e.y = true ∨ e.z = true) ∧
  (e.x = true → 'x' ∈ l) ∧ (e.y = true → 'y' ∈ l) ∧ (e.z = true → 'z' ∈ l)

theorem or_append {d e : Directions} {l m : List Char} (hd : Within d l) (he : Within e m) (hlm : ∀ c ∈ m, c ∉ l) (hlen : e.length ≤ 1) :
    d.or e = d ++ e := by
  match e, hlen with
  | [], _ => simp [Directions.or]
  | [a], _ =>
    have : a ∉ d := by
      intro ha
      obtain ⟨-, h1, h2, h3⟩ := hd a ha
      obtain ⟨g0, g1, g2, g3⟩ := he a (by simp)
      rcases g0 with g | g | g
      · exact hlm _ (g1 g) (h1 g)
      · exact hlm _ (g2 g) (h2 g)
      · exact hlm _ (g3 g) (h3 g)
    simp [Directions.or, this]

theorem piece_within (p : Piece) (h : ∀ c ∈ p.letters, Letter c) : Within p.directions p.letters ∧ p.directions.length ≤ 1 := by
  cases p with
  | alone c =>
    have hc := h c (by simp [Piece.letters])
    refine ⟨?_, by simp [Piece.directions]⟩
    intro e he
    simp only [Piece.directions, List.mem_singleton] at he
    subst he
    rcases hc with rfl | rfl | rfl <;> simp [Piece.letters]
  | kept cs => exact ⟨by simp [Within, Piece.directions], by simp [Piece.directions]⟩
  | together cs =>
    cases cs with
    | nil => exact ⟨by simp [Within, Piece.directions], by simp [Piece.directions]⟩
    | cons c cs =>
      refine ⟨?_, by simp [Piece.directions]⟩
      intro e he
      simp only [Piece.directions, List.mem_singleton] at he
      subst he
      have hc := h c (by simp [Piece.letters])
      refine ⟨?_, ?_, ?_, ?_⟩
      · rcases hc with rfl | rfl | rfl <;> simp
      all_goals simp [Piece.letters]

theorem Within.append {d e : Directions} {l m : List Char} (hd : Within d l) (he : Within e m) : Within (d ++ e) (l ++ m) := by
  intro a ha
  rcases List.mem_append.mp ha with ha | ha
  · obtain ⟨h0, h1, h2, h3⟩ := hd a ha
    exact ⟨h0, fun h => by simp [h1 h], fun h => by simp [h2 h], fun h => by simp [h3 h]⟩
  · obtain ⟨h0, h1, h2, h3⟩ := he a ha
    exact ⟨h0, fun h => by simp [h1 h], fun h => by simp [h2 h], fun h => by simp [h3 h]⟩

/-- One piece read. -/
theorem loop_piece (p : Piece) (rest : List Char) {d : Directions} {used : Vec3 Bool} {l : List Char} (hu : Uses used l) (hd : Within d l)
    (h1 : ∀ c ∈ p.letters, Letter c) (h2 : p.letters.Nodup) (h3 : ∀ c ∈ p.letters, c ∉ l) : ∃ used', Uses used' (l ++ p.letters) ∧
      parseLoop (p.text ++ rest) d used = parseLoop rest (d ++ p.directions) used' := by
  obtain ⟨hw, hlen⟩ := piece_within p h1
  have hor := or_append hd hw h3 hlen
  cases p with
  | alone c =>
    have hc := h1 c (by simp [Piece.letters])
    have hU : Uses ⟨(l ++ [c]).contains 'x', (l ++ [c]).contains 'y', (l ++ [c]).contains 'z'⟩ (l ++ [c]) := rfl
    refine ⟨_, hU, ?_⟩
    have e1 := (register_iff hu).mpr ⟨hc, h3 c (by simp [Piece.letters]), hU⟩
    simp only [Piece.text, List.cons_append, List.nil_append]
    unfold Letter at hc
    rw [parseLoop, if_pos hc, e1, Outcome.ok_bind, Letter.directions hc, Outcome.ok_bind]
    rw [← hor]
    rfl
  | together cs =>
    have hU : Uses ⟨(l ++ cs).contains 'x', (l ++ cs).contains 'y', (l ++ cs).contains 'z'⟩ (l ++ cs) := rfl
    refine ⟨_, hU, ?_⟩
    have e1 := (group_iff (cs := cs) (pre := []) hu).mpr ⟨h1, h2, h3, hU, rfl⟩
    have hcl : ')' ∉ cs := fun hm => by have := h1 _ hm; revert this; unfold Letter; decide
    have hs := split_append rest hcl
    simp only [Piece.text, List.cons_append, List.append_assoc, List.nil_append]
    rw [parseLoop, if_neg (by decide), if_pos rfl]
    split
    · rename_i h; rw [hs] at h; cases h
    · rename_i a b h
      rw [hs] at h
      cases h
      rw [show ([] : Directions) = grouped [] from rfl, e1, Outcome.ok_bind]
      rw [← hor]
      rfl
  | kept cs =>
    have hU : Uses ⟨(l ++ cs).contains 'x', (l ++ cs).contains 'y', (l ++ cs).contains 'z'⟩ (l ++ cs) := rfl
    refine ⟨_, hU, ?_⟩
    have e1 := (frozen_iff (cs := cs) hu).mpr ⟨h1, h2, h3, hU⟩
    have hcl : ']' ∉ cs := fun hm => by have := h1 _ hm; revert this; unfold Letter; decide
    have hs := split_append rest hcl
    simp only [Piece.text, List.cons_append, List.append_assoc, List.nil_append]
    rw [parseLoop, if_neg (by decide), if_neg (by decide), if_pos rfl]
    split
    · rename_i h; rw [hs] at h; cases h
    · rename_i a b h
      rw [hs] at h
      cases h
      rw [e1, Outcome.ok_bind]
      simp [Piece.directions]

theorem loop_complete : ∀ (ps : List Piece) {d : Directions} {used : Vec3 Bool} {l : List Char}, Uses used l → Within d l →
    (∀ c ∈ ps.flatMap Piece.letters, Letter c) → (ps.flatMap Piece.letters).Nodup → (∀ c ∈ ps.flatMap Piece.letters, c ∉ l) →
    ∃ used', Uses used' (l ++ ps.flatMap Piece.letters) ∧
      parseLoop (ps.flatMap Piece.text) d used = .ok (d ++ ps.flatMap Piece.directions, used')
  | [], d, used, l, hu, hd, _, _, _ => ⟨used, by simpa using hu, by simp [parseLoop]⟩
  | p :: ps, d, used, l, hu, hd, h1, h2, h3 => by
    simp only [List.flatMap_cons] at h1 h2 h3 ⊢
    obtain ⟨n1, n2, n3⟩ := List.nodup_append.mp h2
    obtain ⟨u1, hu1, e1⟩ := loop_piece p (ps.flatMap Piece.text) hu hd (fun c hc => h1 c (by simp only [List.mem_append]; exact .inl hc)) n1
      (fun c hc => h3 c (by simp only [List.mem_append]; exact .inl hc))
    obtain ⟨u2, hu2, e2⟩ := loop_complete ps hu1
      (hd.append (piece_within p (fun c hc => h1 c (by simp only [List.mem_append]; exact .inl hc))).1)
      (fun c hc => h1 c (by simp only [List.mem_append]; exact .inr hc)) n2 (by
        intro c hc hm
        rcases List.mem_append.mp hm with hm | hm
        · exact h3 c (by simp only [List.mem_append]; exact .inr hc) hm
        · exact n3 c hm c hc rfl)
    exact ⟨u2, by simpa using hu2, by rw [e1, e2, List.append_assoc]⟩

/-- Whatever is read, is made of pieces. -/
theorem loop_pieces : ∀ (n : Nat) {s : List Char} {d d' : Directions} {used used' : Vec3 Bool} {l : List Char}, s.length ≤ n → Uses used l →
    parseLoop s d used = .ok (d', used') → ∃ ps : List Piece, s = ps.flatMap Piece.text ∧ (∀ c ∈ ps.flatMap Piece.letters, Letter c) ∧
      (ps.flatMap Piece.letters).Nodup ∧ (∀ c ∈ ps.flatMap Piece.letters, c ∉ l)
  | _, [], d, d', used, used', l, _, _, _ => ⟨[], by simp⟩
  | 0, c :: s, d, d', used, used', l, hn, _, _ => by simp at hn
  | n + 1, c :: s, d, d', used, used', l, hn, hu, e => by
    have key : ∀ (p : Piece) (rest : List Char) {d1 : Directions} {u1 : Vec3 Bool}, c :: s = p.text ++ rest → rest.length ≤ n →
        (∀ c ∈ p.letters, Letter c) → p.letters.Nodup → (∀ c ∈ p.letters, c ∉ l) → Uses u1 (l ++ p.letters) →
        parseLoop rest d1 u1 = .ok (d', used') →
        ∃ ps : List Piece, c :: s = ps.flatMap Piece.text ∧ (∀ c ∈ ps.flatMap Piece.letters, Letter c) ∧
          (ps.flatMap Piece.letters).Nodup ∧ (∀ c ∈ ps.flatMap Piece.letters, c ∉ l) := by
      intro p rest d1 u1 hs hl k1 k2 k3 hu1 e1
      obtain ⟨ps, g1, g2, g3, g4⟩ := loop_pieces n hl hu1 e1
      refine ⟨p :: ps, by rw [hs, g1]; rfl, ?_, ?_, ?_⟩
      · simp only [List.flatMap_cons, List.mem_append]
        rintro c (hc | hc) <;> [exact k1 c hc; exact g2 c hc]
      · simp only [List.flatMap_cons]
        rw [List.nodup_append]
        refine ⟨k2, g3, ?_⟩
        rintro a ha b hb rfl
        exact g4 a hb (by simp [ha])
      · simp only [List.flatMap_cons, List.mem_append]
        rintro c (hc | hc) <;> [exact k3 c hc; exact fun hm => g4 c hc (by simp [hm])]
    simp only [List.length_cons] at hn
    rw [parseLoop] at e
    split_ifs at e with c1 c2 c3
    · obtain ⟨u1, e1, e⟩ := Outcome.bind_eq_ok.mp e
      obtain ⟨dd, e2, e⟩ := Outcome.bind_eq_ok.mp e
      obtain ⟨k1, k2, k3⟩ := (register_iff hu).mp e1
      exact key (.alone c) s rfl (by omega) (by simpa [Piece.letters] using k1) (by simp [Piece.letters]) (by simpa [Piece.letters] using k2)
        k3 e
    · split at e
      · cases e
      · rename_i a b hs
        obtain ⟨⟨g, u1⟩, e1, e⟩ := Outcome.bind_eq_ok.mp e
        simp only at e
        obtain ⟨k1, k2, k3, k4, k5⟩ := (group_iff (pre := []) hu).mp e1
        obtain ⟨hs1, -⟩ := split_some hs
        have := splitAtChar_length hs
        exact key (.together a) b (by rw [hs1, c2]; simp [Piece.text]) (by omega) k1 k2 k3 k4 e
    · split at e
      · cases e
      · rename_i a b hs
        obtain ⟨u1, e1, e⟩ := Outcome.bind_eq_ok.mp e
        obtain ⟨k1, k2, k3, k4⟩ := (frozen_iff hu).mp e1
        obtain ⟨hs1, -⟩ := split_some hs
        have := splitAtChar_length hs
        exact key (.kept a) b (by rw [hs1, c3]; simp [Piece.text]) (by omega) k1 k2 k3 k4 e

theorem perm_xyz {l : List Char} : l.Perm ['x', 'y', 'z'] ↔ (∀ c ∈ l, Letter c) ∧ l.Nodup ∧ 'x' ∈ l ∧ 'y' ∈ l ∧ 'z' ∈ l := by
  constructor
  · intro h
    refine ⟨fun c hc => ?_, h.nodup_iff.mpr (by decide), h.mem_iff.mpr (by simp), h.mem_iff.mpr (by simp), h.mem_iff.mpr (by simp)⟩
    have := h.mem_iff.mp hc
    simpa [Letter] using this
  · rintro ⟨h1, h2, hx, hy, hz⟩
    rw [List.perm_ext_iff_of_nodup h2 (by decide)]
    intro c
    simp only [List.mem_cons, List.not_mem_nil, or_false]
    constructor
    · exact h1 c
    · rintro (rfl | rfl | rfl) <;> assumption

theorem parse_iff {s : List Char} {d : Directions} : parse s = .ok d ↔ ∃ ps : List Piece, s = ps.flatMap Piece.text ∧
    (ps.flatMap Piece.letters).Perm ['x', 'y', 'z'] ∧ d = ps.flatMap Piece.directions := by
  have hu0 : Uses ⟨false, false, false⟩ [] := by simp [Uses]
  have hw0 : Within [] [] := by simp [Within]
  unfold parse
  constructor
  · intro e
    obtain ⟨⟨d1, u1⟩, e1, e⟩ := Outcome.bind_eq_ok.mp e
    simp only at e
    obtain ⟨u, e2, e⟩ := Outcome.bind_eq_ok.mp e
    cases e
    rw [Outcome.require_eq_ok] at e2
    obtain ⟨ps, g1, g2, g3, g4⟩ := loop_pieces s.length le_rfl hu0 e1
    obtain ⟨u2, hu2, e3⟩ := loop_complete ps hu0 hw0 g2 g3 g4
    rw [← g1, e1] at e3
    cases e3
    refine ⟨ps, g1, perm_xyz.mpr ⟨g2, g3, ?_⟩, by simp⟩
    unfold Uses at hu2
    rw [hu2] at e2
    simp only [List.nil_append, Bool.and_eq_true, List.contains_iff_mem] at e2
    exact ⟨e2.1.1, e2.1.2, e2.2⟩
  · rintro ⟨ps, rfl, hp, rfl⟩
    obtain ⟨g2, g3, gx, gy, gz⟩ := perm_xyz.mp hp
    obtain ⟨u2, hu2, e3⟩ := loop_complete ps hu0 hw0 g2 g3 (by simp)
    rw [e3, Outcome.ok_bind]
    simp only
    unfold Uses at hu2
    rw [hu2, Outcome.require_eq_ok (u := ()) |>.mpr (by simp only [List.nil_append, Bool.and_eq_true, List.contains_iff_mem]; exact ⟨⟨gx, gy⟩, gz⟩)]
    simp

end Direction

end Rampack
