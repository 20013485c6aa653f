import Verif.Sim.ScalerLemmas
import Verif.Packing.Demo
/-
C52: volume moves and scaling directions.
-/
namespace Rampack

open Rampack.Spec Rampack.Packing

/-- C52, scaled boxes: scaling a box by positive factors succeeds, multiplies its sides by them, and multiplies its volume by
their product. -/
theorem C52_scaled_box {M : Mat3} {b : Box} (hb : Box.make M = .ok b) {f : Vec3 ℝ} (hf : PositiveFactors f) :
    ∃ b', Scaler.scaleSides b f = .ok b' ∧ b'.sides = ⟨f.x • b.sides.x, f.y • b.sides.y, f.z • b.sides.z⟩ ∧
      b'.volume = f.x * f.y * f.z * b.volume := by
  obtain ⟨h1, h2, h3⟩ := hf
  have hp : 0 < f.x * f.y * f.z := mul_pos (mul_pos h1 h2) h3
  obtain ⟨b', e, -, hx, hy, hz, hv⟩ := scaleSides_ok (Box.make_wf hb).1 hp.ne'
  refine ⟨b', e, ?_, by rw [hv, abs_of_pos hp]⟩
  ext <;> simp [hx, hy, hz]

example : ∃ b', Scaler.scaleSides unitBox ⟨2, 1 / 3, 1⟩ = .ok b' ∧ b'.volume = 2 / 3 := by
  obtain ⟨b', e, -, h⟩ := C52_scaled_box unitBox_ok (f := ⟨2, 1 / 3, 1⟩) ⟨by norm_num, by norm_num, by norm_num⟩
  refine ⟨b', e, ?_⟩
  have := unitBox_volume
  unfold unitBox at this
  rw [h, this]; norm_num

/-- C52, anisotropic scaling in all directions: every factor is positive and is the product, over the sets of axes with this axis,
of a factor common for the set (`log`) or coming from a common change of length (`linear`); the `k`-th set uses the `k`-th
random number. -/
theorem C52_all_directions {fs : FactorSampler} {dirs : Directions} {ind : Bool} (hind : ind = false ∨ dirs.length ≤ 1) {h f : Vec3 ℝ} {step : ℝ}
    {t t' : Tape} (e : (VolumeScaler.anisotropic fs dirs ind).sample h step t = .ok (f, t')) : PositiveFactors f ∧
      f.x = productFactor fs (·.x) h.x step dirs t ∧ f.y = productFactor fs (·.y) h.y step dirs t ∧
      f.z = productFactor fs (·.z) h.z step dirs t := by
  rcases anisotropic_ok e with ⟨h1, h2, -⟩ | ⟨-, e⟩
  · rcases hind with h | h
    · rw [h] at h1; cases h1
    · omega
  · obtain ⟨g1, -, g2, g3, g4⟩ := sampleAll_ok (g := ⟨1, 1, 1⟩) ⟨by norm_num, by norm_num, by norm_num⟩ e
    simp only [one_mul] at g2 g3 g4
    exact ⟨g1, g2, g3, g4⟩

/-- C52, independent anisotropic scaling: one set of axes is drawn and only its axes are scaled, with a positive factor. -/
theorem C52_one_direction {fs : FactorSampler} {dirs : Directions} (hlen : 1 < dirs.length) {h f : Vec3 ℝ} {step : ℝ}
    {t t' : Tape} (e : (VolumeScaler.anisotropic fs dirs true).sample h step t = .ok (f, t')) : PositiveFactors f ∧
      ∃ d ∈ dirs, f.x = (if d.x then scaleFactor fs h.x (uniformReal (-step) step (t 1)) else 1) ∧
        f.y = (if d.y then scaleFactor fs h.y (uniformReal (-step) step (t 1)) else 1) ∧
        f.z = (if d.z then scaleFactor fs h.z (uniformReal (-step) step (t 1)) else 1) := by
  rcases anisotropic_ok e with ⟨-, -, d, hd, e⟩ | ⟨h1, -⟩
  · obtain ⟨-, g1, g2, g3, g4⟩ := sample_ok e
    exact ⟨g1, d, List.mem_of_getElem? hd, g2, g3, g4⟩
  · rcases h1 with h | h
    · cases h
    · omega

/-- C52: each set of axes can be drawn. -/
theorem C52_every_direction {dirs : Directions} (hlen : 1 < dirs.length) {d : Vec3 Bool} (hd : d ∈ dirs) (h : Vec3 ℝ) (step : ℝ) :
    ∃ t : Tape, t.Ok ∧ ∃ f t', (VolumeScaler.anisotropic .log dirs true).sample h step t = .ok (f, t') ∧
      f.x = (if d.x then Real.exp (uniformReal (-step) step (t 1)) else 1) ∧
      f.y = (if d.y then Real.exp (uniformReal (-step) step (t 1)) else 1) ∧
      f.z = (if d.z then Real.exp (uniformReal (-step) step (t 1)) else 1) := by
  obtain ⟨k, hk, hkd⟩ := List.mem_iff_getElem.mp hd
  have hpos : (0 : ℝ) < dirs.length := by exact_mod_cast (by omega : 0 < dirs.length)
  have hk' : (k : ℝ) < dirs.length := by exact_mod_cast hk
  have ht : Tape.Ok (fun _ => (k : ℝ) / dirs.length) := by
    intro n
    exact ⟨by positivity, by rw [div_lt_one hpos]; exact hk'⟩
  obtain ⟨f, t', e⟩ := log_total (dirs := dirs) (by rintro rfl; simp at hlen) true h step ht
  refine ⟨_, ht, f, t', e, ?_⟩
  rcases anisotropic_ok e with ⟨-, -, d', hd', e'⟩ | ⟨h1, -⟩
  · have : ⌊(k : ℝ) / dirs.length * dirs.length⌋₊ = k := by
      rw [div_mul_cancel₀ _ hpos.ne', Nat.floor_natCast]
    rw [this, List.getElem?_eq_getElem hk, Option.some_inj, hkd] at hd'
    subst hd'
    obtain ⟨-, -, g⟩ := sample_ok e'
    exact g
  · rcases h1 with h | h
    · cases h
    · omega

/-- C52, the logarithmic scaler always gives factors, and the linear one either gives factors or reports a broken condition. -/
theorem C52_log_total {dirs : Directions} {ind : Bool} {v : VolumeScaler} (hv : VolumeScaler.mkAnisotropic .log dirs ind = .ok v) (h : Vec3 ℝ) (step : ℝ)
    {t : Tape} (ht : t.Ok) : ∃ f t', v.sample h step t = .ok (f, t') := by
  unfold VolumeScaler.mkAnisotropic at hv
  obtain ⟨u, h1, hv⟩ := Outcome.bind_eq_ok.mp hv
  rw [Outcome.require_eq_ok] at h1
  cases hv
  exact log_total (by simpa using h1) ind h step ht

example : ∃ v, VolumeScaler.mkAnisotropic .log [⟨true, true, false⟩, ⟨false, false, true⟩] true = .ok v := ⟨_, rfl⟩

/-- The hypotheses of the three theorems above are met. -/
example : ∃ f t', (VolumeScaler.anisotropic .log [⟨true, true, false⟩, ⟨false, false, true⟩] false).sample ⟨1, 2, 3⟩ 1 (fun _ => 3 / 4) = .ok (f, t') ∧
    f = ⟨Real.exp (1 / 2), Real.exp (1 / 2), Real.exp (1 / 2)⟩ := by
  obtain ⟨f, t', e⟩ := log_total (dirs := [⟨true, true, false⟩, ⟨false, false, true⟩]) (by simp) false ⟨1, 2, 3⟩ 1 (t := fun _ => 3 / 4)
    (by intro n; norm_num)
  obtain ⟨-, h1, h2, h3⟩ := C52_all_directions (.inl rfl) e
  refine ⟨f, t', e, ?_⟩
  ext
  · rw [h1]; norm_num [productFactor, scaleFactor, uniformReal, Tape.drop]
  · rw [h2]; norm_num [productFactor, scaleFactor, uniformReal, Tape.drop]
  · rw [h3]; norm_num [productFactor, scaleFactor, uniformReal, Tape.drop]

/-- C52, isotropic scaling: if the product of heights is the volume, as in a rectangular box, and the sampled change does not
make the volume non-positive, then the volume changes by exactly the sampled amount and the factors are positive and equal.
Missing: other boxes (see `C52_delta_sheared_violated`) and larger steps (see `C52_delta_negative_violated`). -/
theorem C52_delta_partial {M : Mat3} {b : Box} (hb : Box.make M = .ok b) (hrect : b.heights.x * b.heights.y * b.heights.z = b.volume)
    {step : ℝ} {t : Tape} (hpos : 0 < b.volume + (2 * t 0 - 1) * step) : ∃ f b', VolumeScaler.delta.sample b.heights step t = .ok (f, t.drop 1) ∧
      PositiveFactors f ∧ f.x = f.y ∧ f.y = f.z ∧ Scaler.updateBox ⟨.adapter .delta, step⟩ b t = .ok (b', t.drop 1) ∧
      b'.volume = b.volume + (2 * t 0 - 1) * step := by
  have hV := Box.volume_pos (Box.make_wf hb).1
  have hq : 0 < ((2 * t 0 - 1) * step + b.volume) / b.volume := div_pos (by linarith) hV
  have hc := cbrt_pos hq
  obtain ⟨b', e, -, hv⟩ := C52_scaled_box hb (f := ⟨cbrt (((2 * t 0 - 1) * step + b.volume) / b.volume),
    cbrt (((2 * t 0 - 1) * step + b.volume) / b.volume), cbrt (((2 * t 0 - 1) * step + b.volume) / b.volume)⟩) ⟨hc, hc, hc⟩
  refine ⟨_, b', by simp only [VolumeScaler.sample]; rw [hrect], ⟨hc, hc, hc⟩, rfl, rfl, ?_, ?_⟩
  · simp only [Scaler.updateBox, VolumeScaler.sample]
    rw [Outcome.ok_bind, hrect]
    simp only
    rw [e]
    rfl
  · rw [hv]
    simp only
    rw [cbrt_cube, div_mul_cancel₀ _ hV.ne']
    ring

example : unitBox.heights.x * unitBox.heights.y * unitBox.heights.z = unitBox.volume ∧
    0 < unitBox.volume + (2 * (fun _ => 3 / 4 : Tape) 0 - 1) * (1 / 2) := by
  rw [unitBox_heights, unitBox_volume]; norm_num

/-- C52, isotropic scaling does not change the volume by the sampled amount in a sheared box: what is added to the volume is
multiplied by the ratio of the volume to the product of heights. -/
theorem C52_delta_sheared_violated : ∃ (M : Mat3) (b b' : Box) (t : Tape), Box.make M = .ok b ∧ t.Ok ∧
    Scaler.updateBox ⟨.adapter .delta, 1⟩ b t = .ok (b', t.drop 1) ∧ b.volume = 1 ∧ b.volume + (2 * t 0 - 1) * 1 = 3 / 2 ∧ b'.volume ≠ 3 / 2 := by
  have hdet : (⟨⟨1, 3 / 4, 0⟩, ⟨0, 1, 0⟩, ⟨0, 0, 1⟩⟩ : Mat3).det = 1 := by norm_num [Mat3.det]
  obtain ⟨b, hb⟩ : ∃ b, Box.make (⟨⟨1, 3 / 4, 0⟩, ⟨0, 1, 0⟩, ⟨0, 0, 1⟩⟩ : Mat3) = .ok b := by
    unfold Box.make; rw [if_neg (by rw [hdet]; norm_num)]; exact ⟨_, rfl⟩
  obtain ⟨hwf, hd⟩ := Box.make_wf hb
  have hV : b.volume = 1 := by rw [Box.volume_eq, hd, hdet]; norm_num
  have hsx : b.sides.x = ⟨1, 0, 0⟩ := by rw [Box.sides_x, hd]; rfl
  have hsy : b.sides.y = ⟨3 / 4, 1, 0⟩ := by rw [Box.sides_y, hd]; rfl
  have hsz : b.sides.z = ⟨0, 0, 1⟩ := by rw [Box.sides_z, hd]; rfl
  have hh : b.heights.x * b.heights.y * b.heights.z = 4 / 5 := by
    simp only [Box.heights, hV, hsx, hsy, hsz]
    norm_num [Vec3.cross, Vec3.norm, Vec3.norm2, Vec3.dot]
    rw [show (16 : ℝ) = 4 ^ 2 from by norm_num, show (25 : ℝ) = 5 ^ 2 from by norm_num, Real.sqrt_sq (by norm_num), Real.sqrt_sq (by norm_num)]
  have hc : 0 < cbrt (((2 * (3 / 4) - 1) * 1 + 4 / 5) / (4 / 5)) := cbrt_pos (by norm_num)
  obtain ⟨b', e, -, hv⟩ := C52_scaled_box hb (f := ⟨cbrt (((2 * (3 / 4) - 1) * 1 + 4 / 5) / (4 / 5)), cbrt (((2 * (3 / 4) - 1) * 1 + 4 / 5) / (4 / 5)),
    cbrt (((2 * (3 / 4) - 1) * 1 + 4 / 5) / (4 / 5))⟩) ⟨hc, hc, hc⟩
  refine ⟨_, b, b', fun _ => 3 / 4, hb, by intro n; norm_num, ?_, hV, by rw [hV]; norm_num, ?_⟩
  · simp only [Scaler.updateBox, VolumeScaler.sample]
    rw [Outcome.ok_bind, hh]
    simp only
    rw [e]
    rfl
  · rw [hv]
    simp only
    rw [cbrt_cube, hV]
    norm_num

/-- C52, isotropic scaling with a large step gives negative factors: the box is turned inside out, and this is not reported. -/
theorem C52_delta_negative_violated : ∃ (t : Tape) (f : Vec3 ℝ) (b' : Box), t.Ok ∧
    VolumeScaler.delta.sample unitBox.heights 4 t = .ok (f, t.drop 1) ∧ f.x < 0 ∧
    Scaler.updateBox ⟨.adapter .delta, 4⟩ unitBox t = .ok (b', t.drop 1) ∧ b'.volume = 1 := by
  have hc : cbrt (((2 * (1 / 4) - 1) * 4 + 1) / 1) = -1 := by
    rw [show ((2 * (1 / 4) - 1) * 4 + 1) / 1 = (-1 : ℝ) from by norm_num]
    unfold cbrt
    rw [if_neg (by norm_num)]
    norm_num
  have hh : unitBox.heights.x * unitBox.heights.y * unitBox.heights.z = 1 := by rw [unitBox_heights]; norm_num
  obtain ⟨b', e, -, -, -, -, hv⟩ := scaleSides_ok unitBox_wf (f := ⟨-1, -1, -1⟩) (by norm_num)
  refine ⟨fun _ => 1 / 4, ⟨-1, -1, -1⟩, b', by intro n; norm_num, ?_, by norm_num, ?_, ?_⟩
  · simp only [VolumeScaler.sample]
    rw [hh, hc]
  · simp only [Scaler.updateBox, VolumeScaler.sample]
    rw [Outcome.ok_bind, hh]
    simp only
    rw [hc, e]
    rfl
  · rw [hv, unitBox_volume]; norm_num

/-- C52, scaling directions: a text is accepted exactly if it is a sequence of letters, `(...)` and `[...]` in which each of
`x`, `y`, `z` occurs once and nothing else does, and then the sets of axes are: each letter alone, each non-empty `(...)`
together, in the order written, and those in `[...]` not at all. -/
theorem C52_directions {s : List Char} {d : Directions} : Direction.parse s = .ok d ↔ ∃ ps : List Piece, s = ps.flatMap Piece.text ∧
    (ps.flatMap Piece.letters).Perm ['x', 'y', 'z'] ∧ d = ps.flatMap Piece.directions := Direction.parse_iff

example : Direction.parse "z(xy)".toList = .ok [⟨false, false, true⟩, ⟨true, true, false⟩] :=
  C52_directions.mpr ⟨[.alone 'z', .together ['x', 'y']], rfl, by decide, rfl⟩

example : Direction.parse "[z]yx".toList = .ok [⟨false, true, false⟩, ⟨true, false, false⟩] :=
  C52_directions.mpr ⟨[.kept ['z'], .alone 'y', .alone 'x'], rfl, by decide, rfl⟩

/-- C52: `a | b` offers the alternatives of both, none of them twice. -/
theorem C52_alternatives {a b : Directions} (ha : a.Nodup) : (Directions.or a b).Nodup ∧ ∀ d, d ∈ Directions.or a b ↔ d ∈ a ∨ d ∈ b := by
  unfold Directions.or
  induction b generalizing a with
  | nil => simpa using ha
  | cons e b ih =>
    rw [List.foldl_cons]
    by_cases he : e ∈ a
    · rw [if_pos he]
      refine ⟨(ih ha).1, fun d => ((ih ha).2 d).trans ?_⟩
      rw [List.mem_cons]
      constructor
      · rintro (h | h)
        · exact .inl h
        · exact .inr (.inr h)
      · rintro (h | rfl | h)
        · exact .inl h
        · exact .inl he
        · exact .inr h
    · rw [if_neg he]
      have hn : (a ++ [e]).Nodup := by
        rw [List.nodup_append]
        refine ⟨ha, by simp, fun x hx y hy => ?_⟩
        rw [List.mem_singleton] at hy
        rintro rfl
        exact he (hy ▸ hx)
      refine ⟨(ih hn).1, fun d => ((ih hn).2 d).trans ?_⟩
      simp [or_assoc]

/-- `(X | Y) | (Y | Z)` has three alternatives. -/
example : Directions.or (Directions.or .X .Y) (Directions.or .Y .Z) = [⟨true, false, false⟩, ⟨false, true, false⟩, ⟨false, false, true⟩] ∧
    (Directions.or .X .Y).Nodup := by decide

/-- C52, triclinic scaling of all sides together: each element of the matrix of sides changes by at most the step size. -/
theorem C52_triclinic_together {step : ℝ} (hs : 0 ≤ step) {b b' : Box} {t t' : Tape} (ht : t.Ok)
    (e : Scaler.updateBox ⟨.triclinicDelta true, step⟩ b t = .ok (b', t')) :
    ∃ D : Mat3, b'.dims = b.dims + D ∧ ∀ r ∈ [D.r0, D.r1, D.r2], |r.x| ≤ step ∧ |r.y| ≤ step ∧ |r.z| ≤ step := by
  simp only [Scaler.updateBox] at e
  obtain ⟨b1, e1, e⟩ := Outcome.bind_eq_ok.mp e
  cases e
  have hd := (Box.make_wf e1).2
  refine ⟨⟨⟨uniformReal (-step) step (t 0), uniformReal (-step) step (t 1), uniformReal (-step) step (t 2)⟩,
    ⟨uniformReal (-step) step (t 3), uniformReal (-step) step (t 4), uniformReal (-step) step (t 5)⟩,
    ⟨uniformReal (-step) step (t 6), uniformReal (-step) step (t 7), uniformReal (-step) step (t 8)⟩⟩, ?_, ?_⟩
  · rw [hd]; rfl
  · intro r hr
    simp only [List.mem_cons, List.not_mem_nil, or_false] at hr
    rcases hr with rfl | rfl | rfl <;>
      exact ⟨Sampler.uniformReal_abs hs (ht _).1 (ht _).2, Sampler.uniformReal_abs hs (ht _).1 (ht _).2, Sampler.uniformReal_abs hs (ht _).1 (ht _).2⟩

/-- C52, triclinic scaling of one side: two of the sides stay, and each coordinate of the third one changes by at most the step
size. -/
theorem C52_triclinic_one {step : ℝ} (hs : 0 ≤ step) {b b' : Box} {t t' : Tape} (ht : t.Ok)
    (e : Scaler.updateBox ⟨.triclinicDelta false, step⟩ b t = .ok (b', t')) :
    ∃ v : Vec3 ℝ, |v.x| ≤ step ∧ |v.y| ≤ step ∧ |v.z| ≤ step ∧ (b'.sides = ⟨b.sides.x + v, b.sides.y, b.sides.z⟩ ∨
      b'.sides = ⟨b.sides.x, b.sides.y + v, b.sides.z⟩ ∨ b'.sides = ⟨b.sides.x, b.sides.y, b.sides.z + v⟩) := by
  simp only [Scaler.updateBox] at e
  obtain ⟨⟨k, t1⟩, e0, e⟩ := Outcome.bind_eq_ok.mp e
  simp only at e
  obtain ⟨M, e2, e⟩ := Outcome.bind_eq_ok.mp e
  obtain ⟨b1, e1, e⟩ := Outcome.bind_eq_ok.mp e
  cases e
  obtain ⟨-, -, rfl⟩ := Sampler.uniformInt_ok e0
  have hd := (Box.make_wf e1).2
  have hb : ∀ n, |uniformReal (-step) step ((t.drop 1) n)| ≤ step := fun n =>
    Sampler.uniformReal_abs hs (ht _).1 (ht _).2
  have hsd : ∀ c : Box, c.sides = ⟨c.dims.c0, c.dims.c1, c.dims.c2⟩ := by
    intro c; ext <;> simp [Box.sides_x, Box.sides_y, Box.sides_z]
  refine ⟨⟨uniformReal (-step) step (t.drop 1 0), uniformReal (-step) step (t.drop 1 1), uniformReal (-step) step (t.drop 1 2)⟩, hb 0, hb 1, hb 2, ?_⟩
  rw [hsd b', hsd b, hd]
  match k, e2 with
  | 0, e2 => left; cases e2; rfl
  | 1, e2 => right; left; cases e2; rfl
  | 2, e2 => right; right; cases e2; rfl
  | n + 3, e2 => cases e2

/-- A triclinic step in the unit box. -/
example : ∃ b' t', Scaler.updateBox ⟨.triclinicDelta true, 1 / 10⟩ unitBox (fun _ => 1 / 2) = .ok (b', t') := by
  refine ⟨unitBox, Tape.drop (fun _ => 1 / 2) 9, ?_⟩
  have : Scaler.addAll unitBox.dims (fun n => uniformReal (-(1 / 10)) (1 / 10) ((fun _ => 1 / 2 : Tape) n)) = Mat3.diag 1 1 1 := by
    norm_num [Scaler.addAll, uniformReal, unitBox, Mat3.diag]
  simp only [Scaler.updateBox]
  rw [this, unitBox_ok]
  rfl

end Rampack
