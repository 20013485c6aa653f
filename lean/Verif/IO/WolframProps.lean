import Verif.IO.WolframSpec
import Verif.Shapes.BananaSector
import Verif.Shapes.HardWallProps
/-
Property C115: snapshots for Wolfram Mathematica show the molecules of the packing, in both styles.
-/
namespace Rampack.Wolfram

open Shapes Rampack.Spec Rampack.Wolfram.Spec

variable {fmt : Format}

theorem squeezed_append (a b : Text) : squeezed (a ++ b) = squeezed a ++ squeezed b := List.filter_append ..

theorem squeezed_self {t : Text} (h : ∀ c ∈ t, White c = false) : squeezed t = t := by
  unfold squeezed
  rw [List.filter_eq_self]
  intro c hc
  rw [h c hc]
  rfl

theorem decimal_white {num : ℝ → Text} (h : Decimal num) (x : ℝ) : squeezed (num x) = num x := by
  refine squeezed_self fun c hc => ?_
  rcases h x c hc with ⟨h0, -⟩ | rfl | rfl
  · have : c ≠ ' ' ∧ c ≠ '\n' := by
      constructor <;> (rintro rfl; exact absurd h0 (by decide))
    simp [White, this.1, this.2]
  · rfl
  · rfl

/-- Numbers without white characters. -/
def Plain (num : ℝ → Text) : Prop := ∀ x, squeezed (num x) = num x

theorem vecOut_text {num : ℝ → Text} (h : Plain num) (v : Vec3 ℝ) : squeezed (vecOut num v) = vecText num v := by
  have e : squeezed ", ".toList = ",".toList := by decide +kernel
  have e1 : squeezed "{".toList = "{".toList := by decide +kernel
  have e2 : squeezed "}".toList = "}".toList := by decide +kernel
  delta vecOut
  simp only [squeezed_append, h _, e, e1, e2, vecText, braces, commas, List.append_assoc]

theorem sphereOut_text {num : ℝ → Text} (h : Plain num) (c : Vec3 ℝ) (r : ℝ) : squeezed (sphereOut num c r) = (Solid.sphere c r).text num := by
  have e : squeezed "Sphere[".toList = "Sphere".toList ++ "[".toList := by decide +kernel
  have e1 : squeezed ",".toList = ",".toList := by decide +kernel
  have e2 : squeezed "]".toList = "]".toList := by decide +kernel
  delta sphereOut
  simp only [squeezed_append, e, e1, e2]
  simp only [h _, vecOut_text h, Solid.text, apply, commas, List.append_assoc]

theorem capsuleOut_text {num : ℝ → Text} (h : Plain num) (a b : Vec3 ℝ) (r : ℝ) : squeezed (capsuleOut num a b r) = (Solid.capsule a b r).text num := by
  have e : squeezed "CapsuleShape[{".toList = "CapsuleShape".toList ++ ("[".toList ++ "{".toList) := by decide +kernel
  have e1 : squeezed ",".toList = ",".toList := by decide +kernel
  have e2 : squeezed "]".toList = "]".toList := by decide +kernel
  have e3 : squeezed "},".toList = "}".toList ++ ",".toList := by decide +kernel
  delta capsuleOut
  simp only [squeezed_append, e, e1, e2, e3]
  simp only [h _, vecOut_text h, Solid.text, apply, braces, commas, List.append_assoc]

theorem tubeOut_text {num : ℝ → Text} (h : Plain num) (a b : Vec3 ℝ) (r : ℝ) : squeezed (tubeOut num a b r) = (Solid.tube a b r).text num := by
  have e : squeezed "Tube[{".toList = "Tube".toList ++ ("[".toList ++ "{".toList) := by decide +kernel
  have e1 : squeezed ",".toList = ",".toList := by decide +kernel
  have e2 : squeezed "]".toList = "]".toList := by decide +kernel
  have e3 : squeezed "},".toList = "}".toList ++ ",".toList := by decide +kernel
  delta tubeOut
  simp only [squeezed_append, e, e1, e2, e3]
  simp only [h _, vecOut_text h, Solid.text, apply, braces, commas, List.append_assoc]

theorem commas_last (l : List Text) (t : Text) : commas (l ++ [t]) = (l.map fun d => d ++ ",".toList).flatten ++ t := by
  induction l with
  | nil => rfl
  | cons a l ih =>
    cases l with
    | nil => simp [commas]
    | cons b l =>
      rw [List.cons_append, List.cons_append, commas, ← List.cons_append, ih]
      simp

theorem squeezed_flatten (l : List Text) : squeezed l.flatten = (l.map squeezed).flatten := by
  induction l with
  | nil => rfl
  | cons a l ih => rw [List.flatten_cons, squeezed_append, ih]; rfl

theorem groupOut_text {α : Type} {one : α → Text} {solid : α → Solid} {num : ℝ → Text} (h : ∀ d, squeezed (one d) = (solid d).text num) {l : List α} (hl : l ≠ []) :
    ∃ t, groupOut one l = .ok t ∧ squeezed t = (Drawing.many (l.map solid)).text num := by
  obtain ⟨init, last, rfl⟩ : ∃ init last, l = init ++ [last] := ⟨l.dropLast, l.getLast hl, (List.dropLast_append_getLast hl).symm⟩
  refine ⟨_, by rw [groupOut, List.getLast?_concat, List.dropLast_concat], ?_⟩
  have e1 : squeezed "{".toList = "{".toList := by decide +kernel
  have e2 : squeezed "}".toList = "}".toList := by decide +kernel
  have e3 : squeezed ",".toList = ",".toList := by decide +kernel
  simp only [squeezed_append, squeezed_flatten, e1, e2, h, List.map_map, Drawing.text, braces, List.map_append, List.map_cons, List.map_nil, commas_last]
  have e4 : (squeezed ∘ fun d => one d ++ ",".toList) = ((fun d : Text => d ++ ",".toList) ∘ fun d => (solid d).text num) := by
    funext d
    simp only [Function.comp, squeezed_append, h, e3]
  rw [e4]
  simp only [List.append_assoc]
  rfl

/-- Which numbers the printer writes. -/
def number (fmt : Format) : Printer → ℝ → Text
  | .sphere _ => fmt.general
  | _ => fmt.fixed

/-- The drawing of a molecule. -/
noncomputable def drawing : Printer → Shape → Drawing
  | .sphere r, s => .one (.sphere s.pos r)
  | .polysphere data, s => .many (data.map fun d => .sphere (s.pos + s.rot.mulVec d.position) d.radius)
  | .spherocylinder length r, s => .one (.capsule (capCentre length (-1) s) (capCentre length 1 s) r)
  | .polyspherocylinder data, s => .many (data.map fun d =>
      .tube (s.pos + s.rot.mulVec d.position + s.rot.mulVec d.halfAxis) (s.pos + s.rot.mulVec d.position - s.rot.mulVec d.halfAxis) d.radius)

theorem print_text {P : Printer} (hP : Spec.Nonempty P) (hn : Plain (number fmt P)) (s : Shape) : ∃ t, print fmt P s = .ok t ∧ squeezed t = (drawing P s).text (number fmt P) := by
  cases P with
  | sphere r => exact ⟨_, rfl, sphereOut_text hn _ _⟩
  | polysphere data => exact groupOut_text (fun d => sphereOut_text hn _ _) hP
  | spherocylinder length r => exact ⟨_, rfl, capsuleOut_text hn _ _ _⟩
  | polyspherocylinder data => exact groupOut_text (fun d => tubeOut_text hn _ _ _) hP

theorem capsule_swap (a b : Vec3 ℝ) (r : ℝ) (p : Vec3 ℝ) : Capsule a b r p ↔ Capsule b a r p := by
  have : ∀ a b q : Vec3 ℝ, OnSegment a b q → OnSegment b a q := by
    rintro a b q ⟨k, h0, h1, rfl⟩
    refine ⟨1 - k, by linarith, by linarith, ?_⟩
    ext
    all_goals
      simp only [Vec3.add_x, Vec3.add_y, Vec3.add_z, Vec3.sub_x, Vec3.sub_y, Vec3.sub_z, Vec3.smul_x, Vec3.smul_y, Vec3.smul_z]
      ring
  exact ⟨fun ⟨q, h, h'⟩ => ⟨q, this _ _ _ h, h'⟩, fun ⟨q, h, h'⟩ => ⟨q, this _ _ _ h, h'⟩⟩

/-- The drawing shows the molecule. -/
theorem drawing_shows (P : Printer) (s : Shape) (p : Vec3 ℝ) : (drawing P s).Shows p ↔ Body P s p := by
  cases P with
  | sphere r => rfl
  | polysphere data =>
    simp only [drawing, Drawing.Shows, List.mem_map, exists_exists_and_eq_and]
    rfl
  | spherocylinder length r =>
    have e : ∀ k : ℝ, capCentre length k s = s.pos + s.rot.mulVec ⟨0, 0, k * length / 2⟩ := by
      intro k
      ext <;> simp [capCentre, Mat3.mulVec, Vec3.dot, Mat3.c2] <;> ring
    simp only [drawing, Drawing.Shows, Solid.Shows, Body, RodBody]
    rw [e, e, neg_one_mul, one_mul]
  | polyspherocylinder data =>
    simp only [drawing, Drawing.Shows, List.mem_map, exists_exists_and_eq_and]
    refine exists_congr fun d => and_congr_right fun _ => ?_
    rw [← (rod_ends s.pos d.position d.halfAxis s.rot).1, ← (rod_ends s.pos d.position d.halfAxis s.rot).2]
    exact capsule_swap _ _ _ _

theorem standardLoop_text {P : Printer} (hP : Spec.Nonempty P) (hn : Plain (number fmt P)) (shapes : List Shape) :
    ∃ t, standardLoop fmt P shapes = .ok t ∧ squeezed t = commas (shapes.map fun s => (drawing P s).text (number fmt P)) := by
  induction shapes with
  | nil => exact ⟨[], rfl, rfl⟩
  | cons s ss ih =>
    obtain ⟨t, ht, h1⟩ := print_text hP hn s
    obtain ⟨u, hu, h2⟩ := ih
    refine ⟨_, by rw [standardLoop, ht, Outcome.ok_bind, hu, Outcome.ok_bind]; rfl, ?_⟩
    rw [squeezed_append, squeezed_append, h1, h2]
    cases ss with
    | nil => simp [commas, squeezed]
    | cons s' ss =>
      have e : squeezed ",\n".toList = ",".toList := by decide +kernel
      simp only [List.isEmpty_cons, Bool.false_eq_true, if_false, e, List.map_cons, commas]

/-- **C115** In the style `standard` the file is `Graphics3D` with the list of drawings, one for each molecule of the packing, in order, and each shows the body of its molecule.
Missing: numbers are taken to be decimal, which is so after `std::fixed` but not always for spheres (`C115_small_violated`). -/
theorem C115_standard_partial {P : Printer} (hP : Spec.Nonempty P) (hn : Decimal (number fmt P)) (shapes : List Shape) : ∃ t ds, write fmt .standard P shapes = .ok t ∧
    squeezed t = standardText (number fmt P) ds ∧ List.Forall₂ (fun s d => ∀ p, Drawing.Shows d p ↔ Body P s p) shapes ds := by
  obtain ⟨t, ht, h⟩ := standardLoop_text hP (decimal_white hn) shapes
  refine ⟨_, shapes.map (drawing P), by rw [write, storeStandard, ht, Outcome.ok_bind]; rfl, ?_, ?_⟩
  · have e1 : squeezed "Graphics3D[{\n".toList = "Graphics3D".toList ++ ("[".toList ++ "{".toList) := by decide +kernel
    have e2 : squeezed "}]\n".toList = "}".toList ++ "]".toList := by decide +kernel
    simp only [squeezed_append, h, e1, e2, standardText, apply, braces, commas, List.map_map, List.append_assoc]
    rfl
  · rw [List.forall₂_map_right_iff, List.forall₂_same]
    exact fun s _ => drawing_shows P s

theorem rowOut_text {num : ℝ → Text} (h : Plain num) (v : Vec3 ℝ) : squeezed (rowOut num v) = vecText num v := vecOut_text h v

theorem placeOut_text {num : ℝ → Text} (h : Plain num) (s : Shape) : squeezed (placeOut num s) =
    braces [braces [vecText num s.rot.r0, vecText num s.rot.r1, vecText num s.rot.r2], vecText num s.pos] := by
  have e1 : squeezed "{{".toList = "{".toList ++ "{".toList := by decide +kernel
  have e2 : squeezed ", ".toList = ",".toList := by decide +kernel
  have e3 : squeezed "}, ".toList = "}".toList ++ ",".toList := by decide +kernel
  have e4 : squeezed "}".toList = "}".toList := by decide +kernel
  delta placeOut
  simp only [squeezed_append, e1, e2, e3, e4]
  simp only [rowOut_text h, vecOut_text h, commas, braces, List.append_assoc]

theorem affineLoop_text {num : ℝ → Text} (h : Plain num) (shapes : List Shape) : squeezed (affineLoop num shapes) =
    commas (shapes.map fun s => braces [braces [vecText num s.rot.r0, vecText num s.rot.r1, vecText num s.rot.r2], vecText num s.pos]) := by
  induction shapes with
  | nil => rfl
  | cons s ss ih =>
    have e5 : squeezed "\n".toList = [] := by decide +kernel
    have e6 : squeezed ",".toList = ",".toList := by decide +kernel
    have e7 : squeezed ([] : Text) = [] := rfl
    rw [affineLoop, squeezed_append, squeezed_append, squeezed_append, ih, placeOut_text h, e5]
    cases ss with
    | nil => simp only [e7, List.isEmpty_nil, if_true, List.map_cons, List.map_nil, commas, List.append_nil]
    | cons s' ss => simp only [e6, List.isEmpty_cons, Bool.false_eq_true, if_false, List.map_cons, commas, List.append_nil]

theorem placed_ball {m : Mat3} (ho : Orthogonal m) (c v : Vec3 ℝ) (r : ℝ) (p : Vec3 ℝ) : Placed (Ball c r) m v p ↔ Ball (v + m.mulVec c) r p := by
  have dist : ∀ q : Vec3 ℝ, (m.mulVec q + v - (v + m.mulVec c)).norm2 = (q - c).norm2 := by
    intro q
    rw [← orthogonal_norm2 ho (q - c)]
    congr 1
    ext <;> simp only [Mat3.mulVec, Vec3.dot, Vec3.sub_x, Vec3.sub_y, Vec3.sub_z, Vec3.add_x, Vec3.add_y, Vec3.add_z] <;> ring
  constructor
  · rintro ⟨q, h, rfl⟩
    unfold Ball at h ⊢
    rw [dist]
    exact h
  · intro h
    obtain ⟨q, hq⟩ : ∃ q, p = m.mulVec q + v := ⟨m.transpose.mulVec (p - v), by
      rw [Mat3.mulVec_mulVec, Xeno.orthogonal_transpose ho, Mat3.one_mulVec]
      ext <;> simp⟩
    subst hq
    refine ⟨q, ?_, rfl⟩
    unfold Ball at h ⊢
    rw [dist] at h
    exact h

theorem placed_capsule {m : Mat3} (ho : Orthogonal m) (a b v : Vec3 ℝ) (r : ℝ) (p : Vec3 ℝ) : Placed (Capsule a b r) m v p ↔ Capsule (v + m.mulVec a) (v + m.mulVec b) r p := by
  rw [Banana.placed_rod ho, show m.mulVec a + v = v + m.mulVec a by ext <;> simp [add_comm], show m.mulVec b + v = v + m.mulVec b by ext <;> simp [add_comm]]

theorem placed_exists {α : Type} {l : List α} {B : α → Vec3 ℝ → Prop} {m : Mat3} {v p : Vec3 ℝ} : Placed (fun q => ∃ d ∈ l, B d q) m v p ↔ ∃ d ∈ l, Placed (B d) m v p := by
  constructor
  · rintro ⟨q, ⟨d, hd, h⟩, rfl⟩
    exact ⟨d, hd, q, h, rfl⟩
  · rintro ⟨d, hd, q, h, rfl⟩
    exact ⟨q, ⟨d, hd, h⟩, rfl⟩

theorem origin_place (x : Vec3 ℝ) : (0 : Vec3 ℝ) + (1 : Mat3).mulVec x = x := by
  rw [Mat3.one_mulVec]
  ext <;> simp

/-- A molecule which is rotated and then moved. -/
theorem body_placed (P : Printer) {s : Shape} (ho : Orthogonal s.rot) (p : Vec3 ℝ) : Placed (Body P ⟨0, 1⟩) s.rot s.pos p ↔ Body P s p := by
  cases P with
  | sphere r =>
    refine (placed_ball ho 0 s.pos r p).trans ?_
    rw [Mat3.mulVec_zero, show s.pos + 0 = s.pos by ext <;> simp]
    rfl
  | polysphere data =>
    refine placed_exists.trans (exists_congr fun d => and_congr_right fun _ => ?_)
    rw [placed_ball ho, origin_place]
  | spherocylinder length r =>
    refine (placed_capsule ho _ _ _ _ p).trans ?_
    simp only [origin_place]
    rfl
  | polyspherocylinder data =>
    refine placed_exists.trans (exists_congr fun d => and_congr_right fun _ => ?_)
    rw [placed_capsule ho, origin_place, origin_place]

/-- **C115** In the style `affine_transform` the file has one drawing and the list of orientations and positions of molecules, in order, and the drawing which is rotated and then moved by
an element of the list shows the body of the molecule.
Missing: as in `C115_standard_partial`. -/
theorem C115_affine_partial {P : Printer} (hP : Spec.Nonempty P) (hn : Decimal (number fmt P)) (hf : Decimal fmt.fixed) (shapes : List Shape) (hs : ∀ s ∈ shapes, Orthogonal s.rot) : ∃ t d,
    write fmt .affineTransform P shapes = .ok t ∧ squeezed t = affineText (number fmt P) fmt.fixed d shapes ∧
    ∀ s ∈ shapes, ∀ p, Placed d.Shows s.rot s.pos p ↔ Body P s p := by
  obtain ⟨t, ht, h⟩ := print_text hP (decimal_white hn) ⟨0, 1⟩
  refine ⟨_, drawing P ⟨0, 1⟩, by rw [write, storeAffine, ht, Outcome.ok_bind]; rfl, ?_, fun s m p => ?_⟩
  · have e1 : squeezed "Graphics3D[GeometricTransformation[\n".toList = "Graphics3D".toList ++ ("[".toList ++ ("GeometricTransformation".toList ++ "[".toList)) := by decide +kernel
    have e2 : squeezed ",AffineTransform@#]& /@ {\n".toList = ",".toList ++ ("AffineTransform@#".toList ++ ("]".toList ++ ("&/@".toList ++ "{".toList))) := by decide +kernel
    have e3 : squeezed "}]\n".toList = "}".toList ++ "]".toList := by decide +kernel
    simp only [squeezed_append, h, e1, e2, e3, affineLoop_text (decimal_white hf), affineText, apply, braces, commas, List.append_assoc]
  · rw [← body_placed P (hs s m)]
    refine exists_congr fun q => and_congr_left fun _ => drawing_shows P _ q

/-- **C115** The printer of spheres writes numbers as streams do by default, which is not decimal for small numbers: 0.00001 is written `1e-05`. The file with a sphere of this radius is
not the documented one, in whatever decimal way numbers are to be written. -/
theorem C115_small_violated (h : fmt.general (1 / 100000) = "1e-05".toList) (h0 : fmt.general 0 = "0".toList) {num : ℝ → Text} (hn : Decimal num) :
    ∃ t, write fmt .standard (.sphere (1 / 100000)) [⟨0, 1⟩] = .ok t ∧ squeezed t ≠ standardText num [.one (.sphere 0 (1 / 100000))] := by
  have c0 : ∀ x, (num x).count 'e' = 0 := by
    intro x
    rw [List.count_eq_zero]
    intro m
    rcases hn x 'e' m with h | h | h
    · exact absurd h.2 (by decide)
    · exact absurd h (by decide)
    · exact absurd h (by decide)
  refine ⟨"Graphics3D[{\n".toList ++ (sphereOut fmt.general 0 (1 / 100000) ++ [] ++ []) ++ "}]\n".toList, by rw [write, storeStandard, standardLoop, print, Outcome.ok_bind]; rfl, fun e => ?_⟩
  have e' := congrArg (List.count 'e') e
  have l : List.count 'e' (squeezed ("Graphics3D[{\n".toList ++ (sphereOut fmt.general 0 (1 / 100000) ++ [] ++ []) ++ "}]\n".toList)) = 3 := by
    delta sphereOut vecOut
    rw [h, Vec3.zero_x, Vec3.zero_y, Vec3.zero_z, h0]
    decide +kernel
  have k0 : List.count 'e' "Graphics3D".toList = 0 := by decide +kernel
  have k1 : List.count 'e' "Sphere".toList = 2 := by decide +kernel
  have k2 : List.count 'e' "[".toList = 0 := by decide +kernel
  have k3 : List.count 'e' "]".toList = 0 := by decide +kernel
  have k4 : List.count 'e' "{".toList = 0 := by decide +kernel
  have k5 : List.count 'e' "}".toList = 0 := by decide +kernel
  have k6 : List.count 'e' ",".toList = 0 := by decide +kernel
  rw [l] at e'
  simp only [standardText, List.map_cons, List.map_nil, Drawing.text, Solid.text, apply, braces, vecText, commas, List.count_append, k0, k1, k2, k3, k4, k5, k6] at e'
  simp only [c0] at e'
  revert e'
  decide

/-- The bodies of two spheres of a dumbbell, and numbers which are written as 0. -/
example : ∃ (fmt : Format) (P : Printer) (shapes : List Shape), Spec.Nonempty P ∧ Decimal (number fmt P) ∧ Decimal fmt.fixed ∧ (∀ s ∈ shapes, Orthogonal s.rot) ∧ shapes.length = 2 ∧
    shapes.Nodup := by
  have d : Decimal fun x : ℝ => "0".toList := by
    intro x c m
    have : c = '0' := by simpa using m
    subst this
    exact .inl (by decide)
  refine ⟨⟨fun _ => "0".toList, fun _ => "1e-05".toList⟩, .polysphere [⟨⟨0, 0, 1⟩, 1⟩, ⟨⟨0, 0, -1⟩, 1⟩], [⟨0, 1⟩, ⟨⟨3, 0, 0⟩, ⟨⟨0, -1, 0⟩, ⟨1, 0, 0⟩, ⟨0, 0, 1⟩⟩⟩], List.cons_ne_nil _ _, d, d, ?_, rfl, ?_⟩
  · intro s m
    rcases List.mem_cons.1 m with rfl | m
    · unfold Orthogonal
      rw [Mat3.mul_def, Mat3.one_def]
      simp [Mat3.mul, Mat3.one, Mat3.transpose, Mat3.c0, Mat3.c1, Mat3.c2, Vec3.dot]
    · rw [List.mem_singleton.1 m]
      unfold Orthogonal
      rw [Mat3.mul_def, Mat3.one_def]
      simp [Mat3.mul, Mat3.one, Mat3.transpose, Mat3.c0, Mat3.c1, Mat3.c2, Vec3.dot]
  · rw [List.nodup_cons]
    refine ⟨fun m => ?_, List.nodup_singleton _⟩
    have := congrArg (fun s : Shape => s.pos.x) (List.mem_singleton.1 m)
    norm_num at this

end Rampack.Wolfram
