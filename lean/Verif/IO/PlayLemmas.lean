import Verif.IO.TrajLemmas
/-
Lemmas about players.
-/
namespace Rampack

namespace Traj

open Rampack.Spec Rampack.Stream

/-- A file which begins with a header and frames. -/
structure Holds (A : Arith) (N step : Nat) (l : List Snapshot) (file : List Byte) : Prop where
  fits : Fits64 N step l.length
  frames : ∀ x ∈ l, Recordable A N x
  parts : ∃ hd rest : List Byte, hd.length = 33 ∧ file = hd ++ l.flatMap (frameBytes A) ++ rest

/-- A player of frames of a file, after the frame number `cur`. -/
def At (A : Arith) (N step : Nat) (l : List Snapshot) (cur : Nat) (p : Player) : Prop :=
  cur ≤ l.length ∧ ∃ file tr M m, Holds A N step l file ∧
    p = ⟨⟨M, m, N, l.length, step⟩, some ⟨file, 33 + cur * frameLength N, false, tr⟩, cur⟩

theorem At.hasNext {A : Arith} {N step cur : Nat} {l : List Snapshot} {p : Player} (h : At A N step l cur p) :
    p.hasNext = decide (cur < l.length) := by
  obtain ⟨-, file, tr, M, m, -, rfl⟩ := h
  rfl

theorem Holds.cycles {A : Arith} {N step cur : Nat} {l : List Snapshot} {file : List Byte} (h : Holds A N step l file) (hc : cur ≤ l.length) :
    u64 (cur * step) = cur * step := by
  apply Nat.mod_eq_of_lt
  exact lt_of_le_of_lt (Nat.mul_le_mul_right _ hc) h.fits.cycles

theorem At.cycles {A : Arith} {N step cur : Nat} {l : List Snapshot} {p : Player} (h : At A N step l cur p) :
    p.currentCycles = cur * step := by
  obtain ⟨hc, file, tr, M, m, hh, rfl⟩ := h
  exact hh.cycles hc

theorem At.next {A : Arith} {N step cur : Nat} {l : List Snapshot} {p : Player} (h : At A N step l cur p) (hc : cur < l.length) :
    ∃ p', p.nextSnapshot A N = .ok (readBack A l[cur], p') ∧ At A N step l (cur + 1) p' := by
  obtain ⟨-, file, tr, M, m, hh, rfl⟩ := h
  obtain ⟨hd, rest, e1, e2⟩ := hh.parts
  have hx : Recordable A N l[cur] := hh.frames _ (List.getElem_mem hc)
  have hsplit : l = l.take cur ++ l[cur] :: l.drop (cur + 1) := by
    rw [List.getElem_cons_drop, List.take_append_drop]
  have hb : l.flatMap (frameBytes A) = (l.take cur).flatMap (frameBytes A) ++ (frameBytes A l[cur] ++ (l.drop (cur + 1)).flatMap (frameBytes A)) := by
    conv_lhs => rw [hsplit]
    rw [List.flatMap_append, List.flatMap_cons]
  have hlen : ((l.take cur).flatMap (frameBytes A)).length = cur * frameLength N := by
    rw [body_length fun x hx => hh.frames x (List.mem_of_mem_take hx), List.length_take, min_eq_left hc.le]
  have hn : (⟨⟨M, m, N, l.length, step⟩, some ⟨file, 33 + cur * frameLength N, false, tr⟩, cur⟩ : Player).hasNext = true := by
    simp [Player.hasNext, hc]
  refine ⟨⟨⟨M, m, N, l.length, step⟩, some ⟨file, 33 + (cur + 1) * frameLength N, false, tr⟩, cur + 1⟩, ?_, hc, file, tr, M, m, hh, rfl⟩
  unfold Player.nextSnapshot
  rw [hn]
  simp only [Outcome.require_true, Outcome.ok_bind, decide_true]
  unfold readBox
  rw [readOr_ok (a := hd ++ (l.take cur).flatMap (frameBytes A)) (l := matBytes l[cur].box)
    (b := (l[cur].shapes.flatMap fun s => vecBytes s.pos ++ angleBytes A s) ++ (l.drop (cur + 1)).flatMap (frameBytes A) ++ rest) _ 72
    (by rw [e2, hb]; simp [frameBytes]) (matBytes_length _) (by rw [List.length_append, e1, hlen])]
  simp only [Outcome.ok_bind, bytesMat_matBytes, hx.box, Outcome.require_true, Outcome.pure_eq]
  have hr := readShapes_ok (A := A) (a := hd ++ (l.take cur).flatMap (frameBytes A) ++ matBytes l[cur].box) (l := l[cur].shapes) (file := file)
    (b := (l.drop (cur + 1)).flatMap (frameBytes A) ++ rest) (tr := tr) (p := 33 + cur * frameLength N + 72) hx.rotations
    (by rw [e2, hb]; simp [frameBytes]) (by rw [List.length_append, List.length_append, e1, hlen, matBytes_length])
  rw [hx.size] at hr
  rw [hr]
  simp only [Outcome.ok_bind, List.map_map]
  rw [show ShapeW.pos ∘ readShapeBack A = ShapeW.pos from rfl, hx.reset]
  simp only [Outcome.require_true, Outcome.ok_bind]
  congr 4
  have : 33 + cur * frameLength N + 72 + 48 * N = 33 + (cur + 1) * frameLength N := by
    unfold frameLength
    ring
  rw [this]

theorem At.noNext {A : Arith} {N step cur : Nat} {l : List Snapshot} {p : Player} (h : At A N step l cur p) (hc : ¬ cur < l.length) (n : Nat) :
    ∃ m, p.nextSnapshot A n = .throw m := by
  unfold Player.nextSnapshot
  rw [h.hasNext]
  simp only [hc, decide_false]
  exact ⟨_, rfl⟩

theorem At.reset {A : Arith} {N step cur : Nat} {l : List Snapshot} {p : Player} (h : At A N step l cur p) :
    ∃ p', p.reset = .ok p' ∧ At A N step l 0 p' := by
  obtain ⟨-, file, tr, M, m, hh, rfl⟩ := h
  refine ⟨_, rfl, Nat.zero_le _, file, tr, M, m, hh, ?_⟩
  simp [Player.rewind, Stream.seek, headerSize]

theorem At.jump {A : Arith} {N step cur c : Nat} {l : List Snapshot} {p : Player} (h : At A N step l cur p) (hm : c % step = 0) (h0 : 0 < c)
    (hl : c / step ≤ l.length) :
    ∃ p' x, l[c / step - 1]? = some x ∧ p.jumpToSnapshot A N c = .ok (readBack A x, p') ∧ At A N step l (c / step) p' := by
  obtain ⟨-, file, tr, M, m, hh, rfl⟩ := h
  have hs := hh.fits.step_pos
  have hp : 0 < c / step := Nat.div_pos (Nat.le_of_dvd h0 (Nat.dvd_of_mod_eq_zero hm)) hs
  have hlt : c / step - 1 < l.length := by omega
  have hoff : snapshotOffset ⟨M, m, N, l.length, step⟩ (c / step - 1) = ((33 + (c / step - 1) * frameLength N : Nat) : Int) := by
    apply snapshotOffset_eq
    · exact hh.fits.molecules_lt
    · refine lt_of_le_of_lt (Nat.add_le_add_left (Nat.mul_le_mul_right _ hlt.le) _) hh.fits.size
  have ha : At A N step l (c / step - 1) ⟨⟨M, m, N, l.length, step⟩, some ⟨file, 33 + (c / step - 1) * frameLength N, false, tr⟩, c / step - 1⟩ :=
    ⟨hlt.le, file, tr, M, m, hh, rfl⟩
  obtain ⟨p', e1, e2⟩ := ha.next hlt
  refine ⟨p', l[c / step - 1], List.getElem?_eq_getElem hlt, ?_, ?_⟩
  · unfold Player.jumpToSnapshot
    simp only
    rw [hoff]
    have hl0 : l.length > 0 := by omega
    have hs0 : step ≠ 0 := by omega
    simp only [hl0, hm, hs0, hp, hl, decide_true, Outcome.require_true, Outcome.ok_bind, if_false, Stream.seek, Bool.false_eq_true]
    rw [if_neg (by omega), Int.toNat_natCast]
    exact e1
  · rw [Nat.sub_add_cancel hp] at e2
    exact e2

theorem At.noJump {A : Arith} {N step cur c : Nat} {l : List Snapshot} {p : Player} (h : At A N step l cur p)
    (hc : ¬ (c % step = 0 ∧ 0 < c ∧ c / step ≤ l.length)) (n : Nat) : ∃ m, p.jumpToSnapshot A n c = .throw m := by
  obtain ⟨-, file, tr, M, m, hh, rfl⟩ := h
  have hs := hh.fits.step_pos
  unfold Player.jumpToSnapshot
  simp only
  by_cases h1 : l.length > 0
  · simp only [h1, decide_true, Outcome.require_true, Outcome.ok_bind]
    rw [if_neg (by omega)]
    by_cases h2 : c % step = 0
    · simp only [h2, decide_true, Outcome.require_true, Outcome.ok_bind]
      by_cases h3 : c / step > 0
      · simp only [h3, decide_true, Outcome.require_true, Outcome.ok_bind]
        have h0 : 0 < c := by
          rcases Nat.eq_zero_or_pos c with rfl | h
          · simp at h3
          · exact h
        have h4 : ¬ c / step ≤ l.length := fun h4 => hc ⟨h2, h0, h4⟩
        simp only [h4, decide_false]
        exact ⟨_, rfl⟩
      · simp only [h3, decide_false]
        exact ⟨_, rfl⟩
    · simp only [h2, decide_false]
      exact ⟨_, rfl⟩
  · simp only [h1, decide_false]
    exact ⟨_, rfl⟩

theorem At.last {A : Arith} {N step cur : Nat} {l : List Snapshot} {p : Player} (h : At A N step l cur p) (h0 : 0 < l.length) :
    ∃ p' x, l[l.length - 1]? = some x ∧ p.lastSnapshot A N = .ok (readBack A x, p') ∧ At A N step l l.length p' := by
  have hh := h
  obtain ⟨-, file, tr, M, m, hh, rfl⟩ := hh
  have hs := hh.fits.step_pos
  unfold Player.lastSnapshot
  simp only
  rw [hh.cycles le_rfl]
  have e : l.length * step / step = l.length := Nat.mul_div_cancel _ hs
  obtain ⟨p', x, e1, e2, e3⟩ := h.jump (c := l.length * step) (Nat.mul_mod_left _ _) (Nat.mul_pos h0 hs) (by rw [e])
  rw [e] at e1 e3
  exact ⟨p', x, e1, e2, e3⟩

theorem At.noLast {A : Arith} {N step cur : Nat} {l : List Snapshot} {p : Player} (h : At A N step l cur p) (h0 : ¬ 0 < l.length) (n : Nat) :
    ∃ m, p.lastSnapshot A n = .throw m := by
  have hh := h
  obtain ⟨-, file, tr, M, m, hh, rfl⟩ := hh
  refine h.noJump ?_ n
  simp only
  rw [hh.cycles le_rfl]
  have : l.length = 0 := by omega
  rw [this]
  simp

theorem At.visit {A : Arith} {N step cur : Nat} {l : List Snapshot} {p : Player} (h : At A N step l cur p) (v : Visit) :
    (∀ x c, Spec.visit (l.map (readBack A)) step cur v = some (x, c) → ∃ p', perform A N (.file p) v = .ok (x, .file p') ∧ At A N step l c p') ∧
    (Spec.visit (l.map (readBack A)) step cur v = none → ∃ m, perform A N (.file p) v = .throw m) := by
  cases v with
  | next =>
    simp only [Spec.visit, List.length_map]
    constructor
    · intro x c hv
      split_ifs at hv with hc
      obtain ⟨p', e1, e2⟩ := h.next hc
      simp only [Option.some.injEq, Prod.mk.injEq] at hv
      obtain ⟨rfl, rfl⟩ := hv
      refine ⟨p', ?_, e2⟩
      simp only [perform, AnyPlayer.nextSnapshot, e1, Outcome.ok_bind, Outcome.pure_eq, List.getElem?_map, List.getElem?_eq_getElem hc, Option.map_some]
    · intro hv
      split_ifs at hv with hc
      obtain ⟨m, e⟩ := h.noNext hc N
      exact ⟨m, by simp only [perform, AnyPlayer.nextSnapshot, e, Outcome.throw_bind]⟩
  | reset =>
    simp only [Spec.visit]
    constructor
    · intro x c hv
      obtain ⟨p', e1, e2⟩ := h.reset
      simp only [Option.some.injEq, Prod.mk.injEq] at hv
      obtain ⟨rfl, rfl⟩ := hv
      exact ⟨p', by simp only [perform, AnyPlayer.reset, e1, Outcome.ok_bind, Outcome.pure_eq], e2⟩
    · intro hv
      simp at hv
  | jump c' =>
    simp only [Spec.visit, List.length_map]
    constructor
    · intro x c hv
      split_ifs at hv with hc
      obtain ⟨p', y, e0, e1, e2⟩ := h.jump hc.1 hc.2.1 hc.2.2
      simp only [Option.some.injEq, Prod.mk.injEq] at hv
      obtain ⟨rfl, rfl⟩ := hv
      refine ⟨p', ?_, e2⟩
      simp only [perform, AnyPlayer.jumpToSnapshot, e1, Outcome.ok_bind, Outcome.pure_eq, List.getElem?_map, e0, Option.map_some]
    · intro hv
      split_ifs at hv with hc
      obtain ⟨m, e⟩ := h.noJump hc N
      exact ⟨m, by simp only [perform, AnyPlayer.jumpToSnapshot, e, Outcome.throw_bind]⟩
  | last =>
    simp only [Spec.visit, List.length_map]
    constructor
    · intro x c hv
      split_ifs at hv with hc
      obtain ⟨p', y, e0, e1, e2⟩ := h.last hc
      simp only [Option.some.injEq, Prod.mk.injEq] at hv
      obtain ⟨rfl, rfl⟩ := hv
      refine ⟨p', ?_, e2⟩
      simp only [perform, AnyPlayer.lastSnapshot, e1, Outcome.ok_bind, Outcome.pure_eq, List.getElem?_map, e0, Option.map_some]
    · intro hv
      split_ifs at hv with hc
      obtain ⟨m, e⟩ := h.noLast hc N
      exact ⟨m, by simp only [perform, AnyPlayer.lastSnapshot, e, Outcome.throw_bind]⟩

theorem At.visits {A : Arith} {N step : Nat} {l : List Snapshot} : ∀ (vs : List Visit) {cur : Nat} {p : Player}, At A N step l cur p →
    (∀ x c, Spec.visits (l.map (readBack A)) step cur vs = some (x, c) → ∃ p', performAll A N (.file p) vs = .ok (x, .file p') ∧ At A N step l c p') ∧
    (Spec.visits (l.map (readBack A)) step cur vs = none → ∃ m, performAll A N (.file p) vs = .throw m)
  | [], cur, p, h => by
    simp only [Spec.visits, performAll]
    refine ⟨fun x c hv => ?_, fun hv => by simp at hv⟩
    simp only [Option.some.injEq, Prod.mk.injEq] at hv
    obtain ⟨rfl, rfl⟩ := hv
    exact ⟨p, rfl, h⟩
  | v :: vs, cur, p, h => by
    obtain ⟨h1, h2⟩ := h.visit v
    simp only [Spec.visits, performAll]
    cases hv : Spec.visit (l.map (readBack A)) step cur v with
    | none =>
      obtain ⟨m, e⟩ := h2 hv
      refine ⟨fun x c hx => by simp at hx, fun _ => ⟨m, by rw [e]; rfl⟩⟩
    | some y =>
      obtain ⟨y, c'⟩ := y
      obtain ⟨p1, e1, e2⟩ := h1 y c' hv
      obtain ⟨h3, h4⟩ := At.visits vs e2
      simp only
      rw [e1]
      simp only [Outcome.ok_bind]
      cases hvs : Spec.visits (l.map (readBack A)) step c' vs with
      | none =>
        obtain ⟨m, e⟩ := h4 hvs
        refine ⟨fun x c hx => by simp at hx, fun _ => ⟨m, by rw [e]; rfl⟩⟩
      | some z =>
        obtain ⟨z, c2⟩ := z
        obtain ⟨p2, e3, e4⟩ := h3 z c2 hvs
        refine ⟨fun x c hx => ?_, fun hx => by simp at hx⟩
        simp only [Option.some.injEq, Prod.mk.injEq] at hx
        obtain ⟨rfl, rfl⟩ := hx
        exact ⟨p2, by rw [e3]; rfl, e4⟩

/-- A player at the beginning presents the frames. -/
theorem At.presents {A : Arith} {N step : Nat} {l : List Snapshot} {p : Player} (h : At A N step l 0 p) :
    Presents A (.file p) N step (l.map (readBack A)) := by
  refine ⟨?_, ?_, ?_, fun vs x c hv => ?_, fun vs hv => (h.visits vs).2 hv⟩
  · obtain ⟨-, file, tr, M, m, hh, rfl⟩ := h
    rfl
  · obtain ⟨-, file, tr, M, m, hh, rfl⟩ := h
    rfl
  · obtain ⟨-, file, tr, M, m, hh, rfl⟩ := h
    simp only [AnyPlayer.totalCycles, Player.totalCycles, List.length_map]
    rw [mul_comm, hh.cycles le_rfl]
  · obtain ⟨p', e1, e2⟩ := (h.visits vs).1 x c hv
    refine ⟨.file p', e1, e2.cycles, ?_⟩
    rw [List.length_map]
    exact e2.hasNext

end Traj

end Rampack
