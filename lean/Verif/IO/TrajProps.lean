import Verif.IO.CrashLemmas
/-
Theorems about trajectories: C30 - C33.
-/
namespace Rampack

open Rampack.Spec Rampack.Traj

/-- C30: every sequence of snapshots which was recorded is played back, whatever the sequence of visits: the right snapshot every time, the
right cycle numbers, and the right numbers of molecules, step and total cycles. Boxes and positions are the same bits; orientations are the
ones computed from their Euler angles (see C54). Opening with fixing does the same and reports that there is nothing to fix. -/
theorem C30_round_trip {A : Arith} {N step : Nat} {l : List Snapshot} (hf : Fits64 N step l.length) (hl : ∀ x ∈ l, Recordable A N x) :
    ∃ r p, session A [] N step false l = .ok r ∧ r.lastCycle = l.length * step ∧ Player.open' r.stream.bytes = .ok p ∧
      Presents A (.file p) N step (l.map (readBack A)) ∧
      Player.openFix r.stream.bytes N = .ok (p, ⟨false, l.length, l.length, 0⟩) := by
  have hc := content_cut hf hl
  have hd : l.length * frameLength N / frameLength N = l.length := Nat.mul_div_cancel _ (frameLength_pos N)
  have ht : (l.take (l.length * frameLength N / frameLength N)) = l := by rw [hd, List.take_length]
  refine ⟨_, Player.rewind ⟨1, 1, N, l.length, step⟩ ⟨content A N step l.length l, 33 + l.length * frameLength N, false, []⟩,
    session_create hf hl, Nat.mod_eq_of_lt hf.cycles, ?_⟩
  · have hat := hc.at_start (n := l.length) (p := 33 + l.length * frameLength N) hd.symm 1 1
    rw [ht] at hat
    have e : (⟨content A N step l.length l, 33, false, []⟩ : Stream).seekEnd = ⟨content A N step l.length l, 33 + l.length * frameLength N, false, []⟩ := by
      simp [Stream.seekEnd, hc.length]
    have ho := hc.offset
    have hh := hc.header
    rw [leVal_number hf] at ho hh
    refine ⟨?_, hat.presents, ?_⟩
    · unfold Player.open'
      simp only [hh, Outcome.ok_bind]
      rw [ho, e]
      simp [Stream.tell]
    · unfold Player.openFix
      simp only [hh, Outcome.ok_bind, hf.molecules_pos, decide_true, Outcome.require_true]
      rw [ho, e]
      simp [Stream.tell]

/-- Computations for examples: every matrix is a "rotation" with the angles in its first row. -/
def demoArith : Arith := ⟨fun m => .ok m.x, fun a => ⟨a, a, a⟩, fun _ => true, fun _ _ => true⟩

/-- A snapshot with two molecules for examples. -/
def demoSnapshot (w : Word) : Snapshot :=
  ⟨⟨⟨w, 0, 0⟩, ⟨0, w, 0⟩, ⟨0, 0, w⟩⟩, [⟨⟨1, 2, w⟩, ⟨⟨w, 1, 2⟩, ⟨w, 1, 2⟩, ⟨w, 1, 2⟩⟩⟩, ⟨⟨3, 4, 5⟩, ⟨⟨6, 7, w⟩, ⟨6, 7, w⟩, ⟨6, 7, w⟩⟩⟩]⟩

theorem demo_recordable (w : Word) : Recordable demoArith 2 (demoSnapshot w) := ⟨rfl, rfl, rfl, fun s _ => ⟨s.rot.x, rfl⟩⟩

/-- A hundred snapshots. -/
example : Fits64 2 1000 ((List.range 100).map fun n => demoSnapshot (BitVec.ofNat 64 n)).length ∧
    ∀ x ∈ (List.range 100).map fun n => demoSnapshot (BitVec.ofNat 64 n), Recordable demoArith 2 x := by
  constructor
  · constructor <;> simp [headerLength, frameLength]
  · intro x hx
    obtain ⟨n, -, rfl⟩ := List.mem_map.mp hx
    exact demo_recordable _

/-- C31: there were some closed sessions and a further session in which some snapshots were recorded, and the machine stopped after any
number of bytes were written (which may be in the middle of the header rewritten when closing). Then opening with fixing presents exactly the
snapshots which are complete in the file (and tells how many they are and how many bytes are left over). Opening without fixing either
refuses the file or presents a part of what was recorded, in order. A file without a complete header is refused. -/
theorem C31_crash {A : Arith} {N step : Nat} {ls : List (List Snapshot)} {l : List Snapshot} (hf : Fits64 N step (ls.flatten ++ l).length)
    (hl : ∀ x ∈ ls.flatten ++ l, Recordable A N x) :
    ∃ file r, sessions A N step [] false ls = .ok file ∧ session A file N step (!ls.isEmpty) l = .ok r ∧ ∀ k F,
      F = crashed file r.stream.trace k →
      F.length = min (file.length + k) (headerLength + (ls.flatten ++ l).length * frameLength N) ∧
      (F.length < headerLength → (∃ m, Player.open' F = .throw m) ∧ ∃ m, Player.openFix F N = .throw m) ∧
      (headerLength ≤ F.length →
        (∃ p rep, Player.openFix F N = .ok (p, rep) ∧
          Presents A (.file p) N step (((ls.flatten ++ l).take ((F.length - headerLength) / frameLength N)).map (readBack A)) ∧
          rep.inferred = (F.length - headerLength) / frameLength N ∧ rep.remainder = (F.length - headerLength) % frameLength N) ∧
        ((∃ m, Player.open' F = .throw m) ∨
          ∃ p n, Player.open' F = .ok p ∧ Presents A (.file p) N step (((ls.flatten ++ l).take n).map (readBack A)))) := by
  obtain ⟨file, r, e1, e2, e3⟩ := crash_cut hf hl
  refine ⟨file, r, e1, e2, fun k F hF => ?_⟩
  obtain ⟨h1, h2⟩ := e3 k
  rw [← hF] at h1 h2
  refine ⟨h1, fun h => short_throws h N, fun h => ?_⟩
  obtain ⟨ks, hc⟩ := h2 h
  constructor
  · obtain ⟨p, rep, f1, f2, f3, f4⟩ := hc.openFix
    exact ⟨p, rep, f1, f2.presents, f3, f4⟩
  · rcases hc.open' with ⟨p, f1, f2, -⟩ | ⟨-, f⟩
    · exact .inr ⟨p, _, f1, f2.presents⟩
    · exact .inl f

/-- Two sessions and a third one. -/
example : Fits64 2 1000 (([[demoSnapshot 1, demoSnapshot 2], [demoSnapshot 3]] : List (List Snapshot)).flatten ++ [demoSnapshot 4, demoSnapshot 5]).length ∧
    ∀ x ∈ ([[demoSnapshot 1, demoSnapshot 2], [demoSnapshot 3]] : List (List Snapshot)).flatten ++ [demoSnapshot 4, demoSnapshot 5],
      Recordable demoArith 2 x := by
  constructor
  · constructor <;> simp [headerLength, frameLength]
  · intro x hx
    simp only [List.flatten_cons, List.flatten_nil, List.append_nil, List.cons_append, List.nil_append, List.mem_cons, List.not_mem_nil, or_false] at hx
    rcases hx with rfl | rfl | rfl | rfl | rfl <;> exact demo_recordable _

/-- C31: the snapshots which are complete: a crash after all bytes of `n` snapshots were written, and before all bytes of the next one were,
leaves `n` snapshots (recording to a new file). -/
theorem C31_complete {A : Arith} {N step : Nat} {l : List Snapshot} (hf : Fits64 N step l.length) (hl : ∀ x ∈ l, Recordable A N x) {n k : Nat}
    (hn : n < l.length) (h1 : headerLength + n * frameLength N ≤ k) (h2 : k < headerLength + (n + 1) * frameLength N) :
    ∃ r p rep, session A [] N step false l = .ok r ∧ Player.openFix (crashed [] r.stream.trace k) N = .ok (p, rep) ∧
      Presents A (.file p) N step ((l.take n).map (readBack A)) := by
  obtain ⟨file, r, e1, e2, e3⟩ := C31_crash (ls := []) (l := l) (A := A) (N := N) (step := step) (by simpa using hf) (by simpa using hl)
  have : file = [] := by
    simp only [sessions, Outcome.ok_inj] at e1
    exact e1.symm
  subst this
  obtain ⟨f1, -, f3⟩ := e3 k _ rfl
  simp only [List.flatten_nil, List.nil_append, List.length_nil, Nat.zero_add] at f1 f3
  have hle : headerLength + (n + 1) * frameLength N ≤ headerLength + l.length * frameLength N :=
    Nat.add_le_add_left (Nat.mul_le_mul_right _ hn) _
  rw [min_eq_left (by omega)] at f1
  rw [f1] at f3
  obtain ⟨⟨p, rep, g1, g2, -, -⟩, -⟩ := f3 (by omega)
  refine ⟨r, p, rep, e2, g1, ?_⟩
  have : (k - headerLength) / frameLength N = n := by
    have hp := frameLength_pos N
    apply Nat.div_eq_of_lt_le
    · omega
    · omega
  rw [this] at g2
  exact g2

example : Fits64 2 1000 [demoSnapshot 1, demoSnapshot 2].length ∧ (1 : Nat) < [demoSnapshot 1, demoSnapshot 2].length ∧
    headerLength + 1 * frameLength 2 ≤ 300 ∧ 300 < headerLength + (1 + 1) * frameLength 2 := by
  refine ⟨?_, by decide, by decide, by decide⟩
  constructor <;> simp [headerLength, frameLength]

/-- C32: closing a recorder and opening the file again in append mode any number of times gives the same file, to the last byte, as one
session. -/
theorem C32_append {A : Arith} {N step : Nat} {l : List Snapshot} {ls : List (List Snapshot)} (hf : Fits64 N step (l :: ls).flatten.length)
    (hl : ∀ x ∈ (l :: ls).flatten, Recordable A N x) :
    ∃ r, session A [] N step false (l :: ls).flatten = .ok r ∧ sessions A N step [] false (l :: ls) = .ok r.stream.bytes :=
  ⟨_, session_create hf hl, sessions_ok hf hl⟩

/-- C32: appending with another number of molecules or another step is refused, and so is recording from the beginning to a file which is
not empty. -/
theorem C32_refused {A : Arith} {N step : Nat} {l : List Snapshot} {ls : List (List Snapshot)} (hf : Fits64 N step (l :: ls).flatten.length)
    (hl : ∀ x ∈ (l :: ls).flatten, Recordable A N x) :
    ∃ file, sessions A N step [] false (l :: ls) = .ok file ∧
      (∀ N' step', 0 < N' → 0 < step' → N' ≠ N ∨ step' ≠ step → ∃ m, Recorder.make file N' step' true = .throw m) ∧
      ∀ N' step', ∃ m, Recorder.make file N' step' false = .throw m := by
  have hc := content_cut hf hl
  refine ⟨_, sessions_ok hf hl, fun N' step' h1 h2 h3 => ?_, fun N' step' => ?_⟩
  · unfold Recorder.make
    simp only [h1, h2, gt_iff_lt, decide_true, Outcome.require_true, Outcome.ok_bind, if_true]
    unfold Recorder.append
    simp only [hc.header, Outcome.ok_bind]
    have : (decide (N' = N) && decide (step' = step)) = false := by
      rcases h3 with h | h <;> simp [h]
    rw [this]
    exact ⟨_, rfl⟩
  · unfold Recorder.make
    by_cases h1 : N' > 0
    · by_cases h2 : step' > 0
      · simp only [h1, h2, decide_true, Outcome.require_true, Outcome.ok_bind, Bool.false_eq_true, if_false]
        unfold Recorder.create
        have e : (Stream.ofFile (content A N step (l :: ls).flatten.length (l :: ls).flatten)).seekEnd.tell =
            ((content A N step (l :: ls).flatten.length (l :: ls).flatten).length : Int) := rfl
        have hne : ¬ (((content A N step (l :: ls).flatten.length (l :: ls).flatten).length : Int) = 0) := by
          rw [hc.length]
          omega
        simp only [e, hne, decide_false]
        exact ⟨_, rfl⟩
      · simp only [h1, h2, decide_true, decide_false, Outcome.require_true, Outcome.ok_bind]
        exact ⟨_, rfl⟩
    · simp only [h1, decide_false]
      exact ⟨_, rfl⟩

example : Fits64 2 1000 ([[demoSnapshot 1, demoSnapshot 2], [], [demoSnapshot 3]] : List (List Snapshot)).flatten.length := by
  constructor <;> simp [headerLength, frameLength]

private theorem performAll_snoc {A : Arith} {n : Nat} : ∀ (vs : List Visit) (v : Visit) (p : AnyPlayer),
    performAll A n p (vs ++ [v]) = (do
      let (l, p) ← performAll A n p vs
      let (x, p) ← perform A n p v
      return (l ++ [x], p))
  | [], v, p => by
    simp only [List.nil_append, performAll, Outcome.ok_bind]
  | w :: vs, v, p => by
    simp only [List.cons_append, performAll, performAll_snoc vs v]
    cases perform A n p w with
    | ok y =>
      simp only [Outcome.ok_bind]
      cases performAll A n y.2 vs with
      | ok z =>
        simp only [Outcome.ok_bind, Outcome.pure_eq]
        cases perform A n z.2 v <;> rfl
      | _ => rfl
    | _ => rfl

private theorem visits_snoc {l : List Snapshot} {step : Nat} : ∀ (vs : List Visit) (v : Visit) (cur : Nat),
    visits l step cur (vs ++ [v]) = (match visits l step cur vs with
      | none => none
      | some (x, cur) => match visit l step cur v with
        | none => none
        | some (y, cur) => some (x ++ [y], cur))
  | [], v, cur => by
    simp only [List.nil_append, visits]
    cases visit l step cur v <;> rfl
  | w :: vs, v, cur => by
    simp only [List.cons_append, visits]
    cases visit l step cur w with
    | none => rfl
    | some y =>
      obtain ⟨y, c⟩ := y
      simp only
      rw [visits_snoc vs v c]
      cases visits l step c vs with
      | none => rfl
      | some z =>
        obtain ⟨z, c'⟩ := z
        simp only
        cases visit l step c' v <;> rfl

/-- A state which a player got to by some visits. -/
def Got (A : Arith) (p0 : AnyPlayer) (N step : Nat) (l : List Snapshot) (p : AnyPlayer) (cur : Nat) : Prop :=
  ∃ vs x, visits l step 0 vs = some (x, cur) ∧ performAll A N p0 vs = .ok (x, p)

theorem got_visit {A : Arith} {p0 p : AnyPlayer} {N step cur : Nat} {l : List Snapshot} (hp : Presents A p0 N step l)
    (h : Got A p0 N step l p cur) (v : Visit) :
    (∀ x c, visit l step cur v = some (x, c) → ∃ p', perform A N p v = .ok (x, p') ∧ Got A p0 N step l p' c) ∧
    (visit l step cur v = none → ∃ m, perform A N p v = .throw m) := by
  obtain ⟨vs, xs, h1, h2⟩ := h
  constructor
  · intro x c hv
    have hs : visits l step 0 (vs ++ [v]) = some (xs ++ [x], c) := by rw [visits_snoc, h1]; simp only; rw [hv]
    obtain ⟨p', e1, -, -⟩ := hp.shows _ _ _ hs
    have e2 := e1
    rw [performAll_snoc, h2] at e2
    simp only [Outcome.ok_bind] at e2
    obtain ⟨y, f1, f2⟩ := Outcome.bind_eq_ok.mp e2
    simp only [Outcome.pure_eq, Outcome.ok_inj, Prod.mk.injEq, List.append_cancel_left_eq, List.cons.injEq, and_true] at f2
    obtain ⟨rfl, rfl⟩ := f2
    exact ⟨y.2, f1, vs ++ [v], xs ++ [y.1], hs, e1⟩
  · intro hv
    have hs : visits l step 0 (vs ++ [v]) = none := by rw [visits_snoc, h1]; simp only; rw [hv]
    obtain ⟨m, e⟩ := hp.refuses _ hs
    rw [performAll_snoc, h2] at e
    simp only [Outcome.ok_bind] at e
    cases hq : perform A N p v with
    | ok y => rw [hq] at e; cases e
    | throw m => exact ⟨m, rfl⟩
    | ub => rw [hq] at e; cases e
    | diverge => rw [hq] at e; cases e

theorem got_state {A : Arith} {p0 p : AnyPlayer} {N step cur : Nat} {l : List Snapshot} (hp : Presents A p0 N step l)
    (h : Got A p0 N step l p cur) : p.currentCycles = cur * step ∧ p.hasNext = decide (cur < l.length) := by
  obtain ⟨vs, xs, h1, h2⟩ := h
  obtain ⟨p', e1, e2, e3⟩ := hp.shows _ _ _ h1
  rw [h2, Outcome.ok_inj, Prod.mk.injEq] at e1
  rw [e1.2]
  exact ⟨e2, e3⟩

private theorem numMolecules_truncated {p : AnyPlayer} {t : Nat} : (AnyPlayer.truncated p t).numMolecules = p.numMolecules := rfl

private theorem reset_same : ∀ {p p' : AnyPlayer}, p.reset = .ok p' → p'.numMolecules = p.numMolecules ∧ p'.cycleStep = p.cycleStep
  | .file p, p', h => by
    simp only [AnyPlayer.reset] at h
    obtain ⟨q, h1, h⟩ := Outcome.bind_eq_ok.mp h
    cases h
    unfold Player.reset at h1
    cases hs : p.stream with
    | none => rw [hs] at h1; cases h1
    | some s => rw [hs] at h1; cases h1; exact ⟨rfl, rfl⟩
  | .truncated p t, p', h => by
    simp only [AnyPlayer.reset] at h
    obtain ⟨q, h1, h⟩ := Outcome.bind_eq_ok.mp h
    cases h
    have := reset_same (p := p) (p' := q) h1
    exact this

/-- C33: a truncated player presents exactly the snapshots up to the given cycle, for every sequence of visits; this holds for every player
which presents some snapshots, also for a truncated one. -/
theorem C33_truncated {A : Arith} {p : AnyPlayer} {N step total : Nat} {l : List Snapshot} (hp : Presents A p N step l) (hs : 0 < step)
    (h1 : total ≤ l.length * step) (h2 : total % step = 0) :
    ∃ q, p.truncate total = .ok q ∧ Presents A q N step (l.take (total / step)) := by
  have hg0 : Got A p N step l p 0 := ⟨[], [], rfl, rfl⟩
  obtain ⟨q, e1, hg⟩ := (got_visit hp hg0 .reset).1 none 0 rfl
  have er : p.reset = .ok q := by
    simp only [perform] at e1
    obtain ⟨q', f1, f2⟩ := Outcome.bind_eq_ok.mp e1
    simp only [Outcome.pure_eq, Outcome.ok_inj, Prod.mk.injEq, true_and] at f2
    subst f2
    exact f1
  obtain ⟨rm, rs⟩ := reset_same er
  have hm : total / step ≤ l.length := by
    have := Nat.div_le_div_right (c := step) h1
    rwa [Nat.mul_div_cancel _ hs] at this
  have ht : total / step * step = total := Nat.div_mul_cancel (Nat.dvd_of_mod_eq_zero h2)
  have hlen : (l.take (total / step)).length = total / step := by rw [List.length_take, min_eq_left hm]
  have hget : ∀ i, i < total / step → (l.take (total / step))[i]? = l[i]? := fun i hi => List.getElem?_take_of_lt hi
  have step1 : ∀ (q : AnyPlayer) (cur : Nat), Got A p N step l q cur → cur ≤ total / step → ∀ v,
      (∀ x c, visit (l.take (total / step)) step cur v = some (x, c) → c ≤ total / step ∧
        ∃ q', perform A N (.truncated q total) v = .ok (x, .truncated q' total) ∧ Got A p N step l q' c) ∧
      (visit (l.take (total / step)) step cur v = none → ∃ m, perform A N (.truncated q total) v = .throw m) := by
    intro q cur hg hcur v
    obtain ⟨hcyc, -⟩ := got_state hp hg
    cases v with
    | next =>
      obtain ⟨g1, g2⟩ := got_visit hp hg .next
      simp only [visit, hlen] at g1 g2 ⊢
      simp only [perform, AnyPlayer.nextSnapshot]
      rw [hcyc]
      by_cases hc : cur < total / step
      · have hlt : cur * step < total := by rw [← ht]; exact Nat.mul_lt_mul_of_pos_right hc hs
        rw [if_pos hc, if_pos (lt_of_lt_of_le hc hm)] at *
        refine ⟨fun x c hx => ?_, fun hx => by simp at hx⟩
        simp only [Option.some.injEq, Prod.mk.injEq] at hx
        obtain ⟨rfl, rfl⟩ := hx
        obtain ⟨q', f1, f2⟩ := g1 _ _ rfl
        refine ⟨hc, q', ?_, f2⟩
        simp only [perform] at f1
        obtain ⟨y, k1, k2⟩ := Outcome.bind_eq_ok.mp f1
        simp only [Outcome.pure_eq, Outcome.ok_inj, Prod.mk.injEq] at k2
        obtain ⟨k2, rfl⟩ := k2
        rw [hget _ hc, ← k2]
        have hle : ¬ total ≤ cur * step := not_le.mpr hlt
        simp [k1, hle]
      · have hge : ¬ cur * step < total := by rw [← ht]; exact not_lt.mpr (Nat.mul_le_mul_right _ (not_lt.mp hc))
        rw [if_neg hc]
        refine ⟨fun x c hx => by simp at hx, fun _ => ⟨"TruncatedPlayer::nextSnapshot: the end already reached", ?_⟩⟩
        simp [not_lt.mp hge]
    | reset =>
      obtain ⟨q', f1, f2⟩ := (got_visit hp hg .reset).1 none 0 rfl
      simp only [visit]
      refine ⟨fun x c hx => ?_, fun hx => by simp at hx⟩
      simp only [Option.some.injEq, Prod.mk.injEq] at hx
      obtain ⟨rfl, rfl⟩ := hx
      refine ⟨Nat.zero_le _, q', ?_, f2⟩
      simp only [perform] at f1 ⊢
      obtain ⟨y, k1, k2⟩ := Outcome.bind_eq_ok.mp f1
      simp only [Outcome.pure_eq, Outcome.ok_inj, Prod.mk.injEq, true_and] at k2
      subst k2
      simp [AnyPlayer.reset, k1]
    | jump c' =>
      obtain ⟨g1, g2⟩ := got_visit hp hg (.jump c')
      simp only [visit, hlen] at g1 g2 ⊢
      simp only [perform, AnyPlayer.jumpToSnapshot]
      by_cases hle : c' > total
      · have : ¬ (c' % step = 0 ∧ 0 < c' ∧ c' / step ≤ total / step) := by
          rintro ⟨h3, -, h4⟩
          have := Nat.mul_le_mul_right step h4
          rw [ht, Nat.div_mul_cancel (Nat.dvd_of_mod_eq_zero h3)] at this
          omega
        rw [if_neg this]
        refine ⟨fun x c hx => by simp at hx, fun _ => ⟨"TruncatedPlayer::jumpToSnapshot: jumping above the limit", ?_⟩⟩
        simp [hle]
      · have hd : c' / step ≤ total / step := Nat.div_le_div_right (not_lt.mp hle)
        simp only [hle, decide_false, Bool.not_false, Outcome.require_true, Outcome.ok_bind]
        by_cases hc : c' % step = 0 ∧ 0 < c'
        · rw [if_pos ⟨hc.1, hc.2, hd.trans hm⟩] at g1
          rw [if_pos ⟨hc.1, hc.2, hd⟩]
          refine ⟨fun x c hx => ?_, fun hx => by simp at hx⟩
          simp only [Option.some.injEq, Prod.mk.injEq] at hx
          obtain ⟨rfl, rfl⟩ := hx
          obtain ⟨q', f1, f2⟩ := g1 _ _ rfl
          refine ⟨hd, q', ?_, f2⟩
          simp only [perform] at f1
          obtain ⟨y, k1, k2⟩ := Outcome.bind_eq_ok.mp f1
          simp only [Outcome.pure_eq, Outcome.ok_inj, Prod.mk.injEq] at k2
          obtain ⟨k2, rfl⟩ := k2
          have hpos : 0 < c' / step := Nat.div_pos (Nat.le_of_dvd hc.2 (Nat.dvd_of_mod_eq_zero hc.1)) hs
          rw [hget _ (by omega), ← k2]
          simp [k1]
        · rw [if_neg (fun h => hc ⟨h.1, h.2.1⟩)] at g2 ⊢
          refine ⟨fun x c hx => by simp at hx, fun _ => ?_⟩
          obtain ⟨m, f⟩ := g2 rfl
          simp only [perform] at f
          cases hq : q.jumpToSnapshot A N c' with
          | ok y => rw [hq] at f; cases f
          | throw m => exact ⟨m, rfl⟩
          | ub => rw [hq] at f; cases f
          | diverge => rw [hq] at f; cases f
    | last =>
      obtain ⟨g1, g2⟩ := got_visit hp hg (.jump total)
      simp only [visit, hlen] at g1 g2 ⊢
      simp only [perform, AnyPlayer.lastSnapshot]
      by_cases hc : 0 < total / step
      · have h0 : 0 < total := by
          rcases Nat.eq_zero_or_pos total with h | h
          · rw [h] at hc; simp at hc
          · exact h
        rw [if_pos ⟨h2, h0, hm⟩] at g1
        rw [if_pos hc]
        refine ⟨fun x c hx => ?_, fun hx => by simp at hx⟩
        simp only [Option.some.injEq, Prod.mk.injEq] at hx
        obtain ⟨rfl, rfl⟩ := hx
        obtain ⟨q', f1, f2⟩ := g1 _ _ rfl
        refine ⟨le_rfl, q', ?_, f2⟩
        simp only [perform] at f1
        obtain ⟨y, k1, k2⟩ := Outcome.bind_eq_ok.mp f1
        simp only [Outcome.pure_eq, Outcome.ok_inj, Prod.mk.injEq] at k2
        obtain ⟨k2, rfl⟩ := k2
        rw [hget _ (by omega), ← k2]
        simp [k1]
      · have h0 : total = 0 := by
          have : total / step = 0 := by omega
          rw [this] at ht
          omega
        rw [if_neg (fun h => by have := h.2.1; omega)] at g2
        rw [if_neg hc]
        refine ⟨fun x c hx => by simp at hx, fun _ => ?_⟩
        obtain ⟨m, f⟩ := g2 rfl
        simp only [perform] at f
        cases hq : q.jumpToSnapshot A N total with
        | ok y => rw [hq] at f; cases f
        | throw m => exact ⟨m, rfl⟩
        | ub => rw [hq] at f; cases f
        | diverge => rw [hq] at f; cases f
  have steps : ∀ (vs : List Visit) (q : AnyPlayer) (cur : Nat), Got A p N step l q cur → cur ≤ total / step →
      (∀ x c, visits (l.take (total / step)) step cur vs = some (x, c) → c ≤ total / step ∧
        ∃ q', performAll A N (.truncated q total) vs = .ok (x, .truncated q' total) ∧ Got A p N step l q' c) ∧
      (visits (l.take (total / step)) step cur vs = none → ∃ m, performAll A N (.truncated q total) vs = .throw m) := by
    intro vs
    induction vs with
    | nil =>
      intro q cur hg hcur
      simp only [visits, performAll]
      refine ⟨fun x c hx => ?_, fun hx => by simp at hx⟩
      simp only [Option.some.injEq, Prod.mk.injEq] at hx
      obtain ⟨rfl, rfl⟩ := hx
      exact ⟨hcur, q, rfl, hg⟩
    | cons v vs ih =>
      intro q cur hg hcur
      obtain ⟨s1, s2⟩ := step1 q cur hg hcur v
      simp only [visits, performAll]
      cases hv : visit (l.take (total / step)) step cur v with
      | none =>
        obtain ⟨m, e⟩ := s2 hv
        exact ⟨fun x c hx => by simp at hx, fun _ => ⟨m, by rw [e]; rfl⟩⟩
      | some y =>
        obtain ⟨y, c1⟩ := y
        obtain ⟨hc1, q1, e1, e2⟩ := s1 y c1 hv
        obtain ⟨t1, t2⟩ := ih q1 c1 e2 hc1
        simp only
        rw [e1]
        simp only [Outcome.ok_bind]
        cases hvs : visits (l.take (total / step)) step c1 vs with
        | none =>
          obtain ⟨m, e⟩ := t2 hvs
          exact ⟨fun x c hx => by simp at hx, fun _ => ⟨m, by rw [e]; rfl⟩⟩
        | some z =>
          obtain ⟨z, c2⟩ := z
          obtain ⟨hc2, q2, e3, e4⟩ := t1 z c2 hvs
          refine ⟨fun x c hx => ?_, fun hx => by simp at hx⟩
          simp only [Option.some.injEq, Prod.mk.injEq] at hx
          obtain ⟨rfl, rfl⟩ := hx
          exact ⟨hc2, q2, by rw [e3]; rfl, e4⟩
  refine ⟨.truncated q total, ?_, ?_, ?_, ?_, fun vs x c hx => ?_, fun vs hx => (steps vs q 0 hg (Nat.zero_le _)).2 hx⟩
  · unfold AnyPlayer.truncate
    rw [hp.total, hp.cycleStep]
    simp only [h1, decide_true, Outcome.require_true, Outcome.ok_bind]
    rw [if_neg (by omega)]
    simp [h2, er]
  · exact rm.trans hp.numMolecules
  · exact rs.trans hp.cycleStep
  · rw [hlen, ht]
    rfl
  · obtain ⟨hc, q', e1, e2⟩ := (steps vs q 0 hg (Nat.zero_le _)).1 x c hx
    obtain ⟨f1, f2⟩ := got_state hp e2
    refine ⟨_, e1, f1, ?_⟩
    simp only [AnyPlayer.hasNext]
    rw [f1, f2, hlen]
    by_cases hlt : c < total / step
    · have h3 : c < l.length := lt_of_lt_of_le hlt hm
      have h4 : c * step < total := by rw [← ht]; exact Nat.mul_lt_mul_of_pos_right hlt hs
      simp [h3, h4, hlt]
    · have h4 : ¬ c * step < total := by rw [← ht]; exact not_lt.mpr (Nat.mul_le_mul_right _ (not_lt.mp hlt))
      by_cases h3 : c < l.length <;> simp [h3, h4, hlt]

/-- Three snapshots, shown up to the second one. -/
example : ∃ p : Player, Presents demoArith (.file p) 2 1000 ([demoSnapshot 1, demoSnapshot 2, demoSnapshot 3].map (readBack demoArith)) := by
  obtain ⟨r, p, -, -, -, h, -⟩ := C30_round_trip (A := demoArith) (N := 2) (step := 1000) (l := [demoSnapshot 1, demoSnapshot 2, demoSnapshot 3])
    (by constructor <;> simp [headerLength, frameLength]) (by
      intro x hx
      simp only [List.mem_cons, List.not_mem_nil, or_false] at hx
      rcases hx with rfl | rfl | rfl <;> exact demo_recordable _)
  exact ⟨p, h⟩

/-- C33: truncation beyond the end or not at a snapshot is refused. -/
theorem C33_refused {A : Arith} {p : AnyPlayer} {N step total : Nat} {l : List Snapshot} (hp : Presents A p N step l) (hs : 0 < step)
    (h : l.length * step < total ∨ total % step ≠ 0) : ∃ m, p.truncate total = .throw m := by
  unfold AnyPlayer.truncate
  rw [hp.total, hp.cycleStep]
  by_cases h1 : total ≤ l.length * step
  · have h2 : ¬ total % step = 0 := by
      rcases h with h | h
      · omega
      · exact h
    simp only [h1, decide_true, Outcome.require_true, Outcome.ok_bind]
    rw [if_neg (by omega)]
    simp only [h2, decide_false]
    exact ⟨_, rfl⟩
  · simp only [h1, decide_false]
    exact ⟨_, rfl⟩

end Rampack
