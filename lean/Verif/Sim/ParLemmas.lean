import Verif.Sim.ParLocal
/-
Lemmas: steps of threads keep an invariant, can always be done, and depend only on the things of the thread.
-/
namespace Rampack.Par

open Spec Packing

/-- What is known about domains. -/
structure Ctx (T : Traits) (n : Nat) (S0 : Sim) (ds : List Dom) : Prop where
  live : Sim.Live T n S0
  tids : ∀ d ∈ ds, ∀ d' ∈ ds, d.tid = d'.tid → d = d'
  some_idx : ∀ d ∈ ds, d.idxs ≠ []
  small : ∀ d ∈ ds, ∀ i ∈ d.idxs, i < n
  engine : ∀ d ∈ ds, d.tid < S0.mts.length
  len : ∀ d ∈ ds, d.accs.length = S0.env.samplers.length
  last : ∀ d ∈ ds, ∃ last, d.accs.getLast? = some last ∧ ∀ x < last, moveTypeFor d.accs x < S0.env.samplers.length
  active : ∀ d ∈ ds, ∀ i ∈ d.idxs, d.active.isInside (S0.P.shapeFn i).pos = true
  disjoint : ∀ d ∈ ds, ∀ d' ∈ ds, d.tid ≠ d'.tid → ∀ i ∈ d.idxs, i ∉ d'.idxs
  apart : ∀ d ∈ ds, ∀ d' ∈ ds, d.tid ≠ d'.tid → ∀ s t : Shape, Inside S0.P.box s.pos → Inside S0.P.box t.pos → IsRotation s.rot → IsRotation t.rot →
    d.active.isInside s.pos = true → d'.active.isInside t.pos = true →
    molW S0.P T.I (ind T.I) s t = 0 ∧ molW S0.P T.I T.I.energy s t = 0

/-- The invariant of the shared data. -/
structure Good (T : Traits) (n : Nat) (S0 : Sim) (ds : List Dom) (S : Sim) : Prop where
  pinv : PInv S.P T.I
  frame : SameFrame S0.P S.P
  active : ∀ d ∈ ds, ∀ i ∈ d.idxs, d.active.isInside (S.P.shapeFn i).pos = true
  rot : ∀ i < n, IsRotation (S.P.shapeFn i).rot
  rest : ∀ i < n, (∀ d ∈ ds, i ∉ d.idxs) → S.P.shapeFn i = S0.P.shapeFn i
  counted : S0.P.overlapCounting = false → S.P.numOverlaps = S0.P.numOverlaps
  positive : ∀ t ∈ S.mts, t.Positive
  fair : ∀ t ∈ S.mts, Fair t
  mlen : S.mts.length = S0.mts.length
  mrest : ∀ k, (∀ d ∈ ds, d.tid ≠ k) → S.mts[k]? = S0.mts[k]?
  slen : S.env.samplers.length = S0.env.samplers.length
  samplers : ∀ (g : Nat) (s : Sampler), S0.env.samplers[g]? = some s → S.env.samplers[g]? = some s ∨ S.env.samplers[g]? = some (s.adjusted S0.P.box)
  fixed : S = { S0 with P := S.P, env := { S0.env with samplers := S.env.samplers }, mts := S.mts, log := S.log }

/-- A trial move which was done by the thread of the domain. -/
structure Pend (T : Traits) (S : Sim) (d : Dom) (i : Nat) (t : Shape) : Prop where
  altered : S.P.lastAltered[d.tid]? = some i
  mem : i ∈ d.idxs
  slot : SlotOk S.P T.I (S.P.size + d.tid) t
  inside : Inside S.P.box t.pos
  active : d.active.isInside t.pos = true
  rot : IsRotation t.rot
  delta : T.I.hasHard = true → S.P.overlapCounting = true → (S.P.lastDeltas.getD d.tid 0 : ℝ) =
      (single S.P T.I (ind T.I) i t + wallNum S.P.box S.P.hasWall T.I t) -
        (single S.P T.I (ind T.I) i (S.P.shapeFn i) + wallNum S.P.box S.P.hasWall T.I (S.P.shapeFn i))

/-- The thread sees the same in both states. -/
structure Agree (T : Traits) (S S2 : Sim) (w : Worker) : Prop where
  shapes : ∀ i ∈ w.dom.idxs, S2.P.shapeFn i = S.P.shapeFn i
  tape : S2.mts[w.dom.tid]? = S.mts[w.dom.tid]?
  pend : ∀ g, w.pending = some (g, true) → ∃ i t, Pend T S w.dom i t ∧ Pend T S2 w.dom i t

/-- The data of a thread alone. -/
structure WOk (S0 : Sim) (w : Worker) : Prop where
  counters : w.counters.length = S0.env.samplers.length
  left : ∀ last, w.dom.accs.getLast? = some last → w.left ≤ last
  group : ∀ g v, w.pending = some (g, v) → g < S0.env.samplers.length
  busy : w.pending ≠ none → 0 < w.left

/-- What a step of a thread does to the shared data as seen by the others. -/
structure Effect (T : Traits) (S S' : Sim) (ds : List Dom) (d : Dom) : Prop where
  shapes : ∀ i < S.P.size, i ∉ d.idxs → S'.P.shapeFn i = S.P.shapeFn i
  tapes : ∀ k, k ≠ d.tid → S'.mts[k]? = S.mts[k]?
  pend : ∀ d' ∈ ds, d'.tid ≠ d.tid → ∀ i t, Pend T S d' i t → Pend T S' d' i t

variable {T : Traits} {n : Nat} {S0 : Sim} {ds : List Dom}

theorem Ctx.good (C : Ctx T n S0 ds) : Good T n S0 ds S0 where
  pinv := C.live.proper.1.inv.1
  frame := ⟨rfl, rfl, rfl, rfl, rfl⟩
  active := C.active
  rot i hi := C.live.proper.2 _ (by
    have := mols_getElem? (P := S0.P) (i := i) (by rw [C.live.proper.1.size]; exact hi)
    rw [shape_some (by rw [C.live.proper.1.size]; exact hi)] at this
    exact List.mem_of_getElem? this)
  rest _ _ _ := rfl
  counted _ := rfl
  positive := C.live.proper.1.tapes
  fair := C.live.fair
  mlen := rfl
  mrest _ _ := rfl
  slen := rfl
  samplers _ _ h := Or.inl h
  fixed := rfl

theorem Good.size {S : Sim} (C : Ctx T n S0 ds) (h : Good T n S0 ds S) : S.P.size = n := by
  rw [h.frame.size]; exact C.live.proper.1.size

theorem Good.grid {S : Sim} (C : Ctx T n S0 ds) (h : Good T n S0 ds S) : S.P.ng.isSome = S0.P.ng.isSome :=
  sameFrame_grid C.live.proper.1.inv.1 h.pinv h.frame

theorem Good.inside {S : Sim} (C : Ctx T n S0 ds) (h : Good T n S0 ds S) {i : Nat} (hi : i < n) : Inside S0.P.box (S.P.shapeFn i).pos := by
  rw [← h.frame.box]
  exact (h.pinv.q.core.shapeFn (by rw [h.size C]; exact hi)).2

/-- A molecule placed in the domain sees only the molecules of the domain and those of no domain. -/
theorem single_same (C : Ctx T n S0 ds) {S S2 : Sim} (h : Good T n S0 ds S) (h2 : Good T n S0 ds S2) {d : Dom} (hd : d ∈ ds)
    (hs : ∀ i ∈ d.idxs, S2.P.shapeFn i = S.P.shapeFn i) {t : Shape} (hin : Inside S0.P.box t.pos) (hact : d.active.isInside t.pos = true)
    (hrot : IsRotation t.rot) (i : Nat) :
    single S2.P T.I (ind T.I) i t = single S.P T.I (ind T.I) i t ∧ single S2.P T.I T.I.energy i t = single S.P T.I T.I.energy i t := by
  have hb : S2.P.box = S.P.box := h2.frame.box.trans h.frame.box.symm
  have hsz : S2.P.size = S.P.size := h2.frame.size.trans h.frame.size.symm
  have hg : S2.P.ng.isSome = S.P.ng.isSome := (h2.grid C).trans (h.grid C).symm
  have hmol : ∀ φ s, molW S.P T.I φ t s = molW S0.P T.I φ t s := by
    intro φ s; unfold molW; rw [h.frame.box, h.grid C]
  have key : ∀ j < S.P.size, S2.P.shapeFn j = S.P.shapeFn j ∨
      ((molW S.P T.I (ind T.I) t (S.P.shapeFn j) = 0 ∧ molW S.P T.I (ind T.I) t (S2.P.shapeFn j) = 0) ∧
        (molW S.P T.I T.I.energy t (S.P.shapeFn j) = 0 ∧ molW S.P T.I T.I.energy t (S2.P.shapeFn j) = 0)) := by
    intro j hj
    have hj' : j < n := by rw [← h.size C]; exact hj
    by_cases hex : ∃ d' ∈ ds, j ∈ d'.idxs
    · obtain ⟨d', hd', hm⟩ := hex
      by_cases e : d.tid = d'.tid
      · have := C.tids _ hd _ hd' e
        subst this
        exact Or.inl (hs j hm)
      · right
        have a1 := C.apart d hd d' hd' e t (S.P.shapeFn j) hin (h.inside C hj') hrot (h.rot j hj') hact (h.active d' hd' j hm)
        have a2 := C.apart d hd d' hd' e t (S2.P.shapeFn j) hin (h2.inside C hj') hrot (h2.rot j hj') hact (h2.active d' hd' j hm)
        simp only [hmol]
        exact ⟨⟨a1.1, a2.1⟩, a1.2, a2.2⟩
    · left
      have hex' : ∀ d' ∈ ds, j ∉ d'.idxs := fun d' hd' hm => hex ⟨d', hd', hm⟩
      rw [h.rest j hj' hex', h2.rest j hj' hex']
  exact ⟨single_local hb hsz hg fun j hj => (key j hj).imp id (·.1), single_local hb hsz hg fun j hj => (key j hj).imp id (·.2)⟩

/-- Trials of other threads go on. -/
theorem Pend.keep (C : Ctx T n S0 ds) {S S' : Sim} (h : Good T n S0 ds S) (h' : Good T n S0 ds S') {d : Dom} (hd : d ∈ ds)
    (hs : ∀ i ∈ d.idxs, S'.P.shapeFn i = S.P.shapeFn i) (hu : Untouched S.P S'.P T.I d.tid) {i : Nat} {t : Shape} (hp : Pend T S d i t) :
    Pend T S' d i t := by
  have hb : S'.P.box = S.P.box := h'.frame.box.trans h.frame.box.symm
  have hb0 : S.P.box = S0.P.box := h.frame.box
  have hw : S'.P.hasWall = S.P.hasWall := h'.frame.hasWall.trans h.frame.hasWall.symm
  have hi : i < n := C.small d hd i hp.mem
  refine ⟨hu.altered.trans hp.altered, hp.mem, hu.slot t hp.slot, by rw [hb]; exact hp.inside, hp.active, hp.rot, fun hh hc => ?_⟩
  have e1 := (single_same C h h' hd hs (by rw [← hb0]; exact hp.inside) hp.active hp.rot i).1
  have e2 := (single_same C h h' hd hs (h.inside C hi) (h.active d hd i hp.mem) (h.rot i hi) i).1
  rw [hu.delta, hs i hp.mem, e1, e2, hb, hw]
  exact hp.delta hh (by rw [h.frame.overlapCounting, ← h'.frame.overlapCounting]; exact hc)

/-- The state after a trial. -/
theorem Good.tried (C : Ctx T n S0 ds) {S : Sim} (h : Good T n S0 ds S) {d : Dom} (hd : d ∈ ds) {P1 : Packing} (hsm : SameMols S.P P1)
    (hP1 : PInv P1 T.I) {g k : Nat} {s : Sampler} {t : Tape} (hg : S.env.samplers[g]? = some s) (ht : S.mts[d.tid]? = some t) :
    Good T n S0 ds (S.triedState g (s.adjusted S0.P.box) d.tid (t.drop k) P1) := by
  have hsf : ∀ i < n, P1.shapeFn i = S.P.shapeFn i := fun i hi => hsm.shapeFn (by rw [h.size C]; exact hi)
  refine ⟨hP1, h.frame.trans hsm.frame, ?_, ?_, ?_, ?_, ?_, ?_, ?_, ?_, ?_, ?_, ?_⟩
  · intro d' hd' i hi
    show d'.active.isInside (P1.shapeFn i).pos = true
    rw [hsf i (C.small d' hd' i hi)]; exact h.active d' hd' i hi
  · intro i hi
    show IsRotation (P1.shapeFn i).rot
    rw [hsf i hi]; exact h.rot i hi
  · intro i hi hex
    show P1.shapeFn i = _
    rw [hsf i hi]; exact h.rest i hi hex
  · intro hc
    show P1.numOverlaps = _
    rw [hsm.numOverlaps]; exact h.counted hc
  · exact Sim.mem_set_tape h.positive ((h.positive t (List.mem_of_getElem? ht)).drop k)
  · exact Sim.mem_set_fair h.fair (Rampack.Fair.drop (h.fair t (List.mem_of_getElem? ht)) k)
  · show (S.mts.set _ _).length = _
    rw [List.length_set]; exact h.mlen
  · intro k' hk'
    show (S.mts.set _ _)[k']? = _
    rw [List.getElem?_set, if_neg (hk' d hd)]; exact h.mrest k' hk'
  · show (S.env.samplers.set _ _).length = _
    rw [List.length_set]; exact h.slen
  · intro g' s' hs'
    show (S.env.samplers.set _ _)[g']? = _ ∨ (S.env.samplers.set _ _)[g']? = _
    rw [List.getElem?_set]
    by_cases e : g = g'
    · subst e
      have hlt : g < S.env.samplers.length := (List.getElem?_eq_some_iff.mp hg).1
      rw [if_pos rfl, if_pos hlt]
      right
      rcases h.samplers g s' hs' with h1 | h1
      · rw [hg] at h1; injection h1 with h1; rw [h1]
      · rw [hg] at h1; injection h1 with h1; rw [h1, Sampler.adjusted_again]
    · rw [if_neg e]; exact h.samplers g' s' hs'
  · show Sim.triedState S g _ _ _ _ = _
    rw [h.fixed]
    rfl

end Rampack.Par
