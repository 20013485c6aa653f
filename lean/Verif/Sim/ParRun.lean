import Verif.Sim.ParSteps
import Mathlib.Logic.Relation
/-
Lemmas: executions of threads.
-/
namespace Rampack.Par

open Spec Packing

variable {T : Traits} {n : Nat} {S0 : Sim} {ds : List Dom}

/-- The thread has used the group of moves. -/
def Worker.Tried (w : Worker) (g : Nat) : Prop := (∃ v, w.pending = some (g, v)) ∨ ∃ c, w.counters[g]? = some c ∧ 0 < c.moves

theorem increment_moves (c : Counter) (v : Bool) : (c.increment v).moves = c.moves + 1 := by cases v <;> rfl

/-- A step of a thread. -/
theorem step_two (C : Ctx T n S0 ds) {S S2 S' : Sim} {w w' : Worker} (h : Good T n S0 ds S) (h2 : Good T n S0 ds S2) (hd : w.dom ∈ ds)
    (hw : WOk S0 w) (ha : Agree T S S2 w) (hs : WorkerStep T (S, w) (S', w')) :
    w'.dom = w.dom ∧ WOk S0 w' ∧ Good T n S0 ds S' ∧ Effect T S S' ds w.dom ∧
      (∃ S2', WorkerStep T (S2, w) (S2', w') ∧ Good T n S0 ds S2' ∧ Agree T S' S2' w') ∧
      ∀ (g : Nat) (s0 : Sampler), S0.env.samplers[g]? = some s0 → (S'.env.samplers[g]? = S.env.samplers[g]? ∧ (w'.Tried g ↔ w.Tried g)) ∨
        (S'.env.samplers[g]? = some (s0.adjusted S0.P.box) ∧ w'.Tried g) := by
  cases hs with
  | trial idle more e =>
    obtain ⟨S1, S2', g, v, s0, e1, e2, g1, g2, f1, -, a, hs0, hset, -⟩ := trial_two C h h2 hd hw idle more ha
    rw [e] at e1
    injection e1 with e1
    injection e1 with e1 e1'
    subst e1 e1'
    refine ⟨rfl, ⟨hw.counters, hw.left, ?_, fun _ => more⟩, g1, f1, ⟨S2', .trial idle more e2, g2, a⟩, ?_⟩
    · intro g' v' hg'
      simp only [Option.some.injEq, Prod.mk.injEq] at hg'
      rw [← hg'.1]
      exact (List.getElem?_eq_some_iff.mp hs0).1
    · intro g' s' hs'
      by_cases hgg : g = g'
      · subst hgg
        right
        rw [hs0] at hs'
        injection hs' with hs'
        subst hs'
        refine ⟨?_, Or.inl ⟨v, rfl⟩⟩
        rw [hset, List.getElem?_set, if_pos rfl, if_pos (by rw [h.slen]; exact (List.getElem?_eq_some_iff.mp hs0).1)]
      · left
        refine ⟨by rw [hset, List.getElem?_set, if_neg hgg], ?_⟩
        unfold Worker.Tried
        simp only [idle, Option.some.injEq, Prod.mk.injEq, hgg, false_and, exists_const, false_or, reduceCtorEq]
  | finish busy e =>
    rename_i g v
    obtain ⟨S1, S2', c, hc, e1, e2, g1, g2, f1, -, a, hset, -⟩ := finish_two C h h2 hd hw busy ha
    rw [e] at e1
    injection e1 with e1
    injection e1 with e1 e1'
    subst e1 e1'
    have hg := hw.group g v busy
    refine ⟨rfl, ⟨?_, ?_, ?_, ?_⟩, g1, f1, ⟨S2', .finish busy e2, g2, a⟩, ?_⟩
    · show (w.counters.set g _).length = _
      rw [List.length_set]; exact hw.counters
    · intro last hl
      exact (Nat.sub_le _ _).trans (hw.left last hl)
    · intro g' v' h'; cases h'
    · intro h'; exact absurd rfl h'
    · intro g' s' hs'
      left
      refine ⟨by rw [hset], ?_⟩
      have hdec : (w.decided g c v).Tried g' ↔ ∃ c', (w.counters.set g (c.increment v))[g']? = some c' ∧ 0 < c'.moves := by
        unfold Worker.Tried Worker.decided
        simp only [reduceCtorEq, exists_const, false_or]
      rw [hdec, List.getElem?_set]
      by_cases hgg : g = g'
      · subst hgg
        rw [if_pos rfl, if_pos (by rw [hw.counters]; exact hg)]
        refine ⟨fun _ => Or.inl ⟨v, busy⟩, fun _ => ⟨_, rfl, ?_⟩⟩
        rw [increment_moves]; omega
      · rw [if_neg hgg]
        unfold Worker.Tried
        simp only [busy, Option.some.injEq, Prod.mk.injEq, hgg, false_and, exists_const, false_or]

/-- A thread which has not finished can go on. -/
theorem can_step (C : Ctx T n S0 ds) {S : Sim} {w : Worker} (h : Good T n S0 ds S) (hd : w.dom ∈ ds) (hw : WOk S0 w) (ha : Agree T S S w)
    (hn : ¬ w.Done) : ∃ S' w', WorkerStep T (S, w) (S', w') := by
  cases hp : w.pending with
  | none =>
    have hmore : 0 < w.left := Nat.pos_of_ne_zero fun e => hn ⟨e, hp⟩
    obtain ⟨S', -, g, v, -, e, -⟩ := trial_two C h h hd hw hp hmore ha
    exact ⟨S', _, .trial hp hmore e⟩
  | some gv =>
    obtain ⟨g, v⟩ := gv
    obtain ⟨S', -, c, -, e, -⟩ := finish_two C h h hd hw hp ha
    exact ⟨S', _, .finish hp e⟩

theorem Done.no_step {S : Sim} {w : Worker} {b : Sim × Worker} (hw : w.Done) : ¬ WorkerStep T (S, w) b := by
  intro h
  cases h with
  | trial idle more e => rw [hw.1] at more; exact absurd more (lt_irrefl 0)
  | finish busy e => rw [hw.2] at busy; cases busy

theorem WorkerStep.unique {a b c : Sim × Worker} (h : WorkerStep T a b) (h' : WorkerStep T a c) : b = c := by
  cases h with
  | trial idle more e =>
    cases h' with
    | trial idle' more' e' => rw [e] at e'; injection e'
    | finish busy' e' => rw [idle] at busy'; cases busy'
  | finish busy e =>
    cases h' with
    | trial idle' more' e' => rw [idle'] at busy; cases busy
    | finish busy' e' =>
      rw [busy] at busy'
      injection busy' with busy'
      injection busy' with h1 h2
      subst h1 h2
      rw [e] at e'; injection e'

/-- The execution of a thread alone. -/
def Solo (T : Traits) : Sim × Worker → Sim × Worker → Prop := Relation.ReflTransGen (WorkerStep T)

theorem Solo.unique {a : Sim × Worker} {S S' : Sim} {w w' : Worker} (h : Solo T a (S, w)) (h' : Solo T a (S', w')) (hw : w.Done) (hw' : w'.Done) :
    S = S' ∧ w = w' := by
  have stop : ∀ {S S' : Sim} {w w' : Worker}, w.Done → Solo T (S, w) (S', w') → S = S' ∧ w = w' := by
    intro S S' w w' hd hr
    rcases Relation.ReflTransGen.cases_head hr with e | ⟨b, hb, -⟩
    · injection e with e1 e2; exact ⟨e1, e2⟩
    · exact absurd hb (Done.no_step hd)
  rcases Relation.ReflTransGen.total_of_right_unique (r := WorkerStep T) (fun _ _ _ => WorkerStep.unique) h h' with e | e
  · exact stop hw e
  · obtain ⟨e1, e2⟩ := stop hw' e; exact ⟨e1.symm, e2.symm⟩

/-- How a thread in an execution is related to the thread working alone. -/
structure Rel (T : Traits) (n : Nat) (S0 : Sim) (ds : List Dom) (S : Sim) (w0 w : Worker) : Prop where
  dom : w.dom = w0.dom
  wok : WOk S0 w
  solo : ∃ Ss, Solo T (S0, w0) (Ss, w) ∧ Good T n S0 ds Ss ∧ Agree T S Ss w

/-- Threads at the beginning. -/
structure Starts (S0 : Sim) (ds : List Dom) (ws : List Worker) : Prop where
  mem : ∀ w ∈ ws, w.dom ∈ ds
  all : ∀ d ∈ ds, ∃ w ∈ ws, w.dom = d
  wok : ∀ w ∈ ws, WOk S0 w
  idle : ∀ w ∈ ws, w.pending = none
  zeros : ∀ w ∈ ws, ∀ c ∈ w.counters, c = Counter.zero
  tids : ∀ (k k' : Nat) (w w' : Worker), ws[k]? = some w → ws[k']? = some w' → w.dom.tid = w'.dom.tid → k = k'

/-- The invariant of executions. -/
structure Inv (T : Traits) (n : Nat) (S0 : Sim) (ds : List Dom) (ws : List Worker) (X : State) : Prop where
  good : Good T n S0 ds X.S
  len : X.workers.length = ws.length
  rel : ∀ (k : Nat) (w0 w : Worker), ws[k]? = some w0 → X.workers[k]? = some w → Rel T n S0 ds X.S w0 w
  used : ∀ (g : Nat) (s0 : Sampler), S0.env.samplers[g]? = some s0 → (∃ w ∈ X.workers, w.Tried g) →
    X.S.env.samplers[g]? = some (s0.adjusted S0.P.box)
  unused : ∀ (g : Nat) (s0 : Sampler), S0.env.samplers[g]? = some s0 → (∀ w ∈ X.workers, ¬ w.Tried g) → X.S.env.samplers[g]? = some s0

theorem Agree.same {S : Sim} {w : Worker} (h : w.pending = none) : Agree T S S w :=
  ⟨fun _ _ => rfl, rfl, fun g hg => by rw [h] at hg; cases hg⟩

theorem Starts.inv (C : Ctx T n S0 ds) {ws : List Worker} (h : Starts S0 ds ws) : Inv T n S0 ds ws ⟨S0, ws⟩ := by
  refine ⟨C.good, rfl, ?_, ?_, fun g s0 hs _ => hs⟩
  · intro k w0 w hk hk'
    simp only at hk'
    rw [hk] at hk'
    injection hk' with hk'
    subst hk'
    have hm := List.mem_of_getElem? hk
    exact ⟨rfl, h.wok _ hm, S0, .refl, C.good, .same (h.idle _ hm)⟩
  · rintro g s0 - ⟨w, hw, ⟨v, hv⟩ | ⟨c, hc, hc'⟩⟩
    · rw [h.idle w hw] at hv; cases hv
    · rw [h.zeros w hw c (List.mem_of_getElem? hc)] at hc'
      exact absurd hc' (lt_irrefl 0)

theorem Agree.left {S S2 : Sim} {w : Worker} (h : Agree T S S2 w) : Agree T S S w :=
  ⟨fun _ _ => rfl, rfl, fun g hg => by obtain ⟨i, t, hp, -⟩ := h.pend g hg; exact ⟨i, t, hp, hp⟩⟩

theorem Inv.step (C : Ctx T n S0 ds) {ws : List Worker} (hst : Starts S0 ds ws) {X Y : State} (h : Inv T n S0 ds ws X) (hs : Step T X Y) :
    Inv T n S0 ds ws Y := by
  cases hs with
  | @step S S' pre post w w' hstep =>
    have hlen : (pre ++ w :: post).length = ws.length := h.len
    have hk0 : pre.length < ws.length := by rw [← hlen, List.length_append, List.length_cons]; omega
    have hw0 := List.getElem?_eq_getElem hk0
    generalize ws[pre.length] = w0 at hw0
    have hm0 := List.mem_of_getElem? hw0
    have hwk : (pre ++ w :: post)[pre.length]? = some w := by simp
    obtain ⟨r1, r2, Ss, r3, r4, r5⟩ := h.rel _ _ _ hw0 hwk
    have hd : w.dom ∈ ds := by rw [r1]; exact hst.mem _ hm0
    obtain ⟨a1, a2, a3, a4, ⟨Ss', a5, a6, a7⟩, a8⟩ := step_two C h.good r4 hd r2 r5 hstep
    have hset : pre ++ w' :: post = (pre ++ w :: post).set pre.length w' := by simp
    refine ⟨a3, ?_, ?_, ?_, ?_⟩
    · simp only
      rw [← hlen, hset, List.length_set]
    · intro k v0 v hv0 hv
      simp only at hv ⊢
      rw [hset, List.getElem?_set] at hv
      by_cases hk : pre.length = k
      · subst hk
        rw [if_pos rfl, if_pos (by rw [hlen]; exact hk0)] at hv
        injection hv with hv
        subst hv
        rw [hw0] at hv0
        injection hv0 with hv0
        subst hv0
        exact ⟨a1.trans r1, a2, Ss', r3.tail a5, a6, a7⟩
      · rw [if_neg hk] at hv
        obtain ⟨q1, q2, Sv, q3, q4, q5⟩ := h.rel k v0 v hv0 hv
        have hvd : v.dom ∈ ds := by rw [q1]; exact hst.mem _ (List.mem_of_getElem? hv0)
        have hne : v.dom.tid ≠ w.dom.tid := by
          intro e
          rw [q1, r1] at e
          exact hk (hst.tids _ _ _ _ hv0 hw0 e).symm
        refine ⟨q1, q2, Sv, q3, q4, ⟨?_, ?_, ?_⟩⟩
        · intro i hi
          rw [q5.shapes i hi, a4.shapes i (by rw [h.good.size C]; exact C.small _ hvd i hi) (C.disjoint _ hvd _ hd hne i hi)]
        · rw [q5.tape, a4.tapes _ hne]
        · intro g hg
          obtain ⟨i, t, p1, p2⟩ := q5.pend g hg
          exact ⟨i, t, a4.pend _ hvd hne i t p1, p2⟩
    · intro g s0 hs0 ⟨v, hv, hvt⟩
      rcases a8 g s0 hs0 with ⟨b1, b2⟩ | ⟨b1, -⟩
      · show S'.env.samplers[g]? = _
        rw [b1]
        apply h.used g s0 hs0
        simp only [List.mem_append, List.mem_cons] at hv
        rcases hv with hv | rfl | hv
        · exact ⟨v, by simp [hv], hvt⟩
        · exact ⟨w, by simp, b2.mp hvt⟩
        · exact ⟨v, by simp [hv], hvt⟩
      · exact b1
    · intro g s0 hs0 hall
      rcases a8 g s0 hs0 with ⟨b1, b2⟩ | ⟨-, b2⟩
      · show S'.env.samplers[g]? = _
        rw [b1]
        apply h.unused g s0 hs0
        intro v hv hvt
        simp only [List.mem_append, List.mem_cons] at hv
        rcases hv with hv | rfl | hv
        · exact hall v (by simp [hv]) hvt
        · exact hall w' (by simp) (b2.mpr hvt)
        · exact hall v (by simp [hv]) hvt
      · exact absurd b2 (hall w' (by simp))

theorem Inv.steps (C : Ctx T n S0 ds) {ws : List Worker} (hst : Starts S0 ds ws) {X Y : State} (h : Inv T n S0 ds ws X) (hs : Steps T X Y) :
    Inv T n S0 ds ws Y := by
  induction hs with
  | refl => exact h
  | tail _ h2 ih => exact ih.step C hst h2

/-- The same molecules, engines, samplers and threads. -/
structure Same (S S' : Sim) : Prop where
  mols : mols S'.P = mols S.P
  mts : S'.mts = S.mts
  samplers : S'.env.samplers = S.env.samplers

/-- All finished executions end in the same way. -/
theorem Inv.unique (C : Ctx T n S0 ds) {ws : List Worker} (hst : Starts S0 ds ws) {X Y : State} (hX : Inv T n S0 ds ws X)
    (hY : Inv T n S0 ds ws Y) (dX : X.Done) (dY : Y.Done) : Y.workers = X.workers ∧ Same X.S Y.S := by
  have sX := hX.good.size C
  have sY := hY.good.size C
  have lX := hX.len
  have lY := hY.len
  have mX := hX.good.slen
  have mY := hY.good.slen
  have both : ∀ (k : Nat) (w0 : Worker), ws[k]? = some w0 → ∃ (w : Worker) (Ss : Sim), X.workers[k]? = some w ∧ Y.workers[k]? = some w ∧ w.dom = w0.dom ∧
      Agree T X.S Ss w ∧ Agree T Y.S Ss w := by
    intro k w0 hk
    have hlt := (List.getElem?_eq_some_iff.mp hk).1
    have hx := List.getElem?_eq_getElem (l := X.workers) (i := k) (by rw [hX.len]; exact hlt)
    have hy := List.getElem?_eq_getElem (l := Y.workers) (i := k) (by rw [hY.len]; exact hlt)
    generalize X.workers[k]'_ = w at hx
    generalize Y.workers[k]'_ = w' at hy
    obtain ⟨r1, -, Ss, r2, -, r3⟩ := hX.rel k w0 w hk hx
    obtain ⟨q1, -, Ss', q2, -, q3⟩ := hY.rel k w0 w' hk hy
    obtain ⟨e1, e2⟩ := r2.unique q2 (dX w (List.mem_of_getElem? hx)) (dY w' (List.mem_of_getElem? hy))
    subst e1 e2
    exact ⟨w, Ss, hx, hy, r1, r3, q3⟩
  have hw : Y.workers = X.workers := by
    apply List.ext_getElem?
    intro k
    cases hk : ws[k]? with
    | none =>
      rw [List.getElem?_eq_none_iff] at hk
      rw [List.getElem?_eq_none (by omega), List.getElem?_eq_none (by omega)]
    | some w0 =>
      obtain ⟨w, -, h1, h2, -⟩ := both k w0 hk
      rw [h1, h2]
  have hdom : ∀ d ∈ ds, (∀ i ∈ d.idxs, Y.S.P.shapeFn i = X.S.P.shapeFn i) ∧ Y.S.mts[d.tid]? = X.S.mts[d.tid]? := by
    intro d hd
    obtain ⟨w0, hm, rfl⟩ := hst.all d hd
    obtain ⟨k, hk⟩ := List.mem_iff_getElem?.mp hm
    obtain ⟨w, Ss, -, -, h1, h2, h3⟩ := both k w0 hk
    rw [← h1]
    exact ⟨fun i hi => (h3.shapes i hi).symm.trans (h2.shapes i hi), h3.tape.symm.trans h2.tape⟩
  refine ⟨hw, ?_, ?_, ?_⟩
  · apply List.ext_getElem?
    intro i
    by_cases hi : i < n
    · rw [mols_getElem? (by omega), mols_getElem? (by omega),
        shape_some (by omega), shape_some (by omega)]
      congr 1
      by_cases hex : ∃ d ∈ ds, i ∈ d.idxs
      · obtain ⟨d, hd, hm⟩ := hex
        exact (hdom d hd).1 i hm
      · have hex' : ∀ d ∈ ds, i ∉ d.idxs := fun d hd hm => hex ⟨d, hd, hm⟩
        rw [hX.good.rest i hi hex', hY.good.rest i hi hex']
    · rw [List.getElem?_eq_none (by rw [mols_length]; omega), List.getElem?_eq_none (by rw [mols_length]; omega)]
  · apply List.ext_getElem?
    intro k
    by_cases hex : ∃ d ∈ ds, d.tid = k
    · obtain ⟨d, hd, rfl⟩ := hex
      exact (hdom d hd).2
    · have hex' : ∀ d ∈ ds, d.tid ≠ k := fun d hd hm => hex ⟨d, hd, hm⟩
      rw [hX.good.mrest k hex', hY.good.mrest k hex']
  · apply List.ext_getElem?
    intro g
    cases hg : S0.env.samplers[g]? with
    | none =>
      rw [List.getElem?_eq_none_iff] at hg
      rw [List.getElem?_eq_none (by omega), List.getElem?_eq_none (by omega)]
    | some s0 =>
      by_cases hex : ∃ w ∈ X.workers, w.Tried g
      · rw [hX.used g s0 hg hex, hY.used g s0 hg (by rw [hw]; exact hex)]
      · have hex' : ∀ w ∈ X.workers, ¬ w.Tried g := fun w hw h => hex ⟨w, hw, h⟩
        rw [hX.unused g s0 hg hex', hY.unused g s0 hg (by rw [hw]; exact hex')]

end Rampack.Par
