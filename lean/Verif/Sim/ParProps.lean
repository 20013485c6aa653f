import Verif.Sim.ParSeq
import Verif.Sim.DivideProps
import Verif.Sim.ParDemo
/-
C23: parallel sweeps with domains.

`Live T n S`: the simulation is set up properly (see `C63`). `begin`: the division into domains and the threads before their first
step. `Steps`: any interleaving of the trials and acceptances of the threads. `Ends`: the state after the parallel loop, where the
counters of threads have been added up in any order.
-/
namespace Rampack

open Par Spec Packing

/-- C23: whatever the interleaving, the sweep ends in the state of the sequential sweep over the domains: the packing looks the same
(molecules, box, number of overlaps, energies, results of further moves), and the engines, the samplers, the counters and
everything else in the simulation are the same. -/
theorem C23_equivalent {T : Traits} {n : Nat} {S S' : Sim} {X0 X : State} (h : Sim.Live T n S) (hn : S.numDomains ≠ 1)
    (hb : Par.begin T S = .ok X0) (hs : Steps T X0 X) (hd : X.Done) (he : X.Ends S') :
    ∃ S'', S.attempt T = .ok (.done S'') ∧ SameLook T.I S''.P S'.P ∧ S' = { S'' with P := S'.P, log := S'.log } := by
  obtain ⟨t, D, grid, origin, ht, e0, hl, hD, hw, ha⟩ := begin_ok h hn hb
  obtain ⟨S0, ws⟩ := X0
  simp only at e0 hl hD hw ha
  have hn0 : S0.numDomains ≠ 1 := by rw [e0]; exact hn
  obtain ⟨C, hst⟩ := start_ok hl hn0 hD hw
  obtain ⟨hng, -, hT, h63⟩ := hl.narrow.resolve_left hn0
  obtain ⟨hmol, -⟩ := C21_molecules hl.proper.1.reach hT ⟨h63 0, h63 1, h63 2⟩ hD
  obtain ⟨S'', e2, -⟩ := hl.domainLoop (D := D) (by
    intro c c1 c2 c3
    obtain ⟨L, A, d1, d2, -, -⟩ := hmol c c1 c2 c3
    refine ⟨L, A, d1, d2, fun i hi => ?_⟩
    have := Domain.region_lt hD d1 i hi
    rwa [hl.proper.1.size] at this)
  refine ⟨S'', by rw [ha, e2]; rfl, ?_⟩
  unfold Sim.domainLoop at e2
  simp only at e2
  obtain ⟨⟨S2, temp⟩, f1, e2⟩ := Outcome.bind_eq_ok.mp e2
  simp only at e2
  obtain ⟨cs, f2, e2⟩ := Outcome.bind_eq_ok.mp e2
  have e2 := Outcome.ok_inj.mp e2
  have f2 := Sim.accumulateCounters_ok f2
  have hi0 := hst.inv C
  obtain ⟨ws', k1, k2, k3⟩ := fold_steps C hst (pre := []) _ hw hi0 (by simp) f1
  simp only [List.nil_append] at k1
  have hiX := hi0.steps C hst hs
  have hiY := hi0.steps C hst k1
  obtain ⟨u1, u2⟩ := Inv.unique C hst hiY hiX k2 hd
  obtain ⟨order, o1, o2⟩ := he
  have gX := hiX.good
  have gY := hiY.good
  have fX := gX.fixed
  have fY : S2 = _ := gY.fixed
  obtain ⟨m1, m2, m3⟩ := u2
  simp only at u1 m1 m2 m3
  rw [u1] at o1
  have hcX : X.S.counters = S0.counters := by rw [fX]
  have hcY : S2.counters = S0.counters := by rw [fY]
  have hP' : S'.P = X.S.P := by rw [o2]
  have hP'' : S''.P = S2.P := by rw [← e2]
  have hlog : S'.log = X.S.log := by rw [o2]
  constructor
  · rw [hP', hP'']
    exact same_look ⟨m1, gX.frame.box.trans gY.frame.box.symm, gX.frame.hasWall.trans gY.frame.hasWall.symm⟩ gY.pinv gX.pinv
      hl.proper.1.reach.inv.2 (gX.frame.overlapCounting.trans gY.frame.overlapCounting.symm) (gX.frame.moveThreads.trans gY.frame.moveThreads.symm)
  · rw [hP', hlog, o2, ← e2, hcX, Par.sum_perm o1, f2, hcY, k3]
    rw [fX, fY]
    simp only [m2, m3]

/-- C23: while threads go on, whatever the interleaving, no thread is ever stuck or fails: every thread which has moves to do can do
its next step. -/
theorem C23_progress {T : Traits} {n : Nat} {S : Sim} {X0 X : State} (h : Sim.Live T n S) (hn : S.numDomains ≠ 1)
    (hb : Par.begin T S = .ok X0) (hs : Steps T X0 X) :
    ∀ w ∈ X.workers, ¬ w.Done → ∃ S' w', WorkerStep T (X.S, w) (S', w') := by
  obtain ⟨t, D, grid, origin, ht, e0, hl, hD, hw, -⟩ := begin_ok h hn hb
  obtain ⟨S0, ws⟩ := X0
  simp only at e0 hl hD hw
  obtain ⟨C, hst⟩ := start_ok hl (by rw [e0]; exact hn) hD hw
  have hi := (hst.inv C).steps C hst hs
  intro w hwm hnd
  obtain ⟨k, hk⟩ := List.mem_iff_getElem?.mp hwm
  have hlen := hi.len
  have hlt := (List.getElem?_eq_some_iff.mp hk).1
  have hw0 := List.getElem?_eq_getElem (show k < ws.length by omega)
  obtain ⟨r1, r2, _, -, -, r5⟩ := hi.rel k _ w hw0 hk
  have hd : w.dom ∈ ws.map Worker.dom := by rw [r1]; exact hst.mem _ (List.getElem_mem _)
  exact can_step C hi.good hd r2 r5.left hnd

/-- C23: every interleaving comes to an end: the number of steps is bounded, and as long as there are moves to do, going on leads to
an end. -/
theorem C23_ends {T : Traits} {n : Nat} {S : Sim} {X0 : State} (h : Sim.Live T n S) (hn : S.numDomains ≠ 1) (hb : Par.begin T S = .ok X0) :
    (¬ ∃ f : Nat → State, f 0 = X0 ∧ ∀ i, Step T (f i) (f (i + 1))) ∧
      ∀ X, Steps T X0 X → ∃ Y, Steps T X Y ∧ Y.Done := by
  obtain ⟨t, D, grid, origin, ht, e0, hl, hD, hw, -⟩ := begin_ok h hn hb
  obtain ⟨C, hst⟩ := start_ok hl (by rw [e0]; exact hn) hD hw
  have hi0 : Inv T n X0.S (X0.workers.map Worker.dom) X0.workers X0 := hst.inv C
  constructor
  · rintro ⟨f, hf0, hf⟩
    have hall : ∀ i, Steps T X0 (f i) := by
      intro i
      induction i with
      | zero => rw [hf0]; exact .refl _
      | succ i ih => exact .tail ih (hf i)
    have hr : ∀ i, (f i).rank + i ≤ X0.rank := by
      intro i
      induction i with
      | zero => rw [hf0]; omega
      | succ i ih => have := rank_step C (hi0.steps C hst (hall i)) (hf i); omega
    have := hr (X0.rank + 1)
    omega
  · have key : ∀ (m : Nat) (X : State), X.rank ≤ m → Steps T X0 X → ∃ Y, Steps T X Y ∧ Y.Done := by
      intro m
      induction m with
      | zero =>
        intro X hX hs
        refine ⟨X, .refl _, fun w hw => ?_⟩
        by_contra hnd
        obtain ⟨S', w', hstep⟩ := C23_progress h hn hb hs w hw hnd
        obtain ⟨pre, post, e⟩ := List.append_of_mem hw
        have hX' : X = ⟨X.S, pre ++ w :: post⟩ := by rw [← e]
        have := rank_step C (hi0.steps C hst hs) (Y := ⟨S', pre ++ w' :: post⟩) (by rw [hX']; exact .step pre post hstep)
        omega
      | succ m ih =>
        intro X hX hs
        by_cases hd : X.Done
        · exact ⟨X, .refl _, hd⟩
        · have : ∃ w ∈ X.workers, ¬ w.Done := by
            by_contra hc
            push Not at hc
            exact hd hc
          obtain ⟨w, hw, hnd⟩ := this
          obtain ⟨S', w', hstep⟩ := C23_progress h hn hb hs w hw hnd
          obtain ⟨pre, post, e⟩ := List.append_of_mem hw
          have hX' : X = ⟨X.S, pre ++ w :: post⟩ := by rw [← e]
          have hst1 : Step T X ⟨S', pre ++ w' :: post⟩ := by rw [hX']; exact .step pre post hstep
          have := rank_step C (hi0.steps C hst hs) hst1
          obtain ⟨Y, h1, h2⟩ := ih ⟨S', pre ++ w' :: post⟩ (by omega) (.tail hs hst1)
          exact ⟨Y, (Steps.tail (.refl _) hst1).trans h1, h2⟩
    exact fun X hs => key _ X le_rfl hs

/-- Two balls in two domains: the sweep is done, and its end is that of the sequential sweep. -/
example : ∃ (S : Sim) (X0 X : State) (S' S'' : Sim), Sim.Live (Sim.demoTraits (1 / 40)) 2 S ∧ S.numDomains ≠ 1 ∧
    Par.begin (Sim.demoTraits (1 / 40)) S = .ok X0 ∧ X0.workers.length = 2 ∧ ¬ X0.Done ∧ Steps (Sim.demoTraits (1 / 40)) X0 X ∧ X.Done ∧ X.Ends S' ∧
    S.attempt (Sim.demoTraits (1 / 40)) = .ok (.done S'') ∧ mols S'.P = mols S''.P := by
  obtain ⟨S, X0, h, hn, -, hb, h2, hnd⟩ := demo_begins
  have hn1 : S.numDomains ≠ 1 := by rw [hn]; norm_num
  obtain ⟨X, hs, hd⟩ := (C23_ends h hn1 hb).2 X0 (.refl _)
  obtain ⟨S'', e, hl, -⟩ := C23_equivalent h hn1 hb hs hd ⟨_, List.Perm.refl _, rfl⟩
  refine ⟨S, X0, X, _, S'', h, hn1, hb, h2, fun hd0 => ?_, hs, hd, ⟨_, List.Perm.refl _, rfl⟩, e, hl.mols⟩
  have hm : X0.workers[0]'(by omega) ∈ X0.workers := List.getElem_mem _
  exact hnd _ hm (hd0 _ hm)

/-- C23: in the middle of a sweep, whatever the interleaving so far, the number of overlaps which is kept is that of a full recount. -/
theorem C23_exact {T : Traits} {n : Nat} {S : Sim} {X0 X : State} (h : Sim.Live T n S) (hn : S.numDomains ≠ 1)
    (hb : Par.begin T S = .ok X0) (hs : Steps T X0 X) (hc : S.P.overlapCounting = true) :
    ∃ K : ℕ, X.S.P.countTotalOverlaps T.I false = .ok K ∧ X.S.P.getCachedNumberOfOverlaps = .ok K := by
  obtain ⟨t, D, grid, origin, ht, e0, hl, hD, hw, -⟩ := begin_ok h hn hb
  obtain ⟨S0, ws⟩ := X0
  simp only at e0 hl hD hw
  obtain ⟨C, hst⟩ := start_ok hl (by rw [e0]; exact hn) hD hw
  have hi := (hst.inv C).steps C hst hs
  have hc' : X.S.P.overlapCounting = true := by rw [hi.good.frame.overlapCounting, e0]; exact hc
  obtain ⟨K, e, hK⟩ := cached_exact hi.good.pinv hl.proper.1.reach.inv.2 hc'
  exact ⟨K, e, by rw [getCachedNumberOfOverlaps, if_pos hc', hK]⟩

/-- In the sweep of two balls, before the first step. -/
example : ∃ (S : Sim) (X0 : State), Sim.Live (Sim.demoTraits (1 / 40)) 2 S ∧ Par.begin (Sim.demoTraits (1 / 40)) S = .ok X0 ∧
    X0.workers.length = 2 ∧ S.P.overlapCounting = true ∧ (∀ w ∈ X0.workers, ∃ S' w', WorkerStep (Sim.demoTraits (1 / 40)) (X0.S, w) (S', w')) ∧
    ∃ K : ℕ, X0.S.P.getCachedNumberOfOverlaps = .ok K := by
  obtain ⟨S, X0, h, hn, hc, hb, h2, hnd⟩ := demo_begins
  have hn1 : S.numDomains ≠ 1 := by rw [hn]; norm_num
  obtain ⟨K, -, e⟩ := C23_exact h hn1 hb (.refl _) hc
  exact ⟨S, X0, h, hb, h2, hc, fun w hw => C23_progress h hn1 hb (.refl _) w hw (hnd w hw), K, e⟩

/-- C23: the parallel sweep begins whenever the sequential one is possible. -/
theorem C23_begins {T : Traits} {n : Nat} {S S' : Sim} (h : Sim.Live T n S) (hn : S.numDomains ≠ 1) (ha : S.attempt T = .ok (.done S')) :
    ∃ X0, Par.begin T S = .ok X0 := begin_total h hn ha

end Rampack
