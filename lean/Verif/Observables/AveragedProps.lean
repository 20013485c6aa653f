import Verif.Observables.DensityProps
/-
Theorems on functions averaged in bins (C98).
-/
namespace Rampack

open Spec

namespace BinAveraged

open Binned

/-- The value left in the shape function after the loop. -/
def lastValue (g : Shape → ℝ) (V : View) (calls : List (Nat × Nat)) (v : ℝ) : ℝ := calls.foldl (fun _ c => g (V.shapes.getD c.2 ⟨0, 1⟩)) v

theorem serial_fold {f : Shape → Outcome ℝ} {g : Shape → ℝ} {V : View} {d : Vec3 ℝ} (hg : ∀ s ∈ V.shapes, f s = .ok (g s)) : ∀ {calls : List (Nat × Nat)} {B : HistogramBuilder} {v : ℝ},
    (∀ c ∈ calls, vget V.shapes c.2 = .ok (V.shapes.getD c.2 ⟨0, 1⟩) ∧ V.shapes.getD c.2 ⟨0, 1⟩ ∈ V.shapes) →
    (serial calls).foldlM (step f V d) ⟨B, v⟩ = ((samples ⟨V, 0, calls⟩ d g).foldlM (fun (B : HistogramBuilder) x => B.add x.thread x.pos x.value) B >>= fun B =>
      .ok ⟨B, lastValue g V calls v⟩)
  | [], B, v, _ => rfl
  | c :: calls, B, v, h => by
    have e : samples ⟨V, 0, c :: calls⟩ d g = ⟨c.1, relative V.box (V.shapes.getD c.2 ⟨0, 1⟩).pos d, g (V.shapes.getD c.2 ⟨0, 1⟩)⟩ :: samples ⟨V, 0, calls⟩ d g := rfl
    have e' : serial (c :: calls) = (c.1, .calculate c.2) :: (c.1, .add c.2) :: serial calls := rfl
    have e'' : lastValue g V (c :: calls) v = lastValue g V calls (g (V.shapes.getD c.2 ⟨0, 1⟩)) := rfl
    obtain ⟨h1, h2⟩ := h c List.mem_cons_self
    rw [e, e', e'', List.foldlM_cons, List.foldlM_cons]
    have s1 : step f V d ⟨B, v⟩ (c.1, .calculate c.2) = .ok ⟨B, g (V.shapes.getD c.2 ⟨0, 1⟩)⟩ := by
      unfold step
      simp only []
      rw [h1, Outcome.ok_bind, hg _ h2]
      rfl
    have s2 : step f V d ⟨B, g (V.shapes.getD c.2 ⟨0, 1⟩)⟩ (c.1, .add c.2) =
        (B.add c.1 (relative V.box (V.shapes.getD c.2 ⟨0, 1⟩).pos d) (g (V.shapes.getD c.2 ⟨0, 1⟩)) >>= fun B => .ok ⟨B, g (V.shapes.getD c.2 ⟨0, 1⟩)⟩) := by
      unfold step
      simp only []
      rw [h1, Outcome.ok_bind]
      rfl
    rw [s1, Outcome.ok_bind, List.foldlM_cons, s2, bind_assoc, bind_assoc]
    congr 1
    funext B'
    rw [Outcome.ok_bind]
    exact serial_fold hg fun c' h' => h c' (List.mem_cons_of_mem _ h')

theorem runs_eq {f : Shape → Outcome ℝ} {g : Shape → ℝ} {threads : Nat} {o : Vec3 ℝ} : ∀ {runs : List DensityRun} {S : BinnedState} {v : ℝ}, S.firstOrigin = some o →
    (∀ r ∈ runs, r.Legal threads) → (∀ r ∈ runs, ∀ s ∈ r.V.shapes, f s = .ok (g s)) →
    ∃ v', runAveraged f S v runs = (runHist S.builder (runs.map fun r => ⟨samples r (r.origin - o) g, none⟩) >>= fun B => .ok (⟨S.numBins, B, some o⟩, v'))
  | [], S, v, h, _, _ => by
    obtain ⟨n, B, q⟩ := S
    subst h
    exact ⟨v, rfl⟩
  | r :: runs, S, v, h, hr, hg => by
    obtain ⟨w, hw⟩ : ∃ w, lastValue g r.V r.calls v = w := ⟨_, rfl⟩
    have key : ∃ v', ∀ B, runAveraged f ⟨S.numBins, B, some o⟩ w runs = (runHist B (runs.map fun r => ⟨samples r (r.origin - o) g, none⟩) >>= fun B => .ok (⟨S.numBins, B, some o⟩, v')) := by
      refine ⟨?_, fun B => ?_⟩
      · exact runs.foldl (fun v r => lastValue g r.V r.calls v) w
      · clear hw
        induction runs generalizing w B with
        | nil => rfl
        | cons r' runs ih =>
          have hl := hr r' (by simp)
          have ih := fun w B => ih (fun q hq => hr q (by simp at hq ⊢; tauto)) (fun q hq => hg q (by simp at hq ⊢; tauto)) w B
          unfold runAveraged runHist at ih ⊢
          rw [List.foldlM_cons, List.map_cons, List.foldlM_cons, List.foldl_cons]
          unfold addSnapshot runSnapshot
          simp only [firstOr, Option.getD_some]
          rw [serial_fold (hg r' (by simp)) fun c hc => call_shape hl hc]
          simp only [bind_assoc, Outcome.ok_bind]
          congr 1
          funext B1
          congr 1
          funext B2
          exact ih _ _
    obtain ⟨v', hv'⟩ := key
    refine ⟨v', ?_⟩
    unfold runAveraged runHist at hv' ⊢
    rw [List.foldlM_cons, List.map_cons, List.foldlM_cons]
    have hl := hr r List.mem_cons_self
    unfold addSnapshot runSnapshot
    simp only [firstOr, h, Option.getD_some]
    rw [serial_fold (hg r List.mem_cons_self) fun c hc => call_shape hl hc]
    simp only [bind_assoc, Outcome.ok_bind, hw]
    congr 1
    funext B1
    congr 1
    funext B2
    exact hv' _

theorem first_eq {f : Shape → Outcome ℝ} {S : BinnedState} {v : ℝ} (h : S.firstOrigin = none) (r : DensityRun) (runs : List DensityRun) :
    runAveraged f S v (r :: runs) = runAveraged f ⟨S.numBins, S.builder, some r.origin⟩ v (r :: runs) := by
  unfold runAveraged
  rw [List.foldlM_cons, List.foldlM_cons]
  congr 1
  unfold addSnapshot firstOr
  simp only [h, Option.getD_none, Option.getD_some]

/-- **C98** If iterations of the loop over particles are not interleaved (as with a single thread), after any number of snapshots the value printed for each bin is the average of the function over
all particles which are in the bin, in all snapshots, each of them moved back by the displacement of the tracked origin since the first one; it is not a number if there are no particles.
Missing: schedules in which iterations are interleaved, for which it does not hold, see `C98_race_violated`. -/
theorem C98_values_partial {m : Vec3 Nat} (hm : m.x < 2 ^ 64 ∧ m.y < 2 ^ 64 ∧ m.z < 2 ^ 64) {threads : Nat} {S : BinnedState} (h : Binned.create m threads = .ok S)
    {f : Shape → Outcome ℝ} {g : Shape → ℝ} {r₀ : DensityRun} {runs : List DensityRun} (hr : ∀ r ∈ r₀ :: runs, r.Legal threads) (hg : ∀ r ∈ r₀ :: runs, ∀ s ∈ r.V.shapes, f s = .ok (g s)) (v : ℝ) :
    ∃ q averages, runAveraged f S v (r₀ :: runs) = .ok q ∧ q.1.builder.dumpHistogram .average = .ok averages ∧ averages.length = S.numBins.x * S.numBins.y * S.numBins.z ∧
      ∀ k : Vec3 Nat, k.x < S.numBins.x ∧ k.y < S.numBins.y ∧ k.z < S.numBins.z → averages[flatBin S.numBins k]? =
        some (if ((r₀ :: runs).map fun r => population S.numBins k r.V (r.origin - r₀.origin)).sum = 0 then .undefined else
          .num (((r₀ :: runs).map fun r => binSum S.numBins k g r.V (r.origin - r₀.origin)).sum / ((r₀ :: runs).map fun r => population S.numBins k r.V (r.origin - r₀.origin)).sum),
          ((r₀ :: runs).map fun r => population S.numBins k r.V (r.origin - r₀.origin)).sum) := by
  obtain ⟨h1, h2, h3⟩ := create_eq h
  rw [← h2] at h1
  obtain ⟨B', _, avgs, g1, -, g2, -, g3, g4⟩ := core (by rw [h2]; exact DensityHistogram.normalize_lt hm) h1 hr (by simp) r₀.origin (fun _ => g)
  obtain ⟨v', e⟩ := runs_eq (S := ⟨S.numBins, S.builder, some r₀.origin⟩) (v := v) (o := r₀.origin) rfl hr hg
  rw [first_eq h3, e, g1, Outcome.ok_bind]
  exact ⟨_, avgs, rfl, g2, g3, fun k hk => (g4 k hk).2⟩

/-- The component along z of axes of rods. -/
noncomputable def rodZ : Shape → Outcome ℝ := (ShapeFn.coordinate .primary 2).value (Geometry.rod [])

theorem rodZ_eq (s : Shape) : rodZ s = .ok (s.rot.mulVec ⟨0, 0, 1⟩).z := by
  unfold rodZ ShapeFn.value ShapeFn.values
  rfl

/-- Two perpendicular rods, one in each of two bins, processed by two threads. -/
noncomputable def rodsRun : DensityRun := ⟨crossedRods, 0, [(0, 0), (1, 1)]⟩

theorem rodsRun_legal : rodsRun.Legal 2 := by
  refine ⟨unitBox_wf, ?_, by simp [rodsRun]⟩
  simp [rodsRun, crossedRods, List.range_succ]

/-- The average for two snapshots with two rods. -/
example : ∃ S q, Binned.create ⟨10, 0, 0⟩ 2 = .ok S ∧ runAveraged rodZ S 0 [rodsRun, rodsRun] = .ok q := by
  obtain ⟨S, hS⟩ := (DensityHistogram.C97_create ⟨10, 0, 0⟩ 2).1.mpr (by simp)
  obtain ⟨q, _, h, -⟩ := C98_values_partial (by norm_num) hS (f := rodZ) (g := fun s => (s.rot.mulVec ⟨0, 0, 1⟩).z) (r₀ := rodsRun) (runs := [rodsRun])
    (by intro r hr; simp at hr; subst hr; exact rodsRun_legal) (fun r _ s _ => rodZ_eq s) 0
  exact ⟨S, q, hS, h⟩

/-- A schedule of two threads in which `calculate` is called by both of them before the results are read. -/
def raced : List (Nat × Step) := [(0, .calculate 0), (1, .calculate 1), (0, .add 0), (1, .add 1)]

theorem rods_bin (k : Vec3 Nat) : k = ⟨0, 0, 0⟩ ∨ k = ⟨1, 0, 0⟩ → ∀ s ∈ crossedRods.shapes, ∀ i : Nat, crossedRods.shapes[i]? = some s → (InBin ⟨10, 1, 1⟩ k crossedRods.box (s.pos - 0) ↔ i = k.x) := by
  have b0 : InBin ⟨10, 1, 1⟩ ⟨0, 0, 0⟩ crossedRods.box ((0 : Vec3 ℝ) - 0) := ⟨⟨0, 0, 0⟩, ⟨0, 0, 0⟩, by
    rw [DensityHistogram.lattice_zero]; show _ = combo ⟨1, 1⟩ _ + _; rw [DensityHistogram.unit_combo]; ext <;> simp, by norm_num⟩
  have b1 : InBin ⟨10, 1, 1⟩ ⟨1, 0, 0⟩ crossedRods.box ((⟨1 / 10, 0, 0⟩ : Vec3 ℝ) - 0) := ⟨⟨1 / 10, 0, 0⟩, ⟨0, 0, 0⟩, by
    rw [DensityHistogram.lattice_zero]; show _ = combo ⟨1, 1⟩ _ + _; rw [DensityHistogram.unit_combo]; ext <;> simp, by norm_num⟩
  have hu := fun p => DensityHistogram.C97_bin (b := crossedRods.box) unitBox_wf (n := ⟨10, 1, 1⟩) (by simp) p
  intro hk s hs i hi
  match i with
  | 0 =>
    simp [crossedRods] at hi
    subst hi
    rcases hk with rfl | rfl
    · exact ⟨fun _ => rfl, fun _ => b0⟩
    · refine ⟨fun hc => ?_, fun hc => by simp at hc⟩
      obtain ⟨q, -, u⟩ := hu ((0 : Vec3 ℝ) - 0)
      have := (u _ hc).trans (u _ b0).symm
      simp at this
  | 1 =>
    simp [crossedRods] at hi
    subst hi
    rcases hk with rfl | rfl
    · refine ⟨fun hc => ?_, fun hc => by simp at hc⟩
      obtain ⟨q, -, u⟩ := hu ((⟨1 / 10, 0, 0⟩ : Vec3 ℝ) - 0)
      have := (u _ (by simpa using hc)).trans (u _ b1).symm
      simp at this
    · exact ⟨fun _ => rfl, fun _ => by simpa using b1⟩
  | i + 2 => simp [crossedRods] at hi

/-- **C98** The shape function is shared by threads, which call its `calculate` at the same time: the first rod, alone in its bin, is along z, so that the average is 1, but with another legal
schedule of two threads the value for the second rod, which is 0, is printed. -/
theorem C98_race_violated : ∃ S q q' averages averages', Binned.create ⟨10, 0, 0⟩ 2 = .ok S ∧ ParallelLoop 2 crossedRods.shapes.length (serial [(0, 0), (1, 1)]) ∧
    ParallelLoop 2 crossedRods.shapes.length raced ∧
    BinAveraged.addSnapshot rodZ S 0 crossedRods 0 (serial [(0, 0), (1, 1)]) = .ok q ∧ q.1.builder.dumpHistogram .average = .ok averages ∧ averages[0]? = some (.num 1, 1) ∧
    BinAveraged.addSnapshot rodZ S 0 crossedRods 0 raced = .ok q' ∧ q'.1.builder.dumpHistogram .average = .ok averages' ∧ averages'[0]? = some (.num 0, 1) := by
  classical
  obtain ⟨S, hS⟩ := (DensityHistogram.C97_create ⟨10, 0, 0⟩ 2).1.mpr (by simp)
  have hn : S.numBins = ⟨10, 1, 1⟩ := by rw [(DensityHistogram.C97_create ⟨10, 0, 0⟩ 2).2.2 S hS]; rfl
  obtain ⟨h1, h2, h3⟩ := create_eq hS
  rw [← h2, hn] at h1
  have hl : ∀ r ∈ [rodsRun], r.Legal 2 := by
    intro r hr
    rw [List.mem_singleton] at hr
    subst hr
    exact rodsRun_legal
  have hfilter : crossedRods.shapes.filter (fun s => InBin ⟨10, 1, 1⟩ ⟨0, 0, 0⟩ crossedRods.box (s.pos - (0 - 0))) = [⟨0, 1⟩] := by
    have e := rods_bin ⟨0, 0, 0⟩ (Or.inl rfl)
    have e0 := e ⟨0, 1⟩ (by simp [crossedRods]) 0 (by simp [crossedRods])
    have e1 := e _ (List.mem_cons_of_mem _ List.mem_cons_self) 1 rfl
    have hz : ((0 : Vec3 ℝ) - 0) = 0 := sub_zero 0
    rw [hz]
    show List.filter _ [_, _] = _
    rw [List.filter_cons, if_pos (decide_eq_true (e0.mpr rfl)), List.filter_cons, if_neg (fun hc => by
      have := e1.mp (of_decide_eq_true hc)
      simp at this)]
    rfl
  -- what is printed for any values of particles
  have main : ∀ (g : Shape → ℝ), ∃ B' averages, runSnapshot S.builder ⟨samples rodsRun (0 - 0) g, none⟩ = .ok B' ∧ B'.dumpHistogram .average = .ok averages ∧
      averages[0]? = some (.num (g ⟨0, 1⟩), 1) := by
    intro g
    obtain ⟨B', _, avgs, g1, -, g2, -, -, g4⟩ := core (n := ⟨10, 1, 1⟩) (by norm_num) h1 hl (by simp) 0 (fun _ => g)
    refine ⟨B', avgs, ?_, g2, ?_⟩
    · have : runHist S.builder ([rodsRun].map fun r => ⟨samples r (r.origin - 0) g, none⟩) = (runSnapshot S.builder ⟨samples rodsRun (0 - 0) g, none⟩ >>= fun B => .ok B) := rfl
      rw [this] at g1
      obtain ⟨B1, e1, e2⟩ := Outcome.bind_eq_ok.mp g1
      rw [e1, e2]
    · obtain ⟨-, g5⟩ := g4 ⟨0, 0, 0⟩ (by simp)
      have hp : population ⟨10, 1, 1⟩ ⟨0, 0, 0⟩ rodsRun.V (rodsRun.origin - 0) = 1 := by
        unfold population
        show (crossedRods.shapes.filter (fun s => InBin ⟨10, 1, 1⟩ ⟨0, 0, 0⟩ crossedRods.box (s.pos - (0 - 0)))).length = 1
        rw [hfilter]; rfl
      have hs : binSum ⟨10, 1, 1⟩ ⟨0, 0, 0⟩ g rodsRun.V (rodsRun.origin - 0) = g ⟨0, 1⟩ := by
        unfold binSum
        show ((crossedRods.shapes.filter (fun s => InBin ⟨10, 1, 1⟩ ⟨0, 0, 0⟩ crossedRods.box (s.pos - (0 - 0)))).map g).sum = _
        rw [hfilter]; simp
      simp only [List.map_cons, List.map_nil, List.sum_cons, List.sum_nil, hp, hs] at g5
      simpa [flatBin] using g5
  have z0 : rodZ ⟨0, 1⟩ = .ok 1 := by
    rw [rodZ_eq]; norm_num [Mat3.mulVec, Vec3.dot, one_row2]
  have z1 : rodZ ⟨⟨1 / 10, 0, 0⟩, ⟨⟨1, 0, 0⟩, ⟨0, 0, -1⟩, ⟨0, 1, 0⟩⟩⟩ = .ok 0 := by
    rw [rodZ_eq]; simp [Mat3.mulVec, Vec3.dot]
  obtain ⟨B1, a1, k1, k2, k3⟩ := main fun s => (s.rot.mulVec ⟨0, 0, 1⟩).z
  obtain ⟨B2, a2, l1, l2, l3⟩ := main fun _ => 0
  refine ⟨S, (⟨S.numBins, B1, some 0⟩, 0), (⟨S.numBins, B2, some 0⟩, 0), a1, a2, hS, ⟨_, rodsRun_legal.2.1, rodsRun_legal.2.2, fun t => rfl⟩,
    ⟨[(0, 0), (1, 1)], rodsRun_legal.2.1, rodsRun_legal.2.2, fun t => ?_⟩, ?_, k2, ?_, ?_, l2, l3⟩
  · rcases t with _ | _ | t <;> simp [raced, serial]
  · unfold addSnapshot
    simp only [firstOr, h3, Option.getD_none]
    rw [serial_fold (g := fun s => (s.rot.mulVec ⟨0, 0, 1⟩).z) (fun s _ => rodZ_eq s) (calls := [(0, 0), (1, 1)]) (V := crossedRods) (fun c hc => call_shape (r := rodsRun) rodsRun_legal hc)]
    unfold runSnapshot at k1
    obtain ⟨B, e1, e2⟩ := Outcome.bind_eq_ok.mp k1
    have e1' : (samples ⟨crossedRods, 0, [(0, 0), (1, 1)]⟩ (0 - 0) fun s => (s.rot.mulVec ⟨0, 0, 1⟩).z).foldlM (fun (B : HistogramBuilder) x => B.add x.thread x.pos x.value) S.builder = .ok B := e1
    rw [e1', Outcome.ok_bind, Outcome.ok_bind]
    have e2' : B.nextSnapshot = .ok B1 := e2
    simp only []
    rw [e2', Outcome.ok_bind]
    have : lastValue (fun s => (s.rot.mulVec ⟨0, 0, 1⟩).z) crossedRods [(0, 0), (1, 1)] 0 = 0 := by
      simp [lastValue, crossedRods, Mat3.mulVec, Vec3.dot]
    rw [this]
    rfl
  · rw [k3]; norm_num [Mat3.mulVec, Vec3.dot, one_row2]
  · unfold runSnapshot at l1
    obtain ⟨B, e1, e2⟩ := Outcome.bind_eq_ok.mp l1
    have e2' : B.nextSnapshot = .ok B2 := e2
    have e1' : (S.builder.add 0 (relative crossedRods.box 0 (0 - 0)) 0 >>= fun B => B.add 1 (relative crossedRods.box ⟨1 / 10, 0, 0⟩ (0 - 0)) 0) = .ok B := by
      rw [← e1]
      show _ = List.foldlM _ _ [_, _]
      simp only [List.foldlM_cons, List.foldlM_nil, bind_pure]
      rfl
    obtain ⟨B3, f1, f2⟩ := Outcome.bind_eq_ok.mp e1'
    unfold addSnapshot
    simp only [firstOr, h3, Option.getD_none, raced, List.foldlM_cons, List.foldlM_nil]
    have w0 : ∀ L, step rodZ crossedRods (0 - 0) L (0, .calculate 0) = .ok { L with value := 1 } := by
      intro L
      unfold step
      simp only []
      rw [show vget crossedRods.shapes 0 = .ok ⟨0, 1⟩ from rfl, Outcome.ok_bind, z0]
      rfl
    have w1 : ∀ L, step rodZ crossedRods (0 - 0) L (1, .calculate 1) = .ok { L with value := 0 } := by
      intro L
      unfold step
      simp only []
      rw [show vget crossedRods.shapes 1 = .ok ⟨⟨1 / 10, 0, 0⟩, ⟨⟨1, 0, 0⟩, ⟨0, 0, -1⟩, ⟨0, 1, 0⟩⟩⟩ from rfl, Outcome.ok_bind, z1]
      rfl
    have w2 : step rodZ crossedRods (0 - 0) ⟨S.builder, 0⟩ (0, .add 0) = .ok ⟨B3, 0⟩ := by
      unfold step
      simp only []
      rw [show vget crossedRods.shapes 0 = .ok ⟨0, 1⟩ from rfl, Outcome.ok_bind, f1]
      rfl
    have w3 : step rodZ crossedRods (0 - 0) ⟨B3, 0⟩ (1, .add 1) = .ok ⟨B, 0⟩ := by
      unfold step
      simp only []
      rw [show vget crossedRods.shapes 1 = .ok ⟨⟨1 / 10, 0, 0⟩, ⟨⟨1, 0, 0⟩, ⟨0, 0, -1⟩, ⟨0, 1, 0⟩⟩⟩ from rfl, Outcome.ok_bind]
      simp only []
      rw [f2]
      rfl
    rw [w0, Outcome.ok_bind, w1, Outcome.ok_bind, w2, Outcome.ok_bind, w3, Outcome.ok_bind]
    simp only [Outcome.pure_eq, Outcome.ok_bind]
    rw [e2']
    rfl

end BinAveraged

end Rampack
