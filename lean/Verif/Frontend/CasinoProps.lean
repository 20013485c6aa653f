import Verif.Frontend.CasinoLemmas
import Verif.IO.SnapProps
/-
Theorems about sequences of attempts to perform all runs, each resumed with `.auto`: C36.
-/
namespace Rampack

open Spec Traj Ramsnap

/-- C36: whenever the attempts were interrupted (not within averaging) or killed, what they did together is an initial part of all cycles of all runs,
in order: nothing is done twice and nothing is omitted. Resuming is possible afterwards. -/
theorem C36_campaign_partial {σ : Type} {A : Arith} {P : Numbers} {runs : List Run} {sessions : List (Engine σ × Option Nat)} {disk disk' : Disk}
    {logs : List (List (Nat × Nat × Nat))} (hR : Resumable runs) (hne : runs ≠ []) (h0 : ∀ r ∈ runs, Absent disk r)
    (hE : ∀ E ∈ sessions, ∃ stop, Works A P E.1 stop ∧ OutsideAveraging runs stop) (h : campaign A P runs sessions disk = .ok (disk', logs)) :
    workOf logs.flatten <+: allCycles runs ∧ ∃ L, (Loader.make (some ".auto".toList) none runs).load A P disk' = .ok L := by
  obtain ⟨j, c, h1, h2⟩ := campaign_at hR hne hE (at_start hR h0) h
  rw [List.drop_zero] at h2
  refine ⟨⟨_, h2⟩, ?_⟩
  obtain ⟨L, h3, -⟩ := load_at hR hne h1
  exact ⟨L, h3⟩

/-- C36: if afterwards there is an attempt which is not interrupted or killed then together all cycles are done, each of them once, and the files say so. -/
theorem C36_completed_partial {σ : Type} {A : Arith} {P : Numbers} {runs : List Run} {sessions : List (Engine σ × Option Nat)} {E : Engine σ} {disk disk' disk'' : Disk}
    {logs : List (List (Nat × Nat × Nat))} {log : List (Nat × Nat × Nat)} (hR : Resumable runs) (hne : runs ≠ []) (h0 : ∀ r ∈ runs, Absent disk r)
    (hE : ∀ E ∈ sessions, ∃ stop, Works A P E.1 stop ∧ OutsideAveraging runs stop) (hW : Works A P E fun _ _ => false)
    (h : campaign A P runs sessions disk = .ok (disk', logs)) (hc : casino A P E (some ".auto".toList) none runs none disk' = .ok (disk'', log)) :
    workOf logs.flatten ++ workOf log = allCycles runs ∧ ∀ r ∈ runs, ∃ n m x, Saved A P disk'' r n m x ∧ need r ≤ n := by
  obtain ⟨j, c, h1, h2⟩ := campaign_at hR hne hE (at_start hR h0) h
  obtain ⟨j', c', h3, h4, h5⟩ := casino_at hW hR hne (fun i n h => by cases h) h1 hc
  have hj := h5 rfl (fun _ _ => rfl)
  rw [List.drop_zero] at h2
  rw [hj, List.drop_length, cyclesFrom, List.append_nil] at h4
  refine ⟨by rw [h4, h2]; rfl, fun r hr => ?_⟩
  obtain ⟨i, hi, e⟩ := List.getElem_of_mem hr
  exact h3.before i (by omega) r (by rw [← e]; exact List.getElem?_eq_getElem hi)

/-- C36: integration, as it is performed for a run, does the cycles it should. -/
theorem C36_engine {S S' : Sim} {env : Env} {T : Traits} {stop : Nat → Bool} {r : Run} {th av : Option Nat} {offset info fix recorders : Nat}
    (h : S.integrate env (r.integrationParams info fix recorders th av offset) T stop = .ok S') :
    S'.total = offset + cyclesDone stop offset (th.getD 0 + av.getD 0) ∧ S'.interrupted = stopped stop offset (th.getD 0 + av.getD 0) := by
  obtain ⟨L, -, -, -, -, h1, h2⟩ := C25_schedule h
  refine ⟨?_, h2⟩
  rw [h1, cyclesDone_add]
  rfl

/-- An engine which counts cycles. -/
def demoEngine (stop : Nat → Nat → Bool) : Engine (Nat × Bool) where
  initial := .ok (0, false)
  restored := fun _ _ => .ok (0, false)
  perform := fun i r offset _ =>
    match r.kind with
    | .integration th av => .ok (offset + cyclesDone (stop i) offset (th.getD 0 + av.getD 0), stopped (stop i) offset (th.getD 0 + av.getD 0))
    | .relaxation => .ok (offset + 3, stop i (offset + 3))
  totalCycles := fun s => s.1
  interrupted := fun s => s.2
  snapshot := fun _ => demoSnapshot 7
  steps := fun _ => [("step.translation".toList, "0.1 0.2".toList)]

theorem demo_works (stop : Nat → Nat → Bool) : Works demoArith demoNumbers (demoEngine stop) stop where
  cycles := by
    intro i r th av offset s s' hk h
    simp only [demoEngine, hk] at h
    injection h with h
    rw [← h]
    exact ⟨rfl, rfl⟩
  storable := fun _ => demo_storable 7
  steps := by
    intro i r offset s s' h
    refine ⟨by simp [demoEngine], ?_⟩
    intro e he
    simp only [demoEngine, List.mem_singleton] at he
    rw [he]
    exact ⟨⟨by simp, by simp [isSpace]⟩, ⟨⟨'0', ".1 0.2".toList, rfl, rfl⟩, by simp⟩, by simp⟩

def demoRuns : List Run :=
  [⟨"a".toList, .integration (some 100) (some 50), some "a.ramsnap".toList, 10, 10⟩, ⟨"b".toList, .integration none (some 70), some "b.ramsnap".toList, 10, 10⟩]

theorem demo_resumable : Resumable demoRuns where
  integration := by
    intro r hr
    simp only [demoRuns, List.mem_cons, List.not_mem_nil, or_false] at hr
    rcases hr with rfl | rfl
    · exact ⟨some 100, some 50, rfl, by simp, by simp⟩
    · exact ⟨none, some 70, rfl, by simp, by simp⟩
  files := by simp [demoRuns]
  distinct := by simp [demoRuns]
  few := by simp [demoRuns]

theorem demo_loop (stop : Nat → Nat → Bool) : ∀ (rs : List Run) (i o : Nat) (dies : Option Nat) (s : Nat × Bool) (disk : Disk),
    (∃ x, casinoLoop demoNumbers (demoEngine stop) rs i o dies s disk = .ok x)
  | [], i, o, dies, s, disk => ⟨_, rfl⟩
  | r :: rs, i, o, dies, s, disk => by
    rw [casinoLoop]
    by_cases hd : dies = some 0
    · rw [if_pos hd]; exact ⟨_, rfl⟩
    · rw [if_neg hd]
      obtain ⟨s', hp⟩ : ∃ s', (demoEngine stop).perform i r o s = .ok s' := by
        simp only [demoEngine]
        cases r.kind <;> exact ⟨_, rfl⟩
      obtain ⟨disk', hs⟩ : ∃ disk', storeSnapshot demoNumbers (demoEngine stop) r s' disk = .ok disk' := by
        cases hf : r.ramsnapOut with
        | none => exact ⟨disk, by unfold storeSnapshot; rw [hf]⟩
        | some f =>
          obtain ⟨t, ht, -⟩ := storeSnapshot_ok (demo_works stop) hp disk hf
          exact ⟨_, ht⟩
      rw [hp]
      simp only [Outcome.ok_bind, hs]
      split_ifs
      · exact ⟨_, rfl⟩
      · obtain ⟨⟨disk₂, log⟩, h⟩ := demo_loop stop rs (i + 1) 0 (dies.map (· - 1)) s' disk'
        rw [h]
        exact ⟨_, rfl⟩

theorem demo_casino {stop : Nat → Nat → Bool} {runs : List Run} {j c : Nat} {dies : Option Nat} {disk : Disk} (hR : Resumable runs) (hne : runs ≠ [])
    (hat : At demoArith demoNumbers disk runs j c) : ∃ x, casino demoArith demoNumbers (demoEngine stop) (some ".auto".toList) none runs dies disk = .ok x := by
  obtain ⟨L, h1, -⟩ := load_at hR hne hat
  unfold casino
  rw [h1]
  simp only [Outcome.ok_bind]
  split_ifs
  · exact ⟨_, rfl⟩
  · have : startState (demoEngine stop) L = .ok (0, false) := by
      unfold startState
      cases L.packing <;> rfl
    rw [this]
    exact demo_loop _ _ _ _ _ _ _

theorem demo_saved {f : Text} {n : Nat} (hn : n < 2 ^ 64) (disk : Disk) :
    ∃ t, ∀ r : Run, r.ramsnapOut = some f → ∃ m x, Saved demoArith demoNumbers (disk.put f t) r n m x := by
  obtain ⟨t, -, h⟩ := storeSnapshot_ok (r' := ⟨[], .relaxation, some f, 1, 1⟩) (demo_works fun _ _ => false) (i := 0) (offset := n)
    (r := ⟨[], .integration none none, none, 1, 1⟩) (s := (0, false)) (s' := (n, false)) rfl disk rfl
  exact ⟨t, fun r hr => ⟨_, _, h hn r hr⟩⟩

/-- Files with which `C36_all_done` may be used, `C36_next`, `C36_thermalization`, `C36_averaging`, and `C36_order`. -/
example : ∃ disk, ∀ q r, q.ramsnapOut = some "a".toList → r.ramsnapOut = some "b".toList → (∃ m x, Saved demoArith demoNumbers disk q 150 m x) ∧
    ∃ m x, Saved demoArith demoNumbers disk r 70 m x := by
  obtain ⟨t, h⟩ := demo_saved (f := "a".toList) (n := 150) (by norm_num) (fun _ => none)
  obtain ⟨u, h'⟩ := demo_saved (f := "b".toList) (n := 70) (by norm_num) (Disk.put (fun _ => none) "a".toList t)
  refine ⟨_, fun q r hq hr => ⟨?_, h' r hr⟩⟩
  obtain ⟨m, x, hs⟩ := h q hq
  exact ⟨m, x, saved_put hs (by rw [hq]; simp)⟩

/-- In `C36_order`: the first run has no file, the second one has. -/
example : ∃ disk, List.Forall₂ (Status demoArith demoNumbers disk) demoRuns [none, some 30] ∧ ¬ Done demoRuns[0] none := by
  obtain ⟨t, h⟩ := demo_saved (f := "b.ramsnap".toList) (n := 30) (by norm_num) (fun _ => none)
  refine ⟨_, .cons ⟨"a.ramsnap".toList, rfl, ?_⟩ (.cons (h _ rfl) .nil), ?_⟩
  · simp [Disk.put]
  · rintro ⟨n, h, -⟩; cases h

/-- In `C36_broken`: an empty file. -/
example : Broken (fun _ => some []) demoRuns[0] := ⟨_, [], rfl, rfl, .inl ⟨_, rfl⟩⟩

/-- The first attempt is interrupted after the cycle number 60 of the first run, the second one is killed in the second run, and the third one ends. -/
example : Resumable demoRuns ∧ demoRuns ≠ [] ∧ (∀ r ∈ demoRuns, Absent (fun _ => none) r) ∧
    OutsideAveraging demoRuns (fun i n => i = 0 && n = 60) ∧ OutsideAveraging demoRuns (fun _ _ => false) ∧
    ∃ x disk₂ log, campaign demoArith demoNumbers demoRuns [(demoEngine fun i n => i = 0 && n = 60, none), (demoEngine fun _ _ => false, some 1)]
      (fun _ => none) = .ok x ∧
      casino demoArith demoNumbers (demoEngine fun _ _ => false) (some ".auto".toList) none demoRuns none x.1 = .ok (disk₂, log) := by
  have hO : OutsideAveraging demoRuns (fun i n => i = 0 && n = 60) := by
    intro i n h r hr
    simp only [Bool.and_eq_true, decide_eq_true_eq] at h
    obtain ⟨rfl, rfl⟩ := h
    simp only [demoRuns, List.getElem?_cons_zero, Option.some_inj] at hr
    rw [← hr]
    left
    simp [needThermal]
  have hO' : OutsideAveraging demoRuns (fun _ _ => false) := fun i n h => by cases h
  have hA : ∀ r ∈ demoRuns, Absent (fun _ => none) r := by
    intro r hr
    obtain ⟨f, hf⟩ := Option.isSome_iff_exists.mp (demo_resumable.files r hr)
    exact ⟨f, hf, rfl⟩
  have hne : demoRuns ≠ [] := by simp [demoRuns]
  refine ⟨demo_resumable, hne, hA, hO, hO', ?_⟩
  have a0 := at_start (A := demoArith) (P := demoNumbers) demo_resumable hA
  obtain ⟨⟨disk₁, log₁⟩, e1⟩ := demo_casino (stop := fun i n => i = 0 && n = 60) (dies := none) demo_resumable hne a0
  obtain ⟨j₁, c₁, a1, -⟩ := casino_at (demo_works _) demo_resumable hne hO a0 e1
  obtain ⟨⟨disk₂, log₂⟩, e2⟩ := demo_casino (stop := fun _ _ => false) (dies := some 1) demo_resumable hne a1
  obtain ⟨j₂, c₂, a2, -⟩ := casino_at (demo_works _) demo_resumable hne hO' a1 e2
  obtain ⟨⟨disk₃, log₃⟩, e3⟩ := demo_casino (stop := fun _ _ => false) (dies := none) demo_resumable hne a2
  refine ⟨(disk₂, [log₁, log₂]), disk₃, log₃, ?_, e3⟩
  simp only [campaign, e1, e2, Outcome.ok_bind]
  rfl

/-- C36: a run which was interrupted in thermalization, with fewer cycles left than the period of snapshots, cannot be resumed: the simulation refuses its
parameters, although it accepted those of the whole run. -/
theorem C36_near_end_violated : ∃ (r : Run) (c : Nat), Sim.checkParams (r.integrationParams 10 10 1 (some 100) none 0) = .ok () ∧ 0 < c ∧ c < need r ∧
    ∀ {A : Arith} {P : Numbers} {disk : Disk} {m : Aux} {x : Snapshot}, Saved A P disk r c m x →
      ∃ L r' th av, (Loader.make (some ".auto".toList) none [r]).load A P disk = .ok L ∧ L.isAllFinished = false ∧ L.startRunIndex = 0 ∧ L.cycleOffset = c ∧
        L.runs = [r'] ∧ r'.kind = .integration th av ∧
        ∀ (S : Sim) (env : Env) (T : Traits) (stop : Nat → Bool), ∃ e, S.integrate env (r'.integrationParams 10 10 1 th av c) T stop = .throw e := by
  refine ⟨⟨"a".toList, .integration (some 100) none, some "a".toList, 10, 10⟩, 95, rfl, by decide, by decide, ?_⟩
  intro A P disk m x hs
  obtain ⟨L, h1, h2, h3, h4, -, -, -, h5, -⟩ := C36_thermalization (rs₁ := []) (rs₂ := []) none (by simp [need]) (by simp) hs (by decide) (by decide) (by simp)
  refine ⟨L, _, some 5, none, h1, h2, h3, h4, h5, rfl, fun S env T stop => ?_⟩
  exact ⟨_, rfl⟩

theorem casino_single {A : Arith} {P : Numbers} {disk : Disk} {stop : Nat → Nat → Bool} {L : Loader} {r : Run} {runs : List Run} {f : Text} {s' : Nat × Bool}
    (hf : r.ramsnapOut = some f) (hA : A = demoArith) (hP : P = demoNumbers)
    (hL : (Loader.make (some ".auto".toList) none runs).load A P disk = .ok L) (hall : L.isAllFinished = false) (hd : L.runs.drop L.startRunIndex = r :: runs.drop (L.startRunIndex + 1))
    (hp : ∀ s, (demoEngine stop).perform L.startRunIndex r L.cycleOffset s = .ok s') (hend : s'.2 = true ∨ runs.drop (L.startRunIndex + 1) = []) (hlt : s'.1 < 2 ^ 64) :
    ∃ t, casino A P (demoEngine stop) (some ".auto".toList) none runs none disk = .ok (disk.put f t, [(L.startRunIndex, L.cycleOffset, s'.1)]) ∧
      ∀ q : Run, q.ramsnapOut = some f → ∃ m x, Saved A P (disk.put f t) q s'.1 m x := by
  subst hA hP
  have hs : startState (demoEngine stop) L = .ok (0, false) := by
    unfold startState
    cases L.packing <;> rfl
  obtain ⟨t, ht, hsv⟩ := storeSnapshot_ok (demo_works stop) (hp (0, false)) disk hf
  refine ⟨t, ?_, fun q hq => ⟨_, _, hsv hlt q hq⟩⟩
  unfold casino
  rw [hL]
  simp only [Outcome.ok_bind]
  rw [if_neg (by rw [hall]; simp), hs]
  simp only [Outcome.ok_bind]
  rw [hd, casinoLoop, if_neg (by simp), hp]
  simp only [Outcome.ok_bind, ht]
  by_cases hi : (demoEngine stop).interrupted s' = true
  · rw [if_pos hi]; rfl
  · rw [if_neg hi, hend.resolve_left hi, casinoLoop]
    rfl

/-- C36: a run which is interrupted within averaging starts the averaging again, so there are more cycles than there should be. If it is interrupted once more,
its snapshot has the number of cycles of the whole run, so the run counts as done although its averaging has never ended: nothing more is done. -/
theorem C36_averaging_violated : ∃ (runs : List Run) (stops : List (Nat → Nat → Bool)) (disk : Disk), Resumable runs ∧
    campaign demoArith demoNumbers runs (stops.map fun stop => (demoEngine stop, none)) (fun _ => none) = .ok (disk, [[(0, 0, 15)], [(0, 15, 22)], []]) ∧
    allCycles runs = (List.range' 1 20).map (fun n => (0, n)) := by
  let r : Run := ⟨"a".toList, .integration (some 10) (some 10), some "a".toList, 1, 1⟩
  have hR : Resumable [r] := by
    refine ⟨fun q hq => ?_, by simp [r], by simp, by simp⟩
    rw [List.mem_singleton] at hq
    rw [hq]
    exact ⟨some 10, some 10, rfl, by simp, by simp⟩
  have hr : r.ramsnapOut = some "a".toList := rfl
  have hkind : r.kind = .integration (some 10) (some 10) := rfl
  have hn : ∀ q ∈ [r], need q < 2 ^ 64 := fun q hq => need_lt hR hq
  have hneed : need r = 20 := rfl
  have hth : needThermal r = 10 := rfl
  let s15 : Nat → Nat → Bool := fun _ n => n == 15
  let s22 : Nat → Nat → Bool := fun _ n => n == 22
  obtain ⟨L₁, a1, a2, a3, a4, -, -, a5⟩ := C36_scratch (A := demoArith) (P := demoNumbers) (disk := fun _ => none) (runs := [r]) none (by simp) hn
    (fun q hq => by rw [List.mem_singleton] at hq; rw [hq]; exact ⟨_, hr, rfl⟩)
  obtain ⟨t₁, c1, d1⟩ := casino_single (stop := s15) (s' := (15, true)) hr rfl rfl a1 a2 (by rw [a3, a5]; rfl) (fun s => by rw [a4]; simp only [demoEngine, hkind]; rfl)
    (.inl rfl) (by simp)
  obtain ⟨m₁, x₁, v1⟩ := d1 r hr
  obtain ⟨L₂, b1, b2, b3, b4, -, -, -, b5, -⟩ := C36_averaging (rs₁ := []) (rs₂ := []) none hn (by simp) v1 (by simp) (by rw [hth]; simp) (by rw [hneed]; simp) (by simp)
  rw [List.nil_append] at b1
  obtain ⟨t₂, c2, d2⟩ := casino_single (stop := s22) (r := averagingOnly r) (s' := (22, true)) (f := "a".toList) rfl rfl rfl b1 b2 (by rw [b3, b5]; rfl)
    (fun s => by rw [b4]; simp only [demoEngine, averagingOnly, hkind]; rfl) (.inl rfl) (by simp)
  obtain ⟨m₂, x₂, v2⟩ := d2 r hr
  obtain ⟨L₃, e1, e2⟩ := C36_all_done none (runs := [r]) (by simp) hn (fun q hq => by rw [List.mem_singleton] at hq; rw [hq]; exact ⟨_, _, _, v2, by rw [hneed]; simp⟩)
  have c3 : casino demoArith demoNumbers (demoEngine fun _ _ => false) (some ".auto".toList) none [r] none
      ((Disk.put (fun _ => none) "a".toList t₁).put "a".toList t₂) = .ok ((Disk.put (fun _ => none) "a".toList t₁).put "a".toList t₂, []) := by
    unfold casino
    rw [e1]
    simp only [Outcome.ok_bind]
    rw [if_pos e2]
    rfl
  rw [a3, a4] at c1
  rw [b3, b4] at c2
  refine ⟨[r], [s15, s22, fun _ _ => false], (Disk.put (fun _ => none) "a".toList t₁).put "a".toList t₂, hR, ?_, rfl⟩
  simp only [List.map_cons, List.map_nil, campaign, c1, c2, c3, Outcome.ok_bind]
  rfl

/-- C36: an overlap relaxation which was interrupted, so that overlaps may still be there, counts as done: the next run is started from what it left. -/
theorem C36_relaxation_violated : ∃ (relaxation run : Run) (stops : List (Nat → Nat → Bool)) (disk : Disk), relaxation.kind = .relaxation ∧
    (∀ s s', (demoEngine (stops.headI)).perform 0 relaxation 0 s = .ok s' → (demoEngine (stops.headI)).interrupted s' = true) ∧
    campaign demoArith demoNumbers [relaxation, run] (stops.map fun stop => (demoEngine stop, none)) (fun _ => none) = .ok (disk, [[(0, 0, 3)], [(1, 0, 10)]]) := by
  let q : Run := ⟨"a".toList, .relaxation, some "a".toList, 1, 1⟩
  let r : Run := ⟨"b".toList, .integration (some 10) none, some "b".toList, 1, 1⟩
  have hq : q.ramsnapOut = some "a".toList := rfl
  have hr : r.ramsnapOut = some "b".toList := rfl
  have hn : ∀ p ∈ [q, r], need p < 2 ^ 64 := by
    intro p hp
    simp only [List.mem_cons, List.not_mem_nil, or_false] at hp
    rcases hp with rfl | rfl
    · show (0 : Nat) < _; simp
    · show (10 : Nat) < _; simp
  let s3 : Nat → Nat → Bool := fun _ n => n == 3
  obtain ⟨L₁, a1, a2, a3, a4, -, -, a5⟩ := C36_scratch (A := demoArith) (P := demoNumbers) (disk := fun _ => none) (runs := [q, r]) none (by simp) hn
    (fun p hp => by
      simp only [List.mem_cons, List.not_mem_nil, or_false] at hp
      rcases hp with rfl | rfl
      · exact ⟨_, hq, rfl⟩
      · exact ⟨_, hr, rfl⟩)
  obtain ⟨t₁, c1, d1⟩ := casino_single (stop := s3) (s' := (3, true)) hq rfl rfl a1 a2 (by rw [a3, a5]; rfl) (fun s => by rw [a4]; rfl) (.inl rfl) (by simp)
  obtain ⟨m₁, x₁, v1⟩ := d1 q hq
  obtain ⟨L₂, b1, b2, b3, b4, -, -, -, b5⟩ := C36_next (rs₁ := []) (rs₂ := []) (r := r) none hn (by simp) (by simp) v1 (by show (0 : Nat) ≤ _; simp)
    (.inl ⟨_, hr, by simp [Disk.put]⟩) (by simp)
  rw [List.nil_append] at b1
  obtain ⟨t₂, c2, d2⟩ := casino_single (stop := fun _ _ => false) (s' := (10, false)) hr rfl rfl b1 b2 (by rw [b3, b5]; rfl) (fun s => by rw [b4]; rfl)
    (.inr (by rw [b3]; rfl)) (by simp)
  rw [a3, a4] at c1
  rw [b3, b4] at c2
  refine ⟨q, r, [s3, fun _ _ => false], (Disk.put (fun _ => none) "a".toList t₁).put "b".toList t₂, rfl, ?_, ?_⟩
  · intro s s' h
    injection h with h
    rw [← h]
    rfl
  · simp only [List.map_cons, List.map_nil, campaign, c1, c2, Outcome.ok_bind]
    rfl

end Rampack
