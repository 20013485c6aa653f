import Verif.IO.CollectorLemmas
import Verif.IO.LinesProps
import Mathlib.Tactic.Linarith
import Mathlib.Tactic.FieldSimp
/-
Theorems about the collector of observables: C56, C57.
-/
namespace Rampack

open Rampack.Spec Rampack.TextFile Rampack.Collector

variable {ι D : Type}

/-- Nothing was observed yet. -/
structure Fresh (l : List (Entry ι D)) (C : Collector ι D) : Prop where
  fixed : Fixed l C
  params : C.params = (0, 0)
  cycles : C.cycles = []
  snaps : C.snapValues = List.replicate (snapNames l).length []
  avgs : C.avgValues = List.replicate (avgNames l).length []
  bulk : C.bulk = []
  file : C.file = none
  last : C.lastCycle = 0

theorem frontEmpty_replicate {α : Type} (n : Nat) : frontEmpty (List.replicate n ([] : List α)) = true := by
  cases n <;> rfl

theorem grow_replicate {α : Type} {n m : Nat} (h : n ≤ m) : grow (List.replicate n ([] : List α)) m = List.replicate m [] := by
  unfold grow
  rw [List.length_replicate, List.replicate_append_replicate]
  congr 1; omega

theorem map_getElem_append {α : Type} {is : List Nat} {l : List α} {o : α} {r : List α} (h : is.map (fun i => l[i]?) = r.map some) :
    is.map (fun i => (l ++ [o])[i]?) = r.map some := by
  rw [← h]
  apply List.map_congr_left
  intro i hi
  have : l[i]? ∈ r.map some := by rw [← h]; exact List.mem_map.mpr ⟨i, hi, rfl⟩
  obtain ⟨a, -, ha⟩ := List.mem_map.mp this
  have hlt : i < l.length := (List.getElem?_eq_some_iff.mp ha.symm).1
  rw [List.getElem?_append_left hlt]

theorem addObservable_fresh {l : List (Entry ι D)} {C : Collector ι D} (h : Fresh l C) (e : Entry ι D) :
    ∃ C', C.addObservable e.obs e.snap e.avg e.inl = .ok C' ∧ Fresh (l ++ [e]) C' := by
  unfold addObservable
  rw [h.snaps, h.avgs, frontEmpty_replicate, frontEmpty_replicate]
  simp only [Outcome.require_true, Outcome.ok_bind]
  refine ⟨_, rfl, ?_⟩
  have hs := h.fixed.snapIdx
  have ha := h.fixed.avgIdx
  have hs' := map_getElem_append (o := e.obs) hs
  have ha' := map_getElem_append (o := e.obs) ha
  obtain ⟨o, snap, avg, inl⟩ := e
  cases snap <;> cases avg <;> cases inl <;>
  · constructor
    · constructor
      · simp [addSnap, addAvg, h.fixed.obs]
      · simp only [addSnap, addAvg, if_true, if_false, Bool.false_eq_true, List.map_append, hs', List.filter_append]
        simp
      · simp only [addSnap, addAvg, if_true, if_false, Bool.false_eq_true, List.map_append, ha', List.filter_append]
        simp
      · simp [addSnap, addAvg, snapNames, h.fixed.snapHeader, List.filter_append]
      · simp [addSnap, addAvg, avgNames, h.fixed.avgHeader, List.filter_append]
    · simp [addSnap, addAvg, h.params]
    · simp [addSnap, addAvg, h.cycles]
    · simp only [addSnap, addAvg, if_true, if_false, Bool.false_eq_true, h.snaps, h.fixed.snapHeader]
      first
      | rw [grow_replicate (by simp)]; simp [snapNames, List.filter_append]
      | simp [snapNames, List.filter_append]
    · simp only [addSnap, addAvg, if_true, if_false, Bool.false_eq_true, h.avgs, h.fixed.avgHeader]
      first
      | rw [grow_replicate (by simp)]; simp [avgNames, List.filter_append]
      | simp [avgNames, List.filter_append]
    · simp [addSnap, addAvg, h.bulk]
    · simp [addSnap, addAvg, h.file]
    · simp [addSnap, addAvg, h.last]

theorem build_holds (print : D → Text) (l : List (Entry ι D)) (dflt : D) (n : Nat) :
    ∃ C, build l n = .ok C ∧ C.lastCycle = 0 ∧ Holds print l dflt n none C ⟨(0, 0), [], [], []⟩ := by
  have key : ∃ C : Collector ι D, l.foldlM (fun C e => C.addObservable e.obs e.snap e.avg e.inl) Collector.empty = .ok C ∧ Fresh l C := by
    induction l using List.reverseRecOn with
    | nil => exact ⟨Collector.empty, rfl, ⟨⟨rfl, rfl, rfl, rfl, rfl⟩, rfl, rfl, rfl, rfl, rfl, rfl, rfl⟩⟩
    | append_singleton l e ih =>
      obtain ⟨C, h1, h2⟩ := ih
      obtain ⟨C', h3, h4⟩ := addObservable_fresh h2 e
      refine ⟨C', ?_, h4⟩
      rw [List.foldlM_append, h1]
      simp only [Outcome.ok_bind, List.foldlM_cons, h3, List.foldlM_nil]
      rfl
  obtain ⟨C, h1, h⟩ := key
  have hb : ∀ (C : Collector ι D) (n : Nat), ((List.range n).foldl (fun C _ => C.addBulk) C) = { C with bulk := C.bulk ++ List.replicate n [] } := by
    intro C n
    induction n with
    | zero => simp
    | succ n ih =>
      rw [List.range_succ, List.foldl_append, ih]
      simp [addBulk, List.replicate_succ', List.append_assoc]
  refine ⟨{ C with bulk := C.bulk ++ List.replicate n [] }, ?_, h.last, ?_⟩
  · unfold build
    rw [h1]
    simp only [Outcome.ok_bind, hb]
    rfl
  · refine ⟨⟨h.fixed.obs, h.fixed.snapIdx, h.fixed.avgIdx, h.fixed.snapHeader, h.fixed.avgHeader⟩, h.params, h.cycles, ?_, ?_, ?_, h.file, ?_⟩
    · rw [List.map_nil, cols_nil]; exact h.snaps
    · rw [List.map_nil, cols_nil]; exact h.avgs
    · simp [h.bulk]
    · intro rows hr; cases hr

theorem rowsText_ok {print : D → Text} {l : List (Entry ι D)} (hp : ∀ e ∈ l, Proper e.obs) {C : Collector ι D} {snaps : List (Nat × ι × (ℝ × ℝ))}
    (hc : C.cycles = snaps.map (·.1)) (hs : C.snapValues = cols (snapNames l).length (snaps.map fun t => snapVals print l t.2.1 t.2.2) []) :
    ∀ (k : Nat), k ≤ snaps.length →
      C.rowsText (List.range' k (snaps.length - k)) = .ok ((snaps.drop k).flatMap fun t => row (obsRow print l t) ++ ['\n']) := by
  have key : ∀ (m k : Nat), k + m = snaps.length →
      C.rowsText (List.range' k m) = .ok ((snaps.drop k).flatMap fun t => row (obsRow print l t) ++ ['\n']) := by
    intro m
    induction m with
    | zero =>
      intro k hk
      rw [List.drop_eq_nil_of_le (by omega)]
      rfl
    | succ m ih =>
      intro k hk
      have hlt : k < snaps.length := by omega
      rw [List.range'_succ, rowsText, rowText_ok hp hc hs hlt]
      simp only [Outcome.ok_bind]
      rw [ih (k + 1) (by omega), List.drop_eq_getElem_cons hlt]
      rfl
  intro k hk
  exact key _ k (by omega)

theorem holds_print {print : D → Text} {l : List (Entry ι D)} (hp : ∀ e ∈ l, Proper e.obs) {dflt : D} {n : Nat} {out : Option (List (Nat × Text))}
    {C : Collector ι D} {s : Seen ι} (h : Holds print l dflt n out C s) (hne : snapNames l ≠ []) :
    C.printSnapshots true = .ok (obsText (obsHeader l) (s.snaps.map (obsRow print l))) := by
  have h1 : (!C.snapValues.isEmpty) = true := by
    rw [h.snaps]
    have : (cols (snapNames l).length (s.snaps.map fun t => snapVals print l t.2.1 t.2.2) []).length ≠ 0 := by
      rw [cols_length]; exact fun h => hne (List.length_eq_zero_iff.mp h)
    cases hc : cols (snapNames l).length (s.snaps.map fun t => snapVals print l t.2.1 t.2.2) [] with
    | nil => rw [hc] at this; exact absurd rfl this
    | cons => rfl
  have h2 : C.snapValues.all (fun c => decide (c.length = C.cycles.length)) = true := by
    rw [List.all_eq_true]
    intro c hc
    rw [h.snaps] at hc
    simp only [cols, List.mem_map] at hc
    obtain ⟨j, -, rfl⟩ := hc
    simp [h.cycles]
  have h3 := rowsText_ok hp h.cycles h.snaps 0 (by omega)
  unfold printSnapshots
  have hl : C.cycles.length = s.snaps.length := by rw [h.cycles]; simp
  rw [hl] at h2
  simp only [h1, Outcome.require_true, Outcome.ok_bind, List.range_eq_range', hl, h2]
  rw [Nat.sub_zero] at h3
  rw [h3]
  simp only [Outcome.ok_bind, if_true, List.drop_zero]
  have : C.headerText = obsHeader l := by rw [headerText, h.fixed.snapHeader]; rfl
  rw [this]
  simp only [obsText, List.flatMap_map, row]
  show Outcome.ok _ = Outcome.ok _
  simp

/-- C57: after any history, the snapshots printed are those taken since the last clearing, in their order, each with the values of all observables of
the snapshot type in the order of their adding, for the temperature and the pressure set at that time. -/
theorem C57_snapshots [Nonempty D] {l : List (Entry ι D)} (hp : ∀ e ∈ l, Proper e.obs) (hne : snapNames l ≠ []) (print : D → Text) (n : Nat)
    {ops : List (CollOp ι)} (hops : ∀ op ∈ ops, op.Legal) :
    ∃ C C', build l n = .ok C ∧ runAll print C ops = .ok C' ∧
      C'.printSnapshots true = .ok (obsText (obsHeader l) ((Seen.after ops).snaps.map (obsRow print l))) := by
  obtain ⟨d⟩ := ‹Nonempty D›
  obtain ⟨C, e, -, h⟩ := build_holds print l d n
  obtain ⟨C', e', h'⟩ := runAll_holds hp ops hops h
  exact ⟨C, C', e, e', holds_print hp h' hne⟩

/-- C57: every bulk observable was given exactly what was averaged since the last clearing, in order. -/
theorem C57_bulk [Nonempty D] {l : List (Entry ι D)} (hp : ∀ e ∈ l, Proper e.obs) (print : D → Text) (n : Nat) {ops : List (CollOp ι)}
    (hops : ∀ op ∈ ops, op.Legal) :
    ∃ C C', build l n = .ok C ∧ runAll print C ops = .ok C' ∧ C'.bulk = List.replicate n (Seen.after ops).avgs := by
  obtain ⟨d⟩ := ‹Nonempty D›
  obtain ⟨C, e, -, h⟩ := build_holds print l d n
  obtain ⟨C', e', h'⟩ := runAll_holds hp ops hops h
  exact ⟨C, C', e, e', h'.bulk⟩

theorem foldl_sum (l : List ℝ) (a : ℝ) : l.foldl (· + ·) a = a + l.sum := by
  induction l generalizing a with
  | nil => simp
  | cons x l ih => rw [List.foldl_cons, ih, List.sum_cons]; ring

theorem squares_eq (m : ℝ) (l : List ℝ) : Quantity.squares m l = (l.map fun x => (x - m) ^ 2).sum := by
  have : ∀ a : ℝ, l.foldl (fun (s x : ℝ) => s + (m - x) ^ 2) a = a + (l.map fun x => (x - m) ^ 2).sum := by
    induction l with
    | nil => simp
    | cons x l ih => intro a; rw [List.foldl_cons, ih, List.map_cons, List.sum_cons]; ring
  rw [Quantity.squares, this, zero_add]

theorem mean_eq (l : List ℝ) : Quantity.mean l = meanOf l := by
  rw [Quantity.mean, meanOf, foldl_sum, zero_add]

/-- C56: the value is the arithmetic mean of the samples. -/
theorem C56_mean {l : List ℝ} (hne : l ≠ []) : (Quantity.fromSamples l).1 = meanOf l := by
  match l, hne with
  | [x], _ => simp [Quantity.fromSamples, meanOf]
  | x :: y :: l, _ => rw [← mean_eq]; rfl

/-- C56: the error is the standard error of the mean: not negative, with the square equal to the sum of squares of deviations from the mean over
`n (n - 1)`. -/
theorem C56_error {l : List ℝ} (hlen : 2 ≤ l.length) : 0 ≤ (Quantity.fromSamples l).2 ∧ (Quantity.fromSamples l).2 ^ 2 = error2Of l := by
  match l, hlen with
  | x :: y :: l, _ =>
    have hs : 0 ≤ ((x :: y :: l).map fun z => (z - meanOf (x :: y :: l)) ^ 2).sum := by
      apply List.sum_nonneg
      intro z hz
      obtain ⟨w, -, rfl⟩ := List.mem_map.mp hz
      exact sq_nonneg _
    have e : (Quantity.fromSamples (x :: y :: l)).2 = Real.sqrt (((x :: y :: l).map fun z => (z - meanOf (x :: y :: l)) ^ 2).sum /
        ((x :: y :: l).length : ℝ) / (((x :: y :: l).length - 1 : ℕ) : ℝ)) := by
      rw [← mean_eq, ← squares_eq]; rfl
    rw [e]
    refine ⟨Real.sqrt_nonneg _, ?_⟩
    rw [Real.sq_sqrt (by positivity), error2Of, div_div]
    congr 2
    simp

/-- C56: a single sample has no error, no samples give zero. -/
theorem C56_few (x : ℝ) : Quantity.fromSamples [x] = (x, 0) ∧ Quantity.fromSamples [] = (0, 0) := ⟨rfl, rfl⟩

example : (Quantity.fromSamples [1, 2, 6]).1 = 3 ∧ (Quantity.fromSamples [1, 2, 6]).2 ^ 2 = 7 / 3 := by
  rw [C56_mean (by simp), (C56_error (by simp)).2]
  norm_num [meanOf, error2Of]

theorem flatten_ok {C : Collector ι ℝ} {names : List Text} {rows : List (List ℝ)} (hh : C.avgHeader = names) (hv : C.avgValues = cols names.length rows 0) :
    ∀ {is : List Nat}, (∀ i ∈ is, i < names.length) →
      C.flatten is = .ok (is.map fun i => (names.getD i [], Quantity.fromSamples (rows.map fun r => r.getD i 0)))
  | [], _ => rfl
  | i :: is, hi => by
    have h1 : i < names.length := hi i (by simp)
    have e1 : vget C.avgHeader i = .ok (names.getD i []) := vget_of (by rw [hh]; simp [h1])
    have e2 : vget C.avgValues i = .ok (rows.map fun r => r.getD i 0) := vget_of (by rw [hv]; simp [cols, h1])
    rw [flatten, e1, e2]
    simp only [Outcome.ok_bind]
    rw [flatten_ok hh hv (fun j hj => hi j (by simp [hj]))]
    rfl

theorem holds_averages {print : ℝ → Text} {l : List (Entry ι ℝ)} {n : Nat} {out : Option (List (Nat × Text))} {C : Collector ι ℝ} {s : Seen ι}
    (h : Holds print l 0 n out C s) :
    C.averages = .ok ((List.range (avgNames l).length).map fun i =>
      ((avgNames l).getD i [], Quantity.fromSamples (s.avgs.map fun t => (avgVals l t.1 t.2).getD i 0))) := by
  unfold averages
  rw [flatten_ok h.fixed.avgHeader h.avgs (by rw [h.fixed.avgHeader]; simp), h.fixed.avgHeader]
  simp only [List.map_map, Function.comp_def]

/-- C57: after any history, the averages are of exactly the values averaged since the last clearing: for the `i`-th name the mean and the error of
the `i`-th values of them all. -/
theorem C57_averages {l : List (Entry ι ℝ)} (hp : ∀ e ∈ l, Proper e.obs) (print : ℝ → Text) (n : Nat) {ops : List (CollOp ι)}
    (hops : ∀ op ∈ ops, op.Legal) :
    ∃ C C' r, build l n = .ok C ∧ runAll print C ops = .ok C' ∧ C'.averages = .ok r ∧ r.length = (avgNames l).length ∧
      ∀ (i : Nat) (hi : i < r.length) (samples : List ℝ), samples = (Seen.after ops).avgs.map (fun t => (avgVals l t.1 t.2).getD i 0) →
        (avgNames l)[i]? = some r[i].1 ∧ (samples ≠ [] → r[i].2.1 = meanOf samples) ∧
        (2 ≤ samples.length → 0 ≤ r[i].2.2 ∧ r[i].2.2 ^ 2 = error2Of samples) := by
  obtain ⟨C, e, -, h⟩ := build_holds print l 0 n
  obtain ⟨C', e', h'⟩ := runAll_holds hp ops hops h
  refine ⟨C, C', _, e, e', holds_averages h', by simp, ?_⟩
  intro i hi samples hs
  simp only [List.length_map, List.length_range] at hi
  simp only [List.getElem_map, List.getElem_range]
  refine ⟨by simp [hi], fun hne => ?_, fun h2 => ?_⟩
  · rw [hs] at hne ⊢
    exact C56_mean hne
  · rw [hs] at h2 ⊢
    exact C56_error h2

theorem groups_ok {C : Collector ι ℝ} : ∀ {is : List Nat} {os : List (Observable ι ℝ)} {flat : List (Text × ℝ × ℝ)},
    is.map (fun i => C.observables[i]?) = os.map some → flat.map Prod.fst = os.flatMap (·.intervalHeader) →
    ∃ r, C.groups is flat = .ok r ∧ r.map Prod.fst = os.map (·.name) ∧ r.map (fun g => g.2.map Prod.fst) = os.map (·.intervalHeader) ∧
      r.flatMap Prod.snd = flat
  | [], [], flat, _, hf => by
    have : flat = [] := by simpa using hf
    subst this
    exact ⟨[], rfl, rfl, rfl, rfl⟩
  | i :: is, o :: os, flat, h, hf => by
    simp only [List.map_cons, List.cons.injEq] at h
    have hlen : o.intervalHeader.length ≤ flat.length := by
      have := congrArg List.length hf
      simp only [List.length_map, List.flatMap_cons, List.length_append] at this
      omega
    have ht : (flat.take o.intervalHeader.length).map Prod.fst = o.intervalHeader := by
      rw [List.map_take, hf, List.flatMap_cons, List.take_left]
    have hd : (flat.drop o.intervalHeader.length).map Prod.fst = os.flatMap (·.intervalHeader) := by
      rw [List.map_drop, hf, List.flatMap_cons, List.drop_left]
    obtain ⟨r, h1, h2, h3, h4⟩ := groups_ok h.2 hd
    refine ⟨(o.name, flat.take o.intervalHeader.length) :: r, ?_, by simp [h2], ?_, ?_⟩
    · rw [groups, vget_of h.1]
      simp only [Outcome.ok_bind, hlen, decide_true, Outcome.require_true, h1]
      rfl
    · simp only [List.map_cons, h3, ht]
    · simp only [List.flatMap_cons, h4, List.take_append_drop]

/-- C57: the same averages grouped by observables: the groups have the names of observables of the averaging type, and the names of their values. -/
theorem C57_groups {l : List (Entry ι ℝ)} (hp : ∀ e ∈ l, Proper e.obs) (print : ℝ → Text) (n : Nat) {ops : List (CollOp ι)}
    (hops : ∀ op ∈ ops, op.Legal) :
    ∃ C C' r flat, build l n = .ok C ∧ runAll print C ops = .ok C' ∧ C'.averages = .ok flat ∧ C'.groupedAverages = .ok r ∧ r.flatMap Prod.snd = flat ∧
      r.map (fun g => (g.1, g.2.map Prod.fst)) = (l.filter (·.avg)).map fun e => (e.obs.name, e.obs.intervalHeader) := by
  obtain ⟨C, e, -, h⟩ := build_holds print l 0 n
  obtain ⟨C', e', h'⟩ := runAll_holds hp ops hops h
  have ha := holds_averages h'
  obtain ⟨r, h1, h2, h3, h4⟩ := groups_ok (C := C') h'.fixed.avgIdx (flat := (List.range (avgNames l).length).map fun i =>
      ((avgNames l).getD i [], Quantity.fromSamples (((List.foldl Seen.step _ ops)).avgs.map fun t => (avgVals l t.1 t.2).getD i 0))) (by
    rw [List.map_map, List.flatMap_map]
    apply List.ext_getElem
    · simp [avgNames]
    · intro i h1 h2
      simp at h2
      simp [avgNames, h2])
  refine ⟨C, C', r, _, e, e', ha, ?_, h4, ?_⟩
  · unfold groupedAverages
    rw [ha]
    simp only [Outcome.ok_bind]
    exact h1
  · have hz : ∀ (r : List (Text × List (Text × ℝ × ℝ))) (os : List (Observable ι ℝ)), r.map Prod.fst = os.map (·.name) →
        r.map (fun g => g.2.map Prod.fst) = os.map (·.intervalHeader) → r.map (fun g => (g.1, g.2.map Prod.fst)) = os.map fun o => (o.name, o.intervalHeader) := by
      intro r
      induction r with
      | nil => intro os h _; cases os with | nil => rfl | cons => cases h
      | cons g r ih =>
        intro os h h'
        cases os with
        | nil => cases h
        | cons o os =>
          simp only [List.map_cons, List.cons.injEq] at h h' ⊢
          exact ⟨by rw [h.1, h'.1], ih os h.2 h'.2⟩
    have := hz r _ h2 h3
    rw [List.map_map] at this
    exact this

/-- C57: with an output attached (new, or with some rows in it already), after any history it has the rows it had and then a row for each snapshot taken,
in order, and the number of cycles reported for it is that of the last row; clearing does not change it. -/
theorem C57_on_the_fly [Nonempty D] {l : List (Entry ι D)} (hp : ∀ e ∈ l, Proper e.obs) (print : D → Text) (n : Nat) {ops : List (CollOp ι)}
    (hops : ∀ op ∈ ops, op.Legal) {rows : List (Nat × Text)} (hh : '\n' ∉ obsHeader l) (hr : ∀ r ∈ rows, '\n' ∉ r.2 ∧ r.1 < 2 ^ 64)
    {t : Text} (ht : t = obsText (obsHeader l) rows ∨ t = [] ∧ rows = []) :
    ∃ C C' C'', build l n = .ok C ∧ C.attach (openAte t) = .ok C' ∧ runAll print C' ops = .ok C'' ∧
      C''.file = some (openAte (obsText (obsHeader l) (rows ++ (Seen.after ops).ever.map (obsRow print l)))) ∧
      C''.lastCycle = lastOf (rows ++ (Seen.after ops).ever.map (obsRow print l)) := by
  obtain ⟨d⟩ := ‹Nonempty D›
  obtain ⟨C, e, hl, h⟩ := build_holds print l d n
  have hhead : C.headerText = obsHeader l := by rw [headerText, h.fixed.snapHeader]; rfl
  have hC' : C.attach (openAte t) = .ok { C with file := some (openAte (obsText (obsHeader l) rows)), lastCycle := lastOf rows } := by
    rcases ht with rfl | ⟨rfl, rfl⟩
    · have := Collector.attach_ok (C := C) (rs := rows) (by rw [hhead]; exact hh) hr
      rw [hhead] at this
      exact this
    · rw [Collector.attach_empty, hhead]
      rfl
  have h0 : Holds print l d n (some rows) { C with file := some (openAte (obsText (obsHeader l) rows)), lastCycle := lastOf rows } ⟨(0, 0), [], [], []⟩ :=
    ⟨⟨h.fixed.obs, h.fixed.snapIdx, h.fixed.avgIdx, h.fixed.snapHeader, h.fixed.avgHeader⟩, h.params, h.cycles, h.snaps, h.avgs, h.bulk, by simp,
      by intro r hr; cases hr; simp⟩
  obtain ⟨C'', e'', h''⟩ := runAll_holds hp ops hops h0
  exact ⟨C, _, C'', e, hC', e'', h''.file, h''.last rows rfl⟩

/-- An observable with two values, and one with a text. -/
def demoEntries : List (Entry ℕ ℝ) :=
  [⟨⟨["a".toList, "b".toList], [], fun x p => [x, p.1], fun _ _ => [], "ab".toList⟩, true, true, false⟩,
   ⟨⟨[], ["c".toList], fun _ _ => [], fun _ _ => ["yes".toList], "c".toList⟩, true, false, true⟩]

theorem demoEntries_proper : ∀ e ∈ demoEntries, Proper e.obs := by
  intro e he
  simp only [demoEntries, List.mem_cons, List.not_mem_nil, or_false] at he
  rcases he with rfl | rfl <;> intro x p <;> simp

/-- The hypotheses are met, and an average is forgotten after clearing. -/
example : (∀ e ∈ demoEntries, Proper e.obs) ∧ snapNames demoEntries ≠ [] ∧ '\n' ∉ obsHeader demoEntries ∧
    (∀ op ∈ [CollOp.averaging 5, .clear, .params 2 0, .averaging 3, .averaging 4], op.Legal) ∧
    (Seen.after [CollOp.averaging 5, .clear, .params 2 0, .averaging 3, .averaging 4]).avgs = [(3, (2, 0)), (4, (2, 0))] :=
  ⟨demoEntries_proper, by decide, by decide, by simp [CollOp.Legal], by simp [Seen.after, Seen.step]⟩

end Rampack
