import Verif.IO.CollectorSpec
import Verif.IO.ObsLemmas
/-
Lemmas about the collector of observables.
-/
namespace Rampack

open Spec TextFile

namespace Collector

variable {ι D : Type}

/-- What is fixed by adding the observables `l`. -/
structure Fixed (l : List (Entry ι D)) (C : Collector ι D) : Prop where
  obs : C.observables = l.map (·.obs)
  snapIdx : C.snapIdx.map (fun i => C.observables[i]?) = ((l.filter (·.snap)).map (·.obs)).map some
  avgIdx : C.avgIdx.map (fun i => C.observables[i]?) = ((l.filter (·.avg)).map (·.obs)).map some
  snapHeader : C.snapHeader = snapNames l
  avgHeader : C.avgHeader = avgNames l

/-- Columns made of rows. -/
def cols {α : Type} (w : Nat) (rows : List (List α)) (d : α) : List (List α) := (List.range w).map fun j => rows.map fun r => r.getD j d

theorem cols_nil {α : Type} (w : Nat) (d : α) : cols w [] d = List.replicate w [] := by
  simp [cols, List.map_const']

theorem cols_push {α : Type} {w : Nat} {rows : List (List α)} {r : List α} {d : α} (h : r.length = w) :
    pushRow (cols w rows d) r = cols w (rows ++ [r]) d := by
  apply List.ext_getElem
  · simp [pushRow, cols, h]
  · intro j h1 h2
    have hj : j < r.length := by simp [cols] at h2; omega
    simp [pushRow, cols, List.getElem_zipWith, hj]

theorem cols_length {α : Type} (w : Nat) (rows : List (List α)) (d : α) : (cols w rows d).length = w := by simp [cols]

theorem cols_clear {α : Type} (w : Nat) (rows : List (List α)) (d : α) : (cols w rows d).map (fun _ => ([] : List α)) = cols w [] d := by
  rw [cols_nil, cols, List.map_map]
  apply List.ext_getElem <;> simp

theorem rowAt_ok {i : Nat} : ∀ {l : List (List Text)}, (∀ c ∈ l, i < c.length) → rowAt i l = .ok (l.map fun c => c.getD i [])
  | [], _ => rfl
  | c :: l, h => by
    have hc : i < c.length := h c (by simp)
    have e : vget c i = .ok (c.getD i []) := by
      unfold vget
      rw [List.getElem?_eq_getElem hc, List.getD_eq_getElem?_getD, List.getElem?_eq_getElem hc]
      rfl
    rw [rowAt, e]
    simp only [Outcome.ok_bind]
    rw [rowAt_ok (fun c' h' => h c' (by simp [h']))]
    rfl

theorem rowAt_cols {w : Nat} {rows : List (List Text)} (hw : ∀ r ∈ rows, r.length = w) {i : Nat} (hi : i < rows.length) :
    rowAt i (cols w rows []) = .ok rows[i] := by
  rw [rowAt_ok]
  · have hl := hw rows[i] (List.getElem_mem hi)
    congr 1
    apply List.ext_getElem
    · simp [cols, hl]
    · intro j h1 h2
      simp [cols, hi, h2]
  · intro c hc
    simp only [cols, List.mem_map] at hc
    obtain ⟨j, -, rfl⟩ := hc
    simpa using hi

theorem vget_of {α : Type} {l : List α} {i : Nat} {a : α} (h : l[i]? = some a) : vget l i = .ok a := by simp [vget, h]

theorem snapRow_ok {print : D → Text} {C : Collector ι D} {x : ι} : ∀ {is : List Nat} {os : List (Observable ι D)},
    is.map (fun i => C.observables[i]?) = os.map some →
    C.snapRow print x is = .ok (os.flatMap fun o => (o.interval x C.params).map print ++ o.nominal x C.params)
  | [], [], _ => rfl
  | i :: is, o :: os, h => by
    simp only [List.map_cons, List.cons.injEq] at h
    rw [snapRow, vget_of h.1]
    simp only [Outcome.ok_bind]
    rw [snapRow_ok h.2]
    rfl

theorem avgRow_ok {C : Collector ι D} {x : ι} : ∀ {is : List Nat} {os : List (Observable ι D)},
    is.map (fun i => C.observables[i]?) = os.map some → C.avgRow x is = .ok (os.flatMap fun o => o.interval x C.params)
  | [], [], _ => rfl
  | i :: is, o :: os, h => by
    simp only [List.map_cons, List.cons.injEq] at h
    rw [avgRow, vget_of h.1]
    simp only [Outcome.ok_bind]
    rw [avgRow_ok h.2]
    rfl

theorem snapVals_length {print : D → Text} {l : List (Entry ι D)} (hp : ∀ e ∈ l, Proper e.obs) (x : ι) (p : ℝ × ℝ) :
    (snapVals print l x p).length = (snapNames l).length := by
  unfold snapVals snapNames
  rw [List.length_flatMap, List.length_flatMap]
  congr 1
  apply List.map_congr_left
  intro e he
  have := hp e (List.mem_of_mem_filter he) x p
  simp [this.1, this.2]

theorem avgVals_length {l : List (Entry ι D)} (hp : ∀ e ∈ l, Proper e.obs) (x : ι) (p : ℝ × ℝ) : (avgVals l x p).length = (avgNames l).length := by
  unfold avgVals avgNames
  rw [List.length_flatMap, List.length_flatMap]
  congr 1
  apply List.map_congr_left
  intro e he
  exact (hp e (List.mem_of_mem_filter he) x p).1

/-- What the collector remembers, and what is in the output. -/
structure Holds (print : D → Text) (l : List (Entry ι D)) (dflt : D) (bulk : Nat) (out : Option (List (Nat × Text))) (C : Collector ι D) (s : Seen ι) : Prop where
  fixed : Fixed l C
  params : C.params = s.params
  cycles : C.cycles = s.snaps.map (·.1)
  snaps : C.snapValues = cols (snapNames l).length (s.snaps.map fun t => snapVals print l t.2.1 t.2.2) []
  avgs : C.avgValues = cols (avgNames l).length (s.avgs.map fun t => avgVals l t.1 t.2) dflt
  bulk : C.bulk = List.replicate bulk s.avgs
  file : C.file = out.map fun rows => openAte (obsText (obsHeader l) (rows ++ s.ever.map (obsRow print l)))
  last : ∀ rows, out = some rows → C.lastCycle = lastOf (rows ++ s.ever.map (obsRow print l))

theorem rowText_ok {print : D → Text} {l : List (Entry ι D)} (hp : ∀ e ∈ l, Proper e.obs) {C : Collector ι D} {snaps : List (Nat × ι × (ℝ × ℝ))}
    (hc : C.cycles = snaps.map (·.1)) (hs : C.snapValues = cols (snapNames l).length (snaps.map fun t => snapVals print l t.2.1 t.2.2) [])
    {i : Nat} (hi : i < snaps.length) : C.rowText i = .ok (Collector.row (obsRow print l snaps[i]) ++ ['\n']) := by
  unfold rowText
  rw [hc, hs, rowAt_cols (by
    intro r hr
    obtain ⟨t, -, rfl⟩ := List.mem_map.mp hr
    exact snapVals_length hp _ _) (by simpa using hi)]
  have : vget (snaps.map (·.1)) i = .ok (snaps[i].1) := vget_of (by simp [hi])
  rw [this]
  simp [row, obsRow]

theorem openAte_write (t u : Text) : (openAte t).write u = openAte (t ++ u) := by
  simp [openAte, write, good]

theorem step_holds {print : D → Text} {l : List (Entry ι D)} (hp : ∀ e ∈ l, Proper e.obs) {dflt : D} {bulk : Nat} {out : Option (List (Nat × Text))}
    {C : Collector ι D} {s : Seen ι} (h : Holds print l dflt bulk out C s) (op : CollOp ι) (hop : op.Legal) :
    ∃ C', op.run print C = .ok C' ∧ Holds print l dflt bulk out C' (s.step op) := by
  cases op with
  | snapshot x cycle =>
    have hidx : C.snapIdx.map (fun i => C.observables[i]?) = ((l.filter (·.snap)).map (·.obs)).map some := h.fixed.snapIdx
    have hrow := snapRow_ok (print := print) (x := x) hidx
    have hv : ((l.filter (·.snap)).map (·.obs)).flatMap (fun o => (o.interval x C.params).map print ++ o.nominal x C.params) =
        snapVals print l x s.params := by
      rw [List.flatMap_map, h.params]; rfl
    rw [hv] at hrow
    have hlen := snapVals_length (print := print) hp x s.params
    have hs' : pushRow C.snapValues (snapVals print l x s.params) = cols (snapNames l).length
        ((s.snaps ++ [(cycle, x, s.params)]).map fun t => snapVals print l t.2.1 t.2.2) [] := by
      rw [h.snaps, cols_push hlen]; simp
    have hc' : C.cycles ++ [cycle] = (s.snaps ++ [(cycle, x, s.params)]).map (·.1) := by rw [h.cycles]; simp
    simp only [CollOp.run, addSnapshot, hrow, Outcome.ok_bind]
    have hreq : decide ((snapVals print l x s.params).length = C.snapValues.length) = true := by
      rw [h.snaps, cols_length, hlen]; simp
    rw [hreq]
    simp only [Outcome.require_true, Outcome.ok_bind]
    have hrt := rowText_ok (C := { C with cycles := C.cycles ++ [cycle], snapValues := pushRow C.snapValues (snapVals print l x s.params) }) hp hc' hs'
      (i := s.snaps.length) (by simp)
    have hi : (C.cycles ++ [cycle]).length - 1 = s.snaps.length := by rw [h.cycles]; simp
    have hget : (s.snaps ++ [(cycle, x, s.params)])[s.snaps.length] = (cycle, x, s.params) := by simp
    cases out with
    | none =>
      have hf : C.file = none := by rw [h.file]; rfl
      rw [hf]
      refine ⟨_, rfl, ⟨?_, ?_, ?_, ?_, ?_, ?_, ?_, ?_⟩⟩
      · exact ⟨h.fixed.obs, h.fixed.snapIdx, h.fixed.avgIdx, h.fixed.snapHeader, h.fixed.avgHeader⟩
      · exact h.params
      · exact hc'
      · exact hs'
      · exact h.avgs
      · exact h.bulk
      · rfl
      · intro rows hr; cases hr
    | some rows =>
      have hf := h.file
      simp only [Option.map_some] at hf
      rw [hf] at hrt
      rw [hf]
      simp only [printLast, hi, hrt, hget, Outcome.ok_bind]
      rw [openAte_write]
      have et : obsText (obsHeader l) (rows ++ s.ever.map (obsRow print l)) ++ (row (obsRow print l (cycle, x, s.params)) ++ ['\n']) =
          obsText (obsHeader l) (rows ++ (s.ever ++ [(cycle, x, s.params)]).map (obsRow print l)) := by
        rw [List.map_append, ← List.append_assoc rows]
        simp only [List.map_cons, List.map_nil]
        rw [obsText_snoc, List.append_assoc]
      rw [et]
      refine ⟨_, rfl, ⟨?_, ?_, ?_, ?_, ?_, ?_, ?_, ?_⟩⟩
      · exact ⟨h.fixed.obs, h.fixed.snapIdx, h.fixed.avgIdx, h.fixed.snapHeader, h.fixed.avgHeader⟩
      · exact h.params
      · exact hc'
      · exact hs'
      · exact h.avgs
      · exact h.bulk
      · rfl
      · intro rows' hr
        simp [lastOf, Seen.step, obsRow]
  | averaging x =>
    have hidx : C.avgIdx.map (fun i => C.observables[i]?) = ((l.filter (·.avg)).map (·.obs)).map some := h.fixed.avgIdx
    have hrow := avgRow_ok (x := x) hidx
    have hv : ((l.filter (·.avg)).map (·.obs)).flatMap (fun o => o.interval x C.params) = avgVals l x s.params := by
      rw [List.flatMap_map, h.params]; rfl
    rw [hv] at hrow
    have hlen := avgVals_length hp x s.params
    have hs' : pushRow C.avgValues (avgVals l x s.params) = cols (avgNames l).length ((s.avgs ++ [(x, s.params)]).map fun t => avgVals l t.1 t.2) dflt := by
      rw [h.avgs, cols_push hlen]; simp
    have hreq : decide ((avgVals l x s.params).length = C.avgValues.length) = true := by
      rw [h.avgs, cols_length, hlen]; simp
    simp only [CollOp.run, addAveraging, hrow, Outcome.ok_bind, hreq, Outcome.require_true]
    refine ⟨_, rfl, ⟨?_, ?_, ?_, ?_, ?_, ?_, ?_, ?_⟩⟩
    · exact ⟨h.fixed.obs, h.fixed.snapIdx, h.fixed.avgIdx, h.fixed.snapHeader, h.fixed.avgHeader⟩
    · exact h.params
    · exact h.cycles
    · exact h.snaps
    · exact hs'
    · simp only [h.bulk, h.params, List.map_replicate]; rfl
    · exact h.file
    · exact h.last
  | params T p =>
    have h1 : decide (0 < T) = true := decide_eq_true hop.1
    have h2 : decide (0 ≤ p) = true := decide_eq_true hop.2
    simp only [CollOp.run, setParams, h1, h2, Outcome.require_true, Outcome.ok_bind]
    exact ⟨_, rfl, ⟨⟨h.fixed.obs, h.fixed.snapIdx, h.fixed.avgIdx, h.fixed.snapHeader, h.fixed.avgHeader⟩, rfl, h.cycles, h.snaps, h.avgs, h.bulk,
      h.file, h.last⟩⟩
  | clear =>
    refine ⟨_, rfl, ⟨?_, ?_, ?_, ?_, ?_, ?_, ?_, ?_⟩⟩
    · exact ⟨h.fixed.obs, h.fixed.snapIdx, h.fixed.avgIdx, h.fixed.snapHeader, h.fixed.avgHeader⟩
    · exact h.params
    · rfl
    · simp only [clear, h.snaps]; exact cols_clear _ _ _
    · simp only [clear, h.avgs]; exact cols_clear _ _ _
    · simp only [clear, h.bulk, List.map_replicate]; rfl
    · exact h.file
    · exact h.last

theorem runAll_holds {print : D → Text} {l : List (Entry ι D)} (hp : ∀ e ∈ l, Proper e.obs) {dflt : D} {bulk : Nat} {out : Option (List (Nat × Text))} :
    ∀ (ops : List (CollOp ι)) (_ : ∀ op ∈ ops, op.Legal) {C : Collector ι D} {s : Seen ι} (_ : Holds print l dflt bulk out C s),
      ∃ C', runAll print C ops = .ok C' ∧ Holds print l dflt bulk out C' (ops.foldl Seen.step s)
  | [], _, C, s, h => ⟨C, rfl, h⟩
  | op :: ops, hop, C, s, h => by
    obtain ⟨C1, e1, h1⟩ := step_holds hp h op (hop op (by simp))
    obtain ⟨C2, e2, h2⟩ := runAll_holds hp ops (fun o ho => hop o (by simp [ho])) h1
    refine ⟨C2, ?_, h2⟩
    unfold runAll at e2 ⊢
    rw [List.foldlM_cons, e1]
    exact e2

end Collector

end Rampack
