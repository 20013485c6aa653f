import Verif.Frontend.OutputsSpec
import Verif.IO.CollectorProps
import Verif.IO.CrashLemmas
import Verif.IO.LinesProps
/-
Lemmas about outputs written on the fly.
-/
namespace Rampack

open Spec Traj TextFile Collector

variable {ι D : Type}

theorem multiples {e : Nat} (he : 0 < e) (o : Nat) : ∀ k, (List.range' (o + 1) k).filter (fun n => decide (e ∣ n)) =
    (List.range' (o / e + 1) ((o + k) / e - o / e)).map (· * e)
  | 0 => by simp
  | k + 1 => by
    rw [List.range'_1_concat, List.filter_append, multiples he o k]
    have hmono : o / e ≤ (o + k) / e := Nat.div_le_div_right (by omega)
    by_cases hd : e ∣ o + 1 + k
    · have h1 : (o + (k + 1)) / e = (o + k) / e + 1 := by
        rw [show o + (k + 1) = o + k + 1 by omega, Nat.succ_div, if_pos (by rw [show o + k + 1 = o + 1 + k by omega]; exact hd)]
      rw [List.filter_cons_of_pos (by simpa using hd), List.filter_nil, h1, show (o + k) / e + 1 - o / e = ((o + k) / e - o / e) + 1 by omega, List.range'_1_concat,
        List.map_append]
      congr 1
      obtain ⟨q, hq⟩ := hd
      have h2 : (o + (k + 1)) / e = q := by
        rw [show o + (k + 1) = e * q by omega, Nat.mul_div_cancel_left _ he]
      rw [List.map_cons, List.map_nil, hq, mul_comm e q]
      congr 2
      omega
    · have h1 : (o + (k + 1)) / e = (o + k) / e := by
        rw [show o + (k + 1) = o + k + 1 by omega, Nat.succ_div, if_neg (by rw [show o + k + 1 = o + 1 + k by omega]; exact hd), Nat.add_zero]
      rw [List.filter_cons_of_neg (by simpa using hd), List.filter_nil, List.append_nil, h1]

theorem rounded {e : Nat} (o : Nat) : o - o % e = o / e * e := by
  have := Nat.div_add_mod o e
  rw [mul_comm] at this
  omega

theorem recordEach_same {A : Arith} {F : Xyz.Format} {x : Snapshot} {n : Nat} {r r' : Traj.Recorder} (h : r.recordSnapshot A x n = .ok r') :
    ∀ k, recordEach A F x n (List.replicate k (.ramtrj r)) = .ok (List.replicate k (.ramtrj r'))
  | 0 => rfl
  | k + 1 => by
    rw [List.replicate_succ, recordEach, Rec.record, h]
    simp only [Outcome.ok_bind, recordEach_same h k]
    rfl

theorem taken_cons (op : CollOp ι) (ops : List (CollOp ι)) : taken (op :: ops) = (match op with | .snapshot x n => [(x, n)] | _ => []) ++ taken ops := by
  unfold taken
  cases op <;> rfl

theorem fold_ops {A : Arith} {F : Xyz.Format} {print : D → Text} {view : ι → Snapshot} {k : Nat} : ∀ {ops : List (CollOp ι)} {C C' : Collector ι D}
    {r r' : Traj.Recorder}, (taken ops).map Prod.snd = (List.range' (r.numSnapshots + 1) (taken ops).length).map (· * r.cycleStep) →
    (r.numSnapshots + (taken ops).length) * r.cycleStep < 2 ^ 64 → recordAll A r ((taken ops).map fun t => view t.1) = .ok r' → runAll print C ops = .ok C' →
    ops.foldlM (outputsOp A F print view) ⟨List.replicate k (.ramtrj r), C⟩ = .ok ⟨List.replicate k (.ramtrj r'), C'⟩
  | [], C, C', r, r', _, _, h, hC => by
    rw [show taken ([] : List (CollOp ι)) = [] from rfl, List.map_nil, recordAll] at h
    injection h with h
    unfold runAll at hC
    rw [List.foldlM_nil] at hC
    rw [List.foldlM_nil, h, Outcome.ok_inj.mp hC]
    rfl
  | op :: ops, C, C', r, r', hn, hlt, h, hC => by
    unfold runAll at hC
    rw [List.foldlM_cons] at hC
    obtain ⟨C₁, h1, hC₂⟩ := Outcome.bind_eq_ok.mp hC
    rw [List.foldlM_cons]
    rw [taken_cons] at hn hlt h
    cases op with
    | snapshot x n =>
      simp only [List.cons_append, List.nil_append, List.map_cons, List.length_cons] at hn hlt h
      rw [List.range'_succ, List.map_cons, List.cons.injEq] at hn
      obtain ⟨hn1, hn2⟩ := hn
      rw [recordAll] at h
      obtain ⟨r₁, h2, h⟩ := Outcome.bind_eq_ok.mp h
      have e : r.lastCycle + r.cycleStep = n := by
        unfold Traj.Recorder.lastCycle u64
        rw [Nat.mod_eq_of_lt, hn1, Nat.succ_mul]
        refine lt_of_le_of_lt (Nat.mul_le_mul_right _ ?_) hlt
        omega
      rw [e] at h2
      have h3 : r₁.numSnapshots = r.numSnapshots + 1 ∧ r₁.cycleStep = r.cycleStep := by
        unfold Traj.Recorder.recordSnapshot at h2
        obtain ⟨-, -, h2⟩ := Outcome.bind_eq_ok.mp h2
        obtain ⟨-, -, h2⟩ := Outcome.bind_eq_ok.mp h2
        obtain ⟨-, -, h2⟩ := Outcome.bind_eq_ok.mp h2
        obtain ⟨-, -, h2⟩ := Outcome.bind_eq_ok.mp h2
        obtain ⟨s, -, h2⟩ := Outcome.bind_eq_ok.mp h2
        rw [← Outcome.ok_inj.mp h2]
        exact ⟨rfl, rfl⟩
      simp only [outputsOp, Outputs.snapshot]
      have h1' : C.addSnapshot print x n = .ok C₁ := h1
      rw [h1']
      simp only [Outcome.ok_bind, recordEach_same h2]
      exact fold_ops (by rw [h3.1, h3.2]; exact hn2) (by rw [h3.1, h3.2]; convert hlt using 2; omega) h hC₂
    | averaging x =>
      have : outputsOp A F print view ⟨List.replicate k (.ramtrj r), C⟩ (.averaging x) = .ok ⟨List.replicate k (.ramtrj r), C₁⟩ := by
        simp only [outputsOp, h1, Outcome.ok_bind]; rfl
      rw [this]
      exact fold_ops hn hlt h hC₂
    | params T p =>
      have : outputsOp A F print view ⟨List.replicate k (.ramtrj r), C⟩ (.params T p) = .ok ⟨List.replicate k (.ramtrj r), C₁⟩ := by
        simp only [outputsOp, h1, Outcome.ok_bind]; rfl
      rw [this]
      exact fold_ops hn hlt h hC₂
    | clear =>
      have : outputsOp A F print view ⟨List.replicate k (.ramtrj r), C⟩ .clear = .ok ⟨List.replicate k (.ramtrj r), C₁⟩ := by
        simp only [outputsOp, h1, Outcome.ok_bind]; rfl
      rw [this]
      exact fold_ops hn hlt h hC₂

theorem createAll_new {N step : Nat} {r : Traj.Recorder} (h : Traj.Recorder.make [] N step false = .ok r) : ∀ {recs : List RecFile},
    (∀ f ∈ recs, ∃ b, f = .ramtrj b) → createAll N step false recs = .ok (List.replicate recs.length (.ramtrj r))
  | [], _ => rfl
  | f :: fs, hf => by
    obtain ⟨b, rfl⟩ := hf f (by simp)
    rw [createAll, createAll_new h (fun f hf' => hf f (by simp [hf']))]
    simp only [RecFile.create, openFile, Bool.false_eq_true, if_false, Outcome.ok_bind, h]
    rfl

theorem createAll_same {N step : Nat} {b : List Byte} {r : Traj.Recorder} (h : Traj.Recorder.make b N step true = .ok r) : ∀ (k : Nat),
    createAll N step true (List.replicate k (.ramtrj (some b))) = .ok (List.replicate k (.ramtrj r))
  | 0 => rfl
  | k + 1 => by
    rw [List.replicate_succ, createAll, createAll_same h k]
    simp only [RecFile.create, openFile, if_true, Outcome.ok_bind, h]
    rfl

theorem ever_taken (ops : List (CollOp ι)) : ∀ (s : Seen ι), (ops.foldl Seen.step s).ever.map (fun t => (t.2.1, t.1)) = s.ever.map (fun t => (t.2.1, t.1)) ++ taken ops := by
  induction ops with
  | nil => intro s; simp [taken]
  | cons op ops ih =>
    intro s
    rw [List.foldl_cons, ih, taken_cons]
    cases op <;> simp [Seen.step]

theorem attach_new (print : D → Text) {l : List (Entry ι D)} {d : D} {n : Nat} {C : Collector ι D} (hl : C.lastCycle = 0)
    (h : Holds print l d n none C ⟨(0, 0), [], [], []⟩) (obs : Option (Option Text)) :
    ∃ C', attachObservables false C obs = .ok C' ∧ Holds print l d n (obs.map fun _ => []) C' ⟨(0, 0), [], [], []⟩ ∧ C'.lastCycle = 0 := by
  have hhead : C.headerText = obsHeader l := by rw [headerText, h.fixed.snapHeader]; rfl
  cases obs with
  | none => exact ⟨C, rfl, h, hl⟩
  | some f =>
    refine ⟨{ C with file := some (openAte (obsText (obsHeader l) [])), lastCycle := 0 }, ?_, ⟨⟨h.fixed.obs, h.fixed.snapIdx, h.fixed.avgIdx, h.fixed.snapHeader,
      h.fixed.avgHeader⟩, h.params, h.cycles, h.snaps, h.avgs, h.bulk, by simp, by intro r hr; cases hr; simp [lastOf]⟩, rfl⟩
    simp only [attachObservables, openFile, Bool.false_eq_true, if_false, Outcome.ok_bind]
    rw [Collector.attach_empty, hhead]

theorem attach_again (print : D → Text) {l : List (Entry ι D)} {d : D} {n : Nat} {C : Collector ι D}
    (h : Holds print l d n none C ⟨(0, 0), [], [], []⟩) {obs : Option (Option Text)} {rows : List (Nat × Text)} (ho : obs = none ∨ obs = some (some (obsText (obsHeader l) rows)))
    (hh : '\n' ∉ obsHeader l) (hr : ∀ r ∈ rows, '\n' ∉ r.2 ∧ r.1 < 2 ^ 64) :
    ∃ C', attachObservables true C obs = .ok C' ∧ Holds print l d n (obs.map fun _ => rows) C' ⟨(0, 0), [], [], []⟩ ∧ (obs.isSome → C'.lastCycle = lastOf rows) := by
  have hhead : C.headerText = obsHeader l := by rw [headerText, h.fixed.snapHeader]; rfl
  rcases ho with rfl | rfl
  · exact ⟨C, rfl, h, by simp⟩
  · refine ⟨{ C with file := some (openAte (obsText (obsHeader l) rows)), lastCycle := lastOf rows }, ?_, ⟨⟨h.fixed.obs, h.fixed.snapIdx, h.fixed.avgIdx, h.fixed.snapHeader,
      h.fixed.avgHeader⟩, h.params, h.cycles, h.snaps, h.avgs, h.bulk, by simp, by intro r hr; cases hr; simp⟩, fun _ => rfl⟩
    simp only [attachObservables, openFile, if_true, Outcome.ok_bind]
    have := Collector.attach_ok (C := C) (rs := rows) (by rw [hhead]; exact hh) hr
    rw [hhead] at this
    exact this

theorem lastCycles_all {k v : Nat} {r : Traj.Recorder} {C : Collector ι D} {obs : Option (Option Text)} (hr : r.lastCycle = v) (hC : obs.isSome → C.lastCycle = v) :
    (lastCycles (List.replicate k (.ramtrj r)) C obs).all (fun n => decide (n = v)) = true := by
  unfold lastCycles
  rw [List.all_append, Bool.and_eq_true]
  refine ⟨?_, ?_⟩
  · rw [List.all_eq_true]
    intro n hn
    rw [List.map_replicate] at hn
    rw [List.eq_of_mem_replicate hn]
    exact decide_eq_true hr
  · split_ifs with hi
    · simp [hC hi]
    · rfl

/-- Files with given frames and rows. -/
structure FilesAt (A : Arith) (s : OutSetup ι D) (k : Nat) (obs : Bool) (l : List Snapshot) (rows : List (Nat × Text)) (files : OutFiles) : Prop where
  recs : files.1 = List.replicate k (.ramtrj (some (content A s.molecules s.every l.length l)))
  obs : files.2 = if obs then some (some (obsText (obsHeader s.entries) rows)) else none

/-- A part of a run. -/
theorem segment_ok {A : Arith} {F : Xyz.Format} {print : D → Text} {view : ι → Snapshot} {s : OutSetup ι D} {k : Nat} {obs : Bool} [Nonempty D]
    (hp : ∀ e ∈ s.entries, Proper e.obs) (hh : '\n' ∉ obsHeader s.entries) {o m : Nat} {cont : Bool} {ops : List (CollOp ι)} (hops : ∀ op ∈ ops, op.Legal)
    {l : List Snapshot} {rows : List (Nat × Text)} {files : OutFiles}
    (hstart : cont = false ∧ o = 0 ∧ l = [] ∧ rows = [] ∧ (∀ f ∈ files.1, ∃ b, f = .ramtrj b) ∧ files.1.length = k ∧ files.2.isSome = obs ∨
      cont = true ∧ FilesAt A s k obs l rows files)
    (hl : l.length = o / s.every) (hrows : rows.map Prod.fst = (List.range' 1 (o / s.every)).map (· * s.every)) (hr : ∀ r ∈ rows, '\n' ∉ r.2)
    (hom : o ≤ m) (hnum : (taken ops).map Prod.snd = (List.range' (o + 1) (m - o)).filter (fun n => decide (s.every ∣ n)))
    (hf : Fits64 s.molecules s.every (m / s.every)) (hrec : ∀ x ∈ l ++ (taken ops).map (fun t => view t.1), Recordable A s.molecules x) :
    ∃ files', outSession A F print view s o cont ops files = .ok files' ∧
      FilesAt A s k obs (l ++ (taken ops).map fun t => view t.1) (rows ++ (Seen.after ops).ever.map (obsRow print s.entries)) files' ∧
      (l ++ (taken ops).map fun t => view t.1).length = m / s.every ∧
      (rows ++ (Seen.after ops).ever.map (obsRow print s.entries)).map Prod.fst = (List.range' 1 (m / s.every)).map (· * s.every) := by
  obtain ⟨d⟩ := ‹Nonempty D›
  have he := hf.step_pos
  have hdiv : o / s.every ≤ m / s.every := Nat.div_le_div_right hom
  rw [multiples he, show o + (m - o) = m by omega] at hnum
  have hlen : (taken ops).length = m / s.every - o / s.every := by
    have := congrArg List.length hnum
    simpa using this
  have hlen' : (l ++ (taken ops).map fun t => view t.1).length = m / s.every := by
    rw [List.length_append, List.length_map, hlen, hl]; omega
  have hever : (Seen.after ops).ever.map (fun t => t.1) = (taken ops).map Prod.snd := by
    have := ever_taken ops ⟨(0, 0), [], [], []⟩
    have h2 := congrArg (List.map Prod.snd) this
    simp only [List.map_nil, List.nil_append, List.map_map] at h2
    exact h2
  have hrows' : (rows ++ (Seen.after ops).ever.map (obsRow print s.entries)).map Prod.fst = (List.range' 1 (m / s.every)).map (· * s.every) := by
    rw [List.map_append, List.map_map, hrows]
    have : (Seen.after ops).ever.map (Prod.fst ∘ obsRow print s.entries) = (taken ops).map Prod.snd := by rw [← hever]; rfl
    rw [this, hnum, ← List.map_append]
    congr 1
    rw [show o / s.every + 1 = 1 + 1 * (o / s.every) by omega, List.range'_append]
    congr 1
    omega
  have hlast : lastOf rows = o / s.every * s.every := by
    unfold lastOf
    rw [← List.getLast?_map, hrows]
    cases hq : o / s.every with
    | zero => simp
    | succ q =>
      rw [List.range'_1_concat, List.map_append, List.getLast?_append]
      simp [Nat.add_comm]
  have hfl : Fits64 s.molecules s.every l.length := Fits64.mono hf (by omega)
  have hlt : ∀ r ∈ rows, '\n' ∉ r.2 ∧ r.1 < 2 ^ 64 := by
    intro r hr'
    refine ⟨hr r hr', ?_⟩
    have : r.1 ∈ rows.map Prod.fst := List.mem_map_of_mem hr'
    rw [hrows, List.mem_map] at this
    obtain ⟨i, hi, hi'⟩ := this
    rw [List.mem_range'_1] at hi
    have h1 := hfl.cycles
    rw [hl] at h1
    rw [← hi']
    exact lt_of_le_of_lt (Nat.mul_le_mul_right _ (by omega)) h1
  obtain ⟨C, hb, hC0, hH⟩ := build_holds print s.entries d s.bulk
  -- the recorders and the collector when they are open
  obtain ⟨r, C₁, hcreate, hrn, hrs, hses, hH₁⟩ : ∃ r C₁, Outputs.create s.molecules s.every o cont files.1 files.2 C = .ok ⟨List.replicate k (.ramtrj r), C₁⟩ ∧
      r.numSnapshots = o / s.every ∧ r.cycleStep = s.every ∧
      (∃ r', recordAll A r ((taken ops).map fun t => view t.1) = .ok r' ∧
        r'.close.stream.bytes = content A s.molecules s.every (l ++ (taken ops).map fun t => view t.1).length (l ++ (taken ops).map fun t => view t.1)) ∧
      Holds print s.entries d s.bulk (if obs then some rows else none) C₁ ⟨(0, 0), [], [], []⟩ := by
    rcases hstart with ⟨rfl, rfl, rfl, rfl, h1, h2, h3⟩ | ⟨rfl, h⟩
    · obtain ⟨C₁, h4, h5, h6⟩ := attach_new print hC0 hH files.2
      have hmk := make_create hf.molecules_pos he
      have hs := session_create (A := A) (l := (taken ops).map fun t => view t.1) (Fits64.mono hf (by rw [List.nil_append] at hlen'; omega)) (by simpa using hrec)
      unfold session at hs
      rw [hmk] at hs
      simp only [Outcome.ok_bind] at hs
      obtain ⟨r', h7, h8⟩ := Outcome.bind_eq_ok.mp hs
      refine ⟨_, C₁, ?_, by simp, rfl, ⟨r', h7, ?_⟩, ?_⟩
      · unfold Outputs.create
        rw [if_neg (by omega), createAll_new hmk h1, h2]
        simp only [Outcome.ok_bind, h4]
        rw [lastCycles_all (by simp [Traj.Recorder.lastCycle, u64]) (fun _ => by rw [h6]; simp)]
        rfl
      · have := Outcome.ok_inj.mp h8
        rw [this]
        rfl
      · rw [← h3]
        cases hf2 : files.2 with
        | none => rw [hf2] at h5; exact h5
        | some f => rw [hf2] at h5; exact h5
    · have hobs : files.2 = none ∨ files.2 = some (some (obsText (obsHeader s.entries) rows)) := by
        rw [h.obs]; cases obs <;> simp
      obtain ⟨C₁, h4, h5, h6⟩ := attach_again print hH hobs hh hlt
      have hmk := make_append hfl fun x hx => hrec x (List.mem_append_left _ hx)
      have hs := session_append (A := A) (l := l) (l' := (taken ops).map fun t => view t.1) (Fits64.mono hf (by omega)) hrec
      unfold session at hs
      rw [hmk] at hs
      simp only [Outcome.ok_bind] at hs
      obtain ⟨r', h7, h8⟩ := Outcome.bind_eq_ok.mp hs
      refine ⟨_, C₁, ?_, hl, rfl, ⟨r', h7, ?_⟩, ?_⟩
      · unfold Outputs.create
        rw [if_neg (by omega), h.recs, createAll_same hmk]
        simp only [Outcome.ok_bind, h4]
        rw [lastCycles_all (by simp only [Traj.Recorder.lastCycle, u64]; rw [Nat.mod_eq_of_lt hfl.cycles, hl, rounded]) (fun hi => by rw [h6 hi, hlast, rounded])]
        rfl
      · have := Outcome.ok_inj.mp h8
        rw [this]
      · rw [h.obs] at h5
        cases obs <;> simpa using h5
  obtain ⟨r', hrecs, hbytes⟩ := hses
  obtain ⟨C₂, hrun, hH₂⟩ := runAll_holds hp ops hops hH₁
  have hfold := fold_ops (F := F) (k := k) (by rw [hrn, hrs, hlen]; exact hnum) (by rw [hrn, hrs, hlen]; convert hf.cycles using 2; omega) hrecs hrun
  refine ⟨(Outputs.finish ⟨List.replicate k (.ramtrj r'), C₂⟩), ?_, ⟨?_, ?_⟩, hlen', hrows'⟩
  · unfold outSession
    rw [hb]
    simp only [Outcome.ok_bind, hcreate, hfold]
    rfl
  · unfold Outputs.finish
    simp only [List.map_replicate, Rec.close, hbytes]
  · unfold Outputs.finish
    simp only [hH₂.file]
    cases obs <;> simp [Seen.after, openAte]

end Rampack
