import Verif.Frontend.OutputsLemmas
import Verif.IO.TrajProps
import Verif.IO.LinesProps
import Verif.IO.CollectorProps
/-
Theorems about outputs of resumed runs: C37.
-/
namespace Rampack

open Spec Traj TextFile Collector

variable {ι D : Type}

theorem sessions_segments {A : Arith} {F : Xyz.Format} {print : D → Text} {view : ι → Snapshot} {s : OutSetup ι D} {k : Nat} {obs : Bool} [Nonempty D]
    (hp : ∀ e ∈ s.entries, Proper e.obs) (hh : '\n' ∉ obsHeader s.entries) (hv : ∀ x p, ∀ v ∈ snapVals print s.entries x p, '\n' ∉ v) :
    ∀ {segs : List (Nat × List (CollOp ι))} {o : Nat} {cont : Bool} {l : List Snapshot} {rows : List (Nat × Text)} {files : OutFiles},
    (∀ seg ∈ segs, ∀ op ∈ seg.2, op.Legal) → Follow s.every o segs → Fits64 s.molecules s.every (endOf o segs / s.every) →
    (∀ x ∈ l ++ (segs.flatMap fun seg => taken seg.2).map (fun t => view t.1), Recordable A s.molecules x) →
    (cont = false ∧ o = 0 ∧ l = [] ∧ rows = [] ∧ segs ≠ [] ∧ (∀ f ∈ files.1, ∃ b, f = .ramtrj b) ∧ files.1.length = k ∧ files.2.isSome = obs ∨
      cont = true ∧ FilesAt A s k obs l rows files) →
    l.length = o / s.every → rows.map Prod.fst = (List.range' 1 (o / s.every)).map (· * s.every) → (∀ r ∈ rows, '\n' ∉ r.2) →
    ∃ files', outSessions A F print view s o cont segs files = .ok files' ∧
      FilesAt A s k obs (l ++ (segs.flatMap fun seg => taken seg.2).map fun t => view t.1)
        (rows ++ segs.flatMap fun seg => (Seen.after seg.2).ever.map (obsRow print s.entries)) files' ∧
      (rows ++ segs.flatMap fun seg => (Seen.after seg.2).ever.map (obsRow print s.entries)).map Prod.fst =
        (List.range' 1 (endOf o segs / s.every)).map (· * s.every)
  | [], o, cont, l, rows, files, _, _, _, _, hstart, _, hrows, _ => by
    rcases hstart with ⟨-, -, -, -, h, -⟩ | ⟨-, h⟩
    · exact absurd rfl h
    · exact ⟨files, rfl, by simpa using h, by simpa [endOf] using hrows⟩
  | (m, ops) :: segs, o, cont, l, rows, files, hops, hfol, hf, hrec, hstart, hl, hrows, hr => by
    obtain ⟨hom, hnum, hfol⟩ := hfol
    have hmono : ∀ (segs : List (Nat × List (CollOp ι))) (o : Nat), Follow s.every o segs → o ≤ endOf o segs := by
      intro segs
      induction segs with
      | nil => intro o _; exact le_rfl
      | cons a segs ih => intro o h; exact h.1.trans (ih _ h.2.2)
    have hdiv : m / s.every ≤ endOf m segs / s.every := Nat.div_le_div_right (hmono segs m hfol)
    have hf' : Fits64 s.molecules s.every (m / s.every) := Fits64.mono hf hdiv
    rw [List.flatMap_cons, List.map_append, ← List.append_assoc] at hrec
    obtain ⟨files₁, e1, h1, h2, h3⟩ := segment_ok (F := F) (print := print) hp hh (hops _ (by simp)) (by
      rcases hstart with ⟨a1, a2, a3, a4, -, a5⟩ | h
      · exact .inl ⟨a1, a2, a3, a4, a5⟩
      · exact .inr h) hl hrows hr hom hnum hf' (fun x hx => hrec x (List.mem_append_left _ hx))
    obtain ⟨files₂, e2, h4, h5⟩ := sessions_segments (F := F) (print := print) hp hh hv (fun seg hs => hops seg (by simp [hs])) hfol hf hrec (.inr ⟨rfl, h1⟩) h2 h3 (by
      intro r hr'
      rcases List.mem_append.mp hr' with h | h
      · exact hr r h
      · obtain ⟨t, -, rfl⟩ := List.mem_map.mp h
        simp only [obsRow, List.mem_flatMap, not_exists, not_and]
        intro v hv' hn
        rcases List.mem_append.mp hn with hn | hn
        · exact hv _ _ v hv' hn
        · simp at hn)
    refine ⟨files₂, ?_, ?_, ?_⟩
    · rw [outSessions, e1]
      exact e2
    · rw [List.flatMap_cons, List.map_append, List.flatMap_cons, ← List.append_assoc, ← List.append_assoc]
      exact h4
    · rw [List.flatMap_cons, ← List.append_assoc]
      exact h5

/-- C37: a run is done in parts, however many, each ended after any cycle, and each but the first one resumed from the cycle at which the previous one ended.
Then resuming is always accepted. In the end each RAMTRJ file is the same as if all snapshots were recorded at once (and it has all multiples of the period
exactly once), and the file with observables has a row for all multiples of the period, each exactly once and in order, with the values from that
snapshot. XYZ files are missing: see `C37_xyz_append_violated`. -/
theorem C37_together_partial {A : Arith} {F : Xyz.Format} {print : D → Text} {view : ι → Snapshot} {s : OutSetup ι D} [Nonempty D]
    (hp : ∀ e ∈ s.entries, Proper e.obs) (hh : '\n' ∉ obsHeader s.entries) (hv : ∀ x p, ∀ v ∈ snapVals print s.entries x p, '\n' ∉ v)
    {segs : List (Nat × List (CollOp ι))} {files : OutFiles} (hne : segs ≠ []) (hops : ∀ seg ∈ segs, ∀ op ∈ seg.2, op.Legal) (hfol : Follow s.every 0 segs)
    (hf : Fits64 s.molecules s.every (endOf 0 segs / s.every)) (hrec : ∀ t ∈ segs.flatMap fun seg => taken seg.2, Recordable A s.molecules (view t.1))
    (hfiles : ∀ f ∈ files.1, ∃ b, f = .ramtrj b) :
    ∃ files' r, outSessions A F print view s 0 false segs files = .ok files' ∧
      session A [] s.molecules s.every false ((segs.flatMap fun seg => taken seg.2).map fun t => view t.1) = .ok r ∧
      files'.1 = files.1.map (fun _ => .ramtrj (some r.stream.bytes)) ∧
      files'.2 = files.2.map (fun _ => some (obsText (obsHeader s.entries) (segs.flatMap fun seg => (Seen.after seg.2).ever.map (obsRow print s.entries)))) ∧
      (segs.flatMap fun seg => taken seg.2).map Prod.snd = (List.range' 1 (endOf 0 segs)).filter (fun n => decide (s.every ∣ n)) ∧
      (segs.flatMap fun seg => (Seen.after seg.2).ever.map (obsRow print s.entries)).map Prod.fst =
        (List.range' 1 (endOf 0 segs)).filter (fun n => decide (s.every ∣ n)) := by
  have he := hf.step_pos
  have hrec' : ∀ x ∈ ([] : List Snapshot) ++ (segs.flatMap fun seg => taken seg.2).map (fun t => view t.1), Recordable A s.molecules x := by
    intro x hx
    rw [List.nil_append, List.mem_map] at hx
    obtain ⟨t, ht, rfl⟩ := hx
    exact hrec t ht
  obtain ⟨files', e1, h1, h2⟩ := sessions_segments (F := F) (print := print) (files := files) (k := files.1.length) (obs := files.2.isSome) (l := []) (rows := []) (cont := false)
    hp hh hv hops hfol hf hrec' (.inl ⟨rfl, rfl, rfl, rfl, hne, hfiles, rfl, rfl⟩) (by simp) (by simp) (by simp)
  rw [List.nil_append] at h1 h2
  have hmult : (List.range' 1 (endOf 0 segs)).filter (fun n => decide (s.every ∣ n)) = (List.range' 1 (endOf 0 segs / s.every)).map (· * s.every) := by
    have := multiples he 0 (endOf 0 segs)
    simpa using this
  have h3 : (segs.flatMap fun seg => taken seg.2).map Prod.snd = (List.range' 1 (endOf 0 segs / s.every)).map (· * s.every) := by
    rw [← h2, List.map_flatMap, List.map_flatMap]
    apply List.flatMap_congr
    intro seg _
    have := congrArg (List.map Prod.snd) (ever_taken seg.2 ⟨(0, 0), [], [], []⟩)
    simp only [List.map_nil, List.nil_append, List.map_map] at this
    rw [← this, List.map_map]
    rfl
  have hlen : ((segs.flatMap fun seg => taken seg.2).map fun t => view t.1).length = endOf 0 segs / s.every := by
    have := congrArg List.length h3
    rw [List.length_map, List.length_map, List.length_range'] at this
    rw [List.length_map, this]
  have hses := session_create (A := A) (l := (segs.flatMap fun seg => taken seg.2).map fun t => view t.1) (by rw [hlen]; exact hf) (by simpa using hrec')
  refine ⟨files', _, e1, hses, ?_, ?_, by rw [hmult]; exact h3, by rw [hmult]; exact h2⟩
  · rw [h1.recs]
    exact List.map_const'.symm
  · rw [h1.obs]
    cases files.2 <;> rfl

theorem createAll_ends {A : Arith} {F : Xyz.Format} (hF : ∀ w, '\n' ∉ F.print w) {N e : Nat} : ∀ {recs : List RecFile} {cs : List Nat},
    List.Forall₂ (Spec.Ends A F N e) recs cs → ∃ rs, createAll N e true recs = .ok rs ∧ rs.map Rec.last = cs
  | _, _, .nil => ⟨[], rfl, rfl⟩
  | _, _, @List.Forall₂.cons _ _ _ f c _ _ h hs => by
    obtain ⟨rs, h1, h2⟩ := createAll_ends hF hs
    obtain ⟨r, h3, h4⟩ : ∃ r, f.create N e true = .ok r ∧ r.last = c := by
      cases f with
      | ramtrj file =>
        obtain ⟨l, r, hf, hl, hr, rfl, rfl⟩ := h
        have hs := session_create hf hl
        rw [hr] at hs
        injection hs with hs
        refine ⟨.ramtrj ⟨⟨content A N e l.length l, (content A N e l.length l).length, false, []⟩, true, l.length, e, N⟩, ?_, ?_⟩
        · simp only [RecFile.create, openFile, if_true, Outcome.ok_bind, hs, make_append hf hl]
          rfl
        · simp only [Rec.last, Traj.Recorder.lastCycle, u64]
          exact Nat.mod_eq_of_lt hf.cycles
      | xyz file =>
        rcases h with ⟨rfl, rfl⟩ | ⟨l, x, hx, hc, rfl⟩
        · exact ⟨.xyz ⟨openAte [], 0⟩, rfl, rfl⟩
        · obtain ⟨r, hr, hr'⟩ := C35_xyz (l := l) hF hx hc
          refine ⟨.xyz r, ?_, hr'⟩
          simp only [RecFile.create, openFile, if_true, Outcome.ok_bind, hr]
          rfl
    rw [createAll, h3, h1]
    exact ⟨r :: rs, rfl, by simp [h2, h4]⟩

/-- C37: continuing outputs which are whole is allowed exactly if the last cycle in each of them is the last multiple of the period of snapshots which is
not greater than the number of cycles to continue from; otherwise it is refused. -/
theorem C37_checked [Nonempty D] {A : Arith} {F : Xyz.Format} (hF : ∀ w, '\n' ∉ F.print w) {s : OutSetup ι D} (he : 0 < s.every) (hh : '\n' ∉ obsHeader s.entries)
    {recs : List RecFile} {cs : List Nat} (hrecs : List.Forall₂ (Spec.Ends A F s.molecules s.every) recs cs) {obs : Option (List (Nat × Text))}
    (hobs : ∀ rows, obs = some rows → ∀ r ∈ rows, '\n' ∉ r.2 ∧ r.1 < 2 ^ 64) (absolute : Nat) :
    ∃ C, build s.entries s.bulk = .ok C ∧
      ((∃ o, Outputs.create s.molecules s.every absolute true recs (obs.map fun rows => some (obsText (obsHeader s.entries) rows)) C = .ok o) ↔
        (∀ c ∈ cs, c = absolute / s.every * s.every) ∧ ∀ rows, obs = some rows → lastOf rows = absolute / s.every * s.every) ∧
      ((¬ ∃ o, Outputs.create s.molecules s.every absolute true recs (obs.map fun rows => some (obsText (obsHeader s.entries) rows)) C = .ok o) →
        ∃ m, Outputs.create s.molecules s.every absolute true recs (obs.map fun rows => some (obsText (obsHeader s.entries) rows)) C = .throw m) := by
  obtain ⟨d⟩ := ‹Nonempty D›
  obtain ⟨C, hb, hC0, hH⟩ := build_holds (fun _ => []) s.entries d s.bulk
  obtain ⟨rs, h1, h2⟩ := createAll_ends hF hrecs
  obtain ⟨C₁, h3, h4⟩ : ∃ C₁, attachObservables true C (obs.map fun rows => some (obsText (obsHeader s.entries) rows)) = .ok C₁ ∧
      ∀ rows, obs = some rows → C₁.lastCycle = lastOf rows := by
    cases obs with
    | none => exact ⟨C, rfl, by simp⟩
    | some rows =>
      obtain ⟨C₁, h3, -, h4⟩ := attach_again (fun _ => []) hH (obs := some (some (obsText (obsHeader s.entries) rows))) (rows := rows) (.inr rfl) hh (hobs rows rfl)
      refine ⟨C₁, h3, fun rows' e => ?_⟩
      injection e with e
      rw [← e]
      exact h4 rfl
  have hall : (lastCycles rs C₁ (obs.map fun rows => some (obsText (obsHeader s.entries) rows))).all (fun n => decide (n = absolute - absolute % s.every)) = true ↔
      (∀ c ∈ cs, c = absolute / s.every * s.every) ∧ ∀ rows, obs = some rows → lastOf rows = absolute / s.every * s.every := by
    unfold lastCycles
    rw [h2, rounded, List.all_append, Bool.and_eq_true]
    refine and_congr (by simp) ?_
    cases obs with
    | none => simp
    | some rows => simp [h4 rows rfl]
  refine ⟨C, hb, ?_, ?_⟩
  · rw [← hall]
    unfold Outputs.create
    rw [if_neg (by omega), h1]
    simp only [Outcome.ok_bind, h3]
    constructor
    · rintro ⟨o, h⟩
      obtain ⟨-, h, -⟩ := Outcome.bind_eq_ok.mp h
      by_contra hn
      rw [Bool.not_eq_true] at hn
      rw [hn] at h
      cases h
    · intro h
      rw [h]
      exact ⟨_, rfl⟩
  · intro hn
    unfold Outputs.create at hn ⊢
    rw [if_neg (by omega), h1] at hn ⊢
    simp only [Outcome.ok_bind, h3] at hn ⊢
    cases hq : (lastCycles rs C₁ (obs.map fun rows => some (obsText (obsHeader s.entries) rows))).all fun n => decide (n = absolute - absolute % s.every) with
    | true =>
      rw [hq] at hn
      exact absurd ⟨_, rfl⟩ hn
    | false => exact ⟨_, rfl⟩

/-- C37: an XYZ file which is continued loses its last snapshot: what is recorded then is written over it. -/
theorem C37_xyz_append_violated {F : Xyz.Format} (hF : ∀ w, '\n' ∉ F.print w) {l : List (Snapshot × Nat)} {x y : Snapshot} {n m : Nat} (hx : Plain F x.box)
    (hn : n < 2 ^ 64) : ∃ r, Xyz.create (openAte (xyzText F (l ++ [(x, n)]))) true = .ok r ∧ r.last = n ∧
      (Xyz.record F r y m).file.text ≠ xyzText F (l ++ [(x, n), (y, m)]) ∧
      (Xyz.record F r y m).file.text.take ((xyzText F l ++ natText x.shapes.length).length + (Xyz.write F y m).length) =
        xyzText F l ++ natText x.shapes.length ++ Xyz.write F y m := by
  have e : xyzText F (l ++ [(x, n)]) = xyzText F l ++ Xyz.write F x n := by simp [xyzText, List.flatMap_append]
  have e' : xyzText F (l ++ [(x, n), (y, m)]) = xyzText F l ++ Xyz.write F x n ++ Xyz.write F y m := by simp [xyzText, List.flatMap_append]
  rw [e, e']
  have hne : (xyzText F l ++ Xyz.write F x n).length ≠ 0 := by
    rw [Xyz.write_eq, List.length_append, List.length_append, List.length_append, List.length_cons]
    omega
  have h := Xyz.findLast_ok (b := xyzText F l) hF hx hn (xyzText F l ++ Xyz.write F x n).length false
  have ht : (xyzText F l ++ Xyz.write F x n).take (xyzText F l ++ natText x.shapes.length).length = xyzText F l ++ natText x.shapes.length := by
    rw [Xyz.write_eq, ← List.append_assoc]
    simp only [List.append_assoc]
    rw [← List.append_assoc (xyzText F l), List.take_left']
    rfl
  have hw : natText x.shapes.length <+: Xyz.write F x n := by
    rw [Xyz.write_eq]
    simp only [List.append_assoc]
    exact List.prefix_append _ _
  refine ⟨⟨⟨xyzText F l ++ Xyz.write F x n, (xyzText F l ++ natText x.shapes.length).length, false, false⟩, n⟩, ?_, rfl, ?_, ?_⟩
  · unfold Xyz.create openAte
    simp only [seekEnd, Bool.false_eq_true, if_false, if_true, ne_eq, hne, not_false_eq_true, h, Outcome.ok_bind]
    rfl
  · simp only [Xyz.record, TextFile.write, good, Bool.not_false, Bool.and_self, if_true]
    intro hc
    have h1 := congrArg List.length hc
    have h2 : (natText x.shapes.length).length < (Xyz.write F x n).length := by
      rw [Xyz.write_eq]
      simp
    have h3 : 0 < (Xyz.write F y m).length := by
      rw [Xyz.write_eq]
      simp
    simp only [List.length_append, List.length_take, List.length_drop] at h1
    omega
  · simp only [Xyz.record, TextFile.write, good, Bool.not_false, Bool.and_self, if_true]
    rw [ht, List.take_left' (by simp [Nat.add_assoc])]

/-- C37: an XYZ file which is not continued, whatever was in it, has all snapshots recorded, in order. -/
theorem C37_xyz_fresh {A : Arith} {F : Xyz.Format} {N e : Nat} (file : Option Text) (l : List (Snapshot × Nat)) :
    ∃ r r', (RecFile.xyz file).create N e false = .ok r ∧ l.foldlM (fun (r : Rec) t => r.record A F t.1 t.2) r = .ok r' ∧ r'.close = .xyz (some (xyzText F l)) := by
  suffices h : ∀ (l : List (Snapshot × Nat)) (r : Xyz.Recorder), r.file.fail = false → r.file.eof = false → r.file.pos = r.file.text.length →
      ∃ r' : Rec, l.foldlM (fun (r : Rec) t => r.record A F t.1 t.2) (Rec.xyz r) = Outcome.ok r' ∧ r'.close = .xyz (some (r.file.text ++ xyzText F l)) by
    obtain ⟨r', h1, h2⟩ := h l ⟨openAte [], 0⟩ rfl rfl rfl
    exact ⟨.xyz ⟨openAte [], 0⟩, r', rfl, h1, h2⟩
  intro l
  induction l with
  | nil => intro r _ _ _; exact ⟨_, rfl, by simp [Rec.close, xyzText]⟩
  | cons t l ih =>
    rintro ⟨⟨text, pos, eof, fail⟩, last⟩ hf he hp
    simp only at hf he hp
    subst hf he hp
    obtain ⟨r', h1, h2⟩ := ih (Xyz.record F ⟨⟨text, text.length, false, false⟩, last⟩ t.1 t.2) rfl rfl (by simp [Xyz.record, TextFile.write, good])
    refine ⟨r', ?_, ?_⟩
    · rw [List.foldlM_cons]
      exact h1
    · rw [h2]
      simp [Xyz.record, TextFile.write, good, xyzText]

/-- A run with the period of 2 cycles in three parts: it is ended after 5 cycles, then without any more, then after 8. -/
example : Follow 2 0 [(5, [CollOp.params 1 0, .snapshot (10 : ℕ) 2, .snapshot 20 4]), (5, []), (8, [.averaging 3, .snapshot 30 6, .snapshot 40 8, .clear])] ∧
    (∀ x p, ∀ v ∈ snapVals (fun _ : ℝ => "1".toList) demoEntries x p, '\n' ∉ v) ∧ Fits64 2 2 (8 / 2) := by
  refine ⟨by simp [Follow, taken]; decide, ?_, ⟨by simp, by simp, by simp, by simp [headerLength, frameLength], by simp, by simp⟩⟩
  intro x p v hv
  simp [snapVals, demoEntries] at hv
  rcases hv with rfl | rfl | rfl <;> decide

/-- A whole XYZ file and an empty RAMTRJ file. -/
example : List.Forall₂ (Spec.Ends demoArith demoFormat 2 100) [.xyz (some (xyzText demoFormat [(demoSnapshot 5, 700)])),
    .ramtrj (some (content demoArith 2 100 0 []))] [700, 0] := by
  have hf : Fits64 2 100 ([] : List Snapshot).length := ⟨by simp, by simp, by simp, by simp [headerLength], by simp, by simp⟩
  refine .cons (.inr ⟨[], _, demoFormat_plain _, by simp, rfl⟩) (.cons ⟨[], _, hf, by simp, session_create (A := demoArith) hf (by simp), rfl, by simp⟩ .nil)

end Rampack
