import Verif.Frontend.LoaderProps
import Verif.Sim.RunProps
/-
Lemmas about the main loop.
-/
namespace Rampack

open Spec Traj Ramsnap

theorem stopped_at (stop : Nat → Bool) : ∀ (n o : Nat), stopped stop o n = true → 0 < cyclesDone stop o n ∧ stop (o + cyclesDone stop o n) = true
  | 0, o, h => by simp [stopped] at h
  | n + 1, o, h => by
    rw [Sim.stopped_succ] at h
    rw [Sim.cyclesDone_succ]
    by_cases h1 : stop (o + 1) = true
    · rw [if_pos h1]; exact ⟨by omega, h1⟩
    · rw [if_neg h1]
      have h2 : stopped stop (o + 1) n = true := by simpa [h1] using h
      obtain ⟨h3, h4⟩ := stopped_at stop n (o + 1) h2
      refine ⟨by omega, ?_⟩
      rw [← h4]; congr 1; omega

theorem cyclesDone_add (stop : Nat → Bool) (b : Nat) : ∀ (a o : Nat),
    cyclesDone stop o (a + b) = cyclesDone stop o a + if stopped stop o a then 0 else cyclesDone stop (o + a) b
  | 0, o => by simp [stopped, cyclesDone]
  | a + 1, o => by
    rw [show a + 1 + b = (a + b) + 1 by omega, Sim.cyclesDone_succ, Sim.cyclesDone_succ, Sim.stopped_succ, cyclesDone_add stop b a (o + 1)]
    by_cases h1 : stop (o + 1) = true
    · simp [h1]
    · have h1' : stop (o + 1) = false := by simpa using h1
      simp only [h1', Bool.false_eq_true, if_false, Bool.false_or]
      rw [show o + 1 + a = o + (a + 1) by omega]
      omega

theorem mem_setEntry {k v : Text} : ∀ {m : Aux} {e : Text × Text}, e ∈ setEntry k v m → e = (k, v) ∨ e ∈ m
  | [], e, h => by simpa [setEntry] using h
  | (k', v') :: l, e, h => by
    unfold setEntry at h
    split_ifs at h with h1 h2
    · rcases List.mem_cons.mp h with h | h
      · exact .inl h
      · exact .inr h
    · rcases List.mem_cons.mp h with h | h
      · exact .inl h
      · exact .inr (List.mem_cons_of_mem _ h)
    · rcases List.mem_cons.mp h with h | h
      · exact .inr (by rw [h]; exact List.mem_cons_self)
      · rcases mem_setEntry h with h | h
        · exact .inl h
        · exact .inr (List.mem_cons_of_mem _ h)

theorem setEntry_length {k v : Text} : ∀ {m : Aux}, (setEntry k v m).length ≤ m.length + 1 ∧ 0 < (setEntry k v m).length
  | [] => by simp [setEntry]
  | (k', v') :: l => by
    unfold setEntry
    have := setEntry_length (k := k) (v := v) (m := l)
    split_ifs <;> simp <;> omega

theorem mem_fold {l : Aux} : ∀ {m : Aux} {e : Text × Text}, e ∈ l.foldl (fun m e => setEntry e.1 e.2 m) m → e ∈ l ∨ e ∈ m := by
  induction l with
  | nil => intro m e h; exact .inr h
  | cons a l ih =>
    intro m e h
    rcases ih h with h | h
    · exact .inl (List.mem_cons_of_mem _ h)
    · rcases mem_setEntry h with h | h
      · exact .inl (by rw [h]; exact List.mem_cons_self)
      · exact .inr h

theorem fold_length {l : Aux} : ∀ {m : Aux}, 0 < m.length → (l.foldl (fun m e => setEntry e.1 e.2 m) m).length ≤ m.length + l.length ∧
    0 < (l.foldl (fun m e => setEntry e.1 e.2 m) m).length := by
  induction l with
  | nil => intro m h; exact ⟨by simp, h⟩
  | cons a l ih =>
    intro m h
    have h1 := setEntry_length (k := a.1) (v := a.2) (m := m)
    obtain ⟨h2, h3⟩ := ih (m := setEntry a.1 a.2 m) h1.2
    refine ⟨?_, h3⟩
    simp only [List.foldl_cons, List.length_cons]
    omega

theorem natText_line1 (n : Nat) : Line1 (natText n) := by
  have hd := natText_dec n
  obtain ⟨c, l, e⟩ := List.exists_cons_of_ne_nil (natText_ne n)
  refine ⟨⟨c, l, e, dec_not_space (hd c (by simp [e]))⟩, fun h => ?_⟩
  have := hd _ h
  exact absurd this (by decide)

theorem prepareAux_plain {σ : Type} {E : Engine σ} {s : σ} (hl : (E.steps s).length < 2 ^ 32)
    (h : ∀ e ∈ E.steps s, Word1 e.1 ∧ Line1 e.2 ∧ e.1 ≠ "cycles".toList) :
    PlainAux (prepareAux E s) ∧ findEntry "cycles".toList (prepareAux E s) = some (natText (E.totalCycles s)) := by
  have hmem : ∀ e ∈ prepareAux E s, Word1 e.1 ∧ Line1 e.2 := by
    intro e he
    rcases mem_fold he with he | he
    · exact ⟨(h e he).1, (h e he).2.1⟩
    · rw [setEntry, List.mem_singleton] at he
      rw [he]
      exact ⟨⟨by simp, by simp [isSpace]⟩, natText_line1 _⟩
  have hf := fold_entries (E.steps s) (m := setEntry "cycles".toList (natText (E.totalCycles s)) []) (by simp [setEntry])
  have hlen := fold_length (l := E.steps s) (m := setEntry "cycles".toList (natText (E.totalCycles s)) []) (by simp [setEntry])
  refine ⟨⟨hf.1, ?_, ?_, fun e he => (hmem e he).1, fun e he => (hmem e he).2⟩, ?_⟩
  · exact List.length_pos_iff.mp hlen.2
  · have := hlen.1
    rw [setEntry, List.length_singleton] at this
    unfold prepareAux
    rw [setEntry]
    omega
  · unfold prepareAux
    rw [hf.2, setEntry]
    unfold findEntry
    rw [List.find?_append, List.find?_eq_none.mpr]
    · simp
    · intro e he
      have := (h e (List.mem_reverse.mp he)).2.2
      simpa using this

theorem storeSnapshot_ok {σ : Type} {A : Arith} {P : Numbers} {E : Engine σ} {stop : Nat → Nat → Bool} (hW : Works A P E stop) {i offset : Nat} {r r' : Run} {s s' : σ}
    (h : E.perform i r offset s = .ok s') (disk : Disk) {f : Text} (hf : r'.ramsnapOut = some f) :
    ∃ t, storeSnapshot P E r' s' disk = .ok (disk.put f t) ∧
      (E.totalCycles s' < 2 ^ 64 → ∀ q : Run, q.ramsnapOut = some f → Saved A P (disk.put f t) q (E.totalCycles s') (prepareAux E s') (E.snapshot s')) := by
  obtain ⟨h1, h2⟩ := hW.steps h
  obtain ⟨h3, h4⟩ := prepareAux_plain h1 h2
  obtain ⟨t, ht⟩ : ∃ t, Ramsnap.write P (E.snapshot s') (prepareAux E s') = .ok t := ⟨_, write_ok h3⟩
  refine ⟨t, ?_, fun hlt q hq => ⟨⟨f, t, hq, ?_, ht⟩, h3, hW.storable h, h4, hlt⟩⟩
  · unfold storeSnapshot
    rw [hf]
    simp only [ht, Outcome.ok_bind]
    rfl
  · simp [Disk.put]

theorem saved_put {A : Arith} {P : Numbers} {disk : Disk} {f t : Text} {q : Run} {n : Nat} {m : Aux} {x : Snapshot} (h : Saved A P disk q n m x)
    (hne : q.ramsnapOut ≠ some f) : Saved A P (disk.put f t) q n m x := by
  obtain ⟨g, u, h1, h2, h3⟩ := h.file
  refine ⟨⟨g, u, h1, ?_, h3⟩, h.aux, h.storable, h.cycles, h.lt⟩
  unfold Disk.put
  rw [if_neg (by rintro rfl; exact hne h1), h2]

theorem absent_put {disk : Disk} {f t : Text} {q : Run} (h : Absent disk q) (hne : q.ramsnapOut ≠ some f) : Absent (disk.put f t) q := by
  obtain ⟨g, h1, h2⟩ := h
  refine ⟨g, h1, ?_⟩
  unfold Disk.put
  rw [if_neg (by rintro rfl; exact hne h1), h2]

/-- The files are as when all runs before the `j`-th are done, it has `c` cycles and others were not started. -/
structure At (A : Arith) (P : Numbers) (disk : Disk) (runs : List Run) (j c : Nat) : Prop where
  before : ∀ i, i < j → ∀ r, runs[i]? = some r → ∃ n m x, Saved A P disk r n m x ∧ need r ≤ n
  here : ∀ r, runs[j]? = some r → c < need r ∧ c ≤ needThermal r ∧ (c = 0 ∧ Absent disk r ∨ 0 < c ∧ ∃ m x, Saved A P disk r c m x)
  after : ∀ i, j < i → ∀ r, runs[i]? = some r → Absent disk r
  bound : j ≤ runs.length
  last : j = runs.length → c = 0

theorem file_ne {runs : List Run} (h : (runs.map (·.ramsnapOut)).Nodup) {i j : Nat} {q r : Run} (hi : runs[i]? = some q) (hj : runs[j]? = some r) (hne : i ≠ j)
    {f : Text} (hf : r.ramsnapOut = some f) : q.ramsnapOut ≠ some f := by
  intro e
  have h1 : (runs.map (·.ramsnapOut))[i]? = some (some f) := by rw [List.getElem?_map, hi]; simp [e]
  have h2 : (runs.map (·.ramsnapOut))[j]? = some (some f) := by rw [List.getElem?_map, hj]; simp [hf]
  have hil : i < (runs.map (·.ramsnapOut)).length := (List.getElem?_eq_some_iff.mp h1).1
  exact hne ((List.Nodup.getElem_inj_iff h (hi := hil) (hj := (List.getElem?_eq_some_iff.mp h2).1)).mp (by
    rw [(List.getElem?_eq_some_iff.mp h1).2, (List.getElem?_eq_some_iff.mp h2).2]))

theorem at_finished {A : Arith} {P : Numbers} {disk : Disk} {runs : List Run} {j c n : Nat} {r : Run} {f t : Text} {m : Aux} {x : Snapshot}
    (hR : Resumable runs) (h : At A P disk runs j c) (hj : runs[j]? = some r) (hf : r.ramsnapOut = some f) (hs : Saved A P (disk.put f t) r n m x)
    (hn : need r ≤ n) : At A P (disk.put f t) runs (j + 1) 0 := by
  have hlt := (List.getElem?_eq_some_iff.mp hj).1
  refine ⟨fun i hi q hq => ?_, fun q hq => ?_, fun i hi q hq => ?_, hlt, fun _ => rfl⟩
  · by_cases e : i = j
    · rw [e, hj] at hq
      injection hq with hq
      rw [← hq]
      exact ⟨n, m, x, hs, hn⟩
    · obtain ⟨n', m', x', h1, h2⟩ := h.before i (by omega) q hq
      exact ⟨n', m', x', saved_put h1 (file_ne hR.distinct hq hj e hf), h2⟩
  · obtain ⟨th, av, hk, h1, -⟩ := hR.integration q (List.mem_of_getElem? hq)
    refine ⟨?_, Nat.zero_le _, .inl ⟨rfl, absent_put (h.after (j + 1) (by omega) q hq) (file_ne hR.distinct hq hj (by omega) hf)⟩⟩
    unfold need; rw [hk]; exact h1
  · exact absent_put (h.after i (by omega) q hq) (file_ne hR.distinct hq hj (by omega) hf)

theorem at_interrupted {A : Arith} {P : Numbers} {disk : Disk} {runs : List Run} {j c n : Nat} {r : Run} {f t : Text} {m : Aux} {x : Snapshot}
    (hR : Resumable runs) (h : At A P disk runs j c) (hj : runs[j]? = some r) (hf : r.ramsnapOut = some f) (hs : Saved A P (disk.put f t) r n m x)
    (hn : n < need r) (hth : n ≤ needThermal r) (h0 : 0 < n) : At A P (disk.put f t) runs j n := by
  have hlt := (List.getElem?_eq_some_iff.mp hj).1
  refine ⟨fun i hi q hq => ?_, fun q hq => ?_, fun i hi q hq => ?_, hlt.le, fun e => by omega⟩
  · obtain ⟨n', m', x', h1, h2⟩ := h.before i hi q hq
    exact ⟨n', m', x', saved_put h1 (file_ne hR.distinct hq hj (by omega) hf), h2⟩
  · rw [hj] at hq
    injection hq with hq
    rw [← hq]
    exact ⟨hn, hth, .inr ⟨h0, m, x, hs⟩⟩
  · exact absent_put (h.after i hi q hq) (file_ne hR.distinct hq hj (by omega) hf)

theorem cyclesFrom_split {rs : List Run} {r : Run} {j c d : Nat} (h : c + d ≤ need r) :
    cyclesFrom (r :: rs) j c = (List.range' (c + 1) d).map (fun n => (j, n)) ++ cyclesFrom (r :: rs) j (c + d) := by
  have e : List.range' (c + 1) (need r - c) = List.range' (c + 1) d ++ List.range' (c + d + 1) (need r - (c + d)) := by
    have h1 := List.range'_append (s := c + 1) (m := d) (n := need r - (c + d)) (step := 1)
    rw [show c + d + 1 = c + 1 + 1 * d by omega, h1]
    congr 1
    omega
  rw [cyclesFrom, e, List.map_append, cyclesFrom, List.append_assoc]

theorem loop_at {σ : Type} {A : Arith} {P : Numbers} {E : Engine σ} {stop : Nat → Nat → Bool} {runs : List Run} (hW : Works A P E stop) (hR : Resumable runs)
    (hO : OutsideAveraging runs stop) : ∀ (k : Nat) {j c : Nat} {r r' : Run} {th av : Option Nat} {dies : Option Nat} {s : σ} {disk disk' : Disk}
      {log : List (Nat × Nat × Nat)}, runs.length = j + k → runs[j]? = some r → r'.ramsnapOut = r.ramsnapOut → r'.kind = .integration th av →
      c + (th.getD 0 + av.getD 0) = need r → At A P disk runs j c → casinoLoop P E (r' :: runs.drop (j + 1)) j c dies s disk = .ok (disk', log) →
      ∃ j' c', At A P disk' runs j' c' ∧ workOf log ++ cyclesFrom (runs.drop j') j' c' = cyclesFrom (runs.drop j) j c ∧
        (dies = none → (∀ i n, stop i n = false) → j' = runs.length) := by
  intro k
  induction k with
  | zero =>
    intro j c r r' th av dies s disk disk' log hk hj
    have hlt := (List.getElem?_eq_some_iff.mp hj).1
    omega
  | succ k ih =>
    intro j c r r' th av dies s disk disk' log hk hj ho hkind hc hat h
    have hlt := (List.getElem?_eq_some_iff.mp hj).1
    obtain ⟨f, hf⟩ := Option.isSome_iff_exists.mp (hR.files r (List.mem_of_getElem? hj))
    have hdrop : runs.drop j = r :: runs.drop (j + 1) := by
      rw [List.drop_eq_getElem_cons hlt, (List.getElem?_eq_some_iff.mp hj).2]
    rw [casinoLoop] at h
    by_cases hd : dies = some 0
    · rw [if_pos hd] at h
      injection h with h
      injection h with h1 h2
      rw [← h1, ← h2]
      exact ⟨j, c, hat, rfl, fun e => by rw [e] at hd; cases hd⟩
    rw [if_neg hd] at h
    obtain ⟨s', hp, h⟩ := Outcome.bind_eq_ok.mp h
    obtain ⟨t, hst, hsv⟩ := storeSnapshot_ok hW hp disk (ho.trans hf)
    rw [hst] at h
    simp only [Outcome.ok_bind] at h
    obtain ⟨h1, h2⟩ := hW.cycles hkind hp
    have hle := Sim.cyclesDone_le (stop j) (th.getD 0 + av.getD 0) c
    have hneed : need r < 2 ^ 64 := by
      obtain ⟨th', av', hk', -, hk''⟩ := hR.integration r (List.mem_of_getElem? hj)
      unfold need; rw [hk']; exact hk''
    have hsv := hsv (by omega) r hf
    have hsplit : ∀ d, c + d ≤ need r → cyclesFrom (runs.drop j) j c =
        (List.range' (c + 1) (c + d - c)).map (fun n => (j, n)) ++ cyclesFrom (runs.drop j) j (c + d) := by
      intro d hd
      rw [hdrop, cyclesFrom_split hd, show c + d - c = d by omega]
    have hfull : cyclesFrom (runs.drop j) j (need r) = cyclesFrom (runs.drop (j + 1)) (j + 1) 0 := by
      rw [hdrop, cyclesFrom]; simp
    by_cases hi : E.interrupted s' = true
    · rw [if_pos hi] at h
      injection h with h
      injection h with h3 h4
      rw [h2] at hi
      obtain ⟨h5, h6⟩ := stopped_at _ _ _ hi
      rw [← h3, ← h4]
      have hw : workOf [(j, c, E.totalCycles s')] = (List.range' (c + 1) (E.totalCycles s' - c)).map fun n => (j, n) := by simp [workOf]
      rcases lt_or_ge (E.totalCycles s') (need r) with hlt' | hge
      · have h7 : E.totalCycles s' ≤ needThermal r := by
          rw [h1]
          rcases hO j _ h6 r hj with h | h
          · exact h
          · omega
        refine ⟨j, E.totalCycles s', at_interrupted hR hat hj hf hsv hlt' h7 (by omega), ?_, fun _ hs => by rw [hs] at h6; cases h6⟩
        rw [hw, h1, hsplit (cyclesDone (stop j) c (th.getD 0 + av.getD 0)) (by omega)]
      · refine ⟨j + 1, 0, at_finished hR hat hj hf hsv hge, ?_, fun _ hs => by rw [hs] at h6; cases h6⟩
        have e : E.totalCycles s' = need r := by omega
        rw [hw, h1, hsplit (cyclesDone (stop j) c (th.getD 0 + av.getD 0)) (by omega), ← h1, e, hfull]
    · rw [if_neg hi] at h
      have hi' : stopped (stop j) c (th.getD 0 + av.getD 0) = false := by rw [← h2]; simpa using hi
      rw [Sim.cyclesDone_all _ _ _ hi', hc] at h1
      have hat' := at_finished hR hat hj hf hsv (by omega)
      obtain ⟨⟨disk₂, log₂⟩, h3, h4⟩ := Outcome.bind_eq_ok.mp h
      injection h4 with h4
      injection h4 with h4 h5
      have hw : workOf ((j, c, E.totalCycles s') :: log₂) = (List.range' (c + 1) (need r - c)).map (fun n => (j, n)) ++ workOf log₂ := by
        simp [workOf, h1]
      have hcf : cyclesFrom (runs.drop j) j c = (List.range' (c + 1) (need r - c)).map (fun n => (j, n)) ++ cyclesFrom (runs.drop (j + 1)) (j + 1) 0 := by
        rw [hdrop, cyclesFrom]
      rw [← h4, ← h5]
      rcases Nat.lt_or_ge (j + 1) runs.length with hl | hl
      · have hj' : runs[j + 1]? = some runs[j + 1] := List.getElem?_eq_getElem hl
        obtain ⟨th', av', hk', -⟩ := hR.integration _ (List.mem_of_getElem? hj')
        rw [List.drop_eq_getElem_cons hl] at h3
        obtain ⟨j', c', h6, h7, h8⟩ := ih (by omega) hj' rfl hk' (by unfold need; rw [hk']; simp) hat' h3
        refine ⟨j', c', h6, ?_, fun hn hs => h8 (by rw [hn]; rfl) hs⟩
        rw [hw, List.append_assoc, h7, hcf]
      · rw [List.drop_eq_nil_of_le hl, casinoLoop] at h3
        injection h3 with h3
        injection h3 with h3 h3'
        refine ⟨j + 1, 0, by rw [← h3]; exact hat', ?_, fun _ _ => by omega⟩
        rw [hw, hcf, ← h3']
        simp [workOf]

theorem need_lt {runs : List Run} (hR : Resumable runs) {r : Run} (h : r ∈ runs) : need r < 2 ^ 64 := by
  obtain ⟨th', av', hk', -, hk''⟩ := hR.integration r h
  unfold need; rw [hk']; exact hk''

theorem load_at {A : Arith} {P : Numbers} {disk : Disk} {runs : List Run} {j c : Nat} (hR : Resumable runs) (hne : runs ≠ []) (h : At A P disk runs j c) :
    ∃ L, (Loader.make (some ".auto".toList) none runs).load A P disk = .ok L ∧
      (j = runs.length ∧ L.isAllFinished = true ∨
       L.isAllFinished = false ∧ L.startRunIndex = j ∧ L.cycleOffset = c ∧ ∃ r r' th av, runs[j]? = some r ∧ L.runs.drop j = r' :: runs.drop (j + 1) ∧
        r'.ramsnapOut = r.ramsnapOut ∧ r'.kind = .integration th av ∧ c + (th.getD 0 + av.getD 0) = need r) := by
  have hn : ∀ r ∈ runs, need r < 2 ^ 64 := fun r hr => need_lt hR hr
  rcases Nat.lt_or_ge j runs.length with hl | hl
  · have hj : runs[j]? = some runs[j] := List.getElem?_eq_getElem hl
    obtain ⟨hc, hth, hh⟩ := h.here _ hj
    obtain ⟨th, av, hk, -, -⟩ := hR.integration _ (List.mem_of_getElem? hj)
    have hneed : need runs[j] = th.getD 0 + av.getD 0 := by unfold need; rw [hk]
    have hsplit : runs = runs.take j ++ runs[j] :: runs.drop (j + 1) := by
      rw [← List.drop_eq_getElem_cons hl, List.take_append_drop]
    have hbefore : ∀ q ∈ runs.take j, ∃ n m x, Saved A P disk q n m x ∧ need q ≤ n := by
      intro q hq
      obtain ⟨i, hi, e⟩ := List.mem_take_iff_getElem.mp hq
      exact h.before i (by omega) q (by rw [← e]; exact List.getElem?_eq_getElem _)
    have hafter : ∀ q ∈ runs.drop (j + 1), Absent disk q := by
      intro q hq
      obtain ⟨i, hi, e⟩ := List.mem_drop_iff_getElem.mp hq
      exact h.after (j + 1 + i) (by omega) q (by rw [← e]; exact List.getElem?_eq_getElem _)
    have hlt : (runs.take j).length = j := by rw [List.length_take]; omega
    rcases hh with ⟨hc0, hab⟩ | ⟨hc0, m, x, hs⟩
    · by_cases hj0 : j = 0
      · obtain ⟨L, h1, h2, h3, h4, -, -, h5⟩ := C36_scratch (A := A) (P := P) none hne hn (fun r hr => by
          obtain ⟨i, hi, e⟩ := List.getElem_of_mem hr
          have hi' : runs[i]? = some r := by rw [← e]; exact List.getElem?_eq_getElem hi
          by_cases hi0 : i = j
          · subst hi0
            rw [hi'] at hj
            injection hj with hj
            rw [hj]; exact hab
          · exact h.after i (by omega) r hi')
        refine ⟨L, h1, .inr ⟨h2, by omega, by omega, runs[j], runs[j], th, av, hj, ?_, rfl, hk, by omega⟩⟩
        rw [h5, List.drop_eq_getElem_cons hl]
      · obtain ⟨i, rfl⟩ : ∃ i, j = i + 1 := ⟨j - 1, by omega⟩
        have hi : i < runs.length := by omega
        obtain ⟨n, m, x, hs, hsn⟩ := h.before i (by omega) runs[i] (List.getElem?_eq_getElem hi)
        have e : runs = runs.take i ++ runs[i] :: runs[i + 1] :: runs.drop (i + 1 + 1) := by
          rw [← List.drop_eq_getElem_cons hl, ← List.drop_eq_getElem_cons hi, List.take_append_drop]
        have hti : (runs.take i).length = i := by rw [List.length_take]; omega
        obtain ⟨L, h1, h2, h3, h4, -, -, -, h5⟩ := C36_next (A := A) (P := P) (disk := disk) (rs₁ := runs.take i) (rs₂ := runs.drop (i + 1 + 1)) (q := runs[i])
          (r := runs[i + 1]) none (by rw [← e]; exact hn) (by have := hR.few; omega) (fun q hq => by
            obtain ⟨k, hk, e⟩ := List.mem_take_iff_getElem.mp hq
            exact h.before k (by omega) q (by rw [← e]; exact List.getElem?_eq_getElem _)) hs hsn (.inl hab) hafter
        rw [← e] at h1 h5
        refine ⟨L, h1, .inr ⟨h2, by omega, by omega, runs[i + 1], runs[i + 1], th, av, hj, ?_, rfl, hk, by omega⟩⟩
        rw [h5, List.drop_eq_getElem_cons hl]
    · rcases Nat.lt_or_ge c (needThermal runs[j]) with hcl | hcl
      · obtain ⟨L, h1, h2, h3, h4, -, -, -, h5, h6⟩ := C36_thermalization (A := A) (P := P) (disk := disk) none (by rw [← hsplit]; exact hn) hbefore hs hc0 hcl hafter
        rw [← hsplit] at h1
        refine ⟨L, h1, .inr ⟨h2, by omega, h4, runs[j], thermalLeft runs[j] c, some (th.getD 0 - c), av, hj, ?_, ?_, ?_, ?_⟩⟩
        · rw [h5]
          exact List.drop_left' hlt
        · unfold thermalLeft; rw [hk]
        · unfold thermalLeft; rw [hk]
        · unfold needThermal at hcl; rw [hk] at hcl
          simp only [Option.getD_some] at hcl ⊢
          omega
      · have hce : c = needThermal runs[j] := by omega
        obtain ⟨L, h1, h2, h3, h4, -, -, -, h5, h6⟩ := C36_averaging (A := A) (P := P) (disk := disk) none (by rw [← hsplit]; exact hn) hbefore hs hc0 hcl hc hafter
        rw [← hsplit] at h1
        refine ⟨L, h1, .inr ⟨h2, by omega, h4, runs[j], averagingOnly runs[j], none, av, hj, ?_, ?_, ?_, ?_⟩⟩
        · rw [h5]
          exact List.drop_left' hlt
        · unfold averagingOnly; rw [hk]
        · unfold averagingOnly; rw [hk]
        · unfold needThermal at hce; rw [hk] at hce
          simp only [Option.getD_none] at hce ⊢
          omega
  · have hje : j = runs.length := le_antisymm h.bound hl
    obtain ⟨L, h1, h2⟩ := C36_all_done (A := A) (P := P) none hne hn (fun r hr => by
      obtain ⟨i, hi, e⟩ := List.getElem_of_mem hr
      exact h.before i (by omega) r (by rw [← e]; exact List.getElem?_eq_getElem hi))
    exact ⟨L, h1, .inl ⟨hje, h2⟩⟩

theorem casino_at {σ : Type} {A : Arith} {P : Numbers} {E : Engine σ} {stop : Nat → Nat → Bool} {runs : List Run} (hW : Works A P E stop) (hR : Resumable runs)
    (hne : runs ≠ []) (hO : OutsideAveraging runs stop) {j c : Nat} {dies : Option Nat} {disk disk' : Disk} {log : List (Nat × Nat × Nat)} (hat : At A P disk runs j c)
    (h : casino A P E (some ".auto".toList) none runs dies disk = .ok (disk', log)) :
    ∃ j' c', At A P disk' runs j' c' ∧ workOf log ++ cyclesFrom (runs.drop j') j' c' = cyclesFrom (runs.drop j) j c ∧
      (dies = none → (∀ i n, stop i n = false) → j' = runs.length) := by
  obtain ⟨L, h1, h2⟩ := load_at hR hne hat
  unfold casino at h
  rw [h1] at h
  simp only [Outcome.ok_bind] at h
  rcases h2 with ⟨hj, hf⟩ | ⟨hf, hs, hc, r, r', th, av, hr, hd, ho, hk, hn⟩
  · rw [if_pos hf] at h
    injection h with h
    injection h with h3 h4
    rw [← h3, ← h4]
    exact ⟨j, c, hat, rfl, fun _ _ => hj⟩
  · rw [if_neg (by rw [hf]; simp)] at h
    obtain ⟨s, -, h⟩ := Outcome.bind_eq_ok.mp h
    rw [hs, hc, hd] at h
    exact loop_at hW hR hO (runs.length - j) (by have := hat.bound; omega) hr ho hk hn hat h

theorem at_start {A : Arith} {P : Numbers} {disk : Disk} {runs : List Run} (hR : Resumable runs) (h : ∀ r ∈ runs, Absent disk r) : At A P disk runs 0 0 := by
  refine ⟨fun i hi => by omega, fun r hr => ⟨?_, Nat.zero_le _, .inl ⟨rfl, h r (List.mem_of_getElem? hr)⟩⟩, fun i _ r hr => h r (List.mem_of_getElem? hr),
    Nat.zero_le _, fun _ => rfl⟩
  obtain ⟨th, av, hk, h1, -⟩ := hR.integration r (List.mem_of_getElem? hr)
  unfold need; rw [hk]; exact h1

theorem campaign_at {σ : Type} {A : Arith} {P : Numbers} {runs : List Run} (hR : Resumable runs) (hne : runs ≠ []) :
    ∀ {sessions : List (Engine σ × Option Nat)} {j c : Nat} {disk disk' : Disk} {logs : List (List (Nat × Nat × Nat))},
      (∀ E ∈ sessions, ∃ stop, Works A P E.1 stop ∧ OutsideAveraging runs stop) → At A P disk runs j c → campaign A P runs sessions disk = .ok (disk', logs) →
      ∃ j' c', At A P disk' runs j' c' ∧ workOf logs.flatten ++ cyclesFrom (runs.drop j') j' c' = cyclesFrom (runs.drop j) j c
  | [], j, c, disk, disk', logs, _, hat, h => by
    rw [campaign] at h
    injection h with h
    injection h with h1 h2
    rw [← h1, ← h2]
    exact ⟨j, c, hat, rfl⟩
  | (E, dies) :: rest, j, c, disk, disk', logs, hE, hat, h => by
    rw [campaign] at h
    obtain ⟨⟨disk₁, log⟩, h1, h⟩ := Outcome.bind_eq_ok.mp h
    obtain ⟨⟨disk₂, logs'⟩, h2, h⟩ := Outcome.bind_eq_ok.mp h
    injection h with h
    injection h with h3 h4
    obtain ⟨stop, hW, hO⟩ := hE (E, dies) (by simp)
    obtain ⟨j₁, c₁, h5, h6, -⟩ := casino_at hW hR hne hO hat h1
    obtain ⟨j₂, c₂, h7, h8⟩ := campaign_at hR hne (fun E hE' => hE E (by simp [hE'])) h5 h2
    rw [← h3, ← h4]
    refine ⟨j₂, c₂, h7, ?_⟩
    rw [List.flatten_cons]
    unfold workOf at *
    rw [List.flatMap_append, List.append_assoc, h8, h6]

end Rampack
