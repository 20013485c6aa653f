import Verif.Frontend.LoaderLemmas
/-
Theorems about resuming with `.auto`: C36.
-/
namespace Rampack

open Spec Traj Ramsnap

/-- C36: if all runs are done then nothing is started. -/
theorem C36_all_done {A : Arith} {P : Numbers} {disk : Disk} {runs : List Run} (cont : Option Nat) (hne : runs ≠ []) (hn : ∀ r ∈ runs, need r < 2 ^ 64)
    (h : ∀ r ∈ runs, ∃ n m x, Saved A P disk r n m x ∧ need r ≤ n) :
    ∃ L, (Loader.make (some ".auto".toList) cont runs).load A P disk = .ok L ∧ L.isAllFinished = true := by
  obtain ⟨sts, hs⟩ := exists_forall₂ (R := fun q st => Status A P disk q st ∧ Done q st) (l := runs) (fun q hq => by
    obtain ⟨n, m, x, h, hn⟩ := h q hq
    exact ⟨some n, ⟨m, x, h⟩, n, rfl, hn⟩)
  have ha : List.Forall₂ (Status A P disk) runs sts := hs.imp fun _ _ h => h.1
  have hd : List.Forall₂ Done runs sts := hs.imp fun _ _ h => h.2
  rw [load_auto, autoFind_ok (L := Loader.make (some ".auto".toList) cont runs) ha hne,
    autoDecide_all (L := Loader.make (some ".auto".toList) cont runs) ha hn hd]
  exact ⟨_, rfl, rfl⟩

/-- C36: if no run was done at all then the first one is started from scratch. -/
theorem C36_scratch {A : Arith} {P : Numbers} {disk : Disk} {runs : List Run} (cont : Option Nat) (hne : runs ≠ []) (hn : ∀ r ∈ runs, need r < 2 ^ 64)
    (h : ∀ r ∈ runs, Absent disk r) :
    ∃ L, (Loader.make (some ".auto".toList) cont runs).load A P disk = .ok L ∧ L.isAllFinished = false ∧ L.startRunIndex = 0 ∧ L.cycleOffset = 0 ∧
      L.isContinuation = false ∧ L.packing = none ∧ L.runs = runs := by
  obtain ⟨r, rs, rfl⟩ := List.exists_cons_of_ne_nil hne
  have := load_first (A := A) (P := P) (cont := cont) (rs₁ := []) (rs₂ := rs) (r := r) (st := none) hn (by simp) (h r (by simp)) (by rintro ⟨n, h, -⟩; cases h)
    (fun q hq => h q (by simp [hq]))
  rw [List.nil_append] at this
  rw [this]
  exact ⟨_, rfl, rfl, rfl, rfl, rfl, rfl, rfl⟩

/-- C36: if a run is the first one which is not there (or has no cycles), and the one before it is done, then it is started from the packing and the step sizes which
that one ended with. -/
theorem C36_next {A : Arith} {P : Numbers} {disk : Disk} {rs₁ rs₂ : List Run} {q r : Run} {n : Nat} {m : Aux} {x : Snapshot} (cont : Option Nat)
    (hn : ∀ q' ∈ rs₁ ++ q :: r :: rs₂, need q' < 2 ^ 64) (hlen : rs₁.length < 2 ^ 63) (h1 : ∀ q ∈ rs₁, ∃ n m x, Saved A P disk q n m x ∧ need q ≤ n)
    (hq : Saved A P disk q n m x) (hqn : need q ≤ n) (hr : Absent disk r ∨ 0 < need r ∧ ∃ m x, Saved A P disk r 0 m x) (h2 : ∀ q ∈ rs₂, Absent disk q) :
    ∃ L, (Loader.make (some ".auto".toList) cont (rs₁ ++ q :: r :: rs₂)).load A P disk = .ok L ∧ L.isAllFinished = false ∧
      L.startRunIndex = rs₁.length + 1 ∧ L.cycleOffset = 0 ∧ L.isContinuation = false ∧ L.packing = some x ∧ L.auxInfo = m ∧
      L.runs = rs₁ ++ q :: r :: rs₂ := by
  have e : rs₁ ++ q :: r :: rs₂ = (rs₁ ++ [q]) ++ r :: rs₂ := by simp
  obtain ⟨st, hst, hz, hu⟩ : ∃ st : Option Nat, Status A P disk r st ∧ st.getD 0 = 0 ∧ ¬ Done r st := by
    rcases hr with hr | ⟨h0, hr⟩
    · exact ⟨none, hr, rfl, by rintro ⟨n, h, -⟩; cases h⟩
    · refine ⟨some 0, hr, rfl, ?_⟩
      rintro ⟨n, h, h'⟩
      injection h with h
      omega
  have := load_first (A := A) (P := P) (disk := disk) (cont := cont) (rs₁ := rs₁ ++ [q]) (rs₂ := rs₂) (r := r) (by rw [← e]; exact hn) (by
      intro q' hq'
      rw [List.mem_append, List.mem_singleton] at hq'
      rcases hq' with hq' | rfl
      · exact h1 q' hq'
      · exact ⟨n, m, x, hq, hqn⟩) hst hu h2
  rw [hz] at this
  rw [e, this]
  have ei : u64 ((rs₁ ++ [q]).length + 2 ^ 64 - 1) = rs₁.length := by
    rw [List.length_append, List.length_singleton]
    unfold u64
    omega
  have ea : at' (rs₁ ++ [q] ++ r :: rs₂) (u64 ((rs₁ ++ [q]).length + 2 ^ 64 - 1)) = .ok q := by
    rw [ei]
    unfold at'
    simp [deref]
  unfold Loader.loadStarted Loader.loadPrevious
  simp only [Loader.fromScratch, if_true, Option.isNone_some, Bool.false_or, Option.isNone_none, Bool.and_true]
  rw [if_neg (by simp), ea]
  simp only [Outcome.ok_bind]
  rw [saved_restore hq]
  exact ⟨_, rfl, rfl, by simp, rfl, rfl, rfl, rfl, rfl⟩

/-- C36: if the first run which is not done was interrupted in thermalization then it is continued: from its packing, step sizes and the number of
cycles, and for the cycles which are left. In total there will be as many cycles as there should. -/
theorem C36_thermalization {A : Arith} {P : Numbers} {disk : Disk} {rs₁ rs₂ : List Run} {r : Run} {c : Nat} {m : Aux} {x : Snapshot} (cont : Option Nat)
    (hn : ∀ q' ∈ rs₁ ++ r :: rs₂, need q' < 2 ^ 64) (h1 : ∀ q ∈ rs₁, ∃ n m x, Saved A P disk q n m x ∧ need q ≤ n)
    (hr : Saved A P disk r c m x) (h0 : 0 < c) (hc : c < needThermal r) (h2 : ∀ q ∈ rs₂, Absent disk q) :
    ∃ L, (Loader.make (some ".auto".toList) cont (rs₁ ++ r :: rs₂)).load A P disk = .ok L ∧ L.isAllFinished = false ∧
      L.startRunIndex = rs₁.length ∧ L.cycleOffset = c ∧ L.isContinuation = true ∧ L.packing = some x ∧ L.auxInfo = m ∧
      L.runs = rs₁ ++ thermalLeft r c :: rs₂ ∧ c + need (thermalLeft r c) = need r := by
  have hle : needThermal r ≤ need r := by
    unfold needThermal need
    cases r.kind <;> simp
  have hu : ¬ Done r (some c) := by
    rintro ⟨n, e, h⟩
    injection e with e
    omega
  rw [load_first hn h1 (st := some c) ⟨m, x, hr⟩ hu h2]
  have ea : at' (rs₁ ++ r :: rs₂) rs₁.length = .ok r := by unfold at'; simp [deref]
  have hne : ¬ c = 0 := by omega
  unfold Loader.loadStarted
  simp only [Loader.fromScratch, Option.getD_some, hne, if_false, Option.isNone_some, Bool.and_false, Bool.false_eq_true]
  unfold Loader.loadContinuation
  rw [ea]
  simp only [Outcome.ok_bind]
  rw [saved_restore hr]
  simp only [Outcome.ok_bind]
  rw [saved_auxCycles hr]
  simp only [Outcome.ok_bind]
  cases hk : r.kind with
  | relaxation => unfold needThermal at hc; rw [hk] at hc; simp at hc
  | integration th av =>
    unfold needThermal at hc
    rw [hk] at hc
    simp only at hc
    have hcc : ¬ th.getD 0 ≤ c := by omega
    simp only [Loader.continueRun, if_true, hcc, if_false]
    refine ⟨_, rfl, rfl, rfl, rfl, rfl, rfl, rfl, ?_, ?_⟩
    · simp [thermalLeft, hk]
    · simp [thermalLeft, need, hk]; omega

/-- C36: if it was interrupted in averaging, or just before it, then the averaging is started again, from the packing, step sizes and the number of cycles
which are there. -/
theorem C36_averaging {A : Arith} {P : Numbers} {disk : Disk} {rs₁ rs₂ : List Run} {r : Run} {c : Nat} {m : Aux} {x : Snapshot} (cont : Option Nat)
    (hn : ∀ q' ∈ rs₁ ++ r :: rs₂, need q' < 2 ^ 64) (h1 : ∀ q ∈ rs₁, ∃ n m x, Saved A P disk q n m x ∧ need q ≤ n)
    (hr : Saved A P disk r c m x) (h0 : 0 < c) (hc : needThermal r ≤ c) (hc' : c < need r) (h2 : ∀ q ∈ rs₂, Absent disk q) :
    ∃ L, (Loader.make (some ".auto".toList) cont (rs₁ ++ r :: rs₂)).load A P disk = .ok L ∧ L.isAllFinished = false ∧
      L.startRunIndex = rs₁.length ∧ L.cycleOffset = c ∧ L.isContinuation = true ∧ L.packing = some x ∧ L.auxInfo = m ∧
      L.runs = rs₁ ++ averagingOnly r :: rs₂ ∧ (c = needThermal r → c + need (averagingOnly r) = need r) := by
  have hu : ¬ Done r (some c) := by
    rintro ⟨n, e, h⟩
    injection e with e
    omega
  rw [load_first hn h1 (st := some c) ⟨m, x, hr⟩ hu h2]
  have ea : at' (rs₁ ++ r :: rs₂) rs₁.length = .ok r := by unfold at'; simp [deref]
  have hne : ¬ c = 0 := by omega
  unfold Loader.loadStarted
  simp only [Loader.fromScratch, Option.getD_some, hne, if_false, Option.isNone_some, Bool.and_false, Bool.false_eq_true]
  unfold Loader.loadContinuation
  rw [ea]
  simp only [Outcome.ok_bind]
  rw [saved_restore hr]
  simp only [Outcome.ok_bind]
  rw [saved_auxCycles hr]
  simp only [Outcome.ok_bind]
  cases hk : r.kind with
  | relaxation => unfold need at hc'; rw [hk] at hc'; simp at hc'
  | integration th av =>
    unfold needThermal at hc
    unfold need at hc'
    rw [hk] at hc hc'
    simp only at hc hc'
    have hav : 0 < av.getD 0 := by omega
    simp only [Loader.continueRun, if_true, hc, Loader.skipThermalization, hav]
    refine ⟨_, rfl, rfl, rfl, rfl, rfl, rfl, rfl, ?_, ?_⟩
    · simp [averagingOnly, hk]
    · simp [averagingOnly, need, needThermal, hk]

/-- A run with a file which cannot be used. -/
def Broken (disk : Disk) (r : Run) : Prop :=
  ∃ f t, r.ramsnapOut = some f ∧ disk f = some t ∧
    ((∃ e, readAux (.ofText t) = .throw e) ∨
     ∃ m s, readAux (.ofText t) = .ok (m, s) ∧ (findEntry "cycles".toList m = none ∨ ∃ v, findEntry "cycles".toList m = some v ∧ stoul v = none))

/-- C36: if some file is broken then resuming is refused. -/
theorem C36_broken {A : Arith} {P : Numbers} {disk : Disk} {runs : List Run} (cont : Option Nat)
    (h : ∀ r ∈ runs, (∃ st, Status A P disk r st) ∨ Broken disk r) (hb : ∃ r ∈ runs, Broken disk r) :
    ∃ e, (Loader.make (some ".auto".toList) cont runs).load A P disk = .throw e := by
  have hfile : runs.all (·.ramsnapOut.isSome) = true := by
    rw [List.all_eq_true]
    intro r hr
    rcases h r hr with ⟨st, h⟩ | ⟨f, t, h, -⟩
    · exact status_file h
    · simp [h]
  have key : ∀ {runs : List Run}, (∀ r ∈ runs, (∃ st, Status A P disk r st) ∨ Broken disk r) →
      (∃ e, gatherRunData disk runs = .throw e) ∨ ∃ ds, gatherRunData disk runs = .ok ds ∧ ((∃ r ∈ runs, Broken disk r) → ds.any (·.isCorrupted) = true) := by
    intro runs
    induction runs with
    | nil => intro _; exact .inr ⟨[], rfl, by simp⟩
    | cons r rs ih =>
      intro h
      have one : (∃ e, gatherRun disk r = .throw e) ∨ ∃ d, gatherRun disk r = .ok d ∧ ((∃ st, Status A P disk r st) ∨ d.isCorrupted = true) := by
        rcases h r (by simp) with ⟨st, h⟩ | ⟨f, t, h1, h2, h⟩
        · exact .inr ⟨_, gatherRun_ok h, .inl ⟨st, h⟩⟩
        · unfold gatherRun
          rw [h1]
          simp only [deref, Outcome.ok_bind, h2]
          rcases h with ⟨e, h⟩ | ⟨m, s, h3, h4⟩
          · left; rw [h]; exact ⟨e, rfl⟩
          · rw [h3]
            simp only [Outcome.ok_bind, cyclesData]
            rcases h4 with h4 | ⟨v, h4, h5⟩
            · left; rw [h4]; exact ⟨_, rfl⟩
            · right
              rw [h4]
              simp only [Option.isSome_some, Outcome.require_true, Outcome.ok_bind, Option.getD_some, h5]
              exact ⟨_, rfl, .inr rfl⟩
      rw [gatherRunData]
      rcases one with ⟨e, h1⟩ | ⟨d, h1, hd⟩
      · left; rw [h1]; exact ⟨e, rfl⟩
      · rw [h1]
        simp only [Outcome.ok_bind]
        rcases ih (fun q hq => h q (by simp [hq])) with ⟨e, h2⟩ | ⟨ds, h2, h3⟩
        · left; rw [h2]; exact ⟨e, rfl⟩
        · right
          rw [h2]
          refine ⟨_, rfl, ?_⟩
          rintro ⟨q, hq, hb⟩
          rw [List.any_cons]
          rcases List.mem_cons.mp hq with rfl | hq
          · rcases hd with ⟨st, hd⟩ | hd
            · exfalso
              obtain ⟨f, t, k1, k2, k⟩ := hb
              cases st with
              | none =>
                obtain ⟨f', k3, k4⟩ := hd
                rw [k1] at k3; injection k3 with k3
                rw [← k3, k2] at k4; cases k4
              | some n =>
                obtain ⟨m, x, hd⟩ := hd
                obtain ⟨f', t', s, k3, k4, k5, -⟩ := saved_readAux hd
                rw [k1] at k3; injection k3 with k3
                rw [← k3, k2] at k4; injection k4 with k4
                rw [← k4] at k5
                rcases k with ⟨e, k⟩ | ⟨m', s', k6, k7⟩
                · rw [k] at k5; cases k5
                · rw [k6] at k5
                  injection k5 with k5
                  injection k5 with k5 _
                  rw [k5, hd.cycles] at k7
                  rcases k7 with k7 | ⟨v, k7, k8⟩
                  · cases k7
                  · injection k7 with k7
                    rw [← k7, stoul_natText hd.lt] at k8
                    cases k8
            · simp [hd]
          · rw [h3 ⟨q, hq, hb⟩]; simp
  rw [load_auto]
  unfold Loader.autoFind
  simp only [Loader.make, hfile, Outcome.require_true, Outcome.ok_bind]
  rcases key h with ⟨e, h1⟩ | ⟨ds, h1, h2⟩
  · rw [h1]; exact ⟨e, rfl⟩
  · rw [h1]
    have := h2 hb
    simp only [Outcome.ok_bind]
    rw [if_neg (by cases ds <;> simp_all)]
    unfold Loader.autoDecide
    rw [this]
    exact ⟨_, rfl⟩

/-- C36: if some run was performed after one which is not done then resuming is refused. -/
theorem C36_order {A : Arith} {P : Numbers} {disk : Disk} {runs : List Run} {sts : List (Option Nat)} (cont : Option Nat)
    (hn : ∀ q ∈ runs, need q < 2 ^ 64) (h : List.Forall₂ (Status A P disk) runs sts) {i j : Nat} {r : Run} {st : Option Nat} {n : Nat}
    (hi : runs[i]? = some r) (hst : sts[i]? = some st) (hu : ¬ Done r st) (hij : i < j) (hj : sts[j]? = some (some n)) :
    ∃ e, (Loader.make (some ".auto".toList) cont runs).load A P disk = .throw e := by
  have hlen := h.length_eq
  have hne : runs ≠ [] := by rintro rfl; simp at hi
  rw [load_auto, autoFind_ok (L := Loader.make (some ".auto".toList) cont runs) h hne]
  unfold Loader.autoDecide
  rw [not_corrupted]
  simp only [Bool.not_false, Outcome.require_true, Outcome.ok_bind, Loader.make]
  have hi' : (List.zipWith dataOf runs sts)[i]? = some (dataOf r st) := by simp [List.getElem?_zipWith, hi, hst]
  have hjl : j < sts.length := (List.getElem?_eq_some_iff.mp hj).1
  have hj' : ∃ d ∈ (List.zipWith dataOf runs sts).drop (i + 1), d.wasPerformed = true := by
    have hjr : j < runs.length := by omega
    refine ⟨dataOf runs[j] (some n), ?_, rfl⟩
    rw [List.mem_drop_iff_getElem]
    refine ⟨j - (i + 1), by simp; omega, ?_⟩
    have e : i + 1 + (j - (i + 1)) = j := by omega
    simp only [List.getElem_zipWith, e]
    rw [(List.getElem?_eq_some_iff.mp hj).2]
  have hfi : (dataOf r st).isFinished = false := by
    rw [← Bool.not_eq_true, dataOf_finished (hn r (List.mem_of_getElem? hi))]
    exact hu
  cases hf : (List.zipWith dataOf runs sts).findIdx? (fun d => !d.isFinished) with
  | none =>
    exfalso
    rw [List.findIdx?_eq_none_iff] at hf
    have := hf _ (List.mem_of_getElem? hi')
    rw [hfi] at this
    simp at this
  | some k =>
    obtain ⟨hk, -, hmin⟩ := List.findIdx?_eq_some_iff_getElem.mp hf
    have hki : k ≤ i := by
      by_contra hlt
      have := hmin i (by omega)
      have e : (List.zipWith dataOf runs sts)[i]'(by omega) = dataOf r st := (List.getElem?_eq_some_iff.mp hi').2
      rw [e, hfi] at this
      simp at this
    simp only
    have ea : at' (List.zipWith dataOf runs sts) k = .ok (List.zipWith dataOf runs sts)[k] := by
      unfold at'
      rw [List.getElem?_eq_getElem hk]
      rfl
    rw [ea]
    simp only [Outcome.ok_bind, Loader.autoUnfinished]
    have : ((List.zipWith dataOf runs sts).drop (k + 1)).any (·.wasPerformed) = true := by
      rw [List.any_eq_true]
      obtain ⟨d, hd, hp⟩ := hj'
      refine ⟨d, ?_, hp⟩
      have e : (List.zipWith dataOf runs sts).drop (i + 1) = ((List.zipWith dataOf runs sts).drop (k + 1)).drop (i - k) := by
        rw [List.drop_drop]; congr 1; omega
      rw [e] at hd
      exact List.mem_of_mem_drop hd
    rw [this]
    exact ⟨_, rfl⟩

end Rampack
