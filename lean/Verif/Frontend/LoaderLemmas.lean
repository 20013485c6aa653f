import Verif.Frontend.LoaderSpec
import Verif.IO.SnapProps
/-
Lemmas about choosing where a simulation starts.
-/
namespace Rampack

open Spec Traj Ramsnap TextIn

theorem stoul_natText {n : Nat} (h : n < 2 ^ 64) : stoul (natText n) = some n := by
  have hd := natText_dec n
  obtain ⟨c, t, e⟩ : ∃ c t, natText n = c :: t := by
    cases hc : natText n with
    | nil => exact absurd hc (natText_ne n)
    | cons c t => exact ⟨c, t, rfl⟩
  have hc : isDec c = true := hd c (by simp [e])
  have h1 : isSpace c = false := by
    have := dec_iff.mp hc
    simp only [List.mem_cons, List.not_mem_nil, or_false] at this
    rcases this with rfl | rfl | rfl | rfl | rfl | rfl | rfl | rfl | rfl | rfl <;> rfl
  have h2 : c ≠ '-' ∧ c ≠ '+' := by
    have := dec_iff.mp hc
    simp only [List.mem_cons, List.not_mem_nil, or_false] at this
    rcases this with rfl | rfl | rfl | rfl | rfl | rfl | rfl | rfl | rfl | rfl <;> decide
  have ht : (natText n).takeWhile isDec = natText n := List.takeWhile_eq_self_iff.mpr hd
  have hs : (natText n).dropWhile isSpace = natText n := by rw [e, List.dropWhile_cons, h1]; rfl
  have hh : (natText n).head? = some c := by rw [e]; rfl
  have hne : (natText n).isEmpty = false := by rw [e]; rfl
  unfold stoul
  simp only [hs, hh]
  have e1 : (some c == some '-') = false := by simp [h2.1]
  have e2 : (some c == some '+') = false := by simp [h2.2]
  simp only [e1, e2, Bool.or_self, Bool.false_eq_true, if_false, ht, hne, textNat_natText]
  rw [if_neg (by omega)]

theorem saved_readAux {A : Arith} {P : Numbers} {disk : Disk} {r : Run} {n : Nat} {m : Aux} {x : Snapshot} (h : Saved A P disk r n m x) :
    ∃ f t s, r.ramsnapOut = some f ∧ disk f = some t ∧ readAux (.ofText t) = .ok (m, s) ∧ Ramsnap.read A P t = .ok (m, x) := by
  obtain ⟨f, t, h1, h2, h3⟩ := h.file
  have hw := write_ok (P := P) (x := x) h.aux
  rw [hw, Outcome.ok_inj] at h3
  have hr := read_ok h.aux h.storable
  rw [h3] at hr
  refine ⟨f, t, ⟨boxText P x.box ++ shapesText P x.shapes, false, false⟩, h1, h2, ?_, hr⟩
  rw [← h3]
  have := readAux_ok (t := boxText P x.box ++ shapesText P x.shapes) h.aux
  simp only [List.append_assoc] at this ⊢
  exact this

theorem gatherRun_saved {A : Arith} {P : Numbers} {disk : Disk} {r : Run} {n : Nat} {m : Aux} {x : Snapshot} (h : Saved A P disk r n m x) :
    gatherRun disk r = .ok ⟨r.expected, true, false, n⟩ := by
  obtain ⟨f, t, s, h1, h2, h3, -⟩ := saved_readAux h
  unfold gatherRun
  rw [h1]
  simp only [deref, Outcome.ok_bind, h2, h3, cyclesData, h.cycles, Option.isSome_some, Outcome.require_true, Option.getD_some, stoul_natText h.lt]
  rfl

theorem gatherRun_absent {disk : Disk} {r : Run} (h : Absent disk r) : gatherRun disk r = .ok ⟨r.expected, false, false, 0⟩ := by
  obtain ⟨f, h1, h2⟩ := h
  unfold gatherRun
  rw [h1]
  simp only [deref, Outcome.ok_bind, h2]
  rfl

/-- The data of a run with the given status. -/
def dataOf (r : Run) (st : Option Nat) : RunData := ⟨r.expected, st.isSome, false, st.getD 0⟩

theorem gatherRun_ok {A : Arith} {P : Numbers} {disk : Disk} {r : Run} {st : Option Nat} (h : Status A P disk r st) : gatherRun disk r = .ok (dataOf r st) := by
  cases st with
  | none => exact gatherRun_absent h
  | some n =>
    obtain ⟨m, x, h⟩ := h
    exact gatherRun_saved h

theorem gatherRunData_ok {A : Arith} {P : Numbers} {disk : Disk} : ∀ {runs : List Run} {sts : List (Option Nat)}, List.Forall₂ (Status A P disk) runs sts →
    gatherRunData disk runs = .ok (List.zipWith dataOf runs sts)
  | _, _, .nil => rfl
  | _, _, .cons h hs => by
    rw [gatherRunData, gatherRun_ok h]
    simp only [Outcome.ok_bind, gatherRunData_ok hs]
    rfl

theorem saved_restore {A : Arith} {P : Numbers} {disk : Disk} {r : Run} {n : Nat} {m : Aux} {x : Snapshot} (h : Saved A P disk r n m x) (L : Loader) :
    L.restore A P disk r = .ok { L with packing := some x, auxInfo := m } := by
  obtain ⟨f, t, s, h1, h2, -, h4⟩ := saved_readAux h
  unfold Loader.restore
  rw [h1]
  simp only [deref, Outcome.ok_bind, h2, h4]
  rfl

theorem saved_auxCycles {A : Arith} {P : Numbers} {disk : Disk} {r : Run} {n : Nat} {m : Aux} {x : Snapshot} (h : Saved A P disk r n m x) :
    Loader.auxCycles m = .ok n := by
  unfold Loader.auxCycles
  rw [h.cycles]
  simp only [stoul_natText h.lt]

theorem dataOf_finished {r : Run} {st : Option Nat} (hr : need r < 2 ^ 64) : (dataOf r st).isFinished = true ↔ Done r st := by
  have he : r.expected = need r := by
    unfold Run.expected need at *
    cases hk : r.kind with
    | relaxation => rfl
    | integration th av =>
      rw [hk] at hr
      simp only at hr ⊢
      exact Nat.mod_eq_of_lt hr
  cases st with
  | none => simp [dataOf, RunData.isFinished, Done]
  | some n => simp [dataOf, RunData.isFinished, Done, he]

theorem forall₂_append {α β : Type} {R : α → β → Prop} {l₁ l₂ : List α} {m₁ m₂ : List β} (h1 : List.Forall₂ R l₁ m₁) (h2 : List.Forall₂ R l₂ m₂) :
    List.Forall₂ R (l₁ ++ l₂) (m₁ ++ m₂) := by
  induction h1 with
  | nil => exact h2
  | cons h _ ih => exact .cons h ih

theorem exists_forall₂ {α β : Type} {R : α → β → Prop} : ∀ {l : List α}, (∀ a ∈ l, ∃ b, R a b) → ∃ m, List.Forall₂ R l m
  | [], _ => ⟨[], .nil⟩
  | a :: l, h => by
    obtain ⟨b, hb⟩ := h a (by simp)
    obtain ⟨m, hm⟩ := exists_forall₂ (l := l) (fun a ha => h a (by simp [ha]))
    exact ⟨b :: m, .cons hb hm⟩

theorem status_file {A : Arith} {P : Numbers} {disk : Disk} {r : Run} {st : Option Nat} (h : Status A P disk r st) : r.ramsnapOut.isSome = true := by
  cases st with
  | none => obtain ⟨f, h, -⟩ := h; simp [h]
  | some n => obtain ⟨m, x, h⟩ := h; obtain ⟨f, t, h, -⟩ := h.file; simp [h]

theorem statuses_files {A : Arith} {P : Numbers} {disk : Disk} {runs : List Run} {sts : List (Option Nat)} (h : List.Forall₂ (Status A P disk) runs sts) :
    runs.all (·.ramsnapOut.isSome) = true := by
  induction h with
  | nil => rfl
  | cons h _ ih => simp [status_file h, ih]

theorem autoFind_ok {A : Arith} {P : Numbers} {disk : Disk} {L : Loader} {sts : List (Option Nat)} (h : List.Forall₂ (Status A P disk) L.runs sts) (hne : L.runs ≠ []) :
    L.autoFind disk = L.autoDecide (List.zipWith dataOf L.runs sts) := by
  unfold Loader.autoFind
  rw [statuses_files h, gatherRunData_ok h]
  simp only [Outcome.require_true, Outcome.ok_bind]
  rw [if_neg]
  have hl := h.length_eq
  have h0 : 0 < L.runs.length := List.length_pos_iff.mpr hne
  have : List.zipWith dataOf L.runs sts ≠ [] := by
    intro e
    have := congrArg List.length e
    simp only [List.length_zipWith, List.length_nil] at this
    omega
  simp [this]

theorem not_corrupted (runs : List Run) (sts : List (Option Nat)) : (List.zipWith dataOf runs sts).any (·.isCorrupted) = false := by
  rw [List.any_eq_false]
  intro d hd
  obtain ⟨i, hi, rfl⟩ := List.getElem_of_mem hd
  simp [dataOf]

theorem autoDecide_all {A : Arith} {P : Numbers} {disk : Disk} {L : Loader} {sts : List (Option Nat)} (h : List.Forall₂ (Status A P disk) L.runs sts)
    (hn : ∀ r ∈ L.runs, need r < 2 ^ 64) (hd : List.Forall₂ Done L.runs sts) :
    L.autoDecide (List.zipWith dataOf L.runs sts) = .ok { L with continuationCycles := none, startRunIndex := L.runs.length, isAllFinished := true } := by
  have hf : (List.zipWith dataOf L.runs sts).findIdx? (fun d => !d.isFinished) = none := by
    rw [List.findIdx?_eq_none_iff]
    intro d hd'
    obtain ⟨i, hi, rfl⟩ := List.getElem_of_mem hd'
    simp only [List.length_zipWith, lt_min_iff] at hi
    have hg : Done L.runs[i] sts[i] := by simpa using hd.get hi.1 hi.2
    rw [List.getElem_zipWith, (dataOf_finished (hn _ (List.getElem_mem _))).mpr hg]
    rfl
  have hl := h.length_eq
  unfold Loader.autoDecide
  rw [not_corrupted]
  simp only [Bool.not_false, Outcome.require_true, Outcome.ok_bind, hf, List.length_zipWith, ← hl, min_self]
  rfl

theorem autoDecide_first {L : Loader} {rs₁ rs₂ : List Run} {r : Run} {s₁ s₂ : List (Option Nat)} {st : Option Nat} (hr : L.runs = rs₁ ++ r :: rs₂)
    (hn : ∀ r ∈ L.runs, need r < 2 ^ 64) (hd : List.Forall₂ Done rs₁ s₁) (hu : ¬ Done r st) :
    L.autoDecide (List.zipWith dataOf L.runs (s₁ ++ st :: s₂)) =
      L.autoUnfinished (List.zipWith dataOf rs₁ s₁ ++ dataOf r st :: List.zipWith dataOf rs₂ s₂) rs₁.length (dataOf r st) := by
  have hl := hd.length_eq
  have hz : List.zipWith dataOf L.runs (s₁ ++ st :: s₂) = List.zipWith dataOf rs₁ s₁ ++ dataOf r st :: List.zipWith dataOf rs₂ s₂ := by
    rw [hr, List.zipWith_append hl, List.zipWith_cons_cons]
  have hlen : (List.zipWith dataOf rs₁ s₁).length = rs₁.length := by simp [hl]
  have hf : (List.zipWith dataOf rs₁ s₁ ++ dataOf r st :: List.zipWith dataOf rs₂ s₂).findIdx? (fun d => !d.isFinished) = some rs₁.length := by
    rw [List.findIdx?_append, List.findIdx?_eq_none_iff.mpr]
    · have : (dataOf r st).isFinished = false := by
        rw [← Bool.not_eq_true, dataOf_finished (hn r (by simp [hr]))]
        exact hu
      simp [List.findIdx?_cons, this, hl]
    · intro d hd'
      obtain ⟨i, hi, rfl⟩ := List.getElem_of_mem hd'
      simp only [List.length_zipWith, lt_min_iff] at hi
      have hg : Done rs₁[i] s₁[i] := by simpa using hd.get hi.1 hi.2
      rw [List.getElem_zipWith, (dataOf_finished (hn _ (by rw [hr]; exact List.mem_append_left _ (List.getElem_mem _)))).mpr hg]
      rfl
  unfold Loader.autoDecide
  rw [not_corrupted, hz]
  simp only [Bool.not_false, Outcome.require_true, Outcome.ok_bind, hf]
  have : at' (List.zipWith dataOf rs₁ s₁ ++ dataOf r st :: List.zipWith dataOf rs₂ s₂) rs₁.length = .ok (dataOf r st) := by
    unfold at'
    rw [← hlen, List.getElem?_append_right le_rfl]
    simp [deref]
  rw [this]
  rfl

/-- Where `.auto` looks. -/
theorem load_auto {A : Arith} {P : Numbers} {disk : Disk} {cont : Option Nat} {runs : List Run} :
    (Loader.make (some ".auto".toList) cont runs).load A P disk =
      ((Loader.make (some ".auto".toList) cont runs).autoFind disk >>= fun L => if L.isAllFinished then pure L else L.loadStarted A P disk) := by
  rfl

theorem load_first {A : Arith} {P : Numbers} {disk : Disk} {cont : Option Nat} {rs₁ rs₂ : List Run} {r : Run} {st : Option Nat}
    (hn : ∀ q ∈ rs₁ ++ r :: rs₂, need q < 2 ^ 64) (h1 : ∀ q ∈ rs₁, ∃ n m x, Saved A P disk q n m x ∧ need q ≤ n) (h2 : Status A P disk r st)
    (hu : ¬ Done r st) (h3 : ∀ q ∈ rs₂, Absent disk q) :
    (Loader.make (some ".auto".toList) cont (rs₁ ++ r :: rs₂)).load A P disk =
      Loader.loadStarted A P disk ⟨some ".auto".toList, if st.getD 0 = 0 then none else some 0, rs₁ ++ r :: rs₂, rs₁.length, 0, false, [], none, false⟩ := by
  obtain ⟨s₁, hs₁⟩ := exists_forall₂ (R := fun q st => Status A P disk q st ∧ Done q st) (l := rs₁) (fun q hq => by
    obtain ⟨n, m, x, h, hn⟩ := h1 q hq
    exact ⟨some n, ⟨m, x, h⟩, n, rfl, hn⟩)
  have ha : List.Forall₂ (Status A P disk) rs₁ s₁ := hs₁.imp fun _ _ h => h.1
  have hd : List.Forall₂ Done rs₁ s₁ := hs₁.imp fun _ _ h => h.2
  have hb : List.Forall₂ (Status A P disk) rs₂ (rs₂.map fun _ => none) := by
    clear hn
    induction rs₂ with
    | nil => exact .nil
    | cons q l ih => exact .cons (h3 q (by simp)) (ih fun q hq => h3 q (by simp [hq]))
  have hp : (List.zipWith dataOf rs₂ (rs₂.map fun _ => none)).any (·.wasPerformed) = false := by
    rw [List.any_eq_false]
    intro d hd'
    obtain ⟨i, hi, rfl⟩ := List.getElem_of_mem hd'
    simp [dataOf]
  have hlen : (List.zipWith dataOf rs₁ s₁).length = rs₁.length := by simp [hd.length_eq]
  rw [load_auto, autoFind_ok (sts := s₁ ++ st :: rs₂.map fun _ => none) (forall₂_append ha (.cons h2 hb)) (by simp [Loader.make]),
    autoDecide_first (L := Loader.make (some ".auto".toList) cont (rs₁ ++ r :: rs₂)) rfl hn hd hu]
  unfold Loader.autoUnfinished
  have e : (List.zipWith dataOf rs₁ s₁ ++ dataOf r st :: List.zipWith dataOf rs₂ (rs₂.map fun _ => none)).drop (rs₁.length + 1) =
      List.zipWith dataOf rs₂ (rs₂.map fun _ => none) := by
    rw [← hlen, ← List.drop_drop, List.drop_left]
    rfl
  rw [e, hp]
  simp only [Bool.not_false, Outcome.require_true, Outcome.ok_bind, Outcome.pure_eq]
  rw [if_neg (by simp [Loader.make])]
  rfl

end Rampack
