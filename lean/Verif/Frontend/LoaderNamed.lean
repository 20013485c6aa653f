import Verif.Frontend.CasinoProps
/-
Theorems about starting from a given run and about continuing it: C80.
-/
namespace Rampack

namespace Spec

/-- The number of the run to start with, after the option `--start-from`: the first one without it, otherwise the first or the last one, or the one with the
given name. -/
inductive StartsAt (runs : List Run) : Option Text → Nat → Prop where
  | scratch : StartsAt runs none 0
  | first : StartsAt runs (some ".first".toList) 0
  | last : runs ≠ [] → StartsAt runs (some ".last".toList) (runs.length - 1)
  | named {name : Text} {i : Nat} {r : Run} : name ∉ [".first".toList, ".last".toList, ".auto".toList] → runs[i]? = some r → r.name = name →
      (∀ j q, j < i → runs[j]? = some q → q.name ≠ name) → StartsAt runs (some name) i

/-- The total number of cycles of thermalization to be reached, after the argument of `--continue`: what the run has if it is 0. -/
def target (r : Run) (c : Nat) : Nat := if c = 0 then needThermal r else c

/-- The run with the given number of cycles of thermalization. -/
def withThermal (r : Run) (n : Nat) : Run :=
  match r.kind with
  | .integration _ av => { r with kind := .integration (some n) av }
  | .relaxation => r

/-- The run has averaging. -/
def Averages (r : Run) : Prop := ∃ th n, r.kind = .integration th (some n) ∧ 0 < n

end Spec

open Spec Traj Ramsnap

theorem starts_later {runs : List Run} {start : Option Text} {i : Nat} (h : StartsAt runs start (i + 1)) : start.isNone = false := by
  cases start with
  | none => cases h
  | some name => rfl

theorem findStart_ok {disk : Disk} {start : Option Text} {cont : Option Nat} {runs : List Run} {i : Nat} (h : StartsAt runs start i) (hl : runs.length < 2 ^ 64) :
    (Loader.make start cont runs).reset.findStart disk = .ok { Loader.make start cont runs with startRunIndex := i } := by
  cases h with
  | scratch => rfl
  | first => rfl
  | last hne =>
    have h0 : 0 < runs.length := List.length_pos_iff.mpr hne
    have e : u64 (runs.length + 2 ^ 64 - 1) = runs.length - 1 := by unfold u64; omega
    unfold Loader.findStart
    simp only [Loader.reset, Loader.make]
    rw [if_neg (by decide)]
    unfold Loader.findByName
    rw [if_neg (by decide), if_pos rfl, e]
    rfl
  | @named name _ r hn hr hname hj =>
    simp only [List.mem_cons, List.not_mem_nil, or_false, not_or] at hn
    unfold Loader.findStart
    simp only [Loader.reset, Loader.make]
    rw [if_neg hn.2.2]
    unfold Loader.findByName
    rw [if_neg hn.1, if_neg hn.2.1]
    have : runs.findIdx? (fun r => decide (r.name = name)) = some i := by
      rw [List.findIdx?_eq_some_iff_getElem]
      obtain ⟨hi, he⟩ := List.getElem?_eq_some_iff.mp hr
      refine ⟨hi, by rw [he]; simpa using hname, fun j hji => ?_⟩
      have := hj j _ hji (List.getElem?_eq_getElem (by omega))
      simpa using this
    rw [this]
    rfl

theorem load_started {A : Arith} {P : Numbers} {disk : Disk} {start : Option Text} {cont : Option Nat} {runs : List Run} {i : Nat} (h : StartsAt runs start i)
    (hl : runs.length < 2 ^ 64) :
    (Loader.make start cont runs).load A P disk = Loader.loadStarted A P disk { Loader.make start cont runs with startRunIndex := i } := by
  unfold Loader.load
  rw [findStart_ok h hl]
  rfl

/-- C80: the first run is started from scratch. -/
theorem C80_scratch {A : Arith} {P : Numbers} {disk : Disk} {runs : List Run} {start : Option Text} (h : StartsAt runs start 0) (hl : runs.length < 2 ^ 64) :
    ∃ L, (Loader.make start none runs).load A P disk = .ok L ∧ L.isAllFinished = false ∧ L.startRunIndex = 0 ∧ L.cycleOffset = 0 ∧
      L.isContinuation = false ∧ L.packing = none ∧ L.runs = runs := by
  rw [load_started h hl, Loader.loadStarted, if_pos (by cases start <;> rfl)]
  exact ⟨_, rfl, rfl, rfl, rfl, rfl, rfl, rfl⟩

/-- C80: any other run is started from the packing and the step sizes which the run before it ended with, no matter what happened later. -/
theorem C80_preceding {A : Arith} {P : Numbers} {disk : Disk} {rs₁ rs₂ : List Run} {q r : Run} {n : Nat} {m : Aux} {x : Snapshot} {start : Option Text}
    (h : StartsAt (rs₁ ++ q :: r :: rs₂) start (rs₁.length + 1)) (hl : (rs₁ ++ q :: r :: rs₂).length < 2 ^ 64) (hq : Saved A P disk q n m x) :
    ∃ L, (Loader.make start none (rs₁ ++ q :: r :: rs₂)).load A P disk = .ok L ∧ L.isAllFinished = false ∧ L.startRunIndex = rs₁.length + 1 ∧
      L.cycleOffset = 0 ∧ L.isContinuation = false ∧ L.packing = some x ∧ L.auxInfo = m ∧ L.runs = rs₁ ++ q :: r :: rs₂ := by
  have hs : start.isNone = false := starts_later h
  rw [load_started h hl, Loader.loadStarted, if_neg (by simp [Loader.fromScratch, Loader.make, hs])]
  have hl' : rs₁.length < 2 ^ 64 := by simp at hl; omega
  have ei : u64 (rs₁.length + 1 + 2 ^ 64 - 1) = rs₁.length := by unfold u64; omega
  simp only [Loader.make, Loader.loadPrevious]
  rw [ei]
  have ea : at' (rs₁ ++ q :: r :: rs₂) rs₁.length = .ok q := by unfold at'; simp [deref]
  rw [ea, Outcome.ok_bind, saved_restore hq]
  exact ⟨_, rfl, rfl, rfl, rfl, rfl, rfl, rfl, rfl⟩

theorem load_continuation {A : Arith} {P : Numbers} {disk : Disk} {rs₁ rs₂ : List Run} {r : Run} {n c : Nat} {m : Aux} {x : Snapshot} {start : Option Text}
    (h : StartsAt (rs₁ ++ r :: rs₂) start rs₁.length) (hl : (rs₁ ++ r :: rs₂).length < 2 ^ 64) (hr : Saved A P disk r n m x) :
    (Loader.make start (some c) (rs₁ ++ r :: rs₂)).load A P disk =
      match r.kind with
      | .relaxation => .ok ⟨start, some c, rs₁ ++ r :: rs₂, rs₁.length, n, true, m, some x, false⟩
      | .integration th av => .ok (Loader.continueRun ⟨start, some c, rs₁ ++ r :: rs₂, rs₁.length, n, true, m, some x, false⟩ r c th av) := by
  rw [load_started h hl, Loader.loadStarted, if_neg (by simp [Loader.fromScratch, Loader.make])]
  simp only [Loader.make, Loader.loadContinuation]
  have ea : at' (rs₁ ++ r :: rs₂) rs₁.length = .ok r := by unfold at'; simp [deref]
  rw [ea, Outcome.ok_bind, saved_restore hr, Outcome.ok_bind, saved_auxCycles hr, Outcome.ok_bind]
  cases r.kind <;> rfl

/-- C80: a run which was stored after fewer cycles of thermalization than are to be reached is continued for those which are left, from its own packing, step
sizes and number of cycles. -/
theorem C80_thermalization {A : Arith} {P : Numbers} {disk : Disk} {rs₁ rs₂ : List Run} {r : Run} {n c : Nat} {m : Aux} {x : Snapshot} {start : Option Text}
    (h : StartsAt (rs₁ ++ r :: rs₂) start rs₁.length) (hl : (rs₁ ++ r :: rs₂).length < 2 ^ 64) (hr : Saved A P disk r n m x)
    (hk : r.kind ≠ .relaxation) (hn : n < target r c) :
    ∃ L, (Loader.make start (some c) (rs₁ ++ r :: rs₂)).load A P disk = .ok L ∧ L.isAllFinished = false ∧ L.startRunIndex = rs₁.length ∧ L.cycleOffset = n ∧
      L.isContinuation = true ∧ L.packing = some x ∧ L.auxInfo = m ∧ L.runs = rs₁ ++ withThermal r (target r c - n) :: rs₂ := by
  rw [load_continuation h hl hr]
  unfold target needThermal at hn ⊢
  unfold withThermal
  cases hkind : r.kind with
  | relaxation => exact absurd hkind hk
  | integration th av =>
    rw [hkind] at hn
    simp only [Loader.continueRun] at hn ⊢
    rw [if_neg (by omega)]
    refine ⟨_, rfl, rfl, rfl, rfl, rfl, rfl, rfl, ?_⟩
    simp

/-- C80: once thermalization is over, averaging is started at once. -/
theorem C80_averaging {A : Arith} {P : Numbers} {disk : Disk} {rs₁ rs₂ : List Run} {r : Run} {n c : Nat} {m : Aux} {x : Snapshot} {start : Option Text}
    (h : StartsAt (rs₁ ++ r :: rs₂) start rs₁.length) (hl : (rs₁ ++ r :: rs₂).length < 2 ^ 64) (hr : Saved A P disk r n m x)
    (hk : Averages r) (hn : target r c ≤ n) :
    ∃ L, (Loader.make start (some c) (rs₁ ++ r :: rs₂)).load A P disk = .ok L ∧ L.isAllFinished = false ∧ L.startRunIndex = rs₁.length ∧ L.cycleOffset = n ∧
      L.isContinuation = true ∧ L.packing = some x ∧ L.auxInfo = m ∧ L.runs = rs₁ ++ averagingOnly r :: rs₂ := by
  obtain ⟨th, k, hkind, hk⟩ := hk
  rw [load_continuation h hl hr]
  unfold target needThermal at hn
  unfold averagingOnly
  rw [hkind] at hn ⊢
  simp only [Loader.continueRun] at hn ⊢
  rw [if_pos hn]
  unfold Loader.skipThermalization
  simp only [Option.getD_some]
  rw [if_pos hk]
  refine ⟨_, rfl, rfl, rfl, rfl, rfl, rfl, rfl, ?_⟩
  simp

/-- C80: without averaging the next run is started, from the packing and the step sizes which this one ended with; if there is none then all is done. -/
theorem C80_over {A : Arith} {P : Numbers} {disk : Disk} {rs₁ rs₂ : List Run} {r : Run} {n c : Nat} {m : Aux} {x : Snapshot} {start : Option Text}
    (h : StartsAt (rs₁ ++ r :: rs₂) start rs₁.length) (hl : (rs₁ ++ r :: rs₂).length < 2 ^ 64) (hr : Saved A P disk r n m x)
    (hk : r.kind ≠ .relaxation) (ha : ¬ Averages r) (hn : target r c ≤ n) :
    ∃ L, (Loader.make start (some c) (rs₁ ++ r :: rs₂)).load A P disk = .ok L ∧ (L.isAllFinished = true ↔ rs₂ = []) ∧ L.startRunIndex = rs₁.length + 1 ∧
      L.cycleOffset = 0 ∧ L.isContinuation = false ∧ L.packing = some x ∧ L.auxInfo = m ∧ ∃ r', L.runs = rs₁ ++ r' :: rs₂ := by
  rw [load_continuation h hl hr]
  unfold target needThermal at hn
  cases hkind : r.kind with
  | relaxation => exact absurd hkind hk
  | integration th av =>
    rw [hkind] at hn
    simp only [Loader.continueRun] at hn ⊢
    rw [if_pos hn]
    unfold Loader.skipThermalization
    have h0 : ¬ 0 < av.getD 0 := by
      intro h0
      cases av with
      | none => simp at h0
      | some k => exact ha ⟨th, k, hkind, h0⟩
    rw [if_neg h0]
    refine ⟨_, rfl, ?_, rfl, rfl, rfl, rfl, rfl, { r with kind := .integration none av }, by simp⟩
    rw [← List.length_eq_zero_iff]
    simp only [List.length_set, decide_eq_true_eq, List.length_append, List.length_cons]
    omega

/-- C80: an overlap relaxation is continued as it is. -/
theorem C80_relaxation {A : Arith} {P : Numbers} {disk : Disk} {rs₁ rs₂ : List Run} {r : Run} {n c : Nat} {m : Aux} {x : Snapshot} {start : Option Text}
    (h : StartsAt (rs₁ ++ r :: rs₂) start rs₁.length) (hl : (rs₁ ++ r :: rs₂).length < 2 ^ 64) (hr : Saved A P disk r n m x) (hk : r.kind = .relaxation) :
    ∃ L, (Loader.make start (some c) (rs₁ ++ r :: rs₂)).load A P disk = .ok L ∧ L.isAllFinished = false ∧ L.startRunIndex = rs₁.length ∧ L.cycleOffset = n ∧
      L.isContinuation = true ∧ L.packing = some x ∧ L.auxInfo = m ∧ L.runs = rs₁ ++ r :: rs₂ := by
  rw [load_continuation h hl hr, hk]
  exact ⟨_, rfl, rfl, rfl, rfl, rfl, rfl, rfl, rfl⟩

/-- C80: a name which no run has is refused, and so is a start from a file which is not there. -/
theorem C80_refused {A : Arith} {P : Numbers} {disk : Disk} {runs : List Run} {start : Text} {cont : Option Nat}
    (hs : start ∉ [".first".toList, ".last".toList, ".auto".toList]) (h : ∀ r ∈ runs, r.name ≠ start) :
    ∃ e, (Loader.make (some start) cont runs).load A P disk = .throw e := by
  simp only [List.mem_cons, List.not_mem_nil, or_false, not_or] at hs
  unfold Loader.load Loader.findStart
  simp only [Loader.reset, Loader.make]
  rw [if_neg hs.2.2]
  unfold Loader.findByName
  rw [if_neg hs.1, if_neg hs.2.1]
  have : runs.findIdx? (fun r => decide (r.name = start)) = none := by
    rw [List.findIdx?_eq_none_iff]
    intro r hr
    simpa using h r hr
  rw [this]
  exact ⟨_, rfl⟩

/-- C80: a run cannot be continued if its file is not there, and cannot be started if the file of the one before it is not there. -/
theorem C80_absent {A : Arith} {P : Numbers} {disk : Disk} {rs₁ rs₂ : List Run} {q : Run} {start : Option Text} {cont : Option Nat}
    (hl : (rs₁ ++ q :: rs₂).length < 2 ^ 64) (hq : Absent disk q)
    (h : (cont ≠ none ∧ StartsAt (rs₁ ++ q :: rs₂) start rs₁.length) ∨ (cont = none ∧ StartsAt (rs₁ ++ q :: rs₂) start (rs₁.length + 1))) :
    ∃ e, (Loader.make start cont (rs₁ ++ q :: rs₂)).load A P disk = .throw e := by
  obtain ⟨f, hf, hd⟩ := hq
  have ea : at' (rs₁ ++ q :: rs₂) rs₁.length = .ok q := by unfold at'; simp [deref]
  have hl' : rs₁.length < 2 ^ 64 := by simp at hl; omega
  rcases h with ⟨hc, h⟩ | ⟨rfl, h⟩
  · obtain ⟨c, rfl⟩ := Option.ne_none_iff_exists'.mp hc
    rw [load_started h hl, Loader.loadStarted, if_neg (by simp [Loader.fromScratch, Loader.make])]
    simp only [Loader.make, Loader.loadContinuation]
    rw [ea, Outcome.ok_bind]
    unfold Loader.restore
    rw [hf]
    simp only [deref, Outcome.ok_bind, hd]
    exact ⟨_, rfl⟩
  · have hs : start.isNone = false := starts_later h
    rw [load_started h hl, Loader.loadStarted, if_neg (by simp [Loader.fromScratch, Loader.make, hs])]
    have ei : u64 (rs₁.length + 1 + 2 ^ 64 - 1) = rs₁.length := by unfold u64; omega
    simp only [Loader.make, Loader.loadPrevious]
    rw [ei, ea, Outcome.ok_bind]
    unfold Loader.restore
    rw [hf]
    simp only [deref, Outcome.ok_bind, hd]
    exact ⟨_, rfl⟩

/-- C80 fails: the documentation says that the argument of `--continue` is the number of cycles to be added, but it is the total number of cycles. With 10
cycles stored and 20 more requested, there are only 10 to go; with 20 stored and 20 more requested there are none. -/
theorem C80_more_violated {A : Arith} {P : Numbers} {disk : Disk} {r : Run} {m : Aux} {x : Snapshot} {th av : Option Nat} {start : Option Text}
    (h : StartsAt [r] start 0) (hk : r.kind = .integration th av) :
    (Saved A P disk r 10 m x → ∃ L, (Loader.make start (some 20) [r]).load A P disk = .ok L ∧ L.runs = [withThermal r 10]) ∧
    (Saved A P disk r 20 m x → av = none → ∃ L, (Loader.make start (some 20) [r]).load A P disk = .ok L ∧ L.isAllFinished = true) := by
  have hne : r.kind ≠ .relaxation := by rw [hk]; simp
  constructor
  · intro hs
    obtain ⟨L, h1, -, -, -, -, -, -, h2⟩ := C80_thermalization (rs₁ := []) (rs₂ := []) (c := 20) h (by simp) hs hne (by simp [target])
    exact ⟨L, h1, h2⟩
  · rintro hs rfl
    obtain ⟨L, h1, h2, -⟩ := C80_over (rs₁ := []) (rs₂ := []) (c := 20) h (by simp) hs hne (by rintro ⟨a, b, h, -⟩; rw [hk] at h; cases h)
      (by simp [target])
    exact ⟨L, h1, h2.mpr rfl⟩

/-- C80 fails: according to the documentation `.start` and `.end` are the first and the last run, but they are refused, as no run can have such a name. -/
theorem C80_special_violated {A : Arith} {P : Numbers} {disk : Disk} {runs : List Run} {cont : Option Nat} (h : ∀ r ∈ runs, '.' ∉ r.name) :
    (∃ e, (Loader.make (some ".start".toList) cont runs).load A P disk = .throw e) ∧
      ∃ e, (Loader.make (some ".end".toList) cont runs).load A P disk = .throw e :=
  ⟨C80_refused (by decide) fun r hr e => h r hr (by rw [e]; decide), C80_refused (by decide) fun r hr e => h r hr (by rw [e]; decide)⟩

/-- C80 fails: a start after a run which has no RAMSNAP output, or a continuation of such a run, is not refused: what happens is undefined. -/
theorem C80_no_output_violated {A : Arith} {P : Numbers} {disk : Disk} {rs₁ rs₂ : List Run} {q : Run} {start : Option Text} {cont : Option Nat}
    (hl : (rs₁ ++ q :: rs₂).length < 2 ^ 64) (hq : q.ramsnapOut = none)
    (h : (cont ≠ none ∧ StartsAt (rs₁ ++ q :: rs₂) start rs₁.length) ∨ (cont = none ∧ StartsAt (rs₁ ++ q :: rs₂) start (rs₁.length + 1))) :
    (Loader.make start cont (rs₁ ++ q :: rs₂)).load A P disk = .ub := by
  have ea : at' (rs₁ ++ q :: rs₂) rs₁.length = .ok q := by unfold at'; simp [deref]
  have hl' : rs₁.length < 2 ^ 64 := by simp at hl; omega
  rcases h with ⟨hc, h⟩ | ⟨rfl, h⟩
  · obtain ⟨c, rfl⟩ := Option.ne_none_iff_exists'.mp hc
    rw [load_started h hl, Loader.loadStarted, if_neg (by simp [Loader.fromScratch, Loader.make])]
    simp only [Loader.make, Loader.loadContinuation]
    rw [ea, Outcome.ok_bind]
    unfold Loader.restore
    rw [hq]
    rfl
  · have hs : start.isNone = false := starts_later h
    rw [load_started h hl, Loader.loadStarted, if_neg (by simp [Loader.fromScratch, Loader.make, hs])]
    have ei : u64 (rs₁.length + 1 + 2 ^ 64 - 1) = rs₁.length := by unfold u64; omega
    simp only [Loader.make, Loader.loadPrevious]
    rw [ei, ea, Outcome.ok_bind]
    unfold Loader.restore
    rw [hq]
    rfl

/-- Two runs. -/
def twoRuns : List Run := [⟨"a".toList, .integration (some 10) none, none, 1, 1⟩, ⟨"b".toList, .integration none (some 5), some "b".toList, 1, 1⟩]

example : StartsAt twoRuns none 0 := .scratch
example : StartsAt twoRuns (some ".first".toList) 0 := .first
example : StartsAt twoRuns (some ".last".toList) 1 := .last (by decide)
example : StartsAt twoRuns (some "b".toList) 1 :=
  .named (by decide) (r := ⟨"b".toList, .integration none (some 5), some "b".toList, 1, 1⟩) rfl rfl (by
    intro j q hj h
    obtain rfl : j = 0 := by omega
    cases h
    decide)
example : Averages ⟨"b".toList, .integration none (some 5), some "b".toList, 1, 1⟩ := ⟨none, 5, rfl, by decide⟩

/-- The file of the second run. -/
example : ∃ disk m x, Saved demoArith demoNumbers disk ⟨"b".toList, .integration none (some 5), some "b".toList, 1, 1⟩ 3 m x := by
  obtain ⟨t, h⟩ := demo_saved (f := "b".toList) (n := 3) (by norm_num) (fun _ => none)
  exact ⟨_, h _ rfl⟩

/-- The second run cannot be started as the first one has no output. -/
example {A : Arith} {P : Numbers} {disk : Disk} : (Loader.make (some ".last".toList) none twoRuns).load A P disk = .ub :=
  C80_no_output_violated (rs₁ := []) (by decide) rfl (.inr ⟨rfl, .last (by decide)⟩)

end Rampack
