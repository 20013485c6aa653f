import Verif.Frontend.CasinoEnvLemmas
import Verif.Frontend.InputProps
/-
C84: step sizes stored in snapshots are restored.
-/
namespace Rampack

open Ramsnap

/-! ### Specification -/

/-- The sampler with the step sizes of another one of the same kind; all the rest is not changed. -/
def Sampler.restored : Sampler → Sampler → Sampler
  | .rotation _, .rotation y => .rotation y
  | .translation _ m i, .translation y _ _ => .translation y m i
  | .rototranslation _ _ m i, .rototranslation y z _ _ => .rototranslation y z m i
  | s, _ => s

/-- The same for scalers. -/
def ScalerStatus.restored : ScalerStatus → ScalerStatus → ScalerStatus
  | .enabled s, .enabled s' => .enabled { s with step := s'.step }
  | c, _ => c

/-- Step sizes are positive (samplers of flips have none), and reading them gives back what was printed. -/
def Sampler.Storable (D : Decimals) : Sampler → Prop
  | .rotation x => 0 < x ∧ D.stod (D.print x) = some x
  | .translation x _ _ => 0 < x ∧ D.stod (D.print x) = some x
  | .rototranslation x r _ _ => 0 < x ∧ D.stod (D.print x) = some x ∧ ∃ y, r = some y ∧ 0 < y ∧ D.stod (D.print y) = some y
  | .flip _ _ _ _ => D.stod (D.print 0) = some 0

/-- The same for scalers. -/
def ScalerStatus.Storable (D : Decimals) : ScalerStatus → Prop
  | .enabled s => 0 < s.step ∧ D.stod (D.print s.step) = some s.step
  | _ => True

/-- The rotation step is given, not found from the shape. -/
def Sampler.Explicit : Sampler → Prop
  | .rototranslation _ r _ _ => r ≠ none
  | _ => True

/-! ### Entries -/

theorem takeWhile_dot {g a : Text} (h : '.' ∉ g) : (g ++ '.' :: a).takeWhile (fun c => decide (c ≠ '.')) = g := by
  induction g with
  | nil => simp
  | cons c g ih =>
    have h1 : c ≠ '.' := fun e => h (by rw [e]; exact List.mem_cons_self)
    rw [List.cons_append, List.takeWhile_cons_of_pos (by simpa using h1), ih (fun e => h (List.mem_cons_of_mem _ e))]

theorem moveKey_eq (g a : String) : moveKey g a = "step.".toList ++ (g.toList ++ '.' :: a.toList) := by
  unfold moveKey
  rw [List.append_assoc, List.append_assoc]
  rfl

theorem moveKey_inj {g a g' a' : String} (hg : '.' ∉ g.toList) (hg' : '.' ∉ g'.toList) (h : moveKey g a = moveKey g' a') : g = g' ∧ a = a' := by
  rw [moveKey_eq, moveKey_eq] at h
  have h := List.append_cancel_left h
  have h1 := takeWhile_dot (a := a.toList) hg
  rw [h, takeWhile_dot hg'] at h1
  have e : g = g' := String.toList_inj.mp h1.symm
  subst e
  have h2 := List.append_cancel_left h
  injection h2 with _ h2
  exact ⟨rfl, String.toList_inj.mp h2⟩

theorem Sampler.name_plain (s : Sampler) : '.' ∉ s.name.toList := by
  cases s
  · exact (by decide : '.' ∉ "rotation".toList)
  · exact (by decide : '.' ∉ "translation".toList)
  · exact (by decide : '.' ∉ "rototranslation".toList)
  · exact (by decide : '.' ∉ "flip".toList)

theorem scaling_plain : '.' ∉ "scaling".toList := by decide

theorem Sampler.name_scaling (s : Sampler) : s.name ≠ "scaling" := by
  cases s <;> simp [Sampler.name]

/-- Keys in increasing order. -/
def SortedAux (m : Aux) : Prop := (m.map Prod.fst).Pairwise (· < ·)

theorem putSteps_sorted {D : Decimals} {g : String} {l : List (String × ℝ)} {m : Aux} (h : SortedAux m) : SortedAux (putSteps D g l m) := by
  unfold putSteps
  induction l generalizing m with
  | nil => exact h
  | cons e l ih => exact ih (setEntry_sorted h)

theorem putSteps_other {D : Decimals} {g : String} {l : List (String × ℝ)} {m : Aux} (h : SortedAux m) {k : Text} (hk : ∀ e ∈ l, moveKey g e.1 ≠ k) :
    findEntry k (putSteps D g l m) = findEntry k m := by
  unfold putSteps
  induction l generalizing m with
  | nil => rfl
  | cons e l ih =>
    rw [List.foldl_cons, ih (setEntry_sorted h) (fun x hx => hk x (List.mem_cons_of_mem _ hx)), find_setEntry _ _ _ h, if_neg (hk e List.mem_cons_self)]

theorem putSteps_own {D : Decimals} {g : String} (hg : '.' ∉ g.toList) {l : List (String × ℝ)} {m : Aux} (h : SortedAux m) (hn : (l.map Prod.fst).Nodup)
    {a : String} {x : ℝ} (hx : (a, x) ∈ l) : findEntry (moveKey g a) (putSteps D g l m) = some (D.print x) := by
  induction l generalizing m with
  | nil => cases hx
  | cons e l ih =>
    rw [List.map_cons, List.nodup_cons] at hn
    rcases List.mem_cons.mp hx with rfl | hx
    · change findEntry _ (putSteps D g l (setEntry (moveKey g a) (D.print x) m)) = _
      rw [putSteps_other (setEntry_sorted h), find_setEntry _ _ _ h, if_pos rfl]
      rintro ⟨b, y⟩ hy hb
      obtain ⟨-, rfl⟩ := moveKey_inj hg hg hb
      exact hn.1 (List.mem_map.mpr ⟨_, hy, rfl⟩)
    · exact ih (setEntry_sorted h) hn.2 hx

theorem Sampler.namedSteps_nodup {s : Sampler} {l : List (String × ℝ)} (h : s.namedSteps = .ok l) : (l.map Prod.fst).Nodup := by
  unfold Sampler.namedSteps at h
  obtain ⟨x, h1, h⟩ := Outcome.bind_eq_ok.mp h
  injection h with h
  subst h
  rcases s with x | ⟨x, m, i⟩ | ⟨x, _ | y, m, i⟩ | ⟨e, a, o, z⟩
  · injection h1 with h1; subst h1; simp [Sampler.stepNames]
  · injection h1 with h1; subst h1; simp [Sampler.stepNames]
  · cases h1
  · injection h1 with h1; subst h1; simp [Sampler.stepNames]
  · injection h1 with h1; subst h1; simp [Sampler.stepNames]

theorem putSamplers_find {D : Decimals} : ∀ (ss : List Sampler) {m m' : Aux}, putSamplers D ss m = .ok m' → SortedAux m → (ss.map Sampler.name).Nodup →
    SortedAux m' ∧ (∀ s ∈ ss, ∃ l, s.namedSteps = .ok l ∧ ∀ a x, (a, x) ∈ l → findEntry (moveKey s.name a) m' = some (D.print x)) ∧
      ∀ k, (∀ s ∈ ss, ∀ a, moveKey s.name a ≠ k) → findEntry k m' = findEntry k m
  | [], m, m', h, hs, _ => by
    injection h with h
    subst h
    exact ⟨hs, by simp, fun _ _ => rfl⟩
  | s :: ss, m, m', h, hs, hn => by
    simp only [putSamplers] at h
    obtain ⟨l, h1, h⟩ := Outcome.bind_eq_ok.mp h
    rw [List.map_cons, List.nodup_cons] at hn
    obtain ⟨b1, b2, b3⟩ := putSamplers_find ss h (putSteps_sorted hs) hn.2
    refine ⟨b1, ?_, ?_⟩
    · intro s' hs'
      rcases List.mem_cons.mp hs' with rfl | hs'
      · refine ⟨l, h1, fun a x hx => ?_⟩
        rw [b3, putSteps_own s'.name_plain hs (Sampler.namedSteps_nodup h1) hx]
        intro s'' hs'' b hb
        obtain ⟨e, -⟩ := moveKey_inj s''.name_plain s'.name_plain hb
        exact hn.1 (List.mem_map.mpr ⟨s'', hs'', e⟩)
      · exact b2 s' hs'
    · intro k hk
      rw [b3 k (fun s' hs' => hk s' (List.mem_cons_of_mem _ hs')), putSteps_other hs (fun e _ => hk s List.mem_cons_self e.1)]

/-- The entries of a snapshot. -/
theorem auxOf_find {D : Decimals} {cycles : Nat} {env : Env} {m : Aux} (h : auxOf D cycles env = .ok m) (hn : (env.samplers.map Sampler.name).Nodup) :
    (∀ s ∈ env.samplers, ∃ l, s.namedSteps = .ok l ∧ ∀ a x, (a, x) ∈ l → findEntry (moveKey s.name a) m = some (D.print x)) ∧
      findEntry (moveKey "scaling" "scaling") m = match env.scaler with
        | .enabled s => some (D.print s.step)
        | _ => none := by
  unfold auxOf at h
  obtain ⟨m₁, h1, h⟩ := Outcome.bind_eq_ok.mp h
  injection h with h
  subst h
  have hs : SortedAux (setEntry "cycles".toList (natText cycles) []) := by simp [SortedAux, setEntry]
  obtain ⟨b1, b2, b3⟩ := putSamplers_find _ h1 hs hn
  have hsc : ∀ s : Sampler, ∀ a, moveKey s.name a ≠ moveKey "scaling" "scaling" := by
    intro s a e
    exact s.name_scaling (moveKey_inj s.name_plain scaling_plain e).1
  constructor
  · intro s hs
    obtain ⟨l, h2, h3⟩ := b2 s hs
    refine ⟨l, h2, fun a x hx => ?_⟩
    rw [← h3 a x hx]
    unfold putScaler
    split
    · rw [putSteps_other b1]
      intro e he
      rw [List.mem_singleton.mp he]
      exact (hsc s a).symm
    · rfl
  · unfold putScaler
    split
    · rename_i s hs
      rw [hs]
      exact putSteps_own (l := [("scaling", s.step)]) scaling_plain b1 (List.nodup_singleton _) (List.mem_singleton.mpr rfl)
    · rename_i hc
      rw [b3 _ (fun s _ a => hsc s a)]
      have : "cycles".toList ≠ moveKey "scaling" "scaling" := by decide
      rw [find_setEntry _ _ _ List.Pairwise.nil, if_neg this]
      cases hsc : env.scaler with
      | enabled s => exact absurd hsc (hc s)
      | _ => rfl

theorem stod_number {D : Decimals} {t : Text} {x : ℝ} (h : D.stod t = some x) : D.number t = .ok x := by
  unfold Decimals.number
  rw [h]

/-- One sampler. -/
theorem overwriteSampler_restored {D : Decimals} {m : Aux} {new old : Sampler} (hk : new.name = old.name) (ho : old.Storable D) (he : new.Explicit)
    {l : List (String × ℝ)} (h1 : old.namedSteps = .ok l) (h2 : ∀ a x, (a, x) ∈ l → findEntry (moveKey old.name a) m = some (D.print x)) :
    overwriteSampler D m new = .ok (new.restored old) := by
  rcases old with x | ⟨x, w, i⟩ | ⟨x, r, w, i⟩ | ⟨e, a, o, z⟩
  · rcases new with x' | _ | _ | _ <;> first | (simp [Sampler.name] at hk; done) | skip
    injection h1 with h1
    subst h1
    have h3 := h2 "rotation" x (by simp [Sampler.stepNames])
    have h3 : findEntry (moveKey "rotation" "rotation") m = some (D.print x) := h3
    simp [overwriteSampler, Sampler.namedSteps, Sampler.stepSizes, Sampler.stepNames, overwriteSteps, Sampler.name, h3, stod_number ho.2,
      Sampler.setStepSize, Outcome.require, ho.1, Sampler.restored, Outcome.ok_bind, Outcome.pure_eq]
  · rcases new with _ | x' | _ | _ <;> first | (simp [Sampler.name] at hk; done) | skip
    injection h1 with h1
    subst h1
    have h3 : findEntry (moveKey "translation" "translation") m = some (D.print x) := h2 "translation" x (by simp [Sampler.stepNames])
    simp [overwriteSampler, Sampler.namedSteps, Sampler.stepSizes, Sampler.stepNames, overwriteSteps, Sampler.name, h3, stod_number ho.2,
      Sampler.setStepSize, Outcome.require, ho.1, Sampler.restored, Outcome.ok_bind, Outcome.pure_eq]
  · rcases new with _ | _ | ⟨x', r', w', i'⟩ | _ <;> first | (simp [Sampler.name] at hk; done) | skip
    obtain ⟨hx, hx', y, rfl, hy, hy'⟩ := ho
    obtain ⟨y', rfl⟩ := Option.ne_none_iff_exists'.mp he
    injection h1 with h1
    subst h1
    have h3 : findEntry (moveKey "rototranslation" "translation") m = some (D.print x) := h2 "translation" x (by simp [Sampler.stepNames])
    have h4 : findEntry (moveKey "rototranslation" "rotation") m = some (D.print y) := h2 "rotation" y (by simp [Sampler.stepNames])
    simp [overwriteSampler, Sampler.namedSteps, Sampler.stepSizes, Sampler.stepNames, overwriteSteps, Sampler.name, h3, h4, stod_number hx', stod_number hy',
      Sampler.setStepSize, Outcome.require, hx, hy, Sampler.restored, Outcome.ok_bind, Outcome.pure_eq]
  · rcases new with _ | _ | _ | x' <;> first | (simp [Sampler.name] at hk; done) | skip
    injection h1 with h1
    subst h1
    have h3 : findEntry (moveKey "flip" "flip") m = some (D.print 0) := h2 "flip" 0 (by simp [Sampler.stepNames])
    have ho : D.stod (D.print 0) = some 0 := ho
    simp [overwriteSampler, Sampler.namedSteps, Sampler.stepSizes, Sampler.stepNames, overwriteSteps, Sampler.name, h3, stod_number ho,
      Sampler.setStepSize, Sampler.restored, Outcome.ok_bind, Outcome.pure_eq]

theorem overwriteSamplers_restored {D : Decimals} {m : Aux} : ∀ {news olds : List Sampler}, news.map Sampler.name = olds.map Sampler.name →
    (∀ s ∈ olds, s.Storable D) → (∀ s ∈ news, s.Explicit) →
    (∀ s ∈ olds, ∃ l, s.namedSteps = .ok l ∧ ∀ a x, (a, x) ∈ l → findEntry (moveKey s.name a) m = some (D.print x)) →
    overwriteSamplers D m news = .ok (List.zipWith Sampler.restored news olds)
  | [], [], _, _, _, _ => rfl
  | [], _ :: _, h, _, _, _ => by cases h
  | _ :: _, [], h, _, _, _ => by cases h
  | n :: ns, o :: os, h, h1, h2, h3 => by
    rw [List.map_cons, List.map_cons] at h
    injection h with h h'
    obtain ⟨l, h4, h5⟩ := h3 o List.mem_cons_self
    simp only [overwriteSamplers]
    rw [overwriteSampler_restored h (h1 o List.mem_cons_self) (h2 n List.mem_cons_self) h4 h5, Outcome.ok_bind,
      overwriteSamplers_restored h' (fun s hs => h1 s (List.mem_cons_of_mem _ hs)) (fun s hs => h2 s (List.mem_cons_of_mem _ hs))
        (fun s hs => h3 s (List.mem_cons_of_mem _ hs)), Outcome.ok_bind]
    rfl

/-- **C84** When a simulation with moves of different kinds is restarted from a snapshot, with the same kinds of moves, the moves and the scaling have
the step sizes which they had when the snapshot was stored, and nothing else is changed. -/
theorem C84_restored_partial {D : Decimals} {cycles : Nat} {old new : Env} {m : Aux} (h : auxOf D cycles old = .ok m)
    (hne : new.hasMoveSamplers = true) (hkinds : new.samplers.map Sampler.name = old.samplers.map Sampler.name)
    (hn : (old.samplers.map Sampler.name).Nodup) (hs : ∀ s ∈ old.samplers, s.Storable D) (hc : old.scaler.Storable D)
    (he : ∀ s ∈ new.samplers, s.Explicit) :
    overwriteMoveStepSizes D new m =
      .ok { new with samplers := List.zipWith Sampler.restored new.samplers old.samplers, scaler := new.scaler.restored old.scaler } := by
  obtain ⟨h1, h2⟩ := auxOf_find h hn
  have hc' : overwriteScaler D m new.scaler = .ok (new.scaler.restored old.scaler) := by
    unfold overwriteScaler
    split
    · rename_i s hs
      rw [hs, h2]
      cases hold : old.scaler with
      | enabled s' =>
        rw [hold] at hc
        simp [stod_number hc.2, Outcome.require, hc.1, Scaler.setStepSize, ScalerStatus.restored, Outcome.ok_bind, Outcome.pure_eq]
      | _ => rfl
    · rename_i c hc
      cases hnew : new.scaler with
      | enabled s => exact absurd hnew (hc s)
      | _ => rfl
  have hg : new.getMoveSamplers = .ok new.samplers := by
    unfold Env.getMoveSamplers
    rw [hne]
    rfl
  unfold overwriteMoveStepSizes
  rw [hg, Outcome.ok_bind, overwriteSamplers_restored hkinds hs he h1, Outcome.ok_bind, hc', Outcome.ok_bind]
  rfl

/-- The steps are those of the snapshot. -/
theorem C84_steps {new old : Sampler} (hk : new.name = old.name) : (new.restored old).stepSizes = old.stepSizes ∧ (new.restored old).name = new.name := by
  rcases old with x | ⟨x, w, i⟩ | ⟨x, r, w, i⟩ | ⟨e, a, o, z⟩ <;> rcases new with _ | _ | ⟨x', r', w', i'⟩ | _ <;>
    first
    | (simp [Sampler.name] at hk; done)
    | (cases r <;> exact ⟨rfl, rfl⟩)
    | exact ⟨rfl, rfl⟩

/-- A step after reading the metadata: it is replaced if it is there, otherwise it is left. -/
def StepRead (D : Decimals) (entry : Option Text) (old new : ℝ) : Prop := (entry = none → new = old) ∧ ∀ t, entry = some t → D.stod t = some new ∧ 0 < new

/-- The steps of a move after reading the metadata. The steps of a flip, which has none, are left out. -/
def StepsRead (D : Decimals) (m : Aux) (s s' : Sampler) : Prop :=
  s'.name = s.name ∧ (s.name ≠ "flip" → ∃ l l' : List (String × ℝ), s.namedSteps = .ok l ∧ s'.namedSteps = .ok l' ∧ l ≠ [] ∧
    List.Forall₂ (fun a b => b.1 = a.1 ∧ StepRead D (findEntry (moveKey s.name a.1) m) a.2 b.2) l l')

theorem number_stod {D : Decimals} {t : Text} {x : ℝ} (h : D.number t = .ok x) : D.stod t = some x := by
  unfold Decimals.number at h
  split at h
  · cases h
  · injection h with h; subst h; assumption

theorem overwrite_cons {D : Decimals} {m : Aux} {g k : String} {ks : List String} {s s' : Sampler} (h : overwriteSteps D m g (k :: ks) s = .ok s') :
    ∃ s₁, (findEntry (moveKey g k) m = none → s₁ = s) ∧ (∀ t, findEntry (moveKey g k) m = some t → ∃ x, D.stod t = some x ∧ s.setStepSize k x = .ok s₁) ∧
      overwriteSteps D m g ks s₁ = .ok s' := by
  simp only [overwriteSteps] at h
  split at h
  · rename_i hf
    exact ⟨s, fun _ => rfl, fun t ht => (by rw [hf] at ht; cases ht), h⟩
  · rename_i t hf
    obtain ⟨x, h1, h⟩ := Outcome.bind_eq_ok.mp h
    obtain ⟨s₁, h2, h⟩ := Outcome.bind_eq_ok.mp h
    refine ⟨s₁, fun ht => (by rw [hf] at ht; cases ht), fun t' ht => ?_, h⟩
    rw [hf] at ht
    injection ht with ht
    subst ht
    exact ⟨x, number_stod h1, h2⟩

theorem overwriteSampler_read {D : Decimals} {m : Aux} {s s' : Sampler} (h : overwriteSampler D m s = .ok s') : StepsRead D m s s' := by
  rcases s with x | ⟨x, w, i⟩ | ⟨x, r, w, i⟩ | ⟨e, a, o, z⟩
  · replace h : overwriteSteps D m "rotation" ["rotation"] (.rotation x) = .ok s' := h
    obtain ⟨s₁, h1, h2, h⟩ := overwrite_cons h
    injection h with h; subst h
    obtain ⟨y, hs, hy⟩ : ∃ y, s₁ = .rotation y ∧ StepRead D (findEntry (moveKey "rotation" "rotation") m) x y := by
      cases hf : findEntry (moveKey "rotation" "rotation") m with
      | none => exact ⟨x, h1 hf, fun _ => rfl, fun t ht => (by cases ht)⟩
      | some t =>
        obtain ⟨y, h3, h4⟩ := h2 t hf
        simp only [Sampler.setStepSize] at h4
        obtain ⟨_, h5, h4⟩ := Outcome.bind_eq_ok.mp h4
        obtain ⟨_, -, h4⟩ := Outcome.bind_eq_ok.mp h4
        injection h4 with h4
        exact ⟨y, h4.symm, fun ht => (by cases ht), fun t' ht => by injection ht with ht; subst ht; exact ⟨h3, by simpa using Outcome.require_eq_ok.mp h5⟩⟩
    subst hs
    exact ⟨rfl, fun _ => ⟨[("rotation", x)], [("rotation", y)], rfl, rfl, by simp, .cons ⟨rfl, hy⟩ .nil⟩⟩
  · replace h : overwriteSteps D m "translation" ["translation"] (.translation x w i) = .ok s' := h
    obtain ⟨s₁, h1, h2, h⟩ := overwrite_cons h
    injection h with h; subst h
    obtain ⟨y, hs, hy⟩ : ∃ y, s₁ = .translation y w i ∧ StepRead D (findEntry (moveKey "translation" "translation") m) x y := by
      cases hf : findEntry (moveKey "translation" "translation") m with
      | none => exact ⟨x, h1 hf, fun _ => rfl, fun t ht => (by cases ht)⟩
      | some t =>
        obtain ⟨y, h3, h4⟩ := h2 t hf
        simp only [Sampler.setStepSize] at h4
        obtain ⟨_, h5, h4⟩ := Outcome.bind_eq_ok.mp h4
        obtain ⟨_, -, h4⟩ := Outcome.bind_eq_ok.mp h4
        injection h4 with h4
        exact ⟨y, h4.symm, fun ht => (by cases ht), fun t' ht => by injection ht with ht; subst ht; exact ⟨h3, by simpa using Outcome.require_eq_ok.mp h5⟩⟩
    subst hs
    exact ⟨rfl, fun _ => ⟨[("translation", x)], [("translation", y)], rfl, rfl, by simp, .cons ⟨rfl, hy⟩ .nil⟩⟩
  · cases r with
    | none => cases h
    | some r =>
      replace h : overwriteSteps D m "rototranslation" ["translation", "rotation"] (.rototranslation x (some r) w i) = .ok s' := h
      obtain ⟨s₁, h1, h2, h⟩ := overwrite_cons h
      obtain ⟨s₂, h3, h4, h⟩ := overwrite_cons h
      injection h with h; subst h
      obtain ⟨y, hs, hy⟩ : ∃ y, s₁ = .rototranslation y (some r) w i ∧ StepRead D (findEntry (moveKey "rototranslation" "translation") m) x y := by
        cases hf : findEntry (moveKey "rototranslation" "translation") m with
        | none => exact ⟨x, h1 hf, fun _ => rfl, fun t ht => (by cases ht)⟩
        | some t =>
          obtain ⟨y, h5, h6⟩ := h2 t hf
          simp only [Sampler.setStepSize] at h6
          obtain ⟨_, h7, h6⟩ := Outcome.bind_eq_ok.mp h6
          rw [if_pos trivial] at h6
          injection h6 with h6
          exact ⟨y, h6.symm, fun ht => (by cases ht), fun t' ht => by injection ht with ht; subst ht; exact ⟨h5, by simpa using Outcome.require_eq_ok.mp h7⟩⟩
      subst hs
      obtain ⟨z, hs, hz⟩ : ∃ z, s₂ = .rototranslation y (some z) w i ∧ StepRead D (findEntry (moveKey "rototranslation" "rotation") m) r z := by
        cases hf : findEntry (moveKey "rototranslation" "rotation") m with
        | none => exact ⟨r, h3 hf, fun _ => rfl, fun t ht => (by cases ht)⟩
        | some t =>
          obtain ⟨z, h5, h6⟩ := h4 t hf
          simp only [Sampler.setStepSize] at h6
          obtain ⟨_, h7, h6⟩ := Outcome.bind_eq_ok.mp h6
          rw [if_neg (by decide), if_pos trivial] at h6
          injection h6 with h6
          exact ⟨z, h6.symm, fun ht => (by cases ht), fun t' ht => by injection ht with ht; subst ht; exact ⟨h5, by simpa using Outcome.require_eq_ok.mp h7⟩⟩
      subst hs
      exact ⟨rfl, fun _ => ⟨[("translation", x), ("rotation", r)], [("translation", y), ("rotation", z)], rfl, rfl, by simp, .cons ⟨rfl, hy⟩ (.cons ⟨rfl, hz⟩ .nil)⟩⟩
  · replace h : overwriteSteps D m "flip" ["flip"] (.flip e a o z) = .ok s' := h
    obtain ⟨s₁, h1, h2, h⟩ := overwrite_cons h
    injection h with h; subst h
    refine ⟨?_, fun hn => absurd rfl hn⟩
    cases hf : findEntry (moveKey "flip" "flip") m with
    | none => rw [h1 hf]
    | some t =>
      obtain ⟨y, -, h4⟩ := h2 t hf
      injection h4 with h4
      rw [← h4]

theorem overwriteSamplers_read {D : Decimals} {m : Aux} : ∀ {ss ss' : List Sampler}, overwriteSamplers D m ss = .ok ss' → List.Forall₂ (StepsRead D m) ss ss'
  | [], ss', h => by injection h with h; subst h; exact .nil
  | s :: ss, ss', h => by
    simp only [overwriteSamplers] at h
    obtain ⟨s', h1, h⟩ := Outcome.bind_eq_ok.mp h
    obtain ⟨ss'', h2, h⟩ := Outcome.bind_eq_ok.mp h
    injection h with h
    subst h
    exact .cons (overwriteSampler_read h1) (overwriteSamplers_read h2)

/-- Reading one step of a move with two of them. -/
example {D : Decimals} {t : Text} (ht : D.stod t = some 2) : overwriteMoveStepSizes D ⟨none, none, [.rototranslation 1 (some 3) 0 true], .unset⟩
    [(moveKey "rototranslation" "rotation", t)] = .ok ⟨none, none, [.rototranslation 1 (some 2) 0 true], .unset⟩ := by
  have h1 : findEntry (moveKey "rototranslation" "translation") [(moveKey "rototranslation" "rotation", t)] = none := by
    unfold findEntry; rfl
  have h2 : findEntry (moveKey "rototranslation" "rotation") [(moveKey "rototranslation" "rotation", t)] = some t := by
    unfold findEntry; rfl
  simp [overwriteMoveStepSizes, Env.getMoveSamplers, Env.hasMoveSamplers, overwriteSamplers, overwriteSampler, Sampler.namedSteps, Sampler.stepSizes,
    Sampler.stepNames, overwriteSteps, Sampler.name, h1, h2, stod_number ht, Sampler.setStepSize, Outcome.require, overwriteScaler, Outcome.ok_bind, Outcome.pure_eq]

/-- **C84** Whatever the metadata are, when they can be read each step which is stored there is used and each other one stays as it was in the input. -/
theorem C84_each {D : Decimals} {m : Aux} {env env' : Env} (h : overwriteMoveStepSizes D env m = .ok env') :
    List.Forall₂ (StepsRead D m) env.samplers env'.samplers ∧ env'.temperature = env.temperature ∧ env'.pressure = env.pressure := by
  unfold overwriteMoveStepSizes Env.getMoveSamplers at h
  obtain ⟨ss, h1, h⟩ := Outcome.bind_eq_ok.mp h
  obtain ⟨ss', h2, h⟩ := Outcome.bind_eq_ok.mp h
  obtain ⟨c, -, h⟩ := Outcome.bind_eq_ok.mp h
  injection h with h
  subst h
  obtain ⟨_, -, h1⟩ := Outcome.bind_eq_ok.mp h1
  injection h1 with h1
  subst h1
  exact ⟨overwriteSamplers_read h2, rfl, rfl⟩

/-- Numbers 0, 1 and 2. -/
noncomputable def fewDecimals : Decimals :=
  ⟨fun x => if x = 0 then ['0'] else if x = 1 then ['1'] else ['2'], fun t => if t = ['0'] then some 0 else if t = ['1'] then some 1 else some 2⟩

theorem fewDecimals_read : fewDecimals.stod (fewDecimals.print 0) = some 0 ∧ fewDecimals.stod (fewDecimals.print 1) = some 1 ∧
    fewDecimals.stod (fewDecimals.print 2) = some 2 := by
  refine ⟨?_, ?_, ?_⟩ <;> simp [fewDecimals]

/-- Four kinds of moves and scaling. -/
example : ∃ m, auxOf fewDecimals 100 ⟨none, none, [.translation 2 3 false, .rotation 1, .rototranslation 2 (some 1) 3 false, .flip 10 0 0 true],
      .enabled ⟨.adapter .delta, 2⟩⟩ = .ok m ∧
    overwriteMoveStepSizes fewDecimals ⟨none, none, [.translation 5 6 true, .rotation 5, .rototranslation 5 (some 5) 6 true, .flip 10 0 0 false],
        .enabled ⟨.adapter .delta, 5⟩⟩ m =
      .ok ⟨none, none, [.translation 2 6 true, .rotation 1, .rototranslation 2 (some 1) 6 true, .flip 10 0 0 false], .enabled ⟨.adapter .delta, 2⟩⟩ := by
  obtain ⟨h0, h1, h2⟩ := fewDecimals_read
  refine ⟨_, rfl, C84_restored_partial (cycles := 100) (old := ⟨none, none, [.translation 2 3 false, .rotation 1, .rototranslation 2 (some 1) 3 false, .flip 10 0 0 true],
      .enabled ⟨.adapter .delta, 2⟩⟩) rfl rfl rfl (by simp [Sampler.name]) ?_ ⟨two_pos, h2⟩ ?_⟩
  · simp only [List.forall_mem_cons, List.not_mem_nil, false_imp_iff, implies_true, and_true]
    exact ⟨⟨two_pos, h2⟩, ⟨one_pos, h1⟩, ⟨two_pos, h2, 1, rfl, one_pos, h1⟩, h0⟩
  · simp [Sampler.Explicit]

/-! ### What is not restored -/

/-- **C84** With a rototranslation move as in `rototranslation(0.1)`, of which the rotation step is to be found from the shape, restarting has undefined behaviour:
the step, which is not there yet, is read before it is overwritten. -/
theorem C84_auto_violated : ∃ n s, Input.Spec.IsSampler n s ∧ n = .dataclass "rototranslation".toList [.float (1 / 10)] [] ∧
    ∀ D m (e : Env) ss, e.samplers = s :: ss → overwriteMoveStepSizes D e m = .ub := by
  refine ⟨.dataclass "rototranslation".toList [.float (1 / 10)] [], .rototranslation (1 / 10) none 0 (decide ((0 : ℝ) = 0)),
    .rototranslation (Input.call_positional (ps := [.float (1 / 10)]) (ds := [.string "auto".toList, .none]) rfl rfl) ⟨.inl rfl, by norm_num⟩ ?_ ?_, rfl, ?_⟩
  · exact .inl ⟨rfl, rfl⟩
  · exact .inl ⟨rfl, rfl⟩
  · intro D m e ss h
    unfold overwriteMoveStepSizes Env.getMoveSamplers Env.hasMoveSamplers
    rw [h]
    rfl

/-- **C84** Two moves of the same kind have the same keys in snapshots: after restarting both have the step size of the last one. -/
theorem C84_twice_violated {D : Decimals} (h2 : D.stod (D.print 2) = some 2) (T P : Option Param) (c : ScalerStatus) (hc : c.Storable D) (cycles : Nat) :
    ∃ m, auxOf D cycles ⟨T, P, [.rotation 1, .rotation 2], c⟩ = .ok m ∧
      overwriteMoveStepSizes D ⟨T, P, [.rotation 1, .rotation 2], c⟩ m = .ok ⟨T, P, [.rotation 2, .rotation 2], c⟩ := by
  have e1 : auxOf D cycles ⟨T, P, [.rotation 1, .rotation 2], c⟩ = auxOf D cycles ⟨T, P, [.rotation 2], c⟩ := by
    have : ∀ m : Aux, setEntry (moveKey "rotation" "rotation") (D.print 2) (setEntry (moveKey "rotation" "rotation") (D.print 1) m) =
        setEntry (moveKey "rotation" "rotation") (D.print 2) m := by
      intro m
      induction m with
      | nil => simp [setEntry]
      | cons e m ih =>
        obtain ⟨k, v⟩ := e
        simp only [setEntry]
        split_ifs with a1 a2
        · simp [setEntry]
        · subst a2
          simp [setEntry]
        · simp only [setEntry, if_neg a1, if_neg a2, ih]
    simp [auxOf, putSamplers, Sampler.namedSteps, Sampler.stepSizes, Sampler.stepNames, Outcome.ok_bind, Outcome.pure_eq, putSteps, Sampler.name, this]
  refine ⟨putScaler D c (putSteps D "rotation" [("rotation", 2)] (setEntry "cycles".toList (natText cycles) [])), e1, ?_⟩
  have h1 := C84_restored_partial (D := D) (cycles := cycles) (old := ⟨T, P, [.rotation 2], c⟩) (new := ⟨T, P, [.rotation 1], c⟩)
    (m := putScaler D c (putSteps D "rotation" [("rotation", 2)] (setEntry "cycles".toList (natText cycles) []))) rfl rfl rfl (by simp)
    (by simpa [Sampler.Storable] using h2) hc (by simp [Sampler.Explicit])
  have h3 := C84_restored_partial (D := D) (cycles := cycles) (old := ⟨T, P, [.rotation 2], c⟩) (new := ⟨T, P, [.rotation 2], c⟩)
    (m := putScaler D c (putSteps D "rotation" [("rotation", 2)] (setEntry "cycles".toList (natText cycles) []))) rfl rfl rfl (by simp)
    (by simpa [Sampler.Storable] using h2) hc (by simp [Sampler.Explicit])
  generalize putScaler D c _ = m at h1 h3 ⊢
  have hc' : c.restored c = c := by cases c <;> rfl
  unfold overwriteMoveStepSizes at h1 h3 ⊢
  obtain ⟨ss, a1, b1⟩ := Outcome.bind_eq_ok.mp h1
  obtain ⟨ss', a2, b2⟩ := Outcome.bind_eq_ok.mp b1
  obtain ⟨c', a3, b3⟩ := Outcome.bind_eq_ok.mp b2
  injection a1 with a1
  subst a1
  injection b3 with b3
  injection b3 with _ _ b3 b4
  subst b3 b4
  obtain ⟨ss, a4, d1⟩ := Outcome.bind_eq_ok.mp h3
  obtain ⟨ss', a5, d2⟩ := Outcome.bind_eq_ok.mp d1
  obtain ⟨c', a6, d3⟩ := Outcome.bind_eq_ok.mp d2
  injection a4 with a4
  subst a4
  injection d3 with d3
  injection d3 with _ _ d3 d4
  subst d3 d4
  simp only [overwriteSamplers] at a2 a5
  obtain ⟨s, f1, f2⟩ := Outcome.bind_eq_ok.mp a2
  obtain ⟨s', f3, f4⟩ := Outcome.bind_eq_ok.mp a5
  injection f2 with f2
  injection f2 with f2
  injection f4 with f4
  injection f4 with f4
  subst f2 f4
  have hg : Env.getMoveSamplers ⟨T, P, [.rotation 1, .rotation 2], c⟩ = .ok [.rotation 1, .rotation 2] := rfl
  rw [hg, Outcome.ok_bind]
  simp only [overwriteSamplers]
  rw [f1, Outcome.ok_bind, f3, Outcome.ok_bind, a3, hc']
  rfl

example : fewDecimals.stod (fewDecimals.print 2) = some 2 ∧ (ScalerStatus.disabled).Storable fewDecimals := ⟨fewDecimals_read.2.2, trivial⟩

end Rampack
